import Verif.Cpu.Ops
/-
Assemblers with the Intel plugins: how they read what is printed in Intel notation.
-/
namespace Libasm.Cpu
open Scan Number Number.Spec Eval Ctype

/-- Number, operator, letter and comment parser of Intel, and a symbol parser. -/
def intelLexer (sym : Bool → Char → Bool) : Lexer where
  number := .intel
  operators := .intel
  letter := defaultLetter
  location := locationSymbol sym '$'
  symbolLetter := sym
  functionLetter := sym false
  endOfLine := semicolonEnd

theorem intel_pairs (o : Opts) : Pairs .intel .intel o :=
  ⟨by decide, by decide, fun _ => Or.inr (Or.inr (by decide))⟩

/-- No word operator starts with one of these letters. -/
theorem word_none_of {table : List (List Char × Op)} {cs : List Char}
    (h : ∀ c ∈ cs, ∀ e ∈ table, e.1 ≠ [] ∧ toUpper c ≠ toUpper (e.1.headD 'x')) {c : Char} (hc : c ∈ cs)
    (s : List Char) : word table (c :: s) = none := by
  apply word_none
  intro e he
  refine ⟨(h c hc e he).1, fun d hd => ?_⟩
  have := (h c hc e he).2
  rw [List.headD_eq_head?_getD, hd] at this
  exact this

theorem intel_prefix_none {c : Char} (hc : c ∈ firsts .intel) (s : List Char) :
    intelPrefix (c :: s) = none := by
  have hw := word_none_of (table := intelPrefixWords) (cs := firsts .intel) (by decide) hc s
  have h2 : expect '-' (c :: s) = none ∧ expect '+' (c :: s) = none ∧ cPrefix (c :: s) = none := by
    simp only [firsts, leads, List.map, List.append_nil, List.mem_cons, List.not_mem_nil,
      or_false] at hc
    rcases hc with h | h | h | h | h | h | h | h | h | h <;> subst h <;> exact ⟨rfl, rfl, rfl⟩
  unfold intelPrefix
  rw [h2.1, h2.2.1]
  dsimp only
  rw [hw]
  exact h2.2.2

theorem intel_lexOk (sym : Bool → Char → Bool) : LexOk (intelLexer sym) .intel := by
  apply lexOk_of
  intro c hc s
  refine ⟨?_, ?_, ?_⟩
  · simp only [firsts, leads, List.map, List.append_nil, List.mem_cons, List.not_mem_nil,
      or_false] at hc
    rcases hc with h | h | h | h | h | h | h | h | h | h <;> subst h <;> rfl
  · simp only [firsts, leads, List.map, List.append_nil, List.mem_cons, List.not_mem_nil,
      or_false] at hc
    rcases hc with h | h | h | h | h | h | h | h | h | h <;> subst h <;> rfl
  · intro st r
    have := intel_prefix_none hc s
    show Eval.pure intelPrefix (c :: s) st r = _
    unfold Eval.pure
    rw [this]

theorem intel_infix {c : Char} (hc : c ∈ seps) (s : List Char) : intelInfix (c :: s) = cInfix (c :: s) := by
  unfold intelInfix
  rw [word_none_of (table := intelInfixWords) (cs := seps) (by decide) hc s]

theorem intel_ops (sym : Bool → Char → Bool) (E : Env) {delim : Char} (hd : delim ≠ '-' ∧ delim ≠ '+')
    (loc : Nat) : Ops ((intelLexer sym).plugins E delim loc) := by
  refine ⟨rfl, ⟨intelUnaryMinus, rfl, rfl, rfl, fun _ _ _ => rfl⟩, fun _ => rfl, fun _ => rfl, ?_, ?_, hd⟩
  · intro c rest _
    show intelInfix ('+' :: c :: rest) = _
    rw [intel_infix (by decide)]
    rfl
  · intro rest
    show intelInfix ('-' :: rest) = _
    rw [intel_infix (by decide)]
    rfl

theorem intel_stop_nil (sym : Bool → Char → Bool) (E : Env) (delim : Char) (loc : Nat) :
    Stop ((intelLexer sym).plugins E delim loc) [] :=
  ⟨rfl, Or.inl rfl⟩

theorem intel_stop_comma (sym : Bool → Char → Bool) (E : Env) (delim : Char) (loc : Nat) (s : List Char) :
    Stop ((intelLexer sym).plugins E delim loc) (',' :: s) := by
  refine ⟨rfl, Or.inr (Or.inr ⟨?_, Or.inr rfl⟩)⟩
  show intelInfix (',' :: s) = none
  rw [intel_infix (by decide)]
  rfl

theorem AfterOp.stop {sym : Bool → Char → Bool} {E : Env} {delim : Char} {loc : Nat} {rest : List Char}
    (h : AfterOp rest) : Sep rest ∧ Stop ((intelLexer sym).plugins E delim loc) rest := by
  rcases h with rfl | ⟨s, rfl⟩
  · exact ⟨Sep.nil, intel_stop_nil ..⟩
  · exact ⟨Sep.cons (by decide) _, intel_stop_comma ..⟩

theorem intel_stop_delim (sym : Bool → Char → Bool) (E : Env) {delim : Char} (loc : Nat) (s : List Char)
    (h : Ctype.isSpace delim = false) : Stop ((intelLexer sym).plugins E delim loc) (delim :: s) := by
  refine ⟨?_, Or.inr (Or.inl rfl)⟩
  unfold skipSpaces trimStart
  rw [List.dropWhile_cons, h]
  rfl

theorem intel_location {sym : Bool → Char → Bool} (hs0 : sym false '\x00' = false)
    (hs : ∀ d ∈ seps, sym false d = false)
    (E : Env) (delim : Char) {loc : Nat} (hl : loc < 2 ^ 32) :
    Const ((intelLexer sym).plugins E delim loc) ['$'] ⟨loc, .unsigned⟩ := by
  apply const_loc
  · rfl
  · intro s hsep
    refine ⟨rfl, rfl, ?_⟩
    have h1 : sym false (deref s) = false := by
      cases s with
      | nil => exact hs0
      | cons d t => exact hs d (hsep d rfl)
    have e : locationSymbol sym '$' ('$' :: s) = if sym false (deref s) then none else some s := rfl
    show locationSymbol sym '$' ('$' :: s) = some s
    rw [e, h1]
    rfl
  · exact fun _ => rfl
  · exact fun _ => rfl
  · intro s st r
    show Eval.pure intelPrefix ('$' :: s) st r = _
    have hw := word_none_of (table := intelPrefixWords) (cs := ['$']) (by decide) (List.mem_cons_self ..) s
    have : intelPrefix ('$' :: s) = none := by
      unfold intelPrefix
      rw [show expect '-' ('$' :: s) = none from rfl, show expect '+' ('$' :: s) = none from rfl]
      dsimp only
      rw [hw]
      rfl
    unfold Eval.pure
    rw [this]
  · exact hl

/-- A target of a branch, as it is printed with or without the option `relative`. -/
theorem intel_rel {sym : Bool → Char → Bool} (hs0 : sym false '\x00' = false)
    (hs : ∀ d ∈ seps, sym false d = false) {E : Env} {o : Opts}
    (hsym : o.relative = true → o.curSym = '$') {delim : Char} (hdel : delim ∉ '-' :: '+' :: firsts .intel)
    {addr tgt width bits : Nat} (hw : width ≤ 31) (hw0 : 1 ≤ width) (ha : addr < 2 ^ width)
    (ht : tgt < 2 ^ width) (hb : bits ≤ 32) (hb0 : 1 ≤ bits)
    (hd : ((tgt : Int) - addr).natAbs < 2 ^ bits) {rest : List Char} (hr : Sep rest)
    (hst : Stop ((intelLexer sym).plugins E delim addr) rest) :
    parseInteger ((intelLexer sym).plugins E delim addr) (outRelAddr .intel o width tgt addr bits ++ rest) .OK =
      .ok (⟨tgt, .unsigned⟩, .OK, rest) ∧
    ∃ c s, outRelAddr .intel o width tgt addr bits = c :: s ∧ c ∈ '$' :: firsts .intel := by
  have hs' : o.relative = true → letter o.upper o.curSym = '$' := by
    intro h
    rw [hsym h]
    cases o.upper <;> rfl
  have h32 : addr < 2 ^ 32 := Nat.lt_of_lt_of_le ha (Nat.pow_le_pow_right (by decide) (by omega))
  have key := rel_reads (E := E) (delim := delim) (rest := rest) (intel_lexOk sym) (intel_pairs o)
    (intel_ops sym E ⟨fun h => hdel (h ▸ List.mem_cons_self ..),
      fun h => hdel (h ▸ List.mem_cons_of_mem _ (List.mem_cons_self ..))⟩ addr)
    (by
      intro c hc h
      have h : c = delim := h
      exact hdel (h ▸ List.mem_cons_of_mem _ (List.mem_cons_of_mem _ hc)))
    (by intro h; rw [hs' h]; exact intel_location hs0 hs E delim h32) hw hw0 ha ht hb hb0 hd hr hst
  refine ⟨key.1, ?_⟩
  obtain ⟨c, s, h1, h2⟩ := key.2
  refine ⟨c, s, h1, ?_⟩
  rcases h2 with h2 | ⟨h2, h3⟩
  · exact List.mem_cons_of_mem _ h2
  · rw [h3, hs' h2]
    exact List.mem_cons_self ..

end Libasm.Cpu
