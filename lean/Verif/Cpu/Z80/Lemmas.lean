import Verif.Cpu.Intel
import Verif.Cpu.Z80.Model
/-
How the Z80 assembler reads numbers, registers and index expressions as its disassembler prints them.
-/
namespace Libasm.Cpu

/-- A number after a plus sign. -/
theorem eval_pos {P : Eval.Plugins Value} {t rest : List Char} {v : Nat} {o : Eval.Op}
    (ho : o.kind = .un Eval.unaryPlus ∧ o.nargs = 1 ∧ o.isOpenParen = false ∧
      ∀ rest st r, P.ops.readPrefix ('+' :: rest) st r = .ok (some o, rest, st, r)) (hP : Ops P)
    (h : Const P t ⟨v, .unsigned⟩) (hrest : Sep rest) (hstop : Stop P rest) :
    parseInteger P ('+' :: (t ++ rest)) .OK = .ok (⟨v, .unsigned⟩, .OK, rest) := by
  have hl := len_pos h.ne
  obtain ⟨hk, hna, hop, hm⟩ := ho
  refine eval_of (spaces_sign (Or.inr rfl) _) (k := [.prefix, .operand]) ?_
    (by rw [List.length_cons, List.length_append]; omega)
  show (Eval.step P _).bind _ = _
  have h1 : ∀ x : Eval.St Value, x.scan = '+' :: (t ++ rest) → x.vst = [] → x.ost = [] →
      x.maybePrefix = true → x.err = .OK → Eval.step P x = .ok (.cont
      { x with scan := t ++ rest, ost := [o], maybePrefix := true,
               trace := .prefix :: x.trace }) := by
    intro x hx1 hx2 hx3 hx4 hx5
    unfold Eval.step
    rw [hx1, spaces_sign (Or.inr rfl)]
    dsimp only
    rw [if_neg (by rw [hP.plusEol]; simp), if_neg (by simp [hx2]), if_pos hx4, hm,
      Out.ok_bind]
    have : Eval.hasError x.err = false := by rw [hx5]; rfl
    simp only [this, Bool.false_eq_true, if_false]
    unfold Eval.stepOperator
    dsimp only
    rw [hx3]
    unfold Eval.reduceInfix
    rw [Out.ok_bind]
    dsimp only
    rw [if_neg (by decide), if_pos hx4]
  rw [h1 _ rfl rfl rfl rfl rfl, Out.ok_bind]
  dsimp only
  obtain ⟨n, hn⟩ : ∃ n, ('+' :: (t ++ rest)).length = n + 2 :=
    ⟨('+' :: (t ++ rest)).length - 2, by rw [List.length_cons, List.length_append]; omega⟩
  rw [hn]
  show (Eval.step P _).bind _ = _
  rw [step_const h hrest _ rfl rfl (Or.inl rfl) rfl (by simp [Eval.start]) rfl, Out.ok_bind]
  dsimp only
  rw [loop_stop hstop _ _ rfl (by simp) rfl rfl rfl rfl rfl (by omega)]
  unfold Eval.finish Eval.reduceAll
  dsimp only [Eval.start]
  rw [hop, if_neg (by decide)]
  unfold Eval.evalOp Eval.Operator.eval
  have h2 : Eval.unaryPlus (⟨v, .unsigned⟩ : Value) = .ok (.ok ⟨v, .unsigned⟩) := rfl
  rw [hk]
  dsimp only
  simp only [List.length_cons, List.length_nil]
  rw [hna, if_pos (by decide)]
  simp only [Eval.pop]
  rw [h2]
  rfl

end Libasm.Cpu

namespace Libasm.Cpu.Z80
open Scan Number Number.Spec Eval Ctype Table.Spec
open Table (isNameLetter)
open Tables (Row)

/-- The parsers at an address. -/
abbrev plug (E : Env) (delim : Char) (addr : Nat) : Plugins Value := lexer.plugins E delim addr

/-! ### The plugins -/

theorem prefix_none {c : Char} (hc : c ∈ '$' :: firsts .intel) (s : List Char) :
    Eval.zilogPrefix (c :: s) = none := by
  have hw := word_none_of (table := zilogPrefixWords) (cs := '$' :: firsts .intel) (by decide) hc s
  have h2 : cPrefix (c :: s) = none := by
    simp only [firsts, leads, List.map, List.append_nil, List.mem_cons, List.not_mem_nil,
      or_false] at hc
    rcases hc with h | h | h | h | h | h | h | h | h | h | h <;> subst h <;> rfl
  unfold Eval.zilogPrefix
  rw [hw]
  exact h2

theorem lexOk : LexOk lexer .intel := by
  apply lexOk_of
  intro c hc s
  refine ⟨?_, ?_, ?_⟩
  · simp only [firsts, leads, List.map, List.append_nil, List.mem_cons, List.not_mem_nil,
      or_false] at hc
    rcases hc with h | h | h | h | h | h | h | h | h | h <;> subst h <;> rfl
  · simp only [firsts, leads, List.map, List.append_nil, List.mem_cons, List.not_mem_nil,
      or_false] at hc
    rcases hc with h | h | h | h | h | h | h | h | h | h <;> subst h <;> rfl
  · intro st r
    have := prefix_none (List.mem_cons_of_mem _ hc) s
    show Eval.pure Eval.zilogPrefix (c :: s) st r = _
    unfold Eval.pure
    rw [this]

theorem infix_c {c : Char} (hc : c ∈ seps) (s : List Char) : zilogInfix (c :: s) = cInfix (c :: s) := by
  unfold zilogInfix
  rw [word_none_of (table := zilogInfixWords) (cs := seps) (by decide) hc s]

theorem prefix_sign {c : Char} (hc : c = '-' ∨ c = '+') (s : List Char) :
    Eval.zilogPrefix (c :: s) = cPrefix (c :: s) := by
  unfold Eval.zilogPrefix
  rw [word_none_of (table := zilogPrefixWords) (cs := ['-', '+']) (by decide) (by rcases hc with rfl | rfl <;> simp) s]

theorem ops (E : Env) {delim : Char} (hd : delim ≠ '-' ∧ delim ≠ '+') (loc : Nat) : Ops (plug E delim loc) := by
  refine ⟨rfl, ⟨opUnaryMinus, rfl, rfl, rfl, fun rest st r => ?_⟩, fun _ => rfl, fun _ => rfl, ?_, ?_, hd⟩
  · show Eval.pure Eval.zilogPrefix ('-' :: rest) st r = _
    unfold Eval.pure
    rw [prefix_sign (Or.inl rfl)]
    rfl
  · intro c rest _
    show zilogInfix ('+' :: c :: rest) = _
    rw [infix_c (by decide)]
    rfl
  · intro rest
    show zilogInfix ('-' :: rest) = _
    rw [infix_c (by decide)]
    rfl

theorem plus (E : Env) (delim : Char) (loc : Nat) (rest : List Char) (st : List Value) (r : Radix) :
    (plug E delim loc).ops.readPrefix ('+' :: rest) st r = .ok (some opUnaryPlus, rest, st, r) := by
  show Eval.pure Eval.zilogPrefix ('+' :: rest) st r = _
  unfold Eval.pure
  rw [prefix_sign (Or.inr rfl)]
  rfl

theorem stop_nil (E : Env) (delim : Char) (loc : Nat) : Stop (plug E delim loc) [] := ⟨rfl, Or.inl rfl⟩

theorem stop_comma (E : Env) (delim : Char) (loc : Nat) (s : List Char) : Stop (plug E delim loc) (',' :: s) := by
  refine ⟨rfl, Or.inr (Or.inr ⟨?_, Or.inr rfl⟩)⟩
  show zilogInfix (',' :: s) = none
  rw [infix_c (by decide)]
  rfl

theorem stop_close (E : Env) (loc : Nat) (s : List Char) : Stop (plug E ')' loc) (')' :: s) :=
  ⟨rfl, Or.inr (Or.inl rfl)⟩

theorem after {E : Env} {delim : Char} {loc : Nat} {rest : List Char} (h : AfterOp rest) :
    Sep rest ∧ Stop (plug E delim loc) rest := by
  rcases h with rfl | ⟨s, rfl⟩
  · exact ⟨Sep.nil, stop_nil ..⟩
  · exact ⟨Sep.cons (by decide) _, stop_comma ..⟩

theorem location (E : Env) (delim : Char) {loc : Nat} (hl : loc < 2 ^ 32) :
    Const (plug E delim loc) ['$'] ⟨loc, .unsigned⟩ := by
  apply const_loc
  · rfl
  · intro s hsep
    refine ⟨rfl, rfl, ?_⟩
    have h1 : prefixSymbol none (some ['_', '?']) false (deref s) = false := by
      cases s with
      | nil => rfl
      | cons d t => exact (by decide : ∀ d ∈ seps, prefixSymbol none (some ['_', '?']) false d = false) d (hsep d rfl)
    have e : locationSymbol (prefixSymbol none (some ['_', '?'])) '$' ('$' :: s) =
        if prefixSymbol none (some ['_', '?']) false (deref s) then none else some s := rfl
    show locationSymbol (prefixSymbol none (some ['_', '?'])) '$' ('$' :: s) = some s
    rw [e, h1]
    rfl
  · exact fun _ => rfl
  · exact fun _ => rfl
  · intro s st r
    show Eval.pure Eval.zilogPrefix ('$' :: s) st r = _
    unfold Eval.pure
    rw [prefix_none (List.mem_cons_self ..)]
  · exact hl

/-- A target of a branch, as it is printed with or without the option `relative`. -/
theorem rel_text {E : Env} {o : Opts} (hsym : o.relative = true → o.curSym = '$') {addr tgt : Nat}
    (ha : addr < 2 ^ 16) (ht : tgt < 2 ^ 16) (hd : ((tgt : Int) - addr).natAbs < 2 ^ 8) {rest : List Char}
    (hr : AfterOp rest) :
    parseInteger (plug E '\x00' addr) (outRelAddr .intel o 16 tgt addr 8 ++ rest) .OK =
      .ok (⟨tgt, .unsigned⟩, .OK, rest) ∧
    ∃ c s, outRelAddr .intel o 16 tgt addr 8 = c :: s ∧ c ∈ '$' :: firsts .intel := by
  have hs' : o.relative = true → letter o.upper o.curSym = '$' := by
    intro h
    rw [hsym h]
    cases o.upper <;> rfl
  obtain ⟨h1, h2⟩ := after (E := E) (delim := '\x00') (loc := addr) hr
  have key := rel_reads (E := E) (delim := '\x00') (rest := rest) lexOk (intel_pairs o)
    (ops E (by decide) addr)
    (by
      intro c hc h
      have h : c = '\x00' := h
      subst h
      exact absurd hc (by decide))
    (by intro h; rw [hs' h]; exact location E _ (by omega)) (width := 16) (by decide) (by decide) ha ht
    (bits := 8) (by decide) (by decide) hd h1 h2
  refine ⟨key.1, ?_⟩
  obtain ⟨c, s, h1, h2⟩ := key.2
  refine ⟨c, s, h1, ?_⟩
  rcases h2 with h2 | ⟨h2, h3⟩
  · exact List.mem_cons_of_mem _ h2
  · rw [h3, hs' h2]
    exact List.mem_cons_self ..

theorem meant_offset {b : Nat} (hb : b < 256) : meant (Config.uint32 (int8 b)) (-8) = int8 b := by
  exact (by decide +kernel : ∀ b < 256, meant (Config.uint32 (int8 b)) (-8) = int8 b) b hb

theorem uint32_small (x : Int) : Config.uint32 x < 2 ^ 32 := by
  unfold Config.uint32 Config.W
  omega

/-- An offset, as it is printed. -/
theorem offset_reads {E : Env} {o : Opts} {addr b : Nat} (hb : b < 256) (rest : List Char) :
    parseInteger (plug E ')' addr) (outIndexOffset o b ++ ')' :: rest) .OK =
      .ok (Value.setS (int8 b), .OK, ')' :: rest) := by
  have hsep : Sep (')' :: rest) := Sep.cons (by decide) _
  have ht := outDec_text (intel_pairs o) (Config.uint32 (int8 b)) (-8) (uint32_small _) (by decide) (by decide)
  rw [meant_offset hb] at ht
  unfold outIndexOffset
  by_cases h : b < 128
  · rw [if_pos h]
    obtain ⟨u, h1, h2⟩ := ht.ex
    have hi : ¬ int8 b < 0 := by unfold int8; rw [if_pos h]; omega
    rw [if_neg hi] at h1
    rw [h1]
    have := eval_pos (rest := ')' :: rest) (P := plug E ')' addr) (o := opUnaryPlus)
      ⟨rfl, rfl, rfl, fun rest st r => plus E ')' addr rest st r⟩ (ops E (by decide) addr)
      (const_of lexOk h2 E ')' addr) hsep (stop_close E addr rest)
    rw [show (⟨(int8 b).natAbs, .unsigned⟩ : Value) = Value.setS (int8 b) by
      unfold Value.setS
      rw [if_pos (by omega), show (int8 b).natAbs = (int8 b).toNat by omega]] at this
    exact this
  · rw [if_neg h]
    exact eval_signed lexOk (ops E (by decide) addr) ht hsep (stop_close E addr rest)

theorem offset_sign {o : Opts} {b : Nat} (hb : b < 256) : ∃ c s, outIndexOffset o b = c :: s ∧ (c = '+' ∨ c = '-') := by
  unfold outIndexOffset
  by_cases h : b < 128
  · rw [if_pos h]
    exact ⟨'+', _, rfl, Or.inl rfl⟩
  · have ht := outDec_text (intel_pairs o) (Config.uint32 (int8 b)) (-8) (uint32_small _) (by decide) (by decide)
    rw [meant_offset hb] at ht
    obtain ⟨u, h1, h2⟩ := ht.ex
    have hi : int8 b < 0 := by unfold int8; rw [if_neg h]; omega
    rw [if_pos hi] at h1
    rw [if_neg h, h1]
    exact ⟨'-', _, rfl, Or.inr rfl⟩

/-! ### Words -/

theorem regsOk : RegsOk regs := by decide
theorem ccsOk : RegsOk ccs := by decide
theorem regsNo : NoNumbers .intel regs := by decide
theorem ccsNo : NoNumbers .intel ccs := by decide

/-- The entry of the table with this name. -/
def look {α : Type} (table : List (List Char × α)) (t : List Char) : Option α :=
  (table.find? fun e => decide (Same e.1 t)).map (·.2)

theorem search_word {α : Type} {table : List (List Char × α)} (h : RegsOk table) {t rest : List Char}
    (ht : t ≠ [] ∧ ∀ c ∈ t, isNameLetter c = true) (hr : Sep rest) :
    searchText table (t ++ rest) = .ok ((look table t).map fun a => (a, rest)) := by
  obtain ⟨h1, h2⟩ := takeWhile_sep ht.2 (sep_name hr)
  rw [searchText_eq h, h1, h2, if_neg ht.1]
  unfold look
  cases table.find? fun e => decide (Same e.1 t) <;> rfl

/-- What the assembler makes of a name, of a name between parentheses. -/
def wordOperand (paren : Bool) (t : List Char) : Option Operand :=
  if paren then
    (look regs t).bind fun r => (indirectMode r).map fun m => { mode := m, reg := some r }
  else if look regs t = some .C then
    some { mode := .R .C, reg := some .C, val := Value.setUnsigned Cc.C.num }
  else
    match look ccs t with
    | some cc => some { mode := if isCc4Name cc then .CC4 else .CC8, val := Value.setUnsigned cc.num }
    | none => (look regs t).map fun r => { mode := registerMode r, reg := some r }

theorem name_head {t rest : List Char} (ht : t ≠ [] ∧ ∀ c ∈ t, isNameLetter c = true) :
    skipSpaces (t ++ rest) = t ++ rest ∧ semicolonEnd (t ++ rest) = false := by
  obtain ⟨c, s, rfl⟩ := List.exists_cons_of_ne_nil ht.1
  have hc := ht.2 c (List.mem_cons_self ..)
  have ha : c.toNat < 128 := by
    simp only [isNameLetter, Ctype.isAlnum, Ctype.isAlpha, Ctype.isUpper, Ctype.isLower,
      Ctype.isDigit, Bool.or_eq_true, Bool.and_eq_true, decide_eq_true_eq, beq_iff_eq] at hc
    rcases hc with h | h
    · omega
    · subst h; decide
  have := Ctype.ascii (p := fun c => isNameLetter c = true → Ctype.isSpace c = false ∧ c ≠ ';' ∧
    c ≠ '\x00') (by decide +kernel) c ha hc
  obtain ⟨h1, h2, h3⟩ := this
  refine ⟨?_, ?_⟩
  · unfold skipSpaces trimStart
    rw [List.cons_append, List.dropWhile_cons, h1]
    rfl
  · show (c == '\x00' || c == ';') = false
    simp [h2, h3]

section
variable {E : Env} {loc : Nat}

theorem word_reads {t rest : List Char} {op : Operand}
    (ht : t ≠ [] ∧ ∀ c ∈ t, isNameLetter c = true) (hr : Sep rest)
    (h : wordOperand false t = some op) :
    parseOperand (fun delim => plug E delim loc) (t ++ rest) = .ok (.ok (op, rest)) := by
  obtain ⟨n1, n2⟩ := name_head (rest := rest) ht
  unfold wordOperand at h
  rw [if_neg (by decide)] at h
  unfold parseOperand
  rw [n1]
  dsimp only
  rw [show (plug E '\x00' loc).endOfLine (t ++ rest) = false from n2, if_neg (by decide),
    search_word regsOk ht hr, search_word ccsOk ht hr, Out.ok_bind]
  cases hl : look regs t with
  | none =>
    rw [hl] at h
    rw [if_neg (by simp)] at h
    cases hc : look ccs t with
    | none => rw [hc] at h; cases h
    | some cc =>
      rw [hc] at h
      injection h with h
      subst h
      rfl
  | some r =>
    rw [hl] at h
    by_cases h0 : r = .C
    · subst h0
      rw [if_pos rfl] at h
      injection h with h
      subst h
      rfl
    · rw [if_neg (by simpa using h0)] at h
      dsimp only [Option.map]
      rw [if_neg (by simpa using h0), Out.ok_bind]
      cases hc : look ccs t with
      | none =>
        rw [hc] at h
        injection h with h
        subst h
        rfl
      | some cc =>
        rw [hc] at h
        injection h with h
        subst h
        rfl

theorem open_word {α : Type} {table : List (List Char × α)} (h : RegsOk table) (s : List Char) :
    searchText table ('(' :: s) = .ok none :=
  reg_none_head h (by intro d hd; injection hd with hd; subst hd; decide)

/-- What starts with a parenthesis. -/
theorem open_reads (s : List Char) :
    parseOperand (fun delim => plug E delim loc) ('(' :: s) =
      parseParen (fun delim => plug E delim loc) ('(' :: s) s := by
  unfold parseOperand
  rw [show skipSpaces ('(' :: s) = '(' :: s from rfl]
  dsimp only
  rw [show (plug E '\x00' loc).endOfLine ('(' :: s) = false from rfl, if_neg (by decide),
    open_word regsOk, open_word ccsOk, Out.ok_bind]
  dsimp only
  rw [if_neg (by simp), Out.ok_bind]
  rfl

theorem paren_reads {t rest : List Char} {op : Operand}
    (ht : t ≠ [] ∧ ∀ c ∈ t, isNameLetter c = true) (h : wordOperand true t = some op) :
    parseOperand (fun delim => plug E delim loc) ('(' :: (t ++ ')' :: rest)) = .ok (.ok (op, rest)) := by
  have hr : Sep (')' :: rest) := Sep.cons (by decide) _
  obtain ⟨n1, n2⟩ := name_head (rest := ')' :: rest) ht
  unfold wordOperand at h
  rw [if_pos rfl] at h
  rw [open_reads]
  unfold parseParen
  rw [n1, search_word regsOk ht hr]
  cases hl : look regs t with
  | none => rw [hl] at h; cases h
  | some r =>
    rw [hl] at h
    have h : ((indirectMode r).map fun m => ({ mode := m, reg := some r } : Operand)) = some op := h
    dsimp only [Option.map]
    rw [Out.ok_bind]
    dsimp only
    rw [show expect ')' (skipSpaces (')' :: rest)) = some rest from rfl]
    dsimp only
    cases hm : indirectMode r with
    | none => rw [hm] at h; cases h
    | some m =>
      rw [hm] at h
      injection h with h
      subst h
      rfl

/-- An index register with an offset. -/
theorem index_reads {o : Opts} {t rest : List Char} {r : Reg} {b : Nat} (hb : b < 256)
    (ht : t ≠ [] ∧ ∀ c ∈ t, isNameLetter c = true) (hl : look regs t = some r) (hr : r = .IX ∨ r = .IY) :
    parseOperand (fun delim => plug E delim loc) ('(' :: (t ++ (outIndexOffset o b ++ ')' :: rest))) =
      .ok (.ok ({ mode := .IDX, reg := some r, val := Value.setS (int8 b) }, rest)) := by
  obtain ⟨c, s, hc, hcs⟩ := offset_sign (o := o) hb
  have hsep : Sep (outIndexOffset o b ++ ')' :: rest) := by
    rw [hc]
    exact Sep.cons (by rcases hcs with rfl | rfl <;> decide) _
  have he := offset_reads (E := E) (o := o) (addr := loc) hb rest
  obtain ⟨n1, n2⟩ := name_head (rest := outIndexOffset o b ++ ')' :: rest) ht
  rw [open_reads]
  unfold parseParen
  rw [n1, search_word regsOk ht hsep, hl]
  dsimp only [Option.map]
  rw [Out.ok_bind]
  dsimp only
  have hs : skipSpaces (outIndexOffset o b ++ ')' :: rest) = outIndexOffset o b ++ ')' :: rest := by
    rw [hc]
    exact spaces_sign (by rcases hcs with h | h <;> simp [h]) _
  have hx : expect ')' (outIndexOffset o b ++ ')' :: rest) = none := by
    rw [hc]
    exact expect_none (by intro d hd; injection hd with hd; subst hd; rcases hcs with rfl | rfl <;> decide)
  have hd : deref (outIndexOffset o b ++ ')' :: rest) = c := by rw [hc]; rfl
  rw [hs, hx]
  dsimp only
  rw [hd, if_pos ⟨hcs, hr⟩, he, Out.ok_bind]
  rfl

/-! ### Numbers -/

theorem num_head {t rest : List Char} (ht : Lead .intel t) :
    skipSpaces (t ++ rest) = t ++ rest ∧ semicolonEnd (t ++ rest) = false ∧
    expect '(' (t ++ rest) = none := by
  have h := ht.append rest
  refine ⟨lead_space h, lexOk.eol _ h, ?_⟩
  obtain ⟨c, s, hcs, hc⟩ := lead_first h
  have : ∀ c ∈ firsts .intel, c ≠ '(' := by decide
  rw [hcs]
  exact expect_none (by intro d hd; injection hd with hd; exact hd ▸ this c hc)

/-- What the evaluator takes. -/
theorem plain_reads {text rest : List Char} {v : Value} {c : Char} {s : List Char} (hc : text = c :: s)
    (hf : c ∈ '$' :: firsts .intel) (hreg : searchText regs (text ++ rest) = .ok none)
    (hcc : searchText ccs (text ++ rest) = .ok none)
    (he : parseInteger (plug E '\x00' loc) (text ++ rest) .OK = .ok (v, .OK, rest)) :
    parseOperand (fun delim => plug E delim loc) (text ++ rest) =
      .ok (.ok ({ mode := .IM16, val := v }, rest)) := by
  have h1 : ∀ c ∈ '$' :: firsts .intel, Ctype.isSpace c = false ∧ (c == '\x00' || c == ';') = false ∧ c ≠ '(' := by
    decide
  obtain ⟨h1, h2, h3⟩ := h1 c hf
  have k1 : skipSpaces (text ++ rest) = text ++ rest := by
    rw [hc]
    unfold skipSpaces trimStart
    rw [List.cons_append, List.dropWhile_cons, h1]
    rfl
  have k2 : (plug E '\x00' loc).endOfLine (text ++ rest) = false := by rw [hc]; exact h2
  have k3 : expect '(' (text ++ rest) = none := by
    rw [hc]
    exact expect_none (by intro d hd; injection hd with hd; exact hd ▸ h3)
  unfold parseOperand
  rw [k1]
  dsimp only
  rw [k2, if_neg (by decide), hreg, hcc, Out.ok_bind]
  dsimp only
  rw [if_neg (by simp), Out.ok_bind]
  dsimp only
  rw [k3]
  dsimp only
  rw [he, Out.ok_bind]
  rfl

theorem num_reads {t rest : List Char} {v : Nat} (ht : NumText .intel .intel t v) (hr : AfterOp rest) :
    parseOperand (fun delim => plug E delim loc) (t ++ rest) =
      .ok (.ok ({ mode := .IM16, val := ⟨v, .unsigned⟩ }, rest)) := by
  obtain ⟨h1, h2⟩ := after (E := E) (delim := '\x00') (loc := loc) hr
  have he := eval_const (const_of lexOk ht E '\x00' loc) h1 h2
  obtain ⟨c, s, hc, hf⟩ := lead_first ht.lead
  have hl := ht.lead.append rest
  exact plain_reads hc (List.mem_cons_of_mem _ hf) (reg_none regsOk regsNo hl) (reg_none ccsOk ccsNo hl) he

theorem rel_operand {o : Opts} (hsym : o.relative = true → o.curSym = '$') {addr tgt : Nat}
    (ha : addr < 2 ^ 16) (ht : tgt < 2 ^ 16) (hd : ((tgt : Int) - addr).natAbs < 2 ^ 8) {rest : List Char}
    (hr : AfterOp rest) :
    parseOperand (fun delim => plug E delim addr) (outRelAddr .intel o 16 tgt addr 8 ++ rest) =
      .ok (.ok ({ mode := .IM16, val := ⟨tgt, .unsigned⟩ }, rest)) := by
  obtain ⟨h1, c, s, h2, h3⟩ := rel_text (E := E) hsym ha ht hd hr
  have key : ∀ {α : Type} {table : List (List Char × α)}, RegsOk table → NoNumbers .intel table →
      searchText table (outRelAddr .intel o 16 tgt addr 8 ++ rest) = .ok none := by
    intro α table g1 g2
    rw [h2, List.cons_append]
    rcases List.mem_cons.1 h3 with rfl | h3
    · exact reg_none_head g1 (by intro d hd; injection hd with hd; subst hd; decide)
    · refine reg_none g1 g2 (Or.inl ⟨c, s ++ rest, ?_, rfl⟩)
      simp only [firsts, leads, List.map, List.append_nil, List.mem_cons, List.not_mem_nil, or_false] at h3
      rcases h3 with h | h | h | h | h | h | h | h | h | h <;> subst h <;> decide
  exact plain_reads h2 h3 (key regsOk regsNo) (key ccsOk ccsNo) h1

theorem paren_num_reads {t rest : List Char} {v : Nat} (ht : NumText .intel .intel t v) :
    parseOperand (fun delim => plug E delim loc) ('(' :: (t ++ ')' :: rest)) =
      .ok (.ok ({ mode := .ABS, val := ⟨v, .unsigned⟩ }, rest)) := by
  have he := eval_const (const_of lexOk ht E ')' loc) (Sep.cons (c := ')') (by decide) rest)
    (stop_close E loc rest)
  obtain ⟨n1, n2, n3⟩ := num_head (rest := ')' :: rest) ht.lead
  rw [open_reads]
  unfold parseParen
  rw [n1, reg_none regsOk regsNo (ht.lead.append (')' :: rest)), Out.ok_bind]
  dsimp only
  rw [he, Out.ok_bind]
  rfl

end

/-- A digit is a number. -/
theorem digit_text {k : Nat} (hk : k < 3) : NumText .intel .intel [Char.ofNat (48 + k)] k := by
  have h := numText_dec .intel .intel .intel false k (by omega)
  rwa [show (Number.Style.intel).dec false k = [Char.ofNat (48 + k)] from
    (by decide : ∀ k < 3, (Number.Style.intel).dec false k = [Char.ofNat (48 + k)]) k hk] at h

end Libasm.Cpu.Z80
