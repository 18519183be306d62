import Verif.Cpu.Kit
import Verif.Cpu.I8080.Model
/-
How the i8080 assembler reads what its disassembler prints, in Intel and in Zilog syntax.
-/
namespace Libasm.Cpu.I8080
open Scan Number Number.Spec Eval Table.Spec
open Table (isNameLetter)

deriving instance DecidableEq for Operand

theorem pairs (o : Opts) : Pairs .intel .intel o :=
  ⟨by decide, by decide, fun _ => Or.inr (Or.inr (by decide))⟩

theorem prefix_none {c : Char} (hc : c ∈ firsts .intel) (s : List Char) :
    intelPrefix (c :: s) = none := by
  have h1 : ∀ c ∈ firsts .intel, ∀ e ∈ intelPrefixWords, e.1 ≠ [] ∧
      ∀ d, e.1.head? = some d → Ctype.toUpper c ≠ Ctype.toUpper d := by
    have h : ∀ c ∈ firsts .intel, ∀ e ∈ intelPrefixWords, e.1 ≠ [] ∧
      Ctype.toUpper c ≠ Ctype.toUpper (e.1.headD 'x') := by decide
    intro c hc e he
    refine ⟨(h c hc e he).1, fun d hd => ?_⟩
    have := (h c hc e he).2
    rw [List.headD_eq_head?_getD, hd] at this
    exact this
  have hw := word_none s (h1 c hc)
  have h2 : expect '-' (c :: s) = none ∧ expect '+' (c :: s) = none ∧ cPrefix (c :: s) = none := by
    simp only [firsts, leads, List.map, List.append_nil, List.mem_cons, List.not_mem_nil,
      or_false] at hc
    rcases hc with h | h | h | h | h | h | h | h | h | h <;> subst h <;> exact ⟨rfl, rfl, rfl⟩
  unfold intelPrefix
  rw [h2.1, h2.2.1]
  dsimp only
  rw [hw]
  exact h2.2.2

theorem lexOk : LexOk lexer .intel := by
  apply lexOk_of
  intro c hc s
  refine ⟨?_, ?_, ?_⟩
  · simp only [firsts, leads, List.map, List.append_nil, List.mem_cons, List.not_mem_nil,
      or_false] at hc
    rcases hc with h | h | h | h | h | h | h | h | h | h <;> subst h <;> rfl
  · simp only [firsts, leads, List.map, List.append_nil, List.mem_cons, List.not_mem_nil,
      or_false] at hc
    rcases hc with h | h | h | h | h | h | h | h | h | h <;> subst h <;> rfl
  · intro st r
    have := prefix_none hc s
    show Eval.pure intelPrefix (c :: s) st r = _
    unfold Eval.pure
    rw [this]

theorem stop_nil (E : Env) (delim : Char) (loc : Nat) : Stop (lexer.plugins E delim loc) [] :=
  ⟨rfl, Or.inl rfl⟩

theorem stop_comma (E : Env) (loc : Nat) (s : List Char) :
    Stop (lexer.plugins E '\x00' loc) (',' :: s) := by
  refine ⟨rfl, Or.inr (Or.inr ⟨?_, Or.inr rfl⟩)⟩
  show intelInfix (',' :: s) = none
  unfold intelInfix
  rw [word_none s (by
    have h : ∀ e ∈ intelInfixWords, e.1 ≠ [] ∧
      Ctype.toUpper ',' ≠ Ctype.toUpper (e.1.headD 'x') := by decide
    intro e he
    refine ⟨(h e he).1, fun d hd => ?_⟩
    have := (h e he).2
    rw [List.headD_eq_head?_getD, hd] at this
    exact this)]
  rfl

theorem stop_close (E : Env) (loc : Nat) (s : List Char) :
    Stop (lexer.plugins E ')' loc) (')' :: s) :=
  ⟨rfl, Or.inr (Or.inl rfl)⟩

theorem intelRegsOk : RegsOk intelRegs := by decide
theorem zilogRegsOk : RegsOk zilogRegs := by decide
theorem ccsOk : RegsOk ccs := by decide
theorem intelNo : NoNumbers .intel intelRegs := by decide
theorem zilogNo : NoNumbers .intel zilogRegs := by decide
theorem ccsNo : NoNumbers .intel ccs := by decide

/-! ### Words -/

/-- The entry of the table with this name. -/
def look {α : Type} (table : List (List Char × α)) (t : List Char) : Option α :=
  (table.find? fun e => decide (Same e.1 t)).map (·.2)

theorem search_word {α : Type} {table : List (List Char × α)} (h : RegsOk table) {t rest : List Char}
    (ht : t ≠ [] ∧ ∀ c ∈ t, isNameLetter c = true) (hr : Sep rest) :
    searchText table (t ++ rest) = .ok ((look table t).map fun a => (a, rest)) := by
  obtain ⟨h1, h2⟩ := takeWhile_sep ht.2 (sep_name hr)
  rw [searchText_eq h, h1, h2, if_neg ht.1]
  unfold look
  cases table.find? fun e => decide (Same e.1 t) <;> rfl

/-- What the assembler makes of a name, of a name between parentheses. -/
def wordOperand (zilog paren : Bool) (t : List Char) : Option Operand :=
  if zilog then
    if paren then
      match look zilogRegs t with
      | some .BC => some { mode := .IDX, reg := some .BC }
      | some .DE => some { mode := .IDX, reg := some .DE }
      | some .HL => some { mode := .I .HL, reg := some .HL }
      | some .SP => some { mode := .I .SP, reg := some .SP }
      | _ => none
    else if look zilogRegs t = some .C then
      some { mode := .R .C, reg := some .C, val := unsigned Cc.C.num }
    else
      match look ccs t with
      | some cc => some { mode := .CC, val := unsigned cc.num }
      | none => (look zilogRegs t).map fun r => { mode := zilogRegMode r, reg := some r }
  else if paren then none
  else (look intelRegs t).map fun r => { mode := intelRegMode r, reg := some r }

theorem name_head {t rest : List Char} (ht : t ≠ [] ∧ ∀ c ∈ t, isNameLetter c = true) :
    skipSpaces (t ++ rest) = t ++ rest ∧ semicolonEnd (t ++ rest) = false ∧
    expect '(' (t ++ rest) = none := by
  obtain ⟨c, s, rfl⟩ := List.exists_cons_of_ne_nil ht.1
  have hc := ht.2 c (List.mem_cons_self ..)
  have ha : c.toNat < 128 := by
    simp only [isNameLetter, Ctype.isAlnum, Ctype.isAlpha, Ctype.isUpper, Ctype.isLower,
      Ctype.isDigit, Bool.or_eq_true, Bool.and_eq_true, decide_eq_true_eq, beq_iff_eq] at hc
    rcases hc with h | h
    · omega
    · subst h; decide
  have := Ctype.ascii (p := fun c => isNameLetter c = true → Ctype.isSpace c = false ∧ c ≠ ';' ∧
    c ≠ '\x00' ∧ c ≠ '(') (by decide +kernel) c ha hc
  obtain ⟨h1, h2, h3, h4⟩ := this
  refine ⟨?_, ?_, expect_none (by intro d hd; injection hd with hd; exact hd ▸ h4)⟩
  · unfold skipSpaces trimStart
    rw [List.cons_append, List.dropWhile_cons, h1]
    rfl
  · show (c == '\x00' || c == ';') = false
    simp [h2, h3]

section
variable {E : Env} {loc : Nat}

theorem word_reads {zilog : Bool} {t rest : List Char} {op : Operand}
    (ht : t ≠ [] ∧ ∀ c ∈ t, isNameLetter c = true) (hr : Sep rest)
    (h : wordOperand zilog false t = some op) :
    parseOperand (fun delim => lexer.plugins E delim loc) zilog (t ++ rest) = .ok (op, rest) := by
  obtain ⟨n1, n2, n3⟩ := name_head (rest := rest) ht
  unfold wordOperand at h
  unfold parseOperand
  cases zilog with
  | false =>
    simp only [Bool.false_eq_true, if_false] at h ⊢
    unfold parseIntelOperand
    rw [n1]
    dsimp only
    rw [show (lexer.plugins E '\x00' loc).endOfLine (t ++ rest) = false from n2]
    rw [if_neg (by decide)]
    unfold parseRegName
    rw [show (if false = true then zilogRegs else intelRegs) = intelRegs from rfl,
      search_word intelRegsOk ht hr, Out.ok_bind]
    cases hl : look intelRegs t with
    | none => rw [hl] at h; cases h
    | some r =>
      rw [hl] at h
      injection h with h
      subst h
      rfl
  | true =>
    simp only [Bool.false_eq_true, if_true, if_false] at h ⊢
    unfold parseZilogOperand
    rw [n1]
    dsimp only
    rw [show (lexer.plugins E '\x00' loc).endOfLine (t ++ rest) = false from n2]
    rw [if_neg (by decide)]
    unfold parseRegName parseCcName
    rw [show (if true = true then zilogRegs else intelRegs) = zilogRegs from rfl,
      search_word zilogRegsOk ht hr, search_word ccsOk ht hr, Out.ok_bind]
    cases hl : look zilogRegs t with
    | none =>
      rw [hl] at h
      rw [if_neg (by simp)] at h
      cases hc : look ccs t with
      | none => rw [hc] at h; cases h
      | some cc =>
        rw [hc] at h
        injection h with h
        subst h
        rfl
    | some r =>
      rw [hl] at h
      by_cases h0 : r = .C
      · subst h0
        rw [if_pos rfl] at h
        injection h with h
        subst h
        rfl
      · rw [if_neg (by simpa using h0)] at h
        dsimp only [Option.map]
        rw [Out.ok_bind]
        dsimp only
        rw [if_neg (by simpa using h0), Out.ok_bind]
        cases hc : look ccs t with
        | none =>
          rw [hc] at h
          injection h with h
          subst h
          rfl
        | some cc =>
          rw [hc] at h
          injection h with h
          subst h
          rfl

theorem skip_close (s : List Char) : skipSpaces (')' :: s) = ')' :: s := rfl

theorem open_word {α : Type} {table : List (List Char × α)} (h : RegsOk table) (s : List Char) :
    searchText table ('(' :: s) = .ok none :=
  reg_none_head h (by intro d hd; injection hd with hd; subst hd; decide)

theorem paren_reads {t rest : List Char} {op : Operand}
    (ht : t ≠ [] ∧ ∀ c ∈ t, isNameLetter c = true) (h : wordOperand true true t = some op) :
    parseOperand (fun delim => lexer.plugins E delim loc) true ('(' :: (t ++ ')' :: rest)) =
      .ok (op, rest) := by
  have hr : Sep (')' :: rest) := Sep.cons (by decide) _
  obtain ⟨n1, n2, n3⟩ := name_head (rest := ')' :: rest) ht
  unfold wordOperand at h
  rw [if_pos rfl, if_pos rfl] at h
  unfold parseOperand
  rw [if_pos rfl]
  unfold parseZilogOperand
  rw [show skipSpaces ('(' :: (t ++ ')' :: rest)) = '(' :: (t ++ ')' :: rest) from rfl]
  dsimp only
  rw [show (lexer.plugins E '\x00' loc).endOfLine ('(' :: (t ++ ')' :: rest)) = false from rfl]
  rw [if_neg (by decide)]
  unfold parseRegName parseCcName
  rw [show (if true = true then zilogRegs else intelRegs) = zilogRegs from rfl,
    open_word zilogRegsOk, open_word ccsOk, Out.ok_bind, Out.ok_bind]
  dsimp only
  rw [if_neg (by simp), Out.ok_bind, Out.ok_bind,
    show expect '(' ('(' :: (t ++ ')' :: rest)) = some (t ++ ')' :: rest) from rfl]
  dsimp only
  rw [n1, search_word zilogRegsOk ht hr]
  cases hl : look zilogRegs t with
  | none => rw [hl] at h; cases h
  | some r =>
    rw [hl] at h
    cases r <;> first
      | (injection h with h; subst h; rfl)
      | cases h

/-! ### Numbers -/

theorem num_head {t rest : List Char} (ht : Lead .intel t) :
    skipSpaces (t ++ rest) = t ++ rest ∧ semicolonEnd (t ++ rest) = false ∧
    expect '(' (t ++ rest) = none := by
  have h := ht.append rest
  refine ⟨lead_space h, lexOk.eol _ h, ?_⟩
  obtain ⟨c, s, hcs, hc⟩ := lead_first h
  have : ∀ c ∈ firsts .intel, c ≠ '(' := by decide
  rw [hcs]
  exact expect_none (by intro d hd; injection hd with hd; exact hd ▸ this c hc)

theorem num_reads (zilog : Bool) {t rest : List Char} {v : Nat} (ht : NumText .intel .intel t v)
    (hr : rest = [] ∨ ∃ s, rest = ',' :: s) :
    parseOperand (fun delim => lexer.plugins E delim loc) zilog (t ++ rest) =
      .ok ({ mode := .IM16, val := ⟨v, .unsigned⟩ }, rest) := by
  have hs : Sep rest ∧ Stop (lexer.plugins E '\x00' loc) rest := by
    rcases hr with rfl | ⟨s, rfl⟩
    · exact ⟨Sep.nil, stop_nil ..⟩
    · exact ⟨Sep.cons (by decide) _, stop_comma ..⟩
  have he := eval_const (const_of lexOk ht E '\x00' loc) hs.1 hs.2
  obtain ⟨n1, n2, n3⟩ := num_head (rest := rest) ht.lead
  have hl := ht.lead.append rest
  unfold parseOperand
  cases zilog with
  | false =>
    rw [if_neg (by decide)]
    unfold parseIntelOperand
    rw [n1]
    dsimp only
    rw [show (lexer.plugins E '\x00' loc).endOfLine (t ++ rest) = false from n2]
    rw [if_neg (by decide)]
    unfold parseRegName
    rw [show (if false = true then zilogRegs else intelRegs) = intelRegs from rfl,
      reg_none intelRegsOk intelNo hl, Out.ok_bind]
    dsimp only
    rw [Out.ok_bind]
    dsimp only
    rw [he]
    rfl
  | true =>
    rw [if_pos rfl]
    unfold parseZilogOperand
    rw [n1]
    dsimp only
    rw [show (lexer.plugins E '\x00' loc).endOfLine (t ++ rest) = false from n2]
    rw [if_neg (by decide)]
    unfold parseRegName parseCcName
    rw [show (if true = true then zilogRegs else intelRegs) = zilogRegs from rfl,
      reg_none zilogRegsOk zilogNo hl, reg_none ccsOk ccsNo hl, Out.ok_bind, Out.ok_bind]
    dsimp only
    rw [if_neg (by simp), Out.ok_bind, Out.ok_bind, n3]
    dsimp only
    rw [he]
    rfl

theorem paren_num_reads {t rest : List Char} {v : Nat} (ht : NumText .intel .intel t v) :
    parseOperand (fun delim => lexer.plugins E delim loc) true ('(' :: (t ++ ')' :: rest)) =
      .ok ({ mode := .ABS, val := ⟨v, .unsigned⟩ }, rest) := by
  have he := eval_const (const_of lexOk ht E ')' loc) (Sep.cons (c := ')') (by decide) rest)
    (stop_close E loc rest)
  obtain ⟨n1, n2, n3⟩ := num_head (rest := ')' :: rest) ht.lead
  have hl := ht.lead.append (')' :: rest)
  unfold parseOperand
  rw [if_pos rfl]
  unfold parseZilogOperand
  rw [show skipSpaces ('(' :: (t ++ ')' :: rest)) = '(' :: (t ++ ')' :: rest) from rfl]
  dsimp only
  rw [show (lexer.plugins E '\x00' loc).endOfLine ('(' :: (t ++ ')' :: rest)) = false from rfl]
  rw [if_neg (by decide)]
  unfold parseRegName parseCcName
  rw [show (if true = true then zilogRegs else intelRegs) = zilogRegs from rfl,
    open_word zilogRegsOk, open_word ccsOk, Out.ok_bind, Out.ok_bind]
  dsimp only
  rw [if_neg (by simp), Out.ok_bind, Out.ok_bind,
    show expect '(' ('(' :: (t ++ ')' :: rest)) = some (t ++ ')' :: rest) from rfl]
  dsimp only
  rw [n1, reg_none zilogRegsOk zilogNo hl, Out.ok_bind, Out.ok_bind]
  dsimp only
  rw [he, Out.ok_bind]
  dsimp only
  rw [if_neg (by decide)]
  rfl

end

end Libasm.Cpu.I8080
