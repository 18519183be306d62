import Verif.Cpu.Lex
import Verif.Cpu.Ins8060.Model
/-
How the INS8060 assembler reads what its disassembler prints.
-/
namespace Libasm.Cpu.Ins8060
open Scan Number Number.Spec Eval

theorem lexOk : LexOk lexer .national := by
  apply lexOk_of
  intro c hc s
  simp only [firsts, leads, List.map, List.headD, List.mem_append, List.mem_cons, List.not_mem_nil, or_false] at hc
  rcases hc with (h | h | h | h | h | h | h | h | h | h) | (h | h | h | h) <;> subst h <;>
    exact ⟨rfl, rfl, fun _ _ => rfl⟩

theorem ops (E : Env) (loc : Nat) : Ops (lexer.plugins E '\x00' loc) :=
  ⟨rfl, ⟨opUnaryMinus, rfl, rfl, rfl, fun _ _ _ => rfl⟩, fun _ => rfl, fun _ => rfl, fun _ _ _ => rfl,
    fun _ => rfl,
    by show '\x00' ≠ '-' ∧ '\x00' ≠ '+'; decide⟩

theorem stop_nil (E : Env) (loc : Nat) : Stop (lexer.plugins E '\x00' loc) [] :=
  ⟨rfl, Or.inl rfl⟩

theorem stop_open (E : Env) (loc : Nat) (s : List Char) :
    Stop (lexer.plugins E '\x00' loc) ('(' :: s) :=
  ⟨rfl, Or.inr (Or.inr ⟨rfl, Or.inl (by intro h; cases h)⟩)⟩

theorem regsOk : RegsOk regs := by decide
theorem noNumbers : NoNumbers .national regs := by decide

theorem const_location {c : Char} (hc : c = '$' ∨ c = '.') (E : Env) {loc : Nat}
    (hl : loc < 2 ^ 32) : Const (lexer.plugins E '\x00' loc) [c] ⟨loc, .unsigned⟩ := by
  have hsep : ∀ s, Sep s → prefixSymbol (some ['$']) none false (deref s) = false := by
    intro s hs
    cases s with
    | nil => rfl
    | cons d t =>
      have : ∀ d ∈ seps, prefixSymbol (some ['$']) none false d = false := by decide
      exact this d (hs d rfl)
  apply const_loc
  · rcases hc with rfl | rfl <;> rfl
  · intro s hs
    have h1 := hsep s hs
    rcases hc with rfl | rfl
    · refine ⟨rfl, rfl, ?_⟩
      have e : locationSymbol (prefixSymbol (some ['$']) none) '.' ('$' :: s) = none := rfl
      have e' : locationSymbol (prefixSymbol (some ['$']) none) '$' ('$' :: s) =
        if prefixSymbol (some ['$']) none false (deref s) then none else some s := rfl
      show (match locationSymbol (prefixSymbol (some ['$']) none) '.' ('$' :: s) with
        | some p => some p
        | none => locationSymbol (prefixSymbol (some ['$']) none) '$' ('$' :: s)) = _
      rw [e, e', h1]
      rfl
    · refine ⟨rfl, rfl, ?_⟩
      have e' : locationSymbol (prefixSymbol (some ['$']) none) '.' ('.' :: s) =
        if prefixSymbol (some ['$']) none false (deref s) then none else some s := rfl
      show (match locationSymbol (prefixSymbol (some ['$']) none) '.' ('.' :: s) with
        | some p => some p
        | none => locationSymbol (prefixSymbol (some ['$']) none) '$' ('.' :: s)) = _
      rw [e', h1]
      rfl
  · rcases hc with rfl | rfl <;> exact fun _ => rfl
  · rcases hc with rfl | rfl <;> exact fun _ => rfl
  · rcases hc with rfl | rfl <;> exact fun _ _ _ => rfl
  · exact hl

/-! ### Registers -/

theorem reg_reads (o : Opts) (r : Reg) {rest : List Char} (hr : Sep rest) :
    parseRegName (outText o (regText regs r) ++ rest) = .ok (some r, rest) := by
  unfold parseRegName
  rw [reg_found regsOk (a := r) ?_ hr ?_, Out.ok_bind]
  · unfold outText; cases o.upper <;> cases r <;> decide
  · unfold outText; cases o.upper <;> cases r <;> decide

/-- Text that is no register and no end of line. -/
structure Plain (t : List Char) : Prop where
  space : skipSpaces t = t
  eol : semicolonEnd t = false
  at_ : expect '@' t = none
  reg : searchText regs t = .ok none

theorem plain_number {t : List Char} (h : Lead .national t) : Plain t := by
  refine ⟨lead_space h, lexOk.eol t h, ?_, reg_none regsOk noNumbers h⟩
  obtain ⟨c, s, rfl, hc⟩ := lead_first h
  have : ∀ c ∈ firsts .national, c ≠ '@' := by decide
  exact expect_none (by intro d hd; injection hd with hd; exact hd ▸ this c hc)

theorem plain_head {c : Char} (s : List Char) (h : c ∈ ['-', '$', '.']) : Plain (c :: s) := by
  have h1 : Ctype.isSpace c = false ∧ c ≠ '@' ∧ Table.isNameLetter c = false ∧
      (c == '\x00' || c == ';') = false := by
    revert c; decide
  refine ⟨?_, h1.2.2.2, expect_none (by intro d hd; injection hd with hd; exact hd ▸ h1.2.1),
    reg_none_head regsOk (by intro d hd; injection hd with hd; exact hd ▸ h1.2.2.1)⟩
  unfold skipSpaces trimStart
  rw [List.dropWhile_cons, show Ctype.isSpace c = false from h1.1]
  rfl

theorem plain_signed {t rest : List Char} {x : Int} {p : Parser} (h : SignedText .national p t x) :
    Plain (t ++ rest) := by
  obtain ⟨u, h1, h2⟩ := h.ex
  by_cases hx : x < 0
  · rw [if_pos hx] at h1
    rw [h1]
    exact plain_head _ (by decide)
  · rw [if_neg hx] at h1
    rw [h1]
    exact plain_number (h2.lead.append rest)

/-! ### Operands -/

section
variable {E : Env} {loc : Nat}

theorem operand_nil : parseOperand (lexer.plugins E '\x00' loc) [] = .ok ({}, []) := rfl

theorem operand_reg (o : Opts) (r : Reg) (hr : r ≠ .E) :
    parseOperand (lexer.plugins E '\x00' loc) (outText o (regText regs r)) =
      .ok ({ mode := .PNTR, reg := some r }, []) := by
  have h := reg_reads o r Sep.nil
  rw [List.append_nil] at h
  have h1 : skipSpaces (outText o (regText regs r)) = outText o (regText regs r) ∧
      semicolonEnd (outText o (regText regs r)) = false ∧
      expect '@' (outText o (regText regs r)) = none := by
    unfold outText; cases o.upper <;> cases r <;> decide
  unfold parseOperand
  rw [h1.1]
  show (if semicolonEnd _ = true then _ else _) = _
  rw [h1.2.1, h1.2.2]
  simp only [Bool.false_eq_true, if_false]
  rw [h, Out.ok_bind]
  cases r <;> first | rfl | exact absurd rfl hr

theorem operand_number {t : List Char} {v : Value} (ht : Plain t)
    (hv : parseInteger (lexer.plugins E '\x00' loc) t .OK = .ok (v, .OK, [])) :
    parseOperand (lexer.plugins E '\x00' loc) t = .ok ({ mode := .REL8, val := v }, []) := by
  unfold parseOperand
  rw [ht.space]
  show (if semicolonEnd t = true then _ else _) = _
  rw [ht.eol, ht.at_]
  simp only [Bool.false_eq_true, if_false]
  unfold parseRegName
  rw [ht.reg, Out.ok_bind, Out.ok_bind]
  dsimp only
  rw [hv, Out.ok_bind]
  rfl

/-- `(Pn)` after a displacement. -/
theorem base_reads (o : Opts) (r : Reg) (hr : r ≠ .E) (scan : Scan) (autoDisp : Bool)
    (op : Operand) :
    parseBase scan ('(' :: (outText o (regText regs r) ++ [')'])) autoDisp op =
      .ok ({ op with reg := some r, mode := if autoDisp then .INDX else .DISP }, []) := by
  unfold parseBase
  show (parseRegName (outText o (regText regs r) ++ [')'])).bind _ = _
  rw [reg_reads o r (Sep.cons (by decide) _), Out.ok_bind]
  dsimp only
  have : isPointerReg (some r) = true := by cases r <;> first | rfl | exact absurd rfl hr
  rw [this]
  rfl

theorem operand_disp {t : List Char} {v : Value} (auto : Bool) (o : Opts) (r : Reg) (hr : r ≠ .E)
    (ht : ∀ rest, Plain (t ++ rest))
    (hv : ∀ s, parseInteger (lexer.plugins E '\x00' loc) (t ++ '(' :: s) .OK =
      .ok (v, .OK, '(' :: s)) :
    parseOperand (lexer.plugins E '\x00' loc)
      ((if auto then ['@'] else []) ++ (t ++ '(' :: (outText o (regText regs r) ++ [')']))) =
      .ok ({ mode := if auto then .INDX else .DISP, reg := some r, val := v }, []) := by
  cases auto with
  | false =>
    rw [if_neg (by decide), List.nil_append]
    have hp := ht ('(' :: (outText o (regText regs r) ++ [')']))
    unfold parseOperand
    rw [hp.space]
    show (if semicolonEnd _ = true then _ else _) = _
    rw [hp.eol, hp.at_]
    simp only [Bool.false_eq_true, if_false]
    unfold parseRegName
    rw [hp.reg, Out.ok_bind, Out.ok_bind]
    dsimp only
    rw [hv, Out.ok_bind]
    dsimp only
    rw [if_neg (by decide), base_reads o r hr]
    rfl
  | true =>
    rw [if_pos rfl, List.singleton_append]
    have hp := ht ('(' :: (outText o (regText regs r) ++ [')']))
    unfold parseOperand
    show (parseRegName (t ++ '(' :: (outText o (regText regs r) ++ [')']))).bind _ = _
    unfold parseRegName
    rw [hp.reg, Out.ok_bind, Out.ok_bind]
    dsimp only
    rw [hv, Out.ok_bind]
    dsimp only
    rw [if_neg (by decide), base_reads o r hr]

theorem operand_e (auto : Bool) (o : Opts) (r : Reg) (hr : r ≠ .E) :
    parseOperand (lexer.plugins E '\x00' loc)
      ((if auto then ['@'] else []) ++ (outText o (regText regs .E) ++
        '(' :: (outText o (regText regs r) ++ [')']))) =
      .ok ({ mode := if auto then .INDX else .DISP, reg := some r, index := true }, []) := by
  have h := reg_reads o .E (Sep.cons (c := '(') (by decide) (outText o (regText regs r) ++ [')']))
  cases auto with
  | false =>
    rw [if_neg (by decide), List.nil_append]
    unfold parseOperand
    have h1 : ∀ s, skipSpaces (outText o (regText regs .E) ++ s) = outText o (regText regs .E) ++ s ∧
        semicolonEnd (outText o (regText regs .E) ++ s) = false ∧
        expect '@' (outText o (regText regs .E) ++ s) = none := by
      intro s; unfold outText; cases o.upper <;> exact ⟨rfl, rfl, rfl⟩
    rw [(h1 _).1]
    show (if semicolonEnd _ = true then _ else _) = _
    rw [(h1 _).2.1, (h1 _).2.2]
    simp only [Bool.false_eq_true, if_false]
    rw [h, Out.ok_bind]
    dsimp only
    rw [base_reads o r hr]
    rfl
  | true =>
    rw [if_pos rfl, List.singleton_append]
    unfold parseOperand
    show (parseRegName (outText o (regText regs .E) ++
      '(' :: (outText o (regText regs r) ++ [')']))).bind _ = _
    rw [h, Out.ok_bind]
    dsimp only
    rw [base_reads o r hr]

end

end Libasm.Cpu.Ins8060
