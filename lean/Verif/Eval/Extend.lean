import Verif.Eval.Open
/-
An evaluation without error does not change when the symbol table grows.
-/
namespace Libasm.Eval
open Scan Number

variable {V : Type}

/-- Evaluate with another symbol table. -/
abbrev Plugins.withSymbols (P : Plugins V) (T : List Char → Option V) : Plugins V :=
  { P with lookupSymbol := T }

section
variable (P : Plugins V) (T : List Char → Option V)

theorem reduceInfix_symbols (o : Operator V) : ∀ os st r,
    reduceInfix (P.withSymbols T) o os st r = reduceInfix P o os st r := by
  intro os
  induction os with
  | nil => intro st r; rfl
  | cons t os ih =>
    intro st r
    unfold reduceInfix
    split
    · rfl
    · split
      · show Out.bind (evalOp P t st r 0) _ = Out.bind (evalOp P t st r 0) _
        congr 1
        funext a
        rcases a with e | ⟨st1, r1⟩
        · rfl
        · exact ih st1 r1
      · rfl

theorem reduceComma_symbols : ∀ os st r,
    reduceComma (P.withSymbols T) os st r = reduceComma P os st r := by
  intro os
  induction os with
  | nil => intro st r; rfl
  | cons t os ih =>
    intro st r
    unfold reduceComma
    split
    · rfl
    · show Out.bind (evalOp P t st r 0) _ = Out.bind (evalOp P t st r 0) _
      congr 1
      funext a
      rcases a with e | ⟨st1, r1⟩
      · rfl
      · exact ih st1 r1

theorem reduceClose_symbols : ∀ os st r,
    reduceClose (P.withSymbols T) os st r = reduceClose P os st r := by
  intro os
  induction os with
  | nil => intro st r; rfl
  | cons t os ih =>
    intro st r
    unfold reduceClose
    split
    · rfl
    · show Out.bind (evalOp P t st r 0) _ = Out.bind (evalOp P t st r 0) _
      congr 1
      funext a
      rcases a with e | ⟨st1, r1⟩
      · rfl
      · exact ih st1 r1

theorem reduceAll_symbols : ∀ os st r,
    reduceAll (P.withSymbols T) os st r = reduceAll P os st r := by
  intro os
  induction os with
  | nil => intro st r; rfl
  | cons t os ih =>
    intro st r
    unfold reduceAll
    split
    · rfl
    · show Out.bind (evalOp P t st r 0) _ = Out.bind (evalOp P t st r 0) _
      congr 1
      funext a
      rcases a with e | ⟨st1, r1⟩
      · rfl
      · exact ih st1 r1

theorem stepOperator_symbols (s : St V) (o : Operator V) (rest : Scan) :
    stepOperator (P.withSymbols T) s o rest = stepOperator P s o rest := by
  unfold stepOperator
  rw [reduceInfix_symbols]
  rfl

theorem stepPunct_symbols (s : St V) (expr scan : Scan) :
    stepPunct (P.withSymbols T) s expr scan = stepPunct P s expr scan := by
  unfold stepPunct
  rw [reduceComma_symbols, reduceClose_symbols]
  rfl

theorem finish_symbols (s : St V) : finish (P.withSymbols T) s = finish P s := by
  unfold finish
  rw [reduceAll_symbols]

/-- Two iterations agree, or the first one goes on with an error. -/
def SameOr (y x : Out (Next V)) : Prop :=
  y = x ∨ ∃ s', x = .ok (.cont s') ∧ s'.err ≠ .OK

variable (hT : ∀ name v, P.lookupSymbol name = some v → T name = some v)
include hT

theorem stepSymbol_symbols (s : St V) (expr scan : Scan) :
    SameOr (stepSymbol (P.withSymbols T) s expr scan) (stepSymbol P s expr scan) := by
  unfold stepSymbol
  show SameOr (match P.readSymbol scan with | some (name, rest) => _ | none => _) _
  cases P.readSymbol scan with
  | none => exact .inl (stepPunct_symbols P T s expr scan)
  | some x =>
    obtain ⟨name, rest⟩ := x
    dsimp only
    by_cases hf : s.vst.length ≥ capacity
    · rw [if_pos hf, if_pos hf]; exact .inl rfl
    · rw [if_neg hf, if_neg hf]
      cases hl : P.lookupSymbol name with
      | some v =>
        refine .inl ?_
        show (match T name with | some v => _ | none => _) = _
        rw [hT name v hl]
      | none =>
        dsimp only
        refine .inr ?_
        rw [push_safe (by omega)]
        exact ⟨_, rfl, setErrorIf_ne (by decide)⟩

theorem stepOperand_symbols (s : St V) (expr scan : Scan) :
    SameOr (stepOperand (P.withSymbols T) s expr scan) (stepOperand P s expr scan) := by
  have hsym := stepSymbol_symbols P T hT s expr scan
  rcases hsym with h | h
  · refine .inl ?_
    unfold stepOperand
    rw [h]
    rfl
  · unfold stepOperand
    dsimp only
    rcases hc : P.parseConstant scan s.radix with ⟨e, v, rest⟩
    cases e
    case NOT_AN_EXPECTED =>
      dsimp only
      cases hf : P.readFunctionName scan with
      | none => exact .inr h
      | some x =>
        obtain ⟨name, rest'⟩ := x
        dsimp only
        cases hl : P.lookupFunction name with
        | none => exact .inr h
        | some y => exact .inl rfl
    all_goals exact .inl rfl

theorem step_symbols (s : St V) :
    SameOr (step (P.withSymbols T) s) (step P s) := by
  unfold step
  dsimp only
  by_cases h1 : P.endOfLine (skipSpaces s.scan) = true
  · rw [if_pos h1, if_pos h1]; exact .inl rfl
  rw [if_neg h1, if_neg h1]
  by_cases h2 : deref (skipSpaces s.scan) = s.endOfExpr ∧ s.vst ≠ []
  · rw [if_pos h2, if_pos h2]; exact .inl rfl
  rw [if_neg h2, if_neg h2]
  by_cases h3 : s.maybePrefix = true
  · rw [if_pos h3, if_pos h3]
    cases hr : P.ops.readPrefix (skipSpaces s.scan) s.vst s.radix with
    | stackUB => exact .inl rfl
    | ub => exact .inl rfl
    | diverge => exact .inl rfl
    | ok a =>
    obtain ⟨o, rest, vst, radix⟩ := a
    dsimp only [Out.bind]
    by_cases h4 : hasError s.err = true
    · rw [if_pos h4, if_pos h4]; exact .inl rfl
    · rw [if_neg h4, if_neg h4]
      cases o with
      | some o => exact .inl (stepOperator_symbols P T _ o rest)
      | none => exact stepOperand_symbols P T hT _ _ _
  · rw [if_neg h3, if_neg h3]
    refine .inl ?_
    cases P.ops.readInfix (skipSpaces s.scan) with
    | none => dsimp only; rw [stepPunct_symbols]
    | some x =>
      obtain ⟨o, rest⟩ := x
      dsimp only; rw [stepOperator_symbols]

theorem loop_symbols (fuel : Nat) :
    ∀ s r, loop P fuel s = .ok r → r.err = .OK → loop (P.withSymbols T) fuel s = .ok r := by
  induction fuel with
  | zero => intro s r h; cases h
  | succ n ih =>
    intro s r h hr
    rcases step_symbols P T hT s with h1 | ⟨s', h1, h2⟩
    · unfold loop at h ⊢
      rw [h1]
      obtain ⟨a, ha, h⟩ := Out.bind_ok h
      rw [ha]
      cases a with
      | cont t => exact ih t r h hr
      | brk t =>
        show finish (P.withSymbols T) t = .ok r
        rw [finish_symbols]; exact h
      | ret t v => exact h
    · unfold loop at h
      rw [h1] at h
      have := loop_err n s' r h2 h
      rw [hr] at this
      exact absurd this.symm h2

theorem evalFuel_symbols (fuel : Nat) (text : Scan) (err : Err)
    (radix : Radix) (r : Result V) (h : evalFuel P fuel text err radix = .ok r)
    (hr : r.err = .OK) : evalFuel (P.withSymbols T) fuel text err radix = .ok r := by
  unfold evalFuel at h ⊢
  dsimp only at h ⊢
  obtain ⟨a, ha, h⟩ := Out.bind_ok h
  have hae : a.err = .OK := by
    injection h with h
    rw [← h] at hr
    split at hr
    · exact absurd hr (setErrorIf_ne (by decide))
    · exact hr
  have h1 := loop_symbols P T hT fuel _ a ha hae
  have h2 : start (P.withSymbols T) (skipSpaces text) err radix =
      start P (skipSpaces text) err radix := rfl
  rw [h2, h1]
  exact h

end

end Libasm.Eval
