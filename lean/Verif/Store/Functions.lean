import Verif.Store.Lemmas
import Verif.Eval.Suffix
/-
Evaluation looks up only the function names that stand in its text.
-/
namespace Libasm.Eval
open Scan Number
variable {V : Type}

/-- Evaluate with another function table. -/
abbrev Plugins.withFunctions (P : Plugins V)
    (L : List Char → Option (Int × (List V → Out (Except Err V)))) : Plugins V :=
  { P with lookupFunction := L }

theorem cont_suffix {P : Plugins V} (hS : Suffixes P) {s s' : St V} (h : Cont P s s') :
    s'.scan <:+ s.scan := by
  have hsk := skipSpaces_suffix s.scan
  cases h with
  | const v rest hp hpre hc hf => exact (hS.const _ _ _ _ hc).trans hsk
  | symbol name v rest hp hpre hr hl hf => exact (hS.symbol _ _ _ hr).trans hsk
  | undef name rest hp hpre hr hl hf => exact (hS.symbol _ _ _ hr).trans hsk
  | fn name nargs f rest hp hr hl ho =>
    exact ((skipSpaces_suffix rest).trans (hS.fn _ _ _ hr)).trans hsk
  | operator o rest ost vst radix ho hr hf =>
    rcases ho with ⟨_, ho⟩ | ⟨_, ho⟩
    · exact (hS.pre _ _ _ _ _ _ _ ho).trans hsk
    · exact (hS.inf _ _ _ ho).trans hsk
  | comma rest ost vst radix hin hc hr => exact (expect_suffix hc).trans hsk
  | opening rest ho hp hf => exact (hS.opening _ _ ho).trans hsk
  | closing rest p ost vst radix hc hr hf =>
    exact (List.IsSuffix.trans ⟨[')'], (hS.closing _ _ hc).symm⟩ hsk)
  | call rest p f ost vst vst' radix radix' hc hr hf he =>
    exact (List.IsSuffix.trans ⟨[')'], (hS.closing _ _ hc).symm⟩ hsk)

section
variable (P : Plugins V) (L : List Char → Option (Int × (List V → Out (Except Err V))))

theorem reduceInfix_functions (o : Operator V) : ∀ os st r,
    reduceInfix (P.withFunctions L) o os st r = reduceInfix P o os st r := by
  intro os
  induction os with
  | nil => intro st r; rfl
  | cons t os ih =>
    intro st r
    unfold reduceInfix
    split
    · rfl
    · split
      · show Out.bind (evalOp P t st r 0) _ = Out.bind (evalOp P t st r 0) _
        congr 1
        funext a
        rcases a with e | ⟨st1, r1⟩
        · rfl
        · exact ih st1 r1
      · rfl

theorem reduceComma_functions : ∀ os st r,
    reduceComma (P.withFunctions L) os st r = reduceComma P os st r := by
  intro os
  induction os with
  | nil => intro st r; rfl
  | cons t os ih =>
    intro st r
    unfold reduceComma
    split
    · rfl
    · show Out.bind (evalOp P t st r 0) _ = Out.bind (evalOp P t st r 0) _
      congr 1
      funext a
      rcases a with e | ⟨st1, r1⟩
      · rfl
      · exact ih st1 r1

theorem reduceClose_functions : ∀ os st r,
    reduceClose (P.withFunctions L) os st r = reduceClose P os st r := by
  intro os
  induction os with
  | nil => intro st r; rfl
  | cons t os ih =>
    intro st r
    unfold reduceClose
    split
    · rfl
    · show Out.bind (evalOp P t st r 0) _ = Out.bind (evalOp P t st r 0) _
      congr 1
      funext a
      rcases a with e | ⟨st1, r1⟩
      · rfl
      · exact ih st1 r1

theorem reduceAll_functions : ∀ os st r,
    reduceAll (P.withFunctions L) os st r = reduceAll P os st r := by
  intro os
  induction os with
  | nil => intro st r; rfl
  | cons t os ih =>
    intro st r
    unfold reduceAll
    split
    · rfl
    · show Out.bind (evalOp P t st r 0) _ = Out.bind (evalOp P t st r 0) _
      congr 1
      funext a
      rcases a with e | ⟨st1, r1⟩
      · rfl
      · exact ih st1 r1

theorem stepOperator_functions (s : St V) (o : Operator V) (rest : Scan) :
    stepOperator (P.withFunctions L) s o rest = stepOperator P s o rest := by
  unfold stepOperator
  rw [reduceInfix_functions]
  rfl

theorem stepPunct_functions (s : St V) (expr scan : Scan) :
    stepPunct (P.withFunctions L) s expr scan = stepPunct P s expr scan := by
  unfold stepPunct
  rw [reduceComma_functions, reduceClose_functions]
  rfl

theorem finish_functions (s : St V) : finish (P.withFunctions L) s = finish P s := by
  unfold finish
  rw [reduceAll_functions]

variable {P L}

theorem stepOperand_functions {s : St V} {expr scan : Scan}
    (hL : ∀ name rest, P.readFunctionName scan = some (name, rest) → L name = P.lookupFunction name) :
    stepOperand (P.withFunctions L) s expr scan = stepOperand P s expr scan := by
  have hs : stepSymbol (P.withFunctions L) s expr scan = stepSymbol P s expr scan := by
    unfold stepSymbol
    rw [stepPunct_functions]
    rfl
  unfold stepOperand
  rw [hs]
  dsimp only
  rcases hc : P.parseConstant scan s.radix with ⟨e, v, rest⟩
  cases e
  case NOT_AN_EXPECTED =>
    dsimp only
    cases hf : P.readFunctionName scan with
    | none => rfl
    | some x =>
      obtain ⟨name, rest'⟩ := x
      dsimp only
      rw [hL name rest' hf]
  all_goals rfl

theorem step_functions {s : St V}
    (hL : ∀ name rest, P.readFunctionName (skipSpaces s.scan) = some (name, rest) →
      L name = P.lookupFunction name) :
    step (P.withFunctions L) s = step P s := by
  unfold step
  dsimp only
  by_cases h1 : P.endOfLine (skipSpaces s.scan) = true
  · rw [if_pos h1, if_pos h1]
  rw [if_neg h1, if_neg h1]
  by_cases h2 : deref (skipSpaces s.scan) = s.endOfExpr ∧ s.vst ≠ []
  · rw [if_pos h2, if_pos h2]
  rw [if_neg h2, if_neg h2]
  by_cases h3 : s.maybePrefix = true
  · rw [if_pos h3, if_pos h3]
    cases hr : P.ops.readPrefix (skipSpaces s.scan) s.vst s.radix with
    | stackUB => rfl
    | ub => rfl
    | diverge => rfl
    | ok a =>
    obtain ⟨o, rest, vst, radix⟩ := a
    dsimp only [Out.bind]
    by_cases h4 : hasError s.err = true
    · rw [if_pos h4, if_pos h4]
    · rw [if_neg h4, if_neg h4]
      cases o with
      | some o => exact stepOperator_functions P L _ o rest
      | none => exact stepOperand_functions hL
  · rw [if_neg h3, if_neg h3]
    cases P.ops.readInfix (skipSpaces s.scan) with
    | none => dsimp only; rw [stepPunct_functions]
    | some x =>
      obtain ⟨o, rest⟩ := x
      dsimp only; rw [stepOperator_functions]

theorem loop_functions (hS : Suffixes P) (hq : Quiet P.ops) (text : Scan)
    (hL : ∀ t, t <:+ text → ∀ name rest, P.readFunctionName t = some (name, rest) →
      L name = P.lookupFunction name) (fuel : Nat) :
    ∀ s : St V, s.scan <:+ text → loop (P.withFunctions L) fuel s = loop P fuel s := by
  induction fuel with
  | zero => intro s _; rfl
  | succ n ih =>
    intro s hs
    unfold loop
    rw [step_functions (hL _ ((skipSpaces_suffix _).trans hs))]
    cases hst : step P s with
    | stackUB => rfl
    | ub => rfl
    | diverge => rfl
    | ok a =>
      cases a with
      | cont t => exact ih t ((cont_suffix hS (step_cont hq hst)).trans hs)
      | brk t => exact finish_functions P L t
      | ret t v => rfl

/-- Function tables that agree on the names in a text give the same evaluation. -/
theorem eval_functions (hS : Suffixes P) (hq : Quiet P.ops) (text : Scan)
    (hL : ∀ t, t <:+ text → ∀ name rest, P.readFunctionName t = some (name, rest) →
      L name = P.lookupFunction name) (err : Err) (radix : Radix) :
    eval (P.withFunctions L) text err radix = eval P text err radix := by
  unfold eval evalFuel
  dsimp only
  have h2 : start (P.withFunctions L) (skipSpaces text) err radix =
      start P (skipSpaces text) err radix := rfl
  rw [h2, loop_functions hS hq text hL _ _ (skipSpaces_suffix text)]

end
end Libasm.Eval
