import Verif.Eval.Operators
/-
The possible iterations of the loop of `_eval`, as a relation, for operator parsers whose
`readPrefix` leaves the value stack and the radix alone (all but PDP-11).
-/
namespace Libasm.Eval
open Scan Number

variable {V : Type}

theorem Out.bind_ok {α β : Type} {x : Out α} {f : α → Out β} {b : β} (h : x.bind f = .ok b) :
    ∃ a, x = .ok a ∧ f a = .ok b := by
  cases x with
  | ok a => exact ⟨a, rfl, h⟩
  | stackUB => cases h
  | ub => cases h
  | diverge => cases h

/-- `readPrefix` does not use the value stack nor the radix. -/
def Quiet (p : OpParser V) : Prop :=
  ∀ s st r, ∃ o rest, p.readPrefix s st r = .ok (o, rest, st, r)

/-- One iteration that goes on: from which state to which. -/
inductive Cont (P : Plugins V) (s : St V) : St V → Prop
  | const (v : V) (rest : Scan) (hp : s.maybePrefix = true)
      (hpre : ∃ x, P.ops.readPrefix (skipSpaces s.scan) s.vst s.radix = .ok (none, x, s.vst, s.radix))
      (hc : P.parseConstant (skipSpaces s.scan) s.radix = (.OK, v, rest))
      (hfull : s.vst.length < capacity) :
      Cont P s { s with
        scan := rest, vst := v :: s.vst, maybePrefix := false, trace := .operand :: s.trace }
  | symbol (name : List Char) (v : V) (rest : Scan) (hp : s.maybePrefix = true)
      (hpre : ∃ x, P.ops.readPrefix (skipSpaces s.scan) s.vst s.radix = .ok (none, x, s.vst, s.radix))
      (hs : P.readSymbol (skipSpaces s.scan) = some (name, rest))
      (hl : P.lookupSymbol name = some v) (hfull : s.vst.length < capacity) :
      Cont P s { s with
        scan := rest, vst := v :: s.vst, maybePrefix := false, trace := .operand :: s.trace }
  | undef (name : List Char) (rest : Scan) (hp : s.maybePrefix = true)
      (hpre : ∃ x, P.ops.readPrefix (skipSpaces s.scan) s.vst s.radix = .ok (none, x, s.vst, s.radix))
      (hs : P.readSymbol (skipSpaces s.scan) = some (name, rest))
      (hl : P.lookupSymbol name = none) (hfull : s.vst.length < capacity) :
      Cont P s { s with
        scan := rest, vst := P.undef :: s.vst, maybePrefix := false
        err := setErrorIf s.err .UNDEFINED_SYMBOL, trace := .operand :: s.trace }
  | fn (name : List Char) (nargs : Int) (f : List V → Out (Except Err V)) (rest : Scan)
      (hp : s.maybePrefix = true)
      (hr : P.readFunctionName (skipSpaces s.scan) = some (name, rest))
      (hl : P.lookupFunction name = some (nargs, f))
      (ho : (P.ops.isOpen (skipSpaces rest)).isSome) :
      Cont P s { s with
        scan := skipSpaces rest
        ost := if s.ost.length < capacity then Operator.function nargs f :: s.ost else s.ost
        maybePrefix := false, expectFnArgs := true, inFnArgs := s.inFnArgs + 1
        trace := .fn :: s.trace }
  | operator (o : Operator V) (rest : Scan) (ost : List (Operator V)) (vst : List V)
      (radix : Radix)
      (ho : (s.maybePrefix = true ∧
          P.ops.readPrefix (skipSpaces s.scan) s.vst s.radix = .ok (some o, rest, s.vst, s.radix)) ∨
        (s.maybePrefix = false ∧ P.ops.readInfix (skipSpaces s.scan) = some (o, rest)))
      (hr : reduceInfix P o s.ost s.vst s.radix = .ok (.ok (ost, vst, radix)))
      (hfull : ost.length < capacity) :
      Cont P s { s with
        scan := rest, vst := vst, radix := radix, ost := o :: ost, maybePrefix := true
        trace := (if s.maybePrefix then .prefix else .infix) :: s.trace }
  | comma (rest : Scan) (ost : List (Operator V)) (vst : List V) (radix : Radix)
      (hin : s.inFnArgs > 0) (hc : expect ',' (skipSpaces s.scan) = some rest)
      (hr : reduceComma P s.ost s.vst s.radix = .ok (.ok (ost, vst, radix))) :
      Cont P s { s with
        scan := rest, ost := ost, vst := vst, radix := radix, maybePrefix := true
        trace := .comma :: s.trace }
  | opening (rest : Scan) (ho : P.ops.isOpen (skipSpaces s.scan) = some rest)
      (hp : s.maybePrefix = true ∨ s.expectFnArgs = true) (hfull : s.ost.length < capacity) :
      Cont P s { s with
        scan := rest, ost := .paren s.vst.length :: s.ost, endOfExpr := '\x00'
        inParen := s.inParen + 1, maybePrefix := true, expectFnArgs := false
        trace := .opening :: s.trace }
  | closing (rest : Scan) (p : Operator V) (ost : List (Operator V)) (vst : List V)
      (radix : Radix) (hc : P.ops.isClose (skipSpaces s.scan) = some rest)
      (hr : reduceClose P s.ost s.vst s.radix = .ok (.ok (p :: ost, vst, radix)))
      (hf : ∀ f, ost.head? = some f → f.isFunction = false) :
      Cont P s { s with
        scan := rest, vst := vst, radix := radix, ost := ost
        inParen := s.inParen - 1, maybePrefix := false
        endOfExpr := if s.inParen - 1 = 0 then P.delimitor else s.endOfExpr
        trace := .closing :: s.trace }
  | call (rest : Scan) (p f : Operator V) (ost : List (Operator V)) (vst vst' : List V)
      (radix radix' : Radix) (hc : P.ops.isClose (skipSpaces s.scan) = some rest)
      (hr : reduceClose P s.ost s.vst s.radix = .ok (.ok (p :: f :: ost, vst, radix)))
      (hf : f.isFunction = true)
      (he : evalOp P f vst radix (vst.length - p.nargs) = .ok (.ok (vst', radix'))) :
      Cont P s { s with
        scan := rest, vst := vst', radix := radix', ost := ost
        inFnArgs := s.inFnArgs - 1, inParen := s.inParen - 1, maybePrefix := false
        endOfExpr := if s.inParen - 1 = 0 then P.delimitor else s.endOfExpr
        trace := .closing :: s.trace }

theorem stepOperator_cont {P : Plugins V} {s s' : St V} {o : Operator V} {rest : Scan}
    (ho : (s.maybePrefix = true ∧
          P.ops.readPrefix (skipSpaces s.scan) s.vst s.radix = .ok (some o, rest, s.vst, s.radix)) ∨
        (s.maybePrefix = false ∧ P.ops.readInfix (skipSpaces s.scan) = some (o, rest)))
    (h : stepOperator P s o rest = .ok (.cont s')) : Cont P s s' := by
  unfold stepOperator at h
  obtain ⟨a, ha, h⟩ := Out.bind_ok h
  rcases a with e | ⟨ost, vst, radix⟩
  · simp [fail] at h
  · dsimp only at h
    by_cases hf : ost.length ≥ capacity
    · rw [if_pos hf] at h; simp [fail] at h
    · rw [if_neg hf] at h
      simp only [Out.ok.injEq, Next.cont.injEq] at h
      subst h
      exact .operator o rest ost vst radix ho ha (by omega)

theorem stepPunct_cont {P : Plugins V} {s s' : St V}
    (h : stepPunct P s s.scan (skipSpaces s.scan) = .ok (.cont s')) : Cont P s s' := by
  unfold stepPunct at h
  split at h
  next rest hc =>
    obtain ⟨a, ha, h⟩ := Out.bind_ok h
    rcases a with e | ⟨ost, vst, radix⟩
    · simp [fail] at h
    · simp only [Out.ok.injEq, Next.cont.injEq] at h
      subst h
      by_cases hin : s.inFnArgs > 0
      · rw [if_pos hin] at hc
        exact .comma rest ost vst radix hin hc ha
      · rw [if_neg hin] at hc; cases hc
  next =>
    split at h
    next rest ho =>
      by_cases hp : (!s.maybePrefix && !s.expectFnArgs) = true
      · rw [if_pos hp] at h; cases h
      · rw [if_neg hp] at h
        by_cases hf : s.ost.length ≥ capacity
        · rw [if_pos hf] at h; simp [fail] at h
        · rw [if_neg hf] at h
          simp only [Out.ok.injEq, Next.cont.injEq] at h
          subst h
          refine .opening rest ho ?_ (by omega)
          cases h1 : s.maybePrefix <;> cases h2 : s.expectFnArgs <;> simp [h1, h2] at hp ⊢
    next =>
      split at h
      next rest hc =>
        obtain ⟨a, ha, h⟩ := Out.bind_ok h
        rcases a with e | ⟨ost, vst, radix⟩
        · simp [fail] at h
        · cases ost with
          | nil => cases h
          | cons p ost =>
            cases ost with
            | nil =>
              simp only [Out.ok.injEq, Next.cont.injEq] at h
              subst h
              exact .closing rest p [] vst radix hc ha (by intro f hf; cases hf)
            | cons f ost =>
              dsimp only at h
              by_cases hf : f.isFunction = true
              · rw [if_pos hf] at h
                obtain ⟨b, hb, h⟩ := Out.bind_ok h
                rcases b with e | ⟨vst', radix'⟩
                · simp [fail] at h
                · simp only [Out.ok.injEq, Next.cont.injEq] at h
                  subst h
                  exact .call rest p f ost vst vst' radix radix' hc ha hf hb
              · rw [if_neg hf] at h
                simp only [Out.ok.injEq, Next.cont.injEq] at h
                subst h
                refine .closing rest p (f :: ost) vst radix hc ha ?_
                intro g hg
                injection hg with hg
                subst hg
                simpa using hf
      next => cases h

theorem stepSymbol_cont {P : Plugins V} {s s' : St V} (hp : s.maybePrefix = true)
    (hpre : ∃ x, P.ops.readPrefix (skipSpaces s.scan) s.vst s.radix = .ok (none, x, s.vst, s.radix))
    (h : stepSymbol P s s.scan (skipSpaces s.scan) = .ok (.cont s')) : Cont P s s' := by
  unfold stepSymbol at h
  split at h
  next name rest hs =>
    by_cases hf : s.vst.length ≥ capacity
    · rw [if_pos hf] at h; simp [fail] at h
    · rw [if_neg hf] at h
      have hlt : s.vst.length < capacity := by omega
      dsimp only at h
      split at h
      next v hl =>
        obtain ⟨a, ha, h⟩ := Out.bind_ok h
        unfold push at ha
        rw [if_pos hlt] at ha
        simp only [Out.ok.injEq] at ha
        subst ha
        simp only [Out.ok.injEq, Next.cont.injEq] at h
        subst h
        exact .symbol name v rest hp hpre hs hl hlt
      next hl =>
        obtain ⟨a, ha, h⟩ := Out.bind_ok h
        unfold push at ha
        rw [if_pos hlt] at ha
        simp only [Out.ok.injEq] at ha
        subst ha
        simp only [Out.ok.injEq, Next.cont.injEq] at h
        subst h
        exact .undef name rest hp hpre hs hl hlt
  next => exact stepPunct_cont h

theorem stepOperand_cont {P : Plugins V} {s s' : St V} (hp : s.maybePrefix = true)
    (hpre : ∃ x, P.ops.readPrefix (skipSpaces s.scan) s.vst s.radix = .ok (none, x, s.vst, s.radix))
    (h : stepOperand P s s.scan (skipSpaces s.scan) = .ok (.cont s')) : Cont P s s' := by
  unfold stepOperand at h
  split at h
  next v rest hc =>
    by_cases hf : s.vst.length ≥ capacity
    · rw [if_pos hf] at h; simp [fail] at h
    · rw [if_neg hf] at h
      have hlt : s.vst.length < capacity := by omega
      obtain ⟨a, ha, h⟩ := Out.bind_ok h
      unfold push at ha
      rw [if_pos hlt] at ha
      simp only [Out.ok.injEq] at ha
      subst ha
      simp only [Out.ok.injEq, Next.cont.injEq] at h
      subst h
      exact .const v rest hp hpre hc hlt
  next =>
    split at h
    next name rest hr =>
      split at h
      next nargs f hl =>
        dsimp only at h
        split at h
        next => cases h
        next x ho =>
          simp only [Out.ok.injEq, Next.cont.injEq] at h
          subst h
          exact .fn name nargs f rest hp hr hl (by rw [ho]; rfl)
      next => exact stepSymbol_cont hp hpre h
    next => exact stepSymbol_cont hp hpre h
  next => cases h

/-- Every iteration that goes on is one of `Cont`. -/
theorem step_cont {P : Plugins V} (hq : Quiet P.ops) {s s' : St V}
    (h : step P s = .ok (.cont s')) : Cont P s s' := by
  unfold step at h
  dsimp only at h
  by_cases h1 : P.endOfLine (skipSpaces s.scan) = true
  · rw [if_pos h1] at h; cases h
  rw [if_neg h1] at h
  by_cases h2 : deref (skipSpaces s.scan) = s.endOfExpr ∧ s.vst ≠ []
  · rw [if_pos h2] at h; cases h
  rw [if_neg h2] at h
  by_cases hp : s.maybePrefix = true
  · rw [if_pos hp] at h
    obtain ⟨o, rest, hr⟩ := hq (skipSpaces s.scan) s.vst s.radix
    rw [hr] at h
    dsimp only [Out.bind] at h
    by_cases he : hasError s.err = true
    · rw [if_pos he] at h; cases h
    · rw [if_neg he] at h
      cases o with
      | some o => exact stepOperator_cont (s := s) (Or.inl ⟨hp, hr⟩) h
      | none => exact stepOperand_cont (s := s) hp ⟨rest, hr⟩ h
  · rw [if_neg hp] at h
    split at h
    next o rest hr =>
      by_cases he : hasError s.err = true
      · rw [if_pos he] at h; cases h
      · rw [if_neg he] at h
        exact stepOperator_cont (Or.inr ⟨by simpa using hp, hr⟩) h
    next =>
      by_cases he : hasError s.err = true
      · rw [if_pos he] at h; cases h
      · rw [if_neg he] at h
        exact stepPunct_cont h

end Libasm.Eval
