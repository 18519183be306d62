import Verif.Eval.Kinds
import Verif.Eval.Default
/-
What every evaluation keeps, whatever the text: a property of all values, and that no error is the
code END_ASSEMBLE.
-/
namespace Libasm.Eval
open Scan Number

variable {V : Type}

/-- A result has a property or is an error other than END_ASSEMBLE. -/
def Fine (Q : V → Prop) : Except Err V → Prop
  | .error e => e ≠ .END_ASSEMBLE
  | .ok v => Q v

/-- The operator keeps the property. -/
def Kind.Keeps (Q : V → Prop) : Kind V → Prop
  | .un f => ∀ v r, Q v → f v = .ok r → Fine Q r
  | .bin f => ∀ l r x, Q l → Q r → f l r = .ok x → Fine Q x
  | .fn _ f => ∀ st r, (∀ v ∈ st, Q v) → f st = .ok r → Fine Q r
  | .restoreRadix => True
  | .none => True

/-- The plugins keep the property. -/
structure KeepsAll (Q : V → Prop) (P : Plugins V) : Prop where
  quiet : Quiet P.ops
  undef : Q P.undef
  preOp : ∀ s st r o x, P.ops.readPrefix s st r = .ok (some o, x) → o.kind.Keeps Q
  infOp : ∀ s o rest, P.ops.readInfix s = some (o, rest) → o.kind.Keeps Q
  fn : ∀ name nargs f, P.lookupFunction name = some (nargs, f) →
    ∀ st r, (∀ v ∈ st, Q v) → f st = .ok r → Fine Q r
  constant : ∀ s r, (P.parseConstant s r).1 ≠ .END_ASSEMBLE ∧ Q (P.parseConstant s r).2.1
  symbol : ∀ name v, P.lookupSymbol name = some v → Q v

variable {Q : V → Prop} {P : Plugins V}

def All (Q : V → Prop) (st : List V) : Prop := ∀ v ∈ st, Q v

theorem All.cons {v : V} {st : List V} (hv : Q v) (h : All Q st) : All Q (v :: st) := by
  intro x hx
  rcases List.mem_cons.mp hx with rfl | hx
  · exact hv
  · exact h x hx

theorem All.pop (hK : KeepsAll Q P) {st : List V} (h : All Q st) :
    Q (pop P.undef st).1 ∧ All Q (pop P.undef st).2 := by
  cases st with
  | nil => exact ⟨hK.undef, h⟩
  | cons v st => exact ⟨h v (by simp), fun x hx => h x (List.mem_cons_of_mem _ hx)⟩

def AllKeep (Q : V → Prop) (os : List (Operator V)) : Prop := ∀ o ∈ os, o.kind.Keeps Q

/-- A result of reducing: a stack with the property, or an error. -/
def FineSt (Q : V → Prop) : Except Err (List V × Radix) → Prop
  | .error e => e ≠ .END_ASSEMBLE
  | .ok (st, _) => All Q st

theorem push_all {v : V} {st st' : List V} (hv : Q v) (h : All Q st) (hp : push v st = .ok st') :
    All Q st' := by
  unfold push at hp
  split at hp
  · cases hp; exact h.cons hv
  · cases hp

theorem result_keeps {x : Out (Except Err V)} {st : List V} {radix : Radix}
    {y : Except Err (List V × Radix)} (hx : ∀ r, x = .ok r → Fine Q r) (hst : All Q st)
    (h : (x.bind fun r => (pushResult st r).bind fun r => .ok (r.map (·, radix))) = .ok y) :
    FineSt Q y := by
  obtain ⟨r, h1, h3⟩ := Out.bind_ok h
  obtain ⟨r', h2, h⟩ := Out.bind_ok h3
  clear h3
  have hr := hx r h1
  cases r with
  | error e =>
    simp only [pushResult, Out.ok.injEq] at h2
    rw [← h2] at h
    simp only [Except.map, Out.ok.injEq] at h
    rw [← h]; exact hr
  | ok v =>
    simp only [pushResult] at h2
    obtain ⟨st', h4, h2⟩ := Out.bind_ok h2
    simp only [Out.ok.injEq] at h2
    rw [← h2] at h
    simp only [Except.map, Out.ok.injEq] at h
    rw [← h]; exact push_all hr hst h4

theorem evalOp_keeps (hK : KeepsAll Q P) {o : Operator V} (ho : o.kind.Keeps Q) {st : List V}
    (hst : All Q st) {radix : Radix} {argc : Int} {y : Except Err (List V × Radix)}
    (h : evalOp P o st radix argc = .ok y) : FineSt Q y := by
  unfold evalOp Operator.eval at h
  dsimp only at h
  generalize (if argc = 0 then (st.length : Int) else argc) = A at h
  have h1 := hst.pop hK
  have h2 := h1.2.pop hK
  cases hk : o.kind with
  | fn nargs f =>
    rw [hk] at h ho
    dsimp only at h
    split at h
    · exact result_keeps (fun r hr => ho st r hst hr)
        (fun v hv => hst v (List.mem_of_mem_drop hv)) h
    · cases h
      by_cases hA : A > nargs
      · rw [if_pos hA]; exact (by decide : Err.TOO_MANY_FUNC_ARGUMENT ≠ .END_ASSEMBLE)
      · rw [if_neg hA]; exact (by decide : Err.TOO_FEW_FUNC_ARGUMENT ≠ .END_ASSEMBLE)
  | un f =>
    rw [hk] at h ho
    dsimp only at h
    split at h
    · exact result_keeps (fun r hr => ho _ r h1.1 hr) h1.2 h
    · cases h; exact (by decide : Err.MISSING_OPERAND ≠ .END_ASSEMBLE)
  | bin f =>
    rw [hk] at h ho
    dsimp only at h
    split at h
    · exact result_keeps (fun r hr => ho _ _ r h2.1 h1.1 hr) h2.2 h
    · cases h; exact (by decide : Err.MISSING_OPERAND ≠ .END_ASSEMBLE)
  | restoreRadix =>
    rw [hk] at h
    dsimp only at h
    split at h
    · obtain ⟨st', h3, h⟩ := Out.bind_ok h
      cases h
      exact push_all h1.1 h2.2 h3
    · cases h; exact (by decide : Err.MISSING_OPERAND ≠ .END_ASSEMBLE)
  | none =>
    rw [hk] at h
    dsimp only at h
    split at h
    · cases h
    · cases h; exact (by decide : Err.MISSING_OPERAND ≠ .END_ASSEMBLE)

/-- A result of reducing with operators left over. -/
def FineOs (Q : V → Prop) : Except Err (List (Operator V) × List V × Radix) → Prop
  | .error e => e ≠ .END_ASSEMBLE
  | .ok (os, st, _) => AllKeep Q os ∧ All Q st

theorem reduceInfix_keeps (hK : KeepsAll Q P) (opr : Operator V) :
    ∀ (os : List (Operator V)) (st : List V) (r : Radix) y, AllKeep Q os → All Q st →
      reduceInfix P opr os st r = .ok y → FineOs Q y := by
  intro os
  induction os with
  | nil => intro st r y ho hs h; cases h; exact ⟨ho, hs⟩
  | cons t os ih =>
    intro st r y ho hs h
    unfold reduceInfix at h
    split at h
    · cases h; exact (by decide : Err.OPERATOR_NOT_ASSOCIATIVE ≠ .END_ASSEMBLE)
    split at h
    · obtain ⟨a, ha, h⟩ := Out.bind_ok h
      have := evalOp_keeps hK (ho t (by simp)) hs ha
      rcases a with e | ⟨st, r⟩
      · cases h; exact this
      · exact ih _ _ _ (fun x hx => ho x (by simp [hx])) this h
    · cases h; exact ⟨ho, hs⟩

theorem reduceComma_keeps (hK : KeepsAll Q P) :
    ∀ (os : List (Operator V)) (st : List V) (r : Radix) y, AllKeep Q os → All Q st →
      reduceComma P os st r = .ok y → FineOs Q y := by
  intro os
  induction os with
  | nil => intro st r y ho hs h; cases h
  | cons t os ih =>
    intro st r y ho hs h
    unfold reduceComma at h
    split at h
    · cases h; exact ⟨ho, hs⟩
    · obtain ⟨a, ha, h⟩ := Out.bind_ok h
      have := evalOp_keeps hK (ho t (by simp)) hs ha
      rcases a with e | ⟨st, r⟩
      · cases h; exact this
      · exact ih _ _ _ (fun x hx => ho x (by simp [hx])) this h

theorem reduceClose_keeps (hK : KeepsAll Q P) :
    ∀ (os : List (Operator V)) (st : List V) (r : Radix) y, AllKeep Q os → All Q st →
      reduceClose P os st r = .ok y → FineOs Q y := by
  intro os
  induction os with
  | nil => intro st r y ho hs h; cases h; exact ⟨ho, hs⟩
  | cons t os ih =>
    intro st r y ho hs h
    unfold reduceClose at h
    split at h
    · cases h; exact ⟨ho, hs⟩
    · obtain ⟨a, ha, h⟩ := Out.bind_ok h
      have := evalOp_keeps hK (ho t (by simp)) hs ha
      rcases a with e | ⟨st, r⟩
      · cases h; exact this
      · exact ih _ _ _ (fun x hx => ho x (by simp [hx])) this h

theorem reduceAll_keeps (hK : KeepsAll Q P) :
    ∀ (os : List (Operator V)) (st : List V) (r : Radix) y, AllKeep Q os → All Q st →
      reduceAll P os st r = .ok y → FineSt Q y := by
  intro os
  induction os with
  | nil => intro st r y ho hs h; cases h; exact hs
  | cons t os ih =>
    intro st r y ho hs h
    unfold reduceAll at h
    split at h
    · cases h; exact (by decide : Err.MISSING_CLOSING_PAREN ≠ .END_ASSEMBLE)
    · obtain ⟨a, ha, h⟩ := Out.bind_ok h
      have := evalOp_keeps hK (ho t (by simp)) hs ha
      rcases a with e | ⟨st, r⟩
      · cases h; exact this
      · exact ih _ _ _ (fun x hx => ho x (by simp [hx])) this h

/-- What holds of the local variables. -/
structure Keep (Q : V → Prop) (s : St V) : Prop where
  values : All Q s.vst
  ops : AllKeep Q s.ost
  err : s.err ≠ .END_ASSEMBLE

def FineNext (Q : V → Prop) : Next V → Prop
  | .cont s => Keep Q s
  | .brk s => Keep Q s
  | .ret s v => s.err ≠ .END_ASSEMBLE ∧ Q v

theorem setErrorIf_noEnd {a e : Err} (ha : a ≠ .END_ASSEMBLE) (he : e ≠ .END_ASSEMBLE) :
    setErrorIf a e ≠ .END_ASSEMBLE := by
  unfold setErrorIf
  split
  · exact he
  · exact ha

theorem fail_fine (hK : KeepsAll Q P) {s : St V} {e : Err} {n : Next V} (hs : s.err ≠ .END_ASSEMBLE)
    (he : e ≠ .END_ASSEMBLE) (h : fail P s e = .ok n) : FineNext Q n := by
  cases h
  exact ⟨setErrorIf_noEnd hs he, hK.undef⟩

theorem stepOperator_fine (hK : KeepsAll Q P) {s : St V} {o : Operator V} {rest : Scan} {n : Next V}
    (hs : Keep Q s) (ho : o.kind.Keeps Q) (h : stepOperator P s o rest = .ok n) : FineNext Q n := by
  unfold stepOperator at h
  obtain ⟨a, ha, h⟩ := Out.bind_ok h
  have := reduceInfix_keeps hK o _ _ _ _ hs.ops hs.values ha
  rcases a with e | ⟨ost, vst, radix⟩
  · exact fail_fine hK (by exact hs.err) this h
  · dsimp only at h
    split at h
    · exact fail_fine hK (by exact hs.err) (by decide) h
    · cases h
      refine ⟨this.2, fun x hx => ?_, hs.err⟩
      rcases List.mem_cons.mp hx with rfl | hx
      · exact ho
      · exact this.1 x hx

theorem stepPunct_fine (hK : KeepsAll Q P) {s : St V} {expr scan : Scan} {n : Next V}
    (hs : Keep Q s) (h : stepPunct P s expr scan = .ok n) : FineNext Q n := by
  unfold stepPunct at h
  split at h
  next rest hc =>
    obtain ⟨a, ha, h⟩ := Out.bind_ok h
    have := reduceComma_keeps hK _ _ _ _ hs.ops hs.values ha
    rcases a with e | ⟨ost, vst, radix⟩
    · exact fail_fine hK (by exact hs.err) this h
    · cases h; exact ⟨this.2, this.1, hs.err⟩
  next =>
    split at h
    next rest ho =>
      split at h
      · cases h; exact ⟨hs.values, hs.ops, hs.err⟩
      · split at h
        · exact fail_fine hK (by exact hs.err) (by decide) h
        · cases h
          refine ⟨hs.values, fun x hx => ?_, hs.err⟩
          rcases List.mem_cons.mp hx with rfl | hx
          · trivial
          · exact hs.ops x hx
    next =>
      split at h
      next rest hc =>
        obtain ⟨a, ha, h⟩ := Out.bind_ok h
        have := reduceClose_keeps hK _ _ _ _ hs.ops hs.values ha
        rcases a with e | ⟨ost, vst, radix⟩
        · exact fail_fine hK (by exact hs.err) this h
        · cases ost with
          | nil => cases h; exact ⟨this.2, this.1, hs.err⟩
          | cons p ost =>
            cases ost with
            | nil => cases h; exact ⟨this.2, fun x hx => (by cases hx), hs.err⟩
            | cons f ost =>
              dsimp only at h
              have hr : AllKeep Q ost := fun x hx => this.1 x (by simp [hx])
              split at h
              · obtain ⟨b, hb, h⟩ := Out.bind_ok h
                have h2 := evalOp_keeps hK (this.1 f (by simp)) this.2 hb
                rcases b with e | ⟨vst', radix'⟩
                · exact fail_fine hK (by exact hs.err) h2 h
                · cases h; exact ⟨h2, hr, hs.err⟩
              · cases h; exact ⟨this.2, fun x hx => this.1 x (by simp at hx ⊢; exact .inr hx), hs.err⟩
      next => cases h; exact ⟨hs.values, hs.ops, hs.err⟩

theorem stepSymbol_fine (hK : KeepsAll Q P) {s : St V} {expr scan : Scan} {n : Next V}
    (hs : Keep Q s) (h : stepSymbol P s expr scan = .ok n) : FineNext Q n := by
  unfold stepSymbol at h
  split at h
  next name rest _ =>
    split at h
    · exact fail_fine hK (by exact hs.err) (by decide) h
    · dsimp only at h
      split at h
      next v hv =>
        obtain ⟨a, ha, h⟩ := Out.bind_ok h
        cases h
        exact ⟨push_all (hK.symbol _ _ hv) hs.values ha, hs.ops, hs.err⟩
      next =>
        obtain ⟨a, ha, h⟩ := Out.bind_ok h
        cases h
        exact ⟨push_all hK.undef hs.values ha, hs.ops, setErrorIf_noEnd hs.err (by decide)⟩
  next => exact stepPunct_fine hK hs h

theorem stepOperand_fine (hK : KeepsAll Q P) {s : St V} {expr scan : Scan} {n : Next V}
    (hs : Keep Q s) (h : stepOperand P s expr scan = .ok n) : FineNext Q n := by
  have hc := hK.constant scan s.radix
  unfold stepOperand at h
  split at h
  next v rest h1 =>
    rw [h1] at hc
    split at h
    · exact fail_fine hK (by exact hs.err) (by decide) h
    · obtain ⟨a, ha, h⟩ := Out.bind_ok h
      cases h
      exact ⟨push_all hc.2 hs.values ha, hs.ops, hs.err⟩
  next v _ h1 =>
    rw [h1] at hc
    split at h
    next name rest hr =>
      split at h
      next nargs f hl =>
        dsimp only at h
        split at h
        · cases h; exact ⟨setErrorIf_noEnd hs.err (by decide), hc.2⟩
        · cases h
          refine ⟨hs.values, ?_, hs.err⟩
          show AllKeep Q (if _ then _ else _)
          split
          · intro x hx
            rcases List.mem_cons.mp hx with rfl | hx
            · exact hK.fn _ _ _ hl
            · exact hs.ops x hx
          · exact hs.ops
      next => exact stepSymbol_fine hK hs h
    next => exact stepSymbol_fine hK hs h
  next e v rest _ _ h1 =>
    rw [h1] at hc
    cases h
    exact ⟨setErrorIf_noEnd hs.err hc.1, hc.2⟩

theorem step_fine (hK : KeepsAll Q P) {s : St V} {n : Next V} (hs : Keep Q s)
    (h : step P s = .ok n) : FineNext Q n := by
  unfold step at h
  dsimp only at h
  split at h
  · cases h; exact ⟨hs.values, hs.ops, hs.err⟩
  split at h
  · cases h; exact ⟨hs.values, hs.ops, hs.err⟩
  split at h
  · obtain ⟨o, rest, hr⟩ := hK.quiet (skipSpaces s.scan) s.vst s.radix
    rw [hr] at h
    dsimp only [Out.bind] at h
    split at h
    · cases h; exact ⟨hs.err, hK.undef⟩
    · cases o with
      | some o =>
        exact stepOperator_fine hK (s := { s with vst := s.vst }) hs (hK.preOp _ _ _ _ _ hr) h
      | none => exact stepOperand_fine hK (s := { s with vst := s.vst }) hs h
  · split at h
    next o rest hr =>
      split at h
      · cases h; exact ⟨hs.err, hK.undef⟩
      · exact stepOperator_fine hK hs (hK.infOp _ _ _ hr) h
    next =>
      split at h
      · cases h; exact ⟨hs.err, hK.undef⟩
      · exact stepPunct_fine hK hs h

theorem loop_fine (hK : KeepsAll Q P) (fuel : Nat) :
    ∀ (s : St V) (r : Result V), Keep Q s → loop P fuel s = .ok r →
      r.err ≠ .END_ASSEMBLE ∧ Q r.value := by
  induction fuel with
  | zero => intro s r _ h; cases h
  | succ fuel ih =>
    intro s r hs h
    unfold loop at h
    obtain ⟨a, ha, h⟩ := Out.bind_ok h
    have := step_fine hK hs ha
    cases a with
    | cont s' => exact ih _ _ this h
    | brk u =>
      unfold finish at h
      obtain ⟨b, hb, h⟩ := Out.bind_ok h
      have h2 := reduceAll_keeps hK _ _ _ _ this.ops this.values hb
      rcases b with e | ⟨vst, radix⟩
      · cases h; exact ⟨setErrorIf_noEnd this.err h2, hK.undef⟩
      · cases h; exact ⟨this.err, (All.pop hK h2).1⟩
    | ret s' v => cases h; exact this

/-- Whatever the text, the value has the property and the error is not END_ASSEMBLE. -/
theorem eval_fine (hK : KeepsAll Q P) {text : Scan} {err : Err} (he : err ≠ .END_ASSEMBLE)
    {radix : Radix} {r : Result V} (h : eval P text err radix = .ok r) :
    r.err ≠ .END_ASSEMBLE ∧ Q r.value := by
  unfold eval evalFuel at h
  dsimp only at h
  obtain ⟨a, ha, h⟩ := Out.bind_ok h
  have := loop_fine hK _ _ a ⟨fun v hv => (by cases hv), fun o ho => (by cases ho), he⟩ ha
  cases h
  split
  · exact ⟨setErrorIf_noEnd this.1 (by decide), this.2⟩
  · exact this

end Libasm.Eval
