import Verif.Eval.Kinds
import Verif.Eval.Spec
/-
The stacks of the evaluator against syntax trees: pending operators and what reducing them gives.
-/
namespace Libasm.Eval
open Scan Number Ctype Spec

def opOf1 : UnOp → Op
  | .plus => opUnaryPlus | .minus => opUnaryMinus | .compl => opBitwiseNot | .not => opLogicalNot

def opOf : BinOp → Op
  | .mul => opMul | .div => opDiv | .mod => opMod | .add => opAdd | .sub => opSub
  | .shl => opShiftLeft | .shr => opShiftRight
  | .lt => opLogicalLt | .le => opLogicalLe | .ge => opLogicalGe | .gt => opLogicalGt
  | .eq => opLogicalEq | .ne => opLogicalNe
  | .and => opBitwiseAnd | .xor => opBitwiseXor | .or => opBitwiseOr
  | .land => opLogicalAnd | .lor => opLogicalOr

def fn1 : UnOp → Value → Out (Except Err Value)
  | .plus => unaryPlus | .minus => unaryMinus | .compl => bitwiseNot | .not => logicalNot

def fn2 : BinOp → Value → Value → Out (Except Err Value)
  | .mul => multiply | .div => divide | .mod => modulo | .add => add | .sub => subtract
  | .shl => logicalShiftLeft | .shr => arithmeticShiftRight
  | .lt => lessThan | .le => lessThanOrEqual | .ge => greaterThanOrEqual | .gt => greaterThan
  | .eq => logicalEqual | .ne => logicalNotEqual
  | .and => bitwiseAnd | .xor => bitwiseXor | .or => bitwiseOr
  | .land => logicalAnd | .lor => logicalOr

/-- The precedence number of a level. -/
def lvl (n : Nat) : Nat :=
  if n = 0 then 0 else if n = 1 then 3 else if n ≤ 4 then n + 3 else n + 4

theorem lvl_mono {a b : Nat} (h : a < b) : lvl a < lvl b := by
  unfold lvl
  (repeat' split) <;> omega

theorem lvl_le {a b : Nat} (h : a ≤ b) : lvl a ≤ lvl b := by
  rcases Nat.eq_or_lt_of_le h with h | h
  · rw [h]; exact Nat.le_refl _
  · exact Nat.le_of_lt (lvl_mono h)

theorem lvl_inj {a b : Nat} (h : lvl a = lvl b) : a = b := by
  rcases Nat.lt_trichotomy a b with h1 | h1 | h1
  · have := lvl_mono h1; omega
  · exact h1
  · have := lvl_mono h1; omega

theorem lvl_bound {a : Nat} (h : a ≤ 11) : lvl a ≤ 15 := lvl_le h

theorem level_le (e : Expr) : e.level ≤ 11 := by
  cases e <;> simp only [Expr.level] <;> try omega
  next o _ _ => cases o <;> simp [BinOp.level]

theorem binLevel_ge (o : BinOp) : 2 ≤ o.level := by cases o <;> simp [BinOp.level]

theorem chains_level (o : BinOp) : o.chains = decide (o.level ≠ 5 ∧ o.level ≠ 6) := by
  cases o <;> rfl

theorem opOf_prec (o : BinOp) : (opOf o).prec = lvl o.level := by cases o <;> rfl
theorem opOf1_prec (o : UnOp) : (opOf1 o).prec = 3 := by cases o <;> rfl
theorem opOf1_assoc (o : UnOp) : (opOf1 o).assoc = .right := by cases o <;> rfl
theorem opOf_assoc (o : BinOp) : (opOf o).assoc = if o.chains then .left else .none := by
  cases o <;> rfl

/-- Sequencing of results that may be errors. -/
def thenE (x : Out (Except Err Value)) (f : Value → Out (Except Err Value)) :
    Out (Except Err Value) :=
  x.bind fun
    | .error e => .ok (.error e)
    | .ok v => f v

/-- Pending operators `O` over the values `V` stand for the result `x`. -/
inductive Pend : List Op → List Value → Out (Except Err Value) → Prop
  | nil (v : Value) : Pend [] [v] (.ok (.ok v))
  | un (o : UnOp) {O V x} : Pend O V x → Pend (O ++ [opOf1 o]) V (thenE x (fn1 o))
  | bin (o : BinOp) (l : Value) {O V x} :
      Pend O V x → Pend (O ++ [opOf o]) (V ++ [l]) (thenE x (fn2 o l))

theorem pend_pos {O : List Op} {V : List Value} {x : Out (Except Err Value)} (h : Pend O V x) :
    0 < V.length := by
  induction h with
  | nil v => exact Nat.zero_lt_one
  | un o _ ih => exact ih
  | bin o l _ _ => rw [List.length_append]; exact Nat.lt_add_left _ Nat.zero_lt_one

theorem pushResult_ok {st : List Value} (h : st.length < 8) (radix : Radix)
    (x : Out (Except Err Value)) :
    (x.bind fun r => (pushResult st r).bind fun r => Out.ok (r.map (·, radix))) =
    x.bind fun
      | .error e => .ok (.error e)
      | .ok w => .ok (.ok (w :: st, radix)) := by
  cases x with
  | ok r =>
    cases r with
    | error e => rfl
    | ok w =>
      show (pushResult st (.ok w)).bind _ = _
      unfold pushResult
      dsimp only
      unfold push
      rw [if_pos (show st.length < capacity from h)]
      rfl
  | _ => rfl

theorem evalOp_un (P : Plugins Value) (o : UnOp) (v : Value) (st : List Value) (r : Radix)
    (h : st.length < 8) :
    evalOp P (opOf1 o) (v :: st) r 0 = (fn1 o v).bind fun
      | .error e => .ok (.error e)
      | .ok w => .ok (.ok (w :: st, r)) := by
  rw [← pushResult_ok h]
  unfold evalOp Operator.eval
  dsimp only
  have hk : (opOf1 o).kind = .un (fn1 o) := by cases o <;> rfl
  have hn : (opOf1 o).nargs = 1 := by cases o <;> rfl
  rw [hk]
  dsimp only
  rw [hn, if_pos (by rw [if_pos rfl, List.length_cons]; omega)]
  rfl

theorem evalOp_bin (P : Plugins Value) (o : BinOp) (l v : Value) (st : List Value) (r : Radix)
    (h : st.length < 8) :
    evalOp P (opOf o) (v :: l :: st) r 0 = (fn2 o l v).bind fun
      | .error e => .ok (.error e)
      | .ok w => .ok (.ok (w :: st, r)) := by
  rw [← pushResult_ok h]
  unfold evalOp Operator.eval
  dsimp only
  have hk : (opOf o).kind = .bin (fn2 o) := by cases o <;> rfl
  have hn : (opOf o).nargs = 2 := by cases o <;> rfl
  rw [hk]
  dsimp only
  rw [hn, if_pos (by rw [if_pos rfl, List.length_cons, List.length_cons]; omega)]
  rfl

/-- What the three reductions have in common: they evaluate the top operator when `q` holds of
it. -/
theorem pend_reduce {β : Type} (P : Plugins Value)
    (R : List Op → List Value → Radix → Out (Except Err β)) (q : Op → Prop)
    (hR : ∀ t os st r, q t → R (t :: os) st r = (evalOp P t st r 0).bind fun
      | .error e => .ok (.error e)
      | .ok (st, r) => R os st r)
    {O : List Op} {V : List Value} {x : Out (Except Err Value)} (h : Pend O V x) :
    (∀ t ∈ O, q t) → ∀ (os : List Op) (st : List Value) (r : Radix), (V ++ st).length ≤ 8 →
      R (O ++ os) (V ++ st) r = x.bind fun
        | .error e => .ok (.error e)
        | .ok v => R os (v :: st) r := by
  induction h with
  | nil v => intro _ os st r _; rfl
  | @un o O V x hp ih =>
    intro hq os st r hl
    have hst : st.length < 8 := by
      have := pend_pos hp
      rw [List.length_append] at hl
      omega
    rw [List.append_assoc, ih (fun t ht => hq t (List.mem_append_left _ ht)) _ _ _ hl]
    unfold thenE
    cases x with
    | ok a =>
      cases a with
      | error e => rfl
      | ok v =>
        dsimp only [Out.bind]
        rw [List.singleton_append, hR _ _ _ _ (hq _ (List.mem_append_right _ (List.mem_singleton.mpr rfl))),
          evalOp_un P o v st r hst]
        cases fn1 o v with
        | ok a => cases a <;> rfl
        | _ => rfl
    | _ => rfl
  | @bin o l O V x _ ih =>
    intro hq os st r hl
    rw [List.append_assoc, List.append_assoc] at *
    rw [List.singleton_append, List.singleton_append]
    rw [List.singleton_append] at hl
    rw [ih (fun t ht => hq t (List.mem_append_left _ ht)) _ _ _ hl]
    have hst : st.length < 8 := by
      rw [List.length_append, List.length_cons] at hl; omega
    unfold thenE
    cases x with
    | ok a =>
      cases a with
      | error e => rfl
      | ok v =>
        dsimp only [Out.bind]
        rw [hR _ _ _ _ (hq _ (List.mem_append_right _ (List.mem_singleton.mpr rfl))),
          evalOp_bin P o l v st r hst]
        cases fn2 o l v with
        | ok a => cases a <;> rfl
        | _ => rfl
    | _ => rfl

/-- The value of a tree from the operators of the code, operands from left to right: the error
state afterwards, and the value unless an operator has failed. -/
def mean (symbols : List Char → Option Value) (loc : Nat) : Expr → Err →
    Out (Err × Option Value)
  | .num n, err => .ok (err, some ⟨n, .unsigned⟩)
  | .char c, err => .ok (err, some (Value.setUnsigned c.toNat))
  | .here, err => .ok (err, some (Value.setUnsigned loc))
  | .sym name, err => match symbols name with
    | some v => .ok (err, some v)
    | none => .ok (setErrorIf err .UNDEFINED_SYMBOL, some Value.undefined)
  | .paren e, err => mean symbols loc e err
  | .un o e, err => (mean symbols loc e err).bind fun
    | (err, none) => .ok (err, none)
    | (err, some v) => settle err (fn1 o v)
  | .bin o l r, err => (mean symbols loc l err).bind fun
    | (err, none) => .ok (err, none)
    | (err, some a) => (mean symbols loc r err).bind fun
      | (err, none) => .ok (err, none)
      | (err, some b) => settle err (fn2 o a b)
where
  settle (err : Err) (x : Out (Except Err Value)) : Out (Err × Option Value) :=
    x.bind fun
      | .error e => .ok (setErrorIf err e, none)
      | .ok v => .ok (err, some v)

theorem settle_then (err : Err) (x : Out (Except Err Value)) (f : Value → Out (Except Err Value)) :
    mean.settle err (thenE x f) = (mean.settle err x).bind fun
      | (err, none) => .ok (err, none)
      | (err, some v) => mean.settle err (f v) := by
  cases x with
  | ok a => cases a <;> rfl
  | _ => rfl

/-- Two runs that end in the same undefined behaviour. -/
def SameBad {α β : Type} (x : Out α) (y : Out β) : Prop :=
  (x = .ub ∧ y = .ub) ∨ (x = .stackUB ∧ y = .stackUB) ∨ (x = .diverge ∧ y = .diverge)

/-- The evaluation stops with the failure `m`. -/
def Fails (P : Plugins Value) (s : St Value) (m : Out (Err × Option Value)) : Prop :=
  ∃ t, Run P s t ∧ ((∃ u, step P t = .ok (.ret u P.undef) ∧ m = .ok (u.err, none)) ∨
    SameBad (step P t) m)

/-- Reading the text of `e` leaves its pending operators and values on the stacks, or fails. -/
def Outcome (P : Plugins Value) (e : Expr) (m : Out (Err × Option Value)) (s : St Value)
    (rest : Scan) : Prop :=
  (∃ err O V x tr,
    Run P s { s with
      scan := rest, ost := O ++ s.ost, vst := V ++ s.vst, maybePrefix := false, err := err
      trace := tr } ∧
    Pend O V x ∧ V.length ≤ e.values ∧ (∀ o ∈ O, o.prec ≤ lvl e.level) ∧
    (∀ o ∈ O, (∃ u, o = opOf1 u) ∨ ∃ b, o = opOf b) ∧
    hasError err = false ∧ m = mean.settle err x) ∨
  Fails P s m

theorem Run.trans {P : Plugins Value} {s t u : St Value} (h1 : Run P s t) (h2 : Run P t u) :
    Run P s u := by
  induction h1 with
  | refl => exact h2
  | step h _ ih => exact .step h (ih h2)

theorem Fails.run {P : Plugins Value} {s t : St Value} {m} (h : Run P s t) (hf : Fails P t m) :
    Fails P s m := by
  obtain ⟨u, h1, h2⟩ := hf
  exact ⟨u, h.trans h1, h2⟩

end Libasm.Eval
