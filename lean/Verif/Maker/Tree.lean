import Verif.Eval.TreeEval
import Verif.Maker.Spec
/-
The stacks of the evaluator against syntax trees over a table of operators.
-/
namespace Libasm.Maker
open Scan Number Ctype Eval
open Eval.Spec (UnOp BinOp Blank)

def fnU : Un → Value → Out (Except Err Value)
  | .basic o => fn1 o
  | .highByte => mostSignificantByte | .lowByte => leastSignificantByte
  | .highWord => mostSignificantWord | .lowWord => leastSignificantWord

def fnB : Bin → Value → Value → Out (Except Err Value)
  | .basic o => fn2 o
  | .power => exponential
  | .shl16 => shiftLeft16 | .shr16 => shiftRight16
  | .rol16 => rotateLeft16 | .ror16 => rotateRight16

def assocOf : Side → Assoc
  | .left => .left | .right => .right | .none => .none

/-- The operator of the code is the prefix operator of the table. -/
structure IsUn (o : Op) (p : Prefix) : Prop where
  prec : o.prec = p.level
  assoc : o.assoc = .right
  nargs : o.nargs ≤ 1
  kind : o.kind = .un (fnU p.does)

/-- The operator of the code is the infix operator of the table. -/
structure IsBin (o : Op) (q : Infix) : Prop where
  prec : o.prec = q.level
  assoc : o.assoc = assocOf q.side
  nargs : o.nargs ≤ 2
  kind : o.kind = .bin (fnB q.does)

/-- The levels are those of operators, and operators that group to the left do not share a level
with operators that do not group. -/
structure Sane (N : Notation) : Prop where
  pre : ∀ p ∈ N.prefixes, 0 < p.level ∧ p.level ≤ 15
  inf : ∀ q ∈ N.infixes, 0 < q.level ∧ q.level ≤ 15
  left : ∀ q ∈ N.infixes, q.side = .left → ∀ r ∈ N.infixes, r.level = q.level → r.side ≠ .none

/-- The operators of the tree are in the tables. -/
def Uses (N : Notation) : Expr → Prop
  | .paren e => Uses N e
  | .un p e => p ∈ N.prefixes ∧ Uses N e
  | .bin q l r => q ∈ N.infixes ∧ Uses N l ∧ Uses N r
  | .call _ _ args => ∀ i, Uses N (args i)
  | _ => True

theorem uses_writes {N : Notation} {e : Expr} {t : Scan} (h : Writes N e t) : Uses N e := by
  induction h with
  | paren e t sp h hsp ih => exact ih
  | un o e w t ho hw h he ih => exact ⟨ho, ih⟩
  | bin o l r tl sp w tr ho hw hl hsp hs hr he ihl ihr => exact ⟨ho, ihl, ihr⟩
  | call name n args sp texts blanks hn hsp hb h ih => exact ih
  | blank e c t hc h ih => exact ih
  | _ => trivial

theorem level_le {N : Notation} (hS : Sane N) {e : Expr} (h : Uses N e) : e.level ≤ 15 := by
  cases e with
  | un p e => exact (hS.pre p h.1).2
  | bin q l r => exact (hS.inf q h.1).2
  | _ => exact Nat.zero_le _

/-- Pending operators `O` over the values `V` stand for the result `x`. -/
inductive Pend : List Op → List Value → Out (Except Err Value) → Prop
  | nil (v : Value) : Pend [] [v] (.ok (.ok v))
  | un {o : Op} {p : Prefix} (ho : IsUn o p) {O V x} :
      Pend O V x → Pend (O ++ [o]) V (thenE x (fnU p.does))
  | bin {o : Op} {q : Infix} (ho : IsBin o q) (l : Value) {O V x} :
      Pend O V x → Pend (O ++ [o]) (V ++ [l]) (thenE x (fnB q.does l))

theorem pend_pos {O : List Op} {V : List Value} {x : Out (Except Err Value)} (h : Pend O V x) :
    0 < V.length := by
  induction h with
  | nil v => exact Nat.zero_lt_one
  | un ho _ ih => exact ih
  | bin ho l _ _ => rw [List.length_append]; exact Nat.lt_add_left _ Nat.zero_lt_one

theorem evalOp_un (P : Plugins Value) {o : Op} {p : Prefix} (ho : IsUn o p) (v : Value)
    (st : List Value) (r : Radix) (h : st.length < 8) :
    evalOp P o (v :: st) r 0 = (fnU p.does v).bind fun
      | .error e => .ok (.error e)
      | .ok w => .ok (.ok (w :: st, r)) := by
  refine Eq.trans ?_ (pushResult_ok h r _)
  unfold evalOp Operator.eval
  dsimp only
  have hn := ho.nargs
  rw [ho.kind]
  dsimp only
  rw [if_pos (by rw [if_pos rfl, List.length_cons]; omega)]
  rfl

theorem evalOp_bin (P : Plugins Value) {o : Op} {q : Infix} (ho : IsBin o q) (l v : Value)
    (st : List Value) (r : Radix) (h : st.length < 8) :
    evalOp P o (v :: l :: st) r 0 = (fnB q.does l v).bind fun
      | .error e => .ok (.error e)
      | .ok w => .ok (.ok (w :: st, r)) := by
  refine Eq.trans ?_ (pushResult_ok h r _)
  unfold evalOp Operator.eval
  dsimp only
  have hn := ho.nargs
  rw [ho.kind]
  dsimp only
  rw [if_pos (by rw [if_pos rfl, List.length_cons, List.length_cons]; omega)]
  rfl

/-- What the three reductions have in common: they evaluate the top operator when `q` holds of
it. -/
theorem pend_reduce {β : Type} (P : Plugins Value)
    (R : List Op → List Value → Radix → Out (Except Err β)) (good : Op → Prop)
    (hR : ∀ t os st r, good t → R (t :: os) st r = (evalOp P t st r 0).bind fun
      | .error e => .ok (.error e)
      | .ok (st, r) => R os st r)
    {O : List Op} {V : List Value} {x : Out (Except Err Value)} (h : Pend O V x) :
    (∀ t ∈ O, good t) → ∀ (os : List Op) (st : List Value) (r : Radix), (V ++ st).length ≤ 8 →
      R (O ++ os) (V ++ st) r = x.bind fun
        | .error e => .ok (.error e)
        | .ok v => R os (v :: st) r := by
  induction h with
  | nil v => intro _ os st r _; rfl
  | @un o p ho O V x hp ih =>
    intro hq os st r hl
    have hst : st.length < 8 := by
      have := pend_pos hp
      rw [List.length_append] at hl
      omega
    rw [List.append_assoc, ih (fun t ht => hq t (List.mem_append_left _ ht)) _ _ _ hl]
    unfold thenE
    cases x with
    | ok a =>
      cases a with
      | error e => rfl
      | ok v =>
        dsimp only [Out.bind]
        rw [List.singleton_append, hR _ _ _ _ (hq _ (List.mem_append_right _ (List.mem_singleton.mpr rfl))),
          evalOp_un P ho v st r hst]
        cases fnU p.does v with
        | ok a => cases a <;> rfl
        | _ => rfl
    | _ => rfl
  | @bin o q ho l O V x _ ih =>
    intro hq os st r hl
    rw [List.append_assoc, List.append_assoc] at *
    rw [List.singleton_append, List.singleton_append]
    rw [List.singleton_append] at hl
    rw [ih (fun t ht => hq t (List.mem_append_left _ ht)) _ _ _ hl]
    have hst : st.length < 8 := by
      rw [List.length_append, List.length_cons] at hl; omega
    unfold thenE
    cases x with
    | ok a =>
      cases a with
      | error e => rfl
      | ok v =>
        dsimp only [Out.bind]
        rw [hR _ _ _ _ (hq _ (List.mem_append_right _ (List.mem_singleton.mpr rfl))),
          evalOp_bin P ho l v st r hst]
        cases fnB q.does l v with
        | ok a => cases a <;> rfl
        | _ => rfl
    | _ => rfl

/-- What a function of the code makes of arguments. -/
def callFn (nargs : Int) (f : List Value → Out (Except Err Value)) (vs : List Value) :
    Out (Except Err Value) :=
  if nargs < 0 ∨ (vs.length : Int) = nargs then f vs.reverse
  else .ok (.error (if (vs.length : Int) > nargs then .TOO_MANY_FUNC_ARGUMENT else .TOO_FEW_FUNC_ARGUMENT))

/-- Arguments from left to right, and what follows them. -/
def meanArgs : List (Err → Out (Err × Option Value)) → Err →
    (List Value → Err → Out (Err × Option Value)) → Out (Err × Option Value)
  | [], err, k => k [] err
  | m :: ms, err, k => (m err).bind fun
    | (err, none) => .ok (err, none)
    | (err, some v) => meanArgs ms err fun vs => k (v :: vs)

/-- The value of a tree from the operators of the code, operands from left to right: the error
state afterwards, and the value unless an operator has failed. -/
def mean (symbols : List Char → Option Value)
    (functions : List Char → Option (Int × (List Value → Out (Except Err Value)))) (loc : Nat) :
    Expr → Err → Out (Err × Option Value)
  | .num n, err => .ok (err, some ⟨n, .unsigned⟩)
  | .char c, err => .ok (err, some (Value.setUnsigned c.toNat))
  | .here, err => .ok (err, some (Value.setUnsigned loc))
  | .sym name, err => match symbols name with
    | some v => .ok (err, some v)
    | none => .ok (setErrorIf err .UNDEFINED_SYMBOL, some Value.undefined)
  | .paren e, err => mean symbols functions loc e err
  | .un p e, err => (mean symbols functions loc e err).bind fun
    | (err, none) => .ok (err, none)
    | (err, some v) => Eval.mean.settle err (fnU p.does v)
  | .bin q l r, err => (mean symbols functions loc l err).bind fun
    | (err, none) => .ok (err, none)
    | (err, some a) => (mean symbols functions loc r err).bind fun
      | (err, none) => .ok (err, none)
      | (err, some b) => Eval.mean.settle err (fnB q.does a b)
  | .call name _ args, err => match functions name with
    | none => .ok (err, none)
    | some (nargs, f) =>
      meanArgs (List.ofFn fun i => mean symbols functions loc (args i)) err fun vs err =>
        Eval.mean.settle err (callFn nargs f vs)

/-- Reading the text of `e` leaves its pending operators and values on the stacks, or fails. -/
def Outcome (N : Notation) (P : Plugins Value) (e : Expr) (m : Out (Err × Option Value))
    (s : St Value) (rest : Scan) : Prop :=
  (∃ err O V x tr,
    Run P s { s with
      scan := rest, ost := O ++ s.ost, vst := V ++ s.vst, maybePrefix := false, err := err
      trace := tr } ∧
    Pend O V x ∧ V.length ≤ e.values ∧ (∀ o ∈ O, o.prec ≤ e.level) ∧
    (∀ o ∈ O, (∃ p ∈ N.prefixes, IsUn o p) ∨ ∃ q ∈ N.infixes, IsBin o q) ∧
    hasError err = false ∧ m = Eval.mean.settle err x) ∨
  Fails P s m

end Libasm.Maker
