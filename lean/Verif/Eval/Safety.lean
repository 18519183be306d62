import Verif.Eval.Steps
/-
The stack invariant of `_eval`: neither stack overflows, and while the arguments of a function are
being read there is an opening parenthesis on the operator stack.
-/
namespace Libasm.Eval
open Scan Number

variable {V : Type}

/-- The outcome is not an access outside of a stack. -/
def Out.Safe {α : Type} (x : Out α) : Prop := x ≠ .stackUB

theorem Out.Safe.bind {α β : Type} {x : Out α} {f : α → Out β} (hx : x.Safe)
    (hf : ∀ a, x = .ok a → (f a).Safe) : (x.bind f).Safe := by
  cases x with
  | ok a => exact hf a rfl
  | stackUB => exact absurd rfl hx
  | ub => intro h; cases h
  | diverge => intro h; cases h

theorem Out.safe_ok {α : Type} (a : α) : (Out.ok a).Safe := by intro h; cases h

/-- The operations of an operator stay within the stacks themselves. -/
def Kind.Safe : Kind V → Prop
  | .un f => ∀ v, (f v).Safe
  | .bin f => ∀ l r, (f l r).Safe
  | .fn _ f => ∀ st, (f st).Safe
  | .restoreRadix => True
  | .none => True

/-- An operator an operator parser may return. -/
def Good (o : Operator V) : Prop := o.prec < 254 ∧ o.isFunction = false ∧ o.kind.Safe

/-- What C16 needs of an operator parser. -/
structure GoodParser (p : OpParser V) : Prop where
  quiet : Quiet p
  prefixGood : ∀ s st r o x, p.readPrefix s st r = .ok (some o, x) → Good o
  infixGood : ∀ s o rest, p.readInfix s = some (o, rest) → Good o
  openInfix : ∀ s, (p.isOpen s).isSome → p.readInfix s = none
  openComma : ∀ s, (p.isOpen s).isSome → expect ',' s = none

/-- Every function is right below the opening parenthesis of its arguments. -/
inductive Paired : List (Operator V) → Prop
  | nil : Paired []
  | op (o : Operator V) (os : List (Operator V)) : o.isFunction = false → o.kind.Safe →
      Paired os → Paired (o :: os)
  | call (o f : Operator V) (os : List (Operator V)) : o.isOpenParen = true →
      o.isFunction = false → o.kind.Safe → f.isFunction = true → f.kind.Safe → Paired os →
      Paired (o :: f :: os)

/-- The number of functions on the operator stack. -/
def nfn (os : List (Operator V)) : Nat := (os.filter (·.isFunction)).length

theorem nfn_cons (o : Operator V) (os : List (Operator V)) :
    nfn (o :: os) = (if o.isFunction then 1 else 0) + nfn os := by
  unfold nfn
  rw [List.filter_cons]
  split <;> simp_all <;> omega

theorem push_safe {v : V} {st : List V} (h : st.length < capacity) :
    push v st = .ok (v :: st) := by unfold push; rw [if_pos h]

theorem pushResult_safe {st : List V} (h : st.length < capacity) (r : Except Err V) :
    (pushResult st r).Safe ∧ ∀ st', pushResult st r = .ok (.ok st') → st'.length ≤ capacity := by
  cases r with
  | error e => exact ⟨Out.safe_ok _, by intro st' h; cases h⟩
  | ok v =>
    unfold pushResult
    dsimp only
    rw [push_safe h]
    refine ⟨Out.safe_ok _, ?_⟩
    intro st' h'
    simp only [Out.bind, Out.ok.injEq, Except.ok.injEq] at h'
    subst h'
    simp only [List.length_cons]
    omega

/-- Computing a result, then pushing it on a stack with room. -/
theorem compute_safe {x : Out (Except Err V)} {st : List V} {radix : Radix} (hx : x.Safe)
    (hst : st.length < capacity) :
    (x.bind fun r => (pushResult st r).bind fun r => .ok (r.map (·, radix))).Safe ∧
    ∀ st' r', (x.bind fun r => (pushResult st r).bind fun r => .ok (r.map (·, radix)))
      = .ok (.ok (st', r')) → st'.length ≤ capacity := by
  constructor
  · refine hx.bind fun r _ => (pushResult_safe hst r).1.bind fun _ _ => Out.safe_ok _
  · intro st' r' h
    obtain ⟨r, _, h⟩ := Out.bind_ok h
    obtain ⟨q, hq, h⟩ := Out.bind_ok h
    cases q with
    | error e => cases h
    | ok q =>
      simp only [Except.map, Out.ok.injEq, Except.ok.injEq, Prod.mk.injEq] at h
      rw [← h.1]
      exact (pushResult_safe hst r).2 q hq

theorem pop_length (undef : V) (st : List V) : (pop undef st).2.length = st.length - 1 := by
  cases st <;> rfl

/-- Evaluating an operator does not overflow the value stack. -/
theorem evalOp_safe (P : Plugins V) {o : Operator V} (ho : o.kind.Safe) (st : List V)
    (radix : Radix) (argc : Int) (hst : st.length ≤ capacity)
    (hargc : argc = 0 ∨ argc % 256 ≠ 0 ∨ o.isFunction = false) :
    (evalOp P o st radix argc).Safe ∧
    ∀ st' r', evalOp P o st radix argc = .ok (.ok (st', r')) → st'.length ≤ capacity := by
  have hcap : capacity = 8 := rfl
  unfold evalOp Operator.eval
  dsimp only
  generalize hA : (if argc = 0 then (st.length : Int) else argc) = A
  rcases ho' : o.kind with f | f | _ | ⟨nargs, f⟩ | _ <;> rw [ho'] at ho <;> dsimp only
  · split
    · have : (pop P.undef st).2.length < capacity := by rw [pop_length]; omega
      exact compute_safe (ho _) this
    · exact ⟨Out.safe_ok _, by intro _ _ h; cases h⟩
  · split
    · have : (pop P.undef (pop P.undef st).2).2.length < capacity := by
        rw [pop_length, pop_length]; omega
      exact compute_safe (ho _ _) this
    · exact ⟨Out.safe_ok _, by intro _ _ h; cases h⟩
  · split
    · have : (pop P.undef (pop P.undef st).2).2.length < capacity := by
        rw [pop_length, pop_length]; omega
      rw [push_safe this]
      refine ⟨Out.safe_ok _, ?_⟩
      intro st' r' h
      simp only [Out.bind, Out.ok.injEq, Except.ok.injEq, Prod.mk.injEq] at h
      rw [← h.1, List.length_cons]
      omega
    · exact ⟨Out.safe_ok _, by intro _ _ h; cases h⟩
  · have hfn : o.isFunction = true := by unfold Operator.isFunction; rw [ho']
    have hlen : (st.drop (A % 256).toNat).length < capacity := by
      rw [List.length_drop]
      rcases hargc with h | h | h
      · rw [if_pos h] at hA; omega
      · split at hA <;> omega
      · rw [hfn] at h; cases h
    split
    · exact compute_safe (ho _) hlen
    · exact ⟨Out.safe_ok _, by intro _ _ h; cases h⟩
  · split
    · exact ⟨(by intro h; cases h), (by intro _ _ h; cases h)⟩
    · exact ⟨Out.safe_ok _, by intro _ _ h; cases h⟩

/-- What the reductions keep. -/
def Reduced (os : List (Operator V)) (x : Out (Except Err (List (Operator V) × List V × Radix))) :
    Prop :=
  x.Safe ∧ ∀ os' st' r', x = .ok (.ok (os', st', r')) →
    Paired os' ∧ nfn os' = nfn os ∧ os'.length ≤ os.length ∧ st'.length ≤ capacity

theorem reduceInfix_safe (P : Plugins V) {opr : Operator V} (hopr : opr.prec < 254) :
    ∀ (os : List (Operator V)) (st : List V) (r : Radix), Paired os → st.length ≤ capacity →
      Reduced os (reduceInfix P opr os st r) := by
  intro os
  induction os with
  | nil =>
    intro st r hp hst
    refine ⟨Out.safe_ok _, ?_⟩
    intro os' st' r' h
    simp only [reduceInfix, Out.ok.injEq, Except.ok.injEq, Prod.mk.injEq] at h
    obtain ⟨rfl, rfl, rfl⟩ := h
    exact ⟨hp, rfl, Nat.le_refl _, hst⟩
  | cons t os ih =>
    intro st r hp hst
    unfold reduceInfix
    by_cases h1 : t.isNoneAssoc opr = true
    · rw [if_pos h1]
      exact ⟨Out.safe_ok _, by intro _ _ _ h; cases h⟩
    rw [if_neg h1]
    by_cases h2 : t.isHigher opr = true
    · rw [if_pos h2]
      have hnp : t.isOpenParen = false := by
        unfold Operator.isHigher at h2
        unfold Operator.isOpenParen
        simp only [Bool.or_eq_true, Bool.and_eq_true, decide_eq_true_eq] at h2
        simp only [decide_eq_false_iff_not]
        omega
      have hos : Paired os ∧ t.isFunction = false ∧ t.kind.Safe := by
        cases hp with
        | op _ _ hf hs hp => exact ⟨hp, hf, hs⟩
        | call _ _ _ ho => rw [ho] at hnp; cases hnp
      have hev := evalOp_safe P hos.2.2 st r 0 hst (Or.inl rfl)
      constructor
      · refine hev.1.bind fun a ha => ?_
        rcases a with e | ⟨st1, r1⟩
        · exact Out.safe_ok _
        · exact (ih st1 r1 hos.1 (hev.2 _ _ ha)).1
      · intro os' st' r' h
        obtain ⟨a, ha, h⟩ := Out.bind_ok h
        rcases a with e | ⟨st1, r1⟩
        · cases h
        · have := (ih st1 r1 hos.1 (hev.2 _ _ ha)).2 os' st' r' h
          refine ⟨this.1, ?_, ?_, this.2.2.2⟩
          · rw [nfn_cons, hos.2.1, this.2.1]; simp
          · simp only [List.length_cons]; omega
    · rw [if_neg h2]
      refine ⟨Out.safe_ok _, ?_⟩
      intro os' st' r' h
      simp only [Out.ok.injEq, Except.ok.injEq, Prod.mk.injEq] at h
      obtain ⟨rfl, rfl, rfl⟩ := h
      exact ⟨hp, rfl, Nat.le_refl _, hst⟩

theorem paired_pop {t : Operator V} {os : List (Operator V)} (hp : Paired (t :: os))
    (h : t.isOpenParen = false) : Paired os ∧ t.isFunction = false ∧ t.kind.Safe := by
  cases hp with
  | op _ _ hf hs hp => exact ⟨hp, hf, hs⟩
  | call _ _ _ ho => rw [ho] at h; cases h

theorem reduceComma_safe (P : Plugins V) :
    ∀ (os : List (Operator V)) (st : List V) (r : Radix), Paired os → nfn os > 0 →
      st.length ≤ capacity → Reduced os (reduceComma P os st r) := by
  intro os
  induction os with
  | nil => intro st r _ h; exact absurd h (Nat.lt_irrefl 0)
  | cons t os ih =>
    intro st r hp hn hst
    unfold reduceComma
    by_cases h1 : t.isOpenParen = true
    · rw [if_pos h1]
      refine ⟨Out.safe_ok _, ?_⟩
      intro os' st' r' h
      simp only [Out.ok.injEq, Except.ok.injEq, Prod.mk.injEq] at h
      obtain ⟨rfl, rfl, rfl⟩ := h
      exact ⟨hp, rfl, Nat.le_refl _, hst⟩
    · rw [if_neg h1]
      have hos := paired_pop hp (by simpa using h1)
      have hev := evalOp_safe P hos.2.2 st r 0 hst (Or.inl rfl)
      have hn' : nfn os > 0 := by rw [nfn_cons, hos.2.1] at hn; simpa using hn
      constructor
      · refine hev.1.bind fun a ha => ?_
        rcases a with e | ⟨st1, r1⟩
        · exact Out.safe_ok _
        · exact (ih st1 r1 hos.1 hn' (hev.2 _ _ ha)).1
      · intro os' st' r' h
        obtain ⟨a, ha, h⟩ := Out.bind_ok h
        rcases a with e | ⟨st1, r1⟩
        · cases h
        · have := (ih st1 r1 hos.1 hn' (hev.2 _ _ ha)).2 os' st' r' h
          refine ⟨this.1, ?_, ?_, this.2.2.2⟩
          · rw [nfn_cons, hos.2.1, this.2.1]; simp
          · simp only [List.length_cons]; omega

theorem reduceClose_safe (P : Plugins V) :
    ∀ (os : List (Operator V)) (st : List V) (r : Radix), Paired os →
      st.length ≤ capacity → Reduced os (reduceClose P os st r) := by
  intro os
  induction os with
  | nil =>
    intro st r hp hst
    refine ⟨Out.safe_ok _, ?_⟩
    intro os' st' r' h
    simp only [reduceClose, Out.ok.injEq, Except.ok.injEq, Prod.mk.injEq] at h
    obtain ⟨rfl, rfl, rfl⟩ := h
    exact ⟨hp, rfl, Nat.le_refl _, hst⟩
  | cons t os ih =>
    intro st r hp hst
    unfold reduceClose
    by_cases h1 : t.isOpenParen = true
    · rw [if_pos h1]
      refine ⟨Out.safe_ok _, ?_⟩
      intro os' st' r' h
      simp only [Out.ok.injEq, Except.ok.injEq, Prod.mk.injEq] at h
      obtain ⟨rfl, rfl, rfl⟩ := h
      exact ⟨hp, rfl, Nat.le_refl _, hst⟩
    · rw [if_neg h1]
      have hos := paired_pop hp (by simpa using h1)
      have hev := evalOp_safe P hos.2.2 st r 0 hst (Or.inl rfl)
      constructor
      · refine hev.1.bind fun a ha => ?_
        rcases a with e | ⟨st1, r1⟩
        · exact Out.safe_ok _
        · exact (ih st1 r1 hos.1 (hev.2 _ _ ha)).1
      · intro os' st' r' h
        obtain ⟨a, ha, h⟩ := Out.bind_ok h
        rcases a with e | ⟨st1, r1⟩
        · cases h
        · have := (ih st1 r1 hos.1 (hev.2 _ _ ha)).2 os' st' r' h
          refine ⟨this.1, ?_, ?_, this.2.2.2⟩
          · rw [nfn_cons, hos.2.1, this.2.1]; simp
          · simp only [List.length_cons]; omega

/-- A reduction stops at an opening parenthesis, or has removed everything. -/
theorem reduceClose_top (P : Plugins V) :
    ∀ (os : List (Operator V)) (st : List V) (r : Radix) p os' st' r',
      reduceClose P os st r = .ok (.ok (p :: os', st', r')) → p.isOpenParen = true := by
  intro os
  induction os with
  | nil => intro st r p os' st' r' h; cases h
  | cons t os ih =>
    intro st r p os' st' r' h
    unfold reduceClose at h
    by_cases h1 : t.isOpenParen = true
    · rw [if_pos h1] at h
      simp only [Out.ok.injEq, Except.ok.injEq, Prod.mk.injEq, List.cons.injEq] at h
      rw [← h.1.1]; exact h1
    · rw [if_neg h1] at h
      obtain ⟨a, _, h⟩ := Out.bind_ok h
      rcases a with e | ⟨st1, r1⟩
      · cases h
      · exact ih _ _ _ _ _ _ h

theorem reduceAll_safe (P : Plugins V) :
    ∀ (os : List (Operator V)) (st : List V) (r : Radix), (∀ o ∈ os, o.kind.Safe) →
      st.length ≤ capacity → (reduceAll P os st r).Safe := by
  intro os
  induction os with
  | nil => intro st r _ _; exact Out.safe_ok _
  | cons t os ih =>
    intro st r hs hst
    unfold reduceAll
    split
    · exact Out.safe_ok _
    · have hev := evalOp_safe P (hs t (List.mem_cons_self ..)) st r 0 hst (Or.inl rfl)
      refine hev.1.bind fun a ha => ?_
      rcases a with e | ⟨st1, r1⟩
      · exact Out.safe_ok _
      · exact ih st1 r1 (fun o ho => hs o (List.mem_cons_of_mem _ ho)) (hev.2 _ _ ha)

/-- The operator stack and the count of open function calls. -/
inductive OstOk (p : OpParser V) (s : St V) : Prop
  | normal (hx : s.expectFnArgs = false) (hp : Paired s.ost) (hn : s.inFnArgs = nfn s.ost)
  | full (hx : s.expectFnArgs = true) (hm : s.maybePrefix = false)
      (hsc : skipSpaces s.scan = s.scan) (ho : (p.isOpen s.scan).isSome)
      (hp : Paired s.ost) (hl : s.ost.length = capacity)
  | called (hx : s.expectFnArgs = true) (hm : s.maybePrefix = false)
      (hsc : skipSpaces s.scan = s.scan) (ho : (p.isOpen s.scan).isSome)
      (f : Operator V) (os : List (Operator V)) (he : s.ost = f :: os) (hf : f.isFunction = true)
      (hfs : f.kind.Safe) (hp : Paired os) (hn : s.inFnArgs = nfn s.ost)

/-- The invariant of the loop. -/
structure Inv (p : OpParser V) (s : St V) : Prop where
  vlen : s.vst.length ≤ capacity
  olen : s.ost.length ≤ capacity
  pos : ∀ o ∈ s.ost, o.isOpenParen = true → o.nargs ≤ capacity
  ost : OstOk p s

theorem paired_safe {os : List (Operator V)} (h : Paired os) : ∀ o ∈ os, o.kind.Safe := by
  induction h with
  | nil => intro o ho; cases ho
  | op o os _ hs _ ih =>
    intro x hx
    rcases List.mem_cons.mp hx with rfl | hx
    · exact hs
    · exact ih x hx
  | call o f os _ _ hs _ hfs _ ih =>
    intro x hx
    rcases List.mem_cons.mp hx with rfl | hx
    · exact hs
    · rcases List.mem_cons.mp hx with rfl | hx
      · exact hfs
      · exact ih x hx

theorem inv_safe {p : OpParser V} {s : St V} (h : Inv p s) : ∀ o ∈ s.ost, o.kind.Safe := by
  rcases h.ost with ⟨_, hp, _⟩ | ⟨_, _, _, _, hp, _⟩ | ⟨_, _, _, _, f, os, he, _, hfs, hp, _⟩
  · exact paired_safe hp
  · exact paired_safe hp
  · rw [he]
    intro x hx
    rcases List.mem_cons.mp hx with rfl | hx
    · exact hfs
    · exact paired_safe hp x hx

theorem skipSpaces_idem (s : Scan) : skipSpaces (skipSpaces s) = skipSpaces s := by
  unfold skipSpaces trimStart
  induction s with
  | nil => rfl
  | cons c t ih =>
    rw [List.dropWhile_cons]
    split
    · exact ih
    next h => rw [List.dropWhile_cons, if_neg h]

theorem paired_nofn {o : Operator V} {os : List (Operator V)} (h : Paired (o :: os)) :
    o.isFunction = false := by
  cases h with
  | op _ _ hf => exact hf
  | call _ _ _ _ hf => exact hf

theorem function_safe {nargs : Int} {f : List V → Out (Except Err V)} (hf : ∀ st, (f st).Safe) :
    (Operator.function nargs f).kind.Safe := hf

theorem reduceInfix_mem (P : Plugins V) (opr : Operator V) :
    ∀ (os : List (Operator V)) (st : List V) (r : Radix) os' st' r',
      reduceInfix P opr os st r = .ok (.ok (os', st', r')) → ∀ o ∈ os', o ∈ os := by
  intro os
  induction os with
  | nil =>
    intro st r os' st' r' h o ho
    simp only [reduceInfix, Out.ok.injEq, Except.ok.injEq, Prod.mk.injEq] at h
    rw [← h.1] at ho; exact ho
  | cons t os ih =>
    intro st r os' st' r' h o ho
    unfold reduceInfix at h
    by_cases h1 : t.isNoneAssoc opr = true
    · rw [if_pos h1] at h; cases h
    rw [if_neg h1] at h
    by_cases h2 : t.isHigher opr = true
    · rw [if_pos h2] at h
      obtain ⟨a, _, h⟩ := Out.bind_ok h
      rcases a with e | ⟨st1, r1⟩
      · cases h
      · exact List.mem_cons_of_mem _ (ih _ _ _ _ _ h o ho)
    · rw [if_neg h2] at h
      simp only [Out.ok.injEq, Except.ok.injEq, Prod.mk.injEq] at h
      rw [← h.1] at ho; exact ho

theorem reduceComma_mem (P : Plugins V) :
    ∀ (os : List (Operator V)) (st : List V) (r : Radix) os' st' r',
      reduceComma P os st r = .ok (.ok (os', st', r')) → ∀ o ∈ os', o ∈ os := by
  intro os
  induction os with
  | nil => intro st r os' st' r' h; cases h
  | cons t os ih =>
    intro st r os' st' r' h o ho
    unfold reduceComma at h
    by_cases h1 : t.isOpenParen = true
    · rw [if_pos h1] at h
      simp only [Out.ok.injEq, Except.ok.injEq, Prod.mk.injEq] at h
      rw [← h.1] at ho; exact ho
    · rw [if_neg h1] at h
      obtain ⟨a, _, h⟩ := Out.bind_ok h
      rcases a with e | ⟨st1, r1⟩
      · cases h
      · exact List.mem_cons_of_mem _ (ih _ _ _ _ _ h o ho)

theorem reduceClose_mem (P : Plugins V) :
    ∀ (os : List (Operator V)) (st : List V) (r : Radix) os' st' r',
      reduceClose P os st r = .ok (.ok (os', st', r')) → ∀ o ∈ os', o ∈ os := by
  intro os
  induction os with
  | nil =>
    intro st r os' st' r' h o ho
    simp only [reduceClose, Out.ok.injEq, Except.ok.injEq, Prod.mk.injEq] at h
    rw [← h.1] at ho; exact ho
  | cons t os ih =>
    intro st r os' st' r' h o ho
    unfold reduceClose at h
    by_cases h1 : t.isOpenParen = true
    · rw [if_pos h1] at h
      simp only [Out.ok.injEq, Except.ok.injEq, Prod.mk.injEq] at h
      rw [← h.1] at ho; exact ho
    · rw [if_neg h1] at h
      obtain ⟨a, _, h⟩ := Out.bind_ok h
      rcases a with e | ⟨st1, r1⟩
      · cases h
      · exact List.mem_cons_of_mem _ (ih _ _ _ _ _ h o ho)

/-- In a state where an operand or infix operator is read the operator stack is in order. -/
theorem Inv.normal {p : OpParser V} {s : St V} (h : Inv p s)
    (hm : s.maybePrefix = true ∨ p.isOpen (skipSpaces s.scan) = none) :
    s.expectFnArgs = false ∧ Paired s.ost ∧ s.inFnArgs = nfn s.ost := by
  rcases h.ost with ⟨hx, hp, hn⟩ | ⟨_, h1, h2, h3, _⟩ | ⟨_, h1, h2, h3, _⟩
  · exact ⟨hx, hp, hn⟩
  all_goals
    rcases hm with hm | hm
    · rw [hm] at h1; cases h1
    · rw [h2] at hm; rw [hm] at h3; cases h3

theorem isOpen_none_of_infix {p : OpParser V} (hp : GoodParser p) {s : Scan}
    {x : Operator V × Scan} (h : p.readInfix s = some x) : p.isOpen s = none := by
  cases ho : p.isOpen s with
  | none => rfl
  | some y => rw [hp.openInfix s (by rw [ho]; rfl)] at h; cases h

theorem isOpen_none_of_comma {p : OpParser V} (hp : GoodParser p) {s : Scan} {x : Scan}
    (h : expect ',' s = some x) : p.isOpen s = none := by
  cases ho : p.isOpen s with
  | none => rfl
  | some y => rw [hp.openComma s (by rw [ho]; rfl)] at h; cases h

/-- The functions of a table stay within the stacks of their own evaluation. -/
def GoodFns (P : Plugins V) : Prop :=
  ∀ name nargs f, P.lookupFunction name = some (nargs, f) → ∀ st, (f st).Safe

/-- Every iteration keeps the invariant. `isOpen` and `isClose` are assumed to be exclusive. -/
theorem inv_cont {P : Plugins V} (hP : GoodParser P.ops) (hF : GoodFns P)
    (hoc : ∀ s, (P.ops.isClose s).isSome → P.ops.isOpen s = none)
    {s s' : St V} (hi : Inv P.ops s) (h : Cont P s s') : Inv P.ops s' := by
  cases h with
  | const v rest hp hpre hc hf =>
    obtain ⟨h1, h2, h3⟩ := hi.normal (Or.inl hp)
    exact ⟨hf, hi.olen, hi.pos, .normal h1 h2 h3⟩
  | symbol name v rest hp hpre hs hl hf =>
    obtain ⟨h1, h2, h3⟩ := hi.normal (Or.inl hp)
    exact ⟨hf, hi.olen, hi.pos, .normal h1 h2 h3⟩
  | undef name rest hp hpre hs hl hf =>
    obtain ⟨h1, h2, h3⟩ := hi.normal (Or.inl hp)
    exact ⟨hf, hi.olen, hi.pos, .normal h1 h2 h3⟩
  | fn name nargs f rest hp hr hl ho =>
    obtain ⟨h1, h2, h3⟩ := hi.normal (Or.inl hp)
    have hi2 := hi.olen
    by_cases hlt : s.ost.length < capacity
    · refine ⟨hi.vlen, ?_, ?_, ?_⟩
      · simp only [if_pos hlt, List.length_cons]; omega
      · simp only [if_pos hlt]
        intro o ho' hop
        rcases List.mem_cons.mp ho' with rfl | ho'
        · cases hop
        · exact hi.pos o ho' hop
      · refine .called rfl rfl (skipSpaces_idem _) ho (.function nargs f) s.ost ?_ rfl
          (function_safe (hF name nargs f hl)) h2 ?_
        · simp only [if_pos hlt]
        · simp only [if_pos hlt]
          rw [nfn_cons, h3]
          show _ = 1 + nfn s.ost
          omega
    · refine ⟨hi.vlen, ?_, ?_, ?_⟩
      · simp only [if_neg hlt]; exact hi2
      · simp only [if_neg hlt]; exact hi.pos
      · refine .full rfl rfl (skipSpaces_idem _) ho ?_ ?_
        · simp only [if_neg hlt]; exact h2
        · simp only [if_neg hlt]; omega
  | operator o rest ost vst radix ho hr hf =>
    have hgood : Good o := by
      rcases ho with ⟨_, ho⟩ | ⟨_, ho⟩
      · exact hP.prefixGood _ _ _ _ _ ho
      · exact hP.infixGood _ _ _ ho
    obtain ⟨h1, h2, h3⟩ := hi.normal (by
      rcases ho with ⟨hm, _⟩ | ⟨_, ho⟩
      · exact Or.inl hm
      · exact Or.inr (isOpen_none_of_infix hP ho))
    have hred := (reduceInfix_safe P hgood.1 s.ost s.vst s.radix h2 hi.vlen).2 _ _ _ hr
    refine ⟨hred.2.2.2, by simp only [List.length_cons]; omega, ?_, ?_⟩
    · intro x hx hop
      rcases List.mem_cons.mp hx with rfl | hx
      · have := hgood.1
        unfold Operator.isOpenParen at hop
        simp only [decide_eq_true_eq] at hop
        omega
      · exact hi.pos x (reduceInfix_mem P o _ _ _ _ _ _ hr x hx) hop
    · refine .normal h1 (.op o ost hgood.2.1 hgood.2.2 hred.1) ?_
      show s.inFnArgs = _
      rw [nfn_cons, hgood.2.1, hred.2.1, h3]
      simp
  | comma rest ost vst radix hin hc hr =>
    obtain ⟨h1, h2, h3⟩ := hi.normal (Or.inr (isOpen_none_of_comma hP hc))
    have hred := (reduceComma_safe P s.ost s.vst s.radix h2 (by omega) hi.vlen).2 _ _ _ hr
    refine ⟨hred.2.2.2, Nat.le_trans hred.2.2.1 hi.olen, ?_, ?_⟩
    · intro x hx hop
      exact hi.pos x (reduceComma_mem P _ _ _ _ _ _ hr x hx) hop
    · refine .normal h1 hred.1 ?_
      show s.inFnArgs = _
      rw [hred.2.1, h3]
  | opening rest ho hp hf =>
    have hparen : (Operator.paren (V := V) s.vst.length).isOpenParen = true := rfl
    refine ⟨hi.vlen, by simp only [List.length_cons]; omega, ?_, ?_⟩
    · intro x hx hop
      rcases List.mem_cons.mp hx with rfl | hx
      · exact hi.vlen
      · exact hi.pos x hx hop
    · rcases hi.ost with ⟨_, hp, hn⟩ | ⟨_, _, _, _, _, hl⟩ | ⟨_, _, _, _, f, os, he, hff, hfs, hp, hn⟩
      · refine .normal rfl (.op _ _ rfl trivial hp) ?_
        show s.inFnArgs = _
        rw [nfn_cons, hn]
        show _ = 0 + _
        omega
      · omega
      · refine .normal rfl ?_ ?_
        · show Paired (_ :: s.ost)
          rw [he]
          exact .call _ _ _ hparen rfl trivial hff hfs hp
        · show s.inFnArgs = _
          rw [nfn_cons, hn]
          show _ = 0 + _
          omega
  | closing rest p ost vst radix hc hr hf =>
    obtain ⟨h1, h2, h3⟩ := hi.normal (Or.inr (hoc _ (by rw [hc]; rfl)))
    have hred := (reduceClose_safe P s.ost s.vst s.radix h2 hi.vlen).2 _ _ _ hr
    have hlen := hred.2.2.1
    have hol := hi.olen
    refine ⟨hred.2.2.2, ?_, ?_, ?_⟩
    · simp only [List.length_cons] at hlen
      show ost.length ≤ _
      omega
    · intro x hx hop
      exact hi.pos x (reduceClose_mem P _ _ _ _ _ _ hr x (List.mem_cons_of_mem _ hx)) hop
    · have hn := hred.2.1
      rw [nfn_cons] at hn
      cases hred.1 with
      | op _ _ hpf _ hp =>
        refine .normal h1 hp ?_
        show s.inFnArgs = nfn ost
        rw [hpf] at hn
        simp at hn
        omega
      | call _ f os _ _ _ hff => rw [hf f rfl] at hff; cases hff
  | call rest p f ost vst vst' radix radix' hc hr hf he =>
    obtain ⟨h1, h2, h3⟩ := hi.normal (Or.inr (hoc _ (by rw [hc]; rfl)))
    have hred := (reduceClose_safe P s.ost s.vst s.radix h2 hi.vlen).2 _ _ _ hr
    have hlen := hred.2.2.1
    have hol := hi.olen
    have hn := hred.2.1
    have hpo := reduceClose_top P _ _ _ _ _ _ _ hr
    have hpn := hi.pos p (reduceClose_mem P _ _ _ _ _ _ hr p (List.mem_cons_self ..)) hpo
    have hvl := hred.2.2.2
    have hcap : capacity = 8 := rfl
    cases hred.1 with
    | op _ _ _ _ hp => rw [paired_nofn hp] at hf; cases hf
    | call _ _ _ _ hpf _ hff hfs hp =>
      have hev := (evalOp_safe P hfs vst radix (vst.length - p.nargs) hvl (by omega)).2 _ _ he
      refine ⟨hev, ?_, ?_, ?_⟩
      · simp only [List.length_cons] at hlen
        show ost.length ≤ _
        omega
      · intro x hx hop
        exact hi.pos x (reduceClose_mem P _ _ _ _ _ _ hr x
          (List.mem_cons_of_mem _ (List.mem_cons_of_mem _ hx))) hop
      · refine .normal h1 hp ?_
        show s.inFnArgs - 1 = nfn ost
        rw [nfn_cons, nfn_cons, hpf, hff] at hn
        simp at hn
        omega

/-- No iteration leaves the stacks. -/
theorem step_safe {P : Plugins V} (hP : GoodParser P.ops)
    (hoc : ∀ s, (P.ops.isClose s).isSome → P.ops.isOpen s = none)
    {s : St V} (hi : Inv P.ops s) : (step P s).Safe := by
  have hfail : ∀ (s : St V) e, (fail P s e).Safe := fun _ _ => Out.safe_ok _
  have hoper : ∀ o rest, Good o →
      (s.maybePrefix = true ∨ P.ops.isOpen (skipSpaces s.scan) = none) →
      (stepOperator P s o rest).Safe := by
    intro o rest hg hm
    obtain ⟨h1, h2, h3⟩ := hi.normal hm
    unfold stepOperator
    refine (reduceInfix_safe P hg.1 s.ost s.vst s.radix h2 hi.vlen).1.bind fun a _ => ?_
    rcases a with e | ⟨ost, vst, radix⟩
    · exact hfail _ _
    · dsimp only
      split
      · exact hfail _ _
      · exact Out.safe_ok _
  have hpunct : (stepPunct P s s.scan (skipSpaces s.scan)).Safe := by
    unfold stepPunct
    split
    next rest hc =>
      by_cases hin : s.inFnArgs > 0
      · rw [if_pos hin] at hc
        obtain ⟨h1, h2, h3⟩ := hi.normal (Or.inr (isOpen_none_of_comma hP hc))
        refine (reduceComma_safe P s.ost s.vst s.radix h2 (by omega) hi.vlen).1.bind fun a _ => ?_
        rcases a with e | ⟨ost, vst, radix⟩
        · exact hfail _ _
        · exact Out.safe_ok _
      · rw [if_neg hin] at hc; cases hc
    next =>
      split
      next rest ho =>
        split
        · exact Out.safe_ok _
        · split
          · exact hfail _ _
          · exact Out.safe_ok _
      next =>
        split
        next rest hc =>
          obtain ⟨h1, h2, h3⟩ := hi.normal (Or.inr (hoc _ (by rw [hc]; rfl)))
          have hr := reduceClose_safe P s.ost s.vst s.radix h2 hi.vlen
          refine hr.1.bind fun a ha => ?_
          rcases a with e | ⟨ost, vst, radix⟩
          · exact hfail _ _
          · have hred := hr.2 _ _ _ ha
            cases ost with
            | nil => exact Out.safe_ok _
            | cons p ost =>
              have hpo := reduceClose_top P _ _ _ _ _ _ _ ha
              have hpn := hi.pos p (reduceClose_mem P _ _ _ _ _ _ ha p
                (List.mem_cons_self ..)) hpo
              have hvl := hred.2.2.2
              have hcap : capacity = 8 := rfl
              cases ost with
              | nil => exact Out.safe_ok _
              | cons f ost =>
                dsimp only
                split
                · have hfs : f.kind.Safe := by
                    exact paired_safe hred.1 f (List.mem_cons_of_mem _ (List.mem_cons_self ..))
                  refine (evalOp_safe P hfs vst radix (vst.length - p.nargs) hvl
                    (by omega)).1.bind fun b _ => ?_
                  rcases b with e | ⟨vst', radix'⟩
                  · exact hfail _ _
                  · exact Out.safe_ok _
                · exact Out.safe_ok _
        next => exact Out.safe_ok _
  have hsym : (stepSymbol P s s.scan (skipSpaces s.scan)).Safe := by
    unfold stepSymbol
    split
    next name rest hs =>
      split
      · exact hfail _ _
      next hf =>
        dsimp only
        split
        · rw [push_safe (by omega)]; exact Out.safe_ok _
        · rw [push_safe (by omega)]; exact Out.safe_ok _
    next => exact hpunct
  have hoperand : (stepOperand P s s.scan (skipSpaces s.scan)).Safe := by
    unfold stepOperand
    split
    next v rest hc =>
      split
      · exact hfail _ _
      next hf => rw [push_safe (by omega)]; exact Out.safe_ok _
    next =>
      split
      next name rest hr =>
        split
        next nargs f hl =>
          dsimp only
          split
          · exact Out.safe_ok _
          · exact Out.safe_ok _
        next => exact hsym
      next => exact hsym
    next => exact Out.safe_ok _
  unfold step
  dsimp only
  split
  · exact Out.safe_ok _
  split
  · exact Out.safe_ok _
  split
  next hp =>
    obtain ⟨o, rest, hr⟩ := hP.quiet (skipSpaces s.scan) s.vst s.radix
    rw [hr]
    dsimp only [Out.bind]
    split
    · exact Out.safe_ok _
    · cases o with
      | some o => exact hoper o rest (hP.prefixGood _ _ _ _ _ hr) (Or.inl hp)
      | none => exact hoperand
  next hp =>
    split
    next o rest hr =>
      split
      · exact Out.safe_ok _
      · exact hoper o rest (hP.infixGood _ _ _ hr) (Or.inr (isOpen_none_of_infix hP hr))
    next =>
      split
      · exact Out.safe_ok _
      · exact hpunct

end Libasm.Eval
