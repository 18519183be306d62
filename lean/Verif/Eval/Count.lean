import Verif.Eval.Consume
/-
How the tokens read relate to the stacks, and which evaluations end without an error.
-/
namespace Libasm.Eval
open Scan Number

variable {V : Type}

/-! ### An evaluation that returns early has an error -/

/-- The operator does not report an error that says OK. -/
def Kind.Honest : Kind V → Prop
  | .un f => ∀ v, f v ≠ .ok (.error .OK)
  | .bin f => ∀ l r, f l r ≠ .ok (.error .OK)
  | .fn _ f => ∀ st, f st ≠ .ok (.error .OK)
  | .restoreRadix => True
  | .none => True

def AllHonest (os : List (Operator V)) : Prop := ∀ o ∈ os, o.kind.Honest

theorem AllHonest.head {t : Operator V} {os : List (Operator V)} (h : AllHonest (t :: os)) :
    t.kind.Honest := h t (List.mem_cons_self ..)

theorem AllHonest.tail {t : Operator V} {os : List (Operator V)} (h : AllHonest (t :: os)) :
    AllHonest os := fun o ho => h o (List.mem_cons_of_mem _ ho)

theorem AllHonest.cons {o : Operator V} {os : List (Operator V)} (ho : o.kind.Honest)
    (h : AllHonest os) : AllHonest (o :: os) := by
  intro x hx
  rcases List.mem_cons.mp hx with rfl | hx
  · exact ho
  · exact h x hx

theorem result_honest {x : Out (Except Err V)} (hx : x ≠ .ok (.error .OK)) (st : List V)
    (radix : Radix) :
    (x.bind fun r => (pushResult st r).bind fun r => .ok (r.map (·, radix)))
      ≠ .ok (.error .OK) := by
  intro h0
  obtain ⟨r, h1, h3⟩ := Out.bind_ok h0
  obtain ⟨r', h2, h⟩ := Out.bind_ok h3
  clear h0 h3
  cases r with
  | error e =>
    simp only [pushResult, Out.ok.injEq] at h2
    rw [← h2] at h
    simp only [Except.map, Out.ok.injEq, Except.error.injEq] at h
    exact hx (by rw [h1, h])
  | ok v =>
    simp only [pushResult] at h2
    obtain ⟨st', _, h2⟩ := Out.bind_ok h2
    simp only [Out.ok.injEq] at h2
    rw [← h2] at h
    simp [Except.map] at h

theorem evalOp_honest (P : Plugins V) {o : Operator V} (ho : o.kind.Honest) (st : List V)
    (radix : Radix) (argc : Int) : evalOp P o st radix argc ≠ .ok (.error .OK) := by
  have hmiss : (Out.ok (.error .MISSING_OPERAND) : Out (Except Err (List V × Radix)))
      ≠ .ok (.error .OK) := by simp
  unfold evalOp Operator.eval
  dsimp only
  generalize (if argc = 0 then (st.length : Int) else argc) = A
  cases hk : o.kind with
  | fn nargs f =>
    dsimp only
    split
    · rw [hk] at ho; exact result_honest (ho st) _ _
    · split <;> simp
  | un f =>
    dsimp only
    split
    · rw [hk] at ho; exact result_honest (ho _) _ _
    · exact hmiss
  | bin f =>
    dsimp only
    split
    · rw [hk] at ho; exact result_honest (ho _ _) _ _
    · exact hmiss
  | restoreRadix =>
    dsimp only
    split
    · intro h
      obtain ⟨_, _, h⟩ := Out.bind_ok h
      simp at h
    · exact hmiss
  | none =>
    dsimp only
    split
    · simp
    · exact hmiss

theorem reduceInfix_honest (P : Plugins V) (opr : Operator V) :
    ∀ (os : List (Operator V)) (st : List V) (r : Radix), AllHonest os →
      reduceInfix P opr os st r ≠ .ok (.error .OK) := by
  intro os
  induction os with
  | nil => intro st r _ h; cases h
  | cons t os ih =>
    intro st r ht h
    unfold reduceInfix at h
    split at h
    · simp at h
    split at h
    · obtain ⟨a, ha, h⟩ := Out.bind_ok h
      rcases a with e | ⟨st, r⟩
      · simp only [Out.ok.injEq, Except.error.injEq] at h
        exact evalOp_honest P ht.head _ _ _ (by rw [ha, h])
      · exact ih _ _ ht.tail h
    · simp at h

theorem reduceComma_honest (P : Plugins V) :
    ∀ (os : List (Operator V)) (st : List V) (r : Radix), AllHonest os →
      reduceComma P os st r ≠ .ok (.error .OK) := by
  intro os
  induction os with
  | nil => intro st r _ h; cases h
  | cons t os ih =>
    intro st r ht h
    unfold reduceComma at h
    split at h
    · simp at h
    · obtain ⟨a, ha, h⟩ := Out.bind_ok h
      rcases a with e | ⟨st, r⟩
      · simp only [Out.ok.injEq, Except.error.injEq] at h
        exact evalOp_honest P ht.head _ _ _ (by rw [ha, h])
      · exact ih _ _ ht.tail h

theorem reduceClose_honest (P : Plugins V) :
    ∀ (os : List (Operator V)) (st : List V) (r : Radix), AllHonest os →
      reduceClose P os st r ≠ .ok (.error .OK) := by
  intro os
  induction os with
  | nil => intro st r _ h; cases h
  | cons t os ih =>
    intro st r ht h
    unfold reduceClose at h
    split at h
    · simp at h
    · obtain ⟨a, ha, h⟩ := Out.bind_ok h
      rcases a with e | ⟨st, r⟩
      · simp only [Out.ok.injEq, Except.error.injEq] at h
        exact evalOp_honest P ht.head _ _ _ (by rw [ha, h])
      · exact ih _ _ ht.tail h

theorem reduceAll_honest (P : Plugins V) :
    ∀ (os : List (Operator V)) (st : List V) (r : Radix), AllHonest os →
      reduceAll P os st r ≠ .ok (.error .OK) := by
  intro os
  induction os with
  | nil => intro st r _ h; cases h
  | cons t os ih =>
    intro st r ht h
    unfold reduceAll at h
    split at h
    · simp at h
    · obtain ⟨a, ha, h⟩ := Out.bind_ok h
      rcases a with e | ⟨st, r⟩
      · simp only [Out.ok.injEq, Except.error.injEq] at h
        exact evalOp_honest P ht.head _ _ _ (by rw [ha, h])
      · exact ih _ _ ht.tail h

theorem setErrorIf_ne {a e : Err} (h : e ≠ .OK) : setErrorIf a e ≠ .OK := by
  unfold setErrorIf
  split
  · exact h
  next h2 => exact h2

theorem setErrorIf_keep {a e : Err} (h : a ≠ .OK) : setErrorIf a e = a := by
  unfold setErrorIf; rw [if_neg h]

theorem hasError_ne {e : Err} (h : hasError e = true) : e ≠ .OK := by
  unfold hasError at h
  simp only [ne_eq, decide_eq_true_eq] at h
  exact h.1

theorem fail_err {P : Plugins V} {s s' : St V} {e : Err} {v : V} (he : e ≠ .OK)
    (h : fail P s e = .ok (.ret s' v)) : s'.err ≠ .OK := by
  simp only [fail, Out.ok.injEq, Next.ret.injEq] at h
  rw [← h.1]
  exact setErrorIf_ne he

theorem stepOperator_ret {P : Plugins V} {s s' : St V} {o : Operator V} {rest : Scan} {v : V}
    (hs : AllHonest s.ost) (h : stepOperator P s o rest = .ok (.ret s' v)) : s'.err ≠ .OK := by
  unfold stepOperator at h
  obtain ⟨a, ha, h⟩ := Out.bind_ok h
  rcases a with e | ⟨ost, vst, radix⟩
  · refine fail_err ?_ h
    intro he; exact reduceInfix_honest P o _ _ _ hs (by rw [ha, he])
  · dsimp only at h
    split at h
    · exact fail_err (by decide) h
    · cases h

theorem stepPunct_ret {P : Plugins V} {s s' : St V} {expr scan : Scan} {v : V}
    (hs : AllHonest s.ost) (h : stepPunct P s expr scan = .ok (.ret s' v)) : s'.err ≠ .OK := by
  unfold stepPunct at h
  split at h
  next rest hc =>
    obtain ⟨a, ha, h⟩ := Out.bind_ok h
    rcases a with e | ⟨ost, vst, radix⟩
    · refine fail_err ?_ h
      intro he; exact reduceComma_honest P _ _ _ hs (by rw [ha, he])
    · cases h
  next =>
    split at h
    next rest ho =>
      split at h
      · cases h
      · split at h
        · exact fail_err (by decide) h
        · cases h
    next =>
      split at h
      next rest hc =>
        obtain ⟨a, ha, h⟩ := Out.bind_ok h
        rcases a with e | ⟨ost, vst, radix⟩
        · refine fail_err ?_ h
          intro he; exact reduceClose_honest P _ _ _ hs (by rw [ha, he])
        · cases ost with
          | nil => cases h
          | cons p ost =>
            cases ost with
            | nil => cases h
            | cons f ost =>
              have hm : f.kind.Honest := hs f (reduceClose_mem P _ _ _ _ _ _ ha f (by simp))
              dsimp only at h
              split at h
              · obtain ⟨b, hb, h⟩ := Out.bind_ok h
                rcases b with e | ⟨vst', radix'⟩
                · refine fail_err ?_ h
                  intro he; exact evalOp_honest P hm _ _ _ (by rw [hb, he])
                · cases h
              · cases h
      next => cases h

theorem stepSymbol_ret {P : Plugins V} {s s' : St V} {expr scan : Scan} {v : V}
    (hs : AllHonest s.ost) (h : stepSymbol P s expr scan = .ok (.ret s' v)) : s'.err ≠ .OK := by
  unfold stepSymbol at h
  split at h
  next name rest _ =>
    split at h
    · exact fail_err (by decide) h
    · dsimp only at h
      split at h
      all_goals
        obtain ⟨a, ha, h⟩ := Out.bind_ok h
        cases h
  next => exact stepPunct_ret hs h

theorem stepOperand_ret {P : Plugins V} {s s' : St V} {expr scan : Scan} {v : V}
    (hs : AllHonest s.ost) (h : stepOperand P s expr scan = .ok (.ret s' v)) : s'.err ≠ .OK := by
  unfold stepOperand at h
  split at h
  next v rest hc =>
    split at h
    · exact fail_err (by decide) h
    · obtain ⟨a, ha, h⟩ := Out.bind_ok h
      cases h
  next =>
    split at h
    next name rest hr =>
      split at h
      next nargs f hl =>
        dsimp only at h
        split at h
        · simp only [Out.ok.injEq, Next.ret.injEq] at h
          rw [← h.1]; exact setErrorIf_ne (by decide)
        · cases h
      next => exact stepSymbol_ret hs h
    next => exact stepSymbol_ret hs h
  next e v rest h1 h2 hc =>
    simp only [Out.ok.injEq, Next.ret.injEq] at h
    rw [← h.1]
    refine setErrorIf_ne ?_
    intro he
    exact h1 he

/-- An iteration that returns from `_eval` leaves an error. -/
theorem step_ret {P : Plugins V} (hq : Quiet P.ops) {s s' : St V} {v : V}
    (hs : AllHonest s.ost) (h : step P s = .ok (.ret s' v)) : s'.err ≠ .OK := by
  unfold step at h
  dsimp only at h
  split at h
  · cases h
  split at h
  · cases h
  split at h
  · obtain ⟨o, rest, hr⟩ := hq (skipSpaces s.scan) s.vst s.radix
    rw [hr] at h
    dsimp only [Out.bind] at h
    split at h
    next he =>
      simp only [Out.ok.injEq, Next.ret.injEq] at h
      rw [← h.1]; exact hasError_ne he
    · cases o with
      | some o => exact stepOperator_ret (s := { s with vst := s.vst }) hs h
      | none => exact stepOperand_ret (s := { s with vst := s.vst }) hs h
  · split at h
    next o rest hr =>
      split at h
      next he =>
        simp only [Out.ok.injEq, Next.ret.injEq] at h
        rw [← h.1]; exact hasError_ne he
      · exact stepOperator_ret hs h
    next =>
      split at h
      next he =>
        simp only [Out.ok.injEq, Next.ret.injEq] at h
        rw [← h.1]; exact hasError_ne he
      · exact stepPunct_ret hs h

/-- Operators and functions of the plugins that report honestly. -/
structure Honest (P : Plugins V) : Prop where
  preOp : ∀ s st r o x, P.ops.readPrefix s st r = .ok (some o, x) → o.kind.Honest
  infOp : ∀ s o rest, P.ops.readInfix s = some (o, rest) → o.kind.Honest
  fn : ∀ name nargs f, P.lookupFunction name = some (nargs, f) → ∀ st, f st ≠ .ok (.error .OK)

theorem honest_cont {P : Plugins V} (hH : Honest P) {s s' : St V} (h : Cont P s s')
    (hs : AllHonest s.ost) : AllHonest s'.ost := by
  cases h with
  | const => exact hs
  | symbol => exact hs
  | undef => exact hs
  | fn name nargs f rest hp hr hl ho =>
    show AllHonest (if s.ost.length < capacity then Operator.function nargs f :: s.ost else s.ost)
    split
    · exact .cons (hH.fn name nargs f hl) hs
    · exact hs
  | operator o rest ost vst radix ho hr hf =>
    refine .cons ?_ fun x hx => hs x (reduceInfix_mem P o _ _ _ _ _ _ hr x hx)
    rcases ho with ⟨_, ho⟩ | ⟨_, ho⟩
    · exact hH.preOp _ _ _ _ _ ho
    · exact hH.infOp _ _ _ ho
  | comma rest ost vst radix hin hc hr =>
    exact fun x hx => hs x (reduceComma_mem P _ _ _ _ _ _ hr x hx)
  | opening => exact .cons trivial hs
  | closing rest p ost vst radix hc hr hf =>
    exact fun x hx => hs x (reduceClose_mem P _ _ _ _ _ _ hr x (List.mem_cons_of_mem _ hx))
  | call rest p f ost vst vst' radix radix' hc hr hf he =>
    exact fun x hx => hs x (reduceClose_mem P _ _ _ _ _ _ hr x
      (List.mem_cons_of_mem _ (List.mem_cons_of_mem _ hx)))

/-- Once there is an error it stays. -/
theorem cont_err {P : Plugins V} {s s' : St V} (h : Cont P s s') (hs : s.err ≠ .OK) :
    s'.err = s.err := by
  cases h with
  | undef => exact setErrorIf_keep hs
  | _ => rfl

/-- An evaluation without error: all its iterations, up to a `break` and the final reductions. -/
inductive Run (P : Plugins V) : St V → St V → Prop
  | refl (s : St V) : Run P s s
  | step {s t u : St V} : step P s = .ok (.cont t) → Run P t u → Run P s u

theorem loop_ok {P : Plugins V} (hq : Quiet P.ops) (hH : Honest P) (fuel : Nat) :
    ∀ (s : St V) (r : Result V), AllHonest s.ost → loop P fuel s = .ok r → r.err = .OK →
      ∃ t u vst radix, Run P s t ∧ step P t = .ok (.brk u) ∧
        reduceAll P u.ost u.vst u.radix = .ok (.ok (vst, radix)) ∧ u.err = .OK ∧
        r = ⟨(pop P.undef vst).1, .OK, u.scan, u.trace.reverse⟩ := by
  induction fuel with
  | zero => intro s r _ h; cases h
  | succ n ih =>
    intro s r hs h hr
    unfold loop at h
    obtain ⟨a, ha, h⟩ := Out.bind_ok h
    cases a with
    | cont s' =>
      obtain ⟨t, u, vst, radix, h1, h2⟩ := ih s' r (honest_cont hH (step_cont hq ha) hs) h hr
      exact ⟨t, u, vst, radix, .step ha h1, h2⟩
    | brk u =>
      unfold finish at h
      obtain ⟨b, hb, h⟩ := Out.bind_ok h
      have hu : AllHonest u.ost := by
        rcases step_brk hq ha with ⟨h1, _⟩ | ⟨h1, _⟩
        · rw [h1]; exact hs
        · rw [h1]; intro o ho; cases ho
      rcases b with e | ⟨vst, radix⟩
      · simp only [Out.ok.injEq] at h
        rw [← h] at hr
        exact absurd hr (setErrorIf_ne fun he => reduceAll_honest P _ _ _ hu (by rw [hb, he]))
      · simp only [Out.ok.injEq] at h
        have hu' : u.err = .OK := by rw [← h] at hr; exact hr
        exact ⟨s, u, vst, radix, .refl s, ha, hb, hu', by rw [← h, hu']⟩
    | ret s' v =>
      simp only [Out.ok.injEq] at h
      rw [← h] at hr
      exact absurd hr (step_ret hq hs ha)

/-! ### Counting -/

/-- Infix operators. -/
def isBin (o : Operator V) : Bool :=
  match o.kind with
  | .bin _ => true
  | _ => false

/-- Number of pending infix operators. -/
def bins (os : List (Operator V)) : Nat := (os.filter isBin).length

/-- Number of open parentheses. -/
def parens (os : List (Operator V)) : Nat := (os.filter (·.isOpenParen)).length

theorem bins_cons (o : Operator V) (os : List (Operator V)) :
    bins (o :: os) = (isBin o).toNat + bins os := by
  unfold bins; rw [List.filter_cons]; cases isBin o <;> simp <;> omega

theorem parens_cons (o : Operator V) (os : List (Operator V)) :
    parens (o :: os) = o.isOpenParen.toNat + parens os := by
  unfold parens; rw [List.filter_cons]; cases o.isOpenParen <;> simp <;> omega

/-- An operator that needs as many operands as it takes, or an opening parenthesis. -/
inductive Fair (o : Operator V) : Prop
  | paren (h : o.isOpenParen = true) (hk : o.kind = .none)
  | un (f : V → Out (Except Err V)) (h : o.isOpenParen = false) (hk : o.kind = .un f)
      (hn : o.nargs = 1)
  | bin (f : V → V → Out (Except Err V)) (h : o.isOpenParen = false) (hk : o.kind = .bin f)
      (hn : o.nargs = 2)

def AllFair (os : List (Operator V)) : Prop := ∀ o ∈ os, Fair o

theorem AllFair.head {t : Operator V} {os : List (Operator V)} (h : AllFair (t :: os)) :
    Fair t := h t (List.mem_cons_self ..)

theorem AllFair.tail {t : Operator V} {os : List (Operator V)} (h : AllFair (t :: os)) :
    AllFair os := fun o ho => h o (List.mem_cons_of_mem _ ho)

theorem AllFair.cons {o : Operator V} {os : List (Operator V)} (ho : Fair o)
    (h : AllFair os) : AllFair (o :: os) := by
  intro x hx
  rcases List.mem_cons.mp hx with rfl | hx
  · exact ho
  · exact h x hx

theorem pushResult_length {st st' : List V} {r : Except Err V}
    (h : pushResult st r = .ok (.ok st')) : st'.length = st.length + 1 := by
  cases r with
  | error e => cases h
  | ok v =>
    simp only [pushResult] at h
    obtain ⟨x, hx, h⟩ := Out.bind_ok h
    unfold push at hx
    split at hx
    · simp only [Out.ok.injEq] at hx
      simp only [Out.ok.injEq, Except.ok.injEq] at h
      rw [← h, ← hx]; rfl
    · cases hx

theorem result_length {x : Out (Except Err V)} {st st' : List V} {radix radix' : Radix}
    (h : (x.bind fun r => (pushResult st r).bind fun r => .ok (r.map (·, radix)))
      = .ok (.ok (st', radix'))) : st'.length = st.length + 1 := by
  obtain ⟨r, _, h⟩ := Out.bind_ok h
  obtain ⟨r', h2, h⟩ := Out.bind_ok h
  cases r' with
  | error e => simp [Except.map] at h
  | ok st2 =>
    simp only [Except.map, Out.ok.injEq, Except.ok.injEq, Prod.mk.injEq] at h
    rw [← h.1]; exact pushResult_length h2

theorem evalOp_count (P : Plugins V) {o : Operator V} (ho : Fair o) (hp : o.isOpenParen = false)
    {st st' : List V} {r r' : Radix} (h : evalOp P o st r 0 = .ok (.ok (st', r'))) :
    st'.length + (isBin o).toNat = st.length ∧ st' ≠ [] := by
  unfold evalOp Operator.eval at h
  dsimp only at h
  rw [if_pos rfl] at h
  cases ho with
  | paren h1 => rw [hp] at h1; cases h1
  | un f h1 hk hn =>
    have hb : isBin o = false := by unfold isBin; rw [hk]
    rw [hk, hn] at h
    dsimp only at h
    split at h
    next hge =>
      have hl := result_length h
      rw [pop_length] at hl
      refine ⟨?_, ?_⟩
      · rw [hb]; simp only [Bool.toNat_false]; omega
      · intro hn; rw [hn] at hl; simp at hl
    next => simp at h
  | bin f h1 hk hn =>
    have hb : isBin o = true := by unfold isBin; rw [hk]
    rw [hk, hn] at h
    dsimp only at h
    split at h
    next hge =>
      have hl := result_length h
      rw [pop_length, pop_length] at hl
      refine ⟨?_, ?_⟩
      · rw [hb]; simp only [Bool.toNat_true]; omega
      · intro hn; rw [hn] at hl; simp at hl
    next => simp at h

/-- What reducing the operator stack `os` to `os'` does to the value stack. -/
def Counted (os : List (Operator V)) (st : List V) (os' : List (Operator V)) (st' : List V) :
    Prop :=
  st'.length + bins os = st.length + bins os' ∧ parens os' = parens os ∧
  (st' = [] → os' = os ∧ st = [])

theorem counted_refl (os : List (Operator V)) (st : List V) : Counted os st os st :=
  ⟨rfl, rfl, fun h => ⟨rfl, h⟩⟩

theorem counted_cons {t : Operator V} {os os' : List (Operator V)} {st st1 st' : List V}
    (hp : t.isOpenParen = false) (h1 : st1.length + (isBin t).toNat = st.length) (h2 : st1 ≠ [])
    (h : Counted os st1 os' st') : Counted (t :: os) st os' st' := by
  obtain ⟨a, b, c⟩ := h
  refine ⟨?_, ?_, ?_⟩
  · rw [bins_cons]; omega
  · rw [parens_cons, hp, b]; simp
  · intro h; exact absurd (c h).2 h2

theorem reduceInfix_count (P : Plugins V) {opr : Operator V} (hopr : opr.prec < 254) :
    ∀ (os : List (Operator V)) (st : List V) (r : Radix) os' st' r', AllFair os →
      reduceInfix P opr os st r = .ok (.ok (os', st', r')) → Counted os st os' st' := by
  intro os
  induction os with
  | nil =>
    intro st r os' st' r' _ h
    simp only [reduceInfix, Out.ok.injEq, Except.ok.injEq, Prod.mk.injEq] at h
    rw [← h.1, ← h.2.1]; exact counted_refl _ _
  | cons t os ih =>
    intro st r os' st' r' hf h
    unfold reduceInfix at h
    split at h
    · simp at h
    split at h
    next hh =>
      obtain ⟨a, ha, h⟩ := Out.bind_ok h
      rcases a with e | ⟨st1, r1⟩
      · simp at h
      · have hp : t.isOpenParen = false := by
          unfold Operator.isHigher at hh
          unfold Operator.isOpenParen
          simp only [Bool.or_eq_true, Bool.and_eq_true, decide_eq_true_eq] at hh
          simp only [decide_eq_false_iff_not]
          omega
        obtain ⟨h1, h2⟩ := evalOp_count P hf.head hp ha
        exact counted_cons hp h1 h2 (ih _ _ _ _ _ hf.tail h)
    next =>
      simp only [Out.ok.injEq, Except.ok.injEq, Prod.mk.injEq] at h
      rw [← h.1, ← h.2.1]; exact counted_refl _ _

theorem reduceClose_count (P : Plugins V) :
    ∀ (os : List (Operator V)) (st : List V) (r : Radix) os' st' r', AllFair os →
      reduceClose P os st r = .ok (.ok (os', st', r')) → Counted os st os' st' := by
  intro os
  induction os with
  | nil =>
    intro st r os' st' r' _ h
    simp only [reduceClose, Out.ok.injEq, Except.ok.injEq, Prod.mk.injEq] at h
    rw [← h.1, ← h.2.1]; exact counted_refl _ _
  | cons t os ih =>
    intro st r os' st' r' hf h
    unfold reduceClose at h
    split at h
    next =>
      simp only [Out.ok.injEq, Except.ok.injEq, Prod.mk.injEq] at h
      rw [← h.1, ← h.2.1]; exact counted_refl _ _
    next hh =>
      obtain ⟨a, ha, h⟩ := Out.bind_ok h
      rcases a with e | ⟨st1, r1⟩
      · simp at h
      · have hp : t.isOpenParen = false := by simpa using hh
        obtain ⟨h1, h2⟩ := evalOp_count P hf.head hp ha
        exact counted_cons hp h1 h2 (ih _ _ _ _ _ hf.tail h)

theorem reduceAll_count (P : Plugins V) :
    ∀ (os : List (Operator V)) (st : List V) (r : Radix) st' r', AllFair os →
      reduceAll P os st r = .ok (.ok (st', r')) → Counted os st [] st' := by
  intro os
  induction os with
  | nil =>
    intro st r st' r' _ h
    simp only [reduceAll, Out.ok.injEq, Except.ok.injEq, Prod.mk.injEq] at h
    rw [← h.1]; exact counted_refl _ _
  | cons t os ih =>
    intro st r st' r' hf h
    unfold reduceAll at h
    split at h
    next => simp at h
    next hh =>
      obtain ⟨a, ha, h⟩ := Out.bind_ok h
      rcases a with e | ⟨st1, r1⟩
      · simp at h
      · have hp : t.isOpenParen = false := by simpa using hh
        obtain ⟨h1, h2⟩ := evalOp_count P hf.head hp ha
        exact counted_cons hp h1 h2 (ih _ _ _ _ hf.tail h)

/-- Operator parsers whose prefix operators are unary and whose infix operators are binary; no
functions. -/
structure FairPlugins (P : Plugins V) : Prop where
  preOp : ∀ s st r o x, P.ops.readPrefix s st r = .ok (some o, x) →
    o.prec < 254 ∧ o.nargs = 1 ∧ ∃ f, o.kind = .un f
  infOp : ∀ s o rest, P.ops.readInfix s = some (o, rest) →
    o.prec < 254 ∧ o.nargs = 2 ∧ ∃ f, o.kind = .bin f
  nofn : ∀ name, P.lookupFunction name = none

def AllParens (os : List (Operator V)) : Prop := ∀ o ∈ os, o.isOpenParen = true

/-- The stacks against the tokens read. -/
structure Tally (s : St V) : Prop where
  fair : AllFair s.ost
  noArgs : s.inFnArgs = 0
  noCall : s.expectFnArgs = false
  values : s.vst.length + s.trace.count .infix = s.trace.count .operand + bins s.ost
  open' : s.trace.count .opening = s.trace.count .closing + parens s.ost
  order : s.trace.count .operand ≤ s.trace.count .infix + (!s.maybePrefix).toNat
  empty : s.vst = [] → AllParens s.ost →
    s.trace.count .infix = 0 ∧ s.trace.count .prefix = 0

theorem tally_start (P : Plugins V) (scan : Scan) (err : Err) (radix : Radix) :
    Tally (start P scan err radix) :=
  ⟨(by intro o ho; cases ho), rfl, rfl, rfl, rfl, Nat.zero_le _, fun _ _ => ⟨rfl, rfl⟩⟩

theorem not_paren {o : Operator V} (h : o.prec < 254) : o.isOpenParen = false := by
  unfold Operator.isOpenParen
  simp only [decide_eq_false_iff_not]
  omega

theorem tally_operand {s : St V} (hs : Tally s) (hm : s.maybePrefix = true) (v : V) (rest : Scan)
    (err : Err) :
    Tally { s with
      scan := rest, vst := v :: s.vst, maybePrefix := false, err := err
      trace := .operand :: s.trace } := by
  refine ⟨hs.fair, hs.noArgs, hs.noCall, ?_, ?_, ?_, ?_⟩
  · have := hs.values
    show (v :: s.vst).length + (Tok.operand :: s.trace).count .infix =
      (Tok.operand :: s.trace).count .operand + bins s.ost
    simp only [List.length_cons, List.count_cons]
    simp
    omega
  · have := hs.open'
    show (Tok.operand :: s.trace).count .opening =
      (Tok.operand :: s.trace).count .closing + parens s.ost
    simp only [List.count_cons]
    simpa using this
  · have := hs.order
    rw [hm] at this
    show (Tok.operand :: s.trace).count .operand ≤ (Tok.operand :: s.trace).count .infix + 1
    simp only [List.count_cons]
    simp at this ⊢
    omega
  · intro h; cases h

theorem tally_cont {P : Plugins V} (hP : FairPlugins P) {s s' : St V} (h : Cont P s s')
    (hs : Tally s) : Tally s' := by
  cases h with
  | const v rest hp hpre hc hf => exact tally_operand hs hp v rest s.err
  | symbol name v rest hp hpre hr hl hf => exact tally_operand hs hp v rest s.err
  | undef name rest hp hpre hr hl hf =>
    exact tally_operand hs hp P.undef rest (setErrorIf s.err .UNDEFINED_SYMBOL)
  | fn name nargs f rest hp hr hl ho => rw [hP.nofn] at hl; cases hl
  | operator o rest ost vst radix ho hr hf =>
    have hcase : o.prec < 254 ∧ Fair o ∧
        (if s.maybePrefix then isBin o = false else isBin o = true) := by
      rcases ho with ⟨hm, ho⟩ | ⟨hm, ho⟩
      · obtain ⟨h1, h2, f, h3⟩ := hP.preOp _ _ _ _ _ ho
        refine ⟨h1, .un f (not_paren h1) h3 h2, ?_⟩
        rw [hm]; unfold isBin; rw [h3]; rfl
      · obtain ⟨h1, h2, f, h3⟩ := hP.infOp _ _ _ ho
        refine ⟨h1, .bin f (not_paren h1) h3 h2, ?_⟩
        rw [hm]; unfold isBin; rw [h3]; rfl
    obtain ⟨hpr, hfair, hbin⟩ := hcase
    obtain ⟨c1, c2, c3⟩ := reduceInfix_count P hpr _ _ _ _ _ _ hs.fair hr
    have v1 := hs.values
    have v2 := hs.open'
    have v3 := hs.order
    have hnp := not_paren hpr
    refine ⟨.cons hfair fun x hx => hs.fair x (reduceInfix_mem P o _ _ _ _ _ _ hr x hx),
      hs.noArgs, hs.noCall, ?_, ?_, ?_, ?_⟩
    · show vst.length + ((if s.maybePrefix then Tok.prefix else .infix) :: s.trace).count .infix =
        ((if s.maybePrefix then Tok.prefix else .infix) :: s.trace).count .operand + bins (o :: ost)
      rw [bins_cons]
      cases hm : s.maybePrefix <;> rw [hm] at hbin <;> simp at hbin <;> rw [hbin] <;>
        simp [List.count_cons] <;> omega
    · show ((if s.maybePrefix then Tok.prefix else .infix) :: s.trace).count .opening =
        ((if s.maybePrefix then Tok.prefix else .infix) :: s.trace).count .closing +
          parens (o :: ost)
      rw [parens_cons, hnp]
      cases hm : s.maybePrefix <;> simp [List.count_cons] <;> omega
    · show ((if s.maybePrefix then Tok.prefix else .infix) :: s.trace).count .operand ≤
        ((if s.maybePrefix then Tok.prefix else .infix) :: s.trace).count .infix + 0
      cases hm : s.maybePrefix <;> rw [hm] at v3 <;> simp [List.count_cons] at v3 ⊢ <;> omega
    · intro _ hall
      have := hall o (List.mem_cons_self ..)
      rw [hnp] at this; cases this
  | comma rest ost vst radix hin hc hr => rw [hs.noArgs] at hin; omega
  | opening rest ho hp hf =>
    have v1 := hs.values
    have v2 := hs.open'
    have v3 := hs.order
    have hm : s.maybePrefix = true := by
      rcases hp with hp | hp
      · exact hp
      · rw [hs.noCall] at hp; cases hp
    refine ⟨.cons (.paren rfl rfl) hs.fair, hs.noArgs, rfl, ?_, ?_, ?_, ?_⟩
    · show s.vst.length + (Tok.opening :: s.trace).count .infix =
        (Tok.opening :: s.trace).count .operand + bins (Operator.paren s.vst.length :: s.ost)
      rw [bins_cons]
      simp [List.count_cons, isBin, Operator.paren] at v1 ⊢
      omega
    · show (Tok.opening :: s.trace).count .opening =
        (Tok.opening :: s.trace).count .closing + parens (Operator.paren s.vst.length :: s.ost)
      rw [parens_cons]
      simp [List.count_cons, Operator.isOpenParen, Operator.paren] at v2 ⊢
      omega
    · rw [hm] at v3
      show (Tok.opening :: s.trace).count .operand ≤ (Tok.opening :: s.trace).count .infix + 0
      simp [List.count_cons] at v3 ⊢
      omega
    · intro h1 h2
      have := hs.empty h1 (fun o ho => h2 o (List.mem_cons_of_mem _ ho))
      show (Tok.opening :: s.trace).count .infix = 0 ∧ (Tok.opening :: s.trace).count .prefix = 0
      simp [List.count_cons] at this ⊢
      omega
  | closing rest p ost vst radix hc hr hf =>
    have v1 := hs.values
    have v2 := hs.open'
    have v3 := hs.order
    obtain ⟨c1, c2, c3⟩ := reduceClose_count P _ _ _ _ _ _ hs.fair hr
    have hpp := reduceClose_top P _ _ _ _ _ _ _ hr
    have hmem := reduceClose_mem P _ _ _ _ _ _ hr
    have hpb : isBin p = false := by
      cases hs.fair p (hmem p (List.mem_cons_self ..)) with
      | paren h hk => unfold isBin; rw [hk]
      | un f h => rw [hpp] at h; cases h
      | bin f h => rw [hpp] at h; cases h
    rw [bins_cons, hpb] at c1
    rw [parens_cons, hpp] at c2
    simp only [Bool.toNat_false, Bool.toNat_true] at c1 c2
    refine ⟨fun x hx => hs.fair x (hmem x (List.mem_cons_of_mem _ hx)), hs.noArgs, hs.noCall,
      ?_, ?_, ?_, ?_⟩
    · show vst.length + (Tok.closing :: s.trace).count .infix =
        (Tok.closing :: s.trace).count .operand + bins ost
      simp [List.count_cons] at v1 ⊢
      omega
    · show (Tok.closing :: s.trace).count .opening =
        (Tok.closing :: s.trace).count .closing + parens ost
      simp [List.count_cons] at v2 ⊢
      omega
    · show (Tok.closing :: s.trace).count .operand ≤ (Tok.closing :: s.trace).count .infix + 1
      have : (!s.maybePrefix).toNat ≤ 1 := by cases s.maybePrefix <;> decide
      simp [List.count_cons] at v3 ⊢
      omega
    · intro h1 h2
      obtain ⟨e1, e2⟩ := c3 h1
      have := hs.empty e2 (by
        rw [← e1]
        intro o ho
        rcases List.mem_cons.mp ho with rfl | ho
        · exact hpp
        · exact h2 o ho)
      show (Tok.closing :: s.trace).count .infix = 0 ∧ (Tok.closing :: s.trace).count .prefix = 0
      simp [List.count_cons] at this ⊢
      omega
  | call rest p f ost vst vst' radix radix' hc hr hf he =>
    exfalso
    have := hs.fair f (reduceClose_mem P _ _ _ _ _ _ hr f (by simp))
    unfold Operator.isFunction at hf
    cases this with
    | paren h hk => rw [hk] at hf; cases hf
    | un g h hk => rw [hk] at hf; cases hf
    | bin g h hk => rw [hk] at hf; cases hf

theorem tally_run {P : Plugins V} (hP : FairPlugins P) (hq : Quiet P.ops) {s t : St V}
    (h : Run P s t) (hs : Tally s) : Tally t := by
  induction h with
  | refl => exact hs
  | step hst _ ih => exact ih (tally_cont hP (step_cont hq hst) hs)

end Libasm.Eval
