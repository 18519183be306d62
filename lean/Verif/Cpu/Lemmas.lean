import Verif.Cpu.Model
import Verif.Number.Props
import Verif.Table.Lemmas
/-
What the printed operands have in common, and how the expression evaluator reads them.
-/
namespace Libasm.Cpu
open Scan Number Number.Spec Eval

theorem Out.ok_bind {α β : Type} (a : α) (f : α → Out β) : (Out.ok a).bind f = f a := rfl

/-! ### Expressions of one constant -/

/-- What may come after an operand or a part of one. -/
def seps : List Char :=
  ['(', ')', '[', ']', '{', '}', ',', '+', '-', '*', '/', ';', ':', '=', '<', '>', '&', '|', '^', '!', ' ', '\t']

/-- The text is at its end or goes on with one of these. -/
def Sep (rest : List Char) : Prop := ∀ c, rest.head? = some c → c ∈ seps

theorem Sep.nil : Sep [] := by intro c hc; cases hc
theorem Sep.cons {c : Char} (h : c ∈ seps) (t : List Char) : Sep (c :: t) := by
  intro d hd; injection hd with hd; exact hd ▸ h

theorem Sep.ends {rest : List Char} (h : Sep rest) : Ends rest := by
  intro c hc
  have : ∀ c ∈ seps, ¬ (48 ≤ c.toNat ∧ c.toNat ≤ 57) ∧ ¬ (65 ≤ c.toNat ∧ c.toNat ≤ 90) ∧
    ¬ (97 ≤ c.toNat ∧ c.toNat ≤ 122) ∧ c ≠ '\'' ∧ c ≠ '.' := by decide
  exact this c (h c hc)

/-- `t` is a constant of value `v` wherever it stands before the end or a separator. -/
structure Const (P : Plugins Value) (t : List Char) (v : Value) : Prop where
  ne : t ≠ []
  space : ∀ rest, skipSpaces (t ++ rest) = t ++ rest
  eol : ∀ rest, P.endOfLine (t ++ rest) = false
  pre : ∀ rest st r, P.ops.readPrefix (t ++ rest) st r = .ok (none, t ++ rest, st, r)
  const : ∀ rest, Sep rest → P.parseConstant (t ++ rest) .r10 = (.OK, v, rest)

/-- Where an expression ends. -/
structure Stop (P : Plugins Value) (rest : List Char) : Prop where
  space : skipSpaces rest = rest
  stop : P.endOfLine rest = true ∨ deref rest = P.delimitor ∨
    (P.ops.readInfix rest = none ∧ (P.ops.isOpen rest ≠ none ∨ P.ops.isClose rest = none))

theorem step_stop {P : Plugins Value} {rest : List Char} (h : Stop P rest) (s : St Value)
    (hs : s.scan = rest) (hv : s.vst ≠ []) (hm : s.maybePrefix = false)
    (he : s.endOfExpr = P.delimitor) (hf : s.inFnArgs = 0) (hx : s.expectFnArgs = false)
    (hr : s.err = .OK) : step P s = .ok (.brk s) := by
  have hs' : ({ s with scan := rest } : St Value) = s := by cases s; simp_all
  unfold step
  rw [hs, h.space]
  dsimp only
  rcases h.stop with h1 | h1 | ⟨h1, h2⟩
  · rw [if_pos h1, hs']
  · by_cases hl : P.endOfLine rest = true
    · rw [if_pos hl, hs']
    · rw [if_neg hl, if_pos ⟨by rw [h1, he], hv⟩, hs']
  · by_cases hl : P.endOfLine rest = true
    · rw [if_pos hl, hs']
    · rw [if_neg hl]
      split
      · rw [hs']
      · rw [hm, h1]
        have : hasError s.err = false := by rw [hr]; rfl
        simp only [this, Bool.false_eq_true, if_false]
        unfold stepPunct
        rw [if_neg (show ¬ s.inFnArgs > 0 by omega)]
        dsimp only
        cases ho : P.ops.isOpen rest with
        | some q =>
          dsimp only
          rw [if_pos (by simp [hm, hx]), hs']
        | none =>
          cases hc : P.ops.isClose rest with
          | some q => rcases h2 with h2 | h2 <;> simp_all
          | none => dsimp only; rw [hs']

/-- `t` is a constant of value `v` before `rest`. -/
structure ConstAt (P : Plugins Value) (t rest : List Char) (v : Value) : Prop where
  ne : t ≠ []
  space : skipSpaces (t ++ rest) = t ++ rest
  eol : P.endOfLine (t ++ rest) = false
  pre : ∀ st r, P.ops.readPrefix (t ++ rest) st r = .ok (none, t ++ rest, st, r)
  const : P.parseConstant (t ++ rest) .r10 = (.OK, v, rest)

theorem Const.at {P : Plugins Value} {t rest : List Char} {v : Value} (h : Const P t v)
    (hrest : Sep rest) : ConstAt P t rest v :=
  ⟨h.ne, h.space rest, h.eol rest, h.pre rest, h.const rest hrest⟩

theorem step_const_at {P : Plugins Value} {t rest : List Char} {v : Value} (h : ConstAt P t rest v)
    (s : St Value) (hs : s.scan = t ++ rest) (hm : s.maybePrefix = true)
    (hd : s.vst = [] ∨ (∃ c u, t = c :: u ∧ c ≠ s.endOfExpr)) (hr : s.err = .OK)
    (hv : s.vst.length < 8) (hx : s.radix = .r10) :
    step P s = .ok (.cont { s with
          scan := rest, vst := v :: s.vst, maybePrefix := false, trace := .operand :: s.trace }) := by
  have hg : hasError s.err = false := by rw [hr]; rfl
  unfold step
  rw [hs, h.space, hm]
  dsimp only
  rw [if_neg (by simp [h.eol]), if_neg ?_, if_pos rfl, h.pre, Out.ok_bind]
  · dsimp only
    rw [hg, if_neg (by simp)]
    unfold stepOperand
    dsimp only
    rw [hx, h.const]
    dsimp only
    rw [if_neg (by unfold capacity; omega)]
    unfold push
    rw [if_pos (by unfold capacity; exact hv), Out.ok_bind]
  · rintro ⟨h1, h2⟩
    rcases hd with hd | ⟨c, u, rfl, hc⟩
    · exact h2 hd
    · exact hc h1

theorem step_const {P : Plugins Value} {t rest : List Char} {v : Value} (h : Const P t v)
    (hrest : Sep rest) (s : St Value) (hs : s.scan = t ++ rest) (hm : s.maybePrefix = true)
    (hd : s.vst = [] ∨ (∃ c u, t = c :: u ∧ c ≠ s.endOfExpr)) (hr : s.err = .OK)
    (hv : s.vst.length < 8) (hx : s.radix = .r10) :
    step P s = .ok (.cont { s with
          scan := rest, vst := v :: s.vst, maybePrefix := false, trace := .operand :: s.trace }) :=
  step_const_at (h.at hrest) s hs hm hd hr hv hx

/-- What `eval` does once the loop gives a result that has read something. -/
theorem eval_of {P : Plugins Value} {text : List Char} {e : Err} {v : Value} {rest : List Char}
    {k : List Tok} (hs : skipSpaces text = text)
    (hl : loop P (text.length + 1) (start P text .OK .r10) = .ok ⟨v, e, rest, k⟩)
    (hn : rest.length < text.length) : parseInteger P text .OK = .ok (v, e, rest) := by
  unfold parseInteger eval evalFuel
  rw [hs]
  dsimp only
  rw [hl, Out.ok_bind]
  dsimp only
  rw [if_neg (by omega)]
  rfl

theorem loop_stop {P : Plugins Value} {rest : List Char} (h : Stop P rest) (s : St Value)
    (n : Nat) (hs : s.scan = rest) (hv : s.vst ≠ []) (hm : s.maybePrefix = false)
    (he : s.endOfExpr = P.delimitor) (hf : s.inFnArgs = 0) (hx : s.expectFnArgs = false)
    (hr : s.err = .OK) (hn : n ≠ 0) : loop P n s = finish P s := by
  cases n with
  | zero => exact absurd rfl hn
  | succ n =>
    show (step P s).bind _ = _
    rw [step_stop h s hs hv hm he hf hx hr]
    rfl

theorem len_pos {t : List Char} (h : t ≠ []) : 0 < t.length := List.length_pos_iff.2 h

/-- A constant alone. -/
theorem eval_const_at {P : Plugins Value} {t rest : List Char} {v : Value} (h : ConstAt P t rest v)
    (hstop : Stop P rest) : parseInteger P (t ++ rest) .OK = .ok (v, .OK, rest) := by
  have hl := len_pos h.ne
  refine eval_of h.space (k := [.operand]) ?_ (by rw [List.length_append]; omega)
  show (step P _).bind _ = _
  rw [step_const_at h _ rfl rfl (Or.inl rfl) rfl (by simp [start]) rfl, Out.ok_bind]
  dsimp only
  rw [loop_stop hstop _ _ rfl (by simp) rfl rfl rfl rfl rfl (by rw [List.length_append]; omega)]
  rfl

/-- A number alone. -/
theorem eval_const {P : Plugins Value} {t rest : List Char} {v : Value} (h : Const P t v)
    (hrest : Sep rest) (hstop : Stop P rest) :
    parseInteger P (t ++ rest) .OK = .ok (v, .OK, rest) :=
  eval_const_at (h.at hrest) hstop

/-- The operators of the evaluator the disassemblers use. -/
structure Ops (P : Plugins Value) : Prop where
  undef : P.undef = Value.undefined
  minus : ∃ o : Op, o.kind = .un unaryMinus ∧ o.nargs = 1 ∧ o.isOpenParen = false ∧
    ∀ rest st r, P.ops.readPrefix ('-' :: rest) st r = .ok (some o, rest, st, r)
  minusEol : ∀ rest, P.endOfLine ('-' :: rest) = false
  plusEol : ∀ rest, P.endOfLine ('+' :: rest) = false
  add : ∀ c rest, c ≠ '+' → P.ops.readInfix ('+' :: c :: rest) = some (opAdd, c :: rest)
  sub : ∀ rest, P.ops.readInfix ('-' :: rest) = some (opSub, rest)
  delim : P.delimitor ≠ '-' ∧ P.delimitor ≠ '+'

theorem spaces_sign {c : Char} (h : c = '-' ∨ c = '+') (rest : List Char) :
    skipSpaces (c :: rest) = c :: rest := by
  rcases h with rfl | rfl <;> (unfold skipSpaces trimStart; rw [List.dropWhile_cons]; rfl)

theorem negate_small {v : Nat} (hv : v < 2 ^ 32) :
    (⟨v, .unsigned⟩ : Value).negate = some (Value.setS (-(v : Int))) := by
  have e : Value.asSigned v = v := by unfold Value.asSigned Value.H; rw [if_pos (by omega)]
  unfold Value.negate
  have h1 : (⟨v, .unsigned⟩ : Value).isNegative = false := rfl
  rw [h1, if_neg (by decide)]
  show (Value.negS (Value.asSigned v)).map _ = _
  rw [e]
  unfold Value.negS Value.H
  rw [if_neg (by omega)]
  rfl

/-- A negative number. -/
theorem eval_neg {P : Plugins Value} {t rest : List Char} {v : Nat} (hP : Ops P)
    (h : Const P t ⟨v, .unsigned⟩) (hv : v < 2 ^ 32) (hrest : Sep rest) (hstop : Stop P rest) :
    parseInteger P ('-' :: (t ++ rest)) .OK = .ok (Value.setS (-(v : Int)), .OK, rest) := by
  have hl := len_pos h.ne
  obtain ⟨o, hk, hna, hop, hm⟩ := hP.minus
  refine eval_of (spaces_sign (Or.inl rfl) _) (k := [.prefix, .operand]) ?_
    (by rw [List.length_cons, List.length_append]; omega)
  show (step P _).bind _ = _
  have h1 : ∀ x : St Value, x.scan = '-' :: (t ++ rest) → x.vst = [] → x.ost = [] →
      x.maybePrefix = true → x.err = .OK → step P x = .ok (.cont
      { x with scan := t ++ rest, ost := [o], maybePrefix := true,
               trace := .prefix :: x.trace }) := by
    intro x hx1 hx2 hx3 hx4 hx5
    unfold step
    rw [hx1, spaces_sign (Or.inl rfl)]
    dsimp only
    rw [if_neg (by rw [hP.minusEol]; simp), if_neg (by simp [hx2]), if_pos hx4, hm,
      Out.ok_bind]
    have : hasError x.err = false := by rw [hx5]; rfl
    simp only [this, Bool.false_eq_true, if_false]
    unfold stepOperator
    dsimp only
    rw [hx3]
    unfold reduceInfix
    rw [Out.ok_bind]
    dsimp only
    rw [if_neg (by decide), if_pos hx4]
  rw [h1 _ rfl rfl rfl rfl rfl, Out.ok_bind]
  dsimp only
  obtain ⟨n, hn⟩ : ∃ n, ('-' :: (t ++ rest)).length = n + 2 :=
    ⟨('-' :: (t ++ rest)).length - 2, by rw [List.length_cons, List.length_append]; omega⟩
  rw [hn]
  show (step P _).bind _ = _
  rw [step_const h hrest _ rfl rfl (Or.inl rfl) rfl (by simp [start]) rfl, Out.ok_bind]
  dsimp only
  rw [loop_stop hstop _ _ rfl (by simp) rfl rfl rfl rfl rfl (by omega)]
  unfold finish reduceAll
  dsimp only [start]
  rw [hop, if_neg (by decide)]
  unfold evalOp Operator.eval
  have h2 : unaryMinus (⟨v, .unsigned⟩ : Value) = .ok (.ok (Value.setS (-(v : Int)))) := by
    unfold unaryMinus lift; rw [negate_small hv]
  rw [hk]
  dsimp only
  simp only [List.length_cons, List.length_nil]
  rw [hna, if_pos (by decide)]
  simp only [pop]
  rw [h2]
  rfl

/-- The location symbol alone is a constant. -/
theorem eval_loc {P : Plugins Value} {c : Char} {t rest : List Char} {a v : Nat} (hP : Ops P)
    (hc : Const P [c] ⟨a, .unsigned⟩) (h : Const P t ⟨v, .unsigned⟩) (ha : a < 2 ^ 32)
    (hv : v < 2 ^ 32) (hd : ∃ d u, t = d :: u ∧ d ≠ P.delimitor ∧ d ≠ '+')
    (hrest : Sep rest) (hstop : Stop P rest) :
    parseInteger P (c :: '+' :: (t ++ rest)) .OK = .ok (Value.setU (a + v), .OK, rest) ∧
    parseInteger P (c :: '-' :: (t ++ rest)) .OK = .ok (Value.setS (a - v), .OK, rest) := by
  have hl := len_pos h.ne
  have key : ∀ (s : Char) (o : Op) (r : Value), (s = '-' ∨ s = '+') →
      P.ops.readInfix (s :: (t ++ rest)) = some (o, t ++ rest) →
      P.endOfLine (s :: (t ++ rest)) = false → P.delimitor ≠ s → (∃ f, o.kind = .bin f ∧
        f ⟨a, .unsigned⟩ ⟨v, .unsigned⟩ = .ok (.ok r)) → o.nargs = 2 → o.isOpenParen = false →
      parseInteger P (c :: s :: (t ++ rest)) .OK = .ok (r, .OK, rest) := by
    intro s o r hs hi he hds ⟨f, hk, hf⟩ hna hop
    have hends : Sep (s :: (t ++ rest)) := by
      rcases hs with rfl | rfl <;> exact Sep.cons (by decide) _
    refine eval_of (hc.space (s :: (t ++ rest))) (k := [.operand, .infix, .operand]) ?_
      (by rw [List.length_cons, List.length_cons, List.length_append]; omega)
    show (step P _).bind _ = _
    have h0 := step_const hc hends (start P (c :: s :: (t ++ rest)) .OK .r10) rfl rfl
      (Or.inl rfl) rfl (by simp [start]) rfl
    rw [h0, Out.ok_bind]
    dsimp only
    obtain ⟨n, hn⟩ : ∃ n, (c :: s :: (t ++ rest)).length = n + 3 :=
      ⟨(c :: s :: (t ++ rest)).length - 3, by
        rw [List.length_cons, List.length_cons, List.length_append]; omega⟩
    rw [hn]
    show (step P _).bind _ = _
    have h1 : ∀ x : St Value, x.scan = s :: (t ++ rest) → x.endOfExpr = P.delimitor →
        x.maybePrefix = false → x.err = .OK → x.ost = [] → step P x = .ok (.cont
        { x with
          scan := t ++ rest, ost := [o], maybePrefix := true, trace := .infix :: x.trace }) := by
      intro x hx1 hx2 hx3 hx4 hx5
      unfold step
      rw [hx1, spaces_sign hs]
      dsimp only
      rw [if_neg (by rw [he]; simp), if_neg (by
        rw [hx2]; rintro ⟨h, _⟩; exact hds h.symm), hx3, hi]
      have : hasError x.err = false := by rw [hx4]; rfl
      simp only [this, Bool.false_eq_true, if_false]
      unfold stepOperator
      rw [hx5]
      unfold reduceInfix
      rw [Out.ok_bind]
      dsimp only
      rw [if_neg (by decide), hx3]
      rfl
    rw [h1 _ rfl rfl rfl rfl rfl, Out.ok_bind]
    dsimp only
    show (step P _).bind _ = _
    rw [step_const h hrest _ rfl rfl (Or.inr (by
      obtain ⟨d, u, h1, h2, _⟩ := hd
      exact ⟨d, u, h1, h2⟩)) rfl (by simp [start]) rfl, Out.ok_bind]
    dsimp only
    rw [loop_stop hstop _ _ rfl (by simp) rfl rfl rfl rfl rfl (by omega)]
    unfold finish reduceAll
    dsimp only [start]
    rw [hop, if_neg (by decide)]
    unfold evalOp Operator.eval
    rw [hk]
    dsimp only
    simp only [List.length_cons, List.length_nil]
    rw [hna, if_pos (by decide)]
    simp only [pop]
    rw [hf]
    rfl
  have na : ∀ n, (⟨n, .unsigned⟩ : Value).isNegative = false := fun _ => rfl
  have ab : ∀ n, (⟨n, .unsigned⟩ : Value).absolute = some n := fun _ => rfl
  constructor
  · refine key '+' opAdd _ (Or.inr rfl) (by
      obtain ⟨d, u, h1, _, h2⟩ := hd
      rw [h1]
      exact hP.add d _ h2) (hP.plusEol _) hP.delim.2
      ⟨_, rfl, ?_⟩ rfl rfl
    unfold add lift Value.add
    rw [ab, ab, na, na]
    dsimp only
    rw [if_pos rfl, if_neg (by decide)]
    unfold Value.setU
    simp
  · refine key '-' opSub _ (Or.inl rfl) (hP.sub _) (hP.minusEol _) hP.delim.1
      ⟨_, rfl, ?_⟩ rfl rfl
    unfold subtract lift Value.sub
    rw [negate_small hv, Option.bind_some]
    by_cases h0 : v = 0
    · subst h0
      have e0 : Value.setS (-((0 : Nat) : Int)) = ⟨0, .unsigned⟩ := rfl
      rw [e0]
      unfold Value.add
      rw [ab, ab, na, na]
      dsimp only
      rw [if_pos rfl, if_neg (by decide)]
      unfold Value.setU Value.setS Value.M
      rw [if_pos (by omega)]
      simp
      omega
    · have e1 : Value.setS (-(v : Int)) = ⟨Value.ofSigned (-(v : Int)), .signed⟩ := by
        unfold Value.setS; rw [if_neg (by omega)]
      have e2 : Value.asSigned (Value.ofSigned (-(v : Int))) = -(v : Int) := by
        unfold Value.asSigned Value.ofSigned Value.H Value.M
        have : (-(v : Int)) % 18446744073709551616 = 18446744073709551616 - v := by omega
        omega
      have e3 : (⟨Value.ofSigned (-(v : Int)), .signed⟩ : Value).isNegative = true := by
        unfold Value.isNegative Value.isSigned
        rw [e2]
        simp
        omega
      have e4 : (⟨Value.ofSigned (-(v : Int)), .signed⟩ : Value).absolute = some v := by
        unfold Value.absolute
        rw [e3, e2]
        unfold Value.negS Value.H
        rw [if_pos rfl, if_neg (by omega)]
        simp
      rw [e1]
      unfold Value.add
      rw [ab, na, e3, e4]
      dsimp only
      rw [if_neg (by decide)]
      by_cases hle : v ≤ a
      · rw [if_pos hle, if_neg (by decide)]
        unfold Value.setU Value.setS Value.M
        rw [if_pos (by omega)]
        have : (a - v) % 18446744073709551616 = ((a : Int) - v).toNat := by omega
        rw [this]
      · rw [if_neg hle, if_neg (by decide)]
        have hx : Value.asSigned (v - a) = ((v - a : Nat) : Int) := by
          unfold Value.asSigned Value.H; rw [if_pos (by omega)]
        unfold Value.setNegated
        rw [hx]
        unfold Value.negS Value.H
        rw [if_neg (by omega)]
        have : -((v - a : Nat) : Int) = (a : Int) - v := by omega
        rw [this]
        rfl

end Libasm.Cpu
