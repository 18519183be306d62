import Verif.Eval.Suffix
/-
Reading opening parentheses.
-/
namespace Libasm.Eval
open Scan Number Ctype

theorem number_paren (number : Parser) (r : Radix) (t : Scan) :
    number.parse ('(' :: t) r =
      (.NOT_AN_EXPECTED, (number.parse ('(' :: t) r).2.1, '(' :: t) := by
  cases number <;> cases r <;> rfl

theorem style_prefix_paren (style : OpStyle) (hst : style ≠ .pdp11) (t : Scan) (st : List Value)
    (r : Radix) : ∃ x, style.parser.readPrefix ('(' :: t) st r = .ok (none, x, st, r) := by
  have hw : ∀ (table : List (List Char × Op)), (∀ e ∈ table, e.1 ≠ []) →
      ∀ (b : Read), b ('(' :: t) = none →
      ∃ x, Eval.pure (fun s => match word table s with | some r => some r | none => b s)
        ('(' :: t) st r = .ok (none, x, st, r) := by
    intro table ht b hb
    refine ⟨'(' :: t, ?_⟩
    unfold Eval.pure
    dsimp only
    rw [word_paren ht, hb]
  cases style with
  | pdp11 => exact absurd rfl hst
  | intel =>
    have := hw intelPrefixWords (by simp [intelPrefixWords]) cPrefix rfl
    obtain ⟨x, hx⟩ := this
    exact ⟨x, hx⟩
  | zilog =>
    have := hw zilogPrefixWords (by simp [zilogPrefixWords]) cPrefix rfl
    obtain ⟨x, hx⟩ := this
    exact ⟨x, hx⟩
  | c => exact ⟨_, rfl⟩
  | motorola => exact ⟨_, rfl⟩
  | signetics => exact ⟨_, rfl⟩
  | texas => exact ⟨_, rfl⟩
  | pdp8 => exact ⟨_, rfl⟩

theorem style_open_paren (style : OpStyle) (hst : style ≠ .pdp11) (t : Scan) :
    style.parser.isOpen ('(' :: t) = some t := by
  cases style with
  | pdp11 => exact absurd rfl hst
  | _ => rfl

/-- What happens at an opening parenthesis where an operand may stand. -/
theorem step_paren (number : Parser) (style : OpStyle) (hst : style ≠ .pdp11)
    (float : Scan → Option (Err × Value × Scan)) (symbols : List Char → Option Value)
    (functions : List Char → Option (Int × (List Value → Out (Except Err Value))))
    (delim : Char) (loc : Nat) (s : St Value) (t : Scan) (hs : s.scan = '(' :: t)
    (hm : s.maybePrefix = true) (hv : s.vst = []) (he : s.err = .OK) :
    step (stylePlugins number style float symbols functions delim loc) s =
      if s.ost.length ≥ capacity then
        .ok (.ret { s with scan := t, err := .TOO_COMPLEX_EXPRESSION } Value.undefined)
      else .ok (.cont { s with
        scan := t, ost := .paren 0 :: s.ost, endOfExpr := '\x00'
        inParen := s.inParen + 1, maybePrefix := true, expectFnArgs := false
        trace := .opening :: s.trace }) := by
  have hsk : skipSpaces s.scan = '(' :: t := by rw [hs]; rfl
  obtain ⟨x, hx⟩ := style_prefix_paren style hst t s.vst s.radix
  unfold step
  dsimp only
  rw [hsk, if_neg (show ¬ (stylePlugins number style float symbols functions delim loc).endOfLine
    ('(' :: t) = true by
    show ¬ semicolonEnd ('(' :: t) = true; simp [semicolonEnd, deref]),
    if_neg (by rw [hv]; intro h; exact h.2 rfl), if_pos hm]
  show Out.bind (style.parser.readPrefix ('(' :: t) s.vst s.radix) _ = _
  rw [hx]
  dsimp only [Out.bind]
  rw [if_neg (by rw [he]; decide)]
  have hc : (stylePlugins number style float symbols functions delim loc).parseConstant
      ('(' :: t) s.radix = (.NOT_AN_EXPECTED, (number.parse ('(' :: t) s.radix).2.1, '(' :: t) := by
    show constant defaultLetter number.parse defaultLocation float delim loc ('(' :: t) s.radix = _
    unfold constant
    rw [show defaultLetter ('(' :: t) = (.NOT_AN_EXPECTED, 0, '(' :: t) from rfl]
    dsimp only
    rw [number_paren]
    rfl
  unfold stepOperand
  rw [hc]
  dsimp only
  rw [show (stylePlugins number style float symbols functions delim loc).readFunctionName
    ('(' :: t) = none from rfl]
  dsimp only
  unfold stepSymbol
  rw [show (stylePlugins number style float symbols functions delim loc).readSymbol
    ('(' :: t) = none from rfl]
  dsimp only
  unfold stepPunct
  have hcomma : (if s.inFnArgs > 0 then expect ',' ('(' :: t) else none) = none := by
    split <;> rfl
  rw [hcomma]
  dsimp only
  rw [show (stylePlugins number style float symbols functions delim loc).ops.isOpen
    ('(' :: t) = some t from style_open_paren style hst t]
  dsimp only
  rw [if_neg (by rw [hm]; simp)]
  split
  · unfold fail; dsimp only; rw [he]; rfl
  · rw [hv]; rfl

/-- After `n` opening parentheses. -/
def opened (delim : Char) (n : Nat) (t : Scan) (radix : Radix) : St Value :=
  { scan := t, vst := [], ost := List.replicate n (.paren 0)
    endOfExpr := if n = 0 then delim else '\x00', inParen := n, maybePrefix := true
    expectFnArgs := false, inFnArgs := 0, err := .OK, radix := radix
    trace := List.replicate n .opening }

theorem step_opened (number : Parser) (style : OpStyle) (hst : style ≠ .pdp11)
    (float : Scan → Option (Err × Value × Scan)) (symbols : List Char → Option Value)
    (functions : List Char → Option (Int × (List Value → Out (Except Err Value))))
    (delim : Char) (loc : Nat) (n : Nat) (hn : n < capacity) (t : Scan) (radix : Radix) :
    step (stylePlugins number style float symbols functions delim loc)
      (opened delim n ('(' :: t) radix) = .ok (.cont (opened delim (n + 1) t radix)) := by
  rw [step_paren number style hst float symbols functions delim loc _ t rfl rfl rfl rfl]
  rw [if_neg (by show ¬ (List.replicate n _).length ≥ _; rw [List.length_replicate]; omega)]
  rfl

theorem loop_opened (number : Parser) (style : OpStyle) (hst : style ≠ .pdp11)
    (float : Scan → Option (Err × Value × Scan)) (symbols : List Char → Option Value)
    (functions : List Char → Option (Int × (List Value → Out (Except Err Value))))
    (delim : Char) (loc : Nat) (t : Scan) (radix : Radix) (k : Nat) :
    ∀ n, n + k ≤ capacity → ∀ fuel,
    loop (stylePlugins number style float symbols functions delim loc) (fuel + k)
      (opened delim n (List.replicate k '(' ++ t) radix) =
    loop (stylePlugins number style float symbols functions delim loc) fuel
      (opened delim (n + k) t radix) := by
  induction k with
  | zero => intro n _ fuel; rfl
  | succ k ih =>
    intro n hn fuel
    rw [List.replicate_succ, List.cons_append]
    show Out.bind (step _ _) _ = _
    rw [step_opened number style hst float symbols functions delim loc n (by omega)]
    dsimp only [Out.bind]
    show loop _ (fuel + k) _ = _
    rw [ih (n + 1) (by omega)]
    rw [show n + 1 + k = n + (k + 1) by omega]

theorem skipSpaces_parens (n : Nat) (t : Scan) (hn : n > 0) :
    skipSpaces (List.replicate n '(' ++ t) = List.replicate n '(' ++ t := by
  cases n with
  | zero => omega
  | succ n => rw [List.replicate_succ, List.cons_append]; rfl

theorem opened_zero (P : Plugins Value) (scan : Scan) (radix : Radix) :
    start P scan .OK radix = opened P.delimitor 0 scan radix := rfl

theorem fnOk_opened (delim : Char) (n : Nat) (t : Scan) (radix : Radix) :
    FnOk (opened delim n t radix).ost := by
  intro o ho
  have : o = Operator.paren 0 := (List.mem_replicate.mp ho).2
  rw [this]; intro h; cases h

theorem parens_opened (delim : Char) (n : Nat) (t : Scan) (radix : Radix) :
    parens (opened delim n t radix).ost = n := by
  show parens (List.replicate n _) = n
  induction n with
  | zero => rfl
  | succ n ih => rw [List.replicate_succ, parens_cons, ih]; simp [Operator.paren, Operator.isOpenParen]; omega

/-- Opening parentheses without as many closing ones are an error. -/
theorem unclosed_error (number : Parser) (style : OpStyle) (hst : style ≠ .pdp11)
    (float : Scan → Option (Err × Value × Scan))
    (hfloat : ∀ s v rest, float s = some (.OK, v, rest) → rest <:+ s)
    (symbols : List Char → Option Value)
    (functions : List Char → Option (Int × (List Value → Out (Except Err Value))))
    (delim : Char) (loc : Nat)
    (hH : Honest (stylePlugins number style float symbols functions delim loc))
    (n : Nat) (t : Scan) (hc : t.count ')' < n) (fuel : Nat) (err : Err) (radix : Radix)
    (r : Result Value)
    (h : evalFuel (stylePlugins number style float symbols functions delim loc) fuel
      (List.replicate n '(' ++ t) err radix = .ok r) : r.err ≠ .OK := by
  rcases Decidable.em (err = .OK) with he | he
  case inr => rw [eval_err he h]; exact he
  subst he
  have hG : GoodParser (stylePlugins number style float symbols functions delim loc).ops :=
    style_good style hst
  have hS := stylePlugins_suffixes number style hst float hfloat symbols functions delim loc
  generalize hP : stylePlugins number style float symbols functions delim loc = P at *
  intro hr
  unfold evalFuel at h
  dsimp only at h
  obtain ⟨a, ha, h⟩ := Out.bind_ok h
  have hae : a.err = .OK := by
    injection h with h
    rw [← h] at hr
    split at hr
    · exact absurd hr (setErrorIf_ne (by decide))
    · exact hr
  rw [skipSpaces_parens n t (by omega)] at ha
  obtain ⟨u, w, vst, radix', h1, h2, h3, h4, h5⟩ :=
    loop_ok hG.quiet hH fuel _ a (by intro o ho; cases ho) ha hae
  have h6 := brk_parens hG.quiet h2 h3
  -- the parentheses are read first
  have hd : P.delimitor = delim := by rw [← hP]; rfl
  have hgo : ∀ k m, m + k = n → m ≤ capacity →
      Run P (opened delim m (List.replicate k '(' ++ t) radix) u → False := by
    intro k
    induction k with
    | zero =>
      intro m hm hcap h1
      have h7 := close_run hS hG h1 (fnOk_opened _ _ _ _)
      rw [parens_opened, h6] at h7
      have h8 : (opened delim m (List.replicate 0 '(' ++ t) radix).scan = t := by simp [opened]
      rw [h8] at h7
      omega
    | succ k ih =>
      intro m hm hcap h1
      have hst' := step_paren number style hst float symbols functions delim loc
        (opened delim m (List.replicate (k + 1) '(' ++ t) radix) (List.replicate k '(' ++ t)
        (by simp [opened, List.replicate_succ]) rfl rfl rfl
      rw [hP] at hst'
      by_cases hf : (opened delim m (List.replicate (k + 1) '(' ++ t) radix).ost.length ≥ capacity
      · rw [if_pos hf] at hst'
        cases h1 with
        | refl => rw [hst'] at h2; cases h2
        | step hx _ => rw [hst'] at hx; cases hx
      · have hlen : (opened delim m (List.replicate (k + 1) '(' ++ t) radix).ost.length = m :=
          List.length_replicate ..
        have hst2 := step_opened number style hst float symbols functions delim loc m
          (by rw [hlen] at hf; omega) (List.replicate k '(' ++ t) radix
        rw [hP] at hst2
        rw [List.replicate_succ, List.cons_append] at h1
        cases h1 with
        | refl => rw [hst2] at h2; cases h2
        | step hx h1 =>
          rw [hst2] at hx
          injection hx with hx
          injection hx with hx
          subst hx
          exact ih (m + 1) (by omega) (by rw [hlen] at hf; omega) h1
  rw [opened_zero, hd] at h1
  exact hgo n 0 (by omega) (Nat.zero_le _) h1

/-- Nine opening parentheses are too many. -/
theorem nine_parens (number : Parser) (style : OpStyle) (hst : style ≠ .pdp11)
    (float : Scan → Option (Err × Value × Scan)) (symbols : List Char → Option Value)
    (functions : List Char → Option (Int × (List Value → Out (Except Err Value))))
    (delim : Char) (loc : Nat) (t : Scan) (radix : Radix) :
    eval (stylePlugins number style float symbols functions delim loc)
      (List.replicate 9 '(' ++ t) .OK radix =
      .ok ⟨Value.undefined, .TOO_COMPLEX_EXPRESSION, t, List.replicate 8 .opening⟩ := by
  unfold eval evalFuel
  dsimp only
  rw [skipSpaces_parens 9 t (by omega), opened_zero]
  have hsplit : List.replicate 9 '(' ++ t = List.replicate 8 '(' ++ '(' :: t := rfl
  have hl : (List.replicate 9 '(' ++ t).length = t.length + 9 := by
    rw [List.length_append, List.length_replicate]; omega
  rw [hl, hsplit]
  have h8 := loop_opened number style hst float symbols functions delim loc ('(' :: t) radix 8 0
    (by decide) (t.length + 2)
  rw [show t.length + 9 + 1 = t.length + 2 + 8 by omega]
  show Out.bind (loop _ _ (opened delim 0 _ radix)) _ = _
  rw [h8]
  show Out.bind (Out.bind (step _ _) _) _ = _
  rw [step_paren number style hst float symbols functions delim loc _ t rfl rfl rfl rfl]
  rw [if_pos (show (opened delim (0 + 8) ('(' :: t) radix).ost.length ≥ capacity from Nat.le_refl 8)]
  dsimp only [Out.bind]
  rw [if_neg (by simp)]
  rfl

end Libasm.Eval
