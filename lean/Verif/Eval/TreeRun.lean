import Verif.Eval.CLex
/-
Reading the text of a tree, by induction on how it is written.
-/
namespace Libasm.Eval
open Scan Number Ctype Spec

/-- A state in which an operand may be read. -/
structure Ready (delim : Char) (s : St Value) : Prop where
  pre : s.maybePrefix = true
  noCall : s.expectFnArgs = false
  noArgs : s.inFnArgs = 0
  radix : s.radix = .r10
  err : hasError s.err = false
  fin : s.endOfExpr = if s.inParen = 0 then delim else '\x00'
  noFn : ∀ o ∈ s.ost, o.isFunction = false

/-- The operators waiting do not take the operands of `e` for themselves. -/
def Blocks (ost : List Op) (e : Expr) : Prop :=
  ∀ t, ost.head? = some t →
    lvl e.level < t.prec ∨ (t.prec = 3 ∧ t.assoc = .right ∧ e.level ≤ 1)

theorem reduceInfix_blocked (P : Plugins Value) {opr : Op} {ost : List Op}
    (h : ∀ t, ost.head? = some t → t.isNoneAssoc opr = false ∧ t.isHigher opr = false)
    (st : List Value) (r : Radix) : reduceInfix P opr ost st r = .ok (.ok (ost, st, r)) := by
  cases ost with
  | nil => rfl
  | cons t os =>
    obtain ⟨h1, h2⟩ := h t rfl
    unfold reduceInfix
    rw [h1, h2]
    rfl

theorem blocked_un {ost : List Op} {o : UnOp} {e : Expr} (h : Blocks ost (.un o e)) :
    ∀ t, ost.head? = some t → t.isNoneAssoc (opOf1 o) = false ∧ t.isHigher (opOf1 o) = false := by
  intro t ht
  unfold Operator.isNoneAssoc Operator.isHigher
  rw [opOf1_prec, opOf1_assoc]
  rcases h t ht with h | ⟨h1, h2, h3⟩
  · have h' : 3 < t.prec := h
    simp only [Bool.and_eq_false_iff, decide_eq_false_iff_not, Bool.or_eq_false_iff]
    exact ⟨.inl (by omega), by omega, .inl (by omega)⟩
  · rw [h1, h2]; decide

theorem blocked_bin {ost : List Op} {o : BinOp} {l r : Expr} (h : Blocks ost (.bin o l r)) :
    ∀ t, ost.head? = some t → t.isNoneAssoc (opOf o) = false ∧ t.isHigher (opOf o) = false := by
  intro t ht
  unfold Operator.isNoneAssoc Operator.isHigher
  rw [opOf_prec]
  rcases h t ht with h | ⟨h1, h2, h3⟩
  · have h' : lvl o.level < t.prec := h
    simp only [Bool.and_eq_false_iff, decide_eq_false_iff_not, Bool.or_eq_false_iff]
    exact ⟨.inl (by omega), by omega, .inl (by omega)⟩
  · have := binLevel_ge o
    have h3' : o.level ≤ 1 := h3
    omega

theorem blocks_left {ost : List Op} {o : BinOp} {l r : Expr} (h : Blocks ost (.bin o l r))
    (hl : l.level ≤ o.level) : Blocks ost l := by
  intro t ht
  have := binLevel_ge o
  rcases h t ht with h | ⟨h1, h2, h3⟩
  · have h' : lvl o.level < t.prec := h
    exact .inl (Nat.lt_of_le_of_lt (lvl_le hl) h')
  · have h3' : o.level ≤ 1 := h3
    omega

theorem blocks_right {ost : List Op} {o : BinOp} {r : Expr} (h : r.level < o.level) :
    Blocks (opOf o :: ost) r := by
  intro t ht
  injection ht with ht
  subst ht
  left
  rw [opOf_prec]
  exact lvl_mono h

theorem blocks_un {ost : List Op} {o : UnOp} {e : Expr} (h : e.level ≤ 1) :
    Blocks (opOf1 o :: ost) e := by
  intro t ht
  injection ht with ht
  subst ht
  exact .inr ⟨opOf1_prec o, opOf1_assoc o, h⟩

theorem blocks_paren {ost : List Op} {n : Nat} (e : Expr) : Blocks (Operator.paren n :: ost) e := by
  intro t ht
  injection ht with ht
  subst ht
  left
  have := lvl_bound (level_le e)
  show lvl e.level < 254
  omega

/-- Which pending operators an infix operator reduces. -/
theorem reduced {o : BinOp} {l : Expr} {t : Op}
    (hl : if o.chains then l.level ≤ o.level else l.level < o.level)
    (ht : t.prec ≤ lvl l.level) (hk : (∃ u, t = opOf1 u) ∨ ∃ b, t = opOf b) :
    t.isNoneAssoc (opOf o) = false ∧ t.isHigher (opOf o) = true := by
  unfold Operator.isNoneAssoc Operator.isHigher
  rw [opOf_prec]
  have hlt : t.prec < lvl o.level → (decide (t.prec = lvl o.level) && decide (t.assoc = .none)) = false ∧
      (decide (t.prec < lvl o.level) ||
        decide (t.prec = lvl o.level) && decide ((opOf o).assoc = .left)) = true := by
    intro h
    simp only [Bool.and_eq_false_iff, decide_eq_false_iff_not, Bool.or_eq_true, decide_eq_true_eq]
    exact ⟨.inl (by omega), .inl h⟩
  by_cases hc : o.chains = true
  · rw [if_pos hc] at hl
    have h1 := lvl_le hl
    rcases Nat.eq_or_lt_of_le (Nat.le_trans ht h1) with heq | h
    · rcases hk with ⟨u, rfl⟩ | ⟨b, rfl⟩
      · have h3 : lvl 2 ≤ lvl o.level := lvl_le (binLevel_ge o)
        rw [opOf1_prec] at heq
        have : lvl 2 = 5 := rfl
        omega
      · rw [opOf_prec] at heq
        have hb : b.level = o.level := lvl_inj heq
        have hbc : b.chains = true := by rw [chains_level, hb, ← chains_level]; exact hc
        rw [opOf_prec, opOf_assoc, opOf_assoc, hbc, hc, hb]
        simp
    · exact hlt h
  · rw [if_neg hc] at hl
    exact hlt (Nat.lt_of_le_of_lt ht (lvl_mono hl))

theorem tokenStart_fin {delim : Char} (hd : ¬ TokenStart delim) {s : St Value}
    (hs : Ready delim s) {c : Char} (hc : TokenStart c) (h0 : c ≠ '\x00') : c ≠ s.endOfExpr := by
  rw [hs.fin]
  split
  · rintro rfl; exact hd hc
  · exact h0

theorem atom_token {c : Char} (h : Atom c) : TokenStart c := by
  rcases h with h | h | h | h
  · exact .inl h
  · exact .inr (.inl h)
  · subst h; exact .inr (.inr (by decide))
  · subst h; exact .inr (.inr (by decide))

section
variable {float : Scan → Option (Err × Value × Scan)} {symbols : List Char → Option Value}
  {functions : List Char → Option (Int × (List Value → Out (Except Err Value)))}
  {delim : Char} {loc : Nat}

/-- A constant. -/
theorem outcome_const (hd : ¬ TokenStart delim) {s : St Value} (hs : Ready delim s) {e : Expr}
    {c : Char} {t rest : Scan} {v : Value} (hc : Atom c) (hsk : skipSpaces s.scan = c :: t)
    (hp : (cP float symbols functions delim loc).parseConstant (c :: t) .r10 = (.OK, v, rest))
    (hl : s.vst.length < 8) (h1 : 1 ≤ e.values) :
    Outcome (cP float symbols functions delim loc) e (.ok (s.err, some v)) s rest := by
  have hst := step_const hsk (atom_ne hc _ (by decide)) (atom_ne hc _ (by decide))
    (tokenStart_fin hd hs (atom_token hc) (atom_ne hc _ (by decide))) hs.pre hs.err
    (cPrefix_none ⟨atom_ne hc _ (by decide), atom_ne hc _ (by decide), atom_ne hc _ (by decide),
      atom_ne hc _ (by decide)⟩) (by rw [hs.radix]; exact hp) hl
  refine .inl ⟨s.err, [], [v], .ok (.ok v), .operand :: s.trace, .step hst (.refl _), .nil v, h1,
    ?_, ?_, hs.err, rfl⟩
  · intro o ho; cases ho
  · intro o ho; cases ho

/-- A name. -/
theorem outcome_name (hd : ¬ TokenStart delim) {s : St Value} (hs : Ready delim s)
    {name rest : Scan} (hn : IsName name) (hf : functions name = none)
    (hsk : skipSpaces s.scan = name ++ rest) (hsep : Sep rest) (hl : s.vst.length < 8) :
    Outcome (cP float symbols functions delim loc) (.sym name)
      (mean symbols loc (.sym name) s.err) s rest := by
  obtain ⟨c, t, hname, hc⟩ := name_head hn
  have ha : Atom c := .inl hc
  have hsk' : skipSpaces s.scan = c :: (t ++ rest) := by rw [hsk, hname]; rfl
  obtain ⟨v, hv⟩ := constant_name (float := float) (symbols := symbols) (functions := functions)
    (delim := delim) (loc := loc) hn hsep
  have hst := step_pre (float := float) (symbols := symbols) (functions := functions)
    (delim := delim) (loc := loc) hsk' (atom_ne ha _ (by decide)) (atom_ne ha _ (by decide))
    (tokenStart_fin hd hs (atom_token ha) (atom_ne ha _ (by decide))) hs.pre hs.err
  rw [cPrefix_none ⟨atom_ne ha _ (by decide), atom_ne ha _ (by decide), atom_ne ha _ (by decide),
      atom_ne ha _ (by decide)⟩] at hst
  dsimp only at hst
  have hcat : c :: (t ++ rest) = name ++ rest := by rw [hname]; rfl
  rw [hcat] at hst
  unfold stepOperand at hst
  rw [hs.radix, hv] at hst
  dsimp only at hst
  have hrd : (cP float symbols functions delim loc).readFunctionName (name ++ rest) =
      some (name, rest) := name_read hn hsep
  have hrs : (cP float symbols functions delim loc).readSymbol (name ++ rest) =
      some (name, rest) := name_read hn hsep
  have hfn : (cP float symbols functions delim loc).lookupFunction name = none := hf
  rw [hrd] at hst
  dsimp only at hst
  rw [hfn] at hst
  dsimp only at hst
  unfold stepSymbol at hst
  rw [hrs] at hst
  dsimp only at hst
  rw [if_neg (show ¬ s.vst.length ≥ capacity by show ¬ s.vst.length ≥ 8; omega)] at hst
  have hpush : ∀ v : Value, push v s.vst = .ok (v :: s.vst) := by
    intro v; unfold push; exact if_pos hl
  have hlook : (cP float symbols functions delim loc).lookupSymbol name = symbols name := rfl
  rw [hlook, hpush] at hst
  unfold mean
  cases hv : symbols name with
  | some v =>
    rw [hv] at hst
    dsimp only at hst
    rw [hpush] at hst
    refine .inl ⟨s.err, [], [v], .ok (.ok v), .operand :: s.trace, .step hst (.refl _), .nil v,
      Nat.le_refl _, ?_, ?_, hs.err, rfl⟩
    · intro o ho; cases ho
    · intro o ho; cases ho
  | none =>
    rw [hv] at hst
    refine .inl ⟨setErrorIf s.err .UNDEFINED_SYMBOL, [], [Value.undefined],
      .ok (.ok Value.undefined), .operand :: s.trace, .step hst (.refl _), .nil _,
      Nat.le_refl _, ?_, ?_, ?_, rfl⟩
    · intro o ho; cases ho
    · intro o ho; cases ho
    · have := hs.err
      unfold setErrorIf
      split
      · rfl
      · exact this

/-- `SameBad` and failures through a reduction. -/
theorem fails_reduce {P : Plugins Value} {s : St Value} {x : Out (Except Err Value)} {err : Err}
    {f : Value → Out (Next Value)} {g : Err → St Value}
    (hst : step P s = x.bind fun
      | .error e => .ok (.ret (g e) P.undef)
      | .ok v => f v)
    (hg : ∀ e, (g e).err = setErrorIf err e)
    {m : Out (Err × Option Value)} {h : Err → Value → Out (Err × Option Value)}
    (hm : m = (mean.settle err x).bind fun
      | (err, none) => .ok (err, none)
      | (err, some v) => h err v) :
    (∃ v, x = .ok (.ok v) ∧ step P s = f v ∧ m = h err v) ∨ Fails P s m := by
  cases x with
  | ok a =>
    cases a with
    | error e =>
      right
      refine ⟨s, .refl s, .inl ⟨g e, hst, ?_⟩⟩
      rw [hm, hg]; rfl
    | ok v => exact .inl ⟨v, rfl, hst, hm⟩
  | ub => exact .inr ⟨s, .refl s, .inr (.inl ⟨hst, hm⟩)⟩
  | stackUB => exact .inr ⟨s, .refl s, .inr (.inr (.inl ⟨hst, hm⟩))⟩
  | diverge => exact .inr ⟨s, .refl s, .inr (.inr (.inr ⟨hst, hm⟩))⟩

theorem fails_bind {P : Plugins Value} {s : St Value} {x : Out (Err × Option Value)}
    (h : Fails P s x) (f : Err → Value → Out (Err × Option Value)) :
    Fails P s (x.bind fun
      | (err, none) => .ok (err, none)
      | (err, some v) => f err v) := by
  obtain ⟨t, h1, h2⟩ := h
  refine ⟨t, h1, ?_⟩
  rcases h2 with ⟨u, h2, h3⟩ | h2
  · exact .inl ⟨u, h2, by rw [h3]; rfl⟩
  · right
    rcases h2 with ⟨h2, h3⟩ | ⟨h2, h3⟩ | ⟨h2, h3⟩
    · exact .inl ⟨h2, by rw [h3]; rfl⟩
    · exact .inr (.inl ⟨h2, by rw [h3]; rfl⟩)
    · exact .inr (.inr ⟨h2, by rw [h3]; rfl⟩)

theorem binText_head (o : BinOp) : ∃ c u, o.text = c :: u ∧ TokenStart c ∧ isSpace c = false ∧
    c ≠ '\x00' ∧ c ≠ ';' ∧ ¬ IsLetter c ∧ ¬ IsDecimal c ∧ c ≠ '\'' ∧ c ≠ '.' := by
  cases o <;> exact ⟨_, _, rfl, .inr (.inr (by decide)), by decide⟩

theorem unText_head (o : UnOp) : ∃ c u, o.text = c :: u ∧ TokenStart c ∧ isSpace c = false ∧
    c ≠ '\x00' ∧ c ≠ ';' := by
  cases o <;> exact ⟨_, _, rfl, .inr (.inr (by decide)), by decide⟩

theorem sep_blanks {sp t : Scan} (hsp : ∀ c ∈ sp, Blank c) (ht : Sep t) : Sep (sp ++ t) := by
  cases sp with
  | nil => exact ht
  | cons c u =>
    intro d hd
    injection hd with hd
    subst hd
    have hb := hsp c (List.mem_cons_self ..)
    unfold Blank at hb
    refine ⟨?_, ?_, ?_, ?_⟩
    · intro h; have := letter_toNat h; omega
    · intro h; unfold IsDecimal at h; omega
    · rintro rfl; revert hb; decide
    · rintro rfl; revert hb; decide

theorem reads (hd : ¬ TokenStart delim) {e : Expr} {t : Scan} (hw : Writes e t) :
    ∀ (s : St Value) (rest : Scan), Ready delim s → skipSpaces s.scan = skipSpaces (t ++ rest) →
    Sep rest → e.Grouped → e.Fits (fun n => functions n ≠ none) → Blocks s.ost e →
    s.vst.length + e.values ≤ 8 → s.ost.length + e.operators ≤ 8 →
    Outcome (cP float symbols functions delim loc) e (mean symbols loc e s.err) s rest := by
  induction hw with
  | num n t h =>
    intro s rest hs hsk hsep hg hf hb hv ho
    obtain ⟨c, u, rfl, hc⟩ := literal_head h
    have ha : Atom c := .inr (.inl (digit10_decimal hc))
    rw [List.cons_append, skip_cons (atom_space ha)] at hsk
    refine outcome_const hd hs ha hsk (constant_number ?_ (literal_parse h hf hsep) hsep) ?_
      (Nat.le_refl _)
    · rintro rfl; revert hc; decide
    · have : s.vst.length + 1 ≤ 8 := hv
      omega
  | char c h =>
    intro s rest hs hsk hsep hg hf hb hv ho
    exact outcome_const hd hs (.inr (.inr (.inl rfl))) hsk (constant_char h) (by
      have : s.vst.length + 1 ≤ 8 := hv
      omega) (Nat.le_refl _)
  | quote =>
    intro s rest hs hsk hsep hg hf hb hv ho
    exact outcome_const hd hs (.inr (.inr (.inl rfl))) hsk constant_quote (by
      have : s.vst.length + 1 ≤ 8 := hv
      omega) (Nat.le_refl _)
  | here =>
    intro s rest hs hsk hsep hg hf hb hv ho
    exact outcome_const hd hs (.inr (.inr (.inr rfl))) hsk (constant_here hsep) (by
      have : s.vst.length + 1 ≤ 8 := hv
      omega) (Nat.le_refl _)
  | sym name h =>
    intro s rest hs hsk hsep hg hf hb hv ho
    obtain ⟨c, u, hname, hc⟩ := name_head h
    refine outcome_name hd hs h (Decidable.not_not.mp hf) ?_ hsep (by
      have : s.vst.length + 1 ≤ 8 := hv
      omega)
    rw [hsk, hname, List.cons_append, skip_cons (atom_space (.inl hc))]
  | blank e c t hc h ih =>
    intro s rest hs hsk hsep hg hf hb hv ho
    rw [List.cons_append, skip_blank (blank_space.mp hc)] at hsk
    exact ih s rest hs hsk hsep hg hf hb hv ho
  | un o e t h ih =>
    intro s rest hs hsk hsep hg hf hb hv ho
    obtain ⟨c, u, hc, htok, hsp, hc0, hc1⟩ := unText_head o
    have hsk' : skipSpaces s.scan = c :: (u ++ (t ++ rest)) := by
      rw [hsk, hc, List.append_assoc, List.cons_append, skip_cons hsp]
    have hst := step_pre (float := float) (symbols := symbols) (functions := functions)
      (delim := delim) (loc := loc) hsk' hc0 hc1 (tokenStart_fin hd hs htok hc0) hs.pre hs.err
    have hcat : c :: (u ++ (t ++ rest)) = o.text ++ (t ++ rest) := by rw [hc]; rfl
    rw [hcat, cPrefix_text o (writes_head h rest)] at hst
    dsimp only at hst
    unfold stepOperator at hst
    rw [reduceInfix_blocked _ (blocked_un hb)] at hst
    dsimp only [Out.bind] at hst
    have ho' : s.ost.length + (1 + e.operators) ≤ 8 := ho
    rw [if_neg (show ¬ s.ost.length ≥ capacity by show ¬ s.ost.length ≥ 8; omega)] at hst
    have := ih { s with
        scan := t ++ rest, ost := opOf1 o :: s.ost, maybePrefix := true
        trace := (if s.maybePrefix then Tok.prefix else .infix) :: s.trace } rest
      ⟨rfl, hs.noCall, hs.noArgs, hs.radix, hs.err, hs.fin, by
        intro x hx
        rcases List.mem_cons.mp hx with rfl | hx
        · cases o <;> rfl
        · exact hs.noFn x hx⟩ rfl hsep hg.2 hf (blocks_un hg.1) hv
      (by show s.ost.length + 1 + e.operators ≤ 8; omega)
    have hm : mean symbols loc (.un o e) s.err = (mean symbols loc e s.err).bind fun
      | (err, none) => .ok (err, none)
      | (err, some v) => mean.settle err (fn1 o v) := rfl
    rw [hm]
    rcases this with ⟨err, O, V, x, tr, hrun, hpend, hlen, hprec, hkind, herr, hmean⟩ | hfail
    · refine .inl ⟨err, O ++ [opOf1 o], V, thenE x (fn1 o), tr, .step hst ?_, .un o hpend, hlen, ?_,
        ?_, herr, ?_⟩
      · rw [List.append_assoc, List.singleton_append]
        exact hrun
      · intro y hy
        rcases List.mem_append.mp hy with hy | hy
        · exact Nat.le_trans (hprec y hy) (lvl_le hg.1)
        · rw [List.mem_singleton.mp hy, opOf1_prec]; exact Nat.le_refl _
      · intro y hy
        rcases List.mem_append.mp hy with hy | hy
        · exact hkind y hy
        · exact .inl ⟨o, List.mem_singleton.mp hy⟩
      · rw [settle_then]
        show (mean symbols loc e s.err).bind _ = _
        have h2 : mean symbols loc e s.err = mean.settle err x := hmean
        rw [h2]
        rfl
    · right
      exact fails_bind (Fails.run (.step hst (.refl _)) hfail) (fun err v => mean.settle err (fn1 o v))
  | paren e t sp h hsp ih =>
    intro s rest hs hsk hsep hg hf hb hv ho
    have hsk' : skipSpaces s.scan = '(' :: (t ++ (sp ++ ')' :: rest)) := by
      rw [hsk]
      show skipSpaces ('(' :: ((t ++ sp) ++ [')'] ++ rest)) = _
      rw [skip_cons (by decide), List.append_assoc, List.append_assoc]
      rfl
    have ho' : s.ost.length + (1 + e.operators) ≤ 8 := ho
    have hst := step_open (float := float) (symbols := symbols) (functions := functions)
      (delim := delim) (loc := loc) hsk'
      (tokenStart_fin hd hs (.inr (.inr (by decide))) (by decide)) hs.pre hs.err hs.noArgs hs.radix
      (by omega)
    generalize hs1 : { s with
      scan := t ++ (sp ++ ')' :: rest), ost := Operator.paren s.vst.length :: s.ost
      endOfExpr := '\x00', inParen := s.inParen + 1, maybePrefix := true, expectFnArgs := false
      trace := .opening :: s.trace } = s1 at hst
    have hr1 : Ready delim s1 := by
      subst hs1
      refine ⟨rfl, rfl, hs.noArgs, hs.radix, hs.err, ?_, ?_⟩
      · show '\x00' = if s.inParen + 1 = 0 then delim else '\x00'
        rw [if_neg (by omega)]
      · intro x hx
        rcases List.mem_cons.mp hx with rfl | hx
        · rfl
        · exact hs.noFn x hx
    have hclose : Sep (sp ++ ')' :: rest) := sep_blanks hsp (by
      intro d hd; injection hd with hd; subst hd; decide)
    have := ih s1 (sp ++ ')' :: rest) hr1 (by subst hs1; rfl) hclose hg hf
      (by subst hs1; exact blocks_paren e) (by subst hs1; exact hv)
      (by subst hs1; show s.ost.length + 1 + e.operators ≤ 8; omega)
    have he1 : s1.err = s.err := by subst hs1; rfl
    rw [he1] at this
    show Outcome _ _ (mean symbols loc e s.err) s rest
    rcases this with ⟨err, O, V, x, tr, hrun, hpend, hlen, hprec, hkind, herr, hmean⟩ | hfail
    · generalize hs2 : { s1 with
        scan := sp ++ ')' :: rest, ost := O ++ s1.ost, vst := V ++ s1.vst, maybePrefix := false
        err := err, trace := tr } = s2 at hrun
      have hsk2 : skipSpaces s2.scan = ')' :: rest := by
        subst hs2
        show skipSpaces (sp ++ ')' :: rest) = _
        rw [skip_blanks hsp, skip_cons (by decide)]
      have hvv : V.length + s.vst.length ≤ 8 := by
        have : s.vst.length + e.values ≤ 8 := hv
        omega
      have hq : ∀ o ∈ O, o.isOpenParen = false := by
        intro o hoo
        have := hprec o hoo
        have := lvl_bound (level_le e)
        exact not_paren (by omega)
      have hst2 := step_close (float := float) (symbols := symbols) (functions := functions)
        (delim := delim) (loc := loc) hsk2
        (by subst hs2; subst hs1; show ')' ≠ '\x00'; decide) (by subst hs2; rfl)
        (by subst hs2; exact herr) (by subst hs2; subst hs1; exact hs.noArgs)
        (O := O) (V := V) (vst := s.vst) (ost := s.ost) (n := s.vst.length)
        (by subst hs2; subst hs1; rfl) (by subst hs2; subst hs1; rfl) hpend hq
        (by rw [List.length_append]; exact hvv) hs.noFn
      have hm : mean symbols loc e s.err = (mean.settle err x).bind fun
          | (err, none) => .ok (err, none)
          | (err, some v) => .ok (err, some v) := by
        rw [hmean]
        cases x with
        | ok a => cases a <;> rfl
        | _ => rfl
      have hs3 : ∀ v, ({ s2 with
          scan := rest, vst := v :: s.vst, ost := s.ost, inParen := s2.inParen - 1
          maybePrefix := false
          endOfExpr := if s2.inParen - 1 = 0 then delim else s2.endOfExpr
          trace := .closing :: s2.trace } : St Value) = { s with
            scan := rest, ost := [] ++ s.ost, vst := [v] ++ s.vst, maybePrefix := false, err := err
            trace := .closing :: tr } := by
        intro v
        have e1 : s2.inParen - 1 = s.inParen := by
          subst hs2; subst hs1; show s.inParen + 1 - 1 = _; omega
        have e2 : s2.endOfExpr = '\x00' := by subst hs2; subst hs1; rfl
        rw [e1, e2, ← hs.fin]
        subst hs2; subst hs1
        have e3 := hs.noCall
        cases s
        dsimp only at e3
        rw [e3]
        rfl
      rcases fails_reduce hst2 (by intro e; subst hs2; rfl) hm with ⟨v, hx, hstep, hmm⟩ | hfail
      · refine .inl ⟨err, [], [v], .ok (.ok v), .closing :: tr,
          .step hst (hrun.trans (.step (hs3 v ▸ hstep) (.refl _))), .nil v, ?_, ?_, ?_, herr, hmm⟩
        · show 1 ≤ e.values
          have := pend_pos hpend
          omega
        · intro o ho; cases ho
        · intro o ho; cases ho
      · exact .inr (Fails.run (.step hst hrun) hfail)
    · exact .inr (Fails.run (.step hst (.refl _)) hfail)
  | bin o l r tl sp tr hl hsp hr ihl ihr =>
    intro s rest hs hsk hsep hg hf hb hv ho
    obtain ⟨hgl, hgr, hgl', hgr'⟩ := hg
    obtain ⟨c, u, hc, htok, hspc, hc0, hc1, k1, k2, k3, k4⟩ := binText_head o
    have hcat : tl ++ sp ++ o.text ++ tr ++ rest = tl ++ (sp ++ (o.text ++ (tr ++ rest))) := by
      simp [List.append_assoc]
    rw [hcat] at hsk
    have hsep1 : Sep (sp ++ (o.text ++ (tr ++ rest))) := sep_blanks hsp (by
      rw [hc]; intro d hd; injection hd with hd; subst hd; exact ⟨k1, k2, k3, k4⟩)
    have hv' : s.vst.length + max l.values (1 + r.values) ≤ 8 := hv
    have ho' : s.ost.length + max l.operators (1 + r.operators) ≤ 8 := ho
    have hlle : l.level ≤ o.level := by split at hgl <;> omega
    have hL := ihl s _ hs hsk hsep1 hgl' hf.1 (blocks_left hb hlle) (by omega) (by omega)
    have hm : mean symbols loc (.bin o l r) s.err = (mean symbols loc l s.err).bind fun
      | (err, none) => .ok (err, none)
      | (err, some a) => (mean symbols loc r err).bind fun
        | (err, none) => .ok (err, none)
        | (err, some b) => mean.settle err (fn2 o a b) := rfl
    rw [hm]
    rcases hL with ⟨err, O, V, x, tr1, hrun, hpend, hlen, hprec, hkind, herr, hmean⟩ | hfail
    · rw [hmean]
      generalize hs2 : ({ s with
        scan := sp ++ (o.text ++ (tr ++ rest)), ost := O ++ s.ost, vst := V ++ s.vst
        maybePrefix := false, err := err, trace := tr1 } : St Value) = s2 at hrun
      have hsk2 : skipSpaces s2.scan = c :: (u ++ (tr ++ rest)) := by
        subst hs2
        show skipSpaces (sp ++ (o.text ++ (tr ++ rest))) = _
        rw [skip_blanks hsp, hc, List.cons_append, skip_cons hspc]
      have hst2 := step_inf (float := float) (symbols := symbols) (functions := functions)
        (delim := delim) (loc := loc) hsk2 hc0 hc1
        (by subst hs2; exact tokenStart_fin hd hs htok hc0) (by subst hs2; rfl)
        (by subst hs2; exact herr)
      have hcat2 : c :: (u ++ (tr ++ rest)) = o.text ++ (tr ++ rest) := by rw [hc]; rfl
      rw [hcat2, cInfix_text o (writes_head hr rest)] at hst2
      dsimp only at hst2
      unfold stepOperator at hst2
      have hred : reduceInfix (cP float symbols functions delim loc) (opOf o) s2.ost s2.vst s2.radix =
          x.bind fun
            | .error e => .ok (.error e)
            | .ok v => reduceInfix (cP float symbols functions delim loc) (opOf o) s.ost
              (v :: s.vst) s.radix := by
        subst hs2
        exact pend_reduce (cP float symbols functions delim loc)
          (reduceInfix (cP float symbols functions delim loc) (opOf o))
          (fun t => t.isNoneAssoc (opOf o) = false ∧ t.isHigher (opOf o) = true)
          (fun t os st r ht => reduceInfix_step _ ht.1 ht.2 os st r) hpend
          (fun t ht => reduced hgl (hprec t ht) (hkind t ht)) s.ost s.vst s.radix
          (by rw [List.length_append]; omega)
      rw [hred] at hst2
      have hst3 : step (cP float symbols functions delim loc) s2 = x.bind fun
          | .error e => .ok (.ret { s2 with
              scan := tr ++ rest, err := setErrorIf err e } Value.undefined)
          | .ok v => .ok (.cont { s with
              scan := tr ++ rest, vst := v :: s.vst, ost := opOf o :: s.ost, maybePrefix := true
              err := err, trace := .infix :: tr1 }) := by
        rw [hst2]
        cases x with
        | ok a =>
          cases a with
          | error e => subst hs2; rfl
          | ok v =>
            dsimp only [Out.bind]
            rw [reduceInfix_blocked _ (blocked_bin hb)]
            dsimp only
            rw [if_neg (show ¬ s.ost.length ≥ capacity by show ¬ s.ost.length ≥ 8; omega)]
            subst hs2
            rfl
        | _ => rfl
      rcases fails_reduce hst3 (by intro e; rfl) (h := fun err a =>
          (mean symbols loc r err).bind fun
          | (err, none) => .ok (err, none)
          | (err, some b) => mean.settle err (fn2 o a b)) rfl with ⟨v, hx, hstep, hmm⟩ | hfail
      · rw [hmm]
        have hR := ihr { s with
              scan := tr ++ rest, vst := v :: s.vst, ost := opOf o :: s.ost, maybePrefix := true
              err := err, trace := .infix :: tr1 } rest
          ⟨rfl, hs.noCall, hs.noArgs, hs.radix, herr, hs.fin, by
            intro y hy
            rcases List.mem_cons.mp hy with rfl | hy
            · cases o <;> rfl
            · exact hs.noFn y hy⟩ rfl hsep hgr' hf.2 (blocks_right hgr)
          (by show s.vst.length + 1 + r.values ≤ 8; omega)
          (by show s.ost.length + 1 + r.operators ≤ 8; omega)
        rcases hR with ⟨err2, O2, V2, x2, tr2, hrun2, hpend2, hlen2, hprec2, hkind2, herr2, hmean2⟩ |
          hfail2
        · refine .inl ⟨err2, O2 ++ [opOf o], V2 ++ [v], thenE x2 (fn2 o v), tr2,
            hrun.trans (.step hstep ?_), .bin o v hpend2, ?_, ?_, ?_, herr2, ?_⟩
          · rw [List.append_assoc, List.append_assoc]
            exact hrun2
          · rw [List.length_append]
            show V2.length + 1 ≤ max l.values (1 + r.values)
            omega
          · intro y hy
            rcases List.mem_append.mp hy with hy | hy
            · exact Nat.le_trans (hprec2 y hy) (lvl_le (Nat.le_of_lt hgr))
            · rw [List.mem_singleton.mp hy, opOf_prec]; exact Nat.le_refl _
          · intro y hy
            rcases List.mem_append.mp hy with hy | hy
            · exact hkind2 y hy
            · exact .inr ⟨o, List.mem_singleton.mp hy⟩
          · rw [settle_then]
            have h2 : mean symbols loc r err = mean.settle err2 x2 := hmean2
            rw [h2]
            rfl
        · right
          exact fails_bind (Fails.run (hrun.trans (.step hstep (.refl _))) hfail2)
            (fun err b => mean.settle err (fn2 o v b))
      · exact .inr (Fails.run hrun hfail)
    · right
      exact fails_bind hfail (fun err a => (mean symbols loc r err).bind fun
        | (err, none) => .ok (err, none)
        | (err, some b) => mean.settle err (fn2 o a b))

theorem stops_skip {rest : Scan} (h : Stops delim rest) :
    skipSpaces rest = [] ∨ (∃ u, skipSpaces rest = ';' :: u) ∨
      (∃ u, skipSpaces rest = skipSpaces (delim :: u)) ∨
      ∃ c u, skipSpaces rest = c :: u ∧ ¬ TokenStart c ∧ c ≠ ')' ∧ c ≠ '\x00' := by
  obtain ⟨sp, t, rfl, hsp, h⟩ := h
  rw [skip_blanks hsp]
  rcases h with rfl | ⟨u, rfl⟩ | ⟨u, rfl⟩ | ⟨c, u, rfl, h1, h2, h3, h4⟩
  · exact .inl rfl
  · exact .inr (.inl ⟨u, rfl⟩)
  · exact .inr (.inr (.inl ⟨u, rfl⟩))
  · refine .inr (.inr (.inr ⟨c, u, skip_cons ?_, h1, h3, h4⟩))
    cases hx : isSpace c with
    | false => rfl
    | true => exact absurd (blank_space.mpr hx) h2

theorem stops_sep (hd : ¬ TokenStart delim) {rest : Scan} (h : Stops delim rest) : Sep rest := by
  obtain ⟨sp, t, rfl, hsp, h⟩ := h
  apply sep_blanks hsp
  intro c hc
  have key : ∀ c, ¬ TokenStart c → ¬ IsLetter c ∧ ¬ IsDecimal c ∧ c ≠ '\'' ∧ c ≠ '.' := by
    intro c hd
    refine ⟨fun h => hd (.inl h), fun h => hd (.inr (.inl h)), ?_, ?_⟩
    · rintro rfl; exact hd (.inr (.inr (by decide)))
    · rintro rfl; exact hd (.inr (.inr (by decide)))
  rcases h with rfl | ⟨u, rfl⟩ | ⟨u, rfl⟩ | ⟨d, u, rfl, h1, h2, h3, h4⟩
  · cases hc
  · injection hc with hc; subst hc; decide
  · injection hc with hc
    subst hc
    exact key _ hd
  · injection hc with hc
    subst hc
    exact key _ h1

end

theorem loop_run {P : Plugins Value} {s t : St Value} (h : Run P s t) :
    ∃ k, ∀ n, loop P (n + k) s = loop P n t := by
  induction h with
  | refl => exact ⟨0, fun n => rfl⟩
  | step hst _ ih =>
    obtain ⟨k, hk⟩ := ih
    refine ⟨k + 1, fun n => ?_⟩
    rw [← Nat.add_assoc, ← hk n]
    conv => lhs; unfold loop
    rw [hst]
    rfl

end Libasm.Eval
