import Verif.Eval.TreeRun
/-
Evaluating the text of a tree, and the integer its value denotes.
-/
namespace Libasm.Eval
open Scan Number Ctype Spec

theorem skip_skip (t : Scan) : skipSpaces (skipSpaces t) = skipSpaces t := by
  induction t with
  | nil => rfl
  | cons c u ih =>
    cases h : isSpace c with
    | false => rw [skip_cons h, skip_cons h]
    | true => rw [skip_blank h]; exact ih

/-- The result of `eval` for a given meaning. -/
def Agrees (rest : Scan) (m : Out (Err × Option Value)) (x : Out (Result Value)) : Prop :=
  (∃ err v tr, m = .ok (err, some v) ∧
    (x = .ok ⟨v, err, skipSpaces rest, tr⟩ ∨ x = .ok ⟨v, err, rest, tr⟩)) ∨
  (∃ r err, m = .ok (err, none) ∧ x = .ok r ∧
    (r.err = err ∨ r.err = setErrorIf err .NOT_AN_EXPECTED)) ∨ SameBad x m

section
variable {float : Scan → Option (Err × Value × Scan)} {symbols : List Char → Option Value}
  {functions : List Char → Option (Int × (List Value → Out (Except Err Value)))}
  {delim : Char} {loc : Nat}

theorem step_stop (hdb : ¬ Blank delim) {s : St Value} (hstop : Stops delim s.scan)
    (he : s.endOfExpr = delim) (hv : s.vst ≠ []) (hm : s.maybePrefix = false)
    (her : hasError s.err = false) (hfn : s.inFnArgs = 0) :
    step (cP float symbols functions delim loc) s =
      .ok (.brk { s with scan := skipSpaces s.scan }) ∨
    step (cP float symbols functions delim loc) s = .ok (.brk s) := by
  have hp : (cP float symbols functions delim loc).endOfLine = semicolonEnd := rfl
  rcases stops_skip hstop with h | ⟨u, h⟩ | ⟨u, h⟩ | ⟨c, u, h, h1, h2, h3⟩
  · left; unfold step; rw [hp]; dsimp only; rw [h]; rfl
  · left; unfold step; rw [hp]; dsimp only; rw [h]; rfl
  · left; unfold step; rw [hp]; dsimp only
    have hsp : isSpace delim = false := by
      cases hx : isSpace delim with
      | false => rfl
      | true => exact absurd (blank_space.mpr hx) hdb
    rw [h, skip_cons hsp]
    by_cases hc : semicolonEnd (delim :: u) = true
    · rw [if_pos hc]
    · rw [if_neg hc, if_pos ⟨he.symm, hv⟩]
  · by_cases hcd : c = delim
    · left; unfold step; rw [hp]; dsimp only; rw [h]
      by_cases hc : semicolonEnd (c :: u) = true
      · rw [if_pos hc]
      · rw [if_neg hc, if_pos ⟨by rw [he]; exact hcd, hv⟩]
    · by_cases hc1 : c = ';'
      · subst hc1
        left; unfold step; rw [hp]; dsimp only; rw [h]; rfl
      · right
        rw [step_inf h h3 hc1 (by rw [he]; exact hcd) hm her]
        have hne : ∀ d, TokenStart d → c ≠ d := by
          rintro d hd rfl
          exact h1 hd
        have hmem : ∀ d, d ∈ ['\'', '$', '(', '+', '-', '~', '!', '*', '/', '%', '<', '>', '=', '&',
            '^', '|', '.'] → c ≠ d := fun d hd => hne d (.inr (.inr hd))
        have hin : cInfix (c :: u) = none := by
          unfold cInfix
          dsimp only
          rw [if_neg (hmem _ (by decide)), if_neg (hmem _ (by decide)), if_neg (hmem _ (by decide)),
            if_neg (hmem _ (by decide)), if_neg (hmem _ (by decide)), if_neg (hmem _ (by decide)),
            if_neg (hmem _ (by decide)), if_neg (hmem _ (by decide)), if_neg (hmem _ (by decide)),
            if_neg (hmem _ (by decide)), if_neg (hmem _ (by decide)), if_neg (hmem _ (by decide))]
        rw [hin]
        dsimp only
        have ho : (cP float symbols functions delim loc).ops.isOpen (c :: u) = none := by
          show expect '(' (c :: u) = none
          exact expect_none (by intro d hd; injection hd with hd; exact hd ▸ hmem _ (by decide))
        have hcl : (cP float symbols functions delim loc).ops.isClose (c :: u) = none := by
          show expect ')' (c :: u) = none
          exact expect_none (by intro d hd; injection hd with hd; exact hd ▸ h2)
        unfold stepPunct
        rw [if_neg (by omega), ho, hcl]

theorem run_length {P : Plugins Value} (hC : Consumes P) {s t : St Value} (h : Run P s t) :
    t.scan.length ≤ s.scan.length := by
  induction h with
  | refl => exact Nat.le_refl _
  | step hst _ ih => have := step_length hC hst; omega

theorem eval_run {P : Plugins Value} (hC : Consumes P) {text : Scan} {t : St Value}
    (h : Run P (start P (skipSpaces text) .OK .r10) t) :
    ∃ n, eval P text .OK .r10 = (loop P (n + 1) t).bind fun r =>
      .ok (if r.scan.length = (skipSpaces text).length then
        { r with err := setErrorIf r.err .NOT_AN_EXPECTED } else r) := by
  obtain ⟨k, hk⟩ := loop_run h
  refine ⟨text.length + 1, ?_⟩
  rw [← evalFuel_enough hC (text.length + 1 + 1 + k) text .OK .r10 (by omega)]
  unfold evalFuel
  dsimp only
  rw [hk]

theorem eval_writes (hd : ¬ TokenStart delim) (hdb : ¬ Blank delim)
    (hfloat : ∀ s v rest, float s = some (.OK, v, rest) → rest.length < s.length)
    {e : Expr} {t rest : Scan} (hw : Writes e t) (hg : e.Grouped)
    (hf : e.Fits (fun n => functions n ≠ none)) (hv : e.values ≤ 8) (ho : e.operators ≤ 8)
    (hstop : Stops delim rest) :
    Agrees rest (mean symbols loc e .OK)
      (eval (cP float symbols functions delim loc) (t ++ rest) .OK .r10) := by
  have hC : Consumes (cP float symbols functions delim loc) :=
    stylePlugins_consumes .cstyle .c float hfloat symbols functions delim loc
  have h := reads (float := float) (symbols := symbols) (functions := functions) (loc := loc)
    hd hw (start (cP float symbols functions delim loc) (skipSpaces (t ++ rest)) .OK .r10) rest
    ⟨rfl, rfl, rfl, rfl, rfl, rfl, by intro o ho; cases ho⟩ (skip_skip _) (stops_sep hd hstop)
    hg hf (by intro t ht; cases ht) (by show 0 + e.values ≤ 8; omega)
    (by show 0 + e.operators ≤ 8; omega)
  rcases h with ⟨err, O, V, x, tr, hrun, hpend, hlen, hprec, hkind, herr, hmean⟩ | hfail
  · have hmean' : mean symbols loc e .OK = mean.settle err x := hmean
    rw [hmean']
    have hvne : V ≠ [] := by
      rintro rfl
      exact absurd (pend_pos hpend) (by simp)
    obtain ⟨n, hn⟩ := eval_run hC hrun
    rw [hn]
    generalize hs : ({ start (cP float symbols functions delim loc) (skipSpaces (t ++ rest)) .OK .r10
      with
      scan := rest
      ost := O ++ (start (cP float symbols functions delim loc) (skipSpaces (t ++ rest)) .OK
        .r10).ost
      vst := V ++ (start (cP float symbols functions delim loc) (skipSpaces (t ++ rest)) .OK
        .r10).vst
      maybePrefix := false, err := err, trace := tr } : St Value) = s1 at hrun
    have hstep : ∃ sc, (sc = skipSpaces rest ∨ sc = rest) ∧
        step (cP float symbols functions delim loc) s1 = .ok (.brk { s1 with scan := sc }) := by
      have := step_stop (float := float) (symbols := symbols) (functions := functions) (loc := loc)
        hdb (s := s1) (by subst hs; exact hstop) (by subst hs; rfl) (by
          subst hs
          intro h0
          exact hvne (List.append_eq_nil_iff.mp h0).1) (by subst hs; rfl)
          (by subst hs; exact herr) (by subst hs; rfl)
      have h3 : s1.scan = rest := by subst hs; rfl
      rw [h3] at this
      rcases this with h | h
      · exact ⟨_, .inl rfl, h⟩
      · exact ⟨_, .inr rfl, by rw [h, ← h3]⟩
    obtain ⟨sc, hsc, hstep⟩ := hstep
    have hred := pend_reduce (cP float symbols functions delim loc)
      (reduceAll (cP float symbols functions delim loc))
      (fun t => t.isOpenParen = false) (fun t os st r ht => reduceAll_step _ ht os st r) hpend
      (fun t ht => not_paren (by
        have := hprec t ht
        have := lvl_bound (level_le e)
        omega)) [] [] .r10 (by rw [List.append_nil]; omega)
    have hloop : loop (cP float symbols functions delim loc) (n + 1) s1 = x.bind fun
        | .error e => .ok ⟨Value.undefined, setErrorIf err e, sc, tr.reverse⟩
        | .ok v => .ok ⟨v, err, sc, tr.reverse⟩ := by
      unfold loop
      rw [hstep]
      show finish _ _ = _
      unfold finish
      subst hs
      show (reduceAll (cP float symbols functions delim loc) (O ++ []) (V ++ []) .r10).bind _ = _
      rw [hred]
      cases x with
      | ok a => cases a <;> rfl
      | _ => rfl
    rw [hloop]
    have hlt : sc.length < (skipSpaces (t ++ rest)).length := by
      have h1 : s1.scan.length ≤ (skipSpaces (t ++ rest)).length := run_length hC hrun
      have h2 := skipSpaces_length rest
      have h2 : sc.length ≤ rest.length := by rcases hsc with rfl | rfl <;> omega
      have h3 : s1.scan = rest := by subst hs; rfl
      rw [h3] at h1
      cases hrun with
      | refl => exfalso; simp [start] at hs
      | step hst hr =>
        have := step_length hC hst
        have := run_length hC hr
        rw [h3] at this
        have h4 : (start (cP float symbols functions delim loc) (skipSpaces (t ++ rest)) .OK
          .r10).scan.length = (skipSpaces (t ++ rest)).length := rfl
        omega
    cases x with
    | ok a =>
      cases a with
      | ok v =>
        left
        refine ⟨err, v, tr.reverse, rfl, ?_⟩
        dsimp only [Out.bind]
        rw [if_neg (by show ¬ sc.length = _; omega)]
        rcases hsc with rfl | rfl
        · exact .inl rfl
        · exact .inr rfl
      | error er =>
        right; left
        refine ⟨_, _, rfl, rfl, ?_⟩
        rw [if_neg (by show ¬ sc.length = _; omega)]
        exact .inl rfl
    | stackUB => exact .inr (.inr (.inr (.inl ⟨rfl, rfl⟩)))
    | ub => exact .inr (.inr (.inl ⟨rfl, rfl⟩))
    | diverge => exact .inr (.inr (.inr (.inr ⟨rfl, rfl⟩)))
  · have hfail' : Fails (cP float symbols functions delim loc)
      (start (cP float symbols functions delim loc) (skipSpaces (t ++ rest)) .OK .r10)
      (mean symbols loc e .OK) := hfail
    obtain ⟨u, hrun, h⟩ := hfail'
    obtain ⟨n, hn⟩ := eval_run hC hrun
    rw [hn]
    unfold loop
    rcases h with ⟨w, hst, hm⟩ | h
    · rw [hst, hm]
      right; left
      refine ⟨_, _, rfl, rfl, ?_⟩
      split
      · exact .inr rfl
      · exact .inl rfl
    · right; right
      rcases h with ⟨h1, h2⟩ | ⟨h1, h2⟩ | ⟨h1, h2⟩
      · rw [h1, h2]; exact .inl ⟨rfl, rfl⟩
      · rw [h1, h2]; exact .inr (.inl ⟨rfl, rfl⟩)
      · rw [h1, h2]; exact .inr (.inr ⟨rfl, rfl⟩)

end

end Libasm.Eval
