import Verif.Maker.Run
/-
Evaluating the text of a tree in a notation.
-/
namespace Libasm.Maker
open Scan Number Ctype Eval
open Eval.Spec (UnOp BinOp Blank IsLetter IsDecimal)

section
variable {P : Plugins Value} {N : Notation} {loc : Nat} {pre inf : Read} (L : Lex P N loc pre inf)
include L

theorem step_stop (hdb : ¬ Blank P.delimitor) {s : St Value} (hstop : Stops P.delimitor s.scan)
    (he : s.endOfExpr = P.delimitor) (hv : s.vst ≠ []) (hm : s.maybePrefix = false)
    (her : hasError s.err = false) (hfn : s.inFnArgs = 0) :
    step P s =
      .ok (.brk { s with scan := skipSpaces s.scan }) ∨
    step P s = .ok (.brk s) := by
  rcases stops_skip hstop with h | ⟨u, h⟩ | ⟨u, h⟩ | ⟨c, u, h, h1, h2, h3⟩
  · left; unfold step; dsimp only; rw [h, if_pos L.eolNil]
  · left; unfold step; dsimp only; rw [h, if_pos (L.eolSemi u)]
  · left; unfold step; dsimp only
    have hsp : isSpace P.delimitor = false := by
      cases hx : isSpace P.delimitor with
      | false => rfl
      | true => exact absurd (blank_space.mpr hx) hdb
    rw [h, skip_cons hsp]
    by_cases hc : P.endOfLine (P.delimitor :: u) = true
    · rw [if_pos hc]
    · rw [if_neg hc, if_pos ⟨he.symm, hv⟩]
  · by_cases hcd : c = P.delimitor
    · left; unfold step; dsimp only; rw [h]
      by_cases hc : P.endOfLine (c :: u) = true
      · rw [if_pos hc]
      · rw [if_neg hc, if_pos ⟨by rw [he]; exact hcd, hv⟩]
    · by_cases hc1 : c = ';'
      · subst hc1
        left; unfold step; dsimp only; rw [h, if_pos (L.eolSemi u)]
      · right
        rw [step_inf L h h3 hc1 (by rw [he]; exact hcd) hm her]
        have hin : inf (c :: u) = none := L.infStop c u h1
        rw [hin]
        dsimp only
        have ho : P.ops.isOpen (c :: u) = none := by
          rw [L.ops]
          show expect '(' (c :: u) = none
          refine expect_none ?_
          intro d hd; injection hd with hd; subst hd
          rintro rfl; exact h1 (.inr (.inr (by decide)))
        have hcl : P.ops.isClose (c :: u) = none := by
          rw [L.ops]
          show expect ')' (c :: u) = none
          exact expect_none (by intro d hd; injection hd with hd; exact hd ▸ h2)
        unfold stepPunct
        rw [if_neg (by omega), ho, hcl]

theorem eval_writes (hS : Sane N) (hnum : ∀ n t, N.number n t → t ≠ [])
    (hd : ¬ TokenStart P.delimitor) (hdb : ¬ Blank P.delimitor)
    (hlocal : ∀ name nargs f, P.lookupFunction name = some (nargs, f) → Local nargs f)
    {e : Expr} {t rest : Scan} (hw : Writes N e t) (hg : e.Grouped)
    (hf : e.Fits (fun n => P.lookupFunction n ≠ none)) (hv : e.values ≤ 8) (ho : e.operators ≤ 8)
    (hstop : Stops P.delimitor rest) :
    Agrees rest (mean P.lookupSymbol P.lookupFunction loc e .OK) (eval P (t ++ rest) .OK .r10) := by
  have hC : Consumes P := L.consumes
  have h := reads L hS (writes_ne L hnum) hd hlocal hw (start P (skipSpaces (t ++ rest)) .OK .r10) rest
    ⟨rfl, rfl, rfl, rfl, rfl, by intro o ho; cases ho⟩ (skip_skip _) (stops_sep hd hstop)
    hg hf (by intro t ht; cases ht) (by show 0 + e.values ≤ 8; omega)
    (by show 0 + e.operators ≤ 8; omega)
  rcases h with ⟨err, O, V, x, tr, hrun, hpend, hlen, hprec, hkind, herr, hmean⟩ | hfail
  · have hmean' : mean P.lookupSymbol P.lookupFunction loc e .OK = Eval.mean.settle err x := hmean
    rw [hmean']
    have hvne : V ≠ [] := by
      rintro rfl
      exact absurd (pend_pos hpend) (by simp)
    obtain ⟨n, hn⟩ := eval_run hC hrun
    rw [hn]
    generalize hs : ({ start P (skipSpaces (t ++ rest)) .OK .r10
      with
      scan := rest
      ost := O ++ (start P (skipSpaces (t ++ rest)) .OK
        .r10).ost
      vst := V ++ (start P (skipSpaces (t ++ rest)) .OK
        .r10).vst
      maybePrefix := false, err := err, trace := tr } : St Value) = s1 at hrun
    have hstep : ∃ sc, (sc = skipSpaces rest ∨ sc = rest) ∧
        step P s1 = .ok (.brk { s1 with scan := sc }) := by
      have := step_stop L hdb (s := s1) (by subst hs; exact hstop) (by subst hs; rfl) (by
          subst hs
          intro h0
          exact hvne (List.append_eq_nil_iff.mp h0).1) (by subst hs; rfl)
          (by subst hs; exact herr) (by subst hs; rfl)
      have h3 : s1.scan = rest := by subst hs; rfl
      rw [h3] at this
      rcases this with h | h
      · exact ⟨_, .inl rfl, h⟩
      · exact ⟨_, .inr rfl, by rw [h, ← h3]⟩
    obtain ⟨sc, hsc, hstep⟩ := hstep
    have hred := pend_reduce P
      (reduceAll P)
      (fun t => t.isOpenParen = false) (fun t os st r ht => (reduceAll_step _ ht os st r).trans (by
        cases evalOp P t st r 0 with
        | ok a => cases a <;> rfl
        | _ => rfl)) hpend
      (fun t ht => not_paren (by
        have := hprec t ht
        have := level_le hS (uses_writes hw)
        omega)) [] [] .r10 (by rw [List.append_nil]; omega)
    have hloop : loop P (n + 1) s1 = x.bind fun
        | .error e => .ok ⟨P.undef, setErrorIf err e, sc, tr.reverse⟩
        | .ok v => .ok ⟨v, err, sc, tr.reverse⟩ := by
      unfold loop
      rw [hstep]
      show finish _ _ = _
      unfold finish
      subst hs
      show (reduceAll P (O ++ []) (V ++ []) .r10).bind _ = _
      rw [hred]
      cases x with
      | ok a => cases a <;> rfl
      | _ => rfl
    rw [hloop]
    have hlt : sc.length < (skipSpaces (t ++ rest)).length := by
      have h1 : s1.scan.length ≤ (skipSpaces (t ++ rest)).length := run_length hC hrun
      have h2 := skipSpaces_length rest
      have h2 : sc.length ≤ rest.length := by rcases hsc with rfl | rfl <;> omega
      have h3 : s1.scan = rest := by subst hs; rfl
      rw [h3] at h1
      cases hrun with
      | refl => exfalso; simp [start] at hs
      | step hst hr =>
        have := step_length hC hst
        have := run_length hC hr
        rw [h3] at this
        have h4 : (start P (skipSpaces (t ++ rest)) .OK
          .r10).scan.length = (skipSpaces (t ++ rest)).length := rfl
        omega
    cases x with
    | ok a =>
      cases a with
      | ok v =>
        left
        refine ⟨err, v, tr.reverse, rfl, ?_⟩
        dsimp only [Out.bind]
        rw [if_neg (by show ¬ sc.length = _; omega)]
        rcases hsc with rfl | rfl
        · exact .inl rfl
        · exact .inr rfl
      | error er =>
        right; left
        refine ⟨_, _, rfl, rfl, ?_⟩
        rw [if_neg (by show ¬ sc.length = _; omega)]
        exact .inl rfl
    | stackUB => exact .inr (.inr (.inr (.inl ⟨rfl, rfl⟩)))
    | ub => exact .inr (.inr (.inl ⟨rfl, rfl⟩))
    | diverge => exact .inr (.inr (.inr (.inr ⟨rfl, rfl⟩)))
  · have hfail' : Fails P
      (start P (skipSpaces (t ++ rest)) .OK .r10)
      (mean P.lookupSymbol P.lookupFunction loc e .OK) := hfail
    obtain ⟨u, hrun, h⟩ := hfail'
    obtain ⟨n, hn⟩ := eval_run hC hrun
    rw [hn]
    unfold loop
    rcases h with ⟨w, hst, hm⟩ | h
    · rw [hst, hm]
      right; left
      refine ⟨_, _, rfl, rfl, ?_⟩
      split
      · exact .inr rfl
      · exact .inl rfl
    · right; right
      rcases h with ⟨h1, h2⟩ | ⟨h1, h2⟩ | ⟨h1, h2⟩
      · rw [h1, h2]; exact .inl ⟨rfl, rfl⟩
      · rw [h1, h2]; exact .inr (.inl ⟨rfl, rfl⟩)
      · rw [h1, h2]; exact .inr (.inr ⟨rfl, rfl⟩)

end

end Libasm.Maker
