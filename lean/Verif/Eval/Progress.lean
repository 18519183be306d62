import Verif.Eval.Default
import Verif.Eval.Steps
/-
Every iteration of the loop of `_eval` that goes on has consumed a character.
-/
namespace Libasm.Eval
open Scan Number Ctype

variable {V : Type}

/-- Whatever a plugin recognises is at least one character long. -/
structure Consumes (P : Plugins V) : Prop where
  pre : ∀ s st r o rest st' r', P.ops.readPrefix s st r = .ok (some o, rest, st', r') →
    rest.length < s.length
  inf : ∀ s o rest, P.ops.readInfix s = some (o, rest) → rest.length < s.length
  opening : ∀ s rest, P.ops.isOpen s = some rest → rest.length < s.length
  closing : ∀ s rest, P.ops.isClose s = some rest → rest.length < s.length
  const : ∀ s r v rest, P.parseConstant s r = (.OK, v, rest) → rest.length < s.length
  fn : ∀ s name rest, P.readFunctionName s = some (name, rest) → rest.length < s.length
  symbol : ∀ s name rest, P.readSymbol s = some (name, rest) → rest.length < s.length

theorem expectP_eq {p : Char → Bool} {s rest : Scan} (h : expectP p s = some rest) :
    ∃ c, s = c :: rest ∧ p c = true := by
  cases s with
  | nil => cases h
  | cons c t =>
    change (if p c then some t else none) = some rest at h
    split at h
    next hc => injection h with h; exact ⟨c, by rw [h], hc⟩
    next => cases h

theorem expectP_length {p : Char → Bool} {s rest : Scan} (h : expectP p s = some rest) :
    rest.length < s.length := by
  obtain ⟨c, rfl, _⟩ := expectP_eq h
  exact Nat.lt_succ_self _

theorem expect_length {c : Char} {s rest : Scan} (h : expect c s = some rest) :
    rest.length < s.length := expectP_length h

theorem iexpect_length {c : Char} {s rest : Scan} (h : iexpect c s = some rest) :
    rest.length < s.length := expectP_length h

theorem dropWhile_length (p : Char → Bool) (s : Scan) : (s.dropWhile p).length ≤ s.length := by
  induction s with
  | nil => exact Nat.le_refl _
  | cons c t ih =>
    rw [List.dropWhile_cons]
    split
    · simp only [List.length_cons]; omega
    · exact Nat.le_refl _

theorem skipSpaces_length (s : Scan) : (skipSpaces s).length ≤ s.length := dropWhile_length _ s

theorem iexpectText_length {w : List Char} {s rest : Scan} (h : iexpectText w s = some rest) :
    rest.length + w.length = s.length := by
  induction w generalizing s with
  | nil => simp only [iexpectText, Option.some.injEq] at h; rw [h]; rfl
  | cons c w ih =>
    unfold iexpectText at h
    cases h1 : iexpect c s with
    | none => rw [h1] at h; cases h
    | some t =>
      rw [h1] at h
      have := ih h
      obtain ⟨d, rfl, _⟩ := expectP_eq h1
      simp only [List.length_cons]
      omega

theorem stepOperator_length {P : Plugins V} {s s' : St V} {o : Operator V} {rest : Scan}
    (h : stepOperator P s o rest = .ok (.cont s')) : s'.scan = rest := by
  unfold stepOperator at h
  obtain ⟨a, ha, h⟩ := Out.bind_ok h
  rcases a with e | ⟨ost, vst, radix⟩
  · simp [fail] at h
  · dsimp only at h
    split at h
    · simp [fail] at h
    · simp only [Out.ok.injEq, Next.cont.injEq] at h
      rw [← h]

theorem stepPunct_length {P : Plugins V} (hP : Consumes P) {s s' : St V} {expr scan : Scan}
    (h : stepPunct P s expr scan = .ok (.cont s')) : s'.scan.length < scan.length := by
  unfold stepPunct at h
  split at h
  next rest hc =>
    obtain ⟨a, ha, h⟩ := Out.bind_ok h
    rcases a with e | ⟨ost, vst, radix⟩
    · simp [fail] at h
    · simp only [Out.ok.injEq, Next.cont.injEq] at h
      rw [← h]
      split at hc
      · exact expect_length hc
      · cases hc
  next =>
    split at h
    next rest ho =>
      split at h
      · cases h
      · split at h
        · simp [fail] at h
        · simp only [Out.ok.injEq, Next.cont.injEq] at h
          rw [← h]
          exact hP.opening _ _ ho
    next =>
      split at h
      next rest hc =>
        have hl := hP.closing _ _ hc
        obtain ⟨a, ha, h⟩ := Out.bind_ok h
        rcases a with e | ⟨ost, vst, radix⟩
        · simp [fail] at h
        · cases ost with
          | nil => cases h
          | cons p ost =>
            cases ost with
            | nil =>
              simp only [Out.ok.injEq, Next.cont.injEq] at h
              rw [← h]; exact hl
            | cons f ost =>
              dsimp only at h
              split at h
              · obtain ⟨b, hb, h⟩ := Out.bind_ok h
                rcases b with e | ⟨vst', radix'⟩
                · simp [fail] at h
                · simp only [Out.ok.injEq, Next.cont.injEq] at h
                  rw [← h]; exact hl
              · simp only [Out.ok.injEq, Next.cont.injEq] at h
                rw [← h]; exact hl
      next => cases h

theorem stepSymbol_length {P : Plugins V} (hP : Consumes P) {s s' : St V} {expr scan : Scan}
    (h : stepSymbol P s expr scan = .ok (.cont s')) : s'.scan.length < scan.length := by
  unfold stepSymbol at h
  split at h
  next name rest hs =>
    split at h
    · simp [fail] at h
    · dsimp only at h
      split at h
      all_goals
        obtain ⟨a, ha, h⟩ := Out.bind_ok h
        simp only [Out.ok.injEq, Next.cont.injEq] at h
        rw [← h]
        exact hP.symbol _ _ _ hs
  next => exact stepPunct_length hP h

theorem stepOperand_length {P : Plugins V} (hP : Consumes P) {s s' : St V} {expr scan : Scan}
    (h : stepOperand P s expr scan = .ok (.cont s')) : s'.scan.length < scan.length := by
  unfold stepOperand at h
  split at h
  next v rest hc =>
    split at h
    · simp [fail] at h
    · obtain ⟨a, ha, h⟩ := Out.bind_ok h
      simp only [Out.ok.injEq, Next.cont.injEq] at h
      rw [← h]
      exact hP.const _ _ _ _ hc
  next =>
    split at h
    next name rest hr =>
      split at h
      next nargs f hl =>
        dsimp only at h
        split at h
        next => cases h
        next x ho =>
          simp only [Out.ok.injEq, Next.cont.injEq] at h
          rw [← h]
          exact Nat.lt_of_le_of_lt (skipSpaces_length rest) (hP.fn _ _ _ hr)
      next => exact stepSymbol_length hP h
    next => exact stepSymbol_length hP h
  next => cases h

theorem step_length {P : Plugins V} (hP : Consumes P) {s s' : St V}
    (h : step P s = .ok (.cont s')) : s'.scan.length < s.scan.length := by
  refine Nat.lt_of_lt_of_le ?_ (skipSpaces_length s.scan)
  unfold step at h
  dsimp only at h
  split at h
  · cases h
  split at h
  · cases h
  split at h
  · obtain ⟨⟨o, rest, vst, radix⟩, hr, h⟩ := Out.bind_ok h
    dsimp only at h
    split at h
    · cases h
    · cases o with
      | some o =>
        rw [stepOperator_length h]
        exact hP.pre _ _ _ _ _ _ _ hr
      | none => exact stepOperand_length hP h
  · split at h
    next o rest hr =>
      split at h
      · cases h
      · rw [stepOperator_length h]
        exact hP.inf _ _ _ hr
    next =>
      split at h
      · cases h
      · exact stepPunct_length hP h

end Libasm.Eval
