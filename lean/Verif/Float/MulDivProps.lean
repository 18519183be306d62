import Verif.Float.MulDivLemmas
import Verif.Float.Props
/-
C57 (multiplication) and C59 (division) of the software floating point numbers. The specification is
Verif/Float/Spec.lean; a product of magnitudes in units of 2^-16445 is divided by 2^16445 to be in that
unit again, a quotient is multiplied by it.
-/
namespace Libasm.Float
open Spec

theorem decompose80_sig {x : F80} (hx : Finite80 x) (h0 : mag80 x ≠ 0) :
    ∃ k : Nat, val x.decompose.2 = x.sig * 65536 * 2 ^ k := by
  have hok := set_ok x.sig 0
  have hval := val_set hx.2.1 (show 0 < 65536 by decide)
  rw [Nat.add_zero] at hval
  have hs := hx.2.1
  unfold F80.decompose
  dsimp only
  split
  · exact ⟨0, by rw [hval]; omega⟩
  · split
    · exact ⟨0, by rw [hval]; omega⟩
    · have hne : val (set x.sig 0) ≠ 0 := by
        intro h
        apply h0
        unfold mag80
        rw [show x.sig = 0 by omega, Nat.zero_mul]
      obtain ⟨k, k80, nok, ne, nval, nlo, nhi⟩ := normalize_low hok hne (by rw [hval]; omega)
      exact ⟨k, by dsimp only; rw [nval, hval]⟩

theorem two_pos (n : Nat) : 0 < 2 ^ n := Nat.pow_pos (by decide)

theorem mul_gap {P : Nat} (h : 2 ^ 79 * 2 ^ 79 ≤ P) : (P - P / 2 ^ 64 * 2 ^ 64) * 2 ^ 94 ≤ P := by
  have h1 : P - P / 2 ^ 64 * 2 ^ 64 ≤ 2 ^ 64 := by omega
  calc (P - P / 2 ^ 64 * 2 ^ 64) * 2 ^ 94 ≤ 2 ^ 64 * 2 ^ 94 := Nat.mul_le_mul_right _ h1
    _ = 2 ^ 79 * 2 ^ 79 := by decide
    _ ≤ P := h

theorem mul_gap0 {P : Nat} (h : P % 2 ^ 64 = 0) : P / 2 ^ 64 * 2 ^ 64 = P := by omega

/-- A number that is not the nearest, as the next one is nearer. -/
theorem not_nearest {X d s k : Nat} (h1 : s * d ≤ X) (h2 : X ≤ (s + 1) * d) (h3 : (2 * s + 1) * d < 2 * X)
    (hs : s + 1 < 2 ^ 64) : ¬ IsNearest 64 (X * 2 ^ k) d (s * 2 ^ k) := by
  intro h
  have hK : 0 < 2 ^ k := Nat.pow_pos (by decide)
  have key : ∀ t : Nat, dist (X * 2 ^ k) d (t * 2 ^ k) = ((t * d : Nat) - (X : Int)).natAbs * 2 ^ k := by
    intro t
    unfold dist
    have e : ((t * 2 ^ k * d : Nat) : Int) - ((X * 2 ^ k : Nat) : Int) = ((t * d : Nat) - (X : Int)) * ((2 ^ k : Nat) : Int) := by
      push_cast
      ring
    rw [e, Int.natAbs_mul, Int.natAbs_natCast]
  have hne : (s + 1) * 2 ^ k ≠ s * 2 ^ k := by
    rw [Nat.add_mul]
    omega
  have hlt : ((s + 1 : Nat) * d - (X : Int)).natAbs < ((s * d : Nat) - (X : Int)).natAbs := by
    rw [Nat.add_mul] at h2
    rw [Nat.add_mul, Nat.mul_assoc] at h3
    have : (((s + 1 : Nat) : Int) * d) = ((s * d : Nat) : Int) + d := by push_cast; ring
    rw [this]
    generalize s * d = P at *
    omega
  have hlt' : dist (X * 2 ^ k) d ((s + 1) * 2 ^ k) < dist (X * 2 ^ k) d (s * 2 ^ k) := by
    rw [key, key]
    exact Nat.mul_lt_mul_of_pos_right (by simpa using hlt) hK
  rcases h.2 _ ⟨s + 1, k, hs, rfl⟩ hne with h | h <;> omega

/-! ### Multiplication -/

/-- The product that the code rounds. -/
theorem mul_parts {a b : F80} (ha : Finite80 a) (hb : Finite80 b) (a0 : mag80 a ≠ 0) (b0 : mag80 b ≠ 0) :
    ∃ x d, 0 < d ∧ x * 2 ^ 16445 ≤ mag80 a * mag80 b * d ∧
      (mag80 a * mag80 b * d - x * 2 ^ 16445) * 2 ^ 94 ≤ mag80 a * mag80 b * d ∧
      (a.sig * b.sig % 2 ^ 32 = 0 → x * 2 ^ 16445 = mag80 a * mag80 b * d) ∧
      Rounded80 (sign80 a != sign80 b) x d (F80.mul a b) := by
  obtain ⟨za, sa⟩ := (decompose80_spec ha).2 a0
  obtain ⟨zb, sb⟩ := (decompose80_spec hb).2 b0
  obtain ⟨ka, hka⟩ := decompose80_sig ha a0
  obtain ⟨kb, hkb⟩ := decompose80_sig hb b0
  have hr : F80.mul a b = F80.compose (sign80 a != sign80 b) (a.decompose.1 + b.decompose.1)
      (mul a.decompose.2 b.decompose.2) := by
    unfold F80.mul
    simp [finite_not ha, finite_not hb, za, zb, isNegative_eq ha.1, isNegative_eq hb.1]
  rw [hr]
  obtain ⟨okA, hiA, loA, exA⟩ := sa
  obtain ⟨okB, hiB, loB, exB⟩ := sb
  obtain ⟨m1, m2⟩ := mul_spec okA okB hiA hiB
  generalize mul a.decompose.2 b.decompose.2 = v at *
  generalize a.decompose.1 = eA at *
  generalize b.decompose.1 = eB at *
  have hbm : f80.expBase = 16383 ∧ f80.mant = 64 := ⟨rfl, rfl⟩
  rw [hbm.1, hbm.2] at exA exB
  have hPlo : 2 ^ 79 * 2 ^ 79 ≤ val a.decompose.2 * val b.decompose.2 := Nat.mul_le_mul loA loB
  have hPhi : val a.decompose.2 * val b.decompose.2 ≤ 2 ^ 80 * 2 ^ 80 :=
    Nat.mul_le_mul (Nat.le_of_lt hiA) (Nat.le_of_lt hiB)
  have hexact : a.sig * b.sig % 2 ^ 32 = 0 → val a.decompose.2 * val b.decompose.2 % 2 ^ 64 = 0 := by
    intro h
    obtain ⟨c, hc⟩ := Nat.dvd_of_mod_eq_zero h
    apply Nat.mod_eq_zero_of_dvd
    refine ⟨c * 2 ^ ka * 2 ^ kb, ?_⟩
    rw [hka, hkb]
    calc a.sig * 65536 * 2 ^ ka * (b.sig * 65536 * 2 ^ kb)
        = a.sig * b.sig * (65536 * 65536) * 2 ^ ka * 2 ^ kb := by ring
      _ = _ := by rw [hc]; ring
  generalize hA : (eA + 16383 + 64 - 81).toNat = a1
  generalize hA' : (-(eA + 16383 + 64 - 81)).toNat = b1
  generalize hB : (eB + 16383 + 64 - 81).toNat = a2
  generalize hB' : (-(eB + 16383 + 64 - 81)).toNat = b2
  have xA := exA a1 b1 (by omega)
  have xB := exB a2 b2 (by omega)
  generalize hC : (eA + eB - 15 + 16383 + 64 - 81).toNat = i
  generalize hC' : (-(eA + eB - 15 + 16383 + 64 - 81)).toNat = j
  clear hka hkb
  generalize val a.decompose.2 = vA at *
  generalize val b.decompose.2 = vB at *
  have hmul : vA * vB * 2 ^ (a1 + a2) = mag80 a * mag80 b * 2 ^ (b1 + b2) := by
    rw [Nat.pow_add, Nat.pow_add]
    calc vA * vB * (2 ^ a1 * 2 ^ a2) = vA * 2 ^ a1 * (vB * 2 ^ a2) := by ring
      _ = _ := by rw [xA, xB]; ring
  generalize mag80 a * mag80 b = M at *
  have h70 : 2 ^ 70 ≤ val v ∧ val v < 2 ^ 95 := by
    rw [m2]
    unfold jamN
    generalize vA * vB = P at *
    split <;> omega
  obtain ⟨y, y1, y2⟩ := composeParts_spec good80 m1 (by omega) h70.2 m2 (Or.inr h70.1) (eA + eB)
    (a := i) (b := j) (by rw [hbm.1, hbm.2]; omega)
  have hexp : i + 16445 + (b1 + b2) = a1 + a2 + 64 + j := by omega
  generalize vA * vB = P at *
  have hN : 0 < 2 ^ (b1 + b2) := Nat.pow_pos (by decide)
  have hgap := mul_gap hPlo
  -- both sides times the same power of two
  have k1 : P / 2 ^ 64 * 2 ^ i * 2 ^ 16445 * 2 ^ (b1 + b2) = P / 2 ^ 64 * 2 ^ 64 * 2 ^ (a1 + a2 + j) := by
    rw [Nat.mul_assoc, Nat.mul_assoc, ← Nat.pow_add, Nat.mul_assoc (P / 2 ^ 64), ← Nat.pow_add, ← Nat.pow_add]
    congr 2
    omega
  have k2 : M * 2 ^ j * 2 ^ (b1 + b2) = P * 2 ^ (a1 + a2 + j) := by
    rw [Nat.pow_add 2 (a1 + a2) j, ← Nat.mul_assoc, hmul]
    ring
  generalize hX : P / 2 ^ 64 * 2 ^ i * 2 ^ 16445 = X at *
  generalize hY : M * 2 ^ j = Y at *
  generalize hQ : 2 ^ (a1 + a2 + j) = Q at *
  have hdm : P / 2 ^ 64 * 2 ^ 64 ≤ P := Nat.div_mul_le_self _ _
  refine ⟨P / 2 ^ 64 * 2 ^ i, 2 ^ j, Nat.pow_pos (by decide), ?_, ?_, ?_, y, y1, compose80_spec _ y2⟩
  · rw [hX, hY]
    refine Nat.le_of_mul_le_mul_right ?_ hN
    rw [k1, k2]
    exact Nat.mul_le_mul_right _ hdm
  · rw [hX, hY]
    refine Nat.le_of_mul_le_mul_right ?_ hN
    calc (Y - X) * 2 ^ 94 * 2 ^ (b1 + b2) = (Y * 2 ^ (b1 + b2) - X * 2 ^ (b1 + b2)) * 2 ^ 94 := by
          rw [← Nat.sub_mul]; ring
      _ = (P - P / 2 ^ 64 * 2 ^ 64) * 2 ^ 94 * Q := by rw [k1, k2, ← Nat.sub_mul]; ring
      _ ≤ P * Q := Nat.mul_le_mul_right _ hgap
      _ = _ := k2.symm
  · intro h
    have := hexact h
    rw [hX, hY]
    refine Nat.eq_of_mul_eq_mul_right hN ?_
    rw [k1, k2, mul_gap0 this]

theorem zero_rounded (s : Bool) (d : Nat) (hd : 0 < d) : Rounded80 s 0 d (F80.zero s) := by
  obtain ⟨z1, z2, z3⟩ := zero_fields s
  refine ⟨0, nearest_zero _ _ hd, z3, ?_⟩
  have hl : 0 < limit f80 := Nat.mul_pos (by decide) (Nat.pow_pos (by decide))
  rw [if_pos hl]
  exact ⟨z1, z2⟩

theorem mul_zero {a b : F80} (ha : Finite80 a) (hb : Finite80 b) (h : mag80 a = 0 ∨ mag80 b = 0) :
    F80.mul a b = F80.zero (sign80 a != sign80 b) := by
  unfold F80.mul
  simp only [finite_not ha, finite_not hb, isNegative_eq ha.1, isNegative_eq hb.1, isZero_eq ha, isZero_eq hb,
    Bool.false_eq_true, if_false]
  by_cases a0 : mag80 a = 0
  · simp [a0]
  · have b0 : mag80 b = 0 := by omega
    simp [a0, b0]

/-- C57 for the products of significands of which the code drops nothing: the lowest 32 bits are zero
(this includes every product of numbers that came from binary32). -/
theorem C57_partial {a b : F80} (ha : Finite80 a) (hb : Finite80 b) (h : a.sig * b.sig % 2 ^ 32 = 0) :
    Rounded80 (sign80 a != sign80 b) (mag80 a * mag80 b) (2 ^ 16445) (F80.mul a b) := by
  by_cases h0 : mag80 a = 0 ∨ mag80 b = 0
  · rw [mul_zero ha hb h0]
    have : mag80 a * mag80 b = 0 := by rcases h0 with h | h <;> rw [h] <;> simp
    rw [this]
    exact zero_rounded _ _ (Nat.pow_pos (by decide))
  · obtain ⟨x, d, hd, h1, h2, h3, y, y1, y2⟩ := mul_parts ha hb (by omega) (by omega)
    exact ⟨y, IsNearest.ratio hd (Nat.pow_pos (by decide)) (h3 h) y1, y2⟩

/-- What holds of every product: it is the correct rounding of a number that is less than the exact
product by at most 2^-94 of it. -/
theorem C57_near {a b : F80} (ha : Finite80 a) (hb : Finite80 b) :
    RoundedNear80 94 (sign80 a != sign80 b) (mag80 a * mag80 b) (2 ^ 16445) (F80.mul a b) := by
  by_cases h0 : mag80 a = 0 ∨ mag80 b = 0
  · rw [mul_zero ha hb h0]
    have : mag80 a * mag80 b = 0 := by rcases h0 with h | h <;> rw [h] <;> simp
    rw [this]
    exact ⟨0, 1, by decide, by simp, by simp, zero_rounded _ _ (by decide)⟩
  · obtain ⟨x, d, hd, h1, h2, h3, y⟩ := mul_parts ha hb (by omega) (by omega)
    exact ⟨x, d, hd, h1, h2, y⟩

set_option linter.constructorNameAsVariable false in
theorem near_number {k : Nat} (hk : 66 ≤ k) {s : Bool} {x d y : Nat} {r : F80} (hd : 0 < d)
    (h : RoundedNear80 k s x d r) (hy : Rep 64 y) (he : y * d = x) (hl : y < limit f80) :
    Finite80 r ∧ sign80 r = s ∧ mag80 r = y := by
  obtain ⟨x', d', hd', h1, h2, y', y1, y2, y3⟩ := h
  rw [← he] at h1 h2
  have e : y * d * d' = y * d' * d := by ring
  rw [e] at h1 h2
  have h1' : x' ≤ y * d' := Nat.le_of_mul_le_mul_right h1 hd
  rw [← Nat.sub_mul] at h2
  have h2' : (y * d' - x') * 2 ^ k ≤ y * d' := by
    refine Nat.le_of_mul_le_mul_right ?_ hd
    calc (y * d' - x') * 2 ^ k * d = (y * d' - x') * d * 2 ^ k := by ring
      _ ≤ _ := h2
  have h3 : (y * d' - x') * 2 ^ 66 ≤ y * d' :=
    Nat.le_trans (Nat.mul_le_mul_left _ (Nat.pow_le_pow_right (by decide) hk)) h2'
  have := near_exact y1 hd' hy h1' h3
  subst this
  rw [if_pos hl] at y3
  exact ⟨y3.1, y2, y3.2⟩

/-- C57: a product that is a number of the format is exact. -/
theorem C57_exact {a b : F80} (ha : Finite80 a) (hb : Finite80 b) {y : Nat} (hy : Rep 64 y)
    (he : y * 2 ^ 16445 = mag80 a * mag80 b) (hl : y < limit f80) :
    Finite80 (F80.mul a b) ∧ sign80 (F80.mul a b) = (sign80 a != sign80 b) ∧ mag80 (F80.mul a b) = y :=
  near_number (by decide) (Nat.pow_pos (by decide)) (C57_near ha hb) hy he hl

/-- C57: infinities and NaN. -/
theorem C57_special {a b : F80} (ha : Valid80 a) :
    (IsNan80 a ∨ IsNan80 b → IsNan80 (F80.mul a b)) ∧
    (Infinite80 a → (Finite80 b ∧ mag80 b ≠ 0) ∨ Infinite80 b → F80.mul a b = F80.infinity (sign80 a != sign80 b)) ∧
    (Infinite80 b → (Finite80 a ∧ mag80 a ≠ 0) ∨ Infinite80 a → F80.mul a b = F80.infinity (sign80 a != sign80 b)) ∧
    (Infinite80 a → Finite80 b → mag80 b = 0 → IsNan80 (F80.mul a b)) ∧
    (Infinite80 b → Finite80 a → mag80 a = 0 → IsNan80 (F80.mul a b)) := by
  refine ⟨?_, ?_, ?_, ?_, ?_⟩
  · intro h
    unfold F80.mul
    by_cases hn : IsNan80 a
    · rw [(kinds.2.2 hn).1, if_pos rfl]
      exact hn
    · have an : a.isNan = false := by
        rcases ha with h | h | h
        · exact (kinds.1 h).1
        · exact (kinds.2.1 h).1
        · exact absurd h hn
      rcases h with h | h
      · exact absurd h hn
      · rw [an, (kinds.2.2 h).1]
        simpa using h
  · intro h h'
    rcases h' with ⟨h', h0⟩ | h'
    · unfold F80.mul
      simp [kinds.2.1 h, kinds.1 h', isZero_eq h', h0, isNegative_eq h.1, isNegative_eq h'.1]
    · unfold F80.mul
      simp [kinds.2.1 h, kinds.2.1 h', isNegative_eq h.1, isNegative_eq h'.1]
  · intro h h'
    rcases h' with ⟨h', h0⟩ | h'
    · unfold F80.mul
      simp [kinds.2.1 h, kinds.1 h', isZero_eq h', h0, isNegative_eq h.1, isNegative_eq h'.1]
    · unfold F80.mul
      simp [kinds.2.1 h, kinds.2.1 h', isNegative_eq h.1, isNegative_eq h'.1]
  · intro h h' h0
    have : F80.mul a b = F80.nan (sign80 a != sign80 b) := by
      unfold F80.mul
      simp [kinds.2.1 h, kinds.1 h', isZero_eq h', h0, isNegative_eq h.1, isNegative_eq h'.1]
    rw [this]
    exact (nan_fields _).1
  · intro h h' h0
    have : F80.mul a b = F80.nan (sign80 a != sign80 b) := by
      unfold F80.mul
      simp [kinds.2.1 h, kinds.1 h', isZero_eq h', h0, isNegative_eq h.1, isNegative_eq h'.1]
    rw [this]
    exact (nan_fields _).1

example : F80.mul ⟨0x3fff, 0xc000000000000000⟩ ⟨0xc000, 0xa000000000000000⟩ = ⟨0xc000, 0xf000000000000000⟩ ∧
    Finite80 ⟨0xc000, 0xa000000000000000⟩ ∧ 0xc000000000000000 * 0xa000000000000000 % 2 ^ 32 = 0 := by
  unfold Finite80
  decide

theorem mag_one (s : Nat) : mag80 ⟨0x3fff, s⟩ = s * 2 ^ 16382 := by
  unfold mag80
  rw [show expField80 ⟨0x3fff, s⟩ - 1 = 16382 from rfl]

theorem scale_eq {m n k : Nat} (h : m + n = k) : 0x8000000000000001 * 2 ^ m * (0xc000000000000001 * 2 ^ m) * 2 ^ n =
    0x60000000000000014000000000000001 * 2 ^ m * 2 ^ k := by
  rw [← h, Nat.pow_add]
  ring

set_option linter.constructorNameAsVariable false in
/-- C57 is not true of every product: a product just above the middle of two numbers is taken to be the
middle, and rounded down to the even one. -/
theorem C57_violated :
    ¬ ∀ a b : F80, Finite80 a → Finite80 b →
      Rounded80 (sign80 a != sign80 b) (mag80 a * mag80 b) (2 ^ 16445) (F80.mul a b) := by
  intro h
  have h := h ⟨0x3fff, 0x8000000000000001⟩ ⟨0x3fff, 0xc000000000000001⟩ (by unfold Finite80; decide)
    (by unfold Finite80; decide)
  rw [show F80.mul ⟨0x3fff, 0x8000000000000001⟩ ⟨0x3fff, 0xc000000000000001⟩ =
    ⟨0x3fff, 0xc000000000000002⟩ by decide] at h
  obtain ⟨y, y1, _, y2⟩ := h
  have e1 : mag80 ⟨0x3fff, 0x8000000000000001⟩ = 0x8000000000000001 * 2 ^ 16382 := mag_one _
  have e2 : mag80 ⟨0x3fff, 0xc000000000000001⟩ = 0xc000000000000001 * 2 ^ 16382 := mag_one _
  have e3 : mag80 ⟨0x3fff, 0xc000000000000002⟩ = 0xc000000000000002 * 2 ^ 16382 := mag_one _
  rw [e1, e2] at y1
  rw [e3] at y2
  have hy : y = 0xc000000000000002 * 2 ^ 16382 := by
    split at y2
    · exact y2.2.symm
    · exact absurd y2.2.1 (by decide)
  rw [hy] at y1
  clear y2 hy e1 e2 e3
  have he := scale_eq (show 16382 + 63 = 16445 from rfl)
  have y1' := IsNearest.ratio (two_pos _) (two_pos _) he y1
  exact not_nearest (by decide) (by decide) (by decide) (by decide) y1'

/-! ### Division -/

theorem div_gap {A B : Nat} (hA : 2 ^ 79 ≤ A) (hB : 0 < B) (hB' : B < 2 ^ 80) :
    (A * 2 ^ 80 - A * 2 ^ 80 / B * B) * 2 ^ 79 ≤ A * 2 ^ 80 := by
  have h1 := Nat.div_add_mod (A * 2 ^ 80) B
  have h2 := Nat.mod_lt (A * 2 ^ 80) hB
  rw [Nat.mul_comm B] at h1
  omega

theorem div_size {A B : Nat} (hA : 2 ^ 79 ≤ A) (hA' : A < 2 ^ 80) (hB : 2 ^ 79 ≤ B) (hB' : B < 2 ^ 80) :
    2 ^ 79 ≤ A * 2 ^ 80 / B ∧ A * 2 ^ 80 / B < 2 ^ 82 := by
  have h0 : 0 < B := by omega
  constructor
  · rw [Nat.le_div_iff_mul_le h0]
    omega
  · rw [Nat.div_lt_iff_lt_mul h0]
    omega

theorem scale_le {X Y N V W T : Nat} (k : Nat) (hN : 0 < N) (k1 : X * N = W * T) (k2 : Y * N = V * T) (hdm : W ≤ V)
    (hgap : (V - W) * 2 ^ k ≤ V) : X ≤ Y ∧ (Y - X) * 2 ^ k ≤ Y := by
  constructor
  · refine Nat.le_of_mul_le_mul_right ?_ hN
    rw [k1, k2]
    exact Nat.mul_le_mul_right _ hdm
  · refine Nat.le_of_mul_le_mul_right ?_ hN
    calc (Y - X) * 2 ^ k * N = (Y * N - X * N) * 2 ^ k := by rw [← Nat.sub_mul]; ring
      _ = (V - W) * 2 ^ k * T := by rw [k1, k2, ← Nat.sub_mul]; ring
      _ ≤ V * T := Nat.mul_le_mul_right _ hgap
      _ = _ := k2.symm

/-- The quotient that the code rounds. -/
theorem div_parts {a b : F80} (ha : Finite80 a) (hb : Finite80 b) (a0 : mag80 a ≠ 0) (b0 : mag80 b ≠ 0) :
    ∃ x d r, 0 < d ∧ x * mag80 b ≤ mag80 a * 2 ^ 16445 * d ∧
      (mag80 a * 2 ^ 16445 * d - x * mag80 b) * 2 ^ 79 ≤ mag80 a * 2 ^ 16445 * d ∧
      F80.div a b = some r ∧ Rounded80 (sign80 a != sign80 b) x d r := by
  obtain ⟨za, sa⟩ := (decompose80_spec ha).2 a0
  obtain ⟨zb, sb⟩ := (decompose80_spec hb).2 b0
  obtain ⟨okA, hiA, loA, exA⟩ := sa
  obtain ⟨okB, hiB, loB, exB⟩ := sb
  obtain ⟨q, q1, m1, m2⟩ := div_spec okA okB hiA loB hiB
  have hr : F80.div a b = some (F80.compose (sign80 a != sign80 b) (a.decompose.1 - b.decompose.1) q) := by
    unfold F80.div
    simp [finite_not ha, finite_not hb, za, zb, isNegative_eq ha.1, isNegative_eq hb.1, q1]
  rw [hr]
  clear hr q1
  generalize a.decompose.1 = eA at *
  generalize b.decompose.1 = eB at *
  have hbm : f80.expBase = 16383 ∧ f80.mant = 64 := ⟨rfl, rfl⟩
  rw [hbm.1, hbm.2] at exA exB
  generalize hA : (eA + 16383 + 64 - 81).toNat = a1
  generalize hA' : (-(eA + 16383 + 64 - 81)).toNat = b1
  generalize hB : (eB + 16383 + 64 - 81).toNat = a2
  generalize hB' : (-(eB + 16383 + 64 - 81)).toNat = b2
  have xA := exA a1 b1 (by omega)
  have xB := exB a2 b2 (by omega)
  generalize hC : (eA - eB - 1 + 16383 + 64 - 81).toNat = i
  generalize hC' : (-(eA - eB - 1 + 16383 + 64 - 81)).toNat = j
  generalize val a.decompose.2 = vA at *
  generalize val b.decompose.2 = vB at *
  have hgap := div_gap loA (Nat.lt_of_lt_of_le (by decide) loB) hiB
  obtain ⟨qlo, qhi⟩ := div_size loA hiA loB hiB
  have hdm : vA * 2 ^ 80 / vB * vB ≤ vA * 2 ^ 80 := Nat.div_mul_le_self _ _
  have h70 : 2 ^ 70 ≤ val q ∧ val q < 2 ^ 95 := by
    rw [m2]
    unfold jamN
    generalize vA * 2 ^ 80 / vB = P at *
    split <;> omega
  obtain ⟨y, y1, y2⟩ := composeParts_spec good80 m1 (by omega) h70.2 m2 (Or.inr h70.1) (eA - eB)
    (a := i) (b := j) (by rw [hbm.1, hbm.2]; omega)
  have hexp : i + a2 + b1 + 80 = j + b2 + a1 + 16445 := by omega
  have hN : 0 < 2 ^ (b1 + b2 + 80) := Nat.pow_pos (by decide)
  generalize hQ : vA * 2 ^ 80 / vB = Q at *
  generalize mag80 a = Ma at *
  generalize mag80 b = Mb at *
  have k1 : Q * 2 ^ i * Mb * 2 ^ (b1 + b2 + 80) = Q * vB * 2 ^ (i + a2 + b1 + 80) := by
    calc Q * 2 ^ i * Mb * 2 ^ (b1 + b2 + 80) = Q * 2 ^ i * (Mb * 2 ^ b2) * 2 ^ b1 * 2 ^ 80 := by ring
      _ = _ := by rw [← xB]; ring
  have k2 : ∀ K, Ma * 2 ^ K * 2 ^ j * 2 ^ (b1 + b2 + 80) = vA * 2 ^ 80 * 2 ^ (j + b2 + a1 + K) := by
    intro K
    calc Ma * 2 ^ K * 2 ^ j * 2 ^ (b1 + b2 + 80) = Ma * 2 ^ b1 * 2 ^ K * 2 ^ j * 2 ^ b2 * 2 ^ 80 := by ring
      _ = _ := by rw [← xA]; ring
  have k2 := k2 16445
  rw [← hexp] at k2
  obtain ⟨f1, f2⟩ := scale_le 79 hN k1 k2 hdm hgap
  exact ⟨Q * 2 ^ i, 2 ^ j, F80.compose (sign80 a != sign80 b) (eA - eB) q, Nat.pow_pos (by decide), f1, f2, rfl,
    y, y1, compose80_spec _ y2⟩

/-- Zero divided by a normal number is zero. -/
theorem div_zero {a b : F80} (ha : Finite80 a) (hb : Finite80 b) (a0 : mag80 a = 0) (b0 : 2 ^ 63 ≤ mag80 b) :
    F80.div a b = some (F80.zero (sign80 a != sign80 b)) := by
  obtain ⟨za, ea, okA, vA⟩ := (decompose80_spec ha).1 a0
  obtain ⟨zb, okB, hiB, loB, exB⟩ := (decompose80_spec hb).2 (by omega)
  obtain ⟨q, q1, m1, m2⟩ := div_spec okA okB (by omega) loB hiB
  have hr : F80.div a b = some (F80.compose (sign80 a != sign80 b) (a.decompose.1 - b.decompose.1) q) := by
    unfold F80.div
    simp [finite_not ha, finite_not hb, za, zb, isNegative_eq ha.1, isNegative_eq hb.1, q1]
  rw [vA, Nat.zero_mul, Nat.zero_div] at m2
  have q0 : val q = 0 := by rw [m2]; rfl
  have he : a.decompose.1 - b.decompose.1 ≤ (f80.expBase : Int) := by
    have hbm : f80.expBase = 16383 ∧ f80.mant = 64 := ⟨rfl, rfl⟩
    rw [hbm.1, hbm.2] at exB
    rw [ea, hbm.1]
    generalize b.decompose.1 = e at *
    by_cases h : -e ≤ 16383
    · omega
    · exfalso
      have := exB 0 (-(e + 16366)).toNat (by omega)
      have h18 : 2 ^ 18 ≤ 2 ^ (-(e + 16366)).toNat := Nat.pow_le_pow_right (by decide) (by omega)
      have h2 := Nat.mul_le_mul b0 h18
      rw [← this] at h2
      omega
  rw [hr]
  unfold F80.compose
  rw [composeParts_zero good80 m1 q0 he]

/-- What holds of every quotient of a number by one that is not zero; for a dividend of zero, the divisor
is taken to be a normal number. The result is the correct rounding of a number that is less than the
exact quotient by at most 2^-79 of it. -/
theorem C59_partial {a b : F80} (ha : Finite80 a) (hb : Finite80 b) (b0 : mag80 b ≠ 0)
    (h0 : mag80 a ≠ 0 ∨ 2 ^ 63 ≤ mag80 b) :
    ∃ r, F80.div a b = some r ∧
      RoundedNear80 79 (sign80 a != sign80 b) (mag80 a * 2 ^ 16445) (mag80 b) r := by
  by_cases a0 : mag80 a = 0
  · refine ⟨_, div_zero ha hb a0 (by omega), 0, 1, by decide, by simp, by simp [a0], zero_rounded _ _ (by decide)⟩
  · obtain ⟨x, d, r, hd, h1, h2, h3, h4⟩ := div_parts ha hb a0 b0
    exact ⟨r, h3, x, d, hd, h1, h2, h4⟩

/-- C59: a quotient that is a number of the format is exact. -/
theorem C59_exact {a b : F80} (ha : Finite80 a) (hb : Finite80 b) (b0 : mag80 b ≠ 0)
    (h0 : mag80 a ≠ 0 ∨ 2 ^ 63 ≤ mag80 b) {y : Nat} (hy : Rep 64 y)
    (he : y * mag80 b = mag80 a * 2 ^ 16445) (hl : y < limit f80) :
    ∃ r, F80.div a b = some r ∧ Finite80 r ∧ sign80 r = (sign80 a != sign80 b) ∧ mag80 r = y := by
  obtain ⟨r, r1, r2⟩ := C59_partial ha hb b0 h0
  exact ⟨r, r1, near_number (by decide) (by omega) r2 hy he hl⟩

/-- C59: infinities and NaN. -/
theorem C59_special {a b : F80} (ha : Valid80 a) :
    (IsNan80 a ∨ IsNan80 b → ∃ r, F80.div a b = some r ∧ IsNan80 r) ∧
    (Infinite80 a → Finite80 b → F80.div a b = some (F80.infinity (sign80 a != sign80 b))) ∧
    (Finite80 a → Infinite80 b → F80.div a b = some (F80.zero (sign80 a != sign80 b))) ∧
    (Infinite80 a → Infinite80 b → ∃ r, F80.div a b = some r ∧ IsNan80 r) ∧
    (Finite80 a → Finite80 b → mag80 a = 0 → mag80 b = 0 → ∃ r, F80.div a b = some r ∧ IsNan80 r) := by
  refine ⟨?_, ?_, ?_, ?_, ?_⟩
  · intro h
    unfold F80.div
    by_cases hn : IsNan80 a
    · rw [(kinds.2.2 hn).1, if_pos rfl]
      exact ⟨a, rfl, hn⟩
    · have an : a.isNan = false := by
        rcases ha with h | h | h
        · exact (kinds.1 h).1
        · exact (kinds.2.1 h).1
        · exact absurd h hn
      rcases h with h | h
      · exact absurd h hn
      · rw [an, (kinds.2.2 h).1]
        exact ⟨b, rfl, h⟩
  · intro h h'
    have hz := isZero_eq h'
    unfold F80.div
    simp [kinds.2.1 h, kinds.1 h', isNegative_eq h.1, isNegative_eq h'.1]
  · intro h h'
    unfold F80.div
    simp [kinds.1 h, kinds.2.1 h', isNegative_eq h.1, isNegative_eq h'.1]
  · intro h h'
    refine ⟨_, ?_, (nan_fields (sign80 a != sign80 b)).1⟩
    unfold F80.div
    simp [kinds.2.1 h, kinds.2.1 h', isNegative_eq h.1, isNegative_eq h'.1]
  · intro h h' h1 h2
    refine ⟨_, ?_, (nan_fields (sign80 a != sign80 b)).1⟩
    unfold F80.div
    simp [kinds.1 h, kinds.1 h', isZero_eq h, isZero_eq h', h1, h2, isNegative_eq h.1, isNegative_eq h'.1]

example : F80.div ⟨0x3fff, 0xf000000000000000⟩ ⟨0xc000, 0xa000000000000000⟩ = some ⟨0xbffe, 0xc000000000000000⟩ ∧
    Finite80 ⟨0xc000, 0xa000000000000000⟩ ∧ Valid80 ⟨0xc000, 0xa000000000000000⟩ := by
  have h : Finite80 ⟨0xc000, 0xa000000000000000⟩ := by unfold Finite80; decide
  exact ⟨by decide +kernel, h, Or.inl h⟩

theorem quot_eq {m n k : Nat} (h : m + n = k) : 0xc000000000000000 * 2 ^ m * 2 ^ k * 0x8000000000000001 =
    0xc000000000000000 * 2 ^ n * 2 ^ m * (0x8000000000000001 * 2 ^ m) := by
  rw [← h, Nat.pow_add]
  ring

set_option linter.constructorNameAsVariable false in
/-- C59 is not true of every quotient: one just above the middle of two numbers is taken to be the
middle, and rounded down to the even one. -/
theorem C59_violated :
    ¬ ∀ a b : F80, Finite80 a → Finite80 b → 2 ^ 63 ≤ mag80 b → ∃ r, F80.div a b = some r ∧
      Rounded80 (sign80 a != sign80 b) (mag80 a * 2 ^ 16445) (mag80 b) r := by
  intro h
  have e1 : mag80 ⟨0x3fff, 0xc000000000000000⟩ = 0xc000000000000000 * 2 ^ 16382 := mag_one _
  have e2 : mag80 ⟨0x3fff, 0x8000000000000001⟩ = 0x8000000000000001 * 2 ^ 16382 := mag_one _
  have e3 : mag80 ⟨0x3fff, 0xbffffffffffffffe⟩ = 0xbffffffffffffffe * 2 ^ 16382 := mag_one _
  obtain ⟨r, r1, r2⟩ := h ⟨0x3fff, 0xc000000000000000⟩ ⟨0x3fff, 0x8000000000000001⟩ (by unfold Finite80; decide)
    (by unfold Finite80; decide) (by
      rw [e2]
      exact Nat.le_trans (by decide : 2 ^ 63 ≤ 0x8000000000000001 * 1)
        (Nat.mul_le_mul_left _ (Nat.pow_pos (by decide))))
  have hr : F80.div ⟨0x3fff, 0xc000000000000000⟩ ⟨0x3fff, 0x8000000000000001⟩ =
      some ⟨0x3fff, 0xbffffffffffffffe⟩ := by decide +kernel
  rw [hr] at r1
  have r1 := Option.some.inj r1
  subst r1
  obtain ⟨y, y1, _, y2⟩ := r2
  rw [e1, e2] at y1
  rw [e3] at y2
  have hy : y = 0xbffffffffffffffe * 2 ^ 16382 := by
    split at y2
    · exact y2.2.symm
    · exact absurd y2.2.1 (by decide)
  rw [hy] at y1
  clear y2 hy e1 e2 e3
  have he := quot_eq (show 16382 + 63 = 16445 from rfl)
  have y1' := IsNearest.ratio (Nat.mul_pos (by decide) (two_pos _)) (by decide) he y1
  exact not_nearest (by decide) (by decide) (by decide) (by decide) y1'

/-- Zero divided by a subnormal number is an infinity. -/
theorem C59_violated_zero :
    ∃ a b, Finite80 a ∧ Finite80 b ∧ mag80 a = 0 ∧ mag80 b ≠ 0 ∧ ∃ r, F80.div a b = some r ∧ Infinite80 r :=
  ⟨⟨0, 0⟩, ⟨0, 1⟩, by unfold Finite80; decide, by unfold Finite80; decide, by decide, by decide,
    ⟨0x7fff, 0x8000000000000000⟩, by decide, by unfold Infinite80; decide⟩

end Libasm.Float
