import Verif.Float.MachineLemmas
/-
C67 and C68: the floating point formats of DEC and IBM machines.
-/
namespace Libasm.Float
open Spec

/-! ### C67: DEC formats of 16, 32 and 64 bits (8, 24 and 56 bits of precision) -/

/-- C67: converting a number to a DEC format rounds it correctly, reports a number that is too large and
yields zero for one that is too small. -/
theorem C67_set {m : Nat} (hm : m = 8 ∨ m = 24 ∨ m = 56) {x : F80} (hx : Finite80 x) :
    ∃ y, IsNearest m (mag80 x) 1 y ∧ DecResult m (sign80 x) y (decSet m x).1 (decSet m x).2 :=
  decSet_finite (by omega) (by omega) hx

/-- 1.0 is a finite number. -/
example : Finite80 ⟨0x3fff, 2 ^ 63⟩ := ⟨by decide, by decide, by decide, by decide⟩
/-- A third of it, and a number just below 1, which is rounded to 1. -/
example : decSet 24 ⟨0x3ffd, 0xaaaaaaaaaaaaaaab⟩ = (.OK, 0x3faaaaab) := by decide +kernel
example : decSet 24 ⟨0x3ffe, 0xffffffff00000000⟩ = (.OK, 0x40800000) := by decide +kernel
/-- 2^127 is too large, 2^-129 too small. -/
example : decSet 24 ⟨0x3fff + 127, 2 ^ 63⟩ = (.OVERFLOW_RANGE, 0) := by decide +kernel
example : decSet 24 ⟨0x3fff - 129, 2 ^ 63⟩ = (.OK, 0) := by decide +kernel

/-- C67: a NaN and an infinity are reported. -/
theorem C67_special (m : Nat) (x : F80) :
    (IsNan80 x → (decSet m x).1 = .NOT_AN_EXPECTED) ∧
    (Infinite80 x → (decSet m x).1 = .OVERFLOW_RANGE) := by
  constructor
  · intro h
    have h1 : x.isNan = true := by
      have : x.tag % 0x8000 = 0x7fff := h.2.1
      unfold F80.isNan
      simp [this, h.2.2.2]
    have h2 : x.isInf = false := by
      unfold F80.isInf
      simp [h.2.2.2]
    unfold decSet
    rw [h1, h2]
    dsimp only
    rw [if_neg (show ¬ (false = true) by decide), if_pos rfl, if_pos (Or.inr (by decide))]
  · intro h
    have h2 : x.isInf = true := by
      have : x.tag % 0x8000 = 0x7fff := h.2.1
      unfold F80.isInf
      simp [this, h.2.2]
    unfold decSet
    rw [h2]
    dsimp only
    rw [if_pos rfl, if_pos (Or.inr (by decide))]

example : IsNan80 ⟨0x7fff, 0xc000000000000000⟩ := ⟨by decide, by decide, by decide, by decide⟩
example : Infinite80 ⟨0x7fff, 2 ^ 63⟩ := ⟨by decide, by decide, by decide⟩

/-- C67: a DEC pattern is read as exactly the number it stands for. -/
theorem C67_get {m : Nat} (hm : m = 8 ∨ m = 24 ∨ m = 56) {b : Nat} (hb : b < 2 ^ (m + 8)) :
    Finite80 (decGet m b) ∧ sign80 (decGet m b) = decSign m b ∧ mag80 (decGet m b) = decMag m b :=
  decGet_spec (by omega) (by omega) hb

example : decGet 24 0x40490fdb = ⟨0x3ffe, 0xc90fdb0000000000⟩ := by decide +kernel

set_option linter.constructorNameAsVariable false in
/-- C67: reading a pattern and writing it again gives the same pattern, if it is not one of the several
that stand for zero. -/
theorem C67_roundtrip {m : Nat} (hm : m = 8 ∨ m = 24 ∨ m = 56) {b : Nat} (hb : b < 2 ^ (m + 8))
    (h0 : decExp m b ≠ 0) : decSet m (decGet m b) = (.OK, b) := by
  obtain ⟨g1, g2, g3⟩ := C67_get hm hb
  obtain ⟨y, n, r1, r2, r3⟩ := C67_set hm g1
  have pos : ∀ n, 0 < 2 ^ n := fun n => Nat.pow_pos (by decide)
  have hF := Nat.mod_lt b (pos (m - 1))
  have he : decExp m b < 256 := Nat.mod_lt _ (by decide)
  have hmag : decMag m b * 2 ^ 0 =
      (2 ^ (m - 1) + b % 2 ^ (m - 1)) * 2 ^ (decExp m b + (16445 - 128 - m)) := by
    unfold decMag
    rw [if_neg h0, Nat.pow_zero, Nat.mul_one, Nat.pow_add _ (decExp m b), ← Nat.mul_assoc]
  have hm1 : 2 ^ m = 2 ^ (m - 1) * 2 := by rw [← Nat.pow_succ, show (m - 1).succ = m by omega]
  have k1 : 2 ^ (m - 1) ≤ 2 ^ (m - 1) + b % 2 ^ (m - 1) := Nat.le_add_right _ _
  have k2 : 16317 + 0 ≤ m - 1 + (decExp m b + (16445 - 128 - m)) := by omega
  have lo : 2 ^ (16445 - 128) ≤ decMag m b := pow_le_scaled (k := 16317) hmag k1 k2
  have hi : decMag m b < 2 ^ (16445 + 127) := lt_pow_scaled (u := m) hmag (by omega) (by omega)
  have hy : y = decMag m b := by
    refine IsNearest.exact n (by decide) ?_ ?_
    · refine ⟨_, _, ?_, by rw [← hmag, Nat.pow_zero, Nat.mul_one]⟩
      omega
    · rw [g3, Nat.mul_one]
  rw [hy, if_neg (Nat.not_le.2 hi), if_neg (Nat.not_lt.2 lo)] at r3
  have hne : decMag m b ≠ 0 := by
    intro h
    rw [h] at lo
    exact absurd lo (Nat.not_le.2 (pos _))
  exact Prod.ext r3.1 (dec_ext (by omega) r1 hb (r2.trans g2) hne r3.2)

example : decExp 24 0xc0490fdb ≠ 0 := by decide

/-! ### C68: IBM formats of 32 and 64 bits -/

/-- C68, without the numbers that are rounded up to a power of 16: converting a number to an IBM
format rounds it correctly, reports a number that is too large and yields zero for one that is too
small. -/
theorem C68_set_partial {m : Nat} {again : Bool} (hm : m = 24 ∧ again = true ∨ m = 56 ∧ again = false)
    {x : F80} (hx : Finite80 x) :
    ∃ y, HexNearest m (mag80 x) y ∧ (¬ (mag80 x < y ∧ IsPow16 y) →
      IbmResult m (sign80 x) y (ibmSet m again x).1 (ibmSet m again x).2) := by
  obtain ⟨y, h1, h2, _⟩ := ibmSet_finite again (m := m) (by omega) (by omega) hx
  exact ⟨y, h1, h2⟩

example : ibmSet 24 true ⟨0x3ffd, 0xaaaaaaaaaaaaaaab⟩ = (.OK, 0x40555555) := by decide +kernel
/-- 16^63 is too large, 16^-66 too small. -/
example : (ibmSet 24 true ⟨0x3fff + 252, 2 ^ 63⟩).1 = .OVERFLOW_RANGE := by decide +kernel
example : ibmSet 24 true ⟨0x3fff - 264, 2 ^ 63⟩ = (.OK, 0) := by decide +kernel

/-- C68 fails for every number that is rounded up to a power of 16 in the range of the format: it is
converted to zero, without an error. -/
theorem C68_violated_carry {m : Nat} {again : Bool}
    (hm : m = 24 ∧ again = true ∨ m = 56 ∧ again = false) {x : F80} (hx : Finite80 x) :
    ∃ y, HexNearest m (mag80 x) y ∧ (mag80 x < y ∧ IsPow16 y → 2 ^ (16445 - 4 * 64) ≤ y →
      y ≤ 2 ^ (16445 + 4 * 63) →
      (ibmSet m again x).1 = .OK ∧ ibmMag m (ibmSet m again x).2 = 0) := by
  obtain ⟨y, h1, _, h3⟩ := ibmSet_finite again (m := m) (by omega) (by omega) hx
  exact ⟨y, h1, h3⟩

/-- The number `1 - 2^-32` becomes zero, although 1.0 is the nearest number of the format. -/
theorem C68_violated_one : Finite80 ⟨0x3ffe, 0xffffffff00000000⟩ ∧
    ibmSet 24 true ⟨0x3ffe, 0xffffffff00000000⟩ = (.OK, 0x40000000) ∧ ibmMag 24 0x40000000 = 0 ∧
    ibmMag 24 0x41100000 = 2 ^ 16445 := by
  refine ⟨⟨by decide, by decide, by decide, by decide⟩, by decide +kernel, by decide +kernel, by decide +kernel⟩

/-- A number that is too large is reported, but what is stored is not zero, as it is for a DEC format:
2^255 leaves the fraction 1/2 and the least exponent. -/
theorem C68_violated_overflow :
    ibmSet 24 true ⟨0x3fff + 255, 2 ^ 63⟩ = (.OVERFLOW_RANGE, 0x00800000) ∧
    ibmMag 24 0x00800000 ≠ 0 := by
  exact ⟨by decide +kernel, by decide +kernel⟩

/-- C68: a NaN and an infinity are reported. -/
theorem C68_special (m : Nat) (again : Bool) (x : F80) :
    (IsNan80 x → (ibmSet m again x).1 = .NOT_AN_EXPECTED) ∧
    (Infinite80 x → (ibmSet m again x).1 = .OVERFLOW_RANGE) := by
  constructor
  · intro h
    have h1 : x.isNan = true := by
      have : x.tag % 0x8000 = 0x7fff := h.2.1
      unfold F80.isNan
      simp [this, h.2.2.2]
    have h2 : x.isInf = false := by
      unfold F80.isInf
      simp [h.2.2.2]
    unfold ibmSet
    rw [h1, h2]
    dsimp only
    rw [if_neg (show ¬ (false = true) by decide), if_pos rfl, if_pos (Or.inr (by decide))]
  · intro h
    have h2 : x.isInf = true := by
      have : x.tag % 0x8000 = 0x7fff := h.2.1
      unfold F80.isInf
      simp [this, h.2.2]
    unfold ibmSet
    rw [h2]
    dsimp only
    rw [if_pos rfl, if_pos (Or.inr (by decide))]

/-- C68: an IBM pattern, normalized or not, is read as exactly the number it stands for. -/
theorem C68_get {m : Nat} (hm : m = 24 ∨ m = 56) {b : Nat} (hb : b < 2 ^ (m + 8)) :
    Finite80 (ibmGet m b) ∧ sign80 (ibmGet m b) = ibmSign m b ∧ mag80 (ibmGet m b) = ibmMag m b :=
  ibmGet_spec (by omega) (by omega) hb

example : ibmGet 24 0xc276a000 = ⟨0xc005, 0xed40000000000000⟩ := by decide +kernel

set_option linter.constructorNameAsVariable false in
/-- C68: reading a normalized pattern and writing it again gives the same pattern. -/
theorem C68_roundtrip {m : Nat} {again : Bool} (hm : m = 24 ∧ again = true ∨ m = 56 ∧ again = false)
    {b : Nat} (hb : IbmNormal m b) : ibmSet m again (ibmGet m b) = (.OK, b) := by
  obtain ⟨g1, g2, g3⟩ := C68_get (m := m) (by omega) hb.1
  obtain ⟨y, n, r⟩ := C68_set_partial hm g1
  have pos : ∀ n, 0 < 2 ^ n := fun n => Nat.pow_pos (by decide)
  have hF := Nat.mod_lt b (pos m)
  have he : ibmExp m b < 128 := Nat.mod_lt _ (by decide)
  have hmag : ibmMag m b * 2 ^ 0 = b % 2 ^ m * 2 ^ (4 * ibmExp m b + (16445 - 4 * 64 - m)) := by
    unfold ibmMag
    rw [Nat.pow_zero, Nat.mul_one, Nat.pow_add _ (4 * ibmExp m b), ← pow16, ← Nat.mul_assoc]
  have lo : 2 ^ (16445 - 4 * 65) ≤ ibmMag m b := pow_le_scaled (l := m - 4) hmag hb.2 (by omega)
  have hi : ibmMag m b < 2 ^ (16445 + 4 * 63) := lt_pow_scaled (u := m) hmag hF (by omega)
  have hy : y = ibmMag m b := by
    apply Decidable.of_not_not
    intro hne
    have hrep : HexRep m (ibmMag m b) :=
      ⟨_, hF, hexIs_of (t := (ibmExp m b : Int) - 64) hmag (by omega)⟩
    have h0 : dist (ibmMag m b) 1 (ibmMag m b) = 0 := by unfold dist; omega
    rw [g3] at n
    rcases n.2 _ hrep (fun h => hne h.symm) with h | ⟨h, _⟩
    · omega
    · rw [h0] at h
      unfold dist at h
      omega
  obtain ⟨r1, r2, r3⟩ := r (by rw [g3, hy]; omega)
  rw [hy, if_neg (Nat.not_le.2 hi), if_neg (Nat.not_lt.2 lo)] at r3
  exact Prod.ext r3.1 (ibm_ext (by omega) r3.2.1 hb (r2.trans g2) r3.2.2)

example : IbmNormal 24 0xc276a000 := ⟨by decide, by decide⟩

end Libasm.Float
