import Verif.Value.Lemmas
/- Helper lemmas about bitwise operators, shifts and powers. -/
namespace Libasm.Value
open Spec

theorem asSigned_range {b : Nat} (h : b < M) : -(H : Int) ≤ asSigned b ∧ asSigned b < H := by
  have hM : M = 18446744073709551616 := rfl
  have hH : H = 9223372036854775808 := rfl
  unfold asSigned
  split <;> omega

theorem asSigned_emod {b : Nat} (h : b < M) : asSigned b % (M : Int) = b := by
  have hM : M = 18446744073709551616 := rfl
  have hH : H = 9223372036854775808 := rfl
  unfold asSigned
  rw [hM] at h ⊢
  split <;> omega

theorem bits_denote {v : Value} (h : Valid v) : (denote v % (M : Int)).toNat = v.bits := by
  have hM : M = 18446744073709551616 := rfl
  rcases valid_cases h with ⟨a1, a2, a3, a4, a5⟩ | ⟨a1, a2, a3, a4, a5, a6, a7⟩ <;>
    rw [a4, hM] <;> rw [hM] at * <;> omega

theorem signedBits_ok {b : Nat} (h : b < M) :
    Valid (setS (asSigned b)) ∧ -(H : Int) ≤ denote (setS (asSigned b)) ∧
      denote (setS (asSigned b)) < H ∧ (denote (setS (asSigned b)) % (M : Int)).toNat = b := by
  obtain ⟨h1, h2⟩ := asSigned_range h
  obtain ⟨g1, g2⟩ := setS_ok h1 h2
  rw [g2, asSigned_emod h]
  exact ⟨g1, h1, h2, rfl⟩

theorem bits_lt {v : Value} (h : Valid v) : v.bits < M := by
  rcases valid_cases h with ⟨a1, a2, a3, a4, a5⟩ | ⟨a1, a2, a3, a4, a5, a6, a7⟩ <;> assumption

theorem shr_ok {a b : Value} (ha : Valid a) (hb : Valid b) (h0 : 0 ≤ denote b)
    (h1 : denote b < 4294967296) :
    Valid (a.shr b) ∧ denote (a.shr b) = denote a / 2 ^ (denote b).toNat := by
  have hM : M = 18446744073709551616 := rfl
  have hH : H = 9223372036854775808 := rfl
  have hc : b.getUnsigned = (denote b).toNat := by
    unfold getUnsigned
    rcases valid_cases hb with ⟨a1, a2, a3, a4, a5⟩ | ⟨a1, a2, a3, a4, a5, a6, a7⟩ <;> omega
  unfold shr
  simp only [hc]
  generalize (denote b).toNat = n
  have hpos : (0 : Int) < 2 ^ n := Int.pow_pos (by decide)
  rcases valid_cases ha with ⟨a1, a2, a3, a4, a5⟩ | ⟨a1, a2, a3, a4, a5, a6, a7⟩
  · by_cases hn : n ≥ 64
    · rw [if_pos hn, a1]
      simp only [Bool.false_and]
      obtain ⟨g1, g2⟩ := setU_ok (u := 0) (by decide)
      refine ⟨g1, ?_⟩
      rw [if_neg (by decide), g2, a4, eq_comm]
      apply Int.ediv_eq_zero_of_lt (by omega)
      have : (2 : Nat) ^ 64 ≤ 2 ^ n := Nat.pow_le_pow_right (by decide) hn
      have h2 : ((2 ^ n : Nat) : Int) = (2 : Int) ^ n := by norm_cast
      omega
    · rw [if_neg hn, a3, if_neg (by decide)]
      have hlt : a.bits / 2 ^ n < M := Nat.lt_of_le_of_lt (Nat.div_le_self _ _) a5
      obtain ⟨g1, g2⟩ := setU_ok hlt
      refine ⟨g1, ?_⟩
      rw [g2, a4]
      simp
  · by_cases hn : n ≥ 64
    · rw [if_pos hn, a1, a3]
      obtain ⟨g1, g2⟩ := setS_ok (s := -1) (by omega) (by omega)
      refine ⟨g1, ?_⟩
      rw [if_pos (by rfl), g2, a4, eq_comm]
      have : (2 : Nat) ^ 64 ≤ 2 ^ n := Nat.pow_le_pow_right (by decide) hn
      have h2 : ((2 : Nat) ^ n : Int) = (2 : Int) ^ n := by norm_cast
      rw [Int.ediv_eq_iff_of_pos hpos]
      omega
    · rw [if_neg hn, a3, if_pos rfl, a7]
      have hb1 : -(H : Int) ≤ ((a.bits : Int) - M) / 2 ^ n := by
        rw [Int.le_ediv_iff_mul_le hpos]
        have : -(H : Int) * 2 ^ n ≤ -(H : Int) * 1 :=
          Int.mul_le_mul_of_nonpos_left (by omega) (by omega)
        omega
      have hb2 : ((a.bits : Int) - M) / 2 ^ n < H := by
        have : ((a.bits : Int) - M) / 2 ^ n < 0 := Int.ediv_neg_of_neg_of_pos (by omega) hpos
        omega
      obtain ⟨g1, g2⟩ := setS_ok hb1 hb2
      exact ⟨g1, by rw [g2, a4]⟩

theorem shl_ok {a b : Value} (ha : Valid a) (hb : Valid b) (h0 : 0 ≤ denote b)
    (h1 : denote b < 4294967296) :
    Valid (a.shl b) ∧ denote (a.shl b) = denote a * 2 ^ (denote b).toNat % M := by
  have hM : M = 18446744073709551616 := rfl
  have hc : b.getUnsigned = (denote b).toNat := by
    unfold getUnsigned
    rcases valid_cases hb with ⟨a1, a2, a3, a4, a5⟩ | ⟨a1, a2, a3, a4, a5, a6, a7⟩ <;> omega
  unfold shl
  simp only [hc]
  generalize (denote b).toNat = n
  have hbits : (a.bits : Int) = denote a % M := by
    have := bits_denote ha
    have h2 : 0 ≤ denote a % (M : Int) := Int.emod_nonneg _ (by decide)
    omega
  by_cases hn : n ≥ 64
  · rw [if_pos hn]
    obtain ⟨g1, g2⟩ := setU_ok (u := 0) (by decide)
    refine ⟨g1, ?_⟩
    rw [g2]
    obtain ⟨k, rfl⟩ : ∃ k, n = 64 + k := ⟨n - 64, by omega⟩
    rw [Int.pow_add, show (2 : Int) ^ 64 = M by decide, Int.mul_comm (M : Int), ← Int.mul_assoc,
      Int.mul_emod_left]
    rfl
  · rw [if_neg hn]
    refine ⟨?_, ?_⟩
    · show a.bits * 2 ^ n % M < 2 ^ 64
      exact Nat.mod_lt _ (by decide)
    · show ((a.bits * 2 ^ n % M : Nat) : Int) = _
      rw [Int.natCast_emod, Int.natCast_mul, hbits, Int.mul_emod, Int.emod_emod_of_dvd _ (Int.dvd_refl _), ← Int.mul_emod]
      simp

theorem powerU_ok (exp : Nat) : ∀ prod base, powerU prod base exp % M = prod * base ^ exp % M := by
  induction exp using Nat.strongRecOn with
  | _ exp ih =>
    intro prod base
    rw [powerU]
    have hs : base ^ exp = base ^ (exp % 2) * (base * base) ^ (exp / 2) := by
      rw [← Nat.pow_two, ← Nat.pow_mul, ← Nat.pow_add, Nat.mod_add_div]
    have hp : ∀ x y z : Nat, x * (y % M) ^ z % M = x * y ^ z % M := by
      intro x y z
      rw [Nat.mul_mod, ← Nat.pow_mod, ← Nat.mul_mod]
    by_cases h2 : exp % 2 = 1
    · simp only [h2, if_true]
      split
      · rename_i h0
        rw [hs, h2, h0]; simp
      · rw [ih _ (by omega), hs, h2, hp, Nat.pow_one, ← Nat.mul_assoc, Nat.mod_mul_mod]
    · simp only [h2, if_false]
      have h3 : exp % 2 = 0 := by omega
      split
      · rename_i h0
        rw [hs, h3, h0]; simp
      · rw [ih _ (by omega), hs, h3, hp, Nat.pow_zero, Nat.one_mul]

theorem natAbs_le_mul {x y : Int} (h : y ≠ 0) : x.natAbs ≤ (x * y).natAbs := by
  rw [Int.natAbs_mul]
  exact Nat.le_mul_of_pos_right _ (by omega)

theorem mulS_ok {x y : Int} (h : (x * y).natAbs < H) : mulS x y = some (x * y) := by
  unfold mulS
  rw [if_pos (by omega)]

theorem powerS_ok (exp : Nat) : ∀ prod base : Int, prod ≠ 0 → base ≠ 0 →
    (prod * base ^ exp).natAbs < H → powerS prod base exp = some (prod * base ^ exp) := by
  induction exp using Nat.strongRecOn with
  | _ exp ih =>
    intro prod base hp hb h
    rw [powerS]
    have hs : base ^ exp = base ^ (exp % 2) * (base * base) ^ (exp / 2) := by
      rw [show base * base = base ^ 2 by rw [Int.pow_succ, Int.pow_one], ← Int.pow_mul, ← Int.pow_add, Nat.mod_add_div]
    have hbb : base * base ≠ 0 := Int.mul_ne_zero hb hb
    have hpw : ∀ n, (base * base) ^ n ≠ 0 := fun n => Int.pow_ne_zero hbb
    have hsq : exp / 2 ≠ 0 → mulS base base = some (base * base) := by
      intro h0
      apply mulS_ok
      obtain ⟨k, hk⟩ : ∃ k, exp / 2 = k + 1 := ⟨exp / 2 - 1, by omega⟩
      rw [hs, hk, Int.pow_succ, ← Int.mul_assoc, ← Int.mul_assoc, Int.mul_comm] at h
      exact Nat.lt_of_le_of_lt (natAbs_le_mul (Int.mul_ne_zero (Int.mul_ne_zero hp
        (Int.pow_ne_zero hb)) (hpw k))) h
    by_cases h2 : exp % 2 = 1
    · rw [h2, Int.pow_one] at hs
      have hm : mulS prod base = some (prod * base) := by
        apply mulS_ok
        rw [hs, ← Int.mul_assoc] at h
        exact Nat.lt_of_le_of_lt (natAbs_le_mul (hpw _)) h
      simp only [h2, if_true, hm]
      split
      · rename_i h0
        rw [hs, h0]; simp
      · rename_i h0
        simp only [hsq h0]
        rw [ih _ (by omega) _ _ (Int.mul_ne_zero hp hb) hbb (by rwa [hs, ← Int.mul_assoc] at h), hs,
          Int.mul_assoc]
    · have h3 : exp % 2 = 0 := by omega
      rw [h3, Int.pow_zero, Int.one_mul] at hs
      simp only [h2, if_false]
      split
      · rename_i h0
        rw [hs, h0]; simp
      · rename_i h0
        simp only [hsq h0]
        rw [ih _ (by omega) _ _ hp hbb (by rwa [hs] at h), hs]

end Libasm.Value
