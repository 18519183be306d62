import Verif.Float.Round
import Verif.Float.Spec
/-
Rounding a quotient to the nearest integer, ties to even, and what follows for `IsNearest`.
-/
namespace Libasm.Float
open Spec

/-- `x / m` rounded to the nearest integer, the even one if there are two. -/
def nearestDiv (x m : Nat) : Nat :=
  if m < 2 * (x % m) ∨ (2 * (x % m) = m ∧ x / m % 2 = 1) then x / m + 1 else x / m

theorem nearest_eq (lsb x : Nat) : nearest lsb x = nearestDiv x (2 ^ lsb) * 2 ^ lsb := by
  unfold nearest nearestDiv
  dsimp only
  split <;> rfl

theorem nearestDiv_scale (x m : Nat) {t : Nat} (ht : 0 < t) :
    nearestDiv (x * t) (m * t) = nearestDiv x m := by
  unfold nearestDiv
  rw [Nat.mul_div_mul_right _ _ ht, Nat.mul_mod_mul_right]
  have e1 : m * t < 2 * (x % m * t) ↔ m < 2 * (x % m) := by
    rw [← Nat.mul_assoc]
    exact Nat.mul_lt_mul_right ht
  have e2 : 2 * (x % m * t) = m * t ↔ 2 * (x % m) = m := by
    rw [← Nat.mul_assoc]
    exact Nat.mul_left_inj (by omega)
  simp only [e1, e2]

/-- Two ways to write the same quotient by powers of two. -/
theorem nearestDiv_ratio (x : Nat) {a b c d : Nat} (h : a + d = c + b) :
    nearestDiv (x * 2 ^ a) (2 ^ b) = nearestDiv (x * 2 ^ c) (2 ^ d) := by
  rw [← nearestDiv_scale (x * 2 ^ a) (2 ^ b) (Nat.pow_pos (n := d) (show 0 < 2 by decide)),
    ← nearestDiv_scale (x * 2 ^ c) (2 ^ d) (Nat.pow_pos (n := b) (show 0 < 2 by decide)),
    Nat.mul_assoc, Nat.mul_assoc, ← Nat.pow_add, ← Nat.pow_add, ← Nat.pow_add, ← Nat.pow_add, h, Nat.add_comm b]

theorem div_ratio (x : Nat) {a b c d : Nat} (h : a + d = c + b) :
    x * 2 ^ a / 2 ^ b = x * 2 ^ c / 2 ^ d := by
  rw [← Nat.mul_div_mul_right (x * 2 ^ a) (2 ^ b) (Nat.pow_pos (n := d) (show 0 < 2 by decide)),
    ← Nat.mul_div_mul_right (x * 2 ^ c) (2 ^ d) (Nat.pow_pos (n := b) (show 0 < 2 by decide)),
    Nat.mul_assoc, Nat.mul_assoc, ← Nat.pow_add, ← Nat.pow_add, ← Nat.pow_add, ← Nat.pow_add, h, Nat.add_comm b]

/-- `jam` of natural numbers. -/
def jamN (x n : Nat) : Nat :=
  if x % 2 ^ n ≠ 0 ∧ x / 2 ^ n % 2 = 0 then x / 2 ^ n + 1 else x / 2 ^ n

theorem jamN_zero (x : Nat) : jamN x 0 = x := by simp [jamN, Nat.mod_one]

theorem jamN_jamN (x a b : Nat) (hb : 1 ≤ b) : jamN (jamN x a) b = jamN x (a + b) := by
  have h := jam_jam (x : Int) a b hb
  rw [jam_nat, jam_nat, jam_nat] at h
  exact_mod_cast h

theorem jamN_exact {x n : Nat} (h : x % 2 ^ n = 0) : jamN x n = x / 2 ^ n := by
  unfold jamN
  rw [if_neg (by rw [h]; simp)]

theorem jamN_div (x n : Nat) {m : Nat} (hm : 1 ≤ m) : jamN x n / 2 ^ m = x / 2 ^ (m + n) := by
  obtain ⟨k, rfl⟩ : ∃ k, m = k + 1 := ⟨m - 1, by omega⟩
  have e1 : 2 ^ (k + 1 + n) = 2 ^ n * (2 * 2 ^ k) := by
    rw [Nat.pow_add, Nat.pow_succ, Nat.mul_comm, Nat.mul_comm (2 ^ k)]
  have e2 : 2 ^ (k + 1) = 2 * 2 ^ k := by rw [Nat.pow_succ, Nat.mul_comm]
  rw [e1, e2, ← Nat.div_div_eq_div_mul, ← Nat.div_div_eq_div_mul, ← Nat.div_div_eq_div_mul]
  congr 1
  unfold jamN
  split <;> omega

theorem jamN_nearest (x n : Nat) {m : Nat} (hm : 2 ≤ m) :
    nearestDiv (jamN x n) (2 ^ m) = nearestDiv x (2 ^ (m + n)) := by
  have hdiv := jamN_div x n (m := m) (by omega)
  unfold nearestDiv
  rw [hdiv]
  suffices h : (2 ^ m < 2 * (jamN x n % 2 ^ m) ↔ 2 ^ (m + n) < 2 * (x % 2 ^ (m + n))) ∧
      (2 * (jamN x n % 2 ^ m) = 2 ^ m ↔ 2 * (x % 2 ^ (m + n)) = 2 ^ (m + n)) by
    simp only [h.1, h.2]
  clear hdiv
  obtain ⟨k, rfl⟩ : ∃ k, m = k + 2 := ⟨m - 2, by omega⟩
  have hN : 0 < 2 ^ n := Nat.pow_pos (by decide)
  have hK : 0 < 2 ^ k := Nat.pow_pos (by decide)
  have e1 : 2 ^ (k + 2) = 4 * 2 ^ k := by rw [Nat.pow_add, Nat.mul_comm]
  have e2 : 2 ^ (k + 2 + n) = 2 ^ n * (4 * 2 ^ k) := by rw [Nat.pow_add, e1, Nat.mul_comm]
  have e3 : x % (2 ^ n * (4 * 2 ^ k)) = x % 2 ^ n + 2 ^ n * (x / 2 ^ n % (4 * 2 ^ k)) := Nat.mod_mul
  have hw := Nat.mod_lt x hN
  rw [e2, e3, e1]
  unfold jamN
  generalize 2 ^ n = N at *
  generalize 2 ^ k = K at *
  generalize x % N = w at *
  have hq : ∀ q : Nat, q % (4 * K) < 4 * K := fun q => Nat.mod_lt _ (by omega)
  generalize x / N = q at *
  have hr := hq q
  have par : q % 2 = q % (4 * K) % 2 := by
    rw [Nat.mod_mod_of_dvd]
    exact ⟨2 * K, by omega⟩
  have succ : q % 2 = 0 → (q + 1) % (4 * K) = q % (4 * K) + 1 := by
    intro h
    rw [Nat.add_mod]
    have : (1 : Nat) % (4 * K) = 1 := Nat.mod_eq_of_lt (by omega)
    rw [this]
    exact Nat.mod_eq_of_lt (by omega)
  by_cases h0 : w = 0
  · subst h0
    rw [if_neg (by simp), Nat.zero_add]
    generalize q % (4 * K) = r at *
    have t1 : N * (4 * K) < 2 * (N * r) ↔ 4 * K < 2 * r := by
      rw [Nat.mul_left_comm 2 N r]
      exact Nat.mul_lt_mul_left hN
    have t2 : 2 * (N * r) = N * (4 * K) ↔ 2 * r = 4 * K := by
      rw [Nat.mul_left_comm 2 N r]
      exact Nat.mul_right_inj (by omega)
    rw [t1, t2]
    exact ⟨Iff.rfl, Iff.rfl⟩
  · have big : 2 * K ≤ q % (4 * K) → N * (2 * K) ≤ N * (q % (4 * K)) :=
      fun h => Nat.mul_le_mul_left _ h
    have small : q % (4 * K) + 1 ≤ 2 * K → N * (q % (4 * K)) + N ≤ N * (2 * K) := by
      intro h
      have := Nat.mul_le_mul_left N h
      rw [Nat.mul_add, Nat.mul_one] at this
      exact this
    have dbl : N * (4 * K) = 2 * (N * (2 * K)) := by
      rw [Nat.mul_left_comm 2 N]
      congr 1
      omega
    rw [dbl]
    generalize N * (q % (4 * K)) = A at *
    generalize N * (2 * K) = B at *
    by_cases he : q % 2 = 0
    · rw [if_pos ⟨h0, he⟩, succ he]
      generalize q % (4 * K) = r at *
      omega
    · rw [if_neg (fun h => he h.2)]
      generalize q % (4 * K) = r at *
      omega

/-! ### The nearest number of `p` bits -/

theorem near_step (x m c : Nat) (hm : 0 < m) (hc : c ≠ nearestDiv x m) :
    ((nearestDiv x m * m : Nat) - (x : Int)).natAbs < ((c * m : Nat) - (x : Int)).natAbs ∨
    (((nearestDiv x m * m : Nat) - (x : Int)).natAbs = ((c * m : Nat) - (x : Int)).natAbs ∧
      nearestDiv x m % 2 = 0) := by
  have hx := Nat.mod_add_div x m
  have hr := Nat.mod_lt x hm
  have below : ∀ {u v : Nat}, u + 1 ≤ v → u * m + m ≤ v * m := by
    intro u v h
    have := Nat.mul_le_mul_right m h
    rw [Nat.add_mul, Nat.one_mul] at this
    exact this
  rw [Nat.mul_comm m] at hx
  have hS : (x / m + 1) * m = x / m * m + m := by rw [Nat.add_mul, Nat.one_mul]
  revert hc
  unfold nearestDiv
  split
  · rename_i h
    intro hc
    rw [hS]
    rcases Nat.lt_or_gt_of_ne hc with h1 | h1
    · have := below (u := c) (v := x / m + 1) h1
      rw [hS] at this
      generalize c * m = C at *
      generalize x / m * m = Q at *
      omega
    · have := below (u := x / m + 1) (v := c) h1
      rw [hS] at this
      generalize c * m = C at *
      generalize x / m * m = Q at *
      omega
  · rename_i h
    intro hc
    rcases Nat.lt_or_gt_of_ne hc with h1 | h1
    · have := below h1
      generalize c * m = C at *
      generalize x / m * m = Q at *
      omega
    · have := below h1
      generalize c * m = C at *
      generalize x / m * m = Q at *
      omega

theorem near_isNearest {p x d g : Nat} (hp : 2 ≤ p) (hd : 0 < d)
    (hq : x / (d * 2 ^ g) < 2 ^ p) (hlow : g = 0 ∨ 2 ^ (p - 1) ≤ x / (d * 2 ^ g)) :
    IsNearest p x d (nearestDiv x (d * 2 ^ g) * 2 ^ g) := by
  have hG : 0 < 2 ^ g := Nat.pow_pos (by decide)
  have hm : 0 < d * 2 ^ g := Nat.mul_pos hd hG
  have hn : nearestDiv x (d * 2 ^ g) ≤ 2 ^ p := by
    unfold nearestDiv
    split <;> omega
  have hstep := near_step x (d * 2 ^ g)
  have hmul : ∀ c, c * 2 ^ g * d = c * (d * 2 ^ g) := by
    intro c
    rw [Nat.mul_assoc, Nat.mul_comm (2 ^ g)]
  have h2p : 2 ^ p = 2 * 2 ^ (p - 1) := by
    rw [← Nat.pow_succ']
    congr 1
    omega
  have h1p : 2 ≤ 2 ^ (p - 1) := by
    have := Nat.pow_le_pow_right (n := 2) (by decide) (show 1 ≤ p - 1 by omega)
    omega
  have even : nearestDiv x (d * 2 ^ g) % 2 = 0 →
      ∃ s k, s < 2 ^ (p - 1) ∧ nearestDiv x (d * 2 ^ g) * 2 ^ g = s * 2 ^ (k + 1) := by
    intro he
    by_cases hf : nearestDiv x (d * 2 ^ g) = 2 ^ p
    · refine ⟨1, p + g - 1, by omega, ?_⟩
      rw [hf, ← Nat.pow_add, Nat.one_mul]
      congr 1
      omega
    · refine ⟨nearestDiv x (d * 2 ^ g) / 2, g, by omega, ?_⟩
      rw [Nat.pow_succ, Nat.mul_comm (2 ^ g) 2, ← Nat.mul_assoc]
      congr 1
      omega
  refine ⟨?_, ?_⟩
  · by_cases hf : nearestDiv x (d * 2 ^ g) = 2 ^ p
    · refine ⟨1, p + g, by omega, ?_⟩
      rw [hf, ← Nat.pow_add, Nat.one_mul]
    · exact ⟨_, g, by omega, rfl⟩
  · intro z hz hne
    obtain ⟨s, k, hs, rfl⟩ := hz
    unfold dist
    by_cases hk : g ≤ k
    · -- a multiple of the grid
      have e : s * 2 ^ k = s * 2 ^ (k - g) * 2 ^ g := by
        rw [Nat.mul_assoc, ← Nat.pow_add]
        congr 2
        omega
      rw [e] at hne ⊢
      have hc : s * 2 ^ (k - g) ≠ nearestDiv x (d * 2 ^ g) := by
        intro h
        rw [h] at hne
        exact hne rfl
      rw [hmul, hmul]
      rcases hstep _ hm hc with h | ⟨h, h'⟩
      · exact Or.inl h
      · exact Or.inr ⟨h, even h'⟩
    · left
      have hl : 2 ^ (p - 1) ≤ x / (d * 2 ^ g) := by
        rcases hlow with h | h
        · omega
        · exact h
      have hz : s * 2 ^ k < 2 ^ (p - 1) * 2 ^ g := by
        calc s * 2 ^ k < 2 ^ p * 2 ^ k := Nat.mul_lt_mul_of_pos_right hs (Nat.pow_pos (by decide))
          _ = 2 ^ (p - 1) * 2 ^ (k + 1) := by
            rw [h2p, Nat.pow_succ, Nat.mul_comm 2, Nat.mul_assoc, Nat.mul_comm 2]
          _ ≤ 2 ^ (p - 1) * 2 ^ g :=
            Nat.mul_le_mul_left _ (Nat.pow_le_pow_right (by decide) (by omega))
      have hzd : s * 2 ^ k * d < 2 ^ (p - 1) * (d * 2 ^ g) := by
        rw [← hmul]
        exact Nat.mul_lt_mul_of_pos_right hz hd
      have hx : 2 ^ (p - 1) * (d * 2 ^ g) ≤ x :=
        Nat.le_trans (Nat.mul_le_mul_right _ hl) (Nat.div_mul_le_self _ _)
      rw [hmul]
      by_cases hc : 2 ^ (p - 1) = nearestDiv x (d * 2 ^ g)
      · rw [← hc]
        generalize 2 ^ (p - 1) * (d * 2 ^ g) = A at *
        generalize s * 2 ^ k * d = Z at *
        omega
      · have := hstep _ hm hc
        generalize 2 ^ (p - 1) * (d * 2 ^ g) = A at *
        generalize s * 2 ^ k * d = Z at *
        generalize nearestDiv x (d * 2 ^ g) * (d * 2 ^ g) = B at *
        omega

/-- Correct rounding has one result. -/
theorem IsNearest.exact {p x d y z : Nat} (h : IsNearest p x d y) (hd : 0 < d) (hz : Rep p z)
    (he : z * d = x) : y = z := by
  by_cases hc : z = y
  · exact hc.symm
  · exfalso
    have e : dist x d z = 0 := by unfold dist; rw [he]; omega
    rcases h.2 z hz hc with h1 | ⟨h1, _⟩
    · omega
    · rw [e] at h1
      unfold dist at h1
      have h2 : y * d = z * d := by omega
      exact hc (Nat.eq_of_mul_eq_mul_right hd h2.symm)

end Libasm.Float
