import Verif.Config.Model
/-
Masks as arithmetic, and the displacement of a branch as a difference.
-/
namespace Libasm.Config

theorem pow_le_W {w : Nat} (h : w ≤ 32) : 2 ^ w ≤ W := by
  have := Nat.pow_le_pow_right (n := 2) (by omega) h
  exact this

/-- `a & ~(2^k - 1)` keeps the bits from `k` on. -/
theorem and_high {a k : Nat} (ha : a < W) (hk : k ≤ 32) :
    a &&& (W - 1 - (2 ^ k - 1)) = (a / 2 ^ k) * 2 ^ k := by
  have hW : W = 2 ^ (32 - k) * 2 ^ k := by
    rw [← Nat.pow_add, Nat.sub_add_cancel hk]; rfl
  have hpos : 0 < 2 ^ k := Nat.two_pow_pos k
  have hmask : W - 1 - (2 ^ k - 1) = (2 ^ (32 - k) - 1) <<< k := by
    rw [Nat.shiftLeft_eq, Nat.sub_mul, Nat.one_mul, ← hW]
    have := pow_le_W hk
    omega
  rw [hmask]
  have h1 : a &&& (2 ^ (32 - k) - 1) <<< k = ((a >>> k) &&& (2 ^ (32 - k) - 1)) <<< k := by
    apply Nat.eq_of_testBit_eq
    intro i
    simp only [Nat.testBit_and, Nat.testBit_shiftLeft, Nat.testBit_shiftRight]
    by_cases h : k ≤ i
    · simp only [h, decide_true, Bool.true_and]
      rw [show k + (i - k) = i from by omega]
    · simp [h]
  rw [h1, Nat.and_two_pow_sub_one_eq_mod, Nat.shiftLeft_eq, Nat.shiftRight_eq_div_pow,
    Nat.mod_eq_of_lt]
  rw [Nat.div_lt_iff_lt_mul hpos, ← hW]
  exact ha

theorem mask_eq {k : Nat} (hk : k ≤ 32) : sub32 ((1 <<< k) % W) 1 = 2 ^ k - 1 := by
  rw [Nat.one_shiftLeft]
  have h0 := Nat.two_pow_pos k
  unfold sub32
  by_cases h : k = 32
  · subst h; rfl
  · have h1 : 2 ^ k < 2 ^ 32 := Nat.pow_lt_pow_right (by omega) (by omega)
    have : 2 ^ k < W := h1
    simp only [W] at *
    omega

theorem high_zero {a k : Nat} : (a / 2 ^ k) * 2 ^ k = 0 ↔ a < 2 ^ k := by
  have hpos : 0 < 2 ^ k := Nat.two_pow_pos k
  constructor
  · intro h
    rcases Nat.mul_eq_zero.1 h with h | h
    · exact (Nat.div_eq_zero_iff_lt hpos).1 h
    · omega
  · intro h
    rw [Nat.div_eq_of_lt h, Nat.zero_mul]

theorem checkAddr_eq {w a : Nat} (align : Bool) (hw : w ≤ 32) (ha : a < W) :
    checkAddr w a align = if 2 ^ w ≤ a then .OVERFLOW_RANGE
      else if align = true ∧ a % 2 = 1 then .OPERAND_NOT_ALIGNED else .OK := by
  unfold checkAddr
  simp only [mask_eq hw, not32]
  have : (2 ^ w - 1) % W = 2 ^ w - 1 := Nat.mod_eq_of_lt (by have := pow_le_W hw; have : 0 < W := by decide
                                                             omega)
  rw [this, and_high ha hw]
  by_cases h : a < 2 ^ w
  · have h1 : ¬(a / 2 ^ w * 2 ^ w ≠ 0) := by rw [Ne, high_zero]; simp [h]
    have h2 : ¬ 2 ^ w ≤ a := by omega
    rw [if_neg h1, if_neg h2]
    cases align
    · simp
    · have : a % 2 = 0 ∨ a % 2 = 1 := by omega
      rcases this with h | h <;> simp [h]
  · have h1 : a / 2 ^ w * 2 ^ w ≠ 0 := by rw [Ne, high_zero]; exact h
    have h2 : 2 ^ w ≤ a := by omega
    rw [if_pos h1, if_pos h2]

theorem int32_of_lt {u : Nat} (h : u < 2147483648) : int32 u = u := by
  have hm : u % W = u := Nat.mod_eq_of_lt (by simp only [W]; omega)
  simp only [int32, hm]
  rw [if_pos h]

theorem int32_of_ge {u : Nat} (h : 2147483648 ≤ u) (h2 : u < W) : int32 u = (u : Int) - W := by
  have hm : u % W = u := Nat.mod_eq_of_lt h2
  simp only [int32, hm]
  rw [if_neg (by omega)]

theorem signExtend_eq {u w : Nat} (h0 : 0 < w) (hw : w ≤ 32) :
    signExtend u w = some (if u % 2 ^ w < 2 ^ (w - 1) then ((u % 2 ^ w : Nat) : Int)
      else ((u % 2 ^ w : Nat) : Int) - (2 ^ w : Nat)) := by
  unfold signExtend
  rw [if_neg (by omega)]
  have hw1 : 1 <<< (w - 1) = 2 ^ (w - 1) := Nat.one_shiftLeft _
  have hsh : (1 <<< (w - 1)) <<< 1 = 1 <<< w := by
    rw [← Nat.shiftLeft_add, Nat.sub_add_cancel h0]
  rw [hw1] at hsh
  simp only [hw1, hsh, mask_eq hw, Nat.and_two_pow_sub_one_eq_mod]
  have hs : 2 ^ w = 2 * 2 ^ (w - 1) := by rw [← Nat.pow_succ']; congr 1; omega
  have hle := pow_le_W hw
  have hdvd : (u + 2 ^ (w - 1)) % W % 2 ^ w = (u + 2 ^ (w - 1)) % 2 ^ w :=
    Nat.mod_mod_of_dvd _ (by
      have : W = 2 ^ 32 := rfl
      rw [this]; exact Nat.pow_dvd_pow 2 hw)
  rw [hdvd]
  congr 1
  have hpos : 0 < 2 ^ (w - 1) := Nat.two_pow_pos _
  rw [hs] at hle ⊢
  generalize 2 ^ (w - 1) = s at *
  have hr := Nat.mod_lt u (show 0 < 2 * s by omega)
  have hadd : (u + s) % (2 * s) = if u % (2 * s) < s then u % (2 * s) + s else u % (2 * s) - s := by
    rw [Nat.add_mod, Nat.mod_eq_of_lt (show s < 2 * s by omega)]
    split
    · rw [Nat.mod_eq_of_lt (by omega)]
    · rw [Nat.mod_eq_sub_mod (by omega), Nat.mod_eq_of_lt (by omega)]; omega
  rw [hadd]
  generalize hu : u % (2 * s) = r at *
  by_cases h : r < s
  · rw [if_pos h, if_pos h]
    have e1 : sub32 (r + s) s = r := by simp only [sub32, W] at *; omega
    rw [e1, int32_of_lt (by simp only [W] at hle; omega)]
  · rw [if_neg h, if_neg h]
    have e1 : sub32 (r - s) s = W - (2 * s - r) := by simp only [sub32, W] at *; omega
    rw [e1, int32_of_ge (by simp only [W] at *; omega) (by simp only [W] at *; omega)]
    simp only [W] at *; omega

theorem overflowDelta_eq {d : Int} {n : Nat} (h0 : 0 < n) (hn : n < 32) :
    overflowDelta d n = some (decide ¬(-((2 ^ (n - 1) : Nat) : Int) ≤ d ∧ d < ((2 ^ (n - 1) : Nat) : Int))) := by
  unfold overflowDelta
  rw [if_neg (by omega)]
  rw [Option.some.injEq, Bool.eq_iff_iff]
  simp only [Bool.or_eq_true, decide_eq_true_eq]
  omega

/-- The displacement `branchDelta` computes, and whether it reports. -/
theorem branchDelta_eq {w base target : Nat} (h0 : 0 < w) (hw : w ≤ 32) (hb : base ≤ 2 ^ w)
    (hbW : base < W) (ht : target < W) :
    ∃ d e, branchDelta w base target .OK = some (d, e) ∧
      (e = .OK ↔ target < 2 ^ w ∧ -((2 ^ (w - 1) : Nat) : Int) ≤ (target : Int) - base ∧
        (target : Int) - base < ((2 ^ (w - 1) : Nat) : Int)) ∧
      (e = .OK → d = (target : Int) - base) ∧ (e ≠ .OK → e = .OVERFLOW_RANGE) := by
  unfold branchDelta
  rw [signExtend_eq h0 hw, checkAddr_eq false hw ht]
  have hs : 2 ^ w = 2 * 2 ^ (w - 1) := by rw [← Nat.pow_succ']; congr 1; omega
  have hle := pow_le_W hw
  have hpos : 0 < 2 ^ (w - 1) := Nat.two_pow_pos _
  have hmod : sub32 target base % 2 ^ w = (((target : Int) - base) % ((2 ^ w : Nat) : Int)).toNat := by
    have hd : 2 ^ w ∣ W := by
      have : W = 2 ^ 32 := rfl
      rw [this]; exact Nat.pow_dvd_pow 2 hw
    unfold sub32
    rw [Nat.mod_mod_of_dvd _ hd, Nat.mod_eq_of_lt ht, Nat.mod_eq_of_lt hbW]
    obtain ⟨k, hk⟩ := hd
    have e1 : ((target + W - base : Nat) : Int) = ((target : Int) - base) + ((2 ^ w : Nat) : Int) * k := by
      have : (W : Int) = ((2 ^ w : Nat) : Int) * k := by rw [hk]; simp
      rw [← this]; omega
    have e2 : (((target + W - base) % 2 ^ w : Nat) : Int) = ((target : Int) - base) % ((2 ^ w : Nat) : Int) := by
      rw [Int.natCast_emod, e1, Int.add_mul_emod_self_left]
    rw [← e2, Int.toNat_natCast]
  rw [hmod]
  simp only [Bool.false_eq_true, false_and, if_false]
  rw [hs] at hb hle ⊢
  generalize 2 ^ (w - 1) = s at *
  clear hmod hs
  have hx := Int.emod_nonneg ((target : Int) - base) (show ((2 * s : Nat) : Int) ≠ 0 by omega)
  have hx2 := Int.emod_lt_of_pos ((target : Int) - base) (show (0 : Int) < ((2 * s : Nat) : Int) by omega)
  have hdiv := Int.emod_add_mul_ediv ((target : Int) - base) ((2 * s : Nat) : Int)
  generalize hr : ((target : Int) - base) % ((2 * s : Nat) : Int) = r at *
  generalize hq : ((target : Int) - base) / ((2 * s : Nat) : Int) = q at *
  obtain ⟨rn, rfl⟩ : ∃ rn : Nat, r = rn := ⟨r.toNat, by omega⟩
  simp only [Int.toNat_natCast]
  refine ⟨_, _, rfl, ?_⟩
  by_cases hfit : 2 * s ≤ target
  · -- address too large
    have herr : ∀ c : Prop, [Decidable c] → (if c then setErrorIf (setErrorIf .OK .OVERFLOW_RANGE) .OVERFLOW_RANGE
        else setErrorIf .OK .OVERFLOW_RANGE) = Err.OVERFLOW_RANGE := by
      intro c _; split <;> rfl
    rw [if_pos hfit, herr]
    refine ⟨⟨nofun, fun h => absurd h.1 (by omega)⟩, nofun, fun _ => rfl⟩
  · rw [if_neg hfit]
    -- the quotient is 0 or -1
    have hq01 : q = 0 ∨ q = -1 := by
      have h1 : (-1 : Int) ≤ q := by
        by_cases h : q ≤ -2
        · have : ((2 * s : Nat) : Int) * q ≤ ((2 * s : Nat) : Int) * (-2) :=
            Int.mul_le_mul_of_nonneg_left h (by omega)
          omega
        · omega
      have h2 : q ≤ 0 := by
        by_cases h : 1 ≤ q
        · have : ((2 * s : Nat) : Int) * 1 ≤ ((2 * s : Nat) : Int) * q :=
            Int.mul_le_mul_of_nonneg_left h (by omega)
          omega
        · omega
      omega
    have hok : setErrorIf Err.OK Err.OK = Err.OK := rfl
    have hov : setErrorIf Err.OK Err.OVERFLOW_RANGE = Err.OVERFLOW_RANGE := rfl
    rw [hok, hov]
    rcases hq01 with rfl | rfl
    · by_cases hh : rn < s
      · rw [if_pos hh, if_neg (by omega)]
        exact ⟨⟨fun _ => by omega, fun _ => rfl⟩, fun _ => by omega, fun h => absurd rfl h⟩
      · rw [if_neg hh, if_pos (by omega)]
        exact ⟨⟨nofun, fun h => by omega⟩, nofun, fun _ => rfl⟩
    · by_cases hh : rn < s
      · rw [if_pos hh, if_pos (by omega)]
        exact ⟨⟨nofun, fun h => by omega⟩, nofun, fun _ => rfl⟩
      · rw [if_neg hh, if_neg (by omega)]
        exact ⟨⟨fun _ => by omega, fun _ => rfl⟩, fun _ => by omega, fun h => absurd rfl h⟩

end Libasm.Config
