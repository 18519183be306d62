import Verif.Float.Nearest
/-
`compose` rounds correctly: the core of the floating point properties, for each of the formats.
-/
namespace Libasm.Float
open Spec

/-- What the proofs need of a format. -/
structure Fmt.Good (f : Fmt) : Prop where
  mant2 : 2 ≤ f.mant
  mant64 : f.mant ≤ 64
  mask : f.expMask = 2 * f.expBase + 1

theorem good32 : f32.Good := ⟨by decide, by decide, by decide⟩
theorem good64 : f64.Good := ⟨by decide, by decide, by decide⟩
theorem good80 : f80.Good := ⟨by decide, by decide, by decide⟩

/-- `v'`, `e'` are `v`, `e` normalized, where `v` stands for `w / 2^n`. -/
structure Normalized (w n : Nat) (e : Int) (v' : Words) (e' : Int) : Prop where
  ok : Ok v'
  lo : 2 ^ 79 ≤ val v'
  hi : val v' < 2 ^ 80
  rounds : ∀ m i j : Nat, 16 ≤ m → (j : Int) - i = m + (e' - e) + n →
    nearestDiv (val v') (2 ^ m) = nearestDiv (w * 2 ^ i) (2 ^ j) ∧
    val v' / 2 ^ m = w * 2 ^ i / 2 ^ j

theorem normalized {v : Words} (h : Ok v) (h0 : val v ≠ 0) (h95 : val v < 2 ^ 95) {w n : Nat}
    (hv : val v = jamN w n) (hbig : n = 0 ∨ 2 ^ 70 ≤ val v) (e : Int) :
    Normalized w n e (normalize v).1 (e + (normalize v).2) := by
  by_cases hc : val v < 2 ^ 80
  · obtain ⟨k, k80, ok, he, hval, lo, hi⟩ := normalize_low h h0 hc
    refine ⟨ok, by rw [hval]; exact lo, by rw [hval]; exact hi, ?_⟩
    intro m i j hm hij
    rw [he] at hij
    rw [hval]
    by_cases hn : n = 0
    · subst hn
      rw [jamN_zero] at hv
      rw [hv]
      exact ⟨nearestDiv_ratio w (by omega), div_ratio w (by omega)⟩
    · have hbig : 2 ^ 70 ≤ val v := by
        rcases hbig with h | h
        · exact absurd h hn
        · exact h
      have hk : k ≤ 9 := by
        apply Nat.le_of_not_lt
        intro hk
        have h1 : 2 ^ 10 ≤ 2 ^ k := Nat.pow_le_pow_right (by decide) hk
        have h2 : 2 ^ 70 * 2 ^ 10 ≤ val v * 2 ^ k := Nat.mul_le_mul hbig h1
        have h3 : 2 ^ 80 ≤ val v * 2 ^ k := h2
        exact absurd hi (Nat.not_lt.2 h3)
      have s1 : nearestDiv (val v * 2 ^ k) (2 ^ m) = nearestDiv (val v * 2 ^ 0) (2 ^ (m - k)) :=
        nearestDiv_ratio _ (by omega)
      have s2 : val v * 2 ^ k / 2 ^ m = val v * 2 ^ 0 / 2 ^ (m - k) := div_ratio _ (by omega)
      rw [s1, s2, Nat.pow_zero, Nat.mul_one, hv, jamN_nearest _ _ (by omega), jamN_div _ _ (by omega)]
      have t1 : nearestDiv (w * 2 ^ 0) (2 ^ (m - k + n)) = nearestDiv (w * 2 ^ i) (2 ^ j) :=
        nearestDiv_ratio _ (by omega)
      have t2 : w * 2 ^ 0 / 2 ^ (m - k + n) = w * 2 ^ i / 2 ^ j := div_ratio _ (by omega)
      rw [Nat.pow_zero, Nat.mul_one] at t1 t2
      exact ⟨t1, t2⟩
  · obtain ⟨k, k1, k15, ok, he, lo, hi, hval⟩ := normalize_high h (Nat.le_of_not_lt hc) h95
    have hval : val (normalize v).1 = jamN (val v) k := by
      rw [jam_nat] at hval
      exact_mod_cast hval
    have hd1 : 2 ^ 79 ≤ val v / 2 ^ k := by
      rw [Nat.le_div_iff_mul_le (Nat.pow_pos (by decide)), ← Nat.pow_add]
      exact lo
    have hd2 : val v / 2 ^ k < 2 ^ 80 := by
      rw [Nat.div_lt_iff_lt_mul (Nat.pow_pos (by decide)), ← Nat.pow_add]
      exact hi
    refine ⟨ok, ?_, ?_, ?_⟩
    · rw [hval]
      unfold jamN
      split <;> omega
    · rw [hval]
      unfold jamN
      split <;> omega
    · intro m i j hm hij
      rw [he] at hij
      rw [hval, hv, jamN_jamN _ _ _ k1, jamN_nearest _ _ (by omega), jamN_div _ _ (by omega)]
      have t1 : nearestDiv (w * 2 ^ 0) (2 ^ (m + (n + k))) = nearestDiv (w * 2 ^ i) (2 ^ j) :=
        nearestDiv_ratio _ (by omega)
      have t2 : w * 2 ^ 0 / 2 ^ (m + (n + k)) = w * 2 ^ i / 2 ^ j := div_ratio _ (by omega)
      rw [Nat.pow_zero, Nat.mul_one] at t1 t2
      exact ⟨t1, t2⟩

/-- What the parts stand for: the magnitude `y`. -/
def PartsAre (f : Fmt) (y : Nat) : Parts → Prop
  | .infinity => 2 ^ (f.mant - 1) * 2 ^ (2 * f.expBase) ≤ y
  | .zero => y = 0
  | .least => False
  | .bits e s => 0 ≤ e ∧ e ≤ 2 * f.expBase ∧
    ((e = 0 ∧ s < 2 ^ (f.mant - 1) ∧ y = s) ∨
      (0 < e ∧ 2 ^ (f.mant - 1) ≤ s ∧ s < 2 ^ f.mant ∧ y = s * 2 ^ (e.toNat - 1)))

theorem value_round {f : Fmt} (hf : f.Good) {v : Words} (h : Ok v) {q : Nat}
    (hv : val v = q * 2 ^ (80 - f.mant)) (hq : q < 2 ^ f.mant) : value v f.mant = q := by
  have := hf.mant64
  have e : 2 ^ 80 = 2 ^ f.mant * 2 ^ (80 - f.mant) := by rw [← Nat.pow_add]; congr 1; omega
  have hlt : q * 2 ^ (80 - f.mant) < 2 ^ 80 := by
    rw [e]
    exact Nat.mul_lt_mul_of_pos_right hq (Nat.pow_pos (by decide))
  rw [value_eq h _ hf.mant64, hv, Nat.mod_eq_of_lt hlt, Nat.mul_div_cancel _ (Nat.pow_pos (by decide))]

/-- From the state after `normalizeTo` to the parts. -/
theorem parts_of {f : Fmt} (hf : f.Good) {exp : Int} {sig : Words} {e : Int} {v : Words}
    {q y : Nat} (hn : normalizeTo f exp sig = (e, v)) (h : Ok v)
    (hv : val v = q * 2 ^ (80 - f.mant)) (hq : q < 2 ^ f.mant)
    (hy : (e = -(f.expBase : Int) ∧ q < 2 ^ (f.mant - 1) ∧ y = q) ∨
      (-(f.expBase : Int) < e ∧ 2 ^ (f.mant - 1) ≤ q ∧ y = q * 2 ^ ((e + f.expBase).toNat - 1))) :
    PartsAre f y (composeParts f exp sig) := by
  have hval := value_round hf h hv hq
  have hp : 0 < 2 ^ (f.mant - 1) := Nat.pow_pos (by decide)
  unfold composeParts
  rw [hn]
  dsimp only
  rw [hval]
  split
  · rename_i hc
    rcases hy with ⟨a, _, _⟩ | ⟨_, b, c⟩
    · omega
    · show _ ≤ y
      rw [c]
      exact Nat.mul_le_mul b (Nat.pow_le_pow_right (by decide) (by omega))
  · split
    · rename_i h0
      rcases hy with ⟨_, _, c⟩ | ⟨_, b, c⟩
      · show y = 0
        rw [c, h0]
      · omega
    · split
      · omega
      · refine ⟨by omega, by omega, ?_⟩
        rcases hy with ⟨a, b, c⟩ | ⟨a, b, c⟩
        · left
          exact ⟨by omega, b, c⟩
        · right
          exact ⟨by omega, b, hq, c⟩

theorem pow_mant {f : Fmt} (hf : f.Good) : 2 ^ f.mant = 2 * 2 ^ (f.mant - 1) ∧
    2 ^ 80 = 2 ^ f.mant * 2 ^ (80 - f.mant) ∧ 2 ^ 79 = 2 ^ (f.mant - 1) * 2 ^ (80 - f.mant) := by
  have h1 := hf.mant2
  have h2 := hf.mant64
  refine ⟨?_, ?_, ?_⟩
  · rw [← Nat.pow_succ']
    congr 1
    omega
  · rw [← Nat.pow_add]
    congr 1
    omega
  · rw [← Nat.pow_add]
    congr 1
    omega

theorem composeParts_spec {f : Fmt} (hf : f.Good) {v : Words} (h : Ok v) (h0 : val v ≠ 0)
    (h95 : val v < 2 ^ 95) {w n : Nat} (hv : val v = jamN w n)
    (hbig : n = 0 ∨ 2 ^ 70 ≤ val v) (e : Int) {a b : Nat}
    (hab : (a : Int) - b = e - n + f.expBase + f.mant - 81) :
    ∃ y, IsNearest f.mant (w * 2 ^ a) (2 ^ b) y ∧ PartsAre f y (composeParts f e v) := by
  have hm2 := hf.mant2
  have hm64 := hf.mant64
  obtain ⟨pm1, pm2, pm3⟩ := pow_mant hf
  have hG : 0 < 2 ^ (80 - f.mant) := Nat.pow_pos (by decide)
  obtain ⟨ok, lo, hi, rnd⟩ := normalized h h0 h95 hv hbig e
  by_cases hsub : e + (normalize v).2 ≤ -(f.expBase : Int)
  · -- subnormal
    generalize hs : (-(e + (normalize v).2 + f.expBase) + 1).toNat = s
    have hs1 : 1 ≤ s := by omega
    obtain ⟨sr1, sr2⟩ := shiftRight_nat s true ok (Nat.lt_trans hi (by decide))
    have sr2 : val (shiftRight s true (normalize v).1) = jamN (val (normalize v).1) s := sr2
    have hlt : jamN (val (normalize v).1) s < 2 ^ 79 := by
      have hd : val (normalize v).1 / 2 ^ s < 2 ^ 79 := by
        rw [Nat.div_lt_iff_lt_mul (Nat.pow_pos (by decide))]
        calc val (normalize v).1 < 2 ^ 80 := hi
          _ = 2 ^ 79 * 2 ^ 1 := by decide
          _ ≤ 2 ^ 79 * 2 ^ s := Nat.mul_le_mul_left _ (Nat.pow_le_pow_right (by decide) hs1)
      unfold jamN
      split <;> omega
    obtain ⟨ro1, ro2, ro3⟩ := @roundOff_spec f.mant (by omega) (by omega) _ sr1
      (by rw [sr2]; omega)
    rw [nearest_eq, sr2, jamN_nearest _ _ (by omega)] at ro2
    obtain ⟨r1, r2⟩ := rnd (80 - f.mant + s) a b (by omega) (by omega)
    have hq1 : val (normalize v).1 / 2 ^ (80 - f.mant + s) < 2 ^ (f.mant - 1) := by
      rw [← jamN_div _ _ (by omega), Nat.div_lt_iff_lt_mul hG, ← pm3]
      exact hlt
    rw [r1] at ro2
    rw [r2] at hq1
    have hnear : IsNearest f.mant (w * 2 ^ a) (2 ^ b) (nearestDiv (w * 2 ^ a) (2 ^ b)) := by
      have := @near_isNearest f.mant (w * 2 ^ a) (2 ^ b) 0 hm2 (Nat.pow_pos (by decide))
        (by rw [Nat.pow_zero, Nat.mul_one]; omega) (Or.inl rfl)
      rwa [Nat.pow_zero, Nat.mul_one, Nat.mul_one] at this
    have hq2 : nearestDiv (w * 2 ^ a) (2 ^ b) ≤ 2 ^ (f.mant - 1) := by
      unfold nearestDiv
      split <;> omega
    refine ⟨nearestDiv (w * 2 ^ a) (2 ^ b), hnear, ?_⟩
    have hN : normalizeTo f e v =
        if normal (roundOff f.mant (shiftRight s true (normalize v).1)).1 then
          (-(f.expBase : Int) + 1, (roundOff f.mant (shiftRight s true (normalize v).1)).1)
        else (-(f.expBase : Int), (roundOff f.mant (shiftRight s true (normalize v).1)).1) := by
      unfold normalizeTo
      dsimp only
      rw [if_pos hsub, hs]
    generalize nearestDiv (w * 2 ^ a) (2 ^ b) = q at *
    by_cases hqf : q = 2 ^ (f.mant - 1)
    · have hnorm : normal (roundOff f.mant (shiftRight s true (normalize v).1)).1 = true := by
        rw [normal_iff ro1, ro2, hqf, ← pm3]
        decide
      rw [if_pos hnorm] at hN
      have hp : 0 < 2 ^ (f.mant - 1) := Nat.pow_pos (by decide)
      refine parts_of hf (q := q) hN ro1 ro2 (by omega) (Or.inr ⟨by omega, by omega, ?_⟩)
      have : (-(f.expBase : Int) + 1 + f.expBase).toNat - 1 = 0 := by omega
      rw [this, Nat.pow_zero, Nat.mul_one]
    · have hnorm : ¬ normal (roundOff f.mant (shiftRight s true (normalize v).1)).1 = true := by
        rw [normal_iff ro1, ro2, pm3]
        intro hc
        have := Nat.le_of_mul_le_mul_right hc.1 hG
        omega
      rw [if_neg hnorm] at hN
      exact parts_of hf (q := q) hN ro1 ro2 (by omega) (Or.inl ⟨rfl, by omega, rfl⟩)
  · -- normal
    obtain ⟨ro1, ro2, ro3⟩ := @roundOff_spec f.mant (by omega) (by omega) _ ok (by omega)
    rw [nearest_eq] at ro2
    generalize hg : (e + (normalize v).2 + f.expBase - 1).toNat = g
    have hgi : (g : Int) = e + (normalize v).2 + f.expBase - 1 := by omega
    obtain ⟨r1, r2⟩ := rnd (80 - f.mant) a (b + g) (by omega) (by omega)
    have hq1 : val (normalize v).1 / 2 ^ (80 - f.mant) < 2 ^ f.mant := by
      rw [Nat.div_lt_iff_lt_mul hG, ← pm2]
      exact hi
    have hq2 : 2 ^ (f.mant - 1) ≤ val (normalize v).1 / 2 ^ (80 - f.mant) := by
      rw [Nat.le_div_iff_mul_le hG, ← pm3]
      exact lo
    rw [r1] at ro2
    rw [r2] at hq1 hq2
    rw [Nat.pow_add] at ro2 hq1 hq2
    have hnear := @near_isNearest f.mant (w * 2 ^ a) (2 ^ b) g hm2 (Nat.pow_pos (by decide)) hq1
      (Or.inr hq2)
    have hq3 : nearestDiv (w * 2 ^ a) (2 ^ b * 2 ^ g) ≤ 2 ^ f.mant ∧
        2 ^ (f.mant - 1) ≤ nearestDiv (w * 2 ^ a) (2 ^ b * 2 ^ g) := by
      unfold nearestDiv
      split <;> omega
    refine ⟨_, hnear, ?_⟩
    have hN : normalizeTo f e v =
        if (roundOff f.mant (normalize v).1).2 then
          (e + (normalize v).2 + (normalize (roundOff f.mant (normalize v).1).1).2,
            (normalize (roundOff f.mant (normalize v).1).1).1)
        else (e + (normalize v).2, (roundOff f.mant (normalize v).1).1) := by
      unfold normalizeTo
      dsimp only
      rw [if_neg hsub]
    clear r1 r2 rnd
    generalize nearestDiv (w * 2 ^ a) (2 ^ b * 2 ^ g) = q at *
    by_cases hqf : q = 2 ^ f.mant
    · have hv80 : val (roundOff f.mant (normalize v).1).1 = 2 ^ 80 := by rw [ro2, hqf, ← pm2]
      rw [if_pos (ro3.2 (by rw [hv80]; exact Nat.le_refl _))] at hN
      obtain ⟨k, k1, k15, kok, ke, klo, khi, kval⟩ :=
        normalize_high ro1 (by rw [hv80]; exact Nat.le_refl _) (by rw [hv80]; decide)
      have hk : k = 1 := by
        rw [hv80] at klo
        have := (Nat.pow_le_pow_iff_right (a := 2) (by decide)).1 klo
        omega
      subst hk
      rw [hv80] at kval
      have kval : val (normalize (roundOff f.mant (normalize v).1).1).1 = 2 ^ 79 := by
        rw [show jam ((2 ^ 80 : Nat) : Int) 1 = ((2 ^ 79 : Nat) : Int) by decide] at kval
        exact_mod_cast kval
      rw [ke] at hN
      refine parts_of hf (q := 2 ^ (f.mant - 1)) hN kok (by rw [kval]; exact pm3)
        (by omega) (Or.inr ⟨by omega, Nat.le_refl _, ?_⟩)
      have : (e + (normalize v).2 + ((1 : Nat) : Int) + f.expBase).toNat - 1 = g + 1 := by omega
      rw [this, hqf, pm1, Nat.pow_succ, Nat.mul_comm 2, Nat.mul_assoc, Nat.mul_comm 2]
    · have hno : ¬ (roundOff f.mant (normalize v).1).2 = true := by
        rw [ro3, ro2, pm2]
        intro hc
        have := Nat.le_of_mul_le_mul_right hc hG
        omega
      rw [if_neg hno] at hN
      refine parts_of hf (q := q) hN ro1 ro2 (by omega) (Or.inr ⟨by omega, hq3.2, ?_⟩)
      have : (e + (normalize v).2 + f.expBase).toNat - 1 = g := by omega
      rw [this]

/-- `compose` of zero. -/
theorem composeParts_zero {f : Fmt} (hf : f.Good) {v : Words} (h : Ok v) (h0 : val v = 0) {e : Int}
    (he : e ≤ f.expBase) : composeParts f e v = .zero := by
  have hm2 := hf.mant2
  have hm64 := hf.mant64
  have near0 : ∀ m, nearestDiv 0 m = 0 := by
    intro m
    unfold nearestDiv
    rw [Nat.zero_mod, Nat.zero_div, if_neg (by omega)]
  have hz : (normalizeTo f e v).1 ≤ f.expBase ∧ Ok (normalizeTo f e v).2 ∧
      val (normalizeTo f e v).2 = 0 := by
    unfold normalizeTo
    rw [normalize_zero h h0]
    dsimp only
    split
    · obtain ⟨sr1, sr2⟩ := shiftRight_nat (-(e + 0 + (f.expBase : Int)) + 1).toNat true h
        (by rw [h0]; decide)
      have sr3 : val (shiftRight (-(e + 0 + (f.expBase : Int)) + 1).toNat true v) = 0 := by
        rw [sr2, h0, Nat.zero_mod, Nat.zero_div, if_neg (by simp)]
      obtain ⟨ro1, ro2, ro3⟩ := @roundOff_spec f.mant (by omega) (by omega) _ sr1
        (by rw [sr3]; decide)
      rw [nearest_eq, sr3, near0, Nat.zero_mul] at ro2
      have hn : ¬ normal (roundOff f.mant (shiftRight (-(e + 0 + (f.expBase : Int)) + 1).toNat true
          v)).1 = true := by
        rw [normal_iff ro1, ro2]
        decide
      rw [if_neg hn]
      exact ⟨by simp only; omega, ro1, ro2⟩
    · obtain ⟨ro1, ro2, ro3⟩ := @roundOff_spec f.mant (by omega) (by omega) _ h
        (by rw [h0]; decide)
      rw [nearest_eq, h0, near0, Nat.zero_mul] at ro2
      rw [if_neg (by rw [ro3, ro2]; decide)]
      exact ⟨by simp only; omega, ro1, ro2⟩
  unfold composeParts
  dsimp only
  rw [if_neg (by omega), value_eq hz.2.1 _ hm64, hz.2.2, Nat.zero_mod, Nat.zero_div, if_pos rfl]

end Libasm.Float
