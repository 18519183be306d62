import Verif.Float.FixedLemmas
/-
`normalize` and `round_off` in terms of the number the words stand for.
-/
namespace Libasm.Float

theorem leadingZero_spec {w : Nat} (h0 : w ≠ 0) (h : w < 65536) :
    leadingZero w ≤ 15 ∧ 2 ^ 15 ≤ w * 2 ^ leadingZero w ∧ w * 2 ^ leadingZero w < 2 ^ 16 := by
  have key : ∃ k, k ≤ 15 ∧ leadingZero w = k ∧ 2 ^ 15 ≤ w * 2 ^ k ∧ w * 2 ^ k < 2 ^ 16 := by
    unfold leadingZero
    dsimp only
    simp only [Nat.reducePow]
    split <;> dsimp only <;> split <;> dsimp only <;> split <;> dsimp only <;> split <;> dsimp only
    · exact ⟨0, by omega⟩
    · exact ⟨1, by omega⟩
    · exact ⟨2, by omega⟩
    · exact ⟨3, by omega⟩
    · exact ⟨4, by omega⟩
    · exact ⟨5, by omega⟩
    · exact ⟨6, by omega⟩
    · exact ⟨7, by omega⟩
    · exact ⟨8, by omega⟩
    · exact ⟨9, by omega⟩
    · exact ⟨10, by omega⟩
    · exact ⟨11, by omega⟩
    · exact ⟨12, by omega⟩
    · exact ⟨13, by omega⟩
    · exact ⟨14, by omega⟩
    · exact ⟨15, by omega⟩
  obtain ⟨k, h1, h2, h3⟩ := key
  rw [h2]
  exact ⟨h1, h3⟩

theorem val_reverse_cons (w : Nat) (ws : Words) :
    val (w :: ws).reverse = val ws.reverse + 65536 ^ ws.length * w := by
  rw [List.reverse_cons, val_append, List.length_reverse]
  simp [val]

theorem twice_le {P X Y : Nat} (h : P * 32768 ≤ X) : P * 65536 ≤ 2 * (Y + X) := by
  calc P * 65536 = P * 32768 + P * 32768 := by rw [← Nat.mul_add]
    _ ≤ X + X := Nat.add_le_add h h
    _ ≤ 2 * (Y + X) := by omega

theorem countZeros_spec : ∀ {ws : Words}, Small ws →
    (val ws.reverse = 0 → countZeros ws = 16 * ws.length) ∧
    (val ws.reverse ≠ 0 → countZeros ws < 16 * ws.length ∧
      65536 ^ ws.length ≤ 2 * (val ws.reverse * 2 ^ countZeros ws) ∧
      val ws.reverse * 2 ^ countZeros ws < 65536 ^ ws.length)
  | [], _ => ⟨fun _ => rfl, fun h => absurd rfl h⟩
  | w :: ws, h => by
    have hw := h.cons.1
    obtain ⟨i1, i2⟩ := countZeros_spec h.cons.2
    have hsm : Small ws.reverse := fun x hx => h.cons.2 x (List.mem_reverse.1 hx)
    have hlt := val_lt hsm
    rw [List.length_reverse] at hlt
    rw [val_reverse_cons, List.length_cons, Nat.pow_succ]
    have hP : 0 < 65536 ^ ws.length := Nat.pow_pos (by decide)
    unfold countZeros
    by_cases h0 : w = 0
    · subst h0
      rw [if_neg (by simp)]
      simp only [Nat.mul_zero, Nat.add_zero]
      refine ⟨fun hz => by rw [i1 hz]; omega, fun hz => ?_⟩
      obtain ⟨j1, j2, j3⟩ := i2 hz
      have e : val ws.reverse * 2 ^ (16 + countZeros ws) =
          65536 * (val ws.reverse * 2 ^ countZeros ws) := by
        rw [Nat.pow_add, Nat.mul_left_comm]
      rw [e]
      omega
    · rw [if_pos h0]
      obtain ⟨l1, l2, l3⟩ := leadingZero_spec h0 hw
      generalize leadingZero w = k at l1 l2 l3 ⊢
      generalize 65536 ^ ws.length = P at hP hlt ⊢
      clear i1 i2
      refine ⟨fun hz => ?_, fun _ => ⟨by omega, ?_, ?_⟩⟩
      · exfalso
        have : 0 < P * w := Nat.mul_pos hP (by omega)
        omega
      · have l2' : 32768 ≤ w * 2 ^ k := l2
        have this : P * 32768 ≤ P * (w * 2 ^ k) := Nat.mul_le_mul_left _ l2'
        rw [Nat.add_mul, Nat.mul_assoc]
        clear l2 l3 hlt l2'
        generalize P * (w * 2 ^ k) = X at this ⊢
        generalize val ws.reverse * 2 ^ k = Y
        exact twice_le this
      · have hk : (w + 1) * 2 ^ k ≤ 2 ^ 16 := by
          have hd : 2 ^ 16 = 2 ^ (16 - k) * 2 ^ k := by rw [← Nat.pow_add]; congr 1; omega
          rw [hd] at l3 ⊢
          exact Nat.mul_le_mul_right _ (Nat.lt_of_mul_lt_mul_right l3)
        have hA : val ws.reverse * 2 ^ k < P * 2 ^ k :=
          Nat.mul_lt_mul_of_pos_right hlt (Nat.pow_pos (by decide))
        have hk : (w + 1) * 2 ^ k ≤ 65536 := hk
        have hB : P * ((w + 1) * 2 ^ k) ≤ P * 65536 := Nat.mul_le_mul_left _ hk
        have hC : P * ((w + 1) * 2 ^ k) = P * (w * 2 ^ k) + P * 2 ^ k := by
          rw [Nat.add_mul, Nat.mul_add, Nat.one_mul]
        rw [Nat.add_mul, Nat.mul_assoc]
        rw [hC] at hB
        clear l2 l3 hlt hC hk
        generalize P * (w * 2 ^ k) = X at hB ⊢
        generalize val ws.reverse * 2 ^ k = Y at hA ⊢
        generalize P * 2 ^ k = Z at hA hB ⊢
        omega

/-- `normalize` of a number below 2.0 other than zero: shifted left until its highest bit is in
place. -/
theorem normalize_low {v : Words} (h : Ok v) (h0 : val v ≠ 0) (h1 : val v < 2 ^ 80) :
    ∃ k : Nat, k < 80 ∧ Ok (normalize v).1 ∧ (normalize v).2 = -(k : Int) ∧
      val (normalize v).1 = val v * 2 ^ k ∧ 2 ^ 79 ≤ val v * 2 ^ k ∧ val v * 2 ^ k < 2 ^ 80 := by
  have hh : getHigh v = 0 := by rw [high_eq h]; omega
  have hsm : Small (v.take 5).reverse := fun x hx => small_take h.2 5 x (List.mem_reverse.1 hx)
  obtain ⟨_, c2⟩ := countZeros_spec hsm
  have hv : val (v.take 5) = val v := by
    rw [val_take h.2]
    omega
  rw [List.reverse_reverse, hv, List.length_reverse, List.length_take, h.1] at c2
  obtain ⟨c3, c4, c5⟩ := c2 h0
  have c3' : countZeros (v.take 5).reverse < 80 := c3
  have hn : normalize v = (shiftLeft (countZeros (v.take 5).reverse) v,
      -(countZeros (v.take 5).reverse : Int)) := by
    unfold normalize
    rw [if_neg (by rw [hh]; simp)]
    dsimp only
    rw [if_neg (Nat.ne_of_lt c3')]
  rw [hn]
  have c4' : 2 ^ 80 ≤ 2 * (val v * 2 ^ countZeros (v.take 5).reverse) := c4
  have c5' : val v * 2 ^ countZeros (v.take 5).reverse < 2 ^ 80 := c5
  clear c4 c5 c3 hn
  generalize countZeros (v.take 5).reverse = k at *
  obtain ⟨s1, s2⟩ := shiftLeft_spec k h
  refine ⟨k, c3', s1, rfl, ?_, by omega, c5'⟩
  rw [s2, Nat.mod_eq_of_lt (Nat.lt_trans c5' (by decide))]

/-- `normalize` of zero. -/
theorem normalize_zero {v : Words} (h : Ok v) (h0 : val v = 0) : normalize v = (v, 0) := by
  have hh : getHigh v = 0 := by rw [high_eq h]; omega
  have hsm : Small (v.take 5).reverse := fun x hx => small_take h.2 5 x (List.mem_reverse.1 hx)
  obtain ⟨c1, _⟩ := countZeros_spec hsm
  have hv : val (v.take 5) = 0 := by
    rw [val_take h.2, h0]
  rw [List.reverse_reverse, hv, List.length_reverse, List.length_take, h.1] at c1
  have c : countZeros (v.take 5).reverse = 80 := c1 rfl
  unfold normalize
  rw [if_neg (by rw [hh]; simp)]
  dsimp only
  rw [if_pos c]

/-- `normalize` of a number from 2.0 up: shifted right, the bits lost kept as a sticky bit. -/
theorem normalize_high {v : Words} (h : Ok v) (h0 : 2 ^ 80 ≤ val v) (h1 : val v < 2 ^ 95) :
    ∃ k : Nat, 1 ≤ k ∧ k ≤ 15 ∧ Ok (normalize v).1 ∧ (normalize v).2 = (k : Int) ∧
      2 ^ (79 + k) ≤ val v ∧ val v < 2 ^ (80 + k) ∧
      (val (normalize v).1 : Int) = jam (val v) k := by
  have hh : getHigh v = val v / 2 ^ 80 := high_eq h
  have hne : getHigh v ≠ 0 := by rw [hh]; omega
  have hlt : getHigh v < 32768 := by rw [hh]; omega
  obtain ⟨l1, l2, l3⟩ := leadingZero_spec hne (by omega)
  have hl0 : leadingZero (getHigh v) ≠ 0 := by
    intro e
    rw [e] at l2
    omega
  obtain ⟨s1, s2⟩ := shiftRight_nat (16 - leadingZero (getHigh v)) true h h1
  have hn : normalize v = (shiftRight (16 - leadingZero (getHigh v)) true v,
      ((16 - leadingZero (getHigh v) : Nat) : Int)) := by
    unfold normalize
    rw [if_pos hne]
  rw [hn]
  have lo : 2 ^ (79 + (16 - leadingZero (getHigh v))) ≤ val v := by
    generalize leadingZero (getHigh v) = z at *
    have hz : z = 1 ∨ z = 2 ∨ z = 3 ∨ z = 4 ∨ z = 5 ∨ z = 6 ∨ z = 7 ∨ z = 8 ∨ z = 9 ∨ z = 10 ∨
      z = 11 ∨ z = 12 ∨ z = 13 ∨ z = 14 ∨ z = 15 := by omega
    rcases hz with rfl | rfl | rfl | rfl | rfl | rfl | rfl | rfl | rfl | rfl | rfl | rfl | rfl | rfl | rfl <;>
      simp only [Nat.reducePow, Nat.reduceSub, Nat.reduceAdd] at * <;> omega
  have hi : val v < 2 ^ (80 + (16 - leadingZero (getHigh v))) := by
    generalize leadingZero (getHigh v) = z at *
    have hz : z = 1 ∨ z = 2 ∨ z = 3 ∨ z = 4 ∨ z = 5 ∨ z = 6 ∨ z = 7 ∨ z = 8 ∨ z = 9 ∨ z = 10 ∨
      z = 11 ∨ z = 12 ∨ z = 13 ∨ z = 14 ∨ z = 15 := by omega
    rcases hz with rfl | rfl | rfl | rfl | rfl | rfl | rfl | rfl | rfl | rfl | rfl | rfl | rfl | rfl | rfl <;>
      simp only [Nat.reducePow, Nat.reduceSub, Nat.reduceAdd] at * <;> omega
  refine ⟨16 - leadingZero (getHigh v), by omega, by omega, s1, rfl, lo, hi, ?_⟩
  rw [jam_nat]
  exact_mod_cast s2

/-! ### `round_off` -/

/-- The number rounded: the nearest multiple of `2^lsb`, the even one if there are two. -/
def nearest (lsb x : Nat) : Nat :=
  let q := x / 2 ^ lsb
  let r := x % 2 ^ lsb
  if 2 ^ lsb < 2 * r ∨ (2 * r = 2 ^ lsb ∧ q % 2 = 1) then (q + 1) * 2 ^ lsb else q * 2 ^ lsb

theorem bit_div (x a b : Nat) (hb : b < 16) :
    x / 65536 ^ a % 65536 / 2 ^ b % 2 = x / 2 ^ (16 * a + b) % 2 := by
  have e : 65536 ^ a = 2 ^ (16 * a) := by rw [Nat.pow_mul]
  rw [e, Nat.pow_add, ← Nat.div_div_eq_div_mul]
  generalize x / 2 ^ (16 * a) = y
  have hb : b = 0 ∨ b = 1 ∨ b = 2 ∨ b = 3 ∨ b = 4 ∨ b = 5 ∨ b = 6 ∨ b = 7 ∨ b = 8 ∨ b = 9 ∨ b = 10 ∨
    b = 11 ∨ b = 12 ∨ b = 13 ∨ b = 14 ∨ b = 15 := by omega
  rcases hb with rfl | rfl | rfl | rfl | rfl | rfl | rfl | rfl | rfl | rfl | rfl | rfl | rfl | rfl | rfl | rfl <;>
    simp only [Nat.reducePow] <;> omega

theorem low_zero (x a b : Nat) (hb : b < 16) :
    (x % 65536 ^ a = 0 ∧ x / 65536 ^ a % 65536 % 2 ^ b = 0) ↔ x % 2 ^ (16 * a + b) = 0 := by
  have e : 65536 ^ a = 2 ^ (16 * a) := by rw [Nat.pow_mul]
  have e2 : x / 2 ^ (16 * a) % 65536 % 2 ^ b = x / 2 ^ (16 * a) % 2 ^ b := by
    apply Nat.mod_mod_of_dvd
    have : 65536 = 2 ^ b * 2 ^ (16 - b) := by rw [← Nat.pow_add]; rw [show b + (16 - b) = 16 by omega]
    rw [this]
    exact Nat.dvd_mul_right _ _
  rw [e, e2, Nat.pow_add, Nat.mod_mul]
  have hp : 0 < 2 ^ (16 * a) := Nat.pow_pos (by decide)
  constructor
  · rintro ⟨h1, h2⟩
    rw [h1, h2]
    simp
  · intro h
    have h1 : x % 2 ^ (16 * a) = 0 := by omega
    refine ⟨h1, ?_⟩
    have h2 : 2 ^ (16 * a) * (x / 2 ^ (16 * a) % 2 ^ b) = 0 := by omega
    rcases Nat.mul_eq_zero.1 h2 with h3 | h3
    · omega
    · exact h3

theorem roundUp_spec {lsb : Nat} (h1 : 1 ≤ lsb) (h2 : lsb ≤ 79) {v : Words} (h : Ok v)
    (hv : val v + 2 ^ 80 ≤ 2 ^ 96) :
    Ok (roundUp lsb v) ∧ val (roundUp lsb v) / 2 ^ lsb * 2 ^ lsb = nearest lsb (val v) := by
  have hr := bit_div (val v) ((lsb - 1) / 16) ((lsb - 1) % 16) (by omega)
  have hl := bit_div (val v) (lsb / 16) (lsb % 16) (by omega)
  have hz := low_zero (val v) ((lsb - 1) / 16) ((lsb - 1) % 16) (by omega)
  rw [show 16 * ((lsb - 1) / 16) + (lsb - 1) % 16 = lsb - 1 by omega] at hr hz
  rw [show 16 * (lsb / 16) + lsb % 16 = lsb by omega] at hl
  have hP : 2 ^ lsb = 2 * 2 ^ (lsb - 1) := by
    rw [← Nat.pow_succ']
    congr 1
    omega
  have hup : Ok (v.take (lsb / 16) ++ addCarry (2 ^ (lsb % 16)) (v.drop (lsb / 16))) ∧
      val (v.take (lsb / 16) ++ addCarry (2 ^ (lsb % 16)) (v.drop (lsb / 16))) =
        val v + 2 ^ lsb := by
    have hc : 2 ^ (lsb % 16) ≤ 65536 :=
      Nat.pow_le_pow_right (n := 2) (by decide) (show lsb % 16 ≤ 16 by omega)
    obtain ⟨a1, a2, a3⟩ := addCarry_spec (2 ^ (lsb % 16)) (v.drop (lsb / 16)) hc (small_drop h.2 _)
    refine ⟨⟨by simp [a2, h.1]; omega, small_append (small_take h.2 _) a1⟩, ?_⟩
    rw [val_append, a3, val_take h.2, val_drop h.2, List.length_drop, List.length_take, h.1,
      show min (lsb / 16) 6 = lsb / 16 by omega]
    have e1 : 2 ^ lsb = 65536 ^ (lsb / 16) * 2 ^ (lsb % 16) := by
      rw [show 65536 = 2 ^ 16 by rfl, ← Nat.pow_mul, ← Nat.pow_add]
      congr 1
      omega
    have e2 : 2 ^ 96 = 65536 ^ (lsb / 16) * 65536 ^ (6 - lsb / 16) := by
      rw [← Nat.pow_add, show lsb / 16 + (6 - lsb / 16) = 6 by omega]
    have hb : 2 ^ lsb < 2 ^ 80 := Nat.pow_lt_pow_right (by decide) (by omega)
    have hlt : val v + 2 ^ lsb < 2 ^ 96 := by omega
    have hq : val v / 65536 ^ (lsb / 16) + 2 ^ (lsb % 16) < 65536 ^ (6 - lsb / 16) := by
      have hp : 0 < 65536 ^ (lsb / 16) := Nat.pow_pos (by decide)
      apply Nat.lt_of_mul_lt_mul_left (a := 65536 ^ (lsb / 16))
      rw [← e2, Nat.mul_add, ← e1]
      have := Nat.mul_div_le (val v) (65536 ^ (lsb / 16))
      omega
    rw [Nat.mod_eq_of_lt hq, Nat.mul_add, ← e1]
    have := Nat.mod_add_div (val v) (65536 ^ (lsb / 16))
    omega
  have h0 : (v.take ((lsb - 1) / 16)).all (· == 0) = true ↔ val v % 65536 ^ ((lsb - 1) / 16) = 0 := by
    rw [← val_eq_zero, val_take h.2]
  have hpos : 0 < 2 ^ (lsb - 1) := Nat.pow_pos (by decide)
  -- the remainder, its top bit, the rest
  have hsplit : val v % 2 ^ lsb =
      val v % 2 ^ (lsb - 1) + 2 ^ (lsb - 1) * (val v / 2 ^ (lsb - 1) % 2) := by
    rw [hP, Nat.mul_comm 2, Nat.mod_mul]
  have hm : val v % 2 ^ (lsb - 1) < 2 ^ (lsb - 1) := Nat.mod_lt _ hpos
  unfold roundUp nearest
  dsimp only
  rw [word_eq h.2, word_eq h.2, hr, hl, hsplit]
  have hnone : val v / 2 ^ lsb * 2 ^ lsb = val v / 2 ^ lsb * 2 ^ lsb := rfl
  have hdiv : (val v + 2 ^ lsb) / 2 ^ lsb = val v / 2 ^ lsb + 1 :=
    Nat.add_div_right _ (Nat.pow_pos (by decide))
  by_cases hb : val v / 2 ^ (lsb - 1) % 2 = 1
  · rw [if_pos hb, hb, Nat.mul_one]
    by_cases hi : val v % 2 ^ (lsb - 1) = 0
    · obtain ⟨z1, z2⟩ := hz.2 hi
      have z3 := h0.2 z1
      rw [z3, z2, hi]
      by_cases he : val v / 2 ^ lsb % 2 = 0
      · rw [he]
        rw [if_neg (by simp)]
        refine ⟨h, ?_⟩
        rw [if_neg (by omega)]
      · rw [if_pos (by simp [he])]
        refine ⟨hup.1, ?_⟩
        rw [hup.2, hdiv, if_pos (by omega)]
    · rw [if_pos]
      · refine ⟨hup.1, ?_⟩
        rw [hup.2, hdiv, if_pos (by omega)]
      · have : ¬ ((v.take ((lsb - 1) / 16)).all (· == 0) = true ∧
            val v / 65536 ^ ((lsb - 1) / 16) % 65536 % 2 ^ ((lsb - 1) % 16) = 0) := by
          rw [h0]
          exact fun hc => hi (hz.1 hc)
        rw [Bool.or_eq_true, Bool.not_eq_true']
        left
        rw [Bool.and_eq_false_iff]
        simp only [beq_eq_false_iff_ne, ne_eq]
        by_cases ha : (v.take ((lsb - 1) / 16)).all (· == 0) = true
        · right
          exact fun hc => this ⟨ha, hc⟩
        · left
          exact Bool.eq_false_iff.2 ha
  · rw [if_neg hb]
    have hb0 : val v / 2 ^ (lsb - 1) % 2 = 0 := by omega
    refine ⟨h, ?_⟩
    rw [hb0, if_neg (by omega)]

theorem val_set_at : ∀ {v : Words} (_ : Small v) (i x : Nat), i < v.length → x < 65536 →
    Small (v.set i x) ∧ val (v.set i x) =
      val v % 65536 ^ i + 65536 ^ i * x + 65536 ^ (i + 1) * (val v / 65536 ^ (i + 1))
  | [], _, i, x, hi, _ => by simp at hi
  | w :: ws, h, 0, x, _, hx => by
    have hw := h.cons.1
    refine ⟨small_cons hx h.cons.2, ?_⟩
    simp only [List.set_cons_zero, val, Nat.pow_zero, Nat.mod_one, Nat.zero_add, Nat.pow_one]
    omega
  | w :: ws, h, i + 1, x, hi, hx => by
    have hw := h.cons.1
    obtain ⟨i1, i2⟩ := val_set_at h.cons.2 i x (by simpa using hi) hx
    refine ⟨small_cons hw i1, ?_⟩
    rw [List.set_cons_succ, val, i2, val]
    have d : (w + 65536 * val ws) / 65536 = val ws := by omega
    have m : (w + 65536 * val ws) % 65536 = w := by omega
    have e1 : 65536 ^ (i + 1) = 65536 * 65536 ^ i := by rw [Nat.pow_succ, Nat.mul_comm]
    have e2 : 65536 ^ (i + 1 + 1) = 65536 * 65536 ^ (i + 1) := by rw [Nat.pow_succ, Nat.mul_comm]
    rw [e2, ← Nat.div_div_eq_div_mul, d, e1, Nat.mod_mul, d, m]
    simp only [Nat.mul_add, Nat.mul_assoc, Nat.add_assoc]

/-- `round_off`: the words stand for the nearest number of `bits` bits, ties to even. -/
theorem roundOff_spec {bits : Nat} (h1 : 1 ≤ bits) (h2 : bits ≤ 79) {v : Words} (h : Ok v)
    (hv : val v + 2 ^ 80 ≤ 2 ^ 96) :
    Ok (roundOff bits v).1 ∧ val (roundOff bits v).1 = nearest (80 - bits) (val v) ∧
    ((roundOff bits v).2 = true ↔ 2 ^ 80 ≤ val (roundOff bits v).1) := by
  obtain ⟨r1, r2⟩ := @roundUp_spec (80 - bits) (by omega) (by omega) v h hv
  have main : Ok (roundOff bits v).1 ∧ val (roundOff bits v).1 = nearest (80 - bits) (val v) ∧
      (roundOff bits v).2 = (getHigh (roundOff bits v).1 != 0) := by
    unfold roundOff
    rw [if_neg (by omega)]
    dsimp only
    generalize hL : 80 - bits = lsb at *
    rw [← r2]
    generalize roundUp lsb v = u at *
    clear r2 h hv
    have hi : (lsb - 1) / 16 ≤ 4 := by omega
    have k1 : Small (List.replicate ((lsb - 1) / 16) 0 ++ u.drop ((lsb - 1) / 16)) := by
      apply small_append
      · intro x hx
        rw [List.mem_replicate] at hx
        omega
      · exact small_drop r1.2 _
    have k2 : (List.replicate ((lsb - 1) / 16) 0 ++ u.drop ((lsb - 1) / 16)).length = 6 := by
      simp [r1.1]
      omega
    have k3 : val (List.replicate ((lsb - 1) / 16) 0 ++ u.drop ((lsb - 1) / 16)) =
        65536 ^ ((lsb - 1) / 16) * (val u / 65536 ^ ((lsb - 1) / 16)) := by
      rw [val_append, val_zeros, val_drop r1.2, List.length_replicate, Nat.zero_add]
    generalize List.replicate ((lsb - 1) / 16) 0 ++ u.drop ((lsb - 1) / 16) = t at *
    have hp : 0 < 65536 ^ ((lsb - 1) / 16) := Nat.pow_pos (by decide)
    have hw : word t ((lsb - 1) / 16) = val u / 65536 ^ ((lsb - 1) / 16) % 65536 := by
      rw [word_eq k1, k3, Nat.mul_div_cancel_left _ hp]
    have hx : word t ((lsb - 1) / 16) / (2 * 2 ^ ((lsb - 1) % 16)) * (2 * 2 ^ ((lsb - 1) % 16)) < 65536 := by
      have := Nat.div_mul_le_self (word t ((lsb - 1) / 16)) (2 * 2 ^ ((lsb - 1) % 16))
      omega
    obtain ⟨s1, s2⟩ := val_set_at k1 ((lsb - 1) / 16) _ (by omega) hx
    refine ⟨⟨by simp [k2], s1⟩, ?_, rfl⟩
    have hd : 65536 ^ ((lsb - 1) / 16) * (val u / 65536 ^ ((lsb - 1) / 16)) /
        (65536 ^ ((lsb - 1) / 16) * 65536) = val u / 65536 ^ ((lsb - 1) / 16) / 65536 := by
      rw [← Nat.div_div_eq_div_mul, Nat.mul_div_cancel_left _ hp]
    rw [s2, k3, Nat.mul_mod_right, Nat.zero_add, Nat.pow_succ, hd, hw]
    have e : 2 ^ lsb = 65536 ^ ((lsb - 1) / 16) * (2 * 2 ^ ((lsb - 1) % 16)) := by
      rw [show 65536 = 2 ^ 16 by rfl, ← Nat.pow_mul, ← Nat.pow_succ', ← Nat.pow_add]
      congr 1
      omega
    rw [e, ← Nat.div_div_eq_div_mul (val u)]
    generalize val u / 65536 ^ ((lsb - 1) / 16) = y
    generalize 65536 ^ ((lsb - 1) / 16) = P
    have hb : (lsb - 1) % 16 < 16 := by omega
    generalize (lsb - 1) % 16 = b at hb
    have key : y % 65536 / (2 * 2 ^ b) * (2 * 2 ^ b) + 65536 * (y / 65536) = y / (2 * 2 ^ b) * (2 * 2 ^ b) := by
      have hb : b = 0 ∨ b = 1 ∨ b = 2 ∨ b = 3 ∨ b = 4 ∨ b = 5 ∨ b = 6 ∨ b = 7 ∨ b = 8 ∨ b = 9 ∨ b = 10 ∨
        b = 11 ∨ b = 12 ∨ b = 13 ∨ b = 14 ∨ b = 15 := by omega
      rcases hb with rfl | rfl | rfl | rfl | rfl | rfl | rfl | rfl | rfl | rfl | rfl | rfl | rfl | rfl | rfl | rfl <;>
        simp only [Nat.reducePow, Nat.reduceMul] <;> omega
    rw [Nat.mul_assoc, ← Nat.mul_add, key]
    rw [Nat.mul_left_comm]
  refine ⟨main.1, main.2.1, ?_⟩
  rw [main.2.2, high_eq main.1]
  simp only [bne_iff_ne, ne_eq]
  omega

end Libasm.Float
