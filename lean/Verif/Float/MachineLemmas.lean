import Verif.Float.Machine
import Verif.Float.MachineSpec
import Verif.Float.Convert
/-
Lemmas for C67 and C68.
-/
namespace Libasm.Float
open Spec

/-! ### Fields of the patterns -/

theorem or_tag {n : Nat} (sign : Bool) {e : Nat} (he : e < 2 ^ n) :
    ((if sign then 2 ^ n else 0) ||| e) = (if sign then 2 ^ n else 0) + e := by
  cases sign
  · simp
  · rw [if_pos rfl]
    have h := Nat.two_pow_add_eq_or_of_lt he 1
    rw [Nat.mul_one] at h
    exact h.symm

theorem decBits_eq {m : Nat} (sign : Bool) {e : Int} (h0 : 0 ≤ e) (h1 : e < 256) (sig : Nat) :
    decBits m sign e sig =
      ((if sign then 256 else 0) + e.toNat) * 2 ^ (m - 1) + sig % 2 ^ (m - 1) := by
  unfold decBits
  rw [Int.emod_eq_of_lt h0 h1]
  have := or_tag (n := 8) sign (e := e.toNat) (by omega)
  rw [show (2 : Nat) ^ 8 = 256 from rfl] at this
  rw [show (0o400 : Nat) = 256 from rfl, this]

theorem decBits_fields {m : Nat} (hm : 1 ≤ m) (sign : Bool) {e : Int} (h0 : 0 ≤ e) (h1 : e < 256)
    (sig : Nat) : decBits m sign e sig < 2 ^ (m + 8) ∧ decSign m (decBits m sign e sig) = sign ∧
    decExp m (decBits m sign e sig) = e.toNat ∧
    decBits m sign e sig % 2 ^ (m - 1) = sig % 2 ^ (m - 1) := by
  have hP : 0 < 2 ^ (m - 1) := Nat.pow_pos (by decide)
  have hs := Nat.mod_lt sig hP
  have e1 : 2 ^ (m + 8) = 512 * 2 ^ (m - 1) := by
    rw [show m + 8 = m - 1 + 9 by omega, Nat.pow_add, Nat.mul_comm]
  rw [decBits_eq sign h0 h1]
  unfold decSign decExp
  rw [e1]
  have ht : (if sign then 256 else 0) + e.toNat < 512 := by split <;> omega
  generalize hT : (if sign then 256 else 0) + e.toNat = T at *
  generalize sig % 2 ^ (m - 1) = s at *
  generalize 2 ^ (m - 1) = P at *
  have d : (T * P + s) / P = T := by
    rw [Nat.add_comm, Nat.add_mul_div_right _ _ hP, Nat.div_eq_of_lt hs, Nat.zero_add]
  have r : (T * P + s) % P = s := by
    rw [Nat.add_comm, Nat.add_mul_mod_self_right, Nat.mod_eq_of_lt hs]
  have hlt : T * P + s < 512 * P := by
    calc T * P + s < T * P + P := by omega
      _ = (T + 1) * P := by rw [Nat.succ_mul]
      _ ≤ 512 * P := Nat.mul_le_mul_right _ ht
  rw [d, r]
  refine ⟨hlt, ?_, ?_, rfl⟩
  · cases sign
    · rw [decide_eq_false_iff_not]; simp at hT; omega
    · rw [decide_eq_true_iff]; simp at hT; omega
  · cases sign <;> simp at hT <;> omega

theorem ibmBits_eq {m : Nat} (sign : Bool) {e : Int} (h0 : 0 ≤ e) (h1 : e < 128) (sig : Nat) :
    ibmBits m sign e sig = ((if sign then 128 else 0) + e.toNat) * 2 ^ m + sig % 2 ^ m := by
  unfold ibmBits
  rw [Int.emod_eq_of_lt h0 (by omega)]
  have := or_tag (n := 7) sign (e := e.toNat) (by omega)
  rw [show (2 : Nat) ^ 7 = 128 from rfl] at this
  rw [this]

theorem ibmBits_fields {m : Nat} (sign : Bool) {e : Int} (h0 : 0 ≤ e) (h1 : e < 128)
    (sig : Nat) : ibmBits m sign e sig < 2 ^ (m + 8) ∧ ibmSign m (ibmBits m sign e sig) = sign ∧
    ibmExp m (ibmBits m sign e sig) = e.toNat ∧ ibmBits m sign e sig % 2 ^ m = sig % 2 ^ m := by
  have hP : 0 < 2 ^ m := Nat.pow_pos (by decide)
  have hs := Nat.mod_lt sig hP
  have e1 : 2 ^ (m + 8) = 256 * 2 ^ m := by rw [Nat.pow_add, Nat.mul_comm]
  rw [ibmBits_eq sign h0 h1]
  unfold ibmSign ibmExp
  rw [e1]
  have ht : (if sign then 128 else 0) + e.toNat < 256 := by split <;> omega
  generalize hT : (if sign then 128 else 0) + e.toNat = T at *
  generalize sig % 2 ^ m = s at *
  generalize 2 ^ m = P at *
  have d : (T * P + s) / P = T := by
    rw [Nat.add_comm, Nat.add_mul_div_right _ _ hP, Nat.div_eq_of_lt hs, Nat.zero_add]
  have r : (T * P + s) % P = s := by
    rw [Nat.add_comm, Nat.add_mul_mod_self_right, Nat.mod_eq_of_lt hs]
  have hlt : T * P + s < 256 * P := by
    calc T * P + s < T * P + P := by omega
      _ = (T + 1) * P := by rw [Nat.succ_mul]
      _ ≤ 256 * P := Nat.mul_le_mul_right _ ht
  rw [d, r]
  refine ⟨hlt, ?_, ?_, rfl⟩
  · cases sign
    · rw [decide_eq_false_iff_not]; simp at hT; omega
    · rw [decide_eq_true_iff]; simp at hT; omega
  · cases sign <;> simp at hT <;> omega

/-! ### Rounding -/

/-- The significand `w`, of weight `2 ^ (a - b)`, rounded to a multiple of `2 ^ M`: either nothing is
lost, or the number itself is rounded to a multiple of `2 ^ (M + a - b)`. -/
theorem round_parts {x w a b M : Nat} (h : w * 2 ^ a = x * 2 ^ b) :
    (M + a ≤ b ∧ nearestDiv w (2 ^ M) * 2 ^ M = w) ∨
    (∃ g, M + a = g + b ∧ nearestDiv w (2 ^ M) = nearestDiv x (2 ^ g) ∧ w / 2 ^ M = x / 2 ^ g) := by
  have pos : ∀ n, 0 < 2 ^ n := fun n => Nat.pow_pos (by decide)
  by_cases hc : M + a ≤ b
  · refine Or.inl ⟨hc, ?_⟩
    have hw : w = x * 2 ^ (b - a - M) * 2 ^ M := by
      apply Nat.eq_of_mul_eq_mul_right (pos a)
      rw [h, Nat.mul_assoc, Nat.mul_assoc, ← Nat.pow_add, ← Nat.pow_add]
      congr 2
      omega
    have hz : w % 2 ^ M = 0 := by rw [hw, Nat.mul_mod_left]
    unfold nearestDiv
    rw [hz, if_neg (by have := pos M; omega)]
    rw [Nat.div_mul_cancel (Nat.dvd_of_mod_eq_zero hz)]
  · refine Or.inr ⟨M + a - b, by omega, ?_, ?_⟩
    · rw [← nearestDiv_scale w (2 ^ M) (pos a), h, ← Nat.pow_add,
        show M + a = M + a - b + b by omega, Nat.pow_add, nearestDiv_scale _ _ (pos b),
        Nat.add_sub_cancel]
    · rw [← Nat.mul_div_mul_right w (2 ^ M) (pos a), h, ← Nat.pow_add,
        show M + a = M + a - b + b by omega, Nat.pow_add, Nat.mul_div_mul_right _ _ (pos b),
        Nat.add_sub_cancel]

theorem nearestDiv_le (x m : Nat) : x / m ≤ nearestDiv x m ∧ nearestDiv x m ≤ x / m + 1 := by
  unfold nearestDiv
  split <;> omega

theorem nearestDiv_bound {x m lo hi : Nat} (hm : 0 < m) (h0 : lo * m ≤ x) (h1 : x < hi * m) :
    lo ≤ nearestDiv x m ∧ nearestDiv x m ≤ hi := by
  have a := nearestDiv_le x m
  have b : lo ≤ x / m := (Nat.le_div_iff_mul_le hm).2 h0
  have c : x / m < hi := (Nat.div_lt_iff_lt_mul hm).2 h1
  omega

theorem pow_le_scaled {y q b c l : Nat} (h : y * 2 ^ b = q * 2 ^ c) (hl : 2 ^ l ≤ q) {k : Nat}
    (hk : k + b ≤ l + c) : 2 ^ k ≤ y := by
  apply Nat.le_of_mul_le_mul_right _ (Nat.pow_pos (n := b) (show 0 < 2 by decide))
  rw [h, ← Nat.pow_add]
  calc 2 ^ (k + b) ≤ 2 ^ (l + c) := Nat.pow_le_pow_right (by decide) hk
    _ = 2 ^ l * 2 ^ c := Nat.pow_add ..
    _ ≤ q * 2 ^ c := Nat.mul_le_mul_right _ hl

theorem lt_pow_scaled {y q b c u : Nat} (h : y * 2 ^ b = q * 2 ^ c) (hu : q < 2 ^ u) {k : Nat}
    (hk : u + c ≤ k + b) : y < 2 ^ k := by
  apply Nat.lt_of_mul_lt_mul_right (a := 2 ^ b)
  rw [h, ← Nat.pow_add]
  calc q * 2 ^ c < 2 ^ u * 2 ^ c := Nat.mul_lt_mul_of_pos_right hu (Nat.pow_pos (by decide))
    _ = 2 ^ (u + c) := (Nat.pow_add ..).symm
    _ ≤ 2 ^ (k + b) := Nat.pow_le_pow_right (by decide) hk

theorem eq_scaled {y q b c d : Nat} (h : y * 2 ^ b = q * 2 ^ c) (hk : c = d + b) :
    y = q * 2 ^ d := by
  apply Nat.eq_of_mul_eq_mul_right (Nat.pow_pos (n := b) (show 0 < 2 by decide))
  rw [h, Nat.mul_assoc, ← Nat.pow_add, hk]

/-- The rounded significand of a DEC number. -/
theorem dec_round {m : Nat} (h2 : 2 ≤ m) (h63 : m ≤ 63) {x : Nat} {e : Int} {v : Words}
    (st : Stands f80 x e v) {a b : Nat} (hab : (a : Int) - b = e + 16366) :
    ∃ y, IsNearest m x 1 y ∧ y * 2 ^ b = nearestDiv (val v) (2 ^ (80 - m)) * 2 ^ (80 - m + a) ∧
      2 ^ (m - 1) ≤ nearestDiv (val v) (2 ^ (80 - m)) ∧ nearestDiv (val v) (2 ^ (80 - m)) ≤ 2 ^ m := by
  have pos : ∀ n, 0 < 2 ^ n := fun n => Nat.pow_pos (by decide)
  have hx : val v * 2 ^ a = x * 2 ^ b := st.exact a b (by
    rw [show f80.expBase = 16383 from rfl, show f80.mant = 64 from rfl]; omega)
  have p1 : 2 ^ (m - 1) * 2 ^ (80 - m) = 2 ^ 79 := by rw [← Nat.pow_add]; congr 1; omega
  have p2 : 2 ^ m * 2 ^ (80 - m) = 2 ^ 80 := by rw [← Nat.pow_add]; congr 1; omega
  have hb := nearestDiv_bound (pos (80 - m)) (x := val v) (lo := 2 ^ (m - 1)) (hi := 2 ^ m)
    (by rw [p1]; exact st.lo) (by rw [p2]; exact st.hi)
  rcases round_parts (M := 80 - m) hx with ⟨hc, hq⟩ | ⟨g, hg, hq, hd⟩
  · refine ⟨x, nearest_self ?_, ?_, hb⟩
    · refine ⟨x, 0, ?_, by simp⟩
      refine lt_pow_scaled (u := 80) hx.symm st.hi ?_
      omega
    · rw [← hx, ← hq, Nat.mul_assoc, ← Nat.pow_add, hq]
  · refine ⟨nearestDiv (val v) (2 ^ (80 - m)) * 2 ^ g, ?_, ?_, hb⟩
    · have := near_isNearest (p := m) (x := x) (d := 1) (g := g) h2 (by decide)
        (by rw [Nat.one_mul, ← hd]; exact (Nat.div_lt_iff_lt_mul (pos _)).2 (by rw [p2]; exact st.hi))
        (Or.inr (by rw [Nat.one_mul, ← hd]; exact (Nat.le_div_iff_mul_le (pos _)).2 (by rw [p1]; exact st.lo)))
      rw [Nat.one_mul] at this
      rw [hq]
      exact this
    · rw [Nat.mul_assoc, ← Nat.pow_add, hg]

/-- `normalize` after the rounding. -/
theorem dec_normalize {m : Nat} (h2 : 2 ≤ m) (h63 : m ≤ 63) {v : Words} (ok : Ok v) {q : Nat}
    (hv : val v = q * 2 ^ (80 - m)) (h0 : 2 ^ (m - 1) ≤ q) (h1 : q ≤ 2 ^ m) :
    ∃ q' c : Nat, 2 ^ (m - 1) ≤ q' ∧ q' < 2 ^ m ∧ q = q' * 2 ^ c ∧ (normalize v).2 = c ∧
      value (normalize v).1 m = q' := by
  have pos : ∀ n, 0 < 2 ^ n := fun n => Nat.pow_pos (by decide)
  have p1 : 2 ^ (m - 1) * 2 ^ (80 - m) = 2 ^ 79 := by rw [← Nat.pow_add]; congr 1; omega
  have p2 : 2 ^ m * 2 ^ (80 - m) = 2 ^ 80 := by rw [← Nat.pow_add]; congr 1; omega
  have lo : 2 ^ 79 ≤ val v := by rw [hv, ← p1]; exact Nat.mul_le_mul_right _ h0
  by_cases hc : q < 2 ^ m
  · have hi : val v < 2 ^ 80 := by rw [hv, ← p2]; exact Nat.mul_lt_mul_of_pos_right hc (pos _)
    obtain ⟨k, _, nok, ne, nval, _, nhi⟩ := normalize_low ok (by omega) hi
    have hk : k = 0 := by
      apply Decidable.of_not_not
      intro hk
      have : 2 ^ 79 * 2 ^ 1 ≤ val v * 2 ^ k :=
        Nat.mul_le_mul lo (Nat.pow_le_pow_right (by decide) (by omega))
      omega
    subst hk
    refine ⟨q, 0, h0, hc, by simp, by simpa using ne, ?_⟩
    rw [value_eq nok m (by omega), nval, Nat.pow_zero, Nat.mul_one, Nat.mod_eq_of_lt hi, hv,
      Nat.mul_div_cancel _ (pos _)]
  · have hq : q = 2 ^ m := by omega
    have hval : val v = 2 ^ 80 := by rw [hv, hq, p2]
    obtain ⟨k, k1, _, nok, ne, nlo, nhi, nval⟩ := normalize_high ok (by omega) (by omega)
    have hk : k = 1 := by
      rw [hval] at nlo
      apply Decidable.of_not_not
      intro hk
      have : 2 ^ 81 ≤ 2 ^ (79 + k) := Nat.pow_le_pow_right (by decide) (by omega)
      omega
    subst hk
    rw [hval] at nval
    have hn : val (normalize v).1 = 2 ^ 79 := by
      have : jam ((2 ^ 80 : Nat) : Int) 1 = ((2 ^ 79 : Nat) : Int) := by decide
      rw [this] at nval
      exact_mod_cast nval
    have hm1 : 2 ^ m = 2 ^ (m - 1) * 2 := by rw [← Nat.pow_succ]; congr 1; omega
    refine ⟨2 ^ (m - 1), 1, Nat.le_refl _, by have := pos (m - 1); omega, by rw [hq, hm1], ne, ?_⟩
    rw [value_eq nok m (by omega), hn, Nat.mod_eq_of_lt (by decide), ← p1, Nat.mul_div_cancel _ (pos _)]

theorem decSet_finite {m : Nat} (h2 : 2 ≤ m) (h56 : m ≤ 56) {x : F80} (hx : Finite80 x) :
    ∃ y, IsNearest m (mag80 x) 1 y ∧
      DecResult m (sign80 x) y (decSet m x).1 (decSet m x).2 := by
  obtain ⟨n1, n2⟩ := finite_not hx
  have hn := isNegative_eq hx.1
  obtain ⟨d1, d2⟩ := decompose80_spec hx
  have hbits : ∀ (e : Int) (s : Nat), 0 ≤ e → e < 256 → _ := fun e s h0 h1 =>
    decBits_fields (m := m) (by omega) (sign80 x) (e := e) h0 h1 s
  have hzero : decMag m (decBits m (sign80 x) 0 0) = 0 := by
    unfold decMag
    rw [(hbits 0 0 (by omega) (by omega)).2.2.1]
    rfl
  unfold decSet
  rw [n1, n2, hn]
  simp only [Bool.false_eq_true, if_false]
  by_cases h0 : mag80 x = 0
  · obtain ⟨z, _⟩ := d1 h0
    rw [h0, z, if_pos (Or.inl rfl)]
    refine ⟨0, nearest_zero _ _ (by decide), ?_⟩
    obtain ⟨a, b, _⟩ := hbits 0 0 (by omega) (by omega)
    refine ⟨a, b, ?_⟩
    rw [if_neg (Nat.not_le.2 (Nat.pow_pos (by decide))),
      if_pos (Nat.pow_pos (by decide))]
    exact ⟨rfl, hzero⟩
  · obtain ⟨z, st⟩ := d2 h0
    rw [z, if_neg (by simp)]
    generalize x.decompose.1 = e at *
    generalize x.decompose.2 = v at *
    have hvlt := st.hi
    obtain ⟨r1, r2, _⟩ := roundOff_spec (bits := m) (by omega) (by omega) st.ok (by omega)
    rw [nearest_eq] at r2
    generalize ha : (e + 16366).toNat = a
    generalize hb : (-(e + 16366)).toNat = b
    obtain ⟨y, y1, y2, y3, y4⟩ := dec_round h2 (by omega) st (a := a) (b := b) (by omega)
    obtain ⟨q, c, q1, q2, q3, q4, q5⟩ := dec_normalize h2 (by omega) r1 r2 y3 y4
    rw [q4, q5]
    rw [q3, Nat.mul_assoc, ← Nat.pow_add] at y2
    refine ⟨y, y1, ?_⟩
    generalize nearestDiv (val v) (2 ^ (80 - m)) = w at *
    dsimp only
    by_cases ho : e + c + 1 ≥ 0o200
    · rw [if_pos ho]
      dsimp only
      rw [if_pos (by omega)]
      obtain ⟨f1, f2, _⟩ := hbits 0 0 (by omega) (by omega)
      refine ⟨f1, f2, ?_⟩
      rw [if_pos (pow_le_scaled y2 q1 (by omega))]
      exact ⟨rfl, hzero⟩
    · rw [if_neg ho]
      dsimp only
      have hno : ¬ 2 ^ (16445 + 127) ≤ y := Nat.not_le.2 (lt_pow_scaled y2 q2 (by omega))
      by_cases hu : e + c + 1 ≤ -0o200
      · rw [if_pos hu]
        obtain ⟨f1, f2, _⟩ := hbits 0 0 (by omega) (by omega)
        refine ⟨f1, f2, ?_⟩
        rw [if_neg hno, if_pos (lt_pow_scaled y2 q2 (by omega))]
        exact ⟨rfl, hzero⟩
      · rw [if_neg hu]
        obtain ⟨f1, f2, f3, f4⟩ := hbits (e + c + 1 + 0o200) q (by omega) (by omega)
        refine ⟨f1, f2, ?_⟩
        rw [if_neg hno, if_neg (Nat.not_lt.2 (pow_le_scaled y2 q1 (by omega)))]
        refine ⟨rfl, ?_⟩
        have hm1 : 2 ^ m = 2 ^ (m - 1) * 2 := by rw [← Nat.pow_succ]; congr 1; omega
        have hq : 2 ^ (m - 1) + q % 2 ^ (m - 1) = q := by
          rw [Nat.mod_eq_sub_mod q1, Nat.mod_eq_of_lt (by omega)]; omega
        unfold decMag
        rw [f3, f4, if_neg (by omega), hq, Nat.mul_assoc, ← Nat.pow_add]
        exact (eq_scaled y2 (by omega)).symm

/-! ### Base 16 -/

theorem tmod4 (e : Int) : Int.tmod e 4 = 0 ↔ e % 4 = 0 := by
  rw [← Int.dvd_iff_tmod_eq_zero, Int.dvd_iff_emod_eq_zero]

theorem shift1 {v : Words} (h : Ok v) (hp : val v < 2 ^ 95) :
    Ok (shiftRight 1 false v) ∧ val (shiftRight 1 false v) = jamN (val v) 1 :=
  shiftRight_nat 1 false h hp

/-- The loop shifts until the exponent is a multiple of four. -/
theorem ibmAlign_spec : ∀ (fuel : Nat) {n : Nat} {w : Nat} {e : Int} {v : Words},
    Ok v → val v = jamN w n → w < 2 ^ 80 → (-e) % 4 < fuel →
    ∃ r : Nat, r ≤ 3 ∧ (ibmAlign fuel e v).1 = e + r ∧ (e + r) % 4 = 0 ∧
      Ok (ibmAlign fuel e v).2 ∧ val (ibmAlign fuel e v).2 = jamN w (n + r)
  | 0, n, w, e, v, _, _, _, hf => by omega
  | fuel + 1, n, w, e, v, ok, hv, hw, hf => by
    have hle : jamN w n < 2 ^ 95 := by
      have h1 : w / 2 ^ n ≤ w := Nat.div_le_self _ _
      unfold jamN
      split <;> omega
    unfold ibmAlign
    by_cases hc : Int.tmod e 4 ≠ 0
    · rw [if_pos hc]
      have hc' : e % 4 ≠ 0 := fun h => hc ((tmod4 e).2 h)
      obtain ⟨s1, s2⟩ := shift1 ok (by rw [hv]; exact hle)
      rw [hv, jamN_jamN _ _ _ (by decide)] at s2
      obtain ⟨r, _, h1, h2, h3, h4⟩ := ibmAlign_spec fuel (e := e + 1) s1 s2 hw (by omega)
      have hr : r + 1 ≤ 3 := by omega
      refine ⟨r + 1, hr, by rw [h1]; omega, by omega, h3, ?_⟩
      rw [h4]
      congr 1
      omega
    · rw [if_neg hc]
      have hc' : e % 4 = 0 := (tmod4 e).1 (Decidable.of_not_not hc)
      exact ⟨0, by omega, by simp, by omega, ok, hv⟩

theorem pow16 (k : Nat) : 16 ^ k = 2 ^ (4 * k) := by rw [Nat.pow_mul]

theorem hexIs_of {m q y b c : Nat} {t : Int} (h : y * 2 ^ b = q * 2 ^ c)
    (hc : (c : Int) - b + m = 4 * t + 16445) : HexIs m q y := by
  refine ⟨t.toNat, (-t).toNat, ?_⟩
  apply Nat.eq_of_mul_eq_mul_right (Nat.pow_pos (n := b) (show 0 < 2 by decide))
  rw [pow16, pow16]
  generalize hK : 4 * t.toNat = K
  generalize hJ : 4 * (-t).toNat = J
  generalize hE : 16445 = E at *
  calc y * 2 ^ m * 2 ^ J * 2 ^ b = y * 2 ^ b * (2 ^ m * 2 ^ J) := by
        rw [Nat.mul_right_comm, Nat.mul_right_comm y, Nat.mul_assoc]
    _ = q * 2 ^ K * 2 ^ E * 2 ^ b := by
      rw [h, Nat.mul_assoc, Nat.mul_assoc, Nat.mul_assoc, ← Nat.pow_add, ← Nat.pow_add, ← Nat.pow_add,
        ← Nat.pow_add]
      congr 2
      omega

theorem hexIs_carry {m y b c : Nat} (hm : 4 ≤ m) {t : Int} (h : y * 2 ^ b = 2 ^ m * 2 ^ c)
    (hc : (c : Int) - b + m = 4 * t + 16445) : HexIs m (2 ^ (m - 4)) y := by
  refine hexIs_of (t := t + 1) (b := b) (c := c + 4) ?_ (by omega)
  rw [h, ← Nat.pow_add, ← Nat.pow_add]
  congr 1
  omega

/-- A multiple of `2 ^ g` or a number below `2 ^ (m - 4)` of them. -/
theorem hexIs_cases {m s z g : Nat} (hm : 4 ≤ m) {t : Int} (hg : (g : Int) + m = 4 * t + 16445)
    (hs : s < 2 ^ m) (h : HexIs m s z) : (∃ c, z = c * 2 ^ g) ∨ z < 2 ^ (m - 4) * 2 ^ g := by
  obtain ⟨k, j, h⟩ := h
  rw [pow16, pow16, Nat.mul_assoc, Nat.mul_assoc, ← Nat.pow_add, ← Nat.pow_add] at h
  by_cases hc : (k : Int) - j ≥ t
  · refine Or.inl ⟨s * 2 ^ (4 * ((k : Int) - j - t).toNat), ?_⟩
    rw [Nat.mul_assoc, ← Nat.pow_add]
    exact eq_scaled h (by omega)
  · refine Or.inr ?_
    rw [← Nat.pow_add]
    exact lt_pow_scaled h hs (by omega)

theorem hex_nearest {m : Nat} (h5 : 5 ≤ m) {x w a b N : Nat} {t : Int}
    (hx : w * 2 ^ a = x * 2 ^ b) (ht : (N + a : Int) - b + m = 4 * t + 16445)
    (hlo : 2 ^ (m - 4) * 2 ^ N ≤ w) (hhi : w < 2 ^ m * 2 ^ N) :
    ∃ y, HexNearest m x y ∧ y * 2 ^ b = nearestDiv w (2 ^ N) * 2 ^ (N + a) ∧
      2 ^ (m - 4) ≤ nearestDiv w (2 ^ N) ∧ nearestDiv w (2 ^ N) ≤ 2 ^ m ∧
      (nearestDiv w (2 ^ N) = 2 ^ m → x < y) ∧
      (nearestDiv w (2 ^ N) = 2 ^ (m - 4) → y ≤ x) := by
  have pos : ∀ n, 0 < 2 ^ n := fun n => Nat.pow_pos (by decide)
  obtain ⟨b1, b2⟩ := nearestDiv_bound (pos N) hlo hhi
  have hm1 : 2 ^ m = 2 ^ (m - 1) * 2 := by rw [← Nat.pow_succ]; congr 1; omega
  have hm4 : 2 ^ (m - 4) < 2 ^ m := Nat.pow_lt_pow_right (by decide) (by omega)
  have ev4 : 2 ^ (m - 4) % 2 = 0 := by
    rw [show m - 4 = m - 5 + 1 by omega, Nat.pow_succ]; omega
  -- the rounded number has a fraction of `m` bits, an even one if the rounded significand is even
  have hrep : ∀ y, y * 2 ^ b = nearestDiv w (2 ^ N) * 2 ^ (N + a) → ∃ s, s < 2 ^ m ∧ HexIs m s y ∧
      (nearestDiv w (2 ^ N) % 2 = 0 → s % 2 = 0) := by
    intro y hy
    by_cases hq : nearestDiv w (2 ^ N) = 2 ^ m
    · rw [hq] at hy
      exact ⟨2 ^ (m - 4), hm4, hexIs_carry (t := t) (by omega) hy (by omega), fun _ => ev4⟩
    · exact ⟨_, by omega, hexIs_of (t := t) hy (by omega), id⟩
  rcases round_parts (M := N) hx with ⟨hc, hq⟩ | ⟨g, hg, hq, hd⟩
  · have hy : x * 2 ^ b = nearestDiv w (2 ^ N) * 2 ^ (N + a) := by
      rw [← hx, Nat.pow_add, ← Nat.mul_assoc, hq]
    obtain ⟨s, s1, s2, _⟩ := hrep x hy
    refine ⟨x, ⟨⟨s, s1, s2⟩, fun z _ hne => Or.inl ?_⟩, hy, b1, b2, fun h => ?_, fun _ => Nat.le_refl _⟩
    · unfold dist
      omega
    · exfalso
      rw [h] at hq
      omega
  · have hy : nearestDiv w (2 ^ N) * 2 ^ g * 2 ^ b = nearestDiv w (2 ^ N) * 2 ^ (N + a) := by
      rw [Nat.mul_assoc, ← Nat.pow_add, hg]
    obtain ⟨s, s1, s2, s3⟩ := hrep _ hy
    have hxlo : 2 ^ (m - 4) * 2 ^ g ≤ x := by
      have : 2 ^ (m - 4) ≤ x / 2 ^ g := by
        rw [← hd]; exact (Nat.le_div_iff_mul_le (pos _)).2 hlo
      exact (Nat.le_div_iff_mul_le (pos _)).1 this
    have hxhi : x < 2 ^ m * 2 ^ g := by
      have : x / 2 ^ g < 2 ^ m := by
        rw [← hd]; exact (Nat.div_lt_iff_lt_mul (pos _)).2 hhi
      exact (Nat.div_lt_iff_lt_mul (pos _)).1 this
    have step := fun c hc => near_step x (2 ^ g) c (pos g) hc
    rw [← hq] at step
    refine ⟨_, ⟨⟨s, s1, s2⟩, ?_⟩, hy, b1, b2, fun h => by rw [h]; exact hxhi, fun h => by rw [h]; exact hxlo⟩
    generalize nearestDiv w (2 ^ N) = q at *
    rintro z ⟨s', hs', hz⟩ hne
    unfold dist
    simp only [Nat.mul_one]
    rcases hexIs_cases (by omega) (g := g) (t := t) (by omega) hs' hz with ⟨c, rfl⟩ | hlt
    · rcases step c (fun h => hne (by rw [h])) with h | ⟨h, he⟩
      · exact Or.inl h
      · exact Or.inr ⟨h, s, s1, s3 he, s2⟩
    · left
      have h0 : ((q * 2 ^ g : Nat) - (x : Int)).natAbs ≤ ((2 ^ (m - 4) * 2 ^ g : Nat) - (x : Int)).natAbs := by
        by_cases hq4 : 2 ^ (m - 4) = q
        · rw [hq4]; exact Nat.le_refl _
        · rcases step _ hq4 with h | ⟨h, _⟩ <;> omega
      generalize 2 ^ (m - 4) * 2 ^ g = c0 at *
      generalize q * 2 ^ g = y at *
      omega

theorem hex_zero (m : Nat) : HexNearest m 0 0 := by
  refine ⟨⟨0, Nat.pow_pos (by decide), 0, 0, by simp⟩, fun z _ hne => Or.inl ?_⟩
  unfold dist
  omega

/-- A power of 16 that is greater than the number it was rounded from is a carry. -/
theorem pow16_carry {m y q b c : Nat} (hm : 4 ≤ m) {t : Int} (h : y * 2 ^ b = q * 2 ^ c)
    (hc : (c : Int) - b + m = 4 * t + 16445) (hlo : 2 ^ (m - 4) ≤ q) (hhi : q ≤ 2 ^ m) :
    IsPow16 y ↔ q = 2 ^ (m - 4) ∨ q = 2 ^ m := by
  have pos : ∀ n, 0 < 2 ^ n := fun n => Nat.pow_pos (by decide)
  constructor
  · rintro ⟨k, j, hp⟩
    rw [pow16, pow16, ← Nat.pow_add] at hp
    have e : q * 2 ^ (c + 4 * j) = 1 * 2 ^ (4 * k + 16445 + b) := by
      rw [Nat.pow_add, ← Nat.mul_assoc, ← h, Nat.mul_right_comm, hp, ← Nat.pow_add, Nat.one_mul]
    apply Decidable.of_not_not
    intro hn
    have h1 : 2 ^ (m - 4) < q := by omega
    have h2 : q < 2 ^ m := by omega
    have b1 : ¬ 4 * k + 16445 + b ≤ m - 4 + (c + 4 * j) := by
      intro hle
      have : q ≤ 2 ^ (m - 4) := by
        apply Nat.le_of_mul_le_mul_right _ (pos (c + 4 * j))
        rw [e, Nat.one_mul, ← Nat.pow_add]
        exact Nat.pow_le_pow_right (by decide) hle
      omega
    have b2 : ¬ m + (c + 4 * j) ≤ 4 * k + 16445 + b := by
      intro hle
      have : 2 ^ m ≤ q := by
        apply Nat.le_of_mul_le_mul_right _ (pos (c + 4 * j))
        rw [e, Nat.one_mul, ← Nat.pow_add]
        exact Nat.pow_le_pow_right (by decide) hle
      omega
    omega
  · intro hq
    have : ∃ n : Nat, q = 2 ^ n ∧ ∃ u : Int, (n : Int) - m = 4 * u := by
      rcases hq with hq | hq
      · exact ⟨m - 4, hq, -1, by omega⟩
      · exact ⟨m, hq, 0, by omega⟩
    obtain ⟨n, hn, u, hu⟩ := this
    refine ⟨(t + u).toNat, (-(t + u)).toNat, ?_⟩
    apply Nat.eq_of_mul_eq_mul_right (pos b)
    rw [Nat.mul_right_comm, h, hn, pow16, pow16, ← Nat.pow_add, ← Nat.pow_add, ← Nat.pow_add, ← Nat.pow_add]
    congr 1
    omega

theorem ibmSet_finite {m : Nat} (again : Bool) (h5 : 5 ≤ m) (h56 : m ≤ 56) {x : F80} (hx : Finite80 x) :
    ∃ y, HexNearest m (mag80 x) y ∧
      (¬ (mag80 x < y ∧ IsPow16 y) →
        IbmResult m (sign80 x) y (ibmSet m again x).1 (ibmSet m again x).2) ∧
      (mag80 x < y ∧ IsPow16 y → 2 ^ (16445 - 4 * 64) ≤ y → y ≤ 2 ^ (16445 + 4 * 63) →
        (ibmSet m again x).1 = .OK ∧ ibmMag m (ibmSet m again x).2 = 0) := by
  obtain ⟨n1, n2⟩ := finite_not hx
  have hn := isNegative_eq hx.1
  obtain ⟨d1, d2⟩ := decompose80_spec hx
  have pos : ∀ n, 0 < 2 ^ n := fun n => Nat.pow_pos (by decide)
  have hbits : ∀ (e : Int) (s : Nat), 0 ≤ e → e < 128 → _ := fun e s h0 h1 =>
    ibmBits_fields (m := m) (sign80 x) (e := e) h0 h1 s
  have hzero : ∀ e : Int, 0 ≤ e → e < 128 → ibmMag m (ibmBits m (sign80 x) e 0) = 0 := by
    intro e h0 h1
    unfold ibmMag
    rw [(hbits e 0 h0 h1).2.2.2, Nat.zero_mod, Nat.zero_mul, Nat.zero_mul]
  unfold ibmSet
  rw [n1, n2, hn]
  simp only [Bool.false_eq_true, if_false]
  by_cases h0 : mag80 x = 0
  · obtain ⟨z, _⟩ := d1 h0
    rw [h0, z, if_pos (Or.inl rfl)]
    refine ⟨0, hex_zero m, fun _ => ?_, fun h => by omega⟩
    obtain ⟨a, b, _⟩ := hbits 0 0 (by omega) (by omega)
    refine ⟨a, b, ?_⟩
    rw [if_neg (Nat.not_le.2 (pos _)), if_pos (pos _)]
    exact ⟨rfl, hzero 0 (by omega) (by omega)⟩
  · obtain ⟨z, st⟩ := d2 h0
    rw [z, if_neg (by simp)]
    generalize x.decompose.1 = e at *
    generalize x.decompose.2 = v at *
    have hvlt := st.hi
    have hvlo := st.lo
    -- the significand is normalized already
    have hnorm : ∃ v', (if again then normalize v else (v, 0)) = (v', 0) ∧ Ok v' ∧ val v' = val v := by
      cases again
      · exact ⟨v, rfl, st.ok, rfl⟩
      · obtain ⟨k, _, nok, ne, nval, _, nhi⟩ := normalize_low st.ok (by omega) st.hi
        have hk : k = 0 := by
          apply Decidable.of_not_not
          intro hk
          have : 2 ^ 79 * 2 ^ 1 ≤ val v * 2 ^ k :=
            Nat.mul_le_mul hvlo (Nat.pow_le_pow_right (by decide) (by omega))
          omega
        subst hk
        exact ⟨_, Prod.ext rfl (by simpa using ne), nok, by simpa using nval⟩
    obtain ⟨v', hv1, hv2, hv3⟩ := hnorm
    rw [hv1]
    dsimp only
    obtain ⟨r, r3, e1, e2, ok', val'⟩ := ibmAlign_spec 4 (n := 0) (w := val v) (e := e + 1 + 0) hv2
      (by rw [hv3, jamN_zero]) st.hi (by omega)
    rw [Nat.zero_add] at val'
    generalize hal : ibmAlign 4 (e + 1 + 0) v' = al at *
    have hle : jamN (val v) r < 2 ^ 80 + 1 := by
      have h1 : val v / 2 ^ r ≤ val v := Nat.div_le_self _ _
      unfold jamN
      split <;> omega
    obtain ⟨r1, r2, _⟩ := roundOff_spec (bits := m) (by omega) (by omega) ok' (by rw [val']; omega)
    rw [nearest_eq, val', jamN_nearest _ _ (by omega)] at r2
    obtain ⟨t, ht⟩ : ∃ t : Int, e + 1 + r = 4 * t := ⟨(e + 1 + r) / 4, by omega⟩
    have htd : Int.tdiv al.1 4 = t := by
      rw [e1, show e + 1 + 0 + (r : Int) = 4 * t by omega]
      exact Int.mul_tdiv_cancel_left t (by decide)
    rw [htd]
    generalize ha : (e + 16366).toNat = a
    generalize hb : (-(e + 16366)).toNat = b
    have hxe : val v * 2 ^ a = mag80 x * 2 ^ b := st.exact a b (by
      rw [show f80.expBase = 16383 from rfl, show f80.mant = 64 from rfl]; omega)
    have p2 : 2 ^ m * 2 ^ (80 - m + r) = 2 ^ (80 + r) := by rw [← Nat.pow_add]; congr 1; omega
    have p1 : 2 ^ (m - 4) * 2 ^ (80 - m + r) = 2 ^ (76 + r) := by rw [← Nat.pow_add]; congr 1; omega
    have hlo : 2 ^ (m - 4) * 2 ^ (80 - m + r) ≤ val v := by
      rw [p1]
      exact Nat.le_trans (Nat.pow_le_pow_right (by decide) (by omega : 76 + r ≤ 79)) hvlo
    have hhi : val v < 2 ^ m * 2 ^ (80 - m + r) := by
      rw [p2]
      exact Nat.lt_of_lt_of_le hvlt (Nat.pow_le_pow_right (by decide) (by omega))
    obtain ⟨y, y1, y2, y3, y4, y5, y6⟩ := hex_nearest h5 (t := t) hxe (N := 80 - m + r) (by omega) hlo hhi
    have hpow := pow16_carry (by omega) (t := t) y2 (by omega) y3 y4
    generalize nearestDiv (val v) (2 ^ (80 - m + r)) = q at *
    have q80 : 2 ^ m * 2 ^ (80 - m) = 2 ^ 80 := by rw [← Nat.pow_add]; congr 1; omega
    refine ⟨y, y1, fun hnc => ?_, fun hca hl hu => ?_⟩
    · have hq : q < 2 ^ m := by
        refine Nat.lt_of_le_of_ne y4 (fun hq => hnc ⟨y5 hq, hpow.2 (Or.inr hq)⟩)
      have hval : value (roundOff m al.2).1 m = q := by
        have : q * 2 ^ (80 - m) < 2 ^ 80 := by
          rw [← q80]; exact Nat.mul_lt_mul_of_pos_right hq (pos _)
        rw [value_eq r1 m (by omega), r2, Nat.mod_eq_of_lt this, Nat.mul_div_cancel _ (pos _)]
      rw [hval]
      by_cases ho : t ≥ 0x40
      · rw [if_pos ho]
        dsimp only
        rw [if_neg (by omega)]
        obtain ⟨f1, f2, _⟩ := hbits (-0x40 + 0x40) q (by omega) (by omega)
        refine ⟨f1, f2, ?_⟩
        rw [if_pos (pow_le_scaled y2 y3 (by omega))]
      · rw [if_neg ho]
        dsimp only
        have hno : ¬ 2 ^ (16445 + 4 * 63) ≤ y := Nat.not_le.2 (lt_pow_scaled y2 hq (by omega))
        by_cases hu : t < -0x40
        · rw [if_pos hu]
          obtain ⟨f1, f2, _⟩ := hbits (-0x40 + 0x40) 0 (by omega) (by omega)
          refine ⟨f1, f2, ?_⟩
          rw [if_neg hno, if_pos (lt_pow_scaled y2 hq (by omega))]
          exact ⟨rfl, hzero _ (by omega) (by omega)⟩
        · rw [if_neg hu]
          obtain ⟨f1, f2, f3, f4⟩ := hbits (t + 0x40) q (by omega) (by omega)
          rw [Nat.mod_eq_of_lt hq] at f4
          refine ⟨f1, f2, ?_⟩
          rw [if_neg hno, if_neg (Nat.not_lt.2 (pow_le_scaled y2 y3 (by omega)))]
          refine ⟨rfl, ⟨f1, by rw [f4]; exact y3⟩, ?_⟩
          unfold ibmMag
          rw [f3, f4, pow16, Nat.mul_assoc, ← Nat.pow_add]
          exact (eq_scaled y2 (by omega)).symm
    · have hq : q = 2 ^ m := by
        rcases hpow.1 hca.2 with h | h
        · exact absurd (y6 h) (Nat.not_le.2 hca.1)
        · exact h
      have hval : value (roundOff m al.2).1 m = 0 := by
        rw [value_eq r1 m (by omega), r2, hq, q80, Nat.mod_self, Nat.zero_div]
      rw [hval]
      have t1 : ¬ t ≥ 0x40 := by
        intro h
        have : 2 ^ (16445 + 4 * 63 + 1) ≤ y := pow_le_scaled y2 (Nat.le_of_eq hq.symm) (by omega)
        have h2 : 2 ^ (16445 + 4 * 63) < 2 ^ (16445 + 4 * 63 + 1) := Nat.pow_lt_pow_right (by decide) (by omega)
        exact absurd (Nat.le_trans this hu) (Nat.not_le.2 h2)
      have t2 : ¬ t < -0x40 := by
        intro h
        have : y < 2 ^ (16445 - 4 * 64) := by
          refine lt_pow_scaled (u := m + 1) y2 ?_ (by omega)
          rw [hq]
          exact Nat.pow_lt_pow_right (by decide) (by omega)
        exact absurd hl (Nat.not_le.2 this)
      rw [if_neg t1]
      dsimp only
      rw [if_neg t2]
      exact ⟨rfl, hzero _ (by omega) (by omega)⟩

/-! ### Back to 80-bit numbers -/

set_option linter.constructorNameAsVariable false in
theorem compose_exact (neg : Bool) {v : Words} {e : Int} {y a c : Nat} (ok : Ok v)
    (h0 : val v ≠ 0) (h95 : val v < 2 ^ 95) (h : val v * 2 ^ a = y * 2 ^ c)
    (hac : (a : Int) - c = e + 16366) (hrep : Rep 64 y) (hlt : y < 2 ^ 20000) :
    Finite80 (F80.compose neg e v) ∧ sign80 (F80.compose neg e v) = neg ∧
    mag80 (F80.compose neg e v) = y := by
  obtain ⟨z, h1, h2⟩ := composeParts_spec good80 ok h0 h95 (w := val v) (n := 0) (jamN_zero _).symm
    (Or.inl rfl) e (a := a) (b := c) (by
      rw [show f80.expBase = 16383 from rfl, show f80.mant = 64 from rfl]; omega)
  have hz : z = y := IsNearest.exact h1 (Nat.pow_pos (by decide)) hrep h.symm
  subst hz
  obtain ⟨c1, c2⟩ := compose80_spec neg h2
  have hl : z < limit f80 := by
    refine Nat.lt_of_lt_of_le hlt ?_
    unfold limit
    rw [← Nat.pow_add]
    exact Nat.pow_le_pow_right (by decide) (by decide)
  rw [if_pos hl] at c2
  exact ⟨c2.1, c1, c2.2⟩

theorem sign_bit {n t : Nat} (h : t < 2 * n) : decide (t / n % 2 = 1) = decide (t / n = 1) := by
  have : t / n < 2 := Nat.div_lt_of_lt_mul (by rw [Nat.mul_comm]; exact h)
  rw [Nat.mod_eq_of_lt this]

theorem tag_lt {m b k : Nat} (hk : k ≤ m + 8) (h : b < 2 ^ (m + 8)) : b / 2 ^ k < 2 ^ (m + 8 - k) := by
  rw [Nat.div_lt_iff_lt_mul (Nat.pow_pos (by decide)), ← Nat.pow_add]
  rw [show m + 8 - k + k = m + 8 by omega]
  exact h

theorem zero_spec (neg : Bool) : Finite80 (F80.zero neg) ∧ sign80 (F80.zero neg) = neg ∧
    mag80 (F80.zero neg) = 0 := by
  obtain ⟨a, b, c, d⟩ := bits_fields neg (e := 0) (s := 0) (Nat.zero_le _)
  refine ⟨⟨a, by dsimp only [F80.zero]; rw [c]; decide, by dsimp only [F80.zero]; rw [b]; decide,
    by dsimp only [F80.zero]; rw [b, c]; decide⟩, d, ?_⟩
  unfold mag80 F80.zero
  rw [c, Nat.zero_mul]

set_option linter.constructorNameAsVariable false in
theorem decGet_spec {m b : Nat} (h2 : 2 ≤ m) (h56 : m ≤ 56) (hb : b < 2 ^ (m + 8)) :
    Finite80 (decGet m b) ∧ sign80 (decGet m b) = decSign m b ∧ mag80 (decGet m b) = decMag m b := by
  have pos : ∀ n, 0 < 2 ^ n := fun n => Nat.pow_pos (by decide)
  have ht : b / 2 ^ (m - 1) < 512 := by
    have := tag_lt (k := m - 1) (by omega) hb
    rwa [show m + 8 - (m - 1) = 9 by omega] at this
  have hsign : decide (b / 2 ^ (m - 1) / 0o400 % 2 = 1) = decSign m b := sign_bit (by omega)
  unfold decGet decMag
  dsimp only
  rw [hsign, show b / 2 ^ (m - 1) % 0o400 = decExp m b from rfl]
  by_cases h0 : decExp m b = 0
  · rw [if_pos h0, if_pos h0]
    exact zero_spec _
  · rw [if_neg h0, if_neg h0]
    have hfr := Nat.mod_lt b (pos (m - 1))
    have hm1 : 2 ^ m = 2 ^ (m - 1) * 2 := by rw [← Nat.pow_succ]; congr 1; omega
    have hexp : decExp m b < 256 := Nat.mod_lt _ (by decide)
    rw [Nat.add_comm (b % 2 ^ (m - 1))]
    generalize hF : 2 ^ (m - 1) + b % 2 ^ (m - 1) = F
    have f0 : 2 ^ (m - 1) ≤ F := by omega
    have f1 : F < 2 ^ m := by omega
    have p : 2 ^ m * 2 ^ (64 - m) = 2 ^ 64 := by rw [← Nat.pow_add]; congr 1; omega
    have hlt : F * 2 ^ (64 - m) < 2 ^ 64 := by
      rw [← p]; exact Nat.mul_lt_mul_of_pos_right f1 (pos _)
    have hval := val_set hlt (show 0 < 65536 by decide)
    have hp : 0 < F * 2 ^ (64 - m) := Nat.mul_pos (by have := pos (m - 1); omega) (pos _)
    have hv80 : val (set (F * 2 ^ (64 - m)) 0) = F * 2 ^ (80 - m) := by
      rw [hval, show 65536 = 2 ^ 16 from rfl, Nat.add_zero, Nat.mul_assoc, ← Nat.pow_add]
      congr 2
      omega
    refine compose_exact _ (set_ok _ _) (by rw [hval]; omega) (by rw [hval]; omega)
      (a := (decExp m b + 16237)) (c := 0) ?_ (by omega) ?_ ?_
    · rw [hv80, Nat.pow_zero, Nat.mul_one, Nat.mul_assoc, Nat.mul_assoc, ← Nat.pow_add, ← Nat.pow_add]
      congr 2
      omega
    · refine ⟨F, decExp m b + (16445 - 128 - m), ?_, ?_⟩
      · exact Nat.lt_of_lt_of_le f1 (Nat.pow_le_pow_right (by decide) (by omega))
      · rw [Nat.pow_add, Nat.mul_assoc]
    · calc F * 2 ^ decExp m b * 2 ^ (16445 - 128 - m) = F * 2 ^ (decExp m b + (16445 - 128 - m)) := by
            rw [Nat.pow_add, Nat.mul_assoc]
        _ < 2 ^ m * 2 ^ (decExp m b + (16445 - 128 - m)) := Nat.mul_lt_mul_of_pos_right f1 (pos _)
        _ = 2 ^ (m + (decExp m b + (16445 - 128 - m))) := (Nat.pow_add ..).symm
        _ ≤ 2 ^ 20000 := Nat.pow_le_pow_right (by decide) (by omega)

set_option linter.constructorNameAsVariable false in
theorem ibmGet_spec {m b : Nat} (h2 : 2 ≤ m) (h56 : m ≤ 56) (hb : b < 2 ^ (m + 8)) :
    Finite80 (ibmGet m b) ∧ sign80 (ibmGet m b) = ibmSign m b ∧ mag80 (ibmGet m b) = ibmMag m b := by
  have pos : ∀ n, 0 < 2 ^ n := fun n => Nat.pow_pos (by decide)
  have ht : b / 2 ^ m < 256 := by
    have := tag_lt (k := m) (by omega) hb
    rwa [show m + 8 - m = 8 by omega] at this
  have hsign : decide (b / 2 ^ m / 0x80 % 2 = 1) = ibmSign m b := sign_bit (by omega)
  have hexp : ibmExp m b < 128 := Nat.mod_lt _ (by decide)
  have f1 : b % 2 ^ m < 2 ^ m := Nat.mod_lt _ (pos m)
  unfold ibmGet ibmMag
  dsimp only
  rw [hsign, show b / 2 ^ m % 0x80 = ibmExp m b from rfl]
  generalize b % 2 ^ m = F at *
  generalize ibmExp m b = E at *
  by_cases h0 : E = 0 ∧ F = 0
  · rw [if_pos h0, h0.2, Nat.zero_mul, Nat.zero_mul]
    exact zero_spec _
  · rw [if_neg h0]
    have p : 2 ^ m * 2 ^ (64 - m) = 2 ^ 64 := by rw [← Nat.pow_add]; congr 1; omega
    have hlt : F * 2 ^ (64 - m) < 2 ^ 64 := by
      rw [← p]; exact Nat.mul_lt_mul_of_pos_right f1 (pos _)
    have hval := val_set hlt (show 0 < 65536 by decide)
    have hok := set_ok (F * 2 ^ (64 - m)) 0
    have hv80 : val (set (F * 2 ^ (64 - m)) 0) = F * 2 ^ (80 - m) := by
      rw [hval, show 65536 = 2 ^ 16 from rfl, Nat.add_zero, Nat.mul_assoc, ← Nat.pow_add]
      congr 2
      omega
    generalize set (F * 2 ^ (64 - m)) 0 = sv at *
    by_cases hF : F = 0
    · have hz : val sv = 0 := by rw [hval, hF, Nat.zero_mul]
      rw [normalize_zero hok hz, hF, Nat.zero_mul, Nat.zero_mul]
      have hp : PartsAre f80 0 (composeParts f80 (((E : Int) - 0x40) * 4 - 1 + 0) sv) := by
        rw [composeParts_zero good80 hok hz (by rw [show f80.expBase = 16383 from rfl]; omega)]
        rfl
      obtain ⟨c1, c2⟩ := compose80_spec (ibmSign m b) hp
      rw [if_pos (by unfold limit; exact Nat.mul_pos (pos _) (pos _))] at c2
      exact ⟨c2.1, c1, c2.2⟩
    · have hp : 0 < F * 2 ^ (64 - m) := Nat.mul_pos (by omega) (pos _)
      obtain ⟨k, k80, nok, ne, nval, nlo, nhi⟩ := normalize_low hok
        (by rw [hval]; omega) (by rw [hval]; omega)
      rw [ne]
      refine compose_exact _ nok (by rw [nval]; omega) (by rw [nval]; omega)
        (a := 4 * E + 16365 - 256 - k) (c := 0) ?_ (by omega) ?_ ?_
      · rw [nval, hv80, pow16, Nat.pow_zero, Nat.mul_one, Nat.mul_assoc, Nat.mul_assoc, Nat.mul_assoc,
          ← Nat.pow_add, ← Nat.pow_add, ← Nat.pow_add]
        congr 2
        omega
      · refine ⟨F, 4 * E + (16445 - 4 * 64 - m), ?_, ?_⟩
        · exact Nat.lt_of_lt_of_le f1 (Nat.pow_le_pow_right (by decide) (by omega))
        · rw [Nat.pow_add, Nat.mul_assoc, pow16]
      · calc F * 16 ^ E * 2 ^ (16445 - 4 * 64 - m) = F * 2 ^ (4 * E + (16445 - 4 * 64 - m)) := by
              rw [Nat.pow_add, Nat.mul_assoc, pow16]
          _ < 2 ^ m * 2 ^ (4 * E + (16445 - 4 * 64 - m)) := Nat.mul_lt_mul_of_pos_right f1 (pos _)
          _ = 2 ^ (m + (4 * E + (16445 - 4 * 64 - m))) := (Nat.pow_add ..).symm
          _ ≤ 2 ^ 20000 := Nat.pow_le_pow_right (by decide) (by omega)

/-! ### A number has one normalized pattern -/

theorem scaled_unique {l s s' i j : Nat} (d : Nat) (h1 : s < 2 ^ (l + d))
    (g0 : 2 ^ l ≤ s') (h : s * 2 ^ (d * i) = s' * 2 ^ (d * j)) : ¬ i < j := by
  intro hij
  have : s < 2 ^ l * 2 ^ d := by rw [← Nat.pow_add]; exact h1
  have hj : d * j = d * i + (d + d * (j - i - 1)) := by
    rw [show j = i + (1 + (j - i - 1)) by omega, Nat.mul_add, Nat.mul_add, Nat.mul_one]
    congr 3
    omega
  have : 2 ^ l * 2 ^ d * 2 ^ (d * i) ≤ s' * 2 ^ (d * j) := by
    rw [hj, Nat.pow_add, Nat.pow_add, Nat.mul_comm (2 ^ (d * i)), ← Nat.mul_assoc, ← Nat.mul_assoc]
    refine Nat.mul_le_mul_right _ ?_
    calc 2 ^ l * 2 ^ d ≤ s' * 2 ^ d := Nat.mul_le_mul_right _ g0
      _ = s' * 2 ^ d * 1 := by rw [Nat.mul_one]
      _ ≤ s' * 2 ^ d * 2 ^ (d * (j - i - 1)) := Nat.mul_le_mul_left _ (Nat.pow_pos (by decide))
  have h3 : s * 2 ^ (d * i) < 2 ^ l * 2 ^ d * 2 ^ (d * i) :=
    Nat.mul_lt_mul_of_pos_right (by assumption) (Nat.pow_pos (by decide))
  omega

theorem tag_ext {P n a b : Nat} (hn : 0 < n) (ha : a / P < 2 * n) (hb : b / P < 2 * n)
    (h1 : decide (a / P / n = 1) = decide (b / P / n = 1)) (h2 : a / P % n = b / P % n)
    (h3 : a % P = b % P) : a = b := by
  have q : ∀ t, t < 2 * n → t / n < 2 := fun t h => (Nat.div_lt_iff_lt_mul hn).2 h
  have qa := q _ ha
  have qb := q _ hb
  have hq : a / P / n = b / P / n := by
    have := of_decide_eq_true (p := (a / P / n = 1 ↔ b / P / n = 1)) (by
      by_cases h : a / P / n = 1
      · rw [decide_eq_true h] at h1; exact decide_eq_true ⟨fun _ => of_decide_eq_true h1.symm, fun _ => h⟩
      · rw [decide_eq_false h] at h1; exact decide_eq_true ⟨fun h' => absurd h' h, fun h' => absurd h' (of_decide_eq_false h1.symm)⟩)
    generalize a / P / n = u at *
    generalize b / P / n = w at *
    omega
  have ht : a / P = b / P := by rw [← Nat.div_add_mod (a / P) n, hq, h2, Nat.div_add_mod]
  rw [← Nat.div_add_mod a P, ht, h3, Nat.div_add_mod]

theorem dec_ext {m a b : Nat} (hm : 1 ≤ m) (ha : a < 2 ^ (m + 8)) (hb : b < 2 ^ (m + 8))
    (hs : decSign m a = decSign m b) (hne : decMag m b ≠ 0) (h : decMag m a = decMag m b) : a = b := by
  have pos : ∀ n, 0 < 2 ^ n := fun n => Nat.pow_pos (by decide)
  have hm1 : 2 ^ (m - 1 + 1) = 2 ^ (m - 1) * 2 := Nat.pow_succ ..
  have ht : ∀ c, c < 2 ^ (m + 8) → c / 2 ^ (m - 1) < 2 * 256 := by
    intro c hc
    have := tag_lt (k := m - 1) (by omega) hc
    rwa [show m + 8 - (m - 1) = 9 by omega] at this
  have hea : decExp m a ≠ 0 := by
    intro hz
    apply hne
    rw [← h]
    unfold decMag
    rw [if_pos hz]
  have heb : decExp m b ≠ 0 := by
    intro hz
    apply hne
    unfold decMag
    rw [if_pos hz]
  unfold decMag at h
  rw [if_neg hea, if_neg heb] at h
  have h := Nat.eq_of_mul_eq_mul_right (pos _) h
  have fa := Nat.mod_lt a (pos (m - 1))
  have fb := Nat.mod_lt b (pos (m - 1))
  have u1 := scaled_unique 1 (l := m - 1) (s := 2 ^ (m - 1) + a % 2 ^ (m - 1))
    (s' := 2 ^ (m - 1) + b % 2 ^ (m - 1)) (i := decExp m a) (j := decExp m b)
    (by omega) (by omega) (by rw [Nat.one_mul, Nat.one_mul]; exact h)
  have u2 := scaled_unique 1 (l := m - 1) (s := 2 ^ (m - 1) + b % 2 ^ (m - 1))
    (s' := 2 ^ (m - 1) + a % 2 ^ (m - 1)) (i := decExp m b) (j := decExp m a)
    (by omega) (by omega) (by rw [Nat.one_mul, Nat.one_mul]; exact h.symm)
  have he : decExp m a = decExp m b := by omega
  rw [he] at h
  have h := Nat.eq_of_mul_eq_mul_right (pos _) h
  exact tag_ext (P := 2 ^ (m - 1)) (n := 256) (by decide) (ht a ha) (ht b hb) hs he (by omega)

theorem ibm_ext {m a b : Nat} (hm : 4 ≤ m) (ha : IbmNormal m a) (hb : IbmNormal m b)
    (hs : ibmSign m a = ibmSign m b) (h : ibmMag m a = ibmMag m b) : a = b := by
  have pos : ∀ n, 0 < 2 ^ n := fun n => Nat.pow_pos (by decide)
  have ht : ∀ c, c < 2 ^ (m + 8) → c / 2 ^ m < 2 * 128 := by
    intro c hc
    have := tag_lt (k := m) (by omega) hc
    rwa [show m + 8 - m = 8 by omega] at this
  have fa := Nat.mod_lt a (pos m)
  have fb := Nat.mod_lt b (pos m)
  have e4 : m - 4 + 4 = m := by omega
  unfold ibmMag at h
  have h := Nat.eq_of_mul_eq_mul_right (pos _) h
  rw [pow16, pow16] at h
  have u1 := scaled_unique 4 (l := m - 4) (by rw [e4]; exact fa) hb.2 h
  have u2 := scaled_unique 4 (l := m - 4) (by rw [e4]; exact fb) ha.2 h.symm
  have he : ibmExp m a = ibmExp m b := by omega
  rw [he] at h
  have h := Nat.eq_of_mul_eq_mul_right (pos _) h
  exact tag_ext (P := 2 ^ m) (n := 128) (by decide) (ht a ha.1) (ht b hb.1) hs he h

end Libasm.Float
