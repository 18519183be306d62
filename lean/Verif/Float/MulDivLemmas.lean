import Mathlib.Tactic.Ring
import Mathlib.Tactic.Linarith
import Verif.Float.MulDiv
import Verif.Float.Add
/-
Multiword multiplication and division: lemmas for C57 and C59.
-/
namespace Libasm.Float
open Spec

/-! ### Multiplication -/

theorem mulRow_spec {vj : Nat} (hv : vj < 65536) : ∀ (k : Nat) (u w : Words), k < 65536 → Small u →
    Small w → u.length = w.length → Small (mulRow vj k u w) ∧
    (mulRow vj k u w).length = u.length + 1 ∧ val (mulRow vj k u w) = val u * vj + val w + k
  | k, [], [], hk, _, _, _ => ⟨small_cons hk (by intro x hx; cases hx), rfl, by simp [mulRow, val]⟩
  | k, [], _ :: _, _, _, _, h => by simp at h
  | k, _ :: _, [], _, _, _, h => by simp at h
  | k, u :: us, w :: ws, hk, hu, hw, h => by
    have u1 := hu.cons.1
    have w1 := hw.cons.1
    have hm : u * vj ≤ 65535 * 65535 := Nat.mul_le_mul (by omega) (by omega)
    have ht : (u * vj + w + k) / 65536 < 65536 := by
      generalize u * vj = m at *
      omega
    obtain ⟨i1, i2, i3⟩ := mulRow_spec hv ((u * vj + w + k) / 65536) us ws ht hu.cons.2 hw.cons.2
      (by simpa using h)
    unfold mulRow
    refine ⟨small_cons (Nat.mod_lt _ (by decide)) i1, by simp [i2], ?_⟩
    simp only [val, i3]
    have := Nat.mod_add_div (u * vj + w + k) 65536
    generalize (u * vj + w + k) % 65536 = r at *
    generalize (u * vj + w + k) / 65536 = q at *
    rw [Nat.add_mul, Nat.mul_assoc]
    generalize u * vj = m at *
    generalize val us * vj = m' at *
    omega

theorem mulWords_spec {u : Words} (hu : Small u) : ∀ (v w : Words), Small v → Small w →
    u.length = w.length → Small (mulWords u v w) ∧
    (mulWords u v w).length = u.length + v.length ∧ val (mulWords u v w) = val u * val v + val w
  | [], w, _, hw, h => ⟨hw, by simp [mulWords, h], by simp [mulWords, val]⟩
  | vj :: vs, w, hv, hw, h => by
    obtain ⟨r1, r2, r3⟩ := mulRow_spec hv.cons.1 0 u w (by decide) hu hw h
    unfold mulWords
    match hm : mulRow vj 0 u w, r1, r2, r3 with
    | [], _, r2, _ => simp at r2
    | w0 :: ws, r1, r2, r3 =>
      obtain ⟨i1, i2, i3⟩ := mulWords_spec hu vs ws hv.cons.2 r1.cons.2 (by simpa using r2.symm)
      refine ⟨small_cons r1.cons.1 i1, by simp [i2]; omega, ?_⟩
      simp only [val] at r3 ⊢
      rw [i3]
      linarith

/-- `mul` is the product of the 80-bit numbers without the lowest 64 bits, shifted by 15. -/
theorem mul_spec {v w : Words} (hv : Ok v) (hw : Ok w) (hv80 : val v < 2 ^ 80) (hw80 : val w < 2 ^ 80) :
    Ok (mul v w) ∧ val (mul v w) = jamN (val v * val w / 2 ^ 64) 15 := by
  have tv : val (v.take 5) = val v := by
    rw [val_take hv.2]
    exact Nat.mod_eq_of_lt hv80
  have tw : val (w.take 5) = val w := by
    rw [val_take hw.2]
    exact Nat.mod_eq_of_lt hw80
  have z : Small (List.replicate 5 0) := by
    intro x hx
    rw [List.eq_of_mem_replicate hx]
    decide
  obtain ⟨m1, m2, m3⟩ := mulWords_spec (small_take hv.2 5) (w.take 5) (List.replicate 5 0)
    (small_take hw.2 5) z (by simp [hv.1])
  rw [val_zeros, tv, tw, Nat.add_zero] at m3
  have l1 : (v.take 5).length = 5 := by simp [hv.1]
  have l2 : (w.take 5).length = 5 := by simp [hw.1]
  rw [l1, l2] at m2
  have ok : Ok ((mulWords (v.take 5) (w.take 5) (List.replicate 5 0)).drop 4) :=
    ⟨by rw [List.length_drop, m2], small_drop m1 4⟩
  have hval : val ((mulWords (v.take 5) (w.take 5) (List.replicate 5 0)).drop 4) =
      val v * val w / 2 ^ 64 := by
    rw [val_drop m1, m3]
    rfl
  unfold mul
  generalize (mulWords (v.take 5) (w.take 5) (List.replicate 5 0)).drop 4 = p at *
  obtain ⟨s1, s2⟩ := shiftRight_spec 15 false ok
  refine ⟨s1, ?_⟩
  have e : ∀ x : Words, sval (if (false && negative p) = true then 65535 else 0) x = val x := by
    intro x
    simp [sval]
  rw [e, e, jam_nat, hval] at s2
  exact_mod_cast s2

/-! ### Division -/

/-- `qhat` at the end of the loop is the digit or one more. `U` is the window, `V` the divisor. -/
theorem fixQhat_spec {u5 u4 u3 U2 v4 v3 V2 U V q B3 : Nat}
    (hU : U = ((u5 * 65536 + u4) * 65536 + u3) * B3 + U2) (hU2 : U2 < B3)
    (hV : V = (v4 * 65536 + v3) * B3 + V2) (hV2 : V2 < B3) (hv3 : v3 < 65536) (hu3 : u3 < 65536)
    (hv4 : 32768 ≤ v4) (hq : q * V ≤ U) (hq1 : U < (q + 1) * V) (hqb : q < 65536) :
    ∀ (fuel qhat rhat : Nat), qhat * v4 + rhat = u5 * 65536 + u4 → q ≤ qhat → qhat ≤ 65537 →
      65536 ≤ fuel + rhat →
      rhat < 65536 →
      q ≤ fixQhat v4 v3 u3 fuel qhat rhat ∧ fixQhat v4 v3 u3 fuel qhat rhat ≤ q + 1 ∧
        fixQhat v4 v3 u3 fuel qhat rhat < 65536
  | 0, qhat, rhat, h1, h2, h3, h4, h5 => by omega
  | fuel + 1, qhat, rhat, h1, h2, h3, h4, h5 => by
    have hB : 0 < B3 := by omega
    unfold fixQhat
    by_cases hc : qhat ≥ 65536 ∨ qhat * v3 > rhat * 65536 + u3
    · rw [if_pos hc]
      have hlt : q + 1 ≤ qhat := by
        rcases hc with hc | hc
        · omega
        · by_contra hcon
          have e : q = qhat := by omega
          subst e
          -- qhat * V > U
          have : (((u5 * 65536 + u4) * 65536 + u3) + 1) * B3 ≤ q * (v4 * 65536 + v3) * B3 := by
            apply Nat.mul_le_mul_right
            rw [← h1]
            nlinarith
          have h6 : q * V = q * (v4 * 65536 + v3) * B3 + q * V2 := by rw [hV]; ring
          have h7 : (((u5 * 65536 + u4) * 65536 + u3) + 1) * B3 =
            ((u5 * 65536 + u4) * 65536 + u3) * B3 + B3 := by ring
          omega
      obtain ⟨p, rfl⟩ : ∃ p, qhat = p + 1 := ⟨qhat - 1, by omega⟩
      have hp : p * v4 + (rhat + v4) = u5 * 65536 + u4 := by rw [← h1]; ring
      rw [Nat.add_sub_cancel]
      by_cases hr : rhat + v4 ≥ 65536
      · rw [if_pos hr]
        -- p * V ≤ U
        have hpb : p ≤ 65536 := by omega
        have hle : p * V ≤ U := by
          have a1 : p * V = p * v4 * 65536 * B3 + p * (v3 * B3 + V2) := by rw [hV]; ring
          have a2 : v3 * B3 + V2 ≤ 65536 * B3 := by nlinarith
          have a3 : p * (v3 * B3 + V2) ≤ 65536 * (65536 * B3) := Nat.mul_le_mul hpb a2
          have a4 : (p * v4 + 65536) * (65536 * B3) ≤ (u5 * 65536 + u4) * (65536 * B3) :=
            Nat.mul_le_mul_right _ (by omega)
          have a5 : U = (u5 * 65536 + u4) * (65536 * B3) + (u3 * B3 + U2) := by rw [hU]; ring
          have a6 : (p * v4 + 65536) * (65536 * B3) = p * v4 * 65536 * B3 + 65536 * (65536 * B3) := by ring
          omega
        have hle2 : p ≤ q := by
          by_contra hcon
          have : (q + 1) * V ≤ p * V := Nat.mul_le_mul_right _ (by omega)
          omega
        omega
      · rw [if_neg hr]
        exact fixQhat_spec hU hU2 hV hV2 hv3 hu3 hv4 hq hq1 hqb fuel p (rhat + v4) hp (by omega)
          (by omega) (by omega) (by omega)
    · rw [if_neg hc]
      have hc1 : qhat < 65536 := by omega
      have hc2 : qhat * v3 ≤ rhat * 65536 + u3 := by omega
      refine ⟨h2, ?_, hc1⟩
      by_contra hcon
      -- qhat - 1 ≥ q + 1
      obtain ⟨p, rfl⟩ : ∃ p, qhat = p + 1 := ⟨qhat - 1, by omega⟩
      have h6 : (q + 1) * V ≤ p * V := Nat.mul_le_mul_right _ (by omega)
      have a1 : (p + 1) * V = (p + 1) * (v4 * 65536 + v3) * B3 + (p + 1) * V2 := by rw [hV]; ring
      have a2 : (p + 1) * (v4 * 65536 + v3) * B3 ≤ ((u5 * 65536 + u4) * 65536 + u3) * B3 := by
        apply Nat.mul_le_mul_right
        rw [← h1]
        nlinarith
      have a3 : (p + 1) * V2 ≤ 65536 * B3 := Nat.mul_le_mul (by omega) (by omega)
      have a4 : 65536 * B3 ≤ V := by
        rw [hV]
        have : 65536 * B3 ≤ (v4 * 65536 + v3) * B3 := Nat.mul_le_mul_right _ (by omega)
        omega
      have a5 : (p + 1) * V = p * V + V := by ring
      omega

theorem subMul_spec {qhat : Nat} (hq : qhat < 65536) : ∀ (k : Nat) (u v : Words), k < 65536 →
    Small u → Small v → u.length = v.length →
    Small (subMul qhat k u v).1 ∧ (subMul qhat k u v).1.length = u.length ∧
    (subMul qhat k u v).2 < 65536 ∧
    (val (subMul qhat k u v).1 : Int) =
      val u - qhat * val v - k + 65536 ^ u.length * (subMul qhat k u v).2
  | k, [], [], hk, _, _, _ => ⟨(by intro x hx; cases hx), rfl, hk, by simp [subMul, val]⟩
  | k, [], _ :: _, _, _, _, h => by simp at h
  | k, _ :: _, [], _, _, _, h => by simp at h
  | k, u :: us, v :: vs, hk, hu, hv, h => by
    have u1 := hu.cons.1
    have v1 := hv.cons.1
    have hm : qhat * v ≤ 65535 * 65535 := Nat.mul_le_mul (by omega) (by omega)
    unfold subMul
    dsimp only
    generalize hp : qhat * v = p at *
    generalize ht : ((u : Int) - k - (p % 65536 : Nat)) = t
    generalize hk' : (((p / 65536 : Nat) - t / 65536) % 65536).toNat = k'
    have kb : k' < 65536 := by omega
    have ke : (k' : Int) = (p / 65536 : Nat) - t / 65536 := by omega
    obtain ⟨i1, i2, i3, i4⟩ := subMul_spec hq k' us vs kb hu.cons.2 hv.cons.2 (by simpa using h)
    refine ⟨small_cons (by omega) i1, by simp [i2], i3, ?_⟩
    have e1 : ((t % 65536).toNat : Int) = t % 65536 := by omega
    have e2 : ((qhat : Int) * v) = p := by rw [← hp]; push_cast; rfl
    simp only [val, List.length_cons, Nat.cast_add, Nat.cast_mul, Nat.cast_ofNat, i4, e1, pow_succ]
    have e3 : t % 65536 + 65536 * (t / 65536) = t := Int.emod_add_mul_ediv t 65536
    have e4 : ((p % 65536 : Nat) : Int) + 65536 * (p / 65536 : Nat) = p := by omega
    have e5 : (qhat : Int) * (v + 65536 * val vs) = p + 65536 * (qhat * val vs) := by rw [← e2]; ring
    rw [e5]
    generalize (qhat : Int) * val vs = m at *
    generalize (subMul qhat k' us vs).2 = kk at *
    generalize (65536 : Int) ^ us.length = P at *
    have e6 : P * 65536 * (kk : Int) = 65536 * (P * kk) := by ring
    rw [e6]
    generalize P * (kk : Int) = n at *
    omega

theorem addBack_spec : ∀ (k : Nat) (u v : Words), k ≤ 1 → Small u → Small v → u.length = v.length →
    Small (addBack k u v).1 ∧ (addBack k u v).1.length = u.length ∧ (addBack k u v).2 ≤ 1 ∧
    val (addBack k u v).1 + 65536 ^ u.length * (addBack k u v).2 = val u + val v + k
  | k, [], [], hk, _, _, _ => ⟨(by intro x hx; cases hx), rfl, hk, by simp [addBack, val]⟩
  | k, [], _ :: _, _, _, _, h => by simp at h
  | k, _ :: _, [], _, _, _, h => by simp at h
  | k, u :: us, v :: vs, hk, hu, hv, h => by
    have u1 := hu.cons.1
    have v1 := hv.cons.1
    obtain ⟨i1, i2, i3, i4⟩ := addBack_spec ((u + v + k) / 65536) us vs (by omega) hu.cons.2 hv.cons.2
      (by simpa using h)
    unfold addBack
    dsimp only
    refine ⟨small_cons (by omega) i1, by simp [i2], i3, ?_⟩
    simp only [val, List.length_cons, pow_succ]
    generalize (addBack ((u + v + k) / 65536) us vs).2 = kk at *
    generalize 65536 ^ us.length = P at *
    have e6 : P * 65536 * kk = 65536 * (P * kk) := by ring
    rw [e6]
    generalize P * kk = n at *
    omega

theorem val_top {v : Words} (hl : v.length = 5) (hs : Small v) :
    val v = (word v 4 * 65536 + word v 3) * 65536 ^ 3 + val v % 65536 ^ 3 := by
  rw [word_eq hs, word_eq hs]
  have := val_lt hs
  rw [hl] at this
  omega

theorem top_le {v : Words} (hv : Small v) : word v 4 * 65536 ^ 4 ≤ val v := by
  rw [word_eq hv]
  exact Nat.le_trans (Nat.mul_le_mul_right _ (Nat.mod_le _ _)) (Nat.div_mul_le_self _ _)

theorem top_gt {u : Words} (hu : Ok u) : val u < (word u 5 * 65536 + word u 4 + 1) * 65536 ^ 4 := by
  have h : val u < 65536 ^ 6 := hu.lt
  rw [word_eq hu.2, word_eq hu.2]
  have h1 : val u / 65536 ^ 4 < 65536 ^ 2 := by
    rw [Nat.div_lt_iff_lt_mul (by decide)]
    exact h
  have h2 : val u / 65536 ^ 5 = val u / 65536 ^ 4 / 65536 := by
    rw [Nat.div_div_eq_div_mul]
    rfl
  have h3 : val u / 65536 ^ 5 % 65536 * 65536 + val u / 65536 ^ 4 % 65536 = val u / 65536 ^ 4 := by
    rw [h2]
    generalize val u / 65536 ^ 4 = x at *
    omega
  rw [h3, Nat.mul_comm]
  exact Nat.lt_mul_div_succ _ (by decide)

theorem qhat_ge {q V U a c B : Nat} (h1 : q * V ≤ U) (h2 : a * B ≤ V) (h3 : U < (c + 1) * B) :
    q * a ≤ c := by
  by_contra hcon
  have h4 : (c + 1) * B ≤ q * a * B := Nat.mul_le_mul_right _ (by omega)
  have h5 : q * (a * B) ≤ q * V := Nat.mul_le_mul_left q h2
  rw [← Nat.mul_assoc] at h5
  omega

/-- One step of Algorithm D: the digit is the quotient, what is left is the remainder. -/
theorem divStep_spec {u v : Words} (hu : Ok u) (lv : v.length = 5) (hv : Small v)
    (hn : 32768 ≤ word v 4) (hlt : val u < val v * 65536) :
    (divStep u v).1 = val u / val v ∧ Ok (divStep u v).2 ∧ val (divStep u v).2 = val u % val v := by
  have hV := val_top lv hv
  have hv4 : word v 4 < 65536 := by rw [word_eq hv]; omega
  have hv3 : word v 3 < 65536 := by rw [word_eq hv]; omega
  have hVlt : val v < 65536 ^ 5 := by have := val_lt hv; rwa [lv] at this
  have hUlt := hu.lt
  have hu5 : word u 5 < 65536 := by rw [word_eq hu.2]; omega
  have hu4 : word u 4 < 65536 := by rw [word_eq hu.2]; omega
  have hu3 : word u 3 < 65536 := by rw [word_eq hu.2]; omega
  have hU : val u = ((word u 5 * 65536 + word u 4) * 65536 + word u 3) * 65536 ^ 3 + val u % 65536 ^ 3 := by
    rw [word_eq hu.2, word_eq hu.2, word_eq hu.2]
    omega
  have hU5 : val u = val (u.take 5) + 65536 ^ 5 * word u 5 := by
    rw [val_take hu.2, word_eq hu.2]
    omega
  have hVpos : 0 < val v := by omega
  have hq := Nat.div_mul_le_self (val u) (val v)
  have hq1 : val u < (val u / val v + 1) * val v := by
    rw [Nat.add_mul, Nat.one_mul, Nat.mul_comm]
    have := Nat.mod_add_div (val u) (val v)
    have := Nat.mod_lt (val u) hVpos
    omega
  have hqb : val u / val v < 65536 := by
    rw [Nat.div_lt_iff_lt_mul hVpos, Nat.mul_comm]
    exact hlt
  have hmod := Nat.mod_add_div (val u) (val v)
  have hmlt := Nat.mod_lt (val u) hVpos
  have hu54 : word u 5 ≤ word v 4 := by
    by_contra hcon
    omega
  generalize hqd : val u / val v = q at *
  generalize hrd : val u % val v = r at *
  unfold divStep
  dsimp only
  have hd := Nat.mod_add_div (word u 5 * 65536 + word u 4) (word v 4)
  have hdl := Nat.mod_lt (word u 5 * 65536 + word u 4) (show 0 < word v 4 by omega)
  have hqh : q ≤ (word u 5 * 65536 + word u 4) / word v 4 := by
    rw [Nat.le_div_iff_mul_le (by omega)]
    exact qhat_ge hq (top_le hv) (top_gt hu)
  have hqh2 : (word u 5 * 65536 + word u 4) / word v 4 ≤ 65537 := by
    rw [Nat.div_le_iff_le_mul_add_pred (by omega)]
    omega
  have hfix := fixQhat_spec (q := q) hU (Nat.mod_lt _ (by decide)) hV (Nat.mod_lt _ (by decide)) hv3 hu3 hn
    hq hq1 hqb 65536 ((word u 5 * 65536 + word u 4) / word v 4)
    (word u 5 * 65536 + word u 4 - (word u 5 * 65536 + word u 4) / word v 4 * word v 4)
    (by have := Nat.div_mul_le_self (word u 5 * 65536 + word u 4) (word v 4); omega) hqh hqh2 (by omega)
    (by rw [Nat.mul_comm (word v 4)] at hd; omega)
  generalize fixQhat (word v 4) (word v 3) (word u 3) 65536 ((word u 5 * 65536 + word u 4) / word v 4)
    (word u 5 * 65536 + word u 4 - (word u 5 * 65536 + word u 4) / word v 4 * word v 4) = qhat at hfix ⊢
  obtain ⟨f1, f2, f3⟩ := hfix
  have l5 : (u.take 5).length = 5 := by simp [hu.1]
  obtain ⟨s1, s2, s3, s4⟩ := subMul_spec f3 0 (u.take 5) v (by decide) (small_take hu.2 5) hv (by rw [l5, lv])
  rw [l5] at s2 s4
  have slt := val_lt s1
  rw [s2] at slt
  generalize subMul qhat 0 (u.take 5) v = s at *
  have key : (val s.1 : Int) + 65536 ^ 5 * ((word u 5 : Int) - s.2) = val u - qhat * val v := by
    rw [s4, hU5]
    push_cast
    ring
  have hmodi : (val u : Int) = r + val v * q := by rw [← hmod]; push_cast; rfl
  have hcase : qhat = q ∨ qhat = q + 1 := by omega
  have snoc : ∀ (x : Words) (t : Nat), x.length = 5 → Small x → t < 65536 →
      Ok (x ++ [t]) ∧ val (x ++ [t]) = val x + 65536 ^ 5 * t := by
    intro x t hx hs ht
    refine ⟨⟨by simp [hx], small_append hs (small_cons ht (by intro y hy; cases hy))⟩, ?_⟩
    rw [val_append, hx]
    simp [val]
  rcases hcase with rfl | rfl
  · have e : (val u : Int) - qhat * val v = r := by rw [hmodi]; ring
    rw [e] at key
    have ht : (word u 5 : Int) - s.2 = 0 := by omega
    rw [if_neg (by omega), ht]
    obtain ⟨o1, o2⟩ := snoc s.1 ((0 : Int) % 65536).toNat s2 s1 (by omega)
    refine ⟨Nat.mod_eq_of_lt f3, o1, ?_⟩
    rw [o2]
    omega
  · have e : (val u : Int) - (q + 1 : Nat) * val v = r - val v := by rw [hmodi]; push_cast; ring
    rw [e] at key
    have ht : (word u 5 : Int) - s.2 = -1 := by omega
    rw [if_pos (by omega), ht]
    obtain ⟨a1, a2, a3, a4⟩ := addBack_spec 0 s.1 v (by omega) s1 hv (by rw [s2, lv])
    rw [s2] at a2 a4
    have alt := val_lt a1
    rw [a2] at alt
    generalize addBack 0 s.1 v = ab at *
    have hk : ab.2 = 1 := by omega
    obtain ⟨o1, o2⟩ := snoc ab.1 ((((-1 : Int) % 65536).toNat + ab.2) % 65536) a2 a1 (by omega)
    refine ⟨by show (q + 1 + 65535) % 65536 = q; omega, o1, ?_⟩
    rw [o2, hk]
    rw [hk] at a4
    have : (((-1 : Int) % 65536).toNat + 1) % 65536 = 0 := by decide
    rw [this]
    omega

theorem divSteps_spec {v : Words} (lv : v.length = 5) (hv : Small v) (hn : 32768 ≤ word v 4) :
    ∀ (n : Nat) (u q : Words), Ok u → val u < val v * 65536 → Small q →
      Small (divSteps v n u q) ∧ (divSteps v n u q).length = n + q.length ∧
      (n = 0 → divSteps v n u q = q) ∧
      (∀ m, n = m + 1 → val (divSteps v n u q) = 65536 ^ (m + 1) * val q + val u * 65536 ^ m / val v)
  | 0, u, q, hu, hlt, hq => ⟨hq, by simp [divSteps], fun _ => rfl, fun m h => by omega⟩
  | n + 1, u, q, hu, hlt, hq => by
    obtain ⟨d1, d2, d3⟩ := divStep_spec hu lv hv hn hlt
    have hVpos : 0 < val v := by omega
    have hmlt := Nat.mod_lt (val u) hVpos
    have hVlt : val v < 65536 ^ 5 := by have := val_lt hv; rwa [lv] at this
    have hdig : val u / val v < 65536 := by
      rw [Nat.div_lt_iff_lt_mul hVpos, Nat.mul_comm]
      exact hlt
    have htk : val ((divStep u v).2.take 5) = val u % val v := by
      rw [val_take d2.2, d3]
      exact Nat.mod_eq_of_lt (Nat.lt_trans hmlt hVlt)
    have hnext : Ok (0 :: (divStep u v).2.take 5) :=
      ⟨by simp [d2.1], small_cons (by decide) (small_take d2.2 5)⟩
    have hval : val (0 :: (divStep u v).2.take 5) = 65536 * (val u % val v) := by
      simp only [val, htk]
      omega
    have hq' : Small ((divStep u v).1 :: q) := small_cons (by rw [d1]; exact hdig) hq
    obtain ⟨i1, i2, i3, i4⟩ := divSteps_spec lv hv hn n (0 :: (divStep u v).2.take 5) ((divStep u v).1 :: q)
      hnext (by rw [hval]; omega) hq'
    unfold divSteps
    refine ⟨i1, ?_, fun h => by omega, ?_⟩
    · rw [i2, List.length_cons]
      omega
    · intro m hm
      have hm' : n = m := by omega
      subst hm'
      have hmod := Nat.mod_add_div (val u) (val v)
      cases n with
      | zero =>
        dsimp only
        rw [i3 rfl]
        simp only [val, d1]
        rw [Nat.pow_zero, Nat.mul_one]
        omega
      | succ m =>
        dsimp only
        rw [i4 m rfl, hval]
        simp only [val, d1]
        have e : val u * 65536 ^ (m + 1) =
            65536 * (val u % val v) * 65536 ^ m + val v * (val u / val v * 65536 ^ (m + 1)) := by
          conv => lhs; rw [← hmod]
          ring
        rw [e, Nat.add_mul_div_left _ _ hVpos]
        ring

/-- `div` is the quotient, 80 bits after the point, shifted by 1. -/
theorem div_spec {v w : Words} (hv : Ok v) (hw : Ok w) (hv80 : val v < 2 ^ 80) (hw79 : 2 ^ 79 ≤ val w)
    (hw80 : val w < 2 ^ 80) :
    ∃ r, div v w = some r ∧ Ok r ∧ val r = jamN (val v * 2 ^ 80 / val w) 1 := by
  have tv : val (v.take 5) = val v := by
    rw [val_take hv.2]
    exact Nat.mod_eq_of_lt hv80
  have tw : val (w.take 5) = val w := by
    rw [val_take hw.2]
    exact Nat.mod_eq_of_lt hw80
  have l1 : (v.take 5).length = 5 := by simp [hv.1]
  have l2 : (w.take 5).length = 5 := by simp [hw.1]
  have w4 : word w 4 = val w / 65536 ^ 4 % 65536 := word_eq hw.2 4
  have w4' : word (w.take 5) 4 = val w / 65536 ^ 4 % 65536 := by rw [word_eq (small_take hw.2 5), tw]
  have w4lo : 32768 ≤ val w / 65536 ^ 4 % 65536 := by omega
  have hu : Ok (v.take 5 ++ [0]) :=
    ⟨by simp [hv.1], small_append (small_take hv.2 5) (small_cons (by decide) (by intro x hx; cases hx))⟩
  have huv : val (v.take 5 ++ [0]) = val v := by
    rw [val_append, tv]
    simp [val]
  obtain ⟨s1, s2, _, s4⟩ := divSteps_spec l2 (small_take hw.2 5) (by rw [w4']; exact w4lo) 6
    (v.take 5 ++ [0]) [] hu (by rw [huv, tw]; omega) (by intro x hx; cases hx)
  have hval := s4 5 rfl
  rw [huv, tw] at hval
  simp only [val, Nat.mul_zero, Nat.zero_add] at hval
  unfold div
  rw [if_neg (by omega)]
  refine ⟨_, rfl, ?_⟩
  generalize divSteps (w.take 5) 6 (v.take 5 ++ [0]) [] = p at *
  have ok : Ok p := ⟨by rw [s2]; rfl, s1⟩
  obtain ⟨t1, t2⟩ := shiftRight_spec 1 false ok
  refine ⟨t1, ?_⟩
  have e : ∀ x : Words, sval (if (false && negative p) = true then 65535 else 0) x = val x := by
    intro x
    simp [sval]
  rw [e, e, jam_nat, hval] at t2
  have e80 : (65536 : Nat) ^ 5 = 2 ^ 80 := by decide
  rw [e80] at t2
  exact_mod_cast t2

/-! ### Nearly the exact number -/

theorem rep_apart {p y z : Nat} (hy : Rep p y) (hz : Rep p z) (hne : z ≠ y) :
    y ≤ ((z : Int) - y).natAbs * 2 ^ p := by
  obtain ⟨s, k, hs, rfl⟩ := hy
  obtain ⟨t, l, ht, rfl⟩ := hz
  have hP : 0 < 2 ^ p := Nat.pow_pos (by decide)
  generalize 2 ^ p = P at *
  by_cases hkl : k ≤ l
  · -- both are multiples of 2^k
    obtain ⟨d, rfl⟩ := Nat.exists_eq_add_of_le hkl
    have hK : 0 < 2 ^ k := Nat.pow_pos (by decide)
    rw [Nat.pow_add] at hne ⊢
    generalize 2 ^ k = K at *
    generalize 2 ^ d = D at *
    have hn : t * D ≠ s := by
      intro h
      apply hne
      rw [← h]
      ring
    have e : ((t * (K * D) : Nat) : Int) - (s * K : Nat) = ((t * D : Nat) - (s : Int)) * K := by
      push_cast
      ring
    rw [e, Int.natAbs_mul, Int.natAbs_natCast]
    have h1 : 1 ≤ ((t * D : Nat) - (s : Int)).natAbs := by omega
    calc s * K ≤ P * K := Nat.mul_le_mul_right _ (by omega)
      _ = 1 * K * P := by ring
      _ ≤ _ := Nat.mul_le_mul_right _ (Nat.mul_le_mul_right _ h1)
  · obtain ⟨d, rfl⟩ := Nat.exists_eq_add_of_le (show l ≤ k by omega)
    have hL : 0 < 2 ^ l := Nat.pow_pos (by decide)
    rw [Nat.pow_add] at hne ⊢
    generalize 2 ^ l = L at *
    generalize 2 ^ d = D at *
    have hn : t ≠ s * D := by
      intro h
      apply hne
      rw [h]
      ring
    have e : ((t * L : Nat) : Int) - (s * (L * D) : Nat) = ((t : Int) - (s * D : Nat)) * L := by
      push_cast
      ring
    rw [e, Int.natAbs_mul, Int.natAbs_natCast]
    have e2 : s * (L * D) = s * D * L := by ring
    rw [e2]
    generalize s * D = Y at *
    suffices h : Y ≤ ((t : Int) - Y).natAbs * P by
      calc Y * L ≤ ((t : Int) - Y).natAbs * P * L := Nat.mul_le_mul_right _ h
        _ = _ := by ring
    by_cases hY : Y ≤ P
    · have h1 : 1 ≤ ((t : Int) - Y).natAbs := by omega
      calc Y ≤ 1 * P := by omega
        _ ≤ _ := Nat.mul_le_mul_right _ h1
    · obtain ⟨x, rfl⟩ := Nat.exists_eq_add_of_le (show P ≤ Y by omega)
      have h1 : x + 1 ≤ ((t : Int) - (P + x : Nat)).natAbs := by omega
      have h2 : x * 1 ≤ x * P := Nat.mul_le_mul_left _ hP
      calc P + x ≤ (x + 1) * P := by rw [Nat.add_mul]; omega
        _ ≤ _ := Nat.mul_le_mul_right _ h1

/-- Rounding something very near to a number gives the number. -/
theorem near_exact {x d y y' : Nat} (h : IsNearest 64 x d y') (hd : 0 < d) (hy : Rep 64 y)
    (h1 : x ≤ y * d) (h2 : (y * d - x) * 2 ^ 66 ≤ y * d) : y' = y := by
  by_contra hne
  have hle : dist x d y' ≤ dist x d y := by
    rcases h.2 y hy (fun e => hne e.symm) with h | h
    · exact Nat.le_of_lt h
    · exact Nat.le_of_eq h.1
  have hap := rep_apart hy h.1 hne
  have hap' : y * d ≤ ((y' : Int) - y).natAbs * d * 2 ^ 64 := by
    calc y * d ≤ ((y' : Int) - y).natAbs * 2 ^ 64 * d := Nat.mul_le_mul_right _ hap
      _ = _ := by ring
  have e : ((y' : Int) - y).natAbs * d = ((y' * d : Nat) - (y * d : Nat) : Int).natAbs := by
    have : ((y' * d : Nat) - (y * d : Nat) : Int) = ((y' : Int) - y) * d := by push_cast; ring
    rw [this, Int.natAbs_mul, Int.natAbs_natCast]
  rw [e] at hap'
  unfold dist at hle
  have hy0 : y * d = 0 := by omega
  have hyd' : y' * d = 0 := by omega
  have := Nat.eq_of_mul_eq_mul_right hd (hyd'.trans hy0.symm)
  exact hne this

end Libasm.Float
