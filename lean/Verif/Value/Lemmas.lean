import Verif.Value.Spec
/- Helper lemmas about the Value model. -/
namespace Libasm.Value
open Spec

theorem M_eq : (M : Nat) = 2 ^ 64 := rfl
theorem H_eq : (H : Nat) = 2 ^ 63 := rfl

/-- A valid value is a non-negative number below 2^64 or a negative one from -2^63. -/
theorem valid_cases {v : Value} (h : Valid v) :
    (v.isSigned = false ∧ v.isUnsigned = true ∧ v.isNegative = false ∧ denote v = v.bits ∧
      v.bits < M) ∨
    (v.isSigned = true ∧ v.isUnsigned = false ∧ v.isNegative = true ∧
      denote v = (v.bits : Int) - M ∧ H ≤ v.bits ∧ v.bits < M ∧ asSigned v.bits = (v.bits : Int) - M) := by
  obtain ⟨b, t⟩ := v
  cases t
  · left
    simp only [Valid] at h
    subst h
    exact ⟨rfl, rfl, rfl, rfl, by decide⟩
  · left
    exact ⟨rfl, rfl, rfl, rfl, h⟩
  · right
    simp only [Valid] at h
    have h1 : H ≤ b := h.1
    have h2 : b < M := h.2
    have hs : asSigned b = (b : Int) - M := by
      unfold asSigned
      rw [if_neg (by omega)]
    refine ⟨rfl, rfl, ?_, rfl, h1, h2, hs⟩
    show (true && decide (asSigned b < 0)) = true
    rw [hs]
    simp only [Bool.true_and, decide_eq_true_eq]
    omega

theorem denote_range {v : Value} (h : Valid v) : -(H : Int) ≤ denote v ∧ denote v < M := by
  have hm : M = 2 * H := rfl
  rcases valid_cases h with ⟨_, _, _, h4, h5⟩ | ⟨_, _, _, h4, h5, h6, _⟩ <;> omega

theorem neg_denote {v : Value} (h : Valid v) : v.isNegative = decide (denote v < 0) := by
  rcases valid_cases h with ⟨_, _, h3, h4, h5⟩ | ⟨_, _, h3, h4, h5, h6, _⟩
  · rw [h3, eq_comm, decide_eq_false_iff_not]; omega
  · rw [h3, eq_comm, decide_eq_true_eq]; omega

theorem setU_ok {u : Nat} (h : u < M) : Valid (setU u) ∧ denote (setU u) = u := by
  have : u % M = u := Nat.mod_eq_of_lt h
  constructor
  · show u % M < 2 ^ 64
    exact Nat.mod_lt _ (by decide)
  · show ((u % M : Nat) : Int) = u
    rw [this]

theorem setS_ok {s : Int} (h1 : -(H : Int) ≤ s) (h2 : s < H) :
    Valid (setS s) ∧ denote (setS s) = s := by
  have hm : M = 2 * H := rfl
  have hM : M = 18446744073709551616 := rfl
  unfold setS
  split
  · refine ⟨?_, ?_⟩
    · show s.toNat < 2 ^ 64
      omega
    · show ((s.toNat : Nat) : Int) = s
      omega
  · have e : s % (M : Int) = s + M := by rw [hM]; omega
    have e2 : ofSigned s = (s + M).toNat := by unfold ofSigned; rw [e]
    refine ⟨?_, ?_⟩
    · show 2 ^ 63 ≤ ofSigned s ∧ ofSigned s < 2 ^ 64
      rw [e2]; omega
    · show ((ofSigned s : Nat) : Int) - 2 ^ 64 = s
      rw [e2]; omega

theorem absolute_ok {v : Value} (h : Valid v) (hm : denote v ≠ -(H : Int)) :
    v.absolute = some (denote v).natAbs := by
  have hM : M = 2 * H := rfl
  have hH : H = 9223372036854775808 := rfl
  unfold absolute
  rcases valid_cases h with ⟨_, _, h3, h4, h5⟩ | ⟨_, _, h3, h4, h5, h6, h7⟩
  · rw [h3, h4]; simp
  · rw [h3, if_pos rfl, h7]
    unfold negS
    rw [if_neg (by omega)]
    simp only [Option.map_some, Option.some.injEq]
    omega

theorem setNegated_ok {u : Nat} (h : u < H) :
    ∃ r, setNegated u = some r ∧ Valid r ∧ denote r = -(u : Int) := by
  have hH : H = 9223372036854775808 := rfl
  have e : asSigned u = u := by unfold asSigned; rw [if_pos h]
  refine ⟨setS (-(u : Int)), ?_, setS_ok (by omega) (by omega)⟩
  unfold setNegated negS
  rw [e, if_neg (by omega)]
  rfl

theorem add_ok {a b : Value} (ha : Valid a) (hb : Valid b) (ha' : denote a ≠ -(H : Int))
    (hb' : denote b ≠ -(H : Int)) (h1 : -(H : Int) < denote a + denote b)
    (h2 : denote a + denote b < M) :
    ∃ r, a.add b = some r ∧ Valid r ∧ denote r = denote a + denote b := by
  have hM : M = 2 * H := rfl
  have hH : H = 9223372036854775808 := rfl
  have ra := denote_range ha
  have rb := denote_range hb
  unfold add
  rw [absolute_ok ha ha', absolute_ok hb hb', neg_denote ha, neg_denote hb]
  generalize denote a = x at *
  generalize denote b = y at *
  by_cases hx : x < 0 <;> by_cases hy : y < 0
  · simp only [hx, hy, decide_true, if_true]
    have e : (x.natAbs + y.natAbs) % M = x.natAbs + y.natAbs := Nat.mod_eq_of_lt (by omega)
    rw [e]
    obtain ⟨r, g1, g2, g3⟩ := setNegated_ok (u := x.natAbs + y.natAbs) (by omega)
    exact ⟨r, g1, g2, by omega⟩
  · simp only [hx, hy, decide_true, decide_false, if_true]
    rw [if_neg (by decide)]
    by_cases hl : x.natAbs ≥ y.natAbs
    · rw [if_pos hl]
      obtain ⟨r, g1, g2, g3⟩ := setNegated_ok (u := x.natAbs - y.natAbs) (by omega)
      exact ⟨r, g1, g2, by omega⟩
    · rw [if_neg hl]
      obtain ⟨g2, g3⟩ := setU_ok (u := y.natAbs - x.natAbs) (by omega)
      exact ⟨_, rfl, g2, by omega⟩
  · simp only [hx, hy, decide_true, decide_false]
    rw [if_neg (by decide)]
    by_cases hl : x.natAbs ≥ y.natAbs
    · rw [if_pos hl]
      obtain ⟨g2, g3⟩ := setU_ok (u := x.natAbs - y.natAbs) (by omega)
      exact ⟨_, rfl, g2, by omega⟩
    · rw [if_neg hl]
      obtain ⟨r, g1, g2, g3⟩ := setNegated_ok (u := y.natAbs - x.natAbs) (by omega)
      exact ⟨r, g1, g2, by omega⟩
  · simp only [hx, hy, decide_false, if_true]
    have e : (x.natAbs + y.natAbs) % M = x.natAbs + y.natAbs := Nat.mod_eq_of_lt (by omega)
    rw [e]
    obtain ⟨g2, g3⟩ := setU_ok (u := x.natAbs + y.natAbs) (by omega)
    exact ⟨_, rfl, g2, by omega⟩

theorem negate_ok {v : Value} (h : Valid v) (h1 : -(H : Int) < denote v) (h2 : denote v < H) :
    ∃ r, v.negate = some r ∧ Valid r ∧ denote r = -denote v := by
  have hM : M = 2 * H := rfl
  have hH : H = 9223372036854775808 := rfl
  unfold negate
  rcases valid_cases h with ⟨_, _, h3, h4, h5⟩ | ⟨_, _, h3, h4, h5, h6, h7⟩
  · rw [h3, if_neg (by decide)]
    obtain ⟨r, g⟩ := setNegated_ok (u := v.bits) (by omega)
    exact ⟨r, g.1, g.2.1, by omega⟩
  · rw [h3, if_pos rfl, h7]
    unfold negS
    rw [if_neg (by omega)]
    obtain ⟨g2, g3⟩ := setU_ok (u := (-((v.bits : Int) - M)).toNat) (by omega)
    exact ⟨_, rfl, g2, by rw [show ∀ x, denote ((fun s : Int => setU s.toNat) x) = denote (setU x.toNat) from fun _ => rfl, g3]; omega⟩

theorem sub_ok {a b : Value} (ha : Valid a) (hb : Valid b) (ha' : denote a ≠ -(H : Int))
    (hb' : denote b ≠ -(H : Int)) (h1 : -(H : Int) < denote a - denote b)
    (h2 : denote a - denote b < M) (h3 : denote b < H) :
    ∃ r, a.sub b = some r ∧ Valid r ∧ denote r = denote a - denote b := by
  have rb := denote_range hb
  obtain ⟨n, e, g1, g2⟩ := negate_ok hb (by omega) h3
  obtain ⟨r, k1, k2, k3⟩ := add_ok ha g1 ha' (by omega) (by omega) (by omega)
  refine ⟨r, ?_, k2, by omega⟩
  unfold sub
  rw [e]
  exact k1

theorem natAbs_mul_sign (x y : Int) :
    ((x < 0) = (y < 0) → ((x.natAbs * y.natAbs : Nat) : Int) = x * y) ∧
    ((x < 0) ≠ (y < 0) → ((x.natAbs * y.natAbs : Nat) : Int) = -(x * y)) := by
  constructor
  · intro h
    by_cases hx : x < 0
    · have hy : y < 0 := h ▸ hx
      rw [Int.natCast_mul, Int.ofNat_natAbs_of_nonpos (by omega),
        Int.ofNat_natAbs_of_nonpos (by omega), Int.neg_mul_neg]
    · have hy : ¬ y < 0 := h ▸ hx
      rw [Int.natCast_mul, Int.natAbs_of_nonneg (by omega), Int.natAbs_of_nonneg (by omega)]
  · intro h
    by_cases hx : x < 0
    · have hy : ¬ y < 0 := fun hy => h (by simp [hx, hy])
      rw [Int.natCast_mul, Int.ofNat_natAbs_of_nonpos (by omega),
        Int.natAbs_of_nonneg (by omega), Int.neg_mul]
    · have hy : y < 0 := by
        by_cases hy : y < 0
        · exact hy
        · exact absurd (by simp [hx, hy]) h
      rw [Int.natCast_mul, Int.natAbs_of_nonneg (by omega),
        Int.ofNat_natAbs_of_nonpos (by omega), Int.mul_neg]

theorem mul_ok {a b : Value} (ha : Valid a) (hb : Valid b) (ha' : denote a ≠ -(H : Int))
    (hb' : denote b ≠ -(H : Int)) (h1 : -(H : Int) < denote a * denote b)
    (h2 : denote a * denote b < M) :
    ∃ r, a.mul b = some r ∧ Valid r ∧ denote r = denote a * denote b := by
  have hM : M = 2 * H := rfl
  have hH : H = 9223372036854775808 := rfl
  unfold mul
  rw [absolute_ok ha ha', absolute_ok hb hb', neg_denote ha, neg_denote hb]
  generalize denote a = x at *
  generalize denote b = y at *
  obtain ⟨k1, k2⟩ := natAbs_mul_sign x y
  by_cases hs : (x < 0) = (y < 0)
  · have k := k1 hs
    have e : (x.natAbs * y.natAbs) % M = x.natAbs * y.natAbs := Nat.mod_eq_of_lt (by omega)
    simp only [e]
    rw [if_pos (by simp only [hs])]
    obtain ⟨g2, g3⟩ := setU_ok (u := x.natAbs * y.natAbs) (by omega)
    exact ⟨_, rfl, g2, by omega⟩
  · have k := k2 hs
    have e : (x.natAbs * y.natAbs) % M = x.natAbs * y.natAbs := Nat.mod_eq_of_lt (by omega)
    simp only [e]
    rw [if_neg (by intro hc; apply hs; simpa using hc)]
    obtain ⟨r, g1, g2, g3⟩ := setNegated_ok (u := x.natAbs * y.natAbs) (by omega)
    exact ⟨r, g1, g2, by omega⟩

theorem zero_or_undef {b : Value} (hb : Valid b) :
    (b.isZero || b.isUndefined) = decide (denote b = 0) := by
  obtain ⟨n, t⟩ := b
  cases t
  · simp only [Valid] at hb
    subst hb
    rfl
  · show (true && (n == 0) || false) = decide ((n : Int) = 0)
    simp
    rw [Bool.eq_iff_iff]; simp
  · have h1 : 2 ^ 63 ≤ n := hb.1
    have h2 : n < 2 ^ 64 := hb.2
    show (true && (n == 0) || false) = decide ((n : Int) - 2 ^ 64 = 0)
    rw [decide_eq_false (by omega)]
    simp; omega

theorem tdiv_natAbs (x y : Int) :
    ((x < 0) = (y < 0) → ((x.natAbs / y.natAbs : Nat) : Int) = x.tdiv y) ∧
    ((x < 0) ≠ (y < 0) → ((x.natAbs / y.natAbs : Nat) : Int) = -(x.tdiv y)) := by
  constructor
  · intro h
    by_cases hx : x < 0
    · have hy : y < 0 := h ▸ hx
      obtain ⟨m, rfl⟩ : ∃ m : Nat, x = -m := ⟨x.natAbs, by omega⟩
      obtain ⟨n, rfl⟩ : ∃ n : Nat, y = -n := ⟨y.natAbs, by omega⟩
      rw [Int.neg_tdiv, Int.tdiv_neg, Int.neg_neg, Int.natAbs_neg, Int.natAbs_neg]
      rfl
    · have hy : ¬ y < 0 := h ▸ hx
      obtain ⟨m, rfl⟩ : ∃ m : Nat, x = m := ⟨x.natAbs, by omega⟩
      obtain ⟨n, rfl⟩ : ∃ n : Nat, y = n := ⟨y.natAbs, by omega⟩
      rfl
  · intro h
    by_cases hx : x < 0
    · have hy : ¬ y < 0 := fun hy => h (by simp [hx, hy])
      obtain ⟨m, rfl⟩ : ∃ m : Nat, x = -m := ⟨x.natAbs, by omega⟩
      obtain ⟨n, rfl⟩ : ∃ n : Nat, y = n := ⟨y.natAbs, by omega⟩
      rw [Int.neg_tdiv, Int.neg_neg, Int.natAbs_neg]
      rfl
    · have hy : y < 0 := by
        by_cases hy : y < 0
        · exact hy
        · exact absurd (by simp [hx, hy]) h
      obtain ⟨m, rfl⟩ : ∃ m : Nat, x = m := ⟨x.natAbs, by omega⟩
      obtain ⟨n, rfl⟩ : ∃ n : Nat, y = -n := ⟨y.natAbs, by omega⟩
      rw [Int.tdiv_neg, Int.neg_neg, Int.natAbs_neg]
      rfl

theorem div_ok {a b : Value} (ha : Valid a) (hb : Valid b) (ha' : denote a ≠ -(H : Int))
    (hb' : denote b ≠ -(H : Int)) (h0 : denote b ≠ 0) (h1 : -(H : Int) < (denote a).tdiv (denote b)) :
    ∃ r, a.div b = some r ∧ Valid r ∧ denote r = (denote a).tdiv (denote b) := by
  have hM : M = 2 * H := rfl
  have hH : H = 9223372036854775808 := rfl
  have ra := denote_range ha
  unfold div
  rw [zero_or_undef hb, decide_eq_false h0, if_neg (by decide)]
  rw [absolute_ok ha ha', absolute_ok hb hb', neg_denote ha, neg_denote hb]
  generalize denote a = x at *
  generalize denote b = y at *
  obtain ⟨k1, k2⟩ := tdiv_natAbs x y
  have hle : x.natAbs / y.natAbs ≤ x.natAbs := Nat.div_le_self _ _
  by_cases hs : (x < 0) = (y < 0)
  · have k := k1 hs
    simp only
    rw [if_pos (by simp only [hs])]
    obtain ⟨g2, g3⟩ := setU_ok (u := x.natAbs / y.natAbs) (by omega)
    exact ⟨_, rfl, g2, by omega⟩
  · have k := k2 hs
    simp only
    rw [if_neg (by intro hc; apply hs; simpa using hc)]
    obtain ⟨r, g1, g2, g3⟩ := setNegated_ok (u := x.natAbs / y.natAbs) (by omega)
    exact ⟨r, g1, g2, by omega⟩

theorem mod_ok {a b : Value} (ha : Valid a) (hb : Valid b) (ha' : denote a ≠ -(H : Int))
    (hb' : denote b ≠ -(H : Int)) (h0 : denote b ≠ 0) :
    ∃ r, a.mod b = some r ∧ Valid r ∧ denote r = (denote a).tmod (denote b) := by
  have hM : M = 2 * H := rfl
  have hH : H = 9223372036854775808 := rfl
  have ra := denote_range ha
  unfold mod
  rw [zero_or_undef hb, decide_eq_false h0, if_neg (by decide)]
  rw [absolute_ok ha ha', absolute_ok hb hb', neg_denote ha]
  generalize denote a = x at *
  generalize denote b = y at *
  have hle : x.natAbs % y.natAbs ≤ x.natAbs := Nat.mod_le _ _
  have hy : x.tmod y = x.tmod y.natAbs := by
    rcases Int.natAbs_eq y with h | h
    · rw [← h]
    · rw [h, Int.natAbs_neg, Int.tmod_neg]; rfl
  by_cases hx : x < 0
  · simp only [hx, decide_true, if_true]
    obtain ⟨r, g1, g2, g3⟩ := setNegated_ok (u := x.natAbs % y.natAbs) (by omega)
    refine ⟨r, g1, g2, ?_⟩
    rw [g3, hy]
    obtain ⟨m, hm⟩ : ∃ m : Nat, x = -m := ⟨x.natAbs, by omega⟩
    rw [hm, Int.neg_tmod, Int.natAbs_neg]
    rfl
  · simp only [hx, decide_false]
    rw [if_neg (by decide)]
    obtain ⟨g2, g3⟩ := setU_ok (u := x.natAbs % y.natAbs) (by omega)
    refine ⟨_, rfl, g2, ?_⟩
    rw [g3, hy]
    obtain ⟨m, hm⟩ : ∃ m : Nat, x = m := ⟨x.natAbs, by omega⟩
    rw [hm]
    rfl

theorem lt_ok {a b : Value} (ha : Valid a) (hb : Valid b) :
    a.lt b = decide (denote a < denote b) := by
  have hM : M = 2 * H := rfl
  have hH : H = 9223372036854775808 := rfl
  unfold lt
  rcases valid_cases ha with ⟨a1, a2, a3, a4, a5⟩ | ⟨a1, a2, a3, a4, a5, a6, a7⟩ <;>
    rcases valid_cases hb with ⟨b1, b2, b3, b4, b5⟩ | ⟨b1, b2, b3, b4, b5, b6, b7⟩
  · rw [a2, b2, a4, b4, if_pos rfl, if_pos rfl]
    simp
  · rw [a2, b2, if_pos rfl, if_neg (by decide), b7, decide_eq_false (by omega), eq_comm]
    rw [decide_eq_false (by omega)]; rfl
  · rw [a2, b1, if_neg (by decide), if_neg (by decide), a7, decide_eq_true (by omega), eq_comm]
    rw [decide_eq_true (by omega)]; rfl
  · rw [a2, b1, if_neg (by decide), if_pos rfl, a7, b7, a4, b4]

theorem eq_ok {a b : Value} (ha : Valid a) (hb : Valid b)
    (h : (denote a < H ∨ 0 ≤ denote b) ∧ (denote b < H ∨ 0 ≤ denote a)) :
    a.eq b = decide (denote a = denote b) := by
  have hM : M = 2 * H := rfl
  have hH : H = 9223372036854775808 := rfl
  unfold eq
  rw [Bool.eq_iff_iff, beq_iff_eq, decide_eq_true_eq]
  rcases valid_cases ha with ⟨a1, a2, a3, a4, a5⟩ | ⟨a1, a2, a3, a4, a5, a6, a7⟩ <;>
    rcases valid_cases hb with ⟨b1, b2, b3, b4, b5⟩ | ⟨b1, b2, b3, b4, b5, b6, b7⟩ <;> omega

theorem overflowUint32_ok {v : Value} (h : Valid v) :
    v.overflowUint32 = decide (denote v > 4294967295 ∨ denote v < -2147483648) := by
  have hM : M = 2 * H := rfl
  have hH : H = 9223372036854775808 := rfl
  unfold overflowUint32
  rcases valid_cases h with ⟨a1, a2, a3, a4, a5⟩ | ⟨a1, a2, a3, a4, a5, a6, a7⟩
  · rw [a2, if_pos rfl, a4, Bool.eq_iff_iff, decide_eq_true_eq, decide_eq_true_eq]; omega
  · rw [a2, if_neg (by decide), a7, a4, Bool.eq_iff_iff, Bool.or_eq_true, decide_eq_true_eq,
      decide_eq_true_eq, decide_eq_true_eq]

theorem overflowInt32_ok {v : Value} (h : Valid v) :
    v.overflowInt32 = decide (denote v > 2147483647 ∨ denote v < -2147483648) := by
  have hM : M = 2 * H := rfl
  have hH : H = 9223372036854775808 := rfl
  unfold overflowInt32
  rcases valid_cases h with ⟨a1, a2, a3, a4, a5⟩ | ⟨a1, a2, a3, a4, a5, a6, a7⟩
  · rw [a2, if_pos rfl, a4, Bool.eq_iff_iff, decide_eq_true_eq, decide_eq_true_eq]; omega
  · rw [a2, if_neg (by decide), a7, a4, Bool.eq_iff_iff, Bool.or_eq_true, decide_eq_true_eq,
      decide_eq_true_eq, decide_eq_true_eq]

theorem overflow_ok {v : Value} (h : Valid v) {max : Nat} {min : Int} (hmax : max < 4294967296)
    (hmin : -2147483648 ≤ min) (hmin2 : min < 2147483648) :
    v.overflow max min = decide (denote v > max ∨ denote v < min) := by
  have hM : M = 2 * H := rfl
  have hH : H = 9223372036854775808 := rfl
  unfold overflow
  rw [overflowUint32_ok h]
  by_cases h32 : denote v > 4294967295 ∨ denote v < -2147483648
  · rw [decide_eq_true h32, if_pos rfl, eq_comm, decide_eq_true_eq]; omega
  · rw [decide_eq_false h32, if_neg (by decide)]
    rcases valid_cases h with ⟨a1, a2, a3, a4, a5⟩ | ⟨a1, a2, a3, a4, a5, a6, a7⟩
    · have e : v.getUnsigned = v.bits := by unfold getUnsigned; omega
      rw [a2, if_pos rfl, e, a4, Bool.eq_iff_iff, Bool.or_eq_true, Bool.and_eq_true]
      simp only [decide_eq_true_eq]
      omega
    · have e : v.getSigned = denote v := by
        unfold getSigned
        simp only
        rw [if_neg (by omega)]
        omega
      rw [a2, if_neg (by decide), a7, if_neg (by omega), e, Bool.eq_iff_iff, Bool.or_eq_true,
        Bool.and_eq_true]
      simp only [decide_eq_true_eq]
      omega

end Libasm.Value
