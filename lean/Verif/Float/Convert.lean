import Verif.Float.Fields
/-
Conversions between the formats and from integers: lemmas for C39, C40, C55.
-/
namespace Libasm.Float
open Spec

/-- What the conversions need of a format besides `Good`: its numbers are 80-bit numbers. -/
structure Fmt.Fits (f : Fmt) : Prop where
  good : f.Good
  base : f.expBase ≤ 16383
  unit : f.expBase + f.mant ≤ 16447

theorem fits32 : f32.Fits := ⟨good32, by decide, by decide⟩
theorem fits64 : f64.Fits := ⟨good64, by decide, by decide⟩

theorem unit_pos (f : Fmt) : 0 < unit f := Nat.pow_pos (by decide)

theorem nearest_zero (p d : Nat) (hd : 0 < d) : IsNearest p 0 d 0 := by
  refine ⟨⟨0, 0, Nat.pow_pos (by decide), rfl⟩, fun z _ hne => Or.inl ?_⟩
  unfold dist
  have : 0 < z * d := Nat.mul_pos (by omega) hd
  omega

theorem nearest_self {p y : Nat} (h : Rep p y) : IsNearest p y 1 y := by
  refine ⟨h, fun z _ hne => Or.inl ?_⟩
  unfold dist
  omega

theorem finite_not {x : F80} (h : Finite80 x) : x.isNan = false ∧ x.isInf = false := by
  have : ¬ x.tag % 0x8000 = 0x7fff := h.2.2.1
  unfold F80.isNan F80.isInf
  simp [this]

/-- The number that `compose` makes of `v`, `e` where they stand for `m` in one format. -/
theorem compose_stands {f : Fmt} (hf : f.Fits) {m : Nat} {e : Int} {v : Words}
    (h : Stands f80 m e v) :
    ∃ y, IsNearest f.mant m (unit f) y ∧ PartsAre f y (composeParts f e v) := by
  have h95 : val v < 2 ^ 95 := Nat.lt_trans h.hi (by decide)
  have hlo := h.lo
  have hu := hf.unit
  have hm2 := hf.good.mant2
  generalize ha : (e + f.expBase + f.mant - 81).toNat = a
  generalize hb : (-(e + f.expBase + f.mant - 81)).toNat = b
  obtain ⟨y, h1, h2⟩ := composeParts_spec hf.good h.ok (by omega) h95 (w := val v) (n := 0)
    (jamN_zero _).symm (Or.inl rfl) e (a := a) (b := b) (by omega)
  refine ⟨y, ?_, h2⟩
  refine IsNearest.ratio (Nat.pow_pos (by decide)) (unit_pos f) ?_ h1
  have hbm : f80.expBase = 16383 ∧ f80.mant = 64 := ⟨rfl, rfl⟩
  have hx := h.exact (a + (16445 - (f.expBase + f.mant - 2))) b (by rw [hbm.1, hbm.2]; omega)
  rw [Nat.pow_add, ← Nat.mul_assoc] at hx
  exact hx

theorem toBits_finite {f : Fmt} (hf : f.Fits) {x : F80} (hx : Finite80 x) :
    Rounded f (sign80 x) (mag80 x) (unit f) (F80.toBits f x) := by
  obtain ⟨n1, n2⟩ := finite_not hx
  unfold F80.toBits
  rw [n1, n2, isNegative_eq hx.1]
  simp only [Bool.false_eq_true, if_false]
  obtain ⟨d1, d2⟩ := decompose80_spec hx
  by_cases h0 : mag80 x = 0
  · obtain ⟨_, e, ok, v⟩ := d1 h0
    rw [h0]
    refine ⟨0, nearest_zero _ _ (unit_pos f), ?_⟩
    apply composeB_spec hf.good
    rw [composeParts_zero hf.good ok v (by omega)]
    rfl
  · obtain ⟨_, st⟩ := d2 h0
    obtain ⟨y, h1, h2⟩ := compose_stands hf st
    exact ⟨y, h1, composeB_spec hf.good _ h2⟩

theorem mag_rep {f : Fmt} (hf : f.Fits) (b : Nat) : ∃ s k, s < 2 ^ f.mant ∧ mag f b = s * 2 ^ k := by
  have hP : 0 < 2 ^ (f.mant - 1) := Nat.pow_pos (by decide)
  have hfr : fracField f b < 2 ^ (f.mant - 1) := Nat.mod_lt _ hP
  have pm := (pow_mant hf.good).1
  unfold mag
  split
  · exact ⟨fracField f b, 0, by omega, by simp⟩
  · exact ⟨_, _, by omega, rfl⟩

theorem mag_lt {f : Fmt} (hf : f.Fits) {b : Nat} (hb : Finite f b) : mag f b < limit f := by
  have hP : 0 < 2 ^ (f.mant - 1) := Nat.pow_pos (by decide)
  have hfr : fracField f b < 2 ^ (f.mant - 1) := Nat.mod_lt _ hP
  have pm := (pow_mant hf.good).1
  have hm := hf.good.mask
  have he : expField f b < f.expMask + 1 := Nat.mod_lt _ (by omega)
  have hne := hb.2
  unfold mag limit
  split
  · calc fracField f b < 2 ^ (f.mant - 1) * 1 := by omega
      _ ≤ _ := Nat.mul_le_mul_left _ (Nat.pow_pos (by decide))
  · calc (2 ^ (f.mant - 1) + fracField f b) * 2 ^ (expField f b - 1)
        < 2 ^ f.mant * 2 ^ (expField f b - 1) :=
          Nat.mul_lt_mul_of_pos_right (by omega) (Nat.pow_pos (by decide))
      _ = 2 ^ (f.mant - 1) * 2 ^ (expField f b - 1 + 1) := by
        rw [pm, Nat.pow_succ, Nat.mul_comm 2, Nat.mul_assoc, Nat.mul_comm 2]
      _ ≤ _ := Nat.mul_le_mul_left _ (Nat.pow_le_pow_right (by decide) (by omega))

theorem limit_unit {f : Fmt} (hf : f.Fits) {m : Nat} (h : m < limit f) : m * unit f < limit f80 := by
  have h1 := hf.base
  have h2 := hf.unit
  have h3 := hf.good.mask
  have h4 := hf.good.mant2
  have h5 := hf.good.mant64
  calc m * unit f < limit f * unit f := Nat.mul_lt_mul_of_pos_right h (unit_pos f)
    _ ≤ limit f80 := by
      unfold limit unit
      rw [← Nat.pow_add, ← Nat.pow_add, ← Nat.pow_add]
      apply Nat.pow_le_pow_right (by decide)
      have : f80.mant - 1 + (f80.expMask - 1) = 32829 := by decide
      rw [this]
      omega

set_option linter.constructorNameAsVariable false in
theorem ofBits_finite {f : Fmt} (hf : f.Fits) {b : Nat} (hb : Finite f b) :
    Finite80 (F80.ofBits f b) ∧ sign80 (F80.ofBits f b) = sign f b ∧
    mag80 (F80.ofBits f b) = mag f b * unit f := by
  have hm64 := hf.good.mant64
  have hm2 := hf.good.mant2
  have hu := hf.unit
  have hnot : isNanB f b = false ∧ isInfB f b = false := by
    have : ¬ tag f b % (f.expMask + 1) = f.expMask := hb.2
    unfold isNanB isInfB
    simp [this]
  have hparts : PartsAre f80 (mag f b * unit f) (composeParts f80 (decomposeB f b).1 (decomposeB f b).2) := by
    obtain ⟨d1, d2⟩ := decomposeB_spec hf.good hb
    by_cases h0 : mag f b = 0
    · obtain ⟨e, ok, v⟩ := d1 h0
      rw [composeParts_zero good80 ok v (by rw [e]; decide), h0, Nat.zero_mul]
      rfl
    · have st := d2 h0
      have h95 : val (decomposeB f b).2 < 2 ^ 95 := Nat.lt_trans st.hi (by decide)
      have hlo := st.lo
      have hbm : f80.expBase = 16383 ∧ f80.mant = 64 := ⟨rfl, rfl⟩
      generalize ha : ((decomposeB f b).1 + f80.expBase + f80.mant - 81).toNat = a
      generalize hb : (-((decomposeB f b).1 + f80.expBase + f80.mant - 81)).toNat = c
      obtain ⟨y, h1, h2⟩ := composeParts_spec good80 st.ok (by omega) h95 (w := val (decomposeB f b).2)
        (n := 0) (jamN_zero _).symm (Or.inl rfl) (decomposeB f b).1 (a := a) (b := c) (by omega)
      have hx : val (decomposeB f b).2 * 2 ^ a = mag f b * unit f * 2 ^ c := by
        unfold unit
        rw [Nat.mul_assoc, ← Nat.pow_add]
        exact st.exact _ _ (by rw [hbm.1, hbm.2] at ha hb; omega)
      have hrep : Rep 64 (mag f b * unit f) := by
        obtain ⟨s, k, hs, hm⟩ := mag_rep hf b
        refine ⟨s, k + (16445 - (f.expBase + f.mant - 2)),
          Nat.lt_of_lt_of_le hs (Nat.pow_le_pow_right (by decide) hm64), ?_⟩
        unfold unit
        rw [hm, Nat.pow_add, Nat.mul_assoc]
      have : y = mag f b * unit f := IsNearest.exact h1 (Nat.pow_pos (by decide)) hrep hx.symm
      rw [← this]
      exact h2
  obtain ⟨c1, c2⟩ := compose80_spec (isNegativeB f b) hparts
  rw [if_pos (limit_unit hf (mag_lt hf hb))] at c2
  unfold F80.ofBits
  rw [hnot.1, hnot.2, ← isNegativeB_eq f hb.1]
  simp only [Bool.false_eq_true, if_false]
  exact ⟨c2.1, c1, c2.2⟩

theorem roundtrip_finite {f : Fmt} (hf : f.Fits) {b : Nat} (hb : Finite f b) :
    F80.toBits f (F80.ofBits f b) = b := by
  obtain ⟨h1, h2, h3⟩ := ofBits_finite hf hb
  obtain ⟨y, r1, r2, r3⟩ := toBits_finite hf h1
  have hy : y = mag f b := by
    refine IsNearest.exact r1 (unit_pos f) ?_ h3.symm
    obtain ⟨s, k, hs, hm⟩ := mag_rep hf b
    exact ⟨s, k, hs, hm⟩
  rw [if_pos (by rw [hy]; exact mag_lt hf hb)] at r3
  exact mag_ext r3.1 hb (r2.trans h2) (r3.2.trans hy)

theorem ofNat_spec {u : Nat} (hu : u < 2 ^ 64) : Finite80 (F80.ofNat u) ∧
    sign80 (F80.ofNat u) = false ∧ mag80 (F80.ofNat u) = u * 2 ^ 16445 := by
  unfold F80.ofNat
  by_cases h0 : u = 0
  · rw [if_pos h0, h0, Nat.zero_mul]
    refine ⟨⟨by decide, by decide, by decide, by decide⟩, by decide, ?_⟩
    unfold mag80
    rw [Nat.zero_mul]
  · rw [if_neg h0]
    have hok := set_ok u 0
    have hval := val_set hu (show 0 < 65536 by decide)
    rw [Nat.add_zero] at hval
    obtain ⟨k, k80, nok, ne, nval, nlo, nhi⟩ := normalize_low hok (by rw [hval]; omega) (by rw [hval]; omega)
    have hk : k < 64 := by
      apply Nat.lt_of_not_le
      intro hk
      have h1 : 2 ^ 64 ≤ 2 ^ k := Nat.pow_le_pow_right (by decide) hk
      have h2 : 2 ^ 16 * 2 ^ 64 ≤ val (set u 0) * 2 ^ k := Nat.mul_le_mul (by rw [hval]; omega) h1
      have h3 : 2 ^ 80 ≤ val (set u 0) * 2 ^ k := h2
      exact absurd nhi (Nat.not_lt.2 h3)
    have hsig : value (normalize (set u 0)).1 64 = u * 2 ^ k := by
      rw [value_eq nok 64 (Nat.le_refl _), nval, Nat.mod_eq_of_lt nhi, hval]
      show u * 65536 * 2 ^ k / 65536 = _
      rw [Nat.mul_right_comm, Nat.mul_div_cancel _ (by decide)]
    have hb : 2 ^ 63 ≤ u * 2 ^ k ∧ u * 2 ^ k < 2 ^ 64 := by
      rw [hval, Nat.mul_right_comm] at nlo nhi
      generalize u * 2 ^ k = t at *
      omega
    dsimp only
    rw [hsig, ne]
    have htag : ((-(k : Int) + 63 + 0x3fff).toNat) % 65536 = 16446 - k := by omega
    rw [htag]
    have he : (16446 - k) % 0x8000 = 16446 - k := by omega
    refine ⟨⟨by show 16446 - k < 0x10000; omega, hb.2, ?_, ?_⟩, ?_, ?_⟩
    · show (16446 - k) % 0x8000 ≠ 0x7fff
      omega
    · show (16446 - k) % 0x8000 = 0 ↔ u * 2 ^ k < 2 ^ 63
      omega
    · show decide ((16446 - k) / 0x8000 = 1) = false
      rw [decide_eq_false_iff_not]
      omega
    · show u * 2 ^ k * 2 ^ ((16446 - k) % 0x8000 - 1) = _
      rw [he, Nat.mul_assoc, ← Nat.pow_add]
      congr 2
      omega

end Libasm.Float
