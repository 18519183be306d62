import Verif.Float.Compose
/-
From parts to patterns and back: `compose` and `decompose` of each format in terms of the numbers
that patterns stand for.
-/
namespace Libasm.Float
open Spec

theorem IsNearest.ratio {p x d x' d' y : Nat} (hd : 0 < d) (hd' : 0 < d') (he : x * d' = x' * d)
    (h : IsNearest p x d y) : IsNearest p x' d' y := by
  have key : ∀ z, dist x' d' z * d = dist x d z * d' := by
    intro z
    unfold dist
    have e1 : (((z * d' : Nat) - (x' : Int)).natAbs) * d = ((z * d' : Nat) * (d : Int) - x' * d).natAbs := by
      rw [← Int.sub_mul, Int.natAbs_mul, Int.natAbs_natCast]
    have e2 : (((z * d : Nat) - (x : Int)).natAbs) * d' = ((z * d : Nat) * (d' : Int) - x * d').natAbs := by
      rw [← Int.sub_mul, Int.natAbs_mul, Int.natAbs_natCast]
    rw [e1, e2]
    congr 1
    have : (x : Int) * d' = x' * d := by exact_mod_cast he
    rw [this]
    congr 1
    exact_mod_cast (Nat.mul_right_comm z d' d)
  have hlt : ∀ z, dist x d y < dist x d z → dist x' d' y < dist x' d' z := by
    intro z hz
    have h1 := Nat.mul_lt_mul_of_pos_right hz hd'
    rw [← key, ← key] at h1
    exact Nat.lt_of_mul_lt_mul_right h1
  have heq : ∀ z, dist x d y = dist x d z → dist x' d' y = dist x' d' z := by
    intro z hz
    have h1 : dist x d y * d' = dist x d z * d' := by rw [hz]
    rw [← key, ← key] at h1
    exact Nat.eq_of_mul_eq_mul_right hd h1
  refine ⟨h.1, fun z hz hne => ?_⟩
  rcases h.2 z hz hne with h1 | ⟨h1, h2⟩
  · exact Or.inl (hlt z h1)
  · exact Or.inr ⟨heq z h1, h2⟩

/-! ### Patterns of binary32 and binary64 -/

theorem bitsB_fields (f : Fmt) (neg : Bool) {e s : Nat} (he : e ≤ f.expMask) :
    Pattern f (bitsB f neg e s) ∧ expField f (bitsB f neg e s) = e ∧
    fracField f (bitsB f neg e s) = s % 2 ^ (f.mant - 1) ∧ sign f (bitsB f neg e s) = neg := by
  have hp : 0 < 2 ^ (f.mant - 1) := Nat.pow_pos (by decide)
  have hs := Nat.mod_lt s hp
  have hval : bitsB f neg e s =
      ((if neg then f.expMask + 1 else 0) + e) * 2 ^ (f.mant - 1) + s % 2 ^ (f.mant - 1) := by
    unfold bitsB setB Fmt.sgnMask
    rw [Nat.mod_eq_of_lt (show e < f.expMask + 1 by omega)]
    apply Nat.mod_eq_of_lt
    have : (if neg then f.expMask + 1 else 0) + e + 1 ≤ 2 * (f.expMask + 1) := by split <;> omega
    have := Nat.mul_le_mul_right (2 ^ (f.mant - 1)) this
    rw [Nat.add_mul _ 1, Nat.one_mul] at this
    omega
  unfold Pattern expField fracField sign
  rw [hval]
  generalize s % 2 ^ (f.mant - 1) = r at *
  generalize 2 ^ (f.mant - 1) = P at *
  have d1 : (((if neg then f.expMask + 1 else 0) + e) * P + r) / P =
      (if neg then f.expMask + 1 else 0) + e := by
    rw [Nat.mul_comm, Nat.mul_add_div hp, Nat.div_eq_of_lt hs, Nat.add_zero]
  have d2 : (((if neg then f.expMask + 1 else 0) + e) * P + r) % P = r := by
    rw [Nat.mul_comm, Nat.mul_add_mod, Nat.mod_eq_of_lt hs]
  rw [d1, d2]
  refine ⟨?_, ?_, rfl, ?_⟩
  · have : (if neg then f.expMask + 1 else 0) + e + 1 ≤ 2 * (f.expMask + 1) := by split <;> omega
    have := Nat.mul_le_mul_right P this
    rw [Nat.add_mul _ 1, Nat.one_mul] at this
    omega
  · cases neg
    · simp only [Bool.false_eq_true, if_false, Nat.zero_add]
      exact Nat.mod_eq_of_lt (by omega)
    · simp only [if_true]
      rw [Nat.add_mod_left]
      exact Nat.mod_eq_of_lt (by omega)
  · cases neg
    · simp only [Bool.false_eq_true, if_false, Nat.zero_add]
      rw [Nat.div_eq_of_lt (by omega)]
      rfl
    · simp only [if_true]
      rw [Nat.add_div_left _ (by omega), Nat.div_eq_of_lt (by omega)]
      rfl

/-- A pattern is determined by its sign and fields. -/
theorem pattern_ext {f : Fmt} {a b : Nat} (ha : Pattern f a) (hb : Pattern f b)
    (h1 : sign f a = sign f b) (h2 : expField f a = expField f b)
    (h3 : fracField f a = fracField f b) : a = b := by
  have key : ∀ c, Pattern f c → c / 2 ^ (f.mant - 1) / (f.expMask + 1) =
      if sign f c = true then 1 else 0 := by
    intro c hc
    have hlt : c / 2 ^ (f.mant - 1) / (f.expMask + 1) < 2 := by
      rw [Nat.div_lt_iff_lt_mul (by omega), Nat.div_lt_iff_lt_mul (Nat.pow_pos (by decide))]
      exact hc
    unfold sign
    simp only [decide_eq_true_eq]
    generalize c / 2 ^ (f.mant - 1) / (f.expMask + 1) = t at *
    split <;> omega
  have ea := Nat.div_add_mod (a / 2 ^ (f.mant - 1)) (f.expMask + 1)
  have eb := Nat.div_add_mod (b / 2 ^ (f.mant - 1)) (f.expMask + 1)
  rw [key a ha] at ea
  rw [key b hb] at eb
  rw [h1] at ea
  have hd : a / 2 ^ (f.mant - 1) = b / 2 ^ (f.mant - 1) := by
    rw [← ea, ← eb]
    congr 1
  have fa := Nat.div_add_mod a (2 ^ (f.mant - 1))
  have fb := Nat.div_add_mod b (2 ^ (f.mant - 1))
  rw [← fa, ← fb, hd]
  congr 1

/-- The magnitude determines the fields of a finite number. -/
theorem mag_ext {f : Fmt} {a b : Nat} (ha : Finite f a) (hb : Finite f b)
    (h1 : sign f a = sign f b) (h2 : mag f a = mag f b) : a = b := by
  have hP : 0 < 2 ^ (f.mant - 1) := Nat.pow_pos (by decide)
  have fa : fracField f a < 2 ^ (f.mant - 1) := Nat.mod_lt _ hP
  have fb : fracField f b < 2 ^ (f.mant - 1) := Nat.mod_lt _ hP
  have key : ∀ {r r' i j : Nat}, r < 2 ^ (f.mant - 1) → r' < 2 ^ (f.mant - 1) →
      (2 ^ (f.mant - 1) + r) * 2 ^ i = (2 ^ (f.mant - 1) + r') * 2 ^ j → ¬ i < j := by
    intro r r' i j hr hr' he hij
    have hj : 2 ^ j = 2 ^ (j - i) * 2 ^ i := by rw [← Nat.pow_add]; congr 1; omega
    rw [hj, ← Nat.mul_assoc] at he
    have he := Nat.eq_of_mul_eq_mul_right (Nat.pow_pos (by decide)) he
    have h2 : 2 ≤ 2 ^ (j - i) := by
      have := Nat.pow_le_pow_right (n := 2) (by decide) (show 1 ≤ j - i by omega)
      omega
    have h3 : (2 ^ (f.mant - 1) + r') * 2 ≤ (2 ^ (f.mant - 1) + r') * 2 ^ (j - i) :=
      Nat.mul_le_mul_left _ h2
    omega
  have low : ∀ {r i : Nat}, 2 ^ (f.mant - 1) ≤ (2 ^ (f.mant - 1) + r) * 2 ^ i := by
    intro r i
    have : 1 ≤ 2 ^ i := Nat.pow_pos (by decide)
    calc 2 ^ (f.mant - 1) ≤ (2 ^ (f.mant - 1) + r) * 1 := by omega
      _ ≤ _ := Nat.mul_le_mul_left _ this
  unfold mag at h2
  have h23 : expField f a = expField f b ∧ fracField f a = fracField f b := by
    split at h2
    · rename_i ea
      split at h2
      · rename_i eb
        exact ⟨by rw [ea, eb], h2⟩
      · have := @low (fracField f b) (expField f b - 1)
        omega
    · rename_i ea
      split at h2
      · have := @low (fracField f a) (expField f a - 1)
        omega
      · rename_i eb
        have k1 := key fa fb h2
        have k2 := key fb fa h2.symm
        have he : expField f a - 1 = expField f b - 1 := by omega
        rw [he] at h2
        have := Nat.eq_of_mul_eq_mul_right (Nat.pow_pos (by decide)) h2
        omega
  exact pattern_ext ha.1 hb.1 h1 h23.1 h23.2

theorem isNegativeB_eq (f : Fmt) {b : Nat} (hb : Pattern f b) : isNegativeB f b = sign f b := by
  have hlt : b / 2 ^ (f.mant - 1) / (f.expMask + 1) < 2 := by
    rw [Nat.div_lt_iff_lt_mul (by omega), Nat.div_lt_iff_lt_mul (Nat.pow_pos (by decide))]
    exact hb
  unfold isNegativeB sign tag Fmt.sgnMask
  rw [Nat.mod_eq_of_lt hlt]
  rfl

/-- `compose` of a binary32 or binary64 number. -/
theorem composeB_spec {f : Fmt} (hf : f.Good) {v : Words} {e : Int} {y : Nat} (neg : Bool)
    (h : PartsAre f y (composeParts f e v)) : sign f (composeB f neg e v) = neg ∧
      if y < limit f then Finite f (composeB f neg e v) ∧ mag f (composeB f neg e v) = y
      else Infinite f (composeB f neg e v) := by
  have hm := hf.mask
  have hP : 0 < 2 ^ (f.mant - 1) := Nat.pow_pos (by decide)
  have hlim : limit f = 2 ^ (f.mant - 1) * 2 ^ (2 * f.expBase) := by
    unfold limit
    rw [hm]
    rfl
  have hlp : 0 < limit f := by rw [hlim]; exact Nat.mul_pos hP (Nat.pow_pos (by decide))
  unfold composeB
  revert h
  cases hp : composeParts f e v with
  | infinity =>
    intro h
    obtain ⟨a, b, c, d⟩ := bitsB_fields f neg (e := f.expMask) (s := 0) (Nat.le_refl _)
    refine ⟨d, ?_⟩
    rw [if_neg (by rw [hlim]; exact Nat.not_lt.2 h)]
    exact ⟨a, b, c.trans (Nat.zero_mod _)⟩
  | zero =>
    intro h
    have h : y = 0 := h
    obtain ⟨a, b, c, d⟩ := bitsB_fields f neg (e := 0) (s := 0) (Nat.zero_le _)
    refine ⟨d, ?_⟩
    rw [if_pos (by omega)]
    refine ⟨⟨a, ?_⟩, ?_⟩
    · show expField f (bitsB f neg 0 0) ≠ _
      omega
    · show mag f (bitsB f neg 0 0) = y
      unfold mag
      rw [if_pos b, c, h]
      exact Nat.zero_mod _
  | least => intro h; exact h.elim
  | bits E s =>
    rintro ⟨h0, h1, h2⟩
    obtain ⟨a, b, c, d⟩ := bitsB_fields f neg (e := E.toNat) (s := s) (by omega)
    refine ⟨d, ?_⟩
    dsimp only
    have pm := (pow_mant hf).1
    rcases h2 with ⟨k1, k2, k3⟩ | ⟨k1, k2, k3, k4⟩
    · have : y < limit f := by
        rw [hlim, k3]
        calc s < 2 ^ (f.mant - 1) * 1 := by omega
          _ ≤ _ := Nat.mul_le_mul_left _ (Nat.pow_pos (by decide))
      rw [if_pos this]
      refine ⟨⟨a, by rw [b]; omega⟩, ?_⟩
      unfold mag
      rw [if_pos (by rw [b]; omega), c, k3, Nat.mod_eq_of_lt k2]
    · have : y < limit f := by
        rw [hlim, k4]
        calc s * 2 ^ (E.toNat - 1) < 2 ^ f.mant * 2 ^ (E.toNat - 1) :=
              Nat.mul_lt_mul_of_pos_right k3 (Nat.pow_pos (by decide))
          _ = 2 ^ (f.mant - 1) * 2 ^ (E.toNat - 1 + 1) := by
            rw [pm, Nat.pow_succ, Nat.mul_comm 2, Nat.mul_assoc, Nat.mul_comm 2]
          _ ≤ _ := Nat.mul_le_mul_left _ (Nat.pow_le_pow_right (by decide) (by omega))
      rw [if_pos this]
      refine ⟨⟨a, by rw [b]; omega⟩, ?_⟩
      unfold mag
      rw [if_neg (by rw [b]; omega), b, c, k4]
      congr 1
      rw [Nat.mod_eq_sub_mod k2, Nat.mod_eq_of_lt (by omega)]
      omega

/-! ### 80-bit numbers -/

theorem bits_fields (neg : Bool) {e s : Nat} (he : e ≤ 0x7fff) :
    (F80.bits neg e s).tag < 0x10000 ∧ expField80 (F80.bits neg e s) = e ∧
    (F80.bits neg e s).sig = s ∧ sign80 (F80.bits neg e s) = neg := by
  unfold F80.bits expField80 sign80
  cases neg
  · simp only [Bool.false_eq_true, if_false, true_and, decide_eq_false_iff_not]
    omega
  · simp only [if_true, true_and, decide_eq_true_eq]
    omega

theorem isNegative_eq {x : F80} (h : x.tag < 0x10000) : x.isNegative = sign80 x := by
  unfold F80.isNegative sign80
  rw [Nat.mod_eq_of_lt (by omega)]
  rfl

/-- `compose` of an 80-bit number. -/
theorem compose80_spec {v : Words} {e : Int} {y : Nat} (neg : Bool)
    (h : PartsAre f80 y (composeParts f80 e v)) : sign80 (F80.compose neg e v) = neg ∧
      if y < limit f80 then Finite80 (F80.compose neg e v) ∧ mag80 (F80.compose neg e v) = y
      else Infinite80 (F80.compose neg e v) := by
  have hlim : limit f80 = 2 ^ (f80.mant - 1) * 2 ^ (2 * f80.expBase) := by
    unfold limit
    rw [show f80.expMask - 1 = 2 * f80.expBase by decide]
  have hP : 0 < 2 ^ (f80.mant - 1) := by decide
  have hlp : 0 < limit f80 := by rw [hlim]; exact Nat.mul_pos hP (Nat.pow_pos (by decide))
  have hbase : f80.expBase = 0x3fff := rfl
  generalize limit f80 = L at *
  unfold F80.compose
  revert h
  cases hp : composeParts f80 e v with
  | infinity =>
    intro h
    obtain ⟨a, b, c, d⟩ := bits_fields neg (e := 0x7fff) (s := 2 ^ 63) (Nat.le_refl _)
    refine ⟨d, ?_⟩
    rw [if_neg (by rw [hlim]; exact Nat.not_lt.2 h)]
    exact ⟨a, b, c⟩
  | zero =>
    intro h
    have h : y = 0 := h
    obtain ⟨a, b, c, d⟩ := bits_fields neg (e := 0) (s := 0) (Nat.zero_le _)
    refine ⟨d, ?_⟩
    rw [if_pos (by omega)]
    dsimp only [F80.zero]
    refine ⟨⟨a, by rw [c]; decide, by rw [b]; decide, by rw [b, c]; decide⟩, ?_⟩
    unfold mag80
    rw [c, h, Nat.zero_mul]
  | least => intro h; exact h.elim
  | bits E s =>
    rintro ⟨h0, h1, h2⟩
    obtain ⟨a, b, c, d⟩ := bits_fields neg (e := E.toNat) (s := s) (by omega)
    refine ⟨d, ?_⟩
    dsimp only
    refine Or.elim h2 (fun h2 => ?_) (fun h2 => ?_)
    · have k1 := h2.1
      have k3 := h2.2.2
      have k2 : s < 2 ^ 63 := h2.2.1
      have : y < L := by
        rw [hlim, k3]
        calc s < 2 ^ (f80.mant - 1) * 1 := by rw [Nat.mul_one]; exact k2
          _ ≤ _ := Nat.mul_le_mul_left _ (Nat.pow_pos (by decide))
      rw [if_pos this]
      refine ⟨⟨a, by rw [c]; omega, by rw [b]; omega, by rw [b, c]; omega⟩, ?_⟩
      unfold mag80
      rw [b, c, k3, k1]
      exact Nat.mul_one _
    · have k1 := h2.1
      have k4 := h2.2.2.2
      have k2 : 2 ^ 63 ≤ s := h2.2.1
      have k3 : s < 2 ^ 64 := h2.2.2.1
      have : y < L := by
        rw [hlim, k4]
        calc s * 2 ^ (E.toNat - 1) < 2 ^ 64 * 2 ^ (E.toNat - 1) :=
              Nat.mul_lt_mul_of_pos_right k3 (Nat.pow_pos (by decide))
          _ = 2 ^ (f80.mant - 1) * 2 ^ (E.toNat - 1 + 1) := by
            rw [show 2 ^ 64 = 2 ^ (f80.mant - 1) * 2 from rfl, Nat.pow_succ, Nat.mul_assoc, Nat.mul_comm 2]
          _ ≤ _ := Nat.mul_le_mul_left _ (Nat.pow_le_pow_right (by decide) (by omega))
      rw [if_pos this]
      refine ⟨⟨a, by rw [c]; omega, by rw [b]; omega, by rw [b, c]; omega⟩, ?_⟩
      unfold mag80
      rw [b, c, k4]

/-! ### `decompose` -/

/-- `v`, `e` stand for the magnitude `m` of a format. -/
structure Stands (f : Fmt) (m : Nat) (e : Int) (v : Words) : Prop where
  ok : Ok v
  hi : val v < 2 ^ 80
  lo : 2 ^ 79 ≤ val v
  exact : ∀ a b : Nat, (a : Int) - b = e + f.expBase + f.mant - 81 → val v * 2 ^ a = m * 2 ^ b

theorem stands_of {f : Fmt} {m : Nat} {e : Int} {v : Words} (ok : Ok v) (lo : 2 ^ 79 ≤ val v)
    (hi : val v < 2 ^ 80) {i j : Nat} (h : val v * 2 ^ i = m * 2 ^ j)
    (hk : (i : Int) - j = e + f.expBase + f.mant - 81) : Stands f m e v := by
  refine ⟨ok, hi, lo, ?_⟩
  intro a b hab
  have hpos : 0 < 2 ^ (i + j) := Nat.pow_pos (by decide)
  apply Nat.eq_of_mul_eq_mul_right hpos
  calc val v * 2 ^ a * 2 ^ (i + j) = (val v * 2 ^ i) * 2 ^ (a + j) := by
        rw [Nat.mul_assoc, Nat.mul_assoc, ← Nat.pow_add, ← Nat.pow_add]
        congr 2
        omega
    _ = m * 2 ^ b * 2 ^ (i + j) := by
        rw [h, Nat.mul_assoc, Nat.mul_assoc, ← Nat.pow_add, ← Nat.pow_add]
        congr 2
        omega

theorem decomposeB_spec {f : Fmt} (hf : f.Good) {b : Nat} (hb : Finite f b) :
    (mag f b = 0 → (decomposeB f b).1 = 0 ∧ Ok (decomposeB f b).2 ∧ val (decomposeB f b).2 = 0) ∧
    (mag f b ≠ 0 → Stands f (mag f b) (decomposeB f b).1 (decomposeB f b).2) := by
  have hm2 := hf.mant2
  have hm64 := hf.mant64
  have hP : 0 < 2 ^ (f.mant - 1) := Nat.pow_pos (by decide)
  have hfr : fracField f b < 2 ^ (f.mant - 1) := Nat.mod_lt _ hP
  have hsig : significand f b = (if expField f b ≠ 0 then fracField f b + 2 ^ (f.mant - 1)
      else fracField f b) * 2 ^ (64 - f.mant) := by
    unfold significand
    dsimp only
    rw [if_neg (show ¬ tag f b % (f.expMask + 1) = f.expMask from hb.2)]
    rfl
  have pm := (pow_mant hf).1
  have hQ : 0 < 2 ^ (64 - f.mant) := Nat.pow_pos (by decide)
  have p64 : 2 ^ 64 = 2 ^ f.mant * 2 ^ (64 - f.mant) := by rw [← Nat.pow_add]; congr 1; omega
  have p63 : 2 ^ 63 = 2 ^ (f.mant - 1) * 2 ^ (64 - f.mant) := by rw [← Nat.pow_add]; congr 1; omega
  have hlt : significand f b < 2 ^ 64 := by
    rw [hsig, p64]
    apply Nat.mul_lt_mul_of_pos_right _ hQ
    split <;> omega
  have hok := set_ok (significand f b) 0
  have hval := val_set hlt (show 0 < 65536 by decide)
  rw [Nat.add_zero] at hval
  have hz : isZeroB f b = true ↔ mag f b = 0 := by
    unfold isZeroB mag
    rw [Bool.and_eq_true, beq_iff_eq, beq_iff_eq, hsig]
    show (expField f b = 0 ∧ _) ↔ _
    by_cases h0 : expField f b = 0
    · rw [if_neg (by simpa using h0), if_pos h0]
      constructor
      · rintro ⟨_, h⟩
        rcases Nat.mul_eq_zero.1 h with h | h <;> omega
      · intro h
        rw [h]
        exact ⟨h0, Nat.zero_mul _⟩
    · rw [if_neg h0]
      constructor
      · exact fun h => absurd h.1 h0
      · intro h
        rcases Nat.mul_eq_zero.1 h with h | h
        · omega
        · exact absurd h (Nat.ne_of_gt (Nat.pow_pos (by decide)))
  unfold decomposeB
  dsimp only
  constructor
  · intro h0
    rw [if_pos (hz.2 h0)]
    refine ⟨rfl, hok, ?_⟩
    have h1 := hz.2 h0
    unfold isZeroB at h1
    rw [Bool.and_eq_true, beq_iff_eq, beq_iff_eq] at h1
    rw [hval, h1.2]
  · intro h0
    rw [if_neg (fun h => h0 (hz.1 h))]
    by_cases he : expField f b = 0
    · rw [if_neg (by simpa using he)] at hsig
      have hmag : mag f b = fracField f b := by unfold mag; rw [if_pos he]
      have hs63 : significand f b < 2 ^ 63 := by
        rw [hsig, p63]
        exact Nat.mul_lt_mul_of_pos_right hfr hQ
      have hne : val (set (significand f b) 0) ≠ 0 := by
        rw [hval, hsig]
        intro h
        rcases Nat.mul_eq_zero.1 h with h | h
        · rcases Nat.mul_eq_zero.1 h with h | h <;> omega
        · omega
      have hnn : ¬ normal (set (significand f b) 0) = true := by
        rw [normal_iff hok, hval]
        omega
      rw [if_neg hnn]
      obtain ⟨k, k80, nok, ne, nval, nlo, nhi⟩ := normalize_low hok hne (by rw [hval]; omega)
      refine stands_of nok (by rw [nval]; exact nlo) (by rw [nval]; exact nhi)
        (i := f.mant) (j := 80 + k) ?_ ?_
      · rw [nval, hval, hsig, hmag, show 65536 = 2 ^ 16 from rfl, Nat.mul_assoc, Nat.mul_assoc, Nat.mul_assoc,
          ← Nat.pow_add, ← Nat.pow_add, ← Nat.pow_add]
        congr 2
        omega
      · simp only [ne]
        omega
    · rw [if_pos he] at hsig
      have hmag : mag f b = (2 ^ (f.mant - 1) + fracField f b) * 2 ^ (expField f b - 1) := by
        unfold mag; rw [if_neg he]
      have hs63 : 2 ^ 63 ≤ significand f b := by
        rw [hsig, p63]
        exact Nat.mul_le_mul_right _ (by omega)
      have hn : normal (set (significand f b) 0) = true := by
        rw [normal_iff hok, hval]
        omega
      rw [if_pos hn]
      refine stands_of hok (by rw [hval]; omega) (by rw [hval]; omega)
        (i := f.mant + (expField f b - 1)) (j := 80) ?_ ?_
      · rw [hval, hsig, hmag, Nat.add_comm (fracField f b), show 65536 = 2 ^ 16 from rfl, Nat.mul_assoc,
          Nat.mul_assoc, Nat.mul_assoc, ← Nat.pow_add, ← Nat.pow_add, ← Nat.pow_add]
        congr 2
        omega
      · have : exponent f b = (expField f b : Int) - f.expBase := rfl
        simp only [this]
        omega

theorem decompose80_spec {x : F80} (hx : Finite80 x) :
    (mag80 x = 0 → x.isZero = true ∧ x.decompose.1 = 0 ∧ Ok x.decompose.2 ∧ val x.decompose.2 = 0) ∧
    (mag80 x ≠ 0 → x.isZero = false ∧ Stands f80 (mag80 x) x.decompose.1 x.decompose.2) := by
  obtain ⟨h1, h2, h3, h4⟩ := hx
  have hok := set_ok x.sig 0
  have hval := val_set h2 (show 0 < 65536 by decide)
  rw [Nat.add_zero] at hval
  have hz : x.isZero = true ↔ mag80 x = 0 := by
    unfold F80.isZero mag80
    rw [Bool.and_eq_true, beq_iff_eq, beq_iff_eq]
    show (expField80 x = 0 ∧ _) ↔ _
    constructor
    · rintro ⟨_, h⟩
      rw [h, Nat.zero_mul]
    · intro h
      rcases Nat.mul_eq_zero.1 h with h | h
      · exact ⟨h4.2 (by omega), h⟩
      · exact absurd h (Nat.ne_of_gt (Nat.pow_pos (by decide)))
  have hbm : f80.expBase = 0x3fff ∧ f80.mant = 64 := ⟨rfl, rfl⟩
  unfold F80.decompose
  dsimp only
  constructor
  · intro h0
    have h1 := hz.2 h0
    rw [if_pos h1]
    refine ⟨h1, rfl, hok, ?_⟩
    unfold F80.isZero at h1
    rw [Bool.and_eq_true, beq_iff_eq, beq_iff_eq] at h1
    rw [hval, h1.2]
  · intro h0
    have hf : ¬ x.isZero = true := fun h => h0 (hz.1 h)
    rw [if_neg hf]
    refine ⟨by simpa using hf, ?_⟩
    by_cases he : expField80 x = 0
    · have hs := h4.1 he
      have hmag : mag80 x = x.sig := by
        unfold mag80
        rw [he]
        exact Nat.mul_one _
      have hnn : ¬ normal (set x.sig 0) = true := by
        rw [normal_iff hok, hval]
        omega
      rw [if_neg hnn]
      obtain ⟨k, k80, nok, ne, nval, nlo, nhi⟩ := normalize_low hok (by rw [hval]; omega) (by rw [hval]; omega)
      refine stands_of nok (by rw [nval]; exact nlo) (by rw [nval]; exact nhi)
        (i := 0) (j := 16 + k) ?_ ?_
      · rw [nval, hval, hmag, show 65536 = 2 ^ 16 from rfl, Nat.pow_zero, Nat.mul_one, Nat.mul_assoc, ← Nat.pow_add]
      · simp only [ne, hbm.1, hbm.2]
        omega
    · have hs : 2 ^ 63 ≤ x.sig := by
        apply Nat.le_of_not_lt
        exact fun h => he (h4.2 h)
      have hn : normal (set x.sig 0) = true := by
        rw [normal_iff hok, hval]
        omega
      rw [if_pos hn]
      refine stands_of hok (by rw [hval]; omega) (by rw [hval]; omega)
        (i := expField80 x - 1) (j := 16) ?_ ?_
      · rw [hval]
        unfold mag80
        rw [show 65536 = 2 ^ 16 from rfl, Nat.mul_right_comm]
      · have : x.exponent = (expField80 x : Int) - 0x3fff := rfl
        simp only [this, hbm.1, hbm.2]
        omega

end Libasm.Float
