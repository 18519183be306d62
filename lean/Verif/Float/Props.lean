import Verif.Float.Add
/-
C38 (rounding), C39 (integers), C40 (IEEE patterns there and back), C55 (narrowing), C56 (addition)
and C58 (comparison) of the software floating point numbers. The specification is
Verif/Float/Spec.lean.
-/
namespace Libasm.Float
open Spec

theorem words_eq : ∀ v : Words, words v = val v
  | [] => rfl
  | w :: ws => by
    show w + 65536 * words ws = w + 65536 * val ws
    rw [words_eq ws]

/-! ### C38 -/

/-- C38: rounding six words to `bits` bits of significand (the 80 bits below the high guard) gives a
multiple of `2^(80 - bits)`; no other multiple is nearer, and if one is as near the result is the even
one. The result is the flag that tells an overflow into the high guard. The high guard must not be
all ones, else the carry is lost. -/
theorem C38 (v : Words) (hlen : v.length = 6) (hword : ∀ w ∈ v, w < 65536)
    (hhigh : words v + 2 ^ 80 ≤ 2 ^ 96) (bits : Nat) (h1 : 1 ≤ bits) (h79 : bits ≤ 79) :
    ∃ c, words (roundOff bits v).1 = c * 2 ^ (80 - bits) ∧
      (∀ c', c' ≠ c →
        ((c * 2 ^ (80 - bits) : Nat) - (words v : Int)).natAbs <
          ((c' * 2 ^ (80 - bits) : Nat) - (words v : Int)).natAbs ∨
        (((c * 2 ^ (80 - bits) : Nat) - (words v : Int)).natAbs =
          ((c' * 2 ^ (80 - bits) : Nat) - (words v : Int)).natAbs ∧ c % 2 = 0)) ∧
      ((roundOff bits v).2 = true ↔ 2 ^ 80 ≤ words (roundOff bits v).1) := by
  rw [words_eq, words_eq] at *
  obtain ⟨r1, r2, r3⟩ := roundOff_spec h1 h79 ⟨hlen, hword⟩ hhigh
  rw [nearest_eq] at r2
  exact ⟨_, r2, fun c' hc => near_step _ _ _ (Nat.pow_pos (by decide)) hc, r3⟩

/-- C38 for the precisions that leave the number alone. -/
theorem C38_all (v : Words) (bits : Nat) (h : bits = 0 ∨ 80 ≤ bits) : (roundOff bits v).1 = v := by
  unfold roundOff
  rw [if_pos (by omega)]

/-- A tie between an even and an odd significand of 64 bits. -/
example : roundOff 64 [0x8000, 1, 0, 0, 0x8000, 0] = ([0, 2, 0, 0, 0x8000, 0], false) ∧
    roundOff 64 [0x8000, 2, 0, 0, 0x8000, 0] = ([0, 2, 0, 0, 0x8000, 0], false) ∧
    words [0x8000, 1, 0, 0, 0x8000, 0] + 2 ^ 80 ≤ 2 ^ 96 ∧
    roundOff 24 [0, 0, 0x80, 0xffff, 0xffff, 0] = ([0, 0, 0, 0, 0, 1], true) := by decide

/-! ### C39 -/

/-- C39 for unsigned integers: the 80-bit number is the integer. -/
theorem C39_unsigned (u : Nat) (hu : u < 2 ^ 64) :
    Finite80 (F80.ofNat u) ∧ num80 (F80.ofNat u) = u * (2 ^ 16445 : Nat) := by
  obtain ⟨h1, h2, h3⟩ := ofNat_spec hu
  refine ⟨h1, ?_⟩
  unfold num80
  rw [h2, h3, Int.natCast_mul]
  rfl

/-- C39 for signed integers, except the least one. -/
theorem C39_partial (i : Int) (h1 : -2 ^ 63 < i) (h2 : i < 2 ^ 63) :
    ∃ x, F80.ofInt i = some x ∧ Finite80 x ∧ num80 x = i * (2 ^ 16445 : Nat) := by
  unfold F80.ofInt
  by_cases hp : 0 ≤ i
  · rw [if_pos hp]
    refine ⟨_, rfl, ?_⟩
    obtain ⟨o1, o2⟩ := C39_unsigned i.toNat (by omega)
    refine ⟨o1, ?_⟩
    rw [o2, Int.toNat_of_nonneg hp]
  · rw [if_neg hp, if_neg (by omega)]
    refine ⟨_, rfl, ?_⟩
    obtain ⟨o1, o2, o3⟩ := ofNat_spec (u := (-i).toNat) (by omega)
    generalize hx : F80.ofNat (-i).toNat = x at *
    have e : expField80 { x with tag := x.tag % 0x8000 + 0x8000 } = expField80 x := by
      unfold expField80
      dsimp only
      omega
    have s : sign80 { x with tag := x.tag % 0x8000 + 0x8000 } = true := by
      unfold sign80
      dsimp only
      rw [decide_eq_true_eq]
      omega
    have m : mag80 { x with tag := x.tag % 0x8000 + 0x8000 } = mag80 x := by
      unfold mag80
      rw [e]
    refine ⟨⟨by dsimp only; omega, o1.2.1, by rw [e]; exact o1.2.2.1, by rw [e]; exact o1.2.2.2⟩, ?_⟩
    unfold num80
    rw [if_pos s, m, o3, Int.natCast_mul, ← Int.neg_mul]
    have e' : -((-i).toNat : Int) = i := by omega
    rw [e']

/-- C39 is violated by the least integer: its negation overflows, which is undefined. -/
theorem C39_violated_min : F80.ofInt (-2 ^ 63) = none := by decide

example : F80.ofInt (-10) = some ⟨0xc002, 0xa000000000000000⟩ ∧ (-2 ^ 63 : Int) < -10 := by decide

/-! ### C40 -/

/-- The two IEEE formats. -/
def Ieee (f : Fmt) : Prop := f = f32 ∨ f = f64

theorem Ieee.fits {f : Fmt} (h : Ieee f) : f.Fits := by
  rcases h with rfl | rfl
  · exact fits32
  · exact fits64

/-- C40: widening a finite number is exact. -/
theorem C40_exact {f : Fmt} (hf : Ieee f) {b : Nat} (hb : Finite f b) :
    Finite80 (F80.ofBits f b) ∧ sign80 (F80.ofBits f b) = sign f b ∧
    mag80 (F80.ofBits f b) = mag f b * unit f :=
  ofBits_finite hf.fits hb

theorem nanB_fields {f : Fmt} (hf : f.Fits) (s : Bool) : IsNan f (nanB f s) ∧ sign f (nanB f s) = s := by
  obtain ⟨h1, h2, h3, h4⟩ := bitsB_fields f s (e := f.expMask) (s := 2 ^ (f.mant - 2)) (Nat.le_refl _)
  refine ⟨⟨h1, h2, ?_⟩, h4⟩
  unfold nanB
  have := hf.good.mant2
  rw [h3, Nat.mod_eq_of_lt (Nat.pow_lt_pow_right (by decide) (by omega))]
  exact Nat.ne_of_gt (Nat.pow_pos (by decide))

theorem infB_fields (f : Fmt) (s : Bool) :
    Infinite f (infinityB f s) ∧ sign f (infinityB f s) = s := by
  obtain ⟨h1, h2, h3, h4⟩ := bitsB_fields f s (e := f.expMask) (s := 0) (Nat.le_refl _)
  exact ⟨⟨h1, h2, by unfold infinityB; rw [h3]; exact Nat.zero_mod _⟩, h4⟩

theorem inf_fields (s : Bool) : Infinite80 (F80.infinity s) ∧ sign80 (F80.infinity s) = s ∧
    (F80.infinity s).isNan = false ∧ (F80.infinity s).isInf = true ∧ (F80.infinity s).isNegative = s := by
  cases s <;> (unfold Infinite80; decide)

theorem nan_fields (s : Bool) : IsNan80 (F80.nan s) ∧ sign80 (F80.nan s) = s ∧
    (F80.nan s).isNan = true ∧ (F80.nan s).isNegative = s := by
  cases s <;> (unfold IsNan80; decide)

/-- C40: every finite bit pattern and every infinity comes back unchanged from the 80-bit format; a
NaN comes back as a NaN of the same sign. -/
theorem C40 {f : Fmt} (hf : Ieee f) (b : Nat) (hb : Pattern f b) :
    (¬ IsNan f b → F80.toBits f (F80.ofBits f b) = b) ∧
    (IsNan f b → IsNan f (F80.toBits f (F80.ofBits f b)) ∧
      sign f (F80.toBits f (F80.ofBits f b)) = sign f b) := by
  by_cases he : expField f b = f.expMask
  · have hsig : significand f b = fracField f b := by
      unfold significand
      rw [if_pos (show tag f b % (f.expMask + 1) = f.expMask from he)]
      rfl
    have ht : (tag f b % (f.expMask + 1) == f.expMask) = true := beq_iff_eq.2 he
    by_cases h0 : fracField f b = 0
    · refine ⟨fun _ => ?_, fun h => absurd h0 h.2.2⟩
      have n1 : isNanB f b = false := by unfold isNanB; rw [hsig, h0]; simp
      have n2 : isInfB f b = true := by unfold isInfB; rw [hsig, h0, ht]; rfl
      obtain ⟨i1, i2, i3, i4, i5⟩ := inf_fields (isNegativeB f b)
      have : F80.toBits f (F80.ofBits f b) = infinityB f (isNegativeB f b) := by
        unfold F80.ofBits
        rw [n1, n2]
        unfold F80.toBits
        simp only [Bool.false_eq_true, if_false, if_true, i3, i4, i5]
      rw [this]
      obtain ⟨j1, j2⟩ := infB_fields f (isNegativeB f b)
      refine pattern_ext j1.1 hb (j2.trans (isNegativeB_eq f hb)) (j1.2.1.trans he.symm) ?_
      rw [j1.2.2, h0]
    · refine ⟨fun h => absurd ⟨hb, he, h0⟩ h, fun _ => ?_⟩
      have n1 : isNanB f b = true := by unfold isNanB; rw [hsig, ht]; simp [h0]
      obtain ⟨i1, i2, i3, i4⟩ := nan_fields (isNegativeB f b)
      have : F80.toBits f (F80.ofBits f b) = nanB f (isNegativeB f b) := by
        unfold F80.ofBits
        rw [n1]
        unfold F80.toBits
        simp only [if_true, i3, i4]
      rw [this]
      obtain ⟨j1, j2⟩ := nanB_fields hf.fits (isNegativeB f b)
      exact ⟨j1, j2.trans (isNegativeB_eq f hb)⟩
  · exact ⟨fun _ => roundtrip_finite hf.fits ⟨hb, he⟩, fun h => absurd h.2.1 he⟩

/-- The least subnormal of binary32 and -1.5 of binary64, as 80-bit numbers and back. -/
example : F80.ofBits f32 1 = ⟨0x3f6a, 0x8000000000000000⟩ ∧ F80.toBits f32 ⟨0x3f6a, 0x8000000000000000⟩ = 1 ∧
    F80.ofBits f64 0xbff8000000000000 = ⟨0xbfff, 0xc000000000000000⟩ ∧
    Finite f32 1 ∧ Finite f64 0xbff8000000000000 := by
  unfold Finite Pattern
  decide

/-! ### C55 -/

/-- C55: converting a finite 80-bit number to binary32 or binary64 rounds to the nearest number, ties
to even; beyond the largest number it gives an infinity. -/
theorem C55 {f : Fmt} (hf : Ieee f) {x : F80} (hx : Finite80 x) :
    Rounded f (sign80 x) (mag80 x) (unit f) (F80.toBits f x) :=
  toBits_finite hf.fits hx

/-- C55: infinities and NaN. -/
theorem C55_special {f : Fmt} (hf : Ieee f) {x : F80} :
    (Infinite80 x → Infinite f (F80.toBits f x) ∧ sign f (F80.toBits f x) = sign80 x) ∧
    (IsNan80 x → IsNan f (F80.toBits f x) ∧ sign f (F80.toBits f x) = sign80 x) := by
  constructor
  · intro ⟨h1, h2, h3⟩
    have ht : x.tag % 0x8000 = 0x7fff := h2
    have n1 : x.isNan = false := by unfold F80.isNan; rw [ht, h3]; rfl
    have n2 : x.isInf = true := by unfold F80.isInf; rw [ht, h3]; rfl
    have : F80.toBits f x = infinityB f x.isNegative := by
      unfold F80.toBits
      simp only [n1, n2, Bool.false_eq_true, if_false, if_true]
    rw [this, ← isNegative_eq h1]
    exact infB_fields f _
  · intro ⟨h1, h2, h3, h4⟩
    have ht : x.tag % 0x8000 = 0x7fff := h2
    have n1 : x.isNan = true := by unfold F80.isNan; rw [ht]; simp [h4]
    have : F80.toBits f x = nanB f x.isNegative := by
      unfold F80.toBits
      simp only [n1, if_true]
    rw [this, ← isNegative_eq h1]
    exact nanB_fields hf.fits _

/-- 1 + 2^-24 is halfway between two numbers of binary32, and above all of the largest binary32
number comes infinity. -/
example : F80.toBits f32 ⟨0x3fff, 0x8000008000000000⟩ = 0x3f800000 ∧
    F80.toBits f32 ⟨0x3fff, 0x8000008000000001⟩ = 0x3f800001 ∧
    F80.toBits f32 ⟨0x407e, 0xffffff8000000000⟩ = 0x7f800000 ∧
    Finite80 ⟨0x3fff, 0x8000008000000001⟩ := by
  unfold Finite80
  decide

/-! ### C56 -/

/-- C56: the sum of two finite numbers is the exact sum rounded to the nearest number, ties to even.
A sum of zero is negative if both operands are. -/
theorem C56 {a b : F80} (ha : Finite80 a) (hb : Finite80 b) :
    (num80 a + num80 b ≠ 0 →
      Rounded80 (decide (num80 a + num80 b < 0)) (num80 a + num80 b).natAbs 1 (F80.add a b)) ∧
    (num80 a + num80 b = 0 →
      Finite80 (F80.add a b) ∧ num80 (F80.add a b) = 0 ∧
      sign80 (F80.add a b) = (sign80 a && sign80 b)) := by
  obtain ⟨h1, h2⟩ := add_finite ha hb
  refine ⟨h1, fun h => ?_⟩
  rw [h2 h]
  obtain ⟨z1, z2, z3⟩ := zero_fields (sign80 a && sign80 b)
  refine ⟨z1, ?_, z3⟩
  have := num80_abs (F80.zero (sign80 a && sign80 b))
  omega

/-- What kind of number the tests of the code say it is. -/
theorem kinds {x : F80} : (Finite80 x → x.isNan = false ∧ x.isInf = false) ∧
    (Infinite80 x → x.isNan = false ∧ x.isInf = true ∧ x.isZero = false) ∧
    (IsNan80 x → x.isNan = true ∧ x.isInf = false ∧ x.isZero = false) := by
  refine ⟨finite_not, ?_, ?_⟩
  · intro ⟨h1, h2, h3⟩
    have ht : x.tag % 0x8000 = 0x7fff := h2
    unfold F80.isNan F80.isInf F80.isZero
    rw [ht, h3]
    exact ⟨rfl, rfl, rfl⟩
  · intro ⟨h1, h2, h3, h4⟩
    have ht : x.tag % 0x8000 = 0x7fff := h2
    unfold F80.isNan F80.isInf F80.isZero
    rw [ht]
    simp [h4]

/-- C56: infinities and NaN. -/
theorem C56_special {a b : F80} (ha : Valid80 a) :
    (IsNan80 a ∨ IsNan80 b → IsNan80 (F80.add a b)) ∧
    (Infinite80 a → Finite80 b → Infinite80 (F80.add a b) ∧ sign80 (F80.add a b) = sign80 a) ∧
    (Finite80 a → Infinite80 b → Infinite80 (F80.add a b) ∧ sign80 (F80.add a b) = sign80 b) ∧
    (Infinite80 a → Infinite80 b →
      if sign80 a = sign80 b then Infinite80 (F80.add a b) ∧ sign80 (F80.add a b) = sign80 a
      else IsNan80 (F80.add a b)) := by
  refine ⟨?_, ?_, ?_, ?_⟩
  · intro h
    unfold F80.add
    by_cases hn : IsNan80 a
    · rw [(kinds.2.2 hn).1, if_pos rfl]
      exact hn
    · have an : a.isNan = false := by
        rcases ha with h | h | h
        · exact (kinds.1 h).1
        · exact (kinds.2.1 h).1
        · exact absurd h hn
      rcases h with h | h
      · exact absurd h hn
      · rw [an, (kinds.2.2 h).1]
        simpa using h
  · intro h h'
    obtain ⟨i1, i2, _⟩ := inf_fields a.isNegative
    have : F80.add a b = F80.infinity a.isNegative := by
      unfold F80.add
      simp [kinds.2.1 h, kinds.1 h']
    rw [this, ← isNegative_eq h.1]
    exact ⟨i1, i2⟩
  · intro h h'
    obtain ⟨i1, i2, _⟩ := inf_fields b.isNegative
    have : F80.add a b = F80.infinity b.isNegative := by
      unfold F80.add
      simp [kinds.2.1 h', kinds.1 h]
    rw [this, ← isNegative_eq h'.1]
    exact ⟨i1, i2⟩
  · intro h h'
    unfold F80.add
    simp only [kinds.2.1 h, kinds.2.1 h', Bool.false_eq_true, if_false, Bool.and_self, if_true,
      isNegative_eq h.1, isNegative_eq h'.1, beq_iff_eq]
    by_cases hs : sign80 a = sign80 b
    · rw [if_pos hs, if_pos hs]
      obtain ⟨i1, i2, _⟩ := inf_fields (sign80 a)
      exact ⟨i1, i2⟩
    · rw [if_neg hs, if_neg hs]
      exact (nan_fields false).1

/-- 1 + 2^-64 is halfway between 1 and the next number; 2^-64 more is above it. -/
example : F80.add ⟨0x3fff, 2 ^ 63⟩ ⟨0x3fbf, 2 ^ 63⟩ = ⟨0x3fff, 2 ^ 63⟩ ∧
    F80.add ⟨0x3fff, 2 ^ 63⟩ ⟨0x3fbf, 2 ^ 63 + 1⟩ = ⟨0x3fff, 2 ^ 63 + 1⟩ ∧
    F80.add ⟨0x3fff, 2 ^ 63 + 1⟩ ⟨0xbfff, 2 ^ 63⟩ = ⟨0x3fc0, 2 ^ 63⟩ ∧
    Finite80 ⟨0x3fbf, 2 ^ 63 + 1⟩ := by
  unfold Finite80
  decide

/-! ### C58 -/

/-- C58: the comparisons are those of the numbers; nothing is equal to or less than a NaN. -/
theorem C58 {a b : F80} (ha : Valid80 a) (hb : Valid80 b) :
    (F80.eq a b = true ↔ Same80 a b) ∧ (F80.lt a b = true ↔ Less80 a b) := by
  have ninf : ∀ {x : F80}, Finite80 x → Infinite80 x → False := fun h h' => h.2.2.1 h'.2.1
  have nnan : ∀ {x : F80}, Finite80 x → IsNan80 x → False := fun h h' => h.2.2.1 h'.2.1
  have innan : ∀ {x : F80}, Infinite80 x → IsNan80 x → False := fun h h' => by
    have h1 := h.2.2
    have h2 := h'.2.2.2
    rw [h1] at h2
    exact h2 (by decide)
  have negk : ∀ {x : F80}, Infinite80 x → Infinite80 (F80.neg x) := fun h => by
    obtain ⟨n1, n2, n3, n4⟩ := neg_fields h.1
    exact ⟨n1, n2.trans h.2.1, n3.trans h.2.2⟩
  have infz : ∀ {x : F80}, Infinite80 x → x.isZero = false ∧ x.isNegative = sign80 x :=
    fun h => ⟨(kinds.2.1 h).2.2, isNegative_eq h.1⟩
  rcases ha with ha | ha | ha
  · rcases hb with hb | hb | hb
    · -- two finite numbers
      obtain ⟨s1, s2⟩ := sub_sign ha hb
      unfold F80.eq F80.lt
      simp only [kinds.1 ha, kinds.1 hb, Bool.false_eq_true, if_false, Bool.and_self, Bool.or_self,
        isZero_eq ha, isZero_eq hb]
      have hS : Same80 a b ↔ num80 a = num80 b :=
        ⟨fun h => h.elim (fun h => h.2.2) (fun h => (ninf ha h.1).elim), fun h => Or.inl ⟨ha, hb, h⟩⟩
      have hL : Less80 a b ↔ num80 a < num80 b := by
        refine ⟨fun h => ?_, fun h => Or.inl ⟨ha, hb, h⟩⟩
        rcases h with h | h | h | h
        · exact h.2.2
        · exact (ninf ha h.1).elim
        · exact (ninf hb h.2.1).elim
        · exact (ninf ha h.1).elim
      rw [hS, hL]
      have na := num80_abs a
      have nb := num80_abs b
      by_cases h0 : mag80 a = 0 ∧ mag80 b = 0
      · simp only [h0.1, h0.2, decide_true, Bool.and_self, if_true]
        constructor
        · exact ⟨fun _ => (by omega), fun _ => trivial⟩
        · constructor
          · intro h; cases h
          · intro h; omega
      · have : (decide (mag80 a = 0) && decide (mag80 b = 0)) = false := by
          rw [Bool.and_eq_false_iff, decide_eq_false_iff_not, decide_eq_false_iff_not]
          omega
        rw [this, s1, s2 (by omega)]
        simp
    · -- finite and infinite
      have hz := infz hb
      obtain ⟨_, _, sp, _⟩ := C56_special (b := F80.neg b) (Or.inl ha)
      obtain ⟨p1, p2⟩ := sp ha (negk hb)
      rw [(neg_fields hb.1).2.2.2] at p2
      unfold F80.eq F80.lt
      simp only [kinds.1 ha, kinds.2.1 hb, Bool.and_false, Bool.false_and, Bool.false_eq_true, if_false, Bool.or_self]
      unfold F80.sub
      rw [(infz p1).1, (infz p1).2, p2]
      constructor
      · refine ⟨fun h => (by cases h), fun h => ?_⟩
        rcases h with h | h
        · exact (ninf h.2.1 hb).elim
        · exact (ninf ha h.1).elim
      · rw [Bool.not_eq_true']
        refine ⟨fun h => Or.inr (Or.inr (Or.inl ⟨ha, hb, h⟩)), fun h => ?_⟩
        rcases h with h | h | h | h
        · exact (ninf h.2.1 hb).elim
        · exact (ninf ha h.1).elim
        · exact h.2.2
        · exact (ninf ha h.1).elim
    · unfold F80.eq F80.lt
      simp only [kinds.1 ha, kinds.2.2 hb, Bool.and_false, Bool.or_true, Bool.false_eq_true, if_false, if_true,
        false_iff]
      constructor
      · intro h
        rcases h with h | h
        · exact nnan h.2.1 hb
        · exact innan h.2.1 hb
      · intro h
        rcases h with h | h | h | h
        · exact nnan h.2.1 hb
        · exact nnan h.2.2 hb
        · exact innan h.2.1 hb
        · exact innan h.2.2.1 hb
  · rcases hb with hb | hb | hb
    · -- infinite and finite
      have hz := infz ha
      obtain ⟨_, sp, _, _⟩ := C56_special (b := F80.neg b) (Or.inr (Or.inl ha))
      obtain ⟨p1, p2⟩ := sp ha (neg_finite hb).1
      unfold F80.eq F80.lt
      simp only [kinds.1 hb, kinds.2.1 ha, Bool.and_false, Bool.false_and, Bool.false_eq_true, if_false, Bool.or_self]
      unfold F80.sub
      rw [(infz p1).1, (infz p1).2, p2]
      constructor
      · refine ⟨fun h => (by cases h), fun h => ?_⟩
        rcases h with h | h
        · exact (ninf h.1 ha).elim
        · exact (ninf hb h.2.1).elim
      · refine ⟨fun h => Or.inr (Or.inl ⟨ha, h, hb⟩), fun h => ?_⟩
        rcases h with h | h | h | h
        · exact (ninf h.1 ha).elim
        · exact h.2.1
        · exact (ninf h.1 ha).elim
        · exact h.2.1
    · unfold F80.eq F80.lt
      simp only [kinds.2.1 ha, kinds.2.1 hb, Bool.and_self, Bool.false_eq_true, if_false, if_true,
        isNegative_eq ha.1, isNegative_eq hb.1, beq_iff_eq, Bool.and_eq_true, Bool.not_eq_true']
      constructor
      · refine ⟨fun h => Or.inr ⟨ha, hb, h⟩, fun h => ?_⟩
        rcases h with h | h
        · exact (ninf h.1 ha).elim
        · exact h.2.2
      · refine ⟨fun h => Or.inr (Or.inr (Or.inr ⟨ha, h.1, hb, h.2⟩)), fun h => ?_⟩
        rcases h with h | h | h | h
        · exact (ninf h.1 ha).elim
        · exact (ninf h.2.2 hb).elim
        · exact (ninf h.1 ha).elim
        · exact ⟨h.2.1, h.2.2.2⟩
    · unfold F80.eq F80.lt
      simp only [kinds.2.1 ha, kinds.2.2 hb, Bool.and_false, Bool.or_true, Bool.false_eq_true, if_false, if_true,
        false_iff]
      constructor
      · intro h
        rcases h with h | h
        · exact nnan h.2.1 hb
        · exact innan h.2.1 hb
      · intro h
        rcases h with h | h | h | h
        · exact nnan h.2.1 hb
        · exact nnan h.2.2 hb
        · exact innan h.2.1 hb
        · exact innan h.2.2.1 hb
  · unfold F80.eq F80.lt
    simp only [kinds.2.2 ha, Bool.false_and, Bool.true_or, Bool.false_eq_true, if_false, if_true,
      false_iff]
    constructor
    · intro h
      rcases h with h | h
      · exact nnan h.1 ha
      · exact innan h.1 ha
    · intro h
      rcases h with h | h | h | h
      · exact nnan h.1 ha
      · exact innan h.1 ha
      · exact nnan h.1 ha
      · exact innan h.1 ha

/-- -inf < -1 < 1 < 1 + 2^-63, -0 = +0, NaN is not equal to itself. -/
example : F80.lt ⟨0xffff, 2 ^ 63⟩ ⟨0xbfff, 2 ^ 63⟩ = true ∧ F80.lt ⟨0xbfff, 2 ^ 63⟩ ⟨0x3fff, 2 ^ 63⟩ = true ∧
    F80.lt ⟨0x3fff, 2 ^ 63⟩ ⟨0x3fff, 2 ^ 63 + 1⟩ = true ∧ F80.eq ⟨0x8000, 0⟩ ⟨0, 0⟩ = true ∧
    F80.eq ⟨0x7fff, 3 * 2 ^ 62⟩ ⟨0x7fff, 3 * 2 ^ 62⟩ = false ∧ Valid80 ⟨0xffff, 2 ^ 63⟩ := by
  unfold Valid80 Finite80 Infinite80 IsNan80
  decide

end Libasm.Float
