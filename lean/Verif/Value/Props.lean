import Verif.Value.Bits
/-
Property theorems C12, C13, C14 about integer Values.

C12 and C13 fail in the code for a few operands; the full statements are kept as definitions,
refuted by concrete witnesses, and proved under hypotheses that exclude exactly those operands.
-/
namespace Libasm.Value
open Spec

/-- C12, full statement for one binary operation `op` and the mathematical operation `f`: when
operands and result are in [-2^63, 2^64), the operation yields a value denoting the result. -/
def Exact (op : Value → Value → Option Value) (f : Int → Int → Int) (a b : Value) : Prop :=
  Valid a → Valid b → -2 ^ 63 ≤ f (denote a) (denote b) → f (denote a) (denote b) < 2 ^ 64 →
    ∃ r, op a b = some r ∧ Valid r ∧ denote r = f (denote a) (denote b)

/-- Adding to the smallest negative number is undefined behaviour (negation overflow). -/
theorem C12_violated_add_min :
    ¬ Exact add (· + ·) ⟨2 ^ 63, .signed⟩ ⟨1, .unsigned⟩ := by
  intro h
  obtain ⟨r, h1, _⟩ := h (by decide) (by decide) (by decide) (by decide)
  revert h1
  rw [show add ⟨2 ^ 63, .signed⟩ ⟨1, .unsigned⟩ = none by decide]
  simp

/-- 2^63 - (2^63 + 1) comes out as 2^64 - 1 instead of -1. -/
theorem C12_violated_sub :
    ¬ Exact sub (· - ·) ⟨2 ^ 63, .unsigned⟩ ⟨2 ^ 63 + 1, .unsigned⟩ := by
  intro h
  obtain ⟨r, h1, _, h3⟩ := h (by decide) (by decide) (by decide) (by decide)
  rw [show sub ⟨2 ^ 63, .unsigned⟩ ⟨2 ^ 63 + 1, .unsigned⟩ = some ⟨2 ^ 64 - 1, .unsigned⟩ by
    decide] at h1
  cases h1
  revert h3
  decide

/-- C12, proved part, addition: exact unless an operand or the result is -2^63. -/
theorem C12_add_partial (a b : Value) (ha : Valid a) (hb : Valid b) (ha' : InRange (denote a))
    (hb' : InRange (denote b)) (h : InRange (denote a + denote b)) :
    ∃ r, a.add b = some r ∧ Valid r ∧ denote r = denote a + denote b :=
  add_ok ha hb (by have := ha'.1; simp only [H]; omega) (by have := hb'.1; simp only [H]; omega)
    (by have := h.1; simp only [H]; omega) (by have := h.2; simp only [M]; omega)

/-- C12, proved part, subtraction: exact unless an operand or the result is -2^63 or the
subtrahend is 2^63 or more. -/
theorem C12_sub_partial (a b : Value) (ha : Valid a) (hb : Valid b) (ha' : InRange (denote a))
    (hb' : InRange (denote b)) (hb2 : denote b < 2 ^ 63) (h : InRange (denote a - denote b)) :
    ∃ r, a.sub b = some r ∧ Valid r ∧ denote r = denote a - denote b :=
  sub_ok ha hb (by have := ha'.1; simp only [H]; omega) (by have := hb'.1; simp only [H]; omega)
    (by have := h.1; simp only [H]; omega) (by have := h.2; simp only [M]; omega)
    (by simp only [H]; omega)

/-- C12, proved part, multiplication. -/
theorem C12_mul_partial (a b : Value) (ha : Valid a) (hb : Valid b) (ha' : InRange (denote a))
    (hb' : InRange (denote b)) (h : InRange (denote a * denote b)) :
    ∃ r, a.mul b = some r ∧ Valid r ∧ denote r = denote a * denote b :=
  mul_ok ha hb (by have := ha'.1; simp only [H]; omega) (by have := hb'.1; simp only [H]; omega)
    (by have := h.1; simp only [H]; omega) (by have := h.2; simp only [M]; omega)

/-- C12, proved part, division truncates toward zero. -/
theorem C12_div_partial (a b : Value) (ha : Valid a) (hb : Valid b) (ha' : InRange (denote a))
    (hb' : InRange (denote b)) (h0 : denote b ≠ 0) (h : InRange ((denote a).tdiv (denote b))) :
    ∃ r, a.div b = some r ∧ Valid r ∧ denote r = (denote a).tdiv (denote b) :=
  div_ok ha hb (by have := ha'.1; simp only [H]; omega) (by have := hb'.1; simp only [H]; omega) h0
    (by have := h.1; simp only [H]; omega)

/-- C12, proved part, remainder: has the sign of the dividend. -/
theorem C12_mod_partial (a b : Value) (ha : Valid a) (hb : Valid b) (ha' : InRange (denote a))
    (hb' : InRange (denote b)) (h0 : denote b ≠ 0) :
    ∃ r, a.mod b = some r ∧ Valid r ∧ denote r = (denote a).tmod (denote b) :=
  mod_ok ha hb (by have := ha'.1; simp only [H]; omega) (by have := hb'.1; simp only [H]; omega) h0

/-- C12, proved part, negation. -/
theorem C12_negate_partial (a : Value) (ha : Valid a) (ha' : InRange (denote a))
    (h : InRange (-denote a)) : ∃ r, a.negate = some r ∧ Valid r ∧ denote r = -denote a :=
  negate_ok ha (by have := ha'.1; simp only [H]; omega) (by have := h.1; simp only [H]; omega)

/-- Division and remainder by zero give the undefined value, which `divide`/`modulo` in
src/operators.cpp report as DIVIDE_BY_ZERO. -/
theorem C12_div_by_zero (a b : Value) (hb : Valid b) (h0 : denote b = 0) :
    a.div b = some undefined ∧ a.mod b = some undefined := by
  unfold div mod
  rw [zero_or_undef hb, decide_eq_true h0]
  exact ⟨rfl, rfl⟩

example : Valid ⟨2 ^ 64 - 5, .signed⟩ ∧ Valid ⟨2 ^ 63 + 7, .unsigned⟩ ∧
    denote ⟨2 ^ 64 - 5, .signed⟩ = -5 ∧
    InRange (denote ⟨2 ^ 64 - 5, .signed⟩ + denote ⟨2 ^ 63 + 7, .unsigned⟩) ∧
    add ⟨2 ^ 64 - 5, .signed⟩ ⟨2 ^ 63 + 7, .unsigned⟩ = some ⟨2 ^ 63 + 2, .unsigned⟩ := by decide

example : Valid ⟨2 ^ 64 - 7, .signed⟩ ∧ Valid ⟨2, .unsigned⟩ ∧ InRange (-7) ∧
    div ⟨2 ^ 64 - 7, .signed⟩ ⟨2, .unsigned⟩ = some ⟨2 ^ 64 - 3, .signed⟩ ∧
    mod ⟨2 ^ 64 - 7, .signed⟩ ⟨2, .unsigned⟩ = some ⟨2 ^ 64 - 1, .signed⟩ ∧
    mul ⟨2 ^ 64 - 7, .signed⟩ ⟨2, .unsigned⟩ = some ⟨2 ^ 64 - 14, .signed⟩ ∧
    sub ⟨2, .unsigned⟩ ⟨9, .unsigned⟩ = some ⟨2 ^ 64 - 7, .signed⟩ := by decide

/-- C12, bitwise operators: for all values, the result is the number in [-2^63, 2^63) whose
64-bit two's complement representation is the bitwise combination of those of the operands. -/
theorem C12_bitwise (a b : Value) (ha : Valid a) (hb : Valid b) :
    let bits := fun x : Int => (x % 2 ^ 64).toNat
    let holds := fun (r : Value) (n : Nat) =>
      Valid r ∧ -2 ^ 63 ≤ denote r ∧ denote r < 2 ^ 63 ∧ bits (denote r) = n
    holds (a.bitAnd b) (bits (denote a) &&& bits (denote b)) ∧
    holds (a.bitOr b) (bits (denote a) ||| bits (denote b)) ∧
    holds (a.bitXor b) (bits (denote a) ^^^ bits (denote b)) ∧
    holds a.bitNot (2 ^ 64 - 1 - bits (denote a)) := by
  have e : ∀ v, Valid v → (denote v % 2 ^ 64).toNat = v.bits := fun v hv => bits_denote hv
  have la := bits_lt ha
  have lb := bits_lt hb
  simp only [e a ha, e b hb]
  refine ⟨signedBits_ok ?_, signedBits_ok ?_, signedBits_ok ?_, signedBits_ok ?_⟩
  · exact Nat.and_lt_two_pow (n := 64) _ lb
  · exact Nat.or_lt_two_pow (n := 64) la lb
  · exact Nat.xor_lt_two_pow (n := 64) la lb
  · have : M = 18446744073709551616 := rfl
    omega

/-- C12, complement of a number below 2^63. -/
theorem C12_complement (a : Value) (ha : Valid a) (h : denote a < 2 ^ 63) :
    denote a.bitNot = -denote a - 1 := by
  obtain ⟨-, -, -, -, h1, h2, h3⟩ := C12_bitwise a a ha ha
  have := denote_range ha
  have hH : H = 9223372036854775808 := rfl
  simp only at h3
  omega

/-- C12, right shift is floor division by a power of two. -/
theorem C12_shift_right_partial (a b : Value) (ha : Valid a) (hb : Valid b) (h0 : 0 ≤ denote b)
    (h1 : denote b < 2 ^ 32) :
    Valid (a.shr b) ∧ denote (a.shr b) = denote a / 2 ^ (denote b).toNat :=
  shr_ok ha hb h0 h1

/-- The shift count is cut to 32 bits: 1 >> 2^32 is 1 instead of 0. -/
theorem C12_violated_shift_count : ∃ a b, Valid a ∧ Valid b ∧ 0 ≤ denote b ∧
    denote (a.shr b) = 1 ∧ denote a = 1 ∧ denote b = 2 ^ 32 :=
  ⟨⟨1, .unsigned⟩, ⟨2 ^ 32, .unsigned⟩, by decide⟩

/-- C12, left shift is multiplication by a power of two modulo 2^64. -/
theorem C12_shift_left_partial (a b : Value) (ha : Valid a) (hb : Valid b) (h0 : 0 ≤ denote b)
    (h1 : denote b < 2 ^ 32) :
    Valid (a.shl b) ∧ denote (a.shl b) = denote a * 2 ^ (denote b).toNat % 2 ^ 64 :=
  shl_ok ha hb h0 h1

/-- C12, power: exact when the exponent is not negative and the result is in range. -/
theorem C12_power_partial (a b : Value) (ha : Valid a) (hb : Valid b) (h0 : 0 ≤ denote b)
    (h : InRange (denote a ^ (denote b).toNat)) (hneg : denote a < 0 →
      denote a ^ (denote b).toNat < 2 ^ 63) :
    ∃ r, a.exponential b = some r ∧ Valid r ∧ denote r = denote a ^ (denote b).toNat := by
  have hM : M = 18446744073709551616 := rfl
  have hH : H = 9223372036854775808 := rfl
  obtain ⟨r1, r2⟩ := h
  have eb : (denote b).toNat = b.bits := by
    rcases valid_cases hb with ⟨a1, a2, a3, a4, a5⟩ | ⟨a1, a2, a3, a4, a5, a6, a7⟩ <;> omega
  rw [eb] at hneg r1 r2 ⊢
  unfold exponential
  rcases valid_cases ha with ⟨a1, a2, a3, a4, a5⟩ | ⟨a1, a2, a3, a4, a5, a6, a7⟩
  · rw [a3, if_neg (by decide)]
    have hp := powerU_ok b.bits 1 a.bits
    rw [Nat.one_mul] at hp
    rw [a4] at r2 ⊢
    have e2 : ((a.bits ^ b.bits : Nat) : Int) = (a.bits : Int) ^ b.bits := Int.natCast_pow _ _
    have hlt : a.bits ^ b.bits < M := by omega
    refine ⟨_, rfl, ?_, ?_⟩
    · show powerU 1 a.bits b.bits % M < 2 ^ 64
      exact Nat.mod_lt _ (by decide)
    · show ((powerU 1 a.bits b.bits % M : Nat) : Int) = _
      rw [hp, Nat.mod_eq_of_lt hlt, e2]
  · rw [a3, if_pos rfl]
    have hd : asSigned a.bits = denote a := by omega
    have hneg := hneg (by omega)
    rw [hd, powerS_ok b.bits 1 (denote a) (by decide) (by omega) (by omega), Int.one_mul]
    obtain ⟨g1, g2⟩ := setS_ok (s := denote a ^ b.bits) (by omega) (by omega)
    exact ⟨_, rfl, g1, g2⟩

example : Valid ⟨2 ^ 64 - 8, .signed⟩ ∧ Valid ⟨1, .unsigned⟩ ∧
    shr ⟨2 ^ 64 - 8, .signed⟩ ⟨1, .unsigned⟩ = ⟨2 ^ 64 - 4, .signed⟩ ∧
    bitAnd ⟨2 ^ 64 - 8, .signed⟩ ⟨255, .unsigned⟩ = ⟨248, .unsigned⟩ := by decide +kernel
example : InRange (denote ⟨2 ^ 64 - 3, .signed⟩ ^ (denote ⟨5, .unsigned⟩).toNat) ∧
    denote ⟨2 ^ 64 - 3, .signed⟩ ^ (denote ⟨5, .unsigned⟩).toNat = -243 := by decide

/-- C13, `<`: agrees with the order of the integers, for all values. `>=` is its negation
(src/operators.cpp:151-156). -/
theorem C13_less_than (a b : Value) (ha : Valid a) (hb : Valid b) :
    a.lt b = true ↔ denote a < denote b := by
  rw [lt_ok ha hb, decide_eq_true_eq]

/-- C13, full statement for `==`. -/
def EqualExact (a b : Value) : Prop :=
  Valid a → Valid b → (a.eq b = true ↔ denote a = denote b)

/-- The code violates C13: -1 == 2^64 - 1. -/
theorem C13_violated_equal : ¬ EqualExact ⟨2 ^ 64 - 1, .signed⟩ ⟨2 ^ 64 - 1, .unsigned⟩ := by
  intro h
  have := h (by decide) (by decide)
  revert this
  decide

/-- C13, proved part: `==` is equality of integers unless one operand is negative and the other
2^63 or more. -/
theorem C13_equal_partial (a b : Value)
    (h : (denote a < 2 ^ 63 ∨ 0 ≤ denote b) ∧ (denote b < 2 ^ 63 ∨ 0 ≤ denote a)) :
    EqualExact a b := by
  intro ha hb
  rw [eq_ok ha hb h, decide_eq_true_eq]

/-- C13 for `<=` (`lhs < rhs || lhs == rhs`) and `>` (`!(lhs < rhs) && !(lhs == rhs)`),
src/operators.cpp:144-163. -/
theorem C13_less_equal_partial (a b : Value) (ha : Valid a) (hb : Valid b)
    (h : (denote a < 2 ^ 63 ∨ 0 ≤ denote b) ∧ (denote b < 2 ^ 63 ∨ 0 ≤ denote a)) :
    ((a.lt b || a.eq b) = true ↔ denote a ≤ denote b) ∧
    ((!a.lt b && !a.eq b) = true ↔ denote a > denote b) := by
  rw [lt_ok ha hb, eq_ok ha hb h]
  constructor
  · simp only [Bool.or_eq_true, decide_eq_true_eq]; omega
  · simp only [Bool.and_eq_true, Bool.not_eq_true', decide_eq_false_iff_not]; omega

example : Valid ⟨2 ^ 64 - 1, .signed⟩ ∧ Valid ⟨2 ^ 64 - 2, .unsigned⟩ ∧
    lt ⟨2 ^ 64 - 1, .signed⟩ ⟨2 ^ 64 - 2, .unsigned⟩ = true := by decide

/-- C14: `overflow(max, min)` reports exactly the values outside [min, max], for every value and
every pair of 32-bit bounds. -/
theorem C14_overflow (v : Value) (hv : Valid v) (max : Nat) (min : Int) (hmax : max < 2 ^ 32)
    (hmin : -2 ^ 31 ≤ min) (hmin2 : min < 2 ^ 31) :
    v.overflow max min = true ↔ ¬ (min ≤ denote v ∧ denote v ≤ max) := by
  rw [overflow_ok hv (by omega) (by omega) (by omega), decide_eq_true_eq]
  omega

/-- C14: the fixed width checks. -/
theorem C14_fixed_widths (v : Value) (hv : Valid v) :
    (v.overflowInt8 = true ↔ ¬ (-2 ^ 7 ≤ denote v ∧ denote v < 2 ^ 7)) ∧
    (v.overflowUint8 = true ↔ ¬ (-2 ^ 7 ≤ denote v ∧ denote v < 2 ^ 8)) ∧
    (v.overflowInt16 = true ↔ ¬ (-2 ^ 15 ≤ denote v ∧ denote v < 2 ^ 15)) ∧
    (v.overflowUint16 = true ↔ ¬ (-2 ^ 15 ≤ denote v ∧ denote v < 2 ^ 16)) ∧
    (v.overflowInt32 = true ↔ ¬ (-2 ^ 31 ≤ denote v ∧ denote v < 2 ^ 31)) ∧
    (v.overflowUint32 = true ↔ ¬ (-2 ^ 31 ≤ denote v ∧ denote v < 2 ^ 32)) := by
  refine ⟨?_, ?_, ?_, ?_, ?_, ?_⟩
  · unfold overflowInt8; rw [C14_overflow v hv _ _ (by decide) (by decide) (by decide)]; omega
  · unfold overflowUint8; rw [C14_overflow v hv _ _ (by decide) (by decide) (by decide)]; omega
  · unfold overflowInt16; rw [C14_overflow v hv _ _ (by decide) (by decide) (by decide)]; omega
  · unfold overflowUint16; rw [C14_overflow v hv _ _ (by decide) (by decide) (by decide)]; omega
  · rw [overflowInt32_ok hv, decide_eq_true_eq]; omega
  · rw [overflowUint32_ok hv, decide_eq_true_eq]; omega

example : Valid ⟨2 ^ 64 - 129, .signed⟩ ∧ overflowInt8 ⟨2 ^ 64 - 129, .signed⟩ = true ∧
    overflowUint8 ⟨255, .unsigned⟩ = false := by decide

/-- `overflowInteger(max, min)`, full statement. -/
def OverflowIntegerExact (v : Value) (max : Nat) (min : Int) : Prop :=
  Valid v → max < 2 ^ 64 → -2 ^ 63 ≤ min → min < 2 ^ 63 →
    (v.overflowInteger max min = true ↔ ¬ (min ≤ denote v ∧ denote v ≤ max))

/-- The code violates it for a positive lower bound. -/
theorem C14_violated_overflowInteger : ¬ OverflowIntegerExact ⟨3, .unsigned⟩ 9 5 := by
  intro h
  have := h (by decide) (by decide) (by decide) (by decide)
  revert this
  decide

/-- C14: `overflowInteger` is exact for lower bounds that are not positive. -/
theorem C14_overflowInteger_partial (v : Value) (max : Nat) (min : Int) (hmin : min ≤ 0) :
    OverflowIntegerExact v max min := by
  intro hv h1 h2 h3
  have hM : M = 18446744073709551616 := rfl
  have hH : H = 9223372036854775808 := rfl
  unfold overflowInteger
  rcases valid_cases hv with ⟨a1, a2, a3, a4, a5⟩ | ⟨a1, a2, a3, a4, a5, a6, a7⟩
  · rw [a2, if_pos rfl, decide_eq_true_eq]; omega
  · rw [a2, if_neg (by decide), a7, Bool.or_eq_true, Bool.and_eq_true]
    simp only [decide_eq_true_eq]
    omega

end Libasm.Value
