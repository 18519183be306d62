import Verif.Float.Soft
/-
Specification of the floating point properties (C38-C40 and C55-C59): the number a bit pattern
stands for, and what it means to round correctly. Nothing here uses the functions of the model, only
its data types and the constants of the formats.

Magnitudes are natural numbers, in units of the smallest positive number of the format.
-/
namespace Libasm.Float.Spec

/-! ### Rounding -/

/-- `y` can be written with a significand of `p` bits. -/
def Rep (p y : Nat) : Prop := ∃ s k, s < 2 ^ p ∧ y = s * 2 ^ k

/-- The distance of the number `y` from `x / d`, times `d`. -/
def dist (x d y : Nat) : Nat := ((y * d : Nat) - (x : Int)).natAbs

/-- `y` is `x / d` correctly rounded to `p` bits: no other number of `p` bits is nearer, and if one
is as near, the significand of `y` is even. -/
def IsNearest (p x d y : Nat) : Prop :=
  Rep p y ∧ ∀ z, Rep p z → z ≠ y →
    dist x d y < dist x d z ∨
    (dist x d y = dist x d z ∧ ∃ s k, s < 2 ^ (p - 1) ∧ y = s * 2 ^ (k + 1))

/-! ### binary32 and binary64 (IEEE 754) -/

/-- The exponent field of a pattern. -/
def expField (f : Fmt) (b : Nat) : Nat := b / 2 ^ (f.mant - 1) % (f.expMask + 1)

/-- The fraction field. -/
def fracField (f : Fmt) (b : Nat) : Nat := b % 2 ^ (f.mant - 1)

/-- The sign. -/
def sign (f : Fmt) (b : Nat) : Bool := decide (b / 2 ^ (f.mant - 1) / (f.expMask + 1) = 1)

/-- A bit pattern of the format. -/
def Pattern (f : Fmt) (b : Nat) : Prop := b < 2 * (f.expMask + 1) * 2 ^ (f.mant - 1)

/-- Neither infinity nor a NaN. -/
def Finite (f : Fmt) (b : Nat) : Prop := Pattern f b ∧ expField f b ≠ f.expMask

/-- The magnitude of a finite number. -/
def mag (f : Fmt) (b : Nat) : Nat :=
  if expField f b = 0 then fracField f b
  else (2 ^ (f.mant - 1) + fracField f b) * 2 ^ (expField f b - 1)

/-- An infinity. -/
def Infinite (f : Fmt) (b : Nat) : Prop := Pattern f b ∧ expField f b = f.expMask ∧ fracField f b = 0

/-- A NaN. -/
def IsNan (f : Fmt) (b : Nat) : Prop := Pattern f b ∧ expField f b = f.expMask ∧ fracField f b ≠ 0

/-- The first magnitude that is too large for the format. -/
def limit (f : Fmt) : Nat := 2 ^ (f.mant - 1) * 2 ^ (f.expMask - 1)

/-- `b` is `x / d` correctly rounded, with the sign given: an infinity if the rounded number is
beyond the largest of the format. -/
def Rounded (f : Fmt) (neg : Bool) (x d b : Nat) : Prop :=
  ∃ y, IsNearest f.mant x d y ∧ sign f b = neg ∧
    if y < limit f then Finite f b ∧ mag f b = y else Infinite f b

/-! ### The 80-bit format -/

/-- The exponent field. -/
def expField80 (x : F80) : Nat := x.tag % 0x8000

/-- The sign. -/
def sign80 (x : F80) : Bool := decide (x.tag / 0x8000 = 1)

/-- A finite number: the explicit leading bit is set unless the number is subnormal. -/
def Finite80 (x : F80) : Prop :=
  x.tag < 0x10000 ∧ x.sig < 2 ^ 64 ∧ expField80 x ≠ 0x7fff ∧
    (expField80 x = 0 ↔ x.sig < 2 ^ 63)

/-- The magnitude of a finite number. -/
def mag80 (x : F80) : Nat := x.sig * 2 ^ (expField80 x - 1)

/-- The signed number. -/
def num80 (x : F80) : Int := if sign80 x then -(mag80 x : Int) else mag80 x

/-- An infinity. -/
def Infinite80 (x : F80) : Prop := x.tag < 0x10000 ∧ expField80 x = 0x7fff ∧ x.sig = 2 ^ 63

/-- A NaN. -/
def IsNan80 (x : F80) : Prop :=
  x.tag < 0x10000 ∧ expField80 x = 0x7fff ∧ x.sig < 2 ^ 64 ∧ x.sig % 2 ^ 63 ≠ 0

/-- `r` is `x / d` correctly rounded. -/
def Rounded80 (neg : Bool) (x d : Nat) (r : F80) : Prop :=
  ∃ y, IsNearest 64 x d y ∧ sign80 r = neg ∧
    if y < limit f80 then Finite80 r ∧ mag80 r = y else Infinite80 r

/-- `r` is the correct rounding of a number that is at most `x / d` and less by at most `2^-k` of it. -/
def RoundedNear80 (k : Nat) (neg : Bool) (x d : Nat) (r : F80) : Prop :=
  ∃ x' d', 0 < d' ∧ x' * d ≤ x * d' ∧ (x * d' - x' * d) * 2 ^ k ≤ x * d' ∧ Rounded80 neg x' d' r

/-- A bit pattern that the format defines: finite, an infinity or a NaN. -/
def Valid80 (x : F80) : Prop := Finite80 x ∨ Infinite80 x ∨ IsNan80 x

/-- `a` and `b` are the same number; a NaN is not a number. -/
def Same80 (a b : F80) : Prop :=
  (Finite80 a ∧ Finite80 b ∧ num80 a = num80 b) ∨
  (Infinite80 a ∧ Infinite80 b ∧ sign80 a = sign80 b)

/-- `a` is less than `b`. -/
def Less80 (a b : F80) : Prop :=
  (Finite80 a ∧ Finite80 b ∧ num80 a < num80 b) ∨
  (Infinite80 a ∧ sign80 a = true ∧ Finite80 b) ∨
  (Finite80 a ∧ Infinite80 b ∧ sign80 b = false) ∨
  (Infinite80 a ∧ sign80 a = true ∧ Infinite80 b ∧ sign80 b = false)

/-- The unit of a format in units of the 80-bit format: 2^-16445 is the smallest positive 80-bit
number, 2^-149 that of binary32, 2^-1074 that of binary64. -/
def unit (f : Fmt) : Nat := 2 ^ (16445 - (f.expBase + f.mant - 2))

/-! ### Decimal point of the fixed point numbers -/

/-- The number that six words stand for, the least significant word first. -/
def words (v : Words) : Nat := v.foldr (fun w n => w + 65536 * n) 0

end Libasm.Float.Spec
