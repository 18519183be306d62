import Verif.Base.Error
import Verif.Float.Spec
/-
Specification of C67 and C68: the numbers that bit patterns of DEC and IBM machines stand for, and what
it means to convert to them. Magnitudes are in units of 2^-16445, the smallest positive 80-bit number
(`Spec.mag80`), so that `2 ^ 16445` is 1.0. Nothing here uses the functions of the model.
-/
namespace Libasm.Float.Spec

/-! ### DEC: |sign|exponent(8)|fraction(m-1)| -/

/-- The sign of a pattern. -/
def decSign (m b : Nat) : Bool := decide (b / 2 ^ (m - 1) / 256 = 1)

/-- Its exponent field. -/
def decExp (m b : Nat) : Nat := b / 2 ^ (m - 1) % 256

/-- The magnitude: zero if the exponent field is zero, else the fraction `0.1f` (the bit after the
point is not stored) times `2 ^ (exponent - 128)`. -/
def decMag (m b : Nat) : Nat :=
  if decExp m b = 0 then 0
  else (2 ^ (m - 1) + b % 2 ^ (m - 1)) * 2 ^ decExp m b * 2 ^ (16445 - 128 - m)

/-- What a conversion to the format yields for a number of sign `neg` whose magnitude, correctly
rounded to `m` bits, is `y`: a number of 2^127 or more is an error, one less than 2^-128 is zero and
any other is represented. -/
def DecResult (m : Nat) (neg : Bool) (y : Nat) (err : Err) (b : Nat) : Prop :=
  b < 2 ^ (m + 8) ∧ decSign m b = neg ∧
  if 2 ^ (16445 + 127) ≤ y then err = .OVERFLOW_RANGE ∧ decMag m b = 0
  else if y < 2 ^ (16445 - 128) then err = .OK ∧ decMag m b = 0
  else err = .OK ∧ decMag m b = y

/-! ### IBM: |sign|exponent(7)|fraction(m)| -/

/-- The sign of a pattern. -/
def ibmSign (m b : Nat) : Bool := decide (b / 2 ^ m / 128 = 1)

/-- Its exponent field. -/
def ibmExp (m b : Nat) : Nat := b / 2 ^ m % 128

/-- The magnitude: the fraction times `16 ^ (exponent - 64)`. -/
def ibmMag (m b : Nat) : Nat := b % 2 ^ m * 16 ^ ibmExp m b * 2 ^ (16445 - 4 * 64 - m)

/-- A normalized pattern: the first digit of the fraction is not zero. -/
def IbmNormal (m b : Nat) : Prop := b < 2 ^ (m + 8) ∧ 2 ^ (m - 4) ≤ b % 2 ^ m

/-- `y` is the fraction `s` of `m` bits times a power of 16, that is `s / 2 ^ m * 16 ^ (k - j)`. -/
def HexIs (m s y : Nat) : Prop := ∃ k j : Nat, y * 2 ^ m * 16 ^ j = s * 16 ^ k * 2 ^ 16445

/-- `y` can be written with a fraction of `m` bits, whatever the exponent. -/
def HexRep (m y : Nat) : Prop := ∃ s, s < 2 ^ m ∧ HexIs m s y

/-- `y` is `x` correctly rounded to a fraction of `m` bits in base 16: no other such number is nearer,
and if one is as near, the fraction of `y` is even. -/
def HexNearest (m x y : Nat) : Prop :=
  HexRep m y ∧ ∀ z, HexRep m z → z ≠ y →
    dist x 1 y < dist x 1 z ∨ (dist x 1 y = dist x 1 z ∧ ∃ s, s < 2 ^ m ∧ s % 2 = 0 ∧ HexIs m s y)

/-- `y` is a power of 16. -/
def IsPow16 (y : Nat) : Prop := ∃ k j : Nat, y * 16 ^ j = 16 ^ k * 2 ^ 16445

/-- What a conversion to the format yields for a number of sign `neg` whose magnitude, correctly
rounded, is `y`: a number of 16^63 or more is an error, one less than 16^-65 is zero and any other is
represented, normalized. -/
def IbmResult (m : Nat) (neg : Bool) (y : Nat) (err : Err) (b : Nat) : Prop :=
  b < 2 ^ (m + 8) ∧ ibmSign m b = neg ∧
  if 2 ^ (16445 + 4 * 63) ≤ y then err = .OVERFLOW_RANGE
  else if y < 2 ^ (16445 - 4 * 65) then err = .OK ∧ ibmMag m b = 0
  else err = .OK ∧ IbmNormal m b ∧ ibmMag m b = y

end Libasm.Float.Spec
