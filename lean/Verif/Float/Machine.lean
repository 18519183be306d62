import Verif.Base.Error
import Verif.Float.Soft
/-
src/dec_float.{h,cpp} and src/ibm_float.{h,cpp}: the floating point formats of DEC and IBM machines,
converted from and to 80-bit numbers.

A format is given by `MANT_DIG`, here `m`: 8, 24 and 56 for DEC, 24 and 56 for IBM. The three DEC
classes have the same text up to their integer types; the two IBM classes differ in one statement,
which is the parameter `again`. A number is its bit pattern; `m + 8` is the width of the pattern in
every case, so that the shifts lose nothing.

Not modelled: `str` (debug output).
-/
namespace Libasm.Float

/-! ### DEC -/

/-- src/dec_float.cpp:71-74,131-134,196-199 `bits`: sign, exponent (`uint8_t`) and significand, whose
leading bit is left out. -/
def decBits (m : Nat) (sign : Bool) (exp : Int) (sig : Nat) : Nat :=
  ((if sign then 0o400 else 0) ||| (exp % 256).toNat) * 2 ^ (m - 1) + sig % 2 ^ (m - 1)

/-- src/dec_float.cpp:40-69,100-129,165-194 `set(const float80_t &)`: the error and the pattern. -/
def decSet (m : Nat) (x : F80) : Err × Nat :=
  let error : Err := if x.isNan then .NOT_AN_EXPECTED else .OK
  let error : Err := if x.isInf then .OVERFLOW_RANGE else error
  if x.isZero ∨ error ≠ .OK then (error, decBits m x.isNegative 0 0)
  else
    let d := x.decompose
    let sig := (roundOff m d.2).1
    let n := normalize sig
    let dec_exp := d.1 + n.2 + 1
    let dec_sig := value n.1 m
    let r : Err × Int := if dec_exp ≥ 0o200 then (.OVERFLOW_RANGE, -0o200) else (error, dec_exp)
    let s : Int × Nat := if r.2 ≤ -0o200 then (-0o200, 0) else (r.2, dec_sig)
    (r.1, decBits m x.isNegative (s.1 + 0o200) s.2)

/-- src/dec_float.cpp:76-86,136-146,201-211 `operator float80_t`. -/
def decGet (m b : Nat) : F80 :=
  let tag := b / 2 ^ (m - 1)
  let sign := decide (tag / 0o400 % 2 = 1)
  let bexp := tag % 0o400
  if bexp = 0 then F80.zero sign
  else
    let frac := b % 2 ^ (m - 1) + 2 ^ (m - 1)
    let exp : Int := (bexp : Int) - 0o200 - 1
    F80.compose sign exp (set (frac * 2 ^ (64 - m)) 0)

/-! ### IBM -/

/-- src/ibm_float.cpp:72-75,148-151 `bits`. -/
def ibmBits (m : Nat) (sign : Bool) (exp : Int) (sig : Nat) : Nat :=
  ((if sign then 0x80 else 0) ||| (exp % 256).toNat) * 2 ^ m + sig % 2 ^ m

/-- src/ibm_float.cpp:54-57,130-133 the loop that makes the exponent a multiple of four. Three rounds
are enough, so that the fuel of `ibmSet` does not run out. -/
def ibmAlign : Nat → Int → Words → Int × Words
  | 0, exp, sig => (exp, sig)
  | fuel + 1, exp, sig =>
    if Int.tmod exp 4 ≠ 0 then ibmAlign fuel (exp + 1) (shiftRight 1 false sig) else (exp, sig)

/-- src/ibm_float.cpp:39-70,116-146 `set(const float80_t &)`. `again` says whether the significand
is normalized once more (src/ibm_float.cpp:53, only there). -/
def ibmSet (m : Nat) (again : Bool) (x : F80) : Err × Nat :=
  let error : Err := if x.isNan then .NOT_AN_EXPECTED else .OK
  let error : Err := if x.isInf then .OVERFLOW_RANGE else error
  if x.isZero ∨ error ≠ .OK then (error, ibmBits m x.isNegative 0 0)
  else
    let d := x.decompose
    let ieee_exp := d.1 + 1
    let n := if again then normalize d.2 else (d.2, 0)
    let ieee_exp := ieee_exp + n.2
    let al := ibmAlign 4 ieee_exp n.1
    let sig := (roundOff m al.2).1
    let ibm_sig := value sig m
    let ibm_exp := Int.tdiv al.1 4
    let r : Err × Int := if ibm_exp ≥ 0x40 then (.OVERFLOW_RANGE, -0x40) else (error, ibm_exp)
    let s : Int × Nat := if r.2 < -0x40 then (-0x40, 0) else (r.2, ibm_sig)
    (r.1, ibmBits m x.isNegative (s.1 + 0x40) s.2)

/-- src/ibm_float.cpp:77-92,153-168 `operator float80_t`. -/
def ibmGet (m b : Nat) : F80 :=
  let tag := b / 2 ^ m
  let sign := decide (tag / 0x80 % 2 = 1)
  let bexp := tag % 0x80
  let ibm_exp : Int := (bexp : Int) - 0x40
  let ibm_sig := b % 2 ^ m
  if bexp = 0 ∧ ibm_sig = 0 then F80.zero sign
  else
    let n := normalize (set (ibm_sig * 2 ^ (64 - m)) 0)
    let ieee_exp := ibm_exp * 4 - 1
    F80.compose sign (ieee_exp + n.2) n.1

end Libasm.Float
