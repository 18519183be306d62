import Verif.Float.Fixed
/-
Model of the IEEE formats and the 80-bit software floating point numbers: src/ieee_float.h,
src/ieee_float.cpp, src/float80_base.h, src/float80_base.cpp, src/float80_soft.h,
src/float80_soft.cpp.

Simplification: exponents are unbounded integers, as in Verif/Float/Fixed.lean.
-/
namespace Libasm.Float

/-! ### The formats -/

/-- The constants of a binary format. -/
structure Fmt where
  /-- `MANT_DIG` -/
  mant : Nat
  /-- `EXP_MASK` -/
  expMask : Nat
  /-- `EXP_BASE` -/
  expBase : Nat

/-- src/ieee_float.h:78-84 `__float32`. -/
def f32 : Fmt := ⟨24, 0xff, 0x7f⟩

/-- src/ieee_float.h:136-142 `__float64`. -/
def f64 : Fmt := ⟨53, 0x7ff, 0x3ff⟩

/-- src/float80_base.h:27-33 `__float80_base`. -/
def f80 : Fmt := ⟨64, 0x7fff, 0x3fff⟩

/-- src/ieee_float.h:81,139, src/float80_base.h:29 `SGN_MASK`: the bit above `EXP_MASK`. -/
def Fmt.sgnMask (f : Fmt) : Nat := f.expMask + 1

/-- src/ieee_float.cpp:94-107,190-203, src/float80_base.cpp:33-47 `normalize`, the same text for
each format. -/
def normalizeTo (f : Fmt) (exp : Int) (sig : Words) : Int × Words :=
  let n := normalize sig
  let exp := exp + n.2
  let sig := n.1
  if exp ≤ -(f.expBase : Int) then
    let shifts := -(exp + f.expBase) + 1
    let sig := shiftRight shifts.toNat true sig
    let exp := -(f.expBase : Int)
    let sig := (roundOff f.mant sig).1
    if normal sig then (exp + 1, sig) else (exp, sig)
  else
    let r := roundOff f.mant sig
    if r.2 then
      let n := normalize r.1
      (exp + n.2, n.1)
    else (exp, r.1)

/-- What `compose` makes a number of. -/
inductive Parts
  | infinity
  | zero
  /-- exponent field 0, significand 1 -/
  | least
  /-- exponent field and significand -/
  | bits (exp : Int) (sig : Nat)
deriving DecidableEq

/-- src/ieee_float.cpp:109-119,205-215, src/float80_soft.cpp:416-426 `compose`, the same text for
each format. -/
def composeParts (f : Fmt) (exp : Int) (sig : Words) : Parts :=
  let r := normalizeTo f exp sig
  if r.1 > f.expBase then .infinity
  else
    let sigval := value r.2 f.mant
    if sigval = 0 then .zero
    else if r.1 < -(f.expBase : Int) then .least
    else .bits (r.1 + f.expBase) sigval

/-! ### binary32 and binary64: a number is its bit pattern -/

/-- src/ieee_float.h:44,105 `tag`; `TAG_POS` is `MANT_DIG - 1`. -/
def tag (f : Fmt) (b : Nat) : Nat := b / 2 ^ (f.mant - 1)

/-- src/ieee_float.cpp:41-50,142-151 `significand`; for binary32 with the shift by 32 of
src/ieee_float.cpp:86. -/
def significand (f : Fmt) (b : Nat) : Nat :=
  let sig := b % 2 ^ (f.mant - 1)
  if tag f b % (f.expMask + 1) = f.expMask then sig
  else
    let sig := if tag f b % (f.expMask + 1) ≠ 0 then sig + 2 ^ (f.mant - 1) else sig
    sig * 2 ^ (64 - f.mant)

/-- src/ieee_float.cpp:52-54,153-155 `exponent`. -/
def exponent (f : Fmt) (b : Nat) : Int := (tag f b % (f.expMask + 1) : Nat) - f.expBase

/-- src/ieee_float.cpp:60-62,157-159 `isZero`. -/
def isZeroB (f : Fmt) (b : Nat) : Bool :=
  tag f b % (f.expMask + 1) == 0 && significand f b == 0

/-- src/ieee_float.cpp:68-70,165-167 `isNegative`. -/
def isNegativeB (f : Fmt) (b : Nat) : Bool := tag f b / f.sgnMask % 2 == 1

/-- src/ieee_float.cpp:76-78,173-175 `isInf`. -/
def isInfB (f : Fmt) (b : Nat) : Bool :=
  tag f b % (f.expMask + 1) == f.expMask && significand f b == 0

/-- src/ieee_float.cpp:80-82,177-179 `isNan`. -/
def isNanB (f : Fmt) (b : Nat) : Bool :=
  tag f b % (f.expMask + 1) == f.expMask && significand f b != 0

/-- src/ieee_float.cpp:28-31,126-128 `set(tag, sig)`. -/
def setB (f : Fmt) (tag sig : Nat) : Nat :=
  (tag * 2 ^ (f.mant - 1) + sig % 2 ^ (f.mant - 1)) % (2 * f.sgnMask * 2 ^ (f.mant - 1))

/-- src/ieee_float.cpp:56-58,217-219 `bits`. -/
def bitsB (f : Fmt) (sign : Bool) (exp sig : Nat) : Nat :=
  setB f ((if sign then f.sgnMask else 0) + exp % (f.expMask + 1)) sig

/-- src/ieee_float.h:56,117 `zero`. -/
def zeroB (f : Fmt) (sign : Bool) : Nat := bitsB f sign 0 0

/-- src/ieee_float.h:58,119 `infinity`. -/
def infinityB (f : Fmt) (sign : Bool) : Nat := bitsB f sign f.expMask 0

/-- src/ieee_float.h:60-62,121-123 `not_a_number`. -/
def nanB (f : Fmt) (sign : Bool) : Nat := bitsB f sign f.expMask (2 ^ (f.mant - 2))

/-- src/ieee_float.cpp:84-92,181-188 `decompose`. -/
def decomposeB (f : Fmt) (b : Nat) : Int × Words :=
  let sig := set (significand f b) 0
  if isZeroB f b then (0, sig)
  else if normal sig then (exponent f b, sig)
  else ((normalize sig).2 + (1 - (f.expBase : Int)), (normalize sig).1)

/-- src/ieee_float.cpp:109-119,205-215 `compose`. -/
def composeB (f : Fmt) (negative : Bool) (exp : Int) (sig : Words) : Nat :=
  match composeParts f exp sig with
  | .infinity => infinityB f negative
  | .zero => zeroB f negative
  | .least => setB f (if negative then f.sgnMask else 0) 1
  | .bits e s => bitsB f negative e.toNat s

/-! ### 80-bit numbers -/

/-- src/float80_soft.h:120-121. -/
structure F80 where
  tag : Nat
  sig : Nat
deriving DecidableEq, Repr

namespace F80

/-- src/float80_base.h:36 `exponent`. -/
def exponent (x : F80) : Int := (x.tag % 0x8000 : Nat) - 0x3fff

/-- src/float80_base.h:43 `isZero`. -/
def isZero (x : F80) : Bool := x.tag % 0x8000 == 0 && x.sig == 0

/-- src/float80_base.h:44-46 `isSubnormal`. -/
def isSubnormal (x : F80) : Bool := x.tag % 0x8000 == 0 && x.sig != 0

/-- src/float80_base.h:47-49 `isInf`. -/
def isInf (x : F80) : Bool := x.tag % 0x8000 == 0x7fff && x.sig % 2 ^ 63 == 0

/-- src/float80_base.h:50-52 `isNan`. -/
def isNan (x : F80) : Bool := x.tag % 0x8000 == 0x7fff && x.sig % 2 ^ 63 != 0

/-- src/float80_base.h:53 `isNegative`. -/
def isNegative (x : F80) : Bool := x.tag / 0x8000 % 2 == 1

/-- src/float80_soft.cpp:428-430 `bits`. -/
def bits (sign : Bool) (exp sig : Nat) : F80 := ⟨(if sign then 0x8000 else 0) + exp % 0x8000, sig⟩

/-- src/float80_soft.h:88 `zero`. -/
def zero (sign : Bool) : F80 := bits sign 0 0

/-- src/float80_soft.h:90 `infinity`. -/
def infinity (sign : Bool) : F80 := bits sign 0x7fff (2 ^ 63)

/-- src/float80_soft.h:92-94 `not_a_number`. -/
def nan (sign : Bool) : F80 := bits sign 0x7fff 0xc000000000000000

/-- src/float80_base.cpp:48-55 `decompose`. -/
def decompose (x : F80) : Int × Words :=
  let sig := set x.sig 0
  if x.isZero then (0, sig)
  else if normal sig then (x.exponent, sig)
  else ((normalize sig).2 + (-0x3fff + 1), (normalize sig).1)

/-- src/float80_soft.cpp:416-426 `compose`. -/
def compose (negative : Bool) (exp : Int) (sig : Words) : F80 :=
  match composeParts f80 exp sig with
  | .infinity => infinity negative
  | .zero => zero negative
  | .least => ⟨if negative then 0x8000 else 0, 1⟩
  | .bits e s => bits negative e.toNat s

/-- src/float80_soft.cpp:44-55 `set(uint64_t)`. -/
def ofNat (u : Nat) : F80 :=
  if u = 0 then ⟨0, 0⟩
  else
    let n := normalize (Float.set u 0)
    let exp := n.2 + 63
    ⟨(exp + 0x3fff).toNat % 65536, value n.1 64⟩

/-- src/float80_soft.cpp:36-42 `set(int64_t)`. Negating the least number overflows: `none`. -/
def ofInt (i : Int) : Option F80 :=
  if i ≥ 0 then some (ofNat i.toNat)
  else if i = -(2 ^ 63) then none
  else
    let x := ofNat (-i).toNat
    some { x with tag := x.tag % 0x8000 + 0x8000 }

/-- src/float80_soft.cpp:57-76 `set(float32_t)`, `set(float64_t)`. -/
def ofBits (f : Fmt) (b : Nat) : F80 :=
  if isNanB f b then nan (isNegativeB f b)
  else if isInfB f b then infinity (isNegativeB f b)
  else compose (isNegativeB f b) (decomposeB f b).1 (decomposeB f b).2

/-- src/float80_soft.cpp:78-97 `get(float32_t)`, `get(float64_t)`. -/
def toBits (f : Fmt) (x : F80) : Nat :=
  if x.isNan then nanB f x.isNegative
  else if x.isInf then infinityB f x.isNegative
  else composeB f x.isNegative x.decompose.1 x.decompose.2

/-- src/float80_soft.cpp:119-121 `neg`. -/
def neg (x : F80) : F80 := bits (!x.isNegative) x.tag x.sig

/-- src/float80_soft.cpp:143-168 the sum of two finite numbers other than zero. -/
def addFinite (a b : F80) : F80 :=
  let asig := a.decompose.2
  let aexp := a.decompose.1
  let asig := if a.isNegative then negate asig else asig
  let bsig := b.decompose.2
  let bexp := b.decompose.1
  let bsig := if b.isNegative then negate bsig else bsig
  let expdiff := aexp - bexp
  let r : Words × Int :=
    if expdiff < 0 then (Float.add bsig (shiftRight (-expdiff).toNat true asig), bexp)
    else (Float.add asig (shiftRight expdiff.toNat true bsig), aexp)
  let negative := negative r.1
  let sum := if negative then negate r.1 else r.1
  compose negative r.2 sum

/-- src/float80_soft.cpp:123-169 `add`. -/
def add (a b : F80) : F80 :=
  if a.isNan then a
  else if b.isNan then b
  else if a.isInf && b.isInf then
    if a.isNegative == b.isNegative then infinity a.isNegative else nan false
  else if a.isInf then infinity a.isNegative
  else if b.isInf then infinity b.isNegative
  else if a.isZero && b.isZero then zero (a.isNegative && b.isNegative)
  else if a.isZero then b
  else if b.isZero then a
  else addFinite a b

/-- src/float80_soft.h:54 `operator-`. -/
def sub (a b : F80) : F80 := add a (neg b)

/-- src/float80_soft.cpp:99-107 `operator==`. -/
def eq (a b : F80) : Bool :=
  if a.isZero && b.isZero then true
  else if a.isInf && b.isInf then a.isNegative == b.isNegative
  else if a.isNan || b.isNan then false
  else (sub a b).isZero

/-- src/float80_soft.cpp:109-117 `operator<`. -/
def lt (a b : F80) : Bool :=
  if a.isZero && b.isZero then false
  else if a.isInf && b.isInf then a.isNegative && !b.isNegative
  else if a.isNan || b.isNan then false
  else (sub a b).isNegative

end F80
end Libasm.Float
