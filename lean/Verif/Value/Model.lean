/-
Model of the integer part of src/value.h and src/value.cpp (build without LIBASM_ASM_NOFLOAT:
64-bit `unsigned_t`/`signed_t`).  A `Value` holding a floating point number is not modelled
here; every operation below is the branch taken when all operands satisfy `isInteger()`.

`none` as the result of an arithmetic operation stands for undefined behaviour: signed overflow
of a negation or of a multiplication (C++ [expr.pre]/4).  Conversions `unsigned_t -> signed_t`
of values above INT64_MAX wrap, as C++20 requires and every supported compiler does.
-/
namespace Libasm

/-- src/value.h:146-151 `ValueType` without V_FLOAT. -/
inductive VType | undef | unsigned | signed
deriving DecidableEq, Repr

/-- src/value.h:153-160: the 64 bits of the union and the type tag. -/
structure Value where
  bits : Nat
  type : VType
deriving DecidableEq, Repr

namespace Value

/-- 2^64 -/
def M : Nat := 18446744073709551616
/-- 2^63 -/
def H : Nat := 9223372036854775808

/-- `_signed`: the bits read as a signed_t. -/
def asSigned (bits : Nat) : Int := if bits < H then bits else (bits : Int) - M

/-- The bits of a signed_t. -/
def ofSigned (s : Int) : Nat := (s % (M : Int)).toNat

/-- src/value.h:53 default constructor. -/
def undefined : Value := ⟨0, .undef⟩

/-- src/value.h:72 `isUnsigned`. -/
def isUnsigned (v : Value) : Bool := v.type = .unsigned || v.type = .undef
/-- src/value.h:73 `isSigned`. -/
def isSigned (v : Value) : Bool := v.type = .signed
/-- src/value.h:71 `isUndefined`. -/
def isUndefined (v : Value) : Bool := v.type = .undef
/-- src/value.cpp:253-259 `isNegative`, integer case. -/
def isNegative (v : Value) : Bool := v.isSigned && decide (asSigned v.bits < 0)
/-- src/value.cpp:241-251 `isZero`, integer case. -/
def isZero (v : Value) : Bool := !v.isUndefined && v.bits == 0

/-- src/value.cpp:111-114 `setU`. -/
def setU (u : Nat) : Value := ⟨u % M, .unsigned⟩
/-- src/value.cpp:102-109 `setS`. -/
def setS (s : Int) : Value := if 0 ≤ s then ⟨s.toNat, .unsigned⟩ else ⟨ofSigned s, .signed⟩

/-- src/value.h:82 `getSigned`: the low 32 bits, signed. -/
def getSigned (v : Value) : Int :=
  let l := v.bits % 4294967296
  if l < 2147483648 then l else (l : Int) - 4294967296
/-- src/value.h:83 `getUnsigned`: the low 32 bits. -/
def getUnsigned (v : Value) : Nat := v.bits % 4294967296
/-- src/value.cpp:116-123 `setSigned(int32_t)`. -/
def setSigned (s : Int) : Value := setS s
/-- src/value.cpp:125-128 `setUnsigned(uint32_t)`: the argument is narrowed to 32 bits. -/
def setUnsigned (u : Nat) : Value := setU (u % 4294967296)

/-- Negation of a signed_t: undefined for INT64_MIN. -/
def negS (s : Int) : Option Int := if s = -(H : Int) then none else some (-s)

/-- src/value.cpp:319-335 `negate`, integer case. -/
def negate (v : Value) : Option Value :=
  if v.isNegative then (negS (asSigned v.bits)).map (fun s => setU s.toNat)
  else (negS (asSigned v.bits)).map setS

/-- src/value.cpp:337-339 `absolute`. -/
def absolute (v : Value) : Option Nat :=
  if v.isNegative then (negS (asSigned v.bits)).map Int.toNat else some v.bits

/-- `v.setS(-static_cast<signed_t>(u))` -/
def setNegated (u : Nat) : Option Value := (negS (asSigned u)).map setS

/-- src/value.cpp:341-376 `operator+`, integer case. -/
def add (a b : Value) : Option Value :=
  match a.absolute, b.absolute with
  | some l, some r =>
    if a.isNegative = b.isNegative then
      let s := (l + r) % M
      if a.isNegative then setNegated s else some (setU s)
    else if l ≥ r then
      let u := l - r
      if a.isNegative then setNegated u else some (setU u)
    else
      let u := r - l
      if a.isNegative then some (setU u) else setNegated u
  | _, _ => none

/-- src/value.cpp:378-380 `operator-`. -/
def sub (a b : Value) : Option Value := b.negate.bind (a.add ·)

/-- src/value.cpp:382-399 `operator*`, integer case. -/
def mul (a b : Value) : Option Value :=
  match a.absolute, b.absolute with
  | some l, some r =>
    let p := (l * r) % M
    if a.isNegative = b.isNegative then some (setU p) else setNegated p
  | _, _ => none

/-- src/value.cpp:401-420 `operator/`, integer case. -/
def div (a b : Value) : Option Value :=
  if b.isZero || b.isUndefined then some undefined
  else
    match a.absolute, b.absolute with
    | some l, some r =>
      let q := l / r
      if a.isNegative = b.isNegative then some (setU q) else setNegated q
    | _, _ => none

/-- src/value.cpp:422-436 `operator%`, integer case. -/
def mod (a b : Value) : Option Value :=
  if b.isZero || b.isUndefined then some undefined
  else
    match a.absolute, b.absolute with
    | some l, some r =>
      let m := l % r
      if a.isNegative then setNegated m else some (setU m)
    | _, _ => none

/-- src/value.cpp:438-446 `operator~`. -/
def bitNot (a : Value) : Value := setS (asSigned (M - 1 - a.bits))
/-- src/value.cpp:448-455 `operator&`. -/
def bitAnd (a b : Value) : Value := setS (asSigned (a.bits &&& b.bits))
/-- src/value.cpp:457-464 `operator|`. -/
def bitOr (a b : Value) : Value := setS (asSigned (a.bits ||| b.bits))
/-- src/value.cpp:466-473 `operator^`. -/
def bitXor (a b : Value) : Value := setS (asSigned (a.bits ^^^ b.bits))

/-- src/value.cpp:475-486 `operator<<`. -/
def shl (a b : Value) : Value :=
  let count := b.getUnsigned
  if count ≥ 64 then setU 0 else setU (a.bits * 2 ^ count)

/-- src/value.cpp:488-505 `operator>>`; `_signed >> count` is an arithmetic shift. -/
def shr (a b : Value) : Value :=
  let count := b.getUnsigned
  if count ≥ 64 then
    if a.isSigned && a.isNegative then setS (-1) else setU 0
  else if a.isNegative then setS (asSigned a.bits / 2 ^ count)
  else setU (a.bits / 2 ^ count)

/-- src/value.cpp:508-518 `power<unsigned_t>`: multiplication wraps. -/
def powerU (prod base exp : Nat) : Nat :=
  let prod := if exp % 2 = 1 then prod * base % M else prod
  if h : exp / 2 = 0 then prod else powerU prod (base * base % M) (exp / 2)
termination_by exp
decreasing_by omega

/-- Multiplication of signed_t: overflow is undefined. -/
def mulS (a b : Int) : Option Int :=
  if -(H : Int) ≤ a * b ∧ a * b < H then some (a * b) else none

/-- src/value.cpp:508-518 `power<signed_t>`. -/
def powerS (prod base : Int) (exp : Nat) : Option Int :=
  match (if exp % 2 = 1 then mulS prod base else some prod) with
  | none => none
  | some prod =>
    if h : exp / 2 = 0 then some prod
    else match mulS base base with
      | none => none
      | some sq => powerS prod sq (exp / 2)
termination_by exp
decreasing_by omega

/-- src/value.cpp:521-532 `exponential`, integer case. -/
def exponential (a b : Value) : Option Value :=
  if a.isNegative then (powerS 1 (asSigned a.bits) b.bits).map setS
  else some (setU (powerU 1 a.bits b.bits))

/-- src/value.cpp:271-279 `operator==`, integer case. -/
def eq (a b : Value) : Bool := a.bits == b.bits

/-- src/value.cpp:281-301 `operator<`, integer case. -/
def lt (a b : Value) : Bool :=
  if a.isUnsigned then
    if b.isUnsigned then decide (a.bits < b.bits)
    else decide (0 ≤ asSigned b.bits) && decide (a.bits < ofSigned (asSigned b.bits))
  else
    if b.isSigned then decide (asSigned a.bits < asSigned b.bits)
    else decide (asSigned a.bits < 0) || decide (ofSigned (asSigned a.bits) < b.bits)

/-- src/value.cpp:303-305 `operator bool` -/
def truth (a : Value) : Bool := a.bits != 0

/-- src/value.cpp:311-313 `operator&&` -/
def logAnd (a b : Value) : Bool := a.truth && b.truth
/-- src/value.cpp:315-317 `operator||` -/
def logOr (a b : Value) : Bool := a.truth || b.truth

/-- src/value.cpp:206-216 `overflowUint32`. -/
def overflowUint32 (v : Value) : Bool :=
  if v.isUnsigned then decide (v.bits > 4294967295)
  else decide (asSigned v.bits > 4294967295) || decide (asSigned v.bits < -2147483648)

/-- src/value.cpp:192-204 `overflowInt32`. -/
def overflowInt32 (v : Value) : Bool :=
  if v.isUnsigned then decide (v.bits > 2147483647)
  else decide (asSigned v.bits > 2147483647) || decide (asSigned v.bits < -2147483648)

/-- src/value.cpp:218-231 `overflow(uint32_t max, int32_t min)`. The narrowing casts are written
out: `getUnsigned`, `getSigned`, and `static_cast<uint32_t>(min)` of a positive `min`. -/
def overflow (v : Value) (max : Nat) (min : Int) : Bool :=
  if v.overflowUint32 then true
  else if v.isUnsigned then
    decide (v.getUnsigned > max) || (decide (min > 0) && decide (v.getUnsigned < min.toNat))
  else if asSigned v.bits ≥ 0 then
    decide (v.getUnsigned > max) || (decide (min > 0) && decide (v.getUnsigned < min.toNat))
  else
    (decide (max ≤ 2147483647) && decide (v.getSigned > max)) || decide (v.getSigned < min)

/-- src/value.cpp:176-178 `overflowInt8`. -/
def overflowInt8 (v : Value) : Bool := v.overflow 127 (-128)
/-- src/value.cpp:180-182 `overflowUint8`. -/
def overflowUint8 (v : Value) : Bool := v.overflow 255 (-128)
/-- src/value.cpp:184-186 `overflowInt16`. -/
def overflowInt16 (v : Value) : Bool := v.overflow 32767 (-32768)
/-- src/value.cpp:188-190 `overflowUint16`. -/
def overflowUint16 (v : Value) : Bool := v.overflow 65535 (-32768)

/-- src/value.cpp:233-239 `overflowInteger(unsigned_t max, signed_t min)`. -/
def overflowInteger (v : Value) (max : Nat) (min : Int) : Bool :=
  if v.isUnsigned then decide (v.bits > max)
  else (decide (max < H) && decide (asSigned v.bits > (max : Int))) || decide (asSigned v.bits < min)

end Value
end Libasm
