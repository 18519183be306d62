import Verif.Float.Soft
/-
Model of multiplication and division: src/fixed64.cpp:234-315 and src/float80_soft.cpp:171-225.

Simplification as in Verif/Float/Fixed.lean: words are natural numbers. No intermediate result of
`mul` leaves `uint32_t`. In `div` the products are below 2^32 because the loop is left with
`qhat < 2^16`, and the test multiplies only then; `t` is written as an integer, which is what the
conversion of the `uint32_t` difference to `int32_t` gives.
-/
namespace Libasm.Float

/-- src/fixed64.cpp:251-256 the inner loop of `mul` with the carry `k` and the assignment after it:
`w` holds `w[j]`... -/
def mulRow (vj : Nat) : Nat → Words → Words → Words
  | k, [], _ => [k]
  | k, _ :: _, [] => [k]
  | k, u :: us, w :: ws =>
    let t := u * vj + w + k
    t % 65536 :: mulRow vj (t / 65536) us ws

/-- src/fixed64.cpp:243-258 the outer loop of `mul`: after step `j` the word `w[j]` is final. -/
def mulWords (u : Words) : Words → Words → Words
  | [], w => w
  | vj :: vs, w =>
    match mulRow vj 0 u w with
    | [] => []
    | w0 :: ws => w0 :: mulWords u vs ws

/-- src/fixed64.cpp:234-241 `mul`: words 4 to 9 of the product, shifted right by 15. -/
def mul (v w : Words) : Words :=
  shiftRight 15 false ((mulWords (v.take 5) (w.take 5) (List.replicate 5 0)).drop 4)

/-- src/fixed64.cpp:287-292 the loop that corrects `qhat`. `rhat` grows by `v4` until it is 2^16, so
65536 steps suffice if `v4` is not zero. -/
def fixQhat (v4 v3 u3 : Nat) : Nat → Nat → Nat → Nat
  | 0, qhat, _ => qhat
  | fuel + 1, qhat, rhat =>
    if qhat ≥ 65536 ∨ qhat * v3 > rhat * 65536 + u3 then
      if rhat + v4 ≥ 65536 then qhat - 1
      else fixQhat v4 v3 u3 fuel (qhat - 1) (rhat + v4)
    else qhat

/-- src/fixed64.cpp:295-300 the loop that multiplies and subtracts, with the borrow `k`: the words and
the last borrow. -/
def subMul (qhat : Nat) : Nat → Words → Words → Words × Nat
  | k, [], _ => ([], k)
  | k, _ :: _, [] => ([], k)
  | k, u :: us, v :: vs =>
    let p := qhat * v
    let t : Int := u - k - (p % 65536 : Nat)
    let r := subMul qhat (((p / 65536 : Nat) - t / 65536) % 65536).toNat us vs
    ((t % 65536).toNat :: r.1, r.2)

/-- src/fixed64.cpp:307-311 the loop that adds back, with the carry `k`. -/
def addBack : Nat → Words → Words → Words × Nat
  | k, [], _ => ([], k)
  | k, _ :: _, [] => ([], k)
  | k, u :: us, v :: vs =>
    let t := u + v + k
    let r := addBack (t / 65536) us vs
    (t % 65536 :: r.1, r.2)

/-- src/fixed64.cpp:281-315 `div(u, v, j)` on the words `u[j]` to `u[j+5]`: the digit and the words.
Not defined for a divisor whose top word is zero. -/
def divStep (u v : Words) : Nat × Words :=
  let u32 := word u 5 * 65536 + word u 4
  let qhat := u32 / word v 4
  let rhat := u32 - qhat * word v 4
  let qhat := fixQhat (word v 4) (word v 3) (word u 3) 65536 qhat rhat
  let s := subMul qhat 0 (u.take 5) v
  let t : Int := word u 5 - s.2
  let u5 := (t % 65536).toNat
  if t < 0 then
    let r := addBack 0 s.1 v
    ((qhat + 65535) % 65536, r.1 ++ [(u5 + r.2) % 65536])
  else (qhat % 65536, s.1 ++ [u5])

/-- src/fixed64.cpp:269-270 the loop of `div` from step `j` down: the next window takes in a zero
below. The digits, least significant first, follow those in `q`. -/
def divSteps (v : Words) : Nat → Words → Words → Words
  | 0, _, q => q
  | n + 1, u, q =>
    let r := divStep u v
    divSteps v n (0 :: r.2.take 5) (r.1 :: q)

/-- src/fixed64.cpp:260-272 `div`. The dividend is the number followed by five zero words, with a
zero word above; a divisor whose top word is zero is a division by zero, `none`. -/
def div (v w : Words) : Option Words :=
  if word w 4 = 0 then none
  else some (shiftRight 1 false (divSteps (w.take 5) 6 (v.take 5 ++ [0]) []))

namespace F80

/-- src/float80_soft.cpp:171-194 `mul`. -/
def mul (a b : F80) : F80 :=
  if a.isNan then a
  else if b.isNan then b
  else
    let negative := a.isNegative != b.isNegative
    if a.isZero then if b.isInf then nan negative else zero negative
    else if b.isZero then if a.isInf then nan negative else zero negative
    else if a.isInf || b.isInf then infinity negative
    else compose negative (a.decompose.1 + b.decompose.1) (Float.mul a.decompose.2 b.decompose.2)

/-- src/float80_soft.cpp:196-225 `div`. -/
def div (a b : F80) : Option F80 :=
  if a.isNan then some a
  else if b.isNan then some b
  else
    let negative := a.isNegative != b.isNegative
    if a.isZero && b.isZero then some (nan negative)
    else if a.isZero && b.isInf then some (zero negative)
    else if a.isInf then some (if b.isInf then nan negative else infinity negative)
    else if b.isInf then some (zero negative)
    else
      (Float.div a.decompose.2 b.decompose.2).map
        (compose negative (a.decompose.1 - b.decompose.1))

end F80
end Libasm.Float
