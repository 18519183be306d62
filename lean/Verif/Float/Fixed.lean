/-
Model of the 64-bit fixed point numbers with guard words, src/fixed64.h and src/fixed64.cpp.

A number is six 16-bit words, the least significant first: the low guard, four words of
significand, the high guard. Words are natural numbers below 65536; every conversion to `uint16_t`
is written `% 65536`.

Simplification: exponents and shift counts are unbounded integers. The code keeps them in
`int_fast16_t`, `uint_fast16_t` and `int_fast8_t`; the values that occur (below 2^15 in size,
shift counts of `normalize` at most 80) fit.
-/
namespace Libasm.Float

/-- src/fixed64.h:127-134 `_BITS` is 16; `_SIZE` is 6. -/
abbrev Words := List Nat

/-- src/fixed64.h:30-42 `leading_zero<uint16_t>`; the loop runs for shifts 8, 4, 2, 1. -/
def leadingZero (v : Nat) : Nat :=
  let step := fun (s : Nat × Nat) (shifts : Nat) =>
    let x := s.2 / 2 ^ shifts
    if x ≠ 0 then (s.1 - shifts, x) else s
  let s := step (step (step (step (16, v) 8) 4) 2) 1
  s.1 - s.2

/-- src/fixed64.cpp:33-52 `set`, `set_value`, `set_low`, `clear_high`. -/
def set (u64 low : Nat) : Words :=
  [low % 65536, u64 % 65536, u64 / 2 ^ 16 % 65536, u64 / 2 ^ 32 % 65536, u64 / 2 ^ 48 % 65536, 0]

/-- `_v[i]`. -/
def word (v : Words) (i : Nat) : Nat := v.getD i 0

/-- src/fixed64.cpp:58-67 `value`. -/
def value (v : Words) (bits : Nat) : Nat :=
  (((word v 4 * 2 ^ 16 + word v 3) * 2 ^ 16 + word v 2) * 2 ^ 16 + word v 1) / 2 ^ (64 - bits)

/-- src/fixed64.cpp:73-75 `get_high`. -/
def getHigh (v : Words) : Nat := word v 5

/-- src/fixed64.cpp:54-56 `clear_high`. -/
def clearHigh (v : Words) : Words := v.set 5 0

/-- src/fixed64.cpp:105-107 `zero`. -/
def isZero (v : Words) : Bool := value v 64 == 0 && word v 0 == 0

/-- src/fixed64.cpp:109-111 `negative`. -/
def negative (v : Words) : Bool := decide (32768 ≤ getHigh v)

/-- src/fixed64.cpp:113-115 `normal`. -/
def normal (v : Words) : Bool := getHigh v == 0 && word v 4 / 32768 % 2 == 1

/-- src/fixed64.cpp:127-131 the loop of `negate`, with `carry`. -/
def negateLoop : Nat → Words → Words
  | _, [] => []
  | carry, w :: ws =>
    let v := (65535 - w) + carry
    v % 65536 :: negateLoop (v / 65536) ws

/-- src/fixed64.cpp:125-132 `negate`. -/
def negate (v : Words) : Words := negateLoop 1 v

/-- src/fixed64.cpp:139-140,147-149 the loops of `shift_right` over the words: each word takes its
high bits from the next one, the last from `sign`. The two parts share no bits, so `|` is `+`. -/
def shiftRightLoop (n sign : Nat) : Words → Words
  | [] => []
  | [w] => [w / 2 ^ n + sign * 2 ^ (16 - n) % 65536]
  | w :: w' :: ws => (w / 2 ^ n + w' * 2 ^ (16 - n) % 65536) :: shiftRightLoop n sign (w' :: ws)

/-- `_v[_LOW] |= sticky` where `sticky` is 0 or 1. -/
def orLow (sticky : Bool) : Words → Words
  | [] => []
  | w :: ws => (if sticky && w % 2 == 0 then w + 1 else w) :: ws

/-- src/fixed64.cpp:137-142 one step of the loop by words. -/
def shiftRightWord (sign : Nat) (v : Words) : Words :=
  orLow (word v 0 != 0) (v.drop 1 ++ [sign])

/-- src/fixed64.cpp:136-143 the loop by words; returns what is left of the count too. -/
def shiftRightWords (sign : Nat) : Nat → Words → Nat → Words × Nat
  | 0, v, n => (v, n)
  | fuel + 1, v, n =>
    if n ≥ 16 then shiftRightWords sign fuel (shiftRightWord sign v) (n - 16) else (v, n)

/-- src/fixed64.cpp:134-152 `shift_right`. The loop by words ends after `n / 16` steps. -/
def shiftRight (n : Nat) (arithmetic : Bool) (v : Words) : Words :=
  let sign := if arithmetic && negative v then 65535 else 0
  let r := shiftRightWords sign n v n
  if r.2 ≠ 0 then
    let sticky := word r.1 0 % 2 ^ r.2 != 0
    orLow sticky (shiftRightLoop r.2 sign r.1)
  else r.1

/-- src/fixed64.cpp:163-165 the loop of `shift_left` over the words: each word takes its low bits
from the one below. `low` is that word, 0 below the lowest. The two parts share no bits, so `|` is
`+`. -/
def shiftLeftLoop (n : Nat) : Nat → Words → Words
  | _, [] => []
  | low, w :: ws => (w * 2 ^ n % 65536 + low / 2 ^ (16 - n)) :: shiftLeftLoop n w ws

/-- src/fixed64.cpp:155-160 the loop by words. -/
def shiftLeftWords : Nat → Words → Nat → Words × Nat
  | 0, v, n => (v, n)
  | fuel + 1, v, n =>
    if n ≥ 16 then shiftLeftWords fuel (0 :: v.dropLast) (n - 16) else (v, n)

/-- src/fixed64.cpp:154-167 `shift_left`. -/
def shiftLeft (n : Nat) (v : Words) : Words :=
  let r := shiftLeftWords n v n
  if r.2 ≠ 0 then shiftLeftLoop r.2 0 r.1 else r.1

/-- src/fixed64.cpp:175-182 the loop of `normalize` that counts leading zeros; the words from
`_MSW` down to `_LOW`. -/
def countZeros : Words → Nat
  | [] => 0
  | w :: ws => if w ≠ 0 then leadingZero w else 16 + countZeros ws

/-- src/fixed64.cpp:169-187 `normalize`: the number and the exponent adjustment. -/
def normalize (v : Words) : Words × Int :=
  if getHigh v ≠ 0 then
    let shifts := 16 - leadingZero (getHigh v)
    (shiftRight shifts true v, shifts)
  else
    let shifts := countZeros (v.take 5).reverse
    if shifts = 80 then (v, 0) else (shiftLeft shifts v, -shifts)

/-- src/fixed64.cpp:212-216,227-231 adding `carry` to words. -/
def addCarry : Nat → Words → Words
  | _, [] => []
  | carry, w :: ws => (w + carry) % 65536 :: addCarry ((w + carry) / 65536) ws

/-- src/fixed64.cpp:199-218 the part of `round_off` that rounds up. -/
def roundUp (lsb : Nat) (v : Words) : Words :=
  let roundb := lsb - 1
  let roundi := roundb / 16
  let roundm := 2 ^ (roundb % 16)
  if word v roundi / roundm % 2 = 1 then
    let intermediate := (v.take roundi).all (· == 0) && word v roundi % roundm == 0
    let lsbi := lsb / 16
    let lsbm := 2 ^ (lsb % 16)
    let even := word v lsbi / lsbm % 2 == 0
    if !intermediate || !even then v.take lsbi ++ addCarry lsbm (v.drop lsbi) else v
  else v

/-- src/fixed64.cpp:189-223 `round_off`. -/
def roundOff (bits : Nat) (v : Words) : Words × Bool :=
  if bits ≥ 80 ∨ bits = 0 then (v, false)
  else
    let lsb := 80 - bits
    let roundi := (lsb - 1) / 16
    let roundm := 2 ^ ((lsb - 1) % 16)
    let v := roundUp lsb v
    let v := List.replicate roundi 0 ++ v.drop roundi
    let v := v.set roundi (word v roundi / (2 * roundm) * (2 * roundm))
    (v, getHigh v != 0)

/-- src/fixed64.cpp:225-232 `add`. -/
def addLoop : Nat → Words → Words → Words
  | _, [], _ => []
  | _, _, [] => []
  | carry, a :: as, b :: bs => (a + b + carry) % 65536 :: addLoop ((a + b + carry) / 65536) as bs

def add (v w : Words) : Words := addLoop 0 v w

end Libasm.Float
