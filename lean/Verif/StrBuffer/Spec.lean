import Verif.StrBuffer.Model
/-
The text a sequence of buffer operations stands for, without any buffer.
-/
namespace Libasm.StrBuffer.Spec

/-- Digits 0-9, A-Z. -/
def digit (d : Nat) : Char := if d < 10 then Char.ofNat (48 + d) else Char.ofNat (65 + (d - 10))

/-- The numeral of `v` in a base with exactly `width` digits, most significant first. -/
def numeral (base width v : Nat) : List Char :=
  (List.range width).reverse.map fun i => digit (v / base ^ i % base)

/-- The decimal numeral of `v`, filled up with zeros on the left. -/
def decimal (v prec : Nat) : List Char := List.leftpad prec '0' (Nat.toDigits 10 v)

/-- Number of digits printed for a type with `full` digits; a precision of 0 means all of them. -/
def width (full prec : Nat) : Nat := if prec = 0 then full else prec

/-- The text an operation adds. -/
def added : Op → List Char
  | .reset => []
  | .letter cv c => [cv.apply c]
  | .text cv cs => (cs.takeWhile (· ≠ '\x00')).map cv.apply
  | .comma => [',', ' ']
  | .hex cv bytes v prec => (numeral 16 (width (bytes * 2) prec) v).map cv.apply
  | .oct cv bytes v prec => (numeral 8 (width ((bytes * 8 + 2) / 3) prec) (v % 256 ^ bytes)).map cv.apply
  | .dec _ v prec => decimal v prec
  | .sdec _ _ v prec => (if v < 0 then ['-'] else []) ++ decimal v.natAbs prec
  | .format cv cs => (cs.map cv.apply).reverse

/-- The text after a sequence of operations, starting with `t`. -/
def text (t : List Char) : List Op → List Char
  | [] => t
  | .reset :: os => text [] os
  | o :: os => text (t ++ added o) os

/-- Operations with arguments their C++ types can hold: a value of `hex` is one of its type, a
precision is a uint8_t, a signed number is in the range of its type and is not the least number of
`int` or a wider type (its negation is undefined). -/
def Ok : Op → Prop
  | .hex _ bytes v _ => v < 256 ^ bytes
  | .sdec _ bits v _ => -(2 ^ (bits - 1) : Int) ≤ v ∧ v < 2 ^ (bits - 1) ∧ 0 < bits ∧
      (32 ≤ bits → v ≠ -(2 ^ (bits - 1) : Int))
  | _ => True

end Libasm.StrBuffer.Spec
