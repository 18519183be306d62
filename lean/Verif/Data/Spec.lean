import Verif.Eval.Spec
import Verif.Data.Model
/-
What a data directive means: the bytes of its operands.
-/
namespace Libasm.Data.Spec
open Eval.Spec

/-- An operand: an expression or a string. -/
inductive Item
  | value (e : Expr)
  | string (s : List Char)

/-- A string between delimiters; a delimiter inside it is written twice. -/
def quoted (d : Char) (s : List Char) : List Char :=
  d :: s.flatMap (fun c => if c = d then [d, d] else [c]) ++ [d]

/-- Whether operands of a type can be strings. -/
def DataType.strings : DataType → Bool
  | .byteNoString | .wordNoString => false
  | _ => true

/-- How an operand is written: blanks, and an expression or a quoted string without NUL.  Where
strings are possible, an expression does not start with a string delimiter. -/
inductive ItemText (delims : List Char) (type : DataType) : Item → List Char → Prop
  | value (e : Expr) (t : List Char) (h : Writes e t)
      (hq : DataType.strings type = true → ∀ c u sp, t = sp ++ c :: u → (∀ x ∈ sp, Blank x) →
        ¬ Blank c → c ∉ delims) :
      ItemText delims type (.value e) t
  | string (s : List Char) (d : Char) (sp : List Char) (hs : DataType.strings type = true)
      (hd : d ∈ delims) (hsp : ∀ c ∈ sp, Blank c) (hc : ∀ c ∈ s, c ≠ '\x00' ∧ c.toNat < 256) :
      ItemText delims type (.string s) (sp ++ quoted d s)

/-- How a list of operands is written: with commas in between. -/
inductive ListText (delims : List Char) (type : DataType) : List Item → List Char → Prop
  | last (i : Item) (t : List Char) (h : ItemText delims type i t) : ListText delims type [i] t
  | more (i : Item) (t sp : List Char) (is : List Item) (u : List Char)
      (h : ItemText delims type i t) (hsp : ∀ c ∈ sp, Blank c) (hu : ListText delims type is u) :
      ListText delims type (i :: is) (t ++ sp ++ ',' :: u)

/-- What may follow the operands: blanks and the end of the line or a comment. -/
def Ending (rest : List Char) : Prop :=
  ∃ sp t, rest = sp ++ t ∧ (∀ c ∈ sp, Blank c) ∧ (t = [] ∨ ∃ u, t = ';' :: u)

/-- Number of bytes of a value. -/
def width (type : DataType) (x : Int) : Nat :=
  match type with
  | .byte | .byteNoString => 1
  | .word | .wordNoString | .byteInWord => 2
  | .long => 4
  | .byteOrWord => if -128 ≤ x ∧ x ≤ 255 then 1 else 2

/-- The number that is stored for a value: negative numbers as two's complement. -/
def stored (type : DataType) (x : Int) : Nat :=
  match type with
  | .byteInWord => (x % 256).toNat
  | _ => (x % 256 ^ width type x).toNat

/-- The base 256 digits of a number, least significant first. -/
def littleEndian : Nat → Nat → List Nat
  | 0, _ => []
  | n + 1, v => v % 256 :: littleEndian n (v / 256)

/-- The bytes of a value, in the byte order of the CPU. -/
def valueBytes (type : DataType) (big : Bool) (x : Int) : List Nat :=
  let bytes := littleEndian (width type x) (stored type x)
  if big then bytes.reverse else bytes

/-- Strings are filled up with zeros to a multiple of this. -/
def unit (type : DataType) (wordUnit : Bool) : Nat :=
  match type with
  | .word => 2
  | .long => 4
  | _ => if wordUnit then 2 else 1

/-- Zeros that fill `n` bytes up to a multiple of `u`. -/
def fill (u n : Nat) : List Nat := List.replicate ((u - n % u) % u) 0

/-- The bytes of an operand. -/
def bytes (type : DataType) (big wordUnit : Bool) (names : List Char → Option Int) (loc : Nat) :
    Item → Except Fail (List Nat)
  | .value e =>
    match e.value names loc with
    | .ok x => .ok (valueBytes type big x)
    | .error f => .error f
  | .string s => .ok (s.map Char.toNat ++ fill (unit type wordUnit) s.length)

/-- The bytes of a list of operands. -/
def allBytes (type : DataType) (big wordUnit : Bool) (names : List Char → Option Int) (loc : Nat) :
    List Item → Except Fail (List Nat)
  | [] => .ok []
  | i :: is =>
    match bytes type big wordUnit names loc i, allBytes type big wordUnit names loc is with
    | .ok x, .ok y => .ok (x ++ y)
    | .error f, _ => .error f
    | _, .error f => .error f

/-- Limits of the evaluator: see C15. -/
def Fits (taken : List Char → Prop) : Item → Prop
  | .value e => e.Grouped ∧ e.Fits taken ∧ e.values ≤ 8 ∧ e.operators ≤ 8
  | .string _ => True

end Libasm.Data.Spec
