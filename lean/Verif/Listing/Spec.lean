import Verif.Number.Spec
import Verif.Listing.Model
/-
What a listing is to show, without any formatter: cells of one or two bytes, and numerals read back as
numbers.
-/
namespace Libasm.Listing.Spec
open Number.Spec

/-- `t` is a numeral of `v` of `n` digits, or more if `v` needs more. -/
def Shows (base n v : Nat) (t : List Char) : Prop :=
  (∀ c ∈ t, IsDigit base c) ∧ valueOf base t = v ∧ n ≤ t.length ∧ (v < base ^ n → t.length = n)

/-- The digits of a number of some bits. -/
def digitsOf (hex : Bool) (bits : Nat) : Nat := if hex then (bits + 3) / 4 else (bits + 2) / 3

/-- A cell of the bytes column. -/
inductive Cell
  /-- a byte of a CPU with 8 bit codes -/
  | byte (b : Nat)
  /-- the byte at an odd address a line of a CPU with 16 bit codes starts with -/
  | first (b : Nat)
  /-- the byte at an even address an instruction of a CPU with 16 bit codes ends with -/
  | last (b : Nat)
  /-- the bytes of a word, in the order of their addresses -/
  | word (a b : Nat)

/-- The bytes a cell is about, in the order of their addresses. -/
def Cell.bytes : Cell → List Nat
  | .byte b => [b]
  | .first b => [b]
  | .last b => [b]
  | .word a b => [a, b]

/-- `text` is the cell in the listing: a space, then a numeral.  A lone byte of a little endian CPU
stands where it stands in a word, and so does the first byte of a big endian one. -/
def Shown (s : Style) (text : List Char) : Cell → Prop
  | .byte b => ∃ t, text = ' ' :: t ∧ Shows s.base (digitsOf s.hex 8) b t
  | .first b => ∃ t, Shows s.base (digitsOf s.hex 8) b t ∧
      let gap := List.replicate (digitsOf s.hex 16 - digitsOf s.hex 8) ' '
      text = if s.big then ' ' :: gap ++ t else ' ' :: t ++ gap
  | .last b => ∃ t, Shows s.base (digitsOf s.hex 8) b t ∧
      let gap := List.replicate (digitsOf s.hex 16 - digitsOf s.hex 8) ' '
      text = if s.big then ' ' :: t else ' ' :: gap ++ t
  | .word a b => ∃ t, text = ' ' :: t ∧
      Shows s.base (digitsOf s.hex s.width.bits) (if s.big then a * 256 + b else b * 256 + a) t

/-- `text` is a column of cells. -/
inductive Column (s : Style) : List Cell → List Char → Prop
  | nil : Column s [] []
  | cons {c t cs u} : Shown s t c → Column s cs u → Column s (c :: cs) (t ++ u)

/-- `text` is an address: spaces, the shortest numeral and ` :`. -/
def Address (s : Style) (addr : Nat) (text : List Char) : Prop :=
  ∃ n t, text = List.replicate n ' ' ++ t ++ [' ', ':'] ∧ t ≠ [] ∧ Shows s.base t.length addr t ∧
    (1 < t.length → s.base ^ (t.length - 1) ≤ addr)

/-- The lines of an instruction at `start`: line after line a non-empty part of its bytes (the first
line may have none).  `addressOf` gives the address a line shows from the number of bytes before it. -/
inductive Lists (s : Style) (addressOf : Nat → Nat) : Nat → List Nat → List Line → Prop
  | last {offset cells number address column source} :
      Address s (addressOf offset) address → Column s cells column →
      Lists s addressOf offset (cells.flatMap Cell.bytes) [.body number address column source]
  | more {offset cells number address column source rest lines} :
      cells.flatMap Cell.bytes ≠ [] →
      Address s (addressOf offset) address → Column s cells column →
      Lists s addressOf (offset + (cells.flatMap Cell.bytes).length) rest lines →
      Lists s addressOf offset (cells.flatMap Cell.bytes ++ rest)
        (.body number address column source :: lines)

end Libasm.Listing.Spec
