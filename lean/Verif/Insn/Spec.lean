import Verif.Insn.Model
/-
What the emitters are supposed to do, in terms of byte strings.
-/
namespace Libasm.Insn.Spec

/-- Bytes of an emitted datum. -/
def size : Form → Nat
  | .byte => 1 | .be16 => 2 | .le16 => 2 | .be32 => 4 | .le32 => 4 | .be64 => 8 | .le64 => 8

/-- The `n` base 256 digits of a number, least significant first. -/
def digits : Nat → Nat → List Nat
  | 0, _ => []
  | n + 1, v => v % 256 :: digits n (v / 256)

/-- The byte string a datum stands for: its base 256 digits, most significant first in a big endian
form, least significant first in a little endian one. -/
def encode (f : Form) (v : Nat) : List Nat :=
  match f with
  | .byte => digits 1 v
  | .le16 => digits 2 v
  | .le32 => digits 4 v
  | .le64 => digits 8 v
  | .be16 => (digits 2 v).reverse
  | .be32 => (digits 4 v).reverse
  | .be64 => (digits 8 v).reverse

/-- The instruction buffer as the library leaves it: 64 cells, at most 64 in use, cells hold
bytes. -/
structure Fine (b : Buf) : Prop where
  cells : b.bytes.length = 64
  used : b.length ≤ 64
  bytes : ∀ x ∈ b.bytes, x < 256

end Libasm.Insn.Spec
