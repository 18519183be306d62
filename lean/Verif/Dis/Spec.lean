import Verif.Insn.Spec
import Verif.Dis.Model
/-
What disassembling is to do with an image.
-/
namespace Libasm.Dis.Spec
open Insn (Form)

/-- The instructions printed for the bytes from `offset` on: one after another, none empty, each with the
address of its first byte, and together the bytes. -/
inductive Visits (unit start : Nat) : Nat → List Nat → List Rec → Prop
  | nil {offset} : Visits unit start offset [] []
  | cons {offset r rest rs} : r.bytes ≠ [] → r.address = start + offset / unit →
      Visits unit start (offset + r.bytes.length) rest rs →
      Visits unit start offset (r.bytes ++ rest) (r :: rs)

/-- A decoder that only reads, at most `n` bytes. -/
inductive Plain : Nat → Prog → Prop
  | done {n} : Plain n .done
  | read {n f k} : Insn.Spec.size f ≤ n → (∀ v e, Plain (n - Insn.Spec.size f) (k v e)) →
      Plain n (.read f k)
  | setError {n e p} : Plain n p → Plain n (.setError e p)

/-- A decoder that begins with reading. -/
def Begins : Prog → Prop
  | .read _ _ => True
  | _ => False

/-- The instructions printed for blocks of bytes, block by block. -/
inductive VisitsAll (unit : Nat) : List (Nat × List UInt8) → List (List Rec) → Prop
  | nil : VisitsAll unit [] []
  | cons {base data recs bs rs} : Visits unit (base / unit) 0 (data.map UInt8.toNat) recs →
      VisitsAll unit bs rs → VisitsAll unit ((base, data) :: bs) (recs :: rs)

end Libasm.Dis.Spec
