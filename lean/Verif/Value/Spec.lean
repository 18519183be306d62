import Verif.Value.Model
/-
What an integer Value means: the integer it denotes.
-/
namespace Libasm.Value.Spec

/-- The Values the library can build: 64 bits; the type `signed` is only used for negative
numbers (`setS` turns the others into `unsigned`), and an undefined value has zero bits. -/
def Valid (v : Value) : Prop :=
  match v.type with
  | .undef => v.bits = 0
  | .unsigned => v.bits < 2 ^ 64
  | .signed => 2 ^ 63 ≤ v.bits ∧ v.bits < 2 ^ 64

/-- The integer a Value denotes. -/
def denote (v : Value) : Int :=
  match v.type with
  | .signed => (v.bits : Int) - 2 ^ 64
  | _ => v.bits

instance (v : Value) : Decidable (Valid v) := by unfold Valid; cases v.type <;> infer_instance

/-- Integers a Value can hold, without the most negative one. -/
def InRange (x : Int) : Prop := -2 ^ 63 < x ∧ x < 2 ^ 64

instance (x : Int) : Decidable (InRange x) := by unfold InRange; infer_instance

end Libasm.Value.Spec
