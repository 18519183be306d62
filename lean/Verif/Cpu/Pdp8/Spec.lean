/-
What the statements about the PDP-8 need, in terms of the bits of a code.
-/
namespace Libasm.Cpu.Pdp8.Spec

/-- A memory reference to the page the instruction is in: the operation is one of the first six, and bit 0200 is set. -/
def CurrentPage (code : Nat) : Prop := code < 0o6000 ∧ code / 0o200 % 2 = 1

instance (code : Nat) : Decidable (CurrentPage code) := by unfold CurrentPage; infer_instance

/-- NOP and CLA of the second and the third group of operate instructions; the first group has them too. -/
def Twin (code : Nat) : Prop := code = 0o7400 ∨ code = 0o7401 ∨ code = 0o7600 ∨ code = 0o7601

instance (code : Nat) : Decidable (Twin code) := by unfold Twin; infer_instance

end Libasm.Cpu.Pdp8.Spec
