/-
What the statements about the MN1610 need, in terms of the bits of a code.
-/
namespace Libasm.Cpu.Mn1610.Spec

/-- The least significant byte of a code as a number with a sign. -/
def displacement (code : Nat) : Int := if code % 256 < 128 then code % 256 else (code % 256 : Nat) - 256

/-- An instruction with an address in memory that is relative to the instruction counter: bits 13 to 11 are 1, or 3
if the address is that of the address. -/
def CounterRelative (code : Nat) : Prop := 0x8000 ≤ code ∧ (code / 2048 % 8 = 1 ∨ code / 2048 % 8 = 3)

instance (code : Nat) : Decidable (CounterRelative code) := by unfold CounterRelative; infer_instance

/-- The codes next to those of LR and STR of the MN1613: bits 7 and 6, which say how the register changes, are 0, and so
are bits 1 and 0. Three of them are other instructions: H, LPSW 0 and BR (R1). -/
def NoTransfer (code : Nat) : Prop := code &&& 0xF8FB = 0x2000 ∧ code ≠ 0x2000 ∧ code ≠ 0x2004 ∧ code ≠ 0x2704

instance (code : Nat) : Decidable (NoTransfer code) := by unfold NoTransfer; infer_instance

/-- CBI of the MN1613, which compares a byte that comes in a word of its own. -/
def CompareByte (code : Nat) : Prop := code &&& 0xF80F = 0x5007

instance (code : Nat) : Decidable (CompareByte code) := by unfold CompareByte; infer_instance

end Libasm.Cpu.Mn1610.Spec
