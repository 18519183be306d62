/-
What the statements about the SCN2650 are made of.
-/
namespace Libasm.Cpu.Scn2650.Spec

/-- The codes with a target that is relative to the instruction: the third column of each half row of the opcode
map, but for `ZBRR` and `ZBSR`. -/
def Relative (b : Nat) : Prop := b / 4 % 4 = 2 ∧ b ≠ 0x9B ∧ b ≠ 0xBB

/-- The displacement in the low seven bits. -/
def disp (d : Nat) : Int := if d % 128 < 64 then (d % 128 : Nat) else ((d % 128 : Nat) : Int) - 128

/-- The target of an instruction of two bytes at the address is in the page of 8 kilobytes without going round
its ends. -/
def InPage (addr d : Nat) : Prop :=
  0 ≤ (((addr + 2) % 8192 : Nat) : Int) + disp d ∧ (((addr + 2) % 8192 : Nat) : Int) + disp d < 8192

end Libasm.Cpu.Scn2650.Spec
