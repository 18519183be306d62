/-
What the claims about the ins8070 exclude, apart from the model.
-/
namespace Libasm.Cpu.Ins8070

/-- The codes of the instructions that go to a target given by the distance: BND, BP, BZ, BRA and BNZ. -/
def branches : List Nat := [0x2D, 0x64, 0x6C, 0x74, 0x7C]

end Libasm.Cpu.Ins8070
