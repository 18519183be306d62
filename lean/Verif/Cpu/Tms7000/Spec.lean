import Verif.Base.Ctype
/-
What the claims about the tms7000 exclude, apart from the model.
-/
namespace Libasm.Cpu.Tms7000

/-- Where the bytes of an instruction name one of the registers A and B by its number, 0 or 1, although there
is another instruction of this name for the register: the place of the byte after the code `b`, and the
number. -/
def shortened (b : Nat) : List (Nat × Nat) :=
  if b = 0x12 ∨ b = 0x32 then [(1, 0), (1, 1)]
  else if b = 0x42 then [(1, 0), (1, 1), (2, 0), (2, 1)]
  else if b = 0xD0 then [(1, 1)]
  else if b = 0xD1 then [(1, 0)]
  else if b / 16 = 0x1 then [(1, 1)]
  else if b / 16 = 0xD then [(1, 0), (1, 1)]
  else if b / 16 = 0x4 ∨ b / 16 = 0x7 then [(2, 0), (2, 1)]
  else []

end Libasm.Cpu.Tms7000
