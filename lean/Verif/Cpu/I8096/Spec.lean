/-
What the statements about the i8096 are made of.
-/
namespace Libasm.Cpu.I8096.Spec

/-- The instruction without the prefix of the signed multiplications and divisions. -/
def body : List Nat → List Nat
  | [] => []
  | b :: l => if b = 0xFE then l else b :: l

/-- The codes that have the addressing mode of their last operand in their two low bits. -/
def Moded (b : Nat) : Prop := 0x40 ≤ b ∧ b < 0xD0

/-- The index register and the displacement after it are in the shortest form there is: a displacement of one byte is
not zero and has a register; one of two bytes (the low bit of the register is set) does not fit one byte with the sign,
or is the address of something that is not a register. -/
def Shortest (r : Nat) : List Nat → Prop
  | [] => True
  | d :: l =>
    if r % 2 = 0 then r ≠ 0 ∧ d ≠ 0
    else
      match l with
      | [] => True
      | e :: _ => (if r = 1 then 256 else 128) ≤ d + 256 * e

/-- Of the instructions that have an indexed operand, those whose operand has the shortest form; with `use-absolute`,
of those that are indirect, the ones by another register than zero. -/
def Canonical (abs : Bool) : List Nat → Prop
  | b :: r :: l =>
    (Moded b ∧ b % 4 = 3 → Shortest r l) ∧ (abs = true → Moded b ∧ b % 4 = 2 ∨ b = 0xE3 → r ≠ 0)
  | _ => True

/-- The codes whose operand with an addressing mode is a word. -/
def Word (b : Nat) : Prop :=
  b / 16 = 4 ∨ b / 16 = 6 ∨ b / 16 = 8 ∨ (0xA0 ≤ b ∧ b < 0xAC) ∨ (0xC0 ≤ b ∧ b < 0xC4) ∨ (0xC8 ≤ b ∧ b < 0xD0)

instance (b : Nat) : Decidable (Word b) := by unfold Word; infer_instance

/-- The operand is a word indexed by the register 0, with an odd displacement. -/
def Misaligned : List Nat → Prop
  | b :: r :: d :: _ => Word b ∧ b % 4 = 3 ∧ r ≤ 1 ∧ d % 2 = 1
  | _ => False

/-- The code of a store to an immediate operand: of a word, a byte, or off the stack. -/
def StoresImmediate : List Nat → Prop
  | b :: _ => b = 0xC1 ∨ b = 0xC5 ∨ b = 0xCD
  | [] => False

end Libasm.Cpu.I8096.Spec
