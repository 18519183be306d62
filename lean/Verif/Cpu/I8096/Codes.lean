import Verif.Cpu.I8096.Encode
/-
What has to be looked up in the tables of the i8096: decided for all codes.
-/
namespace Libasm.Cpu.I8096
open Scan Number Number.Spec Eval
open Tables (Row)

/-- The modes in the order in which their bytes come. -/
def order (row : Row) : List Mode := if jbx row then modes row else (modes row).reverse

/-- The modes of the tables. -/
def good (m : Mode) : Bool :=
  [Mode.BREG, .WREG, .LREG, .BAOP, .WAOP, .REL8, .REL11, .REL16, .BITNO, .COUNT, .INDIR].contains m

/-- The operands, one after the other, make the code `b` of the code `c`. -/
def seqOk (b : Nat) : List Mode → Nat → Bool
  | [], c => c == b
  | m :: ms, c => good m && relLen c m == relLen b m && seqOk b ms (emb b m c)

/-- Only what comes first can be more than a register, a number or a target. -/
def firstOk (b : Nat) : List Mode → Bool
  | [] => true
  | m :: ms =>
    (if m = .BAOP ∨ m = .WAOP then decide (0x40 ≤ b ∧ b < 0xD0) else if m = .INDIR then b == 0xE3 else true) &&
      ms.all fun m => !decide (m = .BAOP ∨ m = .WAOP ∨ m = .INDIR)

/-- The entry of a code. -/
def rowOk (b : Nat) (row : Row) : Bool :=
  decide ((modes row).length ≤ 3) && seqOk b (order row) row.opcode && firstOk b (order row)

/-- What an operand can be read as. -/
def pmodes (b : Nat) : Mode → List Mode
  | .COUNT => [.IMM16, .ADDR]
  | .BAOP | .WAOP =>
    if b % 4 = 0 then [.ADDR] else if b % 4 = 1 then [.IMM16] else if b % 4 = 2 then [.INDIR] else [.IDX16, .ADDR]
  | .INDIR => [.INDIR]
  | _ => [.ADDR]

/-- What the operands can be read as. -/
def choices (b : Nat) : List Mode → List (List Mode)
  | [] => [[]]
  | m :: ms => (pmodes b m).flatMap fun x => (choices b ms).map (x :: ·)

/-- The entry that is found. -/
def rowIs (x : Out (Except Err (Nat × Row))) (pre : Nat) (row : Row) : Bool :=
  match x with
  | .ok (.ok (p, r)) => p == pre && decide (r = row)
  | _ => false

theorem rowIs_eq {x : Out (Except Err (Nat × Row))} {pre : Nat} {row : Row} (h : rowIs x pre row = true) :
    x = .ok (.ok (pre, row)) := by
  unfold rowIs at h
  split at h
  · simp only [Bool.and_eq_true, beq_iff_eq, decide_eq_true_eq] at h
    rw [h.1, h.2]
  · cases h

/-- The name finds the entry again. -/
def nameOk (pre b : Nat) (row : Row) (up : Bool) : Bool :=
  nameB syntaxOf (row.name.map (letter up)) &&
  (choices b (modes row)).all fun ms => rowIs (searchName (row.name.map (letter up)) (pad 3 .NONE ms)) pre row

/-- All that is needed of a code. -/
def codeOk (pre b : Nat) : Bool :=
  match searchOpCode pre b with
  | none => true
  | some row => rowOk b row && nameOk pre b row false && nameOk pre b row true

theorem codes_ok : ∀ b < 256, codeOk 0 b = true := by decide +kernel

theorem prefixed_ok : ∀ b < 256, codeOk 0xFE b = true := by decide +kernel

theorem prefixes : ∀ b < 256, isPrefix b = (b == 0xFE) := by decide +kernel

end Libasm.Cpu.I8096
