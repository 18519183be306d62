import Verif.Cpu.Model
/-
Lists of operands, as most CPUs have them, and the instruction put together from a code of one byte and
the operands.
-/
namespace Libasm.Cpu
open Scan Number Eval

section
variable {M O A : Type}

/-- The operands are printed with a comma and a space between them (`out.comma()`,
src/str_buffer.cpp). -/
def decodeList (dec : M → Rd → List Char × Rd) : List M → Rd → List Char × Rd
  | [], r => ([], r)
  | [m], r => dec m r
  | m :: n :: ms, r =>
    let x := dec m r
    let y := decodeList dec (n :: ms) x.2
    (x.1 ++ ',' :: ' ' :: y.1, y.2)

/-- Up to `n` operands are read, as long as there is a comma after one. `parse` gives the error and
the text left when that ends the encoding. -/
def operandList (parse : Scan → Out (Except (Err × Scan) (O × Scan))) :
    Nat → Scan → Out (Except (Err × Scan) (List O × Scan))
  | 0, s => .ok (.ok ([], s))
  | n + 1, s =>
    (parse s).bind fun
    | .error e => .ok (.error e)
    | .ok (op, s) =>
      match n, expect ',' (skipSpaces s) with
      | 0, _ => .ok (.ok ([op], skipSpaces s))
      | _ + 1, none => .ok (.ok ([op], skipSpaces s))
      | _ + 1, some p =>
        (operandList parse n p).bind fun
        | .error e => .ok (.error e)
        | .ok (ops, s) => .ok (.ok (op :: ops, s))

/-- Each operand is put into the instruction with the addressing mode of the table. -/
def emitList (emit : M → O → A → Out A) : List (M × O) → A → Out A
  | [], a => .ok a
  | (m, op) :: l, a => (emit m op a).bind fun a => emitList emit l a

/-- `n` of the list, the missing ones as given. -/
def pad {α : Type} : Nat → α → List α → List α
  | 0, _, _ => []
  | n + 1, d, [] => d :: pad n d []
  | n + 1, d, a :: l => a :: pad n d l

end

/-- `AsmInsn` of a CPU with codes of one byte: error, code, and the bytes emitted for the operands. They go
to the buffer before the code does, to the places after it (e.g. src/insn_i8051.h:46-57). -/
structure Asm where
  err : Err
  opc : Nat
  ops : List Nat
deriving DecidableEq

/-- `insn.setErrorIf(op, e)`. -/
def Asm.setErrorIf (a : Asm) (e : Err) : Asm := { a with err := Config.setErrorIf a.err e }
/-- `if (c) insn.setErrorIf(op, e)`. -/
def Asm.check (a : Asm) (c : Bool) (e : Err) : Asm := if c then a.setErrorIf e else a
/-- `insn.embed(x)` of an 8 bit code. -/
def Asm.embed (a : Asm) (x : Nat) : Asm := { a with opc := (a.opc ||| x) % 256 }
/-- `emitOperand8` -/
def Asm.emit8 (a : Asm) (x : Nat) : Asm := { a with ops := a.ops ++ [x % 256] }
/-- `emitOperand16` of a CPU that has the most significant byte first. -/
def Asm.emit16be (a : Asm) (x : Nat) : Asm := { a with ops := a.ops ++ [x / 256 % 256, x % 256] }
/-- `emitOperand16` of a CPU that has the least significant byte first. -/
def Asm.emit16le (a : Asm) (x : Nat) : Asm := { a with ops := a.ops ++ [x % 256, x / 256 % 256] }
/-- All the bytes after `emitInsn`. -/
def Asm.bytes (a : Asm) : List Nat := a.opc % 256 :: a.ops
/-- `insn.length()` while the operands are emitted. -/
def Asm.length (a : Asm) : Nat := if a.ops = [] then 0 else 1 + a.ops.length

/-- `branchDelta(base, target, insn, op)`, `overflowDelta(delta, 8)` with OPERAND_TOO_FAR, and
`emitOperand8(delta)` (e.g. src/asm_i8051.cpp:153-156); `width` is the address width of the CPU. -/
def Asm.rel8 (a : Asm) (width base target : Nat) : Out Asm :=
  (ofOption (Config.branchDelta width base target a.err)).bind fun (delta, err) =>
  (ofOption (Config.overflowDelta delta 8)).bind fun far =>
  .ok ((({ a with err := err } : Asm).check far .OPERAND_TOO_FAR).emit8 (delta % 256).toNat)

/-- `static_cast<int8_t>` -/
def int8 (b : Nat) : Int := if b < 128 then b else (b : Int) - 256

end Libasm.Cpu
