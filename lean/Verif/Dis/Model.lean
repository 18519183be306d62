import Verif.Insn.Model
import Verif.Config.Model
import Verif.Eval.Model
import Verif.BinMemory.Model
/-
Model of the loop of the disassembler: driver/dis_driver.cpp:97-140 `DisDriver::disassemble` and
src/dis_base.cpp:134-147 `Disassembler::decode`.

What a CPU's `decodeImpl` does to the memory and to the length of the instruction is a `Prog`, a program
that reads through `DisInsnBase`; its text output is not modelled.  What is printed is recorded as the
instructions with their addresses, bytes and errors; the listing of an instruction is in Verif.Listing.
-/
namespace Libasm.Dis
open Insn (Buf Reader Form)
open Eval (Out)

/-- A decoder: what it reads from the instruction stream and what it does to the instruction. -/
inductive Prog
  /-- `decodeImpl` returns -/
  | done
  /-- one of the readers of src/insn_base.cpp:129-174; what follows depends on the number read and on
  the error of the reader -/
  | read (f : Form) (k : Nat → Err → Prog)
  /-- src/insn_base.cpp:124-127 `DisInsnBase::reset(length)` -/
  | reset (length : Nat) (p : Prog)
  /-- `setError` and its like: the error of the reader is now `e` -/
  | setError (e : Err) (p : Prog)

/-- The effect of a decoder; `none` is undefined behaviour. -/
def Prog.run : Prog → Reader → Option Reader
  | .done, r => some r
  | .read f k, r =>
    match r.read f with
    | none => none
    | some (v, r) => (k v r.error).run r
  | .reset n p, r => p.run { insn := r.insn.reset r.insn.address n, memory := r.memory, error := .OK }
  | .setError e p, r => p.run { r with error := e }

/-- A disassembler: `config().addressWidth()`, `config().addressUnit()` and the decoder, which may
depend on the address. -/
structure Cpu where
  width : Nat
  unit : Nat
  prog : Nat → Prog

/-- src/dis_base.cpp:134-147 `decode`: the instruction and what the reader has left.  Simplified: the
errors of text output (line 144-145) are part of the decoder. -/
def decode (D : Cpu) (insn : Buf) (memory : List Nat) : Option (Buf × List Nat) :=
  let e := Config.checkAddr D.width insn.address false
  if e ≠ .OK then some ({ insn with error := e }, memory)
  else
    match (D.prog insn.address).run { insn := insn, memory := memory, error := .OK } with
    | none => none
    | some r => some ({ r.insn with error := r.error }, r.memory)

/-- An instruction that is printed. -/
structure Rec where
  address : Nat
  bytes : List Nat
  error : Err
deriving DecidableEq, Repr

/-- driver/dis_driver.cpp:122-138: the loop over a block: `size` is `mem_size`, `memory` what `reader`
has left, `offset` is `mem_offset`; `insn` is reset (line 126, and driver/dis_formatter.cpp:60-67).  At
most `fuel` instructions. -/
def block (D : Cpu) (start size : Nat) : Nat → Nat → List Nat → Out (List Rec)
  | 0, _, _ => .diverge
  | fuel + 1, offset, memory =>
    if offset < size then
      match decode D (Buf.new (start + offset / D.unit)) memory with
      | none => .ub
      | some (insn, memory) =>
        (block D start size fuel ((offset + insn.length) % 4294967296) memory).bind fun recs =>
          .ok (⟨insn.address, insn.bytes.take insn.length, insn.error⟩ :: recs)
    else .ok []

/-- driver/dis_driver.cpp:112-139: the loop over the blocks; an address unit of zero would be a
division by zero. -/
def blocks (D : Cpu) (fuel : Nat) : List BinMemory.Entry → Out (List (List Rec))
  | [] => .ok []
  | e :: es =>
    if D.unit = 0 then .ub
    else
      (block D (e.base / D.unit) e.size fuel 0 (e.data.map UInt8.toNat)).bind fun recs =>
        (blocks D fuel es).bind fun rest => .ok (recs :: rest)

/-- driver/dis_driver.cpp:97-140 `disassemble` on an image. -/
def disassemble (D : Cpu) (fuel : Nat) (m : BinMemory.Blocks) : Out (List (List Rec)) :=
  match BinMemory.walk m with
  | none => .ub
  | some es => blocks D fuel es

/-! ### The decoder of the i8086 -/

/-- src/insn_i8086.h:146-152 `readByte` with the byte pushed back, if there is one. -/
def readPushed (pushed : Option Nat) (e : Err) (k : Nat → Err → Option Nat → Prog) : Prog :=
  match pushed with
  | some b => k b e none
  | none => .read .byte fun v e => k v e none

/-- src/dis_i8086.cpp:406-431 `readCodes`: `fpu` is `TABLE.isPrefix(_cpuSpec.fpu, _)`, `cpu` is
`TABLE.isPrefix(_cpuSpec.cpu, _)`, `segment` is `!_segOverrideInsn && TABLE.isSegmentPrefix(_)`; `k` gets
the code, the error and the byte pushed back. -/
def readCodes (fpu cpu segment : Nat → Bool) (k : Nat → Err → Option Nat → Prog) : Prog :=
  .read .byte fun opc e =>
    let codes (opc : Nat) (e : Err) (pushed : Option Nat) : Prog :=
      let prefixed (opc : Nat) (e : Err) (pushed : Option Nat) : Prog :=
        if cpu opc || fpu opc then readPushed pushed e k else k opc e pushed
      if segment opc then readPushed pushed e prefixed else prefixed opc e pushed
    if opc = 0x9B then
      .read .byte fun inst e =>
        if e = .OK then
          if fpu inst then .setError .OK (codes inst .OK none)
          else .reset 1 (.setError .OK (codes opc .OK (some inst)))
        else .setError .OK (codes opc .OK none)
    else codes opc e none

end Libasm.Dis
