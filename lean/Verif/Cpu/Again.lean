import Verif.Cpu.Reads
import Verif.Cpu.I8080.Back
import Verif.Cpu.Ins8060.Back
import Verif.Cpu.Cdp1802.Back
import Verif.Cpu.Mc6800.Back
import Verif.Cpu.I8051.Back
import Verif.Cpu.I8048.Back
import Verif.Cpu.Mos6502.Back
import Verif.Cpu.Z80.Back
import Verif.Cpu.F3850.Back
import Verif.Cpu.Tms7000.Back
import Verif.Cpu.Ins8070.Back
import Verif.Cpu.Tms32010.Back
import Verif.Cpu.Tms9900.Back
import Verif.Cpu.Scn2650.Back
import Verif.Cpu.I8096.Back
import Verif.Cpu.Mn1610.Back
import Verif.Cpu.Pdp8.Back
import Verif.Cpu.Tlcs90.Back
import Verif.Cpu.Mc6805.Back
/-
C64: the bytes of a disassembled instruction are the first ones of the memory, whatever the outcome.
C65: the disassembly of what was assembled is another way to write the same bytes.
-/
namespace Libasm.Cpu
open Scan Number Eval

/-! ### C64 -/

/-- The memory holds bytes. -/
theorem bytes_same {mem : List Nat} (h : ∀ b ∈ mem, b < 256) : mem.map (· % 256) = mem := by
  induction mem with
  | nil => rfl
  | cons b mem ih =>
    rw [List.map_cons, ih (fun x hx => h x (List.mem_cons_of_mem _ hx)),
      Nat.mod_eq_of_lt (h b (List.mem_cons_self ..))]

namespace I8080

theorem operand_of {M : List Nat} (o : Opts) (zilog : Bool) (opc : Nat) (m : Mode) (r : Rd) (h : r.Of M) :
    (decodeOperand o zilog opc m r).2.Of M := by
  unfold decodeOperand
  cases m <;> first
    | exact h
    | exact h.byte
    | exact h.le16
    | (dsimp only; split <;> exact h)

theorem insn_of {M : List Nat} (o : Opts) (cpu : CpuType) (zilog : Bool) (pre opc : Nat) (r : Rd) (h : r.Of M) :
    (decodeInsn o cpu zilog pre opc r).bytes <+: M := by
  unfold decodeInsn
  split
  · exact h.prefix
  · dsimp only
    split
    · exact (h.err .OK).prefix
    · have h1 := operand_of o zilog opc (flags ‹_›).1 _ (h.err .OK)
      split
      · exact h1.prefix
      · exact (operand_of o zilog opc _ _ h1).prefix

theorem reads (o : Opts) (cpu : CpuType) (zilog : Bool) (addr : Nat) (mem : List Nat) :
    (disassemble o cpu zilog addr mem).bytes <+: mem.map (· % 256) := by
  refine decode_reads (fun addr mem => ?_) addr mem
  have h := (Rd.Of.start mem).byte
  unfold decodeImpl
  dsimp only
  split
  · split
    · exact h.byte.prefix
    · exact insn_of o cpu zilog _ _ _ h.byte
  · exact insn_of o cpu zilog _ _ _ h

end I8080

namespace Ins8060

theorem indx_of {M : List Nat} (o : Opts) (addr opc : Nat) (m : Mode) (b : Bool) (r : Rd) (h : r.Of M) :
    (decodeIndx o addr opc m b r).2.Of M := by
  unfold decodeIndx
  dsimp only
  repeat' split
  all_goals exact h.byte

theorem reads (o : Opts) (addr : Nat) (mem : List Nat) :
    (disassemble o addr mem).bytes <+: mem.map (· % 256) := by
  refine decode_reads (fun addr mem => ?_) addr mem
  have h := (Rd.Of.start mem).byte
  unfold decodeImpl
  dsimp only
  split
  · exact h.prefix
  · rename_i row _
    have h0 : Rd.Of (mem.map (· % 256)) { (⟨mem, [], .OK⟩ : Rd).byte.2 with err := Err.OK } := h.err _
    have fin : ∀ r : Rd, r.Of (mem.map (· % 256)) →
        (if page addr ≠ page (addr + r.bytes.length + 65535) then r.setErrorIf .OVERWRAP_SEGMENT else r).bytes <+:
          mem.map (· % 256) := by
      intro r hr
      split
      · exact (hr.setErrorIf _).prefix
      · exact hr.prefix
    cases mode row with
    | IMM8 => exact fin _ h0.byte
    | REL8 | DISP | INDX => exact fin _ (indx_of _ _ _ _ _ _ h0)
    | _ => exact fin _ h0

end Ins8060

namespace Cdp1802

theorem operand_of {M : List Nat} (o : Opts) (useReg : Bool) (addr opc : Nat) (m : Mode) (r : Rd) (h : r.Of M) :
    (decodeOperand o useReg addr opc m r).2.Of M := by
  unfold decodeOperand
  cases m <;> first
    | exact h
    | exact h.byte
    | exact h.be16
    | (dsimp only; split <;> exact h)

theorem insn_of {M : List Nat} (o : Opts) (useReg : Bool) (cpu : CpuType) (addr pre opc : Nat) (r : Rd) (h : r.Of M) :
    (decodeInsn o useReg cpu addr pre opc r).bytes <+: M := by
  unfold decodeInsn
  split
  · exact h.prefix
  · dsimp only
    split
    · exact (h.err .OK).prefix
    · have h1 := operand_of o useReg addr opc (flags ‹_›).1 _ (h.err .OK)
      split
      · exact h1.prefix
      · exact (operand_of o useReg addr opc _ _ h1).prefix

theorem reads (o : Opts) (useReg : Bool) (cpu : CpuType) (addr : Nat) (mem : List Nat) :
    (disassemble o useReg cpu addr mem).bytes <+: mem.map (· % 256) := by
  refine decode_reads (fun addr mem => ?_) addr mem
  have h := (Rd.Of.start mem).byte
  unfold decodeImpl
  dsimp only
  split
  · split
    · exact h.byte.prefix
    · exact insn_of o useReg cpu _ _ _ _ h.byte
  · exact insn_of o useReg cpu _ _ _ _ h

end Cdp1802

namespace Mc6800

theorem operand_of {M : List Nat} (o : Opts) (cpu : CpuType) (addr pre opc : Nat) (row : Tables.Row) (m : Mode)
    (r : Rd) (h : r.Of M) : (decodeOperand o cpu addr pre opc row m r).2.1.Of M := by
  unfold decodeOperand
  cases select opc m <;> first
    | exact h
    | exact h.byte
    | exact h.be16
    | exact h.byte.setErrorIf _
    | skip
  dsimp only
  unfold decodeBitNumber
  dsimp only
  split
  · split
    · exact h.byte.err _
    · exact h.byte.err _
  · exact h.byte

theorem insn_of {M : List Nat} (o : Opts) (cpu : CpuType) (addr pre opc : Nat) (r : Rd) (h : r.Of M) :
    (decodeInsn o cpu addr pre opc r).bytes <+: M := by
  unfold decodeInsn
  split
  · exact h.prefix
  · rename_i row _
    dsimp only
    have h1 := operand_of o cpu addr pre opc row (flags row).mode1 _ (h.err .OK)
    split
    · exact h1.prefix
    · have h2 := operand_of o cpu addr pre opc (decodeOperand o cpu addr pre opc row (flags row).mode1 { r with err := Err.OK }).2.2
        (flags (decodeOperand o cpu addr pre opc row (flags row).mode1 { r with err := Err.OK }).2.2).mode2 _ h1
      split
      · exact h2.prefix
      · exact (operand_of o cpu addr pre opc _ _ _ h2).prefix

theorem reads (o : Opts) (cpu : CpuType) (addr : Nat) (mem : List Nat) :
    (disassemble o cpu addr mem).bytes <+: mem.map (· % 256) := by
  refine decode_reads (fun addr mem => ?_) addr mem
  have h := (Rd.Of.start mem).byte
  unfold decodeImpl
  dsimp only
  split
  · split
    · exact h.byte.prefix
    · exact insn_of o cpu _ _ _ _ h.byte
  · exact insn_of o cpu _ _ _ _ h

end Mc6800

namespace I8051

theorem operand_of {M : List Nat} (o : Opts) (addr opc : Nat) (m : Mode) (r : Rd) (h : r.Of M) :
    (decodeOperand o addr opc m r).2.Of M := by
  unfold decodeOperand
  cases m <;> first
    | exact h
    | exact h.byte
    | exact h.be16
    | exact h.byte.setErrorIf _
    | (dsimp only; split <;> exact h.byte)

theorem reads (o : Opts) (addr : Nat) (mem : List Nat) :
    (disassemble o addr mem).bytes <+: mem.map (· % 256) := by
  refine decode_reads (fun addr mem => ?_) addr mem
  have h := (Rd.Of.start mem).byte
  unfold decodeImpl
  dsimp only
  split
  · exact h.prefix
  · dsimp only
    split
    · exact (h.err .OK).byte.byte.prefix
    · exact (Rd.Of.list (operand_of o addr _) _ _ (h.err .OK)).prefix

end I8051

namespace I8048

theorem operand_of {M : List Nat} (o : Opts) (addr opc : Nat) (m : Mode) (r : Rd) (h : r.Of M) :
    (decodeOperand o addr opc m r).2.Of M := by
  unfold decodeOperand
  cases m <;> first
    | exact h
    | exact h.byte

theorem reads (o : Opts) (cpu : CpuType) (addr : Nat) (mem : List Nat) :
    (disassemble o cpu addr mem).bytes <+: mem.map (· % 256) := by
  refine decode_reads (fun addr mem => ?_) addr mem
  have h := (Rd.Of.start mem).byte
  unfold decodeImpl
  dsimp only
  split
  · exact h.prefix
  · exact (Rd.Of.list (operand_of o addr _) _ _ (h.err .OK)).prefix

end I8048

namespace Mos6502

theorem target_of {M : List Nat} (o : Opts) (cpu : CpuType) (addr : Nat) (d : Int) (bits : Nat) (r : Rd)
    (h : r.Of M) : (decodeTarget o cpu addr d bits r).2.Of M := h.setErrorIf _

theorem operand_of {M : List Nat} (o : Opts) (cfg : Cfg) (cpu : CpuType) (addr opc : Nat) (m : Base) (r : Rd)
    (h : r.Of M) : (decodeOperand o cfg cpu addr opc m r).2.Of M := by
  unfold decodeOperand
  have imm : ∀ long, (decodeImmediate o long r).2.Of M := by
    intro long
    unfold decodeImmediate
    split
    · exact h.le16
    · exact h.byte
  cases m <;> first
    | exact h
    | exact h.byte
    | exact h.le16
    | exact imm _
    | exact h.le16.byte.setErrorIf _
    | exact target_of o cpu addr _ _ _ h.byte
    | exact target_of o cpu addr _ _ _ h.le16

theorem operands_of {M : List Nat} (o : Opts) (cfg : Cfg) (cpu : CpuType) (addr opc : Nat) (f : Flags) (r : Rd)
    (h : r.Of M) : (decodeOperands o cfg cpu addr opc f r).2.Of M := by
  have h1 := operand_of o cfg cpu addr opc f.mode1.base r h
  have h2 := operand_of o cfg cpu addr opc f.mode2.base _ h1
  have h3 := operand_of o cfg cpu addr opc f.mode3.base _ h2
  unfold decodeOperands
  split
  · unfold decodeBlockMove
    dsimp only
    split
    · exact h.byte.byte.err _
    · exact h.byte.byte
  · split
    · exact h
    · dsimp only
      split
      · exact h1
      · split
        · exact h2
        · exact h3

theorem reads (o : Opts) (cfg : Cfg) (cpu : CpuType) (addr : Nat) (mem : List Nat) :
    (disassemble o cfg cpu addr mem).bytes <+: mem.map (· % 256) := by
  refine decode_reads (fun addr mem => ?_) addr mem
  have h := (Rd.Of.start mem).byte
  unfold decodeImpl
  dsimp only
  split
  · exact h.prefix
  · exact (operands_of o cfg cpu addr _ _ _ (h.err .OK)).prefix

end Mos6502

namespace Z80

theorem operand_of {M : List Nat} (o : Opts) (addr pre opc : Nat) (m : Mode) (r : Rd) (h : r.Of M) :
    (decodeOperand o addr pre opc m r).2.Of M := by
  unfold decodeOperand
  cases m with
  | R reg => cases reg <;> exact h
  | I reg => cases reg <;> exact h
  | IM8 | IOA | IDX => exact h.byte
  | IM16 | ABS => exact h.le16
  | REL => exact h.byte.setErrorIf _
  | _ => exact h

theorem insn_of {M : List Nat} (o : Opts) (addr pre opc : Nat) (r : Rd) (h : r.Of M) :
    (decodeInsn o addr pre opc r).bytes <+: M := by
  unfold decodeInsn
  split
  · exact h.prefix
  · dsimp only
    split
    · unfold decodeIndexedBitOp
      dsimp only
      have h2 := (h.err .OK).byte.byte
      split
      · exact h2.prefix
      · split <;> exact h2.prefix
    · exact (Rd.Of.list (operand_of o addr pre opc) _ _ (h.err .OK)).prefix

theorem reads (o : Opts) (addr : Nat) (mem : List Nat) :
    (disassemble o addr mem).bytes <+: mem.map (· % 256) := by
  refine decode_reads (fun addr mem => ?_) addr mem
  have h := (Rd.Of.start mem).byte
  unfold decodeImpl
  dsimp only
  split
  · split
    · exact h.byte.prefix
    · exact insn_of o addr _ _ _ h.byte
  · exact insn_of o addr _ _ _ h

end Z80

namespace F3850

theorem operand_of {M : List Nat} (o : Opts) (addr opc : Nat) (m : Mode) (r : Rd) (h : r.Of M) :
    (decodeOperand o addr opc m r).2.Of M := by
  have may : ∀ {c : Prop} [Decidable c] {r : Rd} {e : Err}, r.Of M → (if c then r.setErrorIf e else r).Of M := by
    intro c _ r e h
    split
    · exact h.setErrorIf _
    · exact h
  unfold decodeOperand
  cases m with
  | REG =>
    dsimp only
    split <;> exact may h
  | IOS => exact may h
  | IOA => exact may h.byte
  | IM8 => exact h.byte
  | ADDR => exact h.byte.byte
  | REL => exact h.byte.setErrorIf _
  | _ => exact h

theorem reads (o : Opts) (addr : Nat) (mem : List Nat) :
    (disassemble o addr mem).bytes <+: mem.map (· % 256) := by
  refine decode_reads (fun addr mem => ?_) addr mem
  have h := (Rd.Of.start mem).byte
  unfold decodeImpl
  dsimp only
  split
  · exact h.prefix
  · exact (Rd.Of.list (operand_of o addr _) _ _ (h.err .OK)).prefix

end F3850

namespace Tms7000

theorem operand_of {M : List Nat} (o : Opts) (addr opc : Nat) (m : Mode) (r : Rd) (h : r.Of M) :
    (decodeOperand o addr opc m r).2.Of M := by
  unfold decodeOperand
  cases m with
  | RN =>
    unfold decodeRegister
    dsimp only
    split <;> exact h.byte
  | PN | IM8 | IDIR => exact h.byte
  | ABS | BIDX | IM16 | BIMM => exact h.byte.byte
  | REL => exact h.byte.setErrorIf _
  | _ => exact h

theorem reads (o : Opts) (addr : Nat) (mem : List Nat) :
    (disassemble o addr mem).bytes <+: mem.map (· % 256) := by
  refine decode_reads (fun addr mem => ?_) addr mem
  have h := (Rd.Of.start mem).byte
  unfold decodeImpl
  dsimp only
  split
  · exact h.prefix
  · exact (Rd.Of.list (operand_of o addr _) _ _ (h.err .OK)).prefix

end Tms7000

namespace Ins8070

theorem operand_of {M : List Nat} (o : Opts) (sharp : Bool) (addr opc : Nat) (row : Tables.Row) (m : Mode) (r : Rd)
    (h : r.Of M) : (decodeOperand o sharp addr opc row m r).2.Of M := by
  have imm : (decodeImmediate o sharp row r).2.Of M := by
    unfold decodeImmediate
    dsimp only
    split
    · exact h.byte.byte
    · exact h.byte
  unfold decodeOperand
  cases m with
  | IMM => exact imm
  | ADR => exact h.byte.byte
  | IDX => exact h.byte
  | PCR => exact h.byte.setErrorIf _
  | GEN =>
    dsimp only
    unfold decodeGeneric
    split
    · exact h.byte.setErrorIf _
    · exact h.byte
    · exact h.byte
    · exact h.byte
    · exact imm
    · exact h.byte
    · exact h.byte
  | _ => exact h

theorem reads (o : Opts) (sharp : Bool) (addr : Nat) (mem : List Nat) :
    (disassemble o sharp addr mem).bytes <+: mem.map (· % 256) := by
  refine decode_reads (fun addr mem => ?_) addr mem
  have h := (Rd.Of.start mem).byte
  unfold decodeImpl
  dsimp only
  split
  · exact h.prefix
  · exact (Rd.Of.list (operand_of o sharp addr _ _) _ _ (h.err .OK)).prefix

end Ins8070

namespace Mc6805

theorem operand_of {M : List Nat} (o : Opts) (w addr opc : Nat) (m : Mode) (r : Rd) (h : r.Of M) :
    (decodeOperand o w addr opc m r).2.Of M := by
  unfold decodeOperand
  generalize select opc m = s
  cases s with
  | DIR | IDX | IMM => exact h.byte
  | IX2 => exact h.be16
  | EXT => exact h.be16.setErrorIf _
  | REL => exact h.byte.setErrorIf _
  | _ => exact h

theorem reads (o : Opts) (cpu : CpuType) (pcBits addr : Nat) (mem : List Nat) :
    (disassemble o cpu pcBits addr mem).bytes <+: mem.map (· % 256) := by
  refine decode_reads (fun addr mem => ?_) addr mem
  have h := (Rd.Of.start mem).byte
  unfold decodeImpl
  dsimp only
  split
  · exact h.prefix
  · exact (Rd.Of.list (operand_of o _ addr _) _ _ (h.err .OK)).prefix

end Mc6805

namespace Tms32010

theorem le16_of {M : List Nat} {r : Rd} (h : r.Of M) : r.le16.2.Of M := h.byte.byte

theorem operand_of {M : List Nat} (o : Opts) (cpu : CpuType) (opc : Nat) (m : Mode) (r : Rd) (h : r.Of M) :
    (decodeOperand o cpu opc m r).2.Of M := by
  unfold decodeOperand
  cases m with
  | MAM =>
    dsimp only
    split
    · exact h
    · unfold outDirect
      split
      · dsimp only
        split
        · exact h.setErrorIf _
        · exact h
      · exact h
  | PMA => exact (le16_of h).setErrorIf _
  | _ => exact h

theorem operands_of {M : List Nat} (o : Opts) (cpu : CpuType) (opc : Nat) (r : Rd) (h : r.Of M) :
    ∀ ms, (decodeOperands o cpu opc r ms).2.Of M
  | [] => h
  | [m1] => operand_of o cpu opc m1 r h
  | [m1, m2] => operand_of o cpu opc m2 _ (operand_of o cpu opc m1 r h)
  | m1 :: m2 :: m3 :: _ => operand_of o cpu opc m3 _ (operand_of o cpu opc m2 _ (operand_of o cpu opc m1 r h))

theorem reads (o : Opts) (cpu : CpuType) (addr : Nat) (mem : List Nat) :
    (disassemble o cpu addr mem).bytes <+: mem.map (· % 256) := by
  refine decode_reads (fun addr mem => ?_) addr mem
  have h := le16_of (Rd.Of.start mem)
  unfold decodeImpl
  dsimp only
  split
  · exact h.prefix
  · exact (operands_of o cpu _ _ (h.err .OK) _).prefix

end Tms32010

namespace Tms9900

theorem be16_of {M : List Nat} {r : Rd} (h : r.Of M) : r.be16.2.Of M := h.byte.byte

theorem modeReg_of {M : List Nat} (o : Opts) (cpu : CpuType) (byteOp : Bool) (n : Nat) (r : Rd) (h : r.Of M) :
    (decodeModeReg o cpu byteOp n r).2.Of M := by
  unfold decodeModeReg
  dsimp only
  split
  · exact h
  · exact h
  · dsimp only
    split
    · exact (be16_of h).setErrorIf _
    · exact be16_of h
  · exact h

theorem operand_of {M : List Nat} (o : Opts) (cpu : CpuType) (addr opc post : Nat) (byteOp : Bool) (m : Mode) (r : Rd)
    (h : r.Of M) : (decodeOperand o cpu addr opc post byteOp m r).2.Of M := by
  cases m with
  | IMM => exact be16_of h
  | SRC => exact modeReg_of o cpu byteOp _ r h
  | SRC2 => exact modeReg_of o cpu byteOp _ r h
  | DST => exact modeReg_of o cpu byteOp _ r h
  | DST0 => exact modeReg_of o cpu byteOp _ r h
  | DST4 => exact modeReg_of o cpu byteOp _ r h
  | REL => exact h.setErrorIf _
  | _ => exact h

theorem operands_of {M : List Nat} (o : Opts) (cpu : CpuType) (addr opc post : Nat) (f : Flags) (r : Rd) (h : r.Of M) :
    (decodeOperands o cpu addr opc post f r).2.Of M := by
  have h1 := operand_of o cpu addr opc post f.byteOp f.src r h
  unfold decodeOperands
  dsimp only
  split
  · exact h1
  · exact operand_of o cpu addr opc post f.byteOp f.dst _ h1

theorem reads (o : Opts) (cpu : CpuType) (addr : Nat) (mem : List Nat) :
    (disassemble o cpu addr mem).bytes <+: mem.map (· % 256) := by
  refine decode_reads (fun addr mem => ?_) addr mem
  have h := be16_of (Rd.Of.start mem)
  unfold decodeImpl
  dsimp only
  split
  · exact h.prefix
  · split
    · have h1 := (be16_of (h.err .OK)).setErrorIf (checkPost (flags ‹_›).dst (Rd.be16 { (Rd.be16 ⟨mem, [], .OK⟩).2 with err := .OK }).1)
      split
      · exact h1.prefix
      · exact (operands_of o cpu addr _ _ _ _ h1).prefix
    · exact (operands_of o cpu addr _ _ _ _ (h.err .OK)).prefix

end Tms9900

namespace Scn2650

theorem operand_of {M : List Nat} (o : Opts) (addr opc : Nat) (m2 m : Mode) (r : Rd) (h : r.Of M) :
    (decodeOperand o addr opc m2 m r).rd.Of M := by
  unfold decodeOperand
  cases m with
  | REG0 | R123 | REGN =>
    dsimp only
    split <;> exact h
  | IMM8 => exact h.byte
  | REL7 | ABS7 =>
    dsimp only
    unfold decodeRelative
    dsimp only
    split <;> exact h.byte
  | IX13 | AB13 | IX15 | AB15 => exact h.byte.byte
  | _ => exact h

theorem reads (o : Opts) (addr : Nat) (mem : List Nat) :
    (disassemble o addr mem).bytes <+: mem.map (· % 256) := by
  refine decode_reads (fun addr mem => ?_) addr mem
  have h := (Rd.Of.start mem).byte
  unfold decodeImpl
  dsimp only
  split
  · exact h.prefix
  · exact (operand_of o addr _ _ _ _ (operand_of o addr _ _ _ _ (h.err .OK))).prefix

end Scn2650

namespace I8096

theorem aop_of {M : List Nat} (w : Bool) (opc : Nat) (r : Rd) (h : r.Of M) : (readAop w opc r).2.Of M := by
  unfold readAop
  split
  · exact h.byte
  · split
    · exact h.le16
    · exact h.byte
  · exact h.byte
  · dsimp only
    split
    · exact h.byte.byte
    · exact h.byte.le16

theorem operand_of {M : List Nat} (opc : Nat) (m : Mode) (r : Rd) (h : r.Of M) : (readOperand opc m r).2.Of M := by
  unfold readOperand
  cases m with
  | BAOP | WAOP => exact aop_of _ opc r h
  | REL16 => exact h.le16
  | BREG | COUNT | WREG | INDIR | LREG | REL8 | REL11 => exact h.byte
  | _ => exact h

theorem list_of {M : List Nat} (opc : Nat) : ∀ (ms : List Mode) (r : Rd), r.Of M → (readList opc ms r).2.Of M
  | [], _, h => h
  | m :: ms, r, h => list_of opc ms _ (operand_of opc m r h)

theorem insn_of {M : List Nat} (o : Opts) (abs : Bool) (addr pre opc : Nat) (r : Rd) (h : r.Of M) :
    (decodeInsn o abs addr pre opc r).bytes <+: M := by
  unfold decodeInsn
  split
  · exact h.prefix
  · dsimp only
    unfold decodeOperands
    split
    · exact (Rd.Of.list (fun m r h => (operand_of opc m r h : Rd.Of M _)) _ _ (h.err .OK)).prefix
    · exact (Rd.Of.list (fun d r h => h) _ _ (list_of opc _ _ (h.err .OK))).prefix

theorem reads (o : Opts) (abs : Bool) (addr : Nat) (mem : List Nat) :
    (disassemble o abs addr mem).bytes <+: mem.map (· % 256) := by
  refine decode_reads (fun addr mem => ?_) addr mem
  have h := (Rd.Of.start mem).byte
  unfold decodeImpl
  dsimp only
  split
  · split
    · exact h.byte.prefix
    · exact insn_of o abs addr _ _ _ h.byte
  · exact insn_of o abs addr _ _ _ h

end I8096

namespace Mn1610

theorem operand_of {M : List Nat} (o : Opts) (cpu : CpuType) (addr opc : Nat) (m : Mode) (r : Rd) (h : r.Of M) :
    (decodeOperand o cpu addr opc m r).2.Of M := by
  cases m with
  | IM8W | IM16 | ABS | IABS => exact h.byte.byte
  | _ => exact h

theorem more_of {M : List Nat} (o : Opts) (cpu : CpuType) (addr opc : Nat) : ∀ (ms : List Mode) (r : Rd), r.Of M →
    (decodeMore o cpu addr opc ms r).2.Of M
  | [], _, h => h
  | m :: ms, r, h => more_of o cpu addr opc ms _ (operand_of o cpu addr opc m r h)

theorem operands_of {M : List Nat} (o : Opts) (cpu : CpuType) (addr opc : Nat) (ms : List Mode) (r : Rd)
    (h : r.Of M) : (decodeOperands o cpu addr opc ms r).2.Of M := by
  cases ms with
  | nil => exact h
  | cons m ms => exact more_of o cpu addr opc ms _ (operand_of o cpu addr opc m r h)

theorem reads (o : Opts) (cpu : CpuType) (addr : Nat) (mem : List Nat) :
    (disassemble o cpu addr mem).bytes <+: mem.map (· % 256) := by
  refine decode_reads (fun addr mem => ?_) addr mem
  have h := (Rd.Of.start mem).byte.byte
  unfold decodeImpl
  dsimp only
  split
  · exact h.prefix
  · exact (operands_of o cpu addr _ _ _ (h.err .OK)).prefix

end Mn1610

namespace Pdp8

theorem reads (o : Opts) (cpu : CpuType) (addr : Nat) (mem : List Nat) :
    (disassemble o cpu addr mem).bytes <+: mem.map (· % 256) := by
  refine decode_reads (fun addr mem => ?_) addr mem
  have h := (Rd.Of.start mem).byte.byte
  unfold decodeImpl
  dsimp only
  split
  · exact h.prefix
  · split
    · exact h.prefix
    · exact h.prefix

end Pdp8

namespace Tlcs90

theorem checkReg_of {M : List Nat} (reg : Option Reg) (r : Rd) (h : r.Of M) : (checkReg reg r).Of M := by
  unfold checkReg
  split
  · exact h.setErrorIf _
  · exact h

theorem one_of {M : List Nat} (o : Opts) (addr opc : Nat) (own pm : Mode) (p : DOp) (m : Mode) (r : Rd) (h : r.Of M) :
    (decodeOne o addr opc own pm p m r).2.Of M := by
  unfold decodeOne
  split
  · exact h.setErrorIf _
  · refine Rd.Of.setErrorIf ?_ _
    unfold readOperand
    split <;> first | exact h | exact h.byte | exact h.le16 | exact checkReg_of _ _ h

theorem operands_of {M : List Nat} (o : Opts) (addr opc : Nat) (e : Entry) (p : DOp) (r : Rd) (h : r.Of M) :
    (decodeOperands o addr opc e p r).2.Of M := by
  unfold decodeOperands
  split
  · exact h
  · dsimp only
    have h1 := one_of o addr opc .DST e.page p e.dst r h
    split
    · exact h1
    · exact one_of o addr opc .SRC e.page p e.src _ h1

theorem insn_of {M : List Nat} (o : Opts) (addr pre opc : Nat) (p : DOp) (r : Rd) (h : r.Of M) :
    (decodeInsn o addr pre opc p r).bytes <+: M := by
  unfold decodeInsn
  split
  · exact h.prefix
  · dsimp only
    split
    · split
      · exact h.prefix
      · exact (operands_of o addr opc _ _ _ (h.err .OK)).prefix
    · exact (operands_of o addr opc _ _ _ (h.err .OK)).prefix

theorem reads (o : Opts) (addr : Nat) (mem : List Nat) :
    (disassemble o addr mem).bytes <+: mem.map (· % 256) := by
  refine decode_reads (fun addr mem => ?_) addr mem
  have h := (Rd.Of.start mem).byte
  unfold decodeImpl
  dsimp only
  split
  · rename_i m _
    have h1 : (readPrefix ((⟨mem, [], .OK⟩ : Rd).byte).1 m (⟨mem, [], .OK⟩ : Rd).byte.2).2.Of (mem.map (· % 256)) := by
      unfold readPrefix
      split <;> first | exact h | exact h.byte | exact h.le16
    split
    · exact h1.byte.prefix
    · exact insn_of o addr _ _ _ _ h1.byte
  · exact insn_of o addr _ _ _ _ h

end Tlcs90

/-- Whatever the memory holds, whatever the address and the options, and whether there is an error or not: the
bytes that the disassemblers say an instruction has are the first ones of the memory. -/
theorem C64 (o : Opts) (addr : Nat) (mem : List Nat) (hbytes : ∀ b ∈ mem, b < 256) :
    (∀ cpu zilog, (I8080.disassemble o cpu zilog addr mem).bytes <+: mem) ∧
    (Ins8060.disassemble o addr mem).bytes <+: mem ∧
    (∀ useReg cpu, (Cdp1802.disassemble o useReg cpu addr mem).bytes <+: mem) ∧
    (∀ cpu, (Mc6800.disassemble o cpu addr mem).bytes <+: mem) ∧
    (I8051.disassemble o addr mem).bytes <+: mem ∧
    (∀ cpu, (I8048.disassemble o cpu addr mem).bytes <+: mem) ∧
    (∀ cfg cpu, (Mos6502.disassemble o cfg cpu addr mem).bytes <+: mem) ∧
    (Z80.disassemble o addr mem).bytes <+: mem ∧
    (F3850.disassemble o addr mem).bytes <+: mem ∧
    (Tms7000.disassemble o addr mem).bytes <+: mem ∧
    (∀ cpu pcBits, (Mc6805.disassemble o cpu pcBits addr mem).bytes <+: mem) ∧
    (∀ sharp, (Ins8070.disassemble o sharp addr mem).bytes <+: mem) ∧
    (∀ cpu, (Tms32010.disassemble o cpu addr mem).bytes <+: mem) ∧
    (∀ cpu, (Tms9900.disassemble o cpu addr mem).bytes <+: mem) ∧
    (Scn2650.disassemble o addr mem).bytes <+: mem ∧
    (∀ abs, (I8096.disassemble o abs addr mem).bytes <+: mem) ∧
    (∀ cpu, (Mn1610.disassemble o cpu addr mem).bytes <+: mem) ∧
    (∀ cpu, (Pdp8.disassemble o cpu addr mem).bytes <+: mem) ∧
    (Tlcs90.disassemble o addr mem).bytes <+: mem := by
  have key := bytes_same hbytes
  have put : ∀ {d : List Nat}, d <+: mem.map (· % 256) → d <+: mem := by
    intro d h
    rwa [key] at h
  exact ⟨fun cpu zilog => put (I8080.reads o cpu zilog addr mem), put (Ins8060.reads o addr mem),
    fun useReg cpu => put (Cdp1802.reads o useReg cpu addr mem), fun cpu => put (Mc6800.reads o cpu addr mem),
    put (I8051.reads o addr mem), fun cpu => put (I8048.reads o cpu addr mem),
    fun cfg cpu => put (Mos6502.reads o cfg cpu addr mem), put (Z80.reads o addr mem),
    put (F3850.reads o addr mem), put (Tms7000.reads o addr mem),
    fun cpu pcBits => put (Mc6805.reads o cpu pcBits addr mem), fun sharp => put (Ins8070.reads o sharp addr mem),
    fun cpu => put (Tms32010.reads o cpu addr mem), fun cpu => put (Tms9900.reads o cpu addr mem),
    put (Scn2650.reads o addr mem), fun abs => put (I8096.reads o abs addr mem),
    fun cpu => put (Mn1610.reads o cpu addr mem), fun cpu => put (Pdp8.reads o cpu addr mem),
    put (Tlcs90.reads o addr mem)⟩

/-- Also of an instruction that ends with the memory, and of no instruction. -/
example : (Mc6800.disassemble (.default '*') .MC68HC11 0 [0x12, 0x34]).err = .NO_MEMORY ∧
    (Mc6800.disassemble (.default '*') .MC68HC11 0 [0x12, 0x34]).bytes = [0x12, 0x34] ∧
    (I8048.disassemble (.default '$') .I8048 0 [0xf3, 0x12]).err = .UNKNOWN_INSTRUCTION ∧
    (I8048.disassemble (.default '$') .I8048 0 [0xf3, 0x12]).bytes = [0xf3] := by
  decide +kernel

/-! ### C65 -/

/-- The bytes of a line are not nothing, and are bytes: from the disassembly of them, whatever follows. -/
theorem line_bytes {dis : List Nat → Dis} {bytes : List Nat}
    (hread : ∀ mem, (dis mem).bytes <+: mem.map (· % 256))
    (hback : ∀ more, (dis (bytes ++ more)).bytes = bytes)
    (hsome : (dis [0]).bytes ≠ [] ∨ bytes ≠ []) : bytes ≠ [] ∧ ∀ b ∈ bytes, b < 256 := by
  refine ⟨?_, ?_⟩
  · intro h
    subst h
    rcases hsome with h | h
    · exact h (hback [0])
    · exact h rfl
  · have := hread (bytes ++ [])
    rw [hback []] at this
    exact reads_bytes this

/-- For any line of an i8080 or i8085 program that is assembled: what the disassembler prints for the bytes of it
is another way to write them. -/
theorem C65_i8080 {E E' : Env} {cpu : I8080.CpuType} {zilog : Bool} {addr : Nat} {line sep : List Char} {bytes : List Nat}
    {rest : Scan} (ha : addr < 2 ^ 16) (hsep : sep ≠ [] ∧ ∀ c ∈ sep, Ctype.isSpace c = true)
    (h : I8080.assemble E cpu zilog addr line = .ok (.insn ⟨.OK, bytes, rest⟩)) (o : Opts) :
    I8080.assemble E' cpu zilog addr ((I8080.disassemble o cpu zilog addr bytes).name ++ sep ++
      (I8080.disassemble o cpu zilog addr bytes).operands) = .ok (.insn ⟨.OK, bytes, []⟩) := by
  have hb := fun more => I8080.C29_i8080_partial h o more
  have hz : (I8080.disassemble o cpu zilog addr [0]).bytes ≠ [] ∨ bytes ≠ [] := by
    by_cases hx : bytes = []
    · subst hx
      exact Or.inl (I8080.C26 o E' cpu zilog addr [0] sep ha (by simp) (by simp) hsep (hb [0]).1).2.1
    · exact Or.inr hx
  obtain ⟨h1, h2⟩ := line_bytes (dis := I8080.disassemble o cpu zilog addr) (I8080.reads o cpu zilog addr)
    (fun more => (hb more).2.1) hz
  have h3 := hb []
  rw [List.append_nil] at h3
  have := (I8080.C26 o E' cpu zilog addr bytes sep ha h1 h2 hsep h3.1).1
  rwa [h3.2.1] at this

/-- The same for the INS8060, with the exceptions that C28 has, and but for a store with automatic displacement of the
program counter (`C65_violated_ins8060`). -/
theorem C65_ins8060_partial {E E' : Env} {addr : Nat} {line sep : List Char} {bytes : List Nat} {rest : Scan}
    (ha : addr < 2 ^ 16) (hsep : sep ≠ [] ∧ ∀ c ∈ sep, Ctype.isSpace c = true)
    (h : Ins8060.assemble E addr line = .ok (.insn ⟨.OK, bytes, rest⟩))
    (hst : bytes.head? = some 0xCC → ¬ WrittenAs line "ST".toList)
    (o : Opts) (hoct : o.octal = true → o.cstyle = true ∨ o.intelHex = true)
    (hcur : o.relative = true → o.curSym = '$' ∨ o.curSym = '.') :
    Ins8060.assemble E' addr ((Ins8060.disassemble o addr bytes).name ++ sep ++
      (Ins8060.disassemble o addr bytes).operands) = .ok (.insn ⟨.OK, bytes, []⟩) := by
  have hb := fun more => Ins8060.line_back h hst o more
  have hz : (Ins8060.disassemble o addr [0]).bytes ≠ [] ∨ bytes ≠ [] := by
    by_cases hx : bytes = []
    · subst hx
      exact Or.inl (Ins8060.C28_partial o E' addr [0] sep hoct hcur ha (by simp) (by simp) hsep (hb [0]).1).2.1
    · exact Or.inr hx
  obtain ⟨h1, h2⟩ := line_bytes (dis := Ins8060.disassemble o addr) (Ins8060.reads o addr)
    (fun more => (hb more).2.1) hz
  have h3 := hb []
  rw [List.append_nil] at h3
  have := (Ins8060.C28_partial o E' addr bytes sep hoct hcur ha h1 h2 hsep h3.1).1
  rwa [h3.2.1] at this

/-- The same for the CDP1802 family, with `smart-branch` on or off for the line and off for the disassembly, and
with the exceptions that C27 has, and but for three instructions (`C65_violated_cdp1802`). -/
theorem C65_cdp1802_partial {E E' : Env} {useReg smart : Bool} {cpu : Cdp1802.CpuType} {addr : Nat}
    {line sep : List Char} {bytes : List Nat} {rest : Scan}
    (ha : addr < 0xfffe) (hsep : sep ≠ [] ∧ ∀ c ∈ sep, Ctype.isSpace c = true)
    (h : Cdp1802.assemble E useReg smart cpu addr line = .ok (.insn ⟨.OK, bytes, rest⟩))
    (hlost : ∀ x ∈ [("NBR", 0x38), ("NLBR", 0xc8), ("INP", 0x68)], bytes.head? = some x.2 → ¬ WrittenAs line x.1.toList)
    (o : Opts) (reg : Bool) (hoct : o.octal = true → o.cstyle = true ∨ o.intelHex = true) :
    Cdp1802.assemble E' reg false cpu addr ((Cdp1802.disassemble o reg cpu addr bytes).name ++ sep ++
      (Cdp1802.disassemble o reg cpu addr bytes).operands) = .ok (.insn ⟨.OK, bytes, []⟩) := by
  have hb := fun more => Cdp1802.line_back h hlost o reg more
  have ha' : addr < 2 ^ 16 := by omega
  have hz : (Cdp1802.disassemble o reg cpu addr [0]).bytes ≠ [] ∨ bytes ≠ [] := by
    by_cases hx : bytes = []
    · subst hx
      exact Or.inl (Cdp1802.C27_partial o E' cpu reg addr [0] sep ha' (by simp) (by simp) hsep hoct (Or.inl ha)
        (hb [0]).1).2.1
    · exact Or.inr hx
  obtain ⟨h1, h2⟩ := line_bytes (dis := Cdp1802.disassemble o reg cpu addr) (Cdp1802.reads o reg cpu addr)
    (fun more => (hb more).2.1) hz
  have h3 := hb []
  rw [List.append_nil] at h3
  have := (Cdp1802.C27_partial o E' cpu reg addr bytes sep ha' h1 h2 hsep hoct (Or.inl ha) h3.1).1
  rwa [h3.2.1] at this

/-- The same for the MC6800 family. -/
theorem C65_mc6800 {E E' : Env} {cpu : Mc6800.CpuType} {addr : Nat} {line sep : List Char} {bytes : List Nat}
    {rest : Scan} (hsep : sep ≠ [] ∧ ∀ c ∈ sep, Ctype.isSpace c = true)
    (h : Mc6800.assemble E cpu addr line = .ok (.insn ⟨.OK, bytes, rest⟩))
    (ha : addr < 2 ^ 16) (hend : addr + bytes.length ≤ 2 ^ 16) (o : Opts) (hsym : o.relative = true → o.curSym = '*') :
    Mc6800.assemble E' cpu addr ((Mc6800.disassemble o cpu addr bytes).name ++ sep ++
      (Mc6800.disassemble o cpu addr bytes).operands) = .ok (.insn ⟨.OK, bytes, []⟩) := by
  have hb := fun more => Mc6800.C29_mc6800_partial h hend o more
  have hz : (Mc6800.disassemble o cpu addr [0]).bytes ≠ [] ∨ bytes ≠ [] := by
    by_cases hx : bytes = []
    · subst hx
      exact Or.inl (Mc6800.C60 o E' cpu addr [0] sep ha (by simp) hsep hsym (hb [0]).1).2.1
    · exact Or.inr hx
  obtain ⟨h1, h2⟩ := line_bytes (dis := Mc6800.disassemble o cpu addr) (Mc6800.reads o cpu addr)
    (fun more => (hb more).2.1) hz
  have h3 := hb []
  rw [List.append_nil] at h3
  have := (Mc6800.C60 o E' cpu addr bytes sep ha h2 hsep hsym h3.1).1
  rwa [h3.2.1] at this

/-- The same for the i8051, with `smart-branch` off. -/
theorem C65_i8051 {E E' : Env} {addr : Nat} {line sep : List Char} {bytes : List Nat}
    {rest : Scan} (hsep : sep ≠ [] ∧ ∀ c ∈ sep, Ctype.isSpace c = true)
    (h : I8051.assemble E false addr line = .ok (.insn ⟨.OK, bytes, rest⟩))
    (ha : addr < 2 ^ 16) (hend : addr + bytes.length ≤ 2 ^ 16) (o : Opts) (hsym : o.relative = true → o.curSym = '$') :
    I8051.assemble E' false addr ((I8051.disassemble o addr bytes).name ++ sep ++
      (I8051.disassemble o addr bytes).operands) = .ok (.insn ⟨.OK, bytes, []⟩) := by
  have hb := fun more => I8051.C29_i8051_partial h hend o more
  have hz : (I8051.disassemble o addr [0]).bytes ≠ [] ∨ bytes ≠ [] := by
    by_cases hx : bytes = []
    · subst hx
      exact Or.inl (I8051.C61 o E' addr [0] sep ha (by simp) (by simp) hsep hsym (hb [0]).1).2.1
    · exact Or.inr hx
  obtain ⟨h1, h2⟩ := line_bytes (dis := I8051.disassemble o addr) (I8051.reads o addr)
    (fun more => (hb more).2.1) hz
  have h3 := hb []
  rw [List.append_nil] at h3
  have := (I8051.C61 o E' addr bytes sep ha h2 h1 hsep hsym h3.1).1
  rwa [h3.2.1] at this

/-- The same for the Z80, except for the addition of one index register to the other. -/
theorem C65_z80_partial {E E' : Env} {addr : Nat} {line sep : List Char} {bytes : List Nat}
    {rest : Scan} (hsep : sep ≠ [] ∧ ∀ c ∈ sep, Ctype.isSpace c = true) (h32 : addr < 2 ^ 32)
    (h : Z80.assemble E addr line = .ok (.insn ⟨.OK, bytes, rest⟩))
    (hmix : bytes ≠ [0xdd, 0x59] ∧ bytes ≠ [0xfd, 0x49])
    (hend : addr + bytes.length ≤ 2 ^ 16) (o : Opts) (hsym : o.relative = true → o.curSym = '$') :
    Z80.assemble E' addr ((Z80.disassemble o addr bytes).name ++ sep ++
      (Z80.disassemble o addr bytes).operands) = .ok (.insn ⟨.OK, bytes, []⟩) := by
  have hb := fun more => Z80.C29_z80_partial h32 h hmix hend o more
  have hz : (Z80.disassemble o addr [0]).bytes ≠ [] ∨ bytes ≠ [] := by
    by_cases hx : bytes = []
    · subst hx
      exact Or.inl (Z80.C70 o E' addr [0] sep h32 (by simp) (by simp) hsep hsym (hb [0]).1).2.1
    · exact Or.inr hx
  obtain ⟨h1, h2⟩ := line_bytes (dis := Z80.disassemble o addr) (Z80.reads o addr)
    (fun more => (hb more).2.1) hz
  have h3 := hb []
  rw [List.append_nil] at h3
  have := (Z80.C70 o E' addr bytes sep h32 h2 h1 hsep hsym h3.1).1
  rwa [h3.2.1] at this

/-- The same for the i8048 family. -/
theorem C65_i8048 {E E' : Env} {cpu : I8048.CpuType} {addr : Nat} {line sep : List Char} {bytes : List Nat}
    {rest : Scan} (hsep : sep ≠ [] ∧ ∀ c ∈ sep, Ctype.isSpace c = true)
    (h : I8048.assemble E cpu addr line = .ok (.insn ⟨.OK, bytes, rest⟩))
    (hend : addr + bytes.length ≤ 2 ^ 12) (o : Opts) :
    I8048.assemble E' cpu addr ((I8048.disassemble o cpu addr bytes).name ++ sep ++
      (I8048.disassemble o cpu addr bytes).operands) = .ok (.insn ⟨.OK, bytes, []⟩) := by
  have hb := fun more => I8048.C29_i8048 h o more
  have hz : (I8048.disassemble o cpu addr [0]).bytes ≠ [] ∨ bytes ≠ [] := by
    by_cases hx : bytes = []
    · subst hx
      refine Or.inl (I8048.C63 o E' cpu addr [0] sep (by simp) (by simp) hsep (hb [0]).1 ?_).2.1
      have := (hb [0]).2.1
      rw [List.nil_append] at this
      rw [this]
      exact hend
    · exact Or.inr hx
  obtain ⟨h1, h2⟩ := line_bytes (dis := I8048.disassemble o cpu addr) (I8048.reads o cpu addr)
    (fun more => (hb more).2.1) hz
  have h3 := hb []
  rw [List.append_nil] at h3
  have := (I8048.C63 o E' cpu addr bytes sep h2 h1 hsep h3.1 (by rw [h3.2.1]; exact hend)).1
  rwa [h3.2.1] at this

/-- The same for the F3850. -/
theorem C65_f3850 {E E' : Env} {addr : Nat} {line sep : List Char} {bytes : List Nat}
    {rest : Scan} (ha : addr < 2 ^ 16) (hsep : sep ≠ [] ∧ ∀ c ∈ sep, Ctype.isSpace c = true)
    (h : F3850.assemble E addr line = .ok (.insn ⟨.OK, bytes, rest⟩))
    (o : Opts) (hsym : o.relative = true → o.curSym ∈ ['*', '$', '.']) :
    F3850.assemble E' addr ((F3850.disassemble o addr bytes).name ++ sep ++
      (F3850.disassemble o addr bytes).operands) = .ok (.insn ⟨.OK, bytes, []⟩) := by
  have hb := fun more => F3850.C29_f3850 ha h o more
  have hz : (F3850.disassemble o addr [0]).bytes ≠ [] ∨ bytes ≠ [] := by
    by_cases hx : bytes = []
    · subst hx
      exact Or.inl (F3850.C71 o E' addr [0] sep hsym ha (by simp) (by simp) hsep (hb [0]).1).2.1
    · exact Or.inr hx
  obtain ⟨h1, h2⟩ := line_bytes (dis := F3850.disassemble o addr) (F3850.reads o addr)
    (fun more => (hb more).2.1) hz
  have h3 := hb []
  rw [List.append_nil] at h3
  have := (F3850.C71 o E' addr bytes sep hsym ha h2 h1 hsep h3.1).1
  rwa [h3.2.1] at this

/-- The same for the TMS7000, with the exceptions of `Tms7000.C72_partial` and `Tms7000.C29_tms7000_partial`. -/
theorem C65_tms7000_partial {E E' : Env} {addr : Nat} {line sep : List Char} {bytes : List Nat}
    {rest : Scan} (ha : addr < 2 ^ 16) (hsep : sep ≠ [] ∧ ∀ c ∈ sep, Ctype.isSpace c = true)
    (h : Tms7000.assemble E addr line = .ok (.insn ⟨.OK, bytes, rest⟩)) (hend : addr + bytes.length ≤ 2 ^ 16)
    (hshort : ∀ b rest, bytes = b :: rest → ∀ p ∈ Tms7000.shortened b, bytes[p.1]? ≠ some p.2)
    (o : Opts) (hoct : o.octal = true → o.cstyle = true ∨ o.intelHex = true) (hsym : o.relative = true → o.curSym = '$') :
    Tms7000.assemble E' addr ((Tms7000.disassemble o addr bytes).name ++ sep ++
      (Tms7000.disassemble o addr bytes).operands) = .ok (.insn ⟨.OK, bytes, []⟩) := by
  have hb := fun more => Tms7000.C29_tms7000_partial h hend o more
  have hz : (Tms7000.disassemble o addr [0]).bytes ≠ [] ∨ bytes ≠ [] := by
    by_cases hx : bytes = []
    · subst hx
      exact Or.inl (Tms7000.C72_partial o E' addr [0] sep hoct hsym ha (by simp) (by simp) (by
        intro b rest hb
        injection hb with hb
        subst hb
        intro p hp
        cases hp) hsep (hb [0]).1).2.1
    · exact Or.inr hx
  obtain ⟨h1, h2⟩ := line_bytes (dis := Tms7000.disassemble o addr) (Tms7000.reads o addr)
    (fun more => (hb more).2.1) hz
  have h3 := hb []
  rw [List.append_nil] at h3
  have := (Tms7000.C72_partial o E' addr bytes sep hoct hsym ha h2 h1 hshort hsep h3.1).1
  rwa [h3.2.1] at this

/-- The same for the mc6805 family, with the exceptions of `Mc6805.C73_partial` and `Mc6805.C29_mc6805_partial`. -/
theorem C65_mc6805_partial {E E' : Env} {cpu : Mc6805.CpuType} {pcBits addr : Nat} {line sep : List Char}
    {bytes : List Nat} {rest : Scan} (hpc : pcBits = 0 ∨ 8 ≤ pcBits ∧ pcBits ≤ 16)
    (ha : addr < 2 ^ (if pcBits = 0 then 13 else pcBits)) (hsep : sep ≠ [] ∧ ∀ c ∈ sep, Ctype.isSpace c = true)
    (h : Mc6805.assemble E cpu pcBits addr line = .ok (.insn ⟨.OK, bytes, rest⟩))
    (hend : addr + bytes.length ≤ 2 ^ (if pcBits = 0 then 13 else pcBits))
    (o : Opts) (hsym : o.relative = true → o.curSym = '*') :
    Mc6805.assemble E' cpu pcBits addr ((Mc6805.disassemble o cpu pcBits addr bytes).name ++ sep ++
      (Mc6805.disassemble o cpu pcBits addr bytes).operands) = .ok (.insn ⟨.OK, bytes, []⟩) := by
  have hb := fun more => Mc6805.C29_mc6805_partial (by omega) h hend o more
  have hz : (Mc6805.disassemble o cpu pcBits addr [0]).bytes ≠ [] ∨ bytes ≠ [] := by
    by_cases hx : bytes = []
    · subst hx
      exact Or.inl (Mc6805.C73_partial o E' cpu pcBits addr [0] sep hpc hsym ha (by simp) (by simp) hsep (hb [0]).1).2.1
    · exact Or.inr hx
  obtain ⟨h1, h2⟩ := line_bytes (dis := Mc6805.disassemble o cpu pcBits addr) (Mc6805.reads o cpu pcBits addr)
    (fun more => (hb more).2.1) hz
  have h3 := hb []
  rw [List.append_nil] at h3
  have := (Mc6805.C73_partial o E' cpu pcBits addr bytes sep hpc hsym ha h2 h1 hsep h3.1).1
  rwa [h3.2.1] at this

/-- The same for the INS8070, with the exception of `Ins8070.C29_ins8070_partial` and that of `Ins8070.C74_violated_octal`.
The branches to the address 0 that `Ins8070.C74_partial` excepts are never what a line is assembled to. -/
theorem C65_ins8070_partial {E E' : Env} {addr : Nat} {line sep : List Char} {bytes : List Nat}
    {rest : Scan} (ha : addr < 2 ^ 16) (hsep : sep ≠ [] ∧ ∀ c ∈ sep, Ctype.isSpace c = true)
    (h : Ins8070.assemble E addr line = .ok (.insn ⟨.OK, bytes, rest⟩))
    (hbr : ∀ b d, bytes = [b, d] → b ∈ Ins8070.branches →
      (addr : Int) + 2 + (if d < 128 then (d : Int) else d - 256) ≠ 2 ^ 16)
    (o : Opts) (sharp : Bool) (hoct : o.octal = true → o.cstyle = true ∨ o.intelHex = true)
    (hsym : o.relative = true → o.curSym = '$' ∨ o.curSym = '.') :
    Ins8070.assemble E' addr ((Ins8070.disassemble o sharp addr bytes).name ++ sep ++
      (Ins8070.disassemble o sharp addr bytes).operands) = .ok (.insn ⟨.OK, bytes, []⟩) := by
  have hb := fun more => Ins8070.C29_ins8070_partial h ha hbr o sharp more
  have hz : (Ins8070.disassemble o sharp addr [0]).bytes ≠ [] ∨ bytes ≠ [] := by
    by_cases hx : bytes = []
    · subst hx
      exact Or.inl (Ins8070.C74_partial o sharp E' addr [0] sep hoct hsym ha (by simp) (by simp) (by
        intro b d rest hb
        simp at hb) hsep (hb [0]).1).2.1
    · exact Or.inr hx
  obtain ⟨h1, h2⟩ := line_bytes (dis := Ins8070.disassemble o sharp addr) (Ins8070.reads o sharp addr)
    (fun more => (hb more).2.1) hz
  have h3 := hb []
  rw [List.append_nil] at h3
  have hlen : ∀ b d rest, bytes = b :: d :: rest → b ∈ Ins8070.branches → rest = [] :=
    fun b d rest h4 h5 => Ins8070.branch_length o sharp addr h5 (by rw [← h4]; exact h3.1) (by rw [← h4]; exact h3.2.1)
  have := (Ins8070.C74_partial o sharp E' addr bytes sep hoct hsym ha h2 h1 (by
    intro b d rest h4 h5
    have h6 := hlen b d rest h4 h5
    subst h6
    exact (Ins8070.line_back h ha hbr o sharp []).2 b d h4 h5) hsep h3.1).1
  rwa [h3.2.1] at this

/-- The same for the TMS32010 and the TMS32015, with the exception of `Tms32010.C75_violated_octal`. -/
theorem C65_tms32010_partial {E E' : Env} {cpu : Tms32010.CpuType} {addr : Nat} {line sep : List Char} {bytes : List Nat}
    {rest : Scan} (ha : addr < 2 ^ 12) (hsep : sep ≠ [] ∧ ∀ c ∈ sep, Ctype.isSpace c = true)
    (h : Tms32010.assemble E cpu addr line = .ok (.insn ⟨.OK, bytes, rest⟩))
    (o : Opts) (hoct : o.octal = true → o.cstyle = true ∨ o.intelHex = true) :
    Tms32010.assemble E' cpu addr ((Tms32010.disassemble o cpu addr bytes).name ++ sep ++
      (Tms32010.disassemble o cpu addr bytes).operands) = .ok (.insn ⟨.OK, bytes, []⟩) := by
  have hb := fun more => Tms32010.C29_tms32010_partial h o more
  have hlen := Tms32010.assembled_length h
  obtain ⟨h1, h2⟩ := line_bytes (dis := Tms32010.disassemble o cpu addr) (Tms32010.reads o cpu addr)
    (fun more => (hb more).2.1) (Or.inr (by rintro rfl; exact absurd hlen (by decide)))
  have h3 := hb []
  rw [List.append_nil] at h3
  have := (Tms32010.C75_partial o E' cpu addr bytes sep hoct ha h2 hlen hsep h3.1).1
  rwa [h3.2.1] at this

/-- The same for the TMS9900 family, with the exceptions of `Tms9900.C76_violated_octal` and
`Tms9900.C76_violated_odd`. -/
theorem C65_tms9900_partial {E E' : Env} {cpu : Tms9900.CpuType} {addr : Nat} {line sep : List Char} {bytes : List Nat}
    {rest : Scan} (ha : addr < 2 ^ (if cpu = .TMS9980 then 14 else 16)) (heven : addr % 2 = 0)
    (hsep : sep ≠ [] ∧ ∀ c ∈ sep, Ctype.isSpace c = true)
    (h : Tms9900.assemble E cpu addr line = .ok (.insn ⟨.OK, bytes, rest⟩))
    (o : Opts) (hoct : o.octal = true → o.cstyle = true ∨ o.intelHex = true)
    (hsym : o.relative = true → o.curSym = '$') :
    Tms9900.assemble E' cpu addr ((Tms9900.disassemble o cpu addr bytes).name ++ sep ++
      (Tms9900.disassemble o cpu addr bytes).operands) = .ok (.insn ⟨.OK, bytes, []⟩) := by
  have ha1 : addr + 1 < 2 ^ (if cpu = .TMS9980 then 14 else 16) := by
    split at ha
    · rename_i hc
      rw [if_pos hc]
      omega
    · rename_i hc
      rw [if_neg hc]
      omega
  have hb := fun more => Tms9900.C29_tms9900_partial ha1 h o more
  have hlen := Tms9900.assembled_length ha1 h
  obtain ⟨h1, h2⟩ := line_bytes (dis := Tms9900.disassemble o cpu addr) (Tms9900.reads o cpu addr)
    (fun more => (hb more).2.1) (Or.inr (by rintro rfl; exact absurd hlen (by decide)))
  have h3 := hb []
  rw [List.append_nil] at h3
  have := (Tms9900.C76_partial o E' cpu addr bytes sep hoct hsym ha heven h2 hlen hsep h3.1).1
  rwa [h3.2.1] at this

/-- The same for the SCN2650, with the exceptions of `Scn2650.C77_violated_octal` and
`Scn2650.C77_violated_relative`; no line is assembled to a branch that goes round the ends of a page. -/
theorem C65_scn2650_partial {E E' : Env} {addr : Nat} {line sep : List Char} {bytes : List Nat}
    {rest : Scan} (ha : addr < 2 ^ 15) (hsep : sep ≠ [] ∧ ∀ c ∈ sep, Ctype.isSpace c = true)
    (h : Scn2650.assemble E addr line = .ok (.insn ⟨.OK, bytes, rest⟩))
    (o : Opts) (hoct : o.octal = true → o.cstyle = true ∨ o.intelHex = true)
    (hsym : o.relative = true → o.curSym = '$') (hend : o.relative = true → addr % 8192 < 8190) :
    Scn2650.assemble E' addr ((Scn2650.disassemble o addr bytes).name ++ sep ++
      (Scn2650.disassemble o addr bytes).operands) = .ok (.insn ⟨.OK, bytes, []⟩) := by
  obtain ⟨h1, h2, h4⟩ := Scn2650.line_back ha h
  have h3 := h1 o []
  rw [List.append_nil] at h3
  have := (Scn2650.C77_partial o E' addr bytes sep hoct hsym ha h2
    (fun b d s hb hr => ⟨h4 b d s hb hr, hend⟩) hsep h3.1).1
  rwa [h3.2.1] at this

/-- The same for the i8096, with the exceptions of `I8096.C29_i8096_partial` and those of `I8096.C78_partial`: an
index register of more than 8 bits may be the register 0, and with `use-absolute` that is not printed. -/
theorem C65_i8096_partial {E E' : Env} {addr : Nat} {line sep : List Char} {bytes : List Nat}
    {rest : Scan} (hend : addr + bytes.length ≤ 2 ^ 16) (hsep : sep ≠ [] ∧ ∀ c ∈ sep, Ctype.isSpace c = true)
    (h : I8096.assemble E addr line = .ok (.insn ⟨.OK, bytes, rest⟩))
    (o : Opts) (abs : Bool) (hsym : o.relative = true → o.curSym = '$')
    (hst : ¬ I8096.Spec.StoresImmediate (I8096.Spec.body bytes))
    (hmis : ¬ I8096.Spec.Misaligned (I8096.Spec.body bytes))
    (hcan : I8096.Spec.Canonical abs (I8096.Spec.body bytes)) :
    I8096.assemble E' addr ((I8096.disassemble o abs addr bytes).name ++ sep ++
      (I8096.disassemble o abs addr bytes).operands) = .ok (.insn ⟨.OK, bytes, []⟩) := by
  have h3 := I8096.line_back h hend hst hmis o abs []
  rw [List.append_nil] at h3
  have h2 : ∀ b ∈ bytes, b < 256 := by
    have := reads_bytes (I8096.reads o abs addr bytes)
    rwa [h3.2.2.1] at this
  have hpos : 0 < bytes.length := List.length_pos_iff.2 h3.1
  have := (I8096.C78_partial o abs E' addr bytes sep hsym (by omega) h2 h3.1 hcan hsep h3.2.1).1
  rwa [h3.2.2.1] at this

/-- The same for the MN1610 family, with the exceptions of `Mn1610.C79_partial` that lines are assembled to
(`C65_violated_mn1610`). -/
theorem C65_mn1610_partial {E E' : Env} {cpu : Mn1610.CpuType} {addr : Nat} {line sep : List Char} {b c : Nat}
    {bytes : List Nat} {rest : Scan} (ha : addr < 2 ^ (if cpu = .MN1610 then 16 else 18))
    (hsep : sep ≠ [] ∧ ∀ c ∈ sep, Ctype.isSpace c = true)
    (h : Mn1610.assemble E cpu addr line = .ok (.insn ⟨.OK, b :: c :: bytes, rest⟩))
    (o : Opts) (hoct : o.octal = true → o.cstyle = true ∨ o.intelHex = true) (hsym : o.curSym = '*')
    (hcbi : cpu ≠ .MN1610 → Mn1610.Spec.CompareByte (b * 256 + c) → bytes.headD 0 = 0)
    (hrel : Mn1610.Spec.CounterRelative (b * 256 + c) →
      0 ≤ addr + Mn1610.Spec.displacement (b * 256 + c) ∧
      addr + Mn1610.Spec.displacement (b * 256 + c) < 2 ^ (if cpu = .MN1610 then 16 else 18) ∧
      (o.relative = true → 256 ≤ addr + Mn1610.Spec.displacement (b * 256 + c))) :
    Mn1610.assemble E' cpu addr ((Mn1610.disassemble o cpu addr (b :: c :: bytes)).name ++ sep ++
      (Mn1610.disassemble o cpu addr (b :: c :: bytes)).operands) = .ok (.insn ⟨.OK, b :: c :: bytes, []⟩) := by
  have hb := fun more => Mn1610.C29_mn1610_partial h o more
  obtain ⟨h1, h2⟩ := line_bytes (dis := Mn1610.disassemble o cpu addr) (Mn1610.reads o cpu addr)
    (fun more => (hb more).2.1) (Or.inr (by simp))
  have h3 := hb []
  rw [List.append_nil] at h3
  have := (Mn1610.C79_partial o E' cpu addr b c bytes sep hoct hsym ha h2 hsep (fun _ => Mn1610.assembled_transfer h) hcbi hrel h3.1).1
  rwa [h3.2.1] at this

/-- The same for the PDP-8, with numbers in octal and the radix 8, or numbers that tell their radix; with other options it does not
hold (`Pdp8.C80_violated_hex`). The exceptions of `Pdp8.C80_partial` are no codes of assembled lines. -/
theorem C65_pdp8_partial {E E' : Env} {radix radix' : Radix} {cpu : Pdp8.CpuType} {addr : Nat} {line sep : List Char}
    {bytes : List Nat} {rest : Scan} (ha : addr < 2 ^ (if cpu = .IM6100 then 12 else 15))
    (hsep : sep ≠ [] ∧ ∀ c ∈ sep, Ctype.isSpace c = true)
    (h : Pdp8.assemble E radix cpu addr line = .ok (.insn ⟨.OK, bytes, rest⟩))
    (o : Opts) (hoct : o.octal = true) (hradix : radix' = .r8 ∨ o.cstyle = true ∨ o.intelHex = true) :
    Pdp8.assemble E' radix' cpu addr ((Pdp8.disassemble o cpu addr bytes).name ++ sep ++
      (Pdp8.disassemble o cpu addr bytes).operands) = .ok (.insn ⟨.OK, bytes, []⟩) :=
  Pdp8.again ha hsep h o hoct hradix

/-- The same for the TLCS-90 without `smart-branch`, with the exceptions of `Tlcs90.C29_tlcs90_partial`. The second
encodings `Tlcs90.C81_partial` excepts are never what a line is assembled to. -/
theorem C65_tlcs90_partial {E E' : Env} {addr : Nat} {line sep : List Char} {bytes : List Nat}
    {rest : Scan} (ha : addr < 2 ^ 32) (hsep : sep ≠ [] ∧ ∀ c ∈ sep, Ctype.isSpace c = true)
    (h : Tlcs90.assemble E false addr line = .ok (.insn ⟨.OK, bytes, rest⟩))
    (hend : addr + bytes.length ≤ 2 ^ 16) (o : Opts) (hsym : o.relative = true → o.curSym = '$')
    (hgar : Tlcs90.Spec.Garbled bytes = false) :
    Tlcs90.assemble E' false addr ((Tlcs90.disassemble o addr bytes).name ++ sep ++
      (Tlcs90.disassemble o addr bytes).operands) = .ok (.insn ⟨.OK, bytes, []⟩) := by
  have hb := fun more => Tlcs90.C29_tlcs90_partial ha h hgar hend o more
  obtain ⟨hne, htwin, _⟩ := Tlcs90.line_back ha h hgar hend o []
  obtain ⟨h1, h2⟩ := line_bytes (dis := Tlcs90.disassemble o addr) (Tlcs90.reads o addr)
    (fun more => (hb more).2.1) (Or.inr hne)
  have h3 := hb []
  rw [List.append_nil] at h3
  have := (Tlcs90.C81_partial o E' addr bytes sep ha h2 hne hsep hsym
    (by rw [h3.2.1]; exact htwin) h3.1).1
  rwa [h3.2.1] at this

/-- `C65_tlcs90_partial` has something to say. -/
example :
    Tlcs90.assemble noEnv false 0x3fe "  set 5, (iy - 12) ; comment".toList =
      .ok (.insn ⟨.OK, [0xf1, 0xf4, 0xbd], "; comment".toList⟩) ∧
    Tlcs90.Spec.Garbled [0xf1, 0xf4, 0xbd] = false := by
  decide +kernel


/-- The same for the MOS6502 family, with the exceptions of `Mos6502.C29_mos6502_partial`. -/
theorem C65_mos6502_partial {E E' : Env} {cfg : Mos6502.Cfg} {cpu : Mos6502.CpuType} {addr : Nat}
    {line sep : List Char} {bytes : List Nat} {rest : Scan}
    (hsep : sep ≠ [] ∧ ∀ c ∈ sep, Ctype.isSpace c = true)
    (h : Mos6502.assemble E cfg cpu addr line = .ok (.insn ⟨.OK, bytes, rest⟩))
    (hsmart : cfg.smart = false) (hlong : cpu ≠ .W65C816 → cfg.longA = false ∧ cfg.longI = false)
    (hend : addr + bytes.length ≤ if cpu = .W65C816 then 2 ^ 24 else 2 ^ 16)
    (hwdm : ¬ WrittenAs line "WDM".toList)
    (hfar : ∀ lo hi, bytes = [0x82, lo, hi] ∨ bytes = [0x62, lo, hi] → Mos6502.InBank addr lo hi)
    (o : Opts) (hsym : o.relative = true → o.curSym = '*') :
    Mos6502.assemble E' cfg cpu addr ((Mos6502.disassemble o cfg cpu addr bytes).name ++ sep ++
      (Mos6502.disassemble o cfg cpu addr bytes).operands) = .ok (.insn ⟨.OK, bytes, []⟩) := by
  have hb := fun more => Mos6502.C29_mos6502_partial h hsmart hlong hend hwdm hfar o more
  have ha : addr < if cpu = .W65C816 then 2 ^ 24 else 2 ^ 16 := by
    have h0 := (hb []).1
    unfold Mos6502.disassemble decode at h0
    split at h0
    · rename_i hc
      exact absurd h0 hc
    · rename_i hc
      have hle : addr < 2 ^ 32 := by split at hend <;> omega
      have := Mos6502.checkAddr_small (Mos6502.width_le cpu).2 hle (Decidable.of_not_not hc)
      cases cpu <;> exact this
  have hz : (Mos6502.disassemble o cfg cpu addr [0]).bytes ≠ [] ∨ bytes ≠ [] := by
    by_cases hx : bytes = []
    · subst hx
      exact Or.inl (Mos6502.C66_partial o E' cfg cpu addr [0] sep (by simp) ha (by simp) hsep hsym hsmart hlong
        (hb [0]).1).2.1
    · exact Or.inr hx
  obtain ⟨h1, h2⟩ := line_bytes (dis := Mos6502.disassemble o cfg cpu addr) (Mos6502.reads o cfg cpu addr)
    (fun more => (hb more).2.1) hz
  have h3 := hb []
  rw [List.append_nil] at h3
  have := (Mos6502.C66_partial o E' cfg cpu addr bytes sep h1 ha h2 hsep hsym hsmart hlong h3.1).1
  rwa [h3.2.1] at this

/-- Lines with expressions, and what is printed for their bytes. -/
example :
    I8051.assemble noEnv false 0x1000 "  cjne @r1, #2*9, $+3 ; comment".toList =
      .ok (.insn ⟨.OK, [0xb7, 0x12, 0x00], "; comment".toList⟩) ∧
    (I8051.disassemble (.default '$') 0x1000 [0xb7, 0x12, 0x00]).operands = "@R1, #18, 1003H".toList ∧
    I8048.assemble noEnv .I8048 0x3fe "  jb 2+3, 300h+18".toList = .ok (.insn ⟨.OK, [0xb2, 0x12], []⟩) ∧
    (I8048.disassemble (.default '$') .I8048 0x3fe [0xb2, 0x12]).operands = "5, 312H".toList := by
  decide +kernel

end Libasm.Cpu
