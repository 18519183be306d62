import Verif.Cpu.ListModel
import Verif.Tables.Data.I8096
/-
The assembler and the disassembler of the i8096: src/asm_i8096.cpp, src/dis_i8096.cpp, src/table_i8096.cpp,
src/reg_i8096.cpp, src/insn_i8096.h. The instruction tables are Verif/Tables/Data/I8096.lean, generated from
src/table_i8096.cpp.
-/
namespace Libasm.Cpu.I8096
open Scan Number Eval
open Tables (Row)

/-- src/entry_i8096.h:35-55 `AddrMode`; the code has no UNDEF. -/
inductive Mode
  | NONE | BREG | WREG | LREG | BAOP | WAOP | REL8 | REL11 | REL16 | BITNO | COUNT | INDIR | IMM8 | IMM16 | IDX8
  | IDX16 | ADDR | UNDEF
deriving DecidableEq, Repr

/-- The name of an addressing mode in the table. -/
def modeOf : String → Mode
  | "M_BREG" => .BREG
  | "M_WREG" => .WREG
  | "M_LREG" => .LREG
  | "M_BAOP" => .BAOP
  | "M_WAOP" => .WAOP
  | "M_REL8" => .REL8
  | "M_REL11" => .REL11
  | "M_REL16" => .REL16
  | "M_BITNO" => .BITNO
  | "M_COUNT" => .COUNT
  | "M_INDIR" => .INDIR
  | "M_IMM8" => .IMM8
  | "M_IMM16" => .IMM16
  | _ => .UNDEF

/-- src/table_i8096.cpp:27-35, src/entry_i8096.h:57-86 `Flags`: the modes of a row (dst, src1, src2), without the
M_NONE after them. -/
def modes (r : Row) : List Mode :=
  match r.operands with
  | ["E0"] => []
  | ["E1", a] => [modeOf a]
  | ["E2", a, b] => [modeOf a, modeOf b]
  | ["E3", a, b, c] => [modeOf a, modeOf b, modeOf c]
  | ["U1", a] => [modeOf a]
  | ["U2", a, b] => [modeOf a, modeOf b]
  | _ => [.UNDEF]

/-- `flags.undefined()` -/
def undefined (r : Row) : Bool := r.operands.head? == some "U1" || r.operands.head? == some "U2"

/-- `jbx_djnz`: src/asm_i8096.cpp:276, src/dis_i8096.cpp:235 -/
def jbx (r : Row) : Bool := decide ((modes r).getD 2 .NONE = .REL8 ∨ (modes r).getD 1 .NONE = .REL8)

/-- src/table_i8096.cpp:258-271 `I8096_PAGES`, `CPU_TABLE`, `cpu` -/
def pages : List (Table.Page Row) := Tables.I8096.I8096_PAGES

/-- src/reg_i8096.cpp:23-25 `isWreg` -/
def isWreg (regno : Nat) : Bool := regno % 2 == 0

/-- src/reg_i8096.cpp:27-29 `isLreg` -/
def isLreg (regno : Nat) : Bool := regno % 4 == 0

/-! ### Disassembler -/

/-- src/table_i8096.cpp:305-318 `matchOpCode` -/
def matchOpCode (opc : Nat) (r : Row) : Bool :=
  if (modes r).any fun m => decide (m = .BAOP ∨ m = .WAOP) then opc / 4 * 4 == r.opcode
  else if (modes r).getD 0 .NONE = .REL11 ∨ (modes r).getD 1 .NONE = .BITNO then opc / 8 * 8 == r.opcode
  else opc == r.opcode

/-- src/table_i8096.cpp:320-327 `searchOpCode` in the page of the prefix (src/entry_table.h:205-223); none for an
unknown and for an undefined instruction. -/
def searchOpCode (pre opc : Nat) : Option Row :=
  match Table.searchOpCode (fun _ r => matchOpCode opc r) (fun p => pre == p.prefix_) pages with
  | some (_, r) => if undefined r then none else some r
  | none => none

/-- src/table_i8096.cpp:329-331, src/entry_table.h:112-122 `isPrefix` -/
def isPrefix (code : Nat) : Bool := pages.any fun p => p.prefix_ != 0 && p.prefix_ == code

/-- src/dis_i8096.h:39-47 `DisI8096::Operand` -/
structure DOp where
  mode : Mode
  regno : Nat := 0
  val : Nat := 0
  err : Err := .OK
deriving DecidableEq

/-- `OPERAND_NOT_ALIGNED` for a register that is not aligned. -/
def aligned (ok : Bool) : Err := if ok then .OK else .OPERAND_NOT_ALIGNED

/-- src/dis_i8096.cpp:142-200: the modes M_BAOP and M_WAOP (`w`) by the low bits of the code. -/
def readAop (w : Bool) (opc : Nat) (r : Rd) : DOp × Rd :=
  match opc % 4 with
  | 0 => (⟨if w then .WREG else .BREG, r.byte.1, 0, if w then aligned (isWreg r.byte.1) else .OK⟩, r.byte.2)
  | 1 =>
    if w then (⟨.IMM16, 0, r.le16.1, .OK⟩, r.le16.2)
    else (⟨.IMM8, 0, r.byte.1, .OK⟩, r.byte.2)
  | 2 => (⟨.INDIR, r.byte.1, 0, aligned (isWreg r.byte.1)⟩, r.byte.2)
  | _ =>
    let (mode, regno, val, r) :=
      if isWreg r.byte.1 then (Mode.IDX8, r.byte.1, r.byte.2.byte.1, r.byte.2.byte.2)
      else (Mode.IDX16, r.byte.1 / 2 * 2, r.byte.2.le16.1, r.byte.2.le16.2)
    (⟨mode, regno, val, if w && regno == 0 then aligned (isWreg val) else .OK⟩, r)

/-- src/dis_i8096.cpp:125-220 `Operand::read` -/
def readOperand (opc : Nat) (m : Mode) (r : Rd) : DOp × Rd :=
  match m with
  | .BREG | .COUNT => (⟨m, r.byte.1, 0, .OK⟩, r.byte.2)
  | .WREG | .INDIR => (⟨m, r.byte.1, 0, aligned (isWreg r.byte.1)⟩, r.byte.2)
  | .LREG => (⟨m, r.byte.1, 0, aligned (isLreg r.byte.1)⟩, r.byte.2)
  | .BAOP => readAop false opc r
  | .WAOP => readAop true opc r
  | .REL8 => (⟨m, 0, r.byte.1, .OK⟩, r.byte.2)
  | .REL11 => (⟨m, 0, opc % 8 * 256 + r.byte.1, .OK⟩, r.byte.2)
  | .REL16 => (⟨m, 0, r.le16.1, .OK⟩, r.le16.2)
  | .BITNO => (⟨m, 0, opc % 8, .OK⟩, r)
  | _ => (⟨m, 0, 0, .OK⟩, r)

/-- src/dis_i8096.cpp:55-64 `outRegister`; `abs` is the option `use-absolute`. -/
def outRegister (o : Opts) (abs : Bool) (regno : Nat) (indir : Bool) : List Char :=
  if regno = 0 ∧ indir = true ∧ abs = true then []
  else (if indir then ['['] else []) ++ outDec .intel o regno 8 ++ (if indir then [']'] else [])

/-- `signExtend(val, bits)` of src/config_base.h, `int8()` and `int16()` of an operand. -/
def signed (bits v : Nat) : Int := if v % 2 ^ bits < 2 ^ (bits - 1) then (v % 2 ^ bits : Nat) else ((v % 2 ^ bits : Nat) : Int) - (2 ^ bits : Nat)

/-- The bits of a displacement, and the length of the instruction it belongs to: src/dis_i8096.cpp:66-86,
src/asm_i8096.cpp:178-209. -/
def relBits : Mode → Nat
  | .REL8 => 8
  | .REL11 => 11
  | _ => 16
/-- See `relBits`. -/
def relLen (opc : Nat) : Mode → Nat
  | .REL8 => if opc / 16 % 16 = 0xD then 2 else 3
  | .REL11 => 2
  | _ => 3

/-- src/dis_i8096.cpp:66-86 `outRelative`, 32 bit arithmetic: the target. -/
def relTarget (addr opc : Nat) (d : DOp) : Nat :=
  ((((addr + relLen opc d.mode : Nat) : Int) + signed (relBits d.mode) d.val) % Config.W).toNat

/-- src/dis_i8096.cpp:88-123 `outOperand`, without symbols: the text and the error set by it. -/
def outOperand (o : Opts) (abs : Bool) (addr opc : Nat) (d : DOp) : List Char × Err :=
  match d.mode with
  | .COUNT =>
    if d.regno < 16 then ('#' :: outDec .intel o d.regno 4, d.err)
    else (outRegister o abs d.regno false, .OK)
  | .BREG | .WREG | .LREG => (outRegister o abs d.regno false, .OK)
  | .INDIR => (outRegister o abs d.regno true, .OK)
  | .IDX8 => (outDec .intel o (Config.uint32 (int8 d.val)) (-8) ++ outRegister o abs d.regno true, .OK)
  | .IDX16 => (outAbsAddr .intel o 16 d.val ++ outRegister o abs d.regno true, .OK)
  | .REL8 | .REL11 | .REL16 =>
    (outRelAddr .intel o 16 (relTarget addr opc d) addr (relBits d.mode),
      Config.checkAddr 16 (relTarget addr opc d) false)
  | .BITNO => (outHex .intel o d.val 3 true, .OK)
  | .IMM8 => ('#' :: outHex .intel o d.val 8 true, d.err)
  | .IMM16 => ('#' :: outHex .intel o d.val 16 true, d.err)
  | _ => ([], .OK)

/-- The error of the operand is reported, and it is printed: src/dis_i8096.cpp:237-272. -/
def showOperand (o : Opts) (abs : Bool) (addr opc : Nat) (d : DOp) (r : Rd) : List Char × Rd :=
  ((outOperand o abs addr opc d).1, (r.setErrorIf d.err).setErrorIf (outOperand o abs addr opc d).2)

/-- An operand is read and printed: src/dis_i8096.cpp:238-252. -/
def decodeOperand (o : Opts) (abs : Bool) (addr opc : Nat) (m : Mode) (r : Rd) : List Char × Rd :=
  showOperand o abs addr opc (readOperand opc m r).1 (readOperand opc m r).2

/-- Operands are read one after the other. -/
def readList (opc : Nat) : List Mode → Rd → List DOp × Rd
  | [], r => ([], r)
  | m :: ms, r =>
    let (d, r) := readOperand opc m r
    let (ds, r) := readList opc ms r
    (d :: ds, r)

/-- src/dis_i8096.cpp:235-273: the operands of an entry. Those of a branch on a bit are read and printed one after
the other, all others are read from the last to the first, and then printed. -/
def decodeOperands (o : Opts) (abs : Bool) (addr opc : Nat) (row : Row) (r : Rd) : List Char × Rd :=
  if jbx row then decodeList (decodeOperand o abs addr opc) (modes row) r
  else
    let (ds, r) := readList opc (modes row).reverse r
    decodeList (showOperand o abs addr opc) ds.reverse r

/-- src/dis_i8096.cpp:232-275: the entry and its operands. When an entry is found the error is reset
(src/entry_table.h:214), also that of a missing first byte. -/
def decodeInsn (o : Opts) (abs : Bool) (addr pre opc : Nat) (r : Rd) : Dis :=
  match searchOpCode pre opc with
  | none => ⟨.UNKNOWN_INSTRUCTION, [], [], r.bytes⟩
  | some row =>
    let (t, r) := decodeOperands o abs addr opc row { r with err := Err.OK }
    ⟨r.err, outText o row.name, t, r.bytes⟩

/-- src/dis_i8096.cpp:222-275 `decodeImpl` -/
def decodeImpl (o : Opts) (abs : Bool) (addr : Nat) (mem : List Nat) : Dis :=
  let (opc, r) := (⟨mem, [], .OK⟩ : Rd).byte
  if isPrefix opc then
    let (opc', r) := r.byte
    if r.err ≠ .OK then ⟨r.err, [], [], r.bytes⟩ else decodeInsn o abs addr opc opc' r
  else decodeInsn o abs addr 0 opc r

/-- Disassembling one instruction: `Disassembler::decode` of a `DisI8096`; addresses have 16 bits
(src/config_i8096.h). -/
def disassemble (o : Opts) (abs : Bool) (addr : Nat) (mem : List Nat) : Dis :=
  decode 16 (decodeImpl o abs) addr mem

/-! ### Assembler -/

/-- `IntelSymbolParser::symbolLetter`, src/symbol_parser.h:78-80 -/
def symbol : Bool → Char → Bool := prefixSymbol none (some ['_', '?'])

/-- `IntelSymbolParser`, `SemicolonCommentParser`; the table of src/asm_i8096.cpp:32-41. -/
def syntaxOf : Syntax where
  instructionLetter c := symbol false c
  instructionTerminator _ := false
  commentLine s := semicolonEnd s
  special := []
  pseudos := [['D', 'C', 'B'], ['D', 'C', 'L'], ['D', 'C', 'W'], ['D', 'S', 'B'], ['D', 'S', 'L'], ['D', 'S', 'W']]

/-- src/asm_i8096.cpp:46-48, src/value_parser.cpp:53-73: the Intel plugins. -/
def lexer : Lexer where
  number := .intel
  operators := .intel
  letter := defaultLetter
  location := locationSymbol symbol '$'
  symbolLetter := symbol
  functionLetter := symbol false
  endOfLine := semicolonEnd

/-- src/insn_i8096.h:37-43 `Operand` -/
structure Operand where
  err : Err := .OK
  mode : Mode := .NONE
  regno : Value := Value.undefined
  val : Value := Value.undefined
deriving DecidableEq

/-- src/asm_i8096.cpp:55-62 `parseIndirect`: the operand and the text after the bracket, or an error. -/
def parseIndirect (P : Plugins Value) (scan : Scan) (op : Operand) : Out (Except Err (Operand × Scan)) :=
  (parseInteger P scan .OK).bind fun (regno, err, scan) =>
  match expect ']' (skipSpaces scan) with
  | some p => .ok (.ok ({ op with regno := regno, err := Config.setErrorIf op.err err }, p))
  | none => .ok (.error .MISSING_CLOSING_BRACKET)

/-- src/asm_i8096.cpp:64-100 `parseOperand`; after an error the text is left where the operand starts. -/
def parseOperand (P : Plugins Value) (scan : Scan) : Out (Except (Err × Scan) (Operand × Scan)) :=
  let start := skipSpaces scan
  if P.endOfLine start then .ok (.ok ({}, start))
  else
    match expect '#' start with
    | some p =>
      (parseInteger P p .OK).bind fun (val, err, p) =>
      if hasError err then .ok (.error (err, start))
      else .ok (.ok ({ err := err, mode := .IMM16, val := val }, p))
    | none =>
      match expect '[' start with
      | some p =>
        (parseIndirect P p {}).bind fun
        | .error e => .ok (.error (e, start))
        | .ok (op, p) => .ok (.ok ({ op with val := op.regno, mode := .INDIR }, p))
      | none =>
        (parseInteger P start .OK).bind fun (val, err, p) =>
        if hasError err then .ok (.error (err, start))
        else
          match expect '[' (skipSpaces p) with
          | some p =>
            (parseIndirect P p { err := err, val := val }).bind fun
            | .error e => .ok (.error (e, start))
            | .ok (op, p) => .ok (.ok ({ op with mode := .IDX16 }, p))
          | none => .ok (.ok ({ err := err, mode := .ADDR, val := val }, skipSpaces p))

/-- src/table_i8096.cpp:273-287 `acceptMode` -/
def acceptMode (opr table : Mode) : Bool :=
  if opr = table then true
  else
    match opr with
    | .ADDR => [Mode.BREG, .WREG, .LREG, .BAOP, .WAOP, .REL8, .REL11, .REL16, .COUNT, .BITNO].contains table
    | .IMM16 => [Mode.BAOP, .WAOP, .COUNT].contains table
    | .INDIR | .IDX16 => [Mode.BAOP, .WAOP].contains table
    | _ => false

/-- src/table_i8096.cpp:289-298 `acceptModes` of the modes of three operands -/
def acceptModes (ops : List Mode) (r : Row) : Bool :=
  (ops.zip (pad 3 .NONE (modes r))).all fun p => acceptMode p.1 p.2

/-- src/table_i8096.cpp:300-303 `searchName`: the prefix and the entry. The error that is left behind by
`acceptModes` (lines 293-294) when it takes an undefined row is reported. -/
def searchName (name : List Char) (ops : List Mode) : Out (Except Err (Nat × Row)) :=
  match Table.searchName (fun r : Row => Table.strcasecmp name r.name) (fun _ r => acceptModes ops r) pages false with
  | some (.ok (pre, r)) => .ok (if undefined r then .error .OPERAND_NOT_ALLOWED else .ok (pre, r))
  | some (.error e) => .ok (.error e)
  | none => .ub

/-- src/asm_i8096.cpp:113-119: the label `indir`. -/
def emitIndir (op : Operand) (a : Asm) : Asm :=
  ((a.embed 2).check (!isWreg op.regno.getUnsigned) .OPERAND_NOT_ALIGNED).emit8 op.regno.getUnsigned

/-- src/asm_i8096.cpp:136-149: the label `absolute`. -/
def emitAbsolute (w : Bool) (op : Operand) (a : Asm) : Asm :=
  let a := a.check (w && !isWreg op.val.getUnsigned) .OPERAND_NOT_ALIGNED
  if op.err = .OK ∧ op.val.overflowUint8 = false then (a.embed 0).emit8 op.val.getUnsigned
  else ((a.embed 3).emit8 1).emit16le op.val.getUnsigned

/-- src/asm_i8096.cpp:100-151 `emitAop`; `w` for M_WAOP. -/
def emitAop (w : Bool) (op : Operand) (a : Asm) : Asm :=
  match op.mode with
  | .IMM16 => if w then (a.embed 1).emit16le op.val.getUnsigned else (a.embed 1).emit8 op.val.getUnsigned
  | .INDIR => emitIndir op a
  | .IDX16 =>
    if op.val.isZero then emitIndir op a
    else if op.regno.isZero then emitAbsolute w op a
    else
      let a := (a.embed 3).check (!isWreg op.regno.getUnsigned) .OPERAND_NOT_ALIGNED
      if op.err = .OK ∧ op.val.overflowInt8 = false then (a.emit8 op.regno.getUnsigned).emit8 op.val.getUnsigned
      else (a.emit8 (op.regno.getUnsigned ||| 1)).emit16le op.val.getUnsigned
  | _ => emitAbsolute w op a

/-- src/asm_i8096.cpp:178-218 `emitRelative`, with the option `smart-branch` off. A displacement of 16 bits is not
checked again. -/
def emitRelative (addr : Nat) (m : Mode) (op : Operand) (a : Asm) : Out Asm :=
  let base := addr + relLen a.opc m
  let target := if op.err ≠ .OK then base else op.val.getUnsigned
  (ofOption (Config.branchDelta 16 base target a.err)).bind fun (delta, err) =>
  let a := { a with err := err }
  match m with
  | .REL8 =>
    (ofOption (Config.overflowDelta delta 8)).bind fun far =>
    .ok ((a.check far .OPERAND_TOO_FAR).emit8 (delta % 256).toNat)
  | .REL11 =>
    (ofOption (Config.overflowDelta delta 11)).bind fun far =>
    .ok (((a.check far .OPERAND_TOO_FAR).embed (delta / 256 % 8).toNat).emit8 (delta % 256).toNat)
  | _ => .ok (a.emit16le (delta % 65536).toNat)

/-- src/asm_i8096.cpp:220-256 `emitOperand` -/
def emitOperand (addr : Nat) (m : Mode) (op : Operand) (a : Asm) : Out Asm :=
  let a := a.setErrorIf op.err
  let v := op.val.getUnsigned
  match m with
  | .LREG =>
    .ok ((((a.check (!isLreg v) .OPERAND_NOT_ALIGNED).check (!isWreg v) .OPERAND_NOT_ALIGNED).check
      (op.val.overflow 255 0) .ILLEGAL_REGISTER).emit8 v)
  | .INDIR | .WREG =>
    .ok (((a.check (!isWreg v) .OPERAND_NOT_ALIGNED).check (op.val.overflow 255 0) .ILLEGAL_REGISTER).emit8 v)
  | .COUNT | .BREG => .ok ((a.check (op.val.overflow 255 0) .ILLEGAL_REGISTER).emit8 v)
  | .BAOP => .ok (emitAop false op a)
  | .WAOP => .ok (emitAop true op a)
  | .REL8 | .REL11 | .REL16 => emitRelative addr m op a
  | .BITNO => .ok ((a.check (op.val.overflow 7 0) .ILLEGAL_BIT_NUMBER).embed (v % 8))
  | _ => .ok a

/-- src/asm_i8096.cpp:276-287: the operands in the order their bytes are emitted in. -/
def emitOperands (addr : Nat) (row : Row) (ops : List Operand) (a : Asm) : Out Asm :=
  let l := (pad 3 .NONE (modes row)).zip ops
  if jbx row then emitList (emitOperand addr) l a
  else
    emitList (emitOperand addr) l.reverse
      ((a.setErrorIf (ops.getD 0 {}).err).setErrorIf (ops.getD 1 {}).err)

/-- src/insn_i8096.h:49-54 `emitInsn`: all the bytes. -/
def bytesOf (pre : Nat) (a : Asm) : List Nat := if pre = 0 then a.bytes else pre % 256 :: a.bytes

/-- src/asm_i8096.cpp:258-290 `encodeImpl` -/
def encodeImpl (P : Plugins Value) (addr : Nat) (name : List Char) (scan : Scan) : Out Res :=
  (operandList (parseOperand P) 3 scan).bind fun
  | .error (e, scan) => .ok ⟨e, [], scan⟩
  | .ok (ops, scan) =>
    let ops := pad 3 {} ops
    (searchName name (ops.map (·.mode))).bind fun
    | .error e => .ok ⟨e, [], scan⟩
    | .ok (pre, row) =>
      (emitOperands addr row ops ⟨.OK, row.opcode, []⟩).bind fun a => .ok ⟨a.err, bytesOf pre a, scan⟩

/-- Assembling one line: `Assembler::encode` of an `AsmI8096`. -/
def assemble (E : Env) (addr : Nat) (line : List Char) : Out Line :=
  encode syntaxOf 16 (encodeImpl (lexer.plugins E '\x00' addr) addr) addr line

end Libasm.Cpu.I8096
