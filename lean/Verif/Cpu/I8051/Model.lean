import Verif.Cpu.ListModel
import Verif.Tables.Data.I8051
/-
The assembler and the disassembler of the i8051: src/asm_i8051.cpp, src/dis_i8051.cpp,
src/table_i8051.cpp, src/reg_i8051.cpp, src/insn_i8051.h. The instruction table is
Verif/Tables/Data/I8051.lean, generated from src/table_i8051.cpp.
-/
namespace Libasm.Cpu.I8051
open Scan Number Eval
open Tables (Row)

/-- src/entry_i8051.h:28-47 `AddrMode`; the code has no UNDEF. -/
inductive Mode
  | NONE | REL | AREG | RREG | CREG | DREG | ABREG | ADR8 | ADR11 | ADR16 | BITAD | NOTAD | IMM8
  | IMM16 | IDIRR | IDIRD | INDXD | INDXP | UNDEF
deriving DecidableEq, Repr

/-- The name of an addressing mode in the table. -/
def modeOf : String → Mode
  | "M_REL" => .REL
  | "M_AREG" => .AREG
  | "M_RREG" => .RREG
  | "M_CREG" => .CREG
  | "M_DREG" => .DREG
  | "M_ABREG" => .ABREG
  | "M_ADR8" => .ADR8
  | "M_ADR11" => .ADR11
  | "M_ADR16" => .ADR16
  | "M_BITAD" => .BITAD
  | "M_NOTAD" => .NOTAD
  | "M_IMM8" => .IMM8
  | "M_IMM16" => .IMM16
  | "M_IDIRR" => .IDIRR
  | "M_IDIRD" => .IDIRD
  | "M_INDXD" => .INDXD
  | "M_INDXP" => .INDXP
  | _ => .UNDEF

/-- src/table_i8051.cpp:29-32, src/entry_i8051.h:49-66 `Flags`: the modes of a row, without the M_NONE
after them. -/
def modes (r : Row) : List Mode :=
  match r.operands with
  | ["E0"] => []
  | ["E1", a] => [modeOf a]
  | ["E2", a, b] => [modeOf a, modeOf b]
  | ["E3", a, b, c] => [modeOf a, modeOf b, modeOf c]
  | _ => [.UNDEF]

/-- `flags.dst()` -/
def dst (r : Row) : Mode := (modes r).getD 0 .NONE
/-- `flags.src()` -/
def src (r : Row) : Mode := (modes r).getD 1 .NONE

/-- src/table_i8051.cpp:267-275 `cpu`: the one page. -/
def pages : List (Table.Page Row) := Tables.I8051.I8051_PAGES

/-- src/reg_i8051.h:27-45 `RegName` -/
inductive Reg | A | AB | C | DPTR | PC | R (n : Fin 8)
deriving DecidableEq, Repr

/-- src/reg_i8051.cpp:32-46 `REG_ENTRIES` -/
def regs : List (List Char × Reg) :=
  [(['A'], .A), (['A', 'B'], .AB), (['C'], .C), (['D', 'P', 'T', 'R'], .DPTR), (['P', 'C'], .PC),
    (['R', '0'], .R 0), (['R', '1'], .R 1), (['R', '2'], .R 2), (['R', '3'], .R 3), (['R', '4'], .R 4),
    (['R', '5'], .R 5), (['R', '6'], .R 6), (['R', '7'], .R 7)]

/-- src/table_i8051.cpp:320-323 `invalidDirect`; the address is taken modulo 2^16. -/
def invalidDirect (opc addr : Nat) : Bool := opc == 0xE5 && addr % 65536 == 0xE0

/-! ### Disassembler -/

/-- src/table_i8051.cpp:299-313 `matchOpCode` -/
def matchOpCode (opc : Nat) (r : Row) : Bool :=
  (if dst r = .RREG ∨ src r = .RREG then opc / 8 * 8
  else if dst r = .IDIRR ∨ src r = .IDIRR then opc / 2 * 2
  else if dst r = .ADR11 then opc % 32
  else opc) == r.opcode

/-- src/table_i8051.cpp:315-318 `searchOpCode` -/
def searchOpCode (opc : Nat) : Option Row :=
  (Table.searchOpCode (fun _ r => matchOpCode opc r) (fun p => p.prefix_ == 0) pages).map (·.2)

/-- src/reg_i8051.cpp:58-61 `outRegName` -/
def outReg (o : Opts) (r : Reg) : List Char := outText o (regText regs r)

/-- src/dis_i8051.cpp:35-41 `decodeRelative`, 32 bit arithmetic -/
def decodeRelative (o : Opts) (addr : Nat) (r : Rd) : List Char × Rd :=
  let (b, r) := r.byte
  let base := addr + r.bytes.length
  let target := (((base : Int) + int8 b) % Config.W).toNat
  let r := r.setErrorIf (Config.checkAddr 16 target false)
  (outRelAddr .intel o 16 target addr 8, r)

/-- src/dis_i8051.cpp:43-51 `decodeBitAddr` -/
def decodeBitAddr (o : Opts) (not : Bool) (r : Rd) : List Char × Rd :=
  let (v, r) := r.byte
  let addr8 := if 128 ≤ v then v / 8 * 8 else v / 8 + 0x20
  ((if not then ['/'] else []) ++ (outAbsAddr .intel o 8 addr8 ++ '.' :: outHex .intel o (v % 8) 3 true), r)

/-- The register with this number, src/reg_i8051.cpp:72-74 `decodeRRegNum`, of a number below 8. -/
def rreg (n : Nat) : Reg := .R ⟨n % 8, Nat.mod_lt _ (by decide)⟩

/-- src/dis_i8051.cpp:85-133 `decodeOperand`, with `decodeRReg` 53-58, `decodeAddress` 60-73 and
`decodeImmediate` 75-82. -/
def decodeOperand (o : Opts) (addr opc : Nat) (m : Mode) (r : Rd) : List Char × Rd :=
  match m with
  | .NONE | .UNDEF => ([], r)
  | .REL => decodeRelative o addr r
  | .AREG => (outReg o .A, r)
  | .RREG => (outReg o (rreg (opc % 8)), r)
  | .IDIRR => ('@' :: outReg o (rreg (opc % 2)), r)
  | .CREG => (outReg o .C, r)
  | .IDIRD => ('@' :: outReg o .DPTR, r)
  | .DREG => (outReg o .DPTR, r)
  | .ABREG => (outReg o .AB, r)
  | .ADR8 =>
    let (v, r) := r.byte
    (outAbsAddr .intel o 8 v, if invalidDirect opc v then r.setErrorIf .OPERAND_NOT_ALLOWED else r)
  | .ADR11 =>
    let (v, r) := r.byte
    (outAbsAddr .intel o 16 ((addr + r.bytes.length) % 65536 / 2048 * 2048 + opc / 32 * 256 + v), r)
  | .ADR16 => (outAbsAddr .intel o 16 r.be16.1, r.be16.2)
  | .NOTAD => decodeBitAddr o true r
  | .BITAD => decodeBitAddr o false r
  | .IMM8 => ('#' :: outHex .intel o r.byte.1 8 true, r.byte.2)
  | .IMM16 => ('#' :: outAbsAddr .intel o 16 r.be16.1, r.be16.2)
  | .INDXD => ('@' :: (outReg o .A ++ '+' :: outReg o .DPTR), r)
  | .INDXP => ('@' :: (outReg o .A ++ '+' :: outReg o .PC), r)

/-- src/dis_i8051.cpp:141-149: the operands of `MOV dst, src`, the source comes first in the memory. -/
def decodeMove (o : Opts) (r : Rd) : List Char × Rd :=
  let (src8, r) := r.byte
  let (dst8, r) := r.byte
  (outAbsAddr .intel o 8 dst8 ++ ',' :: ' ' :: outAbsAddr .intel o 8 src8, r)

/-- src/dis_i8051.cpp:133-161 `decodeImpl`. When an entry is found the error is reset
(src/entry_base.h, `CpuBase::searchOpCode`), also that of a missing first byte. -/
def decodeImpl (o : Opts) (addr : Nat) (mem : List Nat) : Dis :=
  let (opc, r) := (⟨mem, [], .OK⟩ : Rd).byte
  match searchOpCode opc with
  | none => ⟨.UNKNOWN_INSTRUCTION, [], [], r.bytes⟩
  | some row =>
    let r := { r with err := Err.OK }
    let (t, r) :=
      if dst row = .ADR8 ∧ src row = .ADR8 then decodeMove o r
      else decodeList (decodeOperand o addr opc) (modes row) r
    ⟨r.err, outText o row.name, t, r.bytes⟩

/-- Disassembling one instruction: `Disassembler::decode` of a `DisI8051`. -/
def disassemble (o : Opts) (addr : Nat) (mem : List Nat) : Dis :=
  decode 16 (decodeImpl o) addr mem

/-! ### Assembler -/

/-- `IntelSymbolParser::symbolLetter`, src/symbol_parser.h:78-80 -/
def symbol : Bool → Char → Bool := prefixSymbol none (some ['_', '?'])

/-- `IntelSymbolParser`, `SemicolonCommentParser`; the table of src/asm_i8051.cpp:32-36. -/
def syntaxOf : Syntax where
  instructionLetter c := symbol false c
  instructionTerminator _ := false
  commentLine s := semicolonEnd s
  special := []
  pseudos := [['D', 'B'], ['D', 'S'], ['D', 'W']]

/-- src/asm_i8051.cpp:42-44, src/value_parser.cpp:53-73: the Intel plugins. -/
def lexer : Lexer where
  number := .intel
  operators := .intel
  letter := defaultLetter
  location := locationSymbol symbol '$'
  symbolLetter := symbol
  functionLetter := symbol false
  endOfLine := semicolonEnd

/-- src/insn_i8051.h:35-40 `Operand` -/
structure Operand where
  err : Err := .OK
  mode : Mode := .NONE
  reg : Option Reg := none
  val : Value := Value.undefined
deriving DecidableEq

/-- src/asm_i8051.cpp:73-113: what follows a register `reg`, of which `p` is the text after it and `start`
that before it (and before the `@`, if `indir`). -/
def registerOperand (indir : Bool) (reg : Reg) (start p : Scan) :
    Out (Except (Err × Scan) (Operand × Scan)) :=
  let plain : Out (Except (Err × Scan) (Operand × Scan)) :=
    if indir then
      match reg with
      | .R n => if n.val < 2 then .ok (.ok ({ mode := .IDIRR, reg := some reg }, p))
        else .ok (.error (.UNKNOWN_OPERAND, p))
      | .DPTR => .ok (.ok ({ mode := .IDIRD, reg := some reg }, p))
      | _ => .ok (.error (.UNKNOWN_OPERAND, p))
    else
      match reg with
      | .R _ => .ok (.ok ({ mode := .RREG, reg := some reg }, p))
      | .A => .ok (.ok ({ mode := .AREG, reg := some reg }, p))
      | .C => .ok (.ok ({ mode := .CREG, reg := some reg }, p))
      | .DPTR => .ok (.ok ({ mode := .DREG, reg := some reg }, p))
      | .AB => .ok (.ok ({ mode := .ABREG, reg := some reg }, p))
      | .PC => .ok (.error (.UNKNOWN_OPERAND, p))
  if indir ∧ reg = .A then
    match expect '+' p with
    | some p =>
      (searchText regs p).bind fun
      | some (.DPTR, p) => .ok (.ok ({ mode := .INDXD, reg := some reg }, p))
      | some (.PC, p) => .ok (.ok ({ mode := .INDXP, reg := some reg }, p))
      | _ => .ok (.error (.UNKNOWN_OPERAND, start))
    | none => plain
  else plain

/-- src/asm_i8051.cpp:134-140: the bit address of a byte address and a bit number; none if the byte is not
bit addressable. -/
def bitAddress (a bit : Nat) : Option Nat :=
  if a / 16 = 2 ∨ (a / 128 = 1 ∧ a % 8 = 0) then
    some ((if a < 128 then a % 16 * 8 else a) ||| bit)
  else none

/-- src/asm_i8051.cpp:118-146: an address or a bit; `p` is the text where the error is found too. -/
def addressOperand (P : Char → Plugins Value) (start : Scan) :
    Out (Except (Err × Scan) (Operand × Scan)) :=
  let not := (expect '/' start).isSome
  let p := (expect '/' start).getD start
  (parseInteger (P '.') (skipSpaces p) .OK).bind fun (val, err, p) =>
  if hasError err then .ok (.error (err, start))
  else
    match expect '.' p with
    | some p =>
      let val := if err ≠ .OK then Value.setUnsigned 0x20 else val
      (parseInteger (P '\x00') p .OK).bind fun (bitNo, bitErr, p) =>
      let err := Config.setErrorIf err bitErr
      if bitNo.overflow 7 0 then .ok (.error (.ILLEGAL_BIT_NUMBER, start))
      else
        match bitAddress val.getUnsigned bitNo.getUnsigned with
        | some v =>
          .ok (.ok ({ err := err, mode := if not then .NOTAD else .BITAD, val := Value.setUnsigned v }, p))
        | none => .ok (.error (.NOT_BIT_ADDRESSABLE, start))
    | none => .ok (.ok ({ err := err, mode := if not then .NOTAD else .ADR16, val := val }, p))

/-- src/asm_i8051.cpp:51-147 `parseOperand`; after an error that ends the encoding the text is mostly
left where the operand starts. -/
def parseOperand (P : Char → Plugins Value) (scan : Scan) :
    Out (Except (Err × Scan) (Operand × Scan)) :=
  let start := skipSpaces scan
  if (P '\x00').endOfLine start then .ok (.ok ({}, start))
  else
    match expect '#' start with
    | some p =>
      (parseInteger (P '\x00') p .OK).bind fun (val, err, p) =>
      if hasError err then .ok (.error (err, start))
      else .ok (.ok ({ err := err, mode := .IMM16, val := val }, p))
    | none =>
      let indir := (expect '@' start).isSome
      let p := (expect '@' start).getD start
      if indir ∧ Ctype.isSpace (deref p) then .ok (.error (.UNKNOWN_OPERAND, start))
      else
        (searchText regs p).bind fun
        | some (reg, p) => registerOperand indir reg start p
        | none => if indir then .ok (.error (.UNKNOWN_OPERAND, start)) else addressOperand P start

/-- src/table_i8051.cpp:279-287 `acceptMode` -/
def acceptMode (opr table : Mode) : Bool :=
  if opr = table then true
  else if opr = .IMM16 then table == .IMM8
  else if opr = .ADR16 then table == .ADR8 || table == .ADR11 || table == .REL || table == .BITAD
  else false

/-- src/table_i8051.cpp:289-293 `acceptModes` of the modes of three operands -/
def acceptModes (ops : List Mode) (r : Row) : Bool :=
  (ops.zip (pad 3 .NONE (modes r))).all fun p => acceptMode p.1 p.2

/-- src/table_i8051.cpp:295-298 `searchName` -/
def searchName (name : List Char) (ops : List Mode) : Out (Except Err Row) :=
  match Table.searchName (fun r : Row => Table.strcasecmp name r.name) (fun _ r => acceptModes ops r)
      pages false with
  | some (.ok (_, r)) => .ok (.ok r)
  | some (.error e) => .ok (.error e)
  | none => .ub

/-- src/asm_i8051.cpp:149-157 `encodeRelative` -/
def encodeRelative (addr : Nat) (op : Operand) (a : Asm) : Out Asm :=
  let base := (addr + (if a.length = 0 then 1 else a.length) + 1) % Config.W
  a.rel8 16 base (if op.err ≠ .OK then base else op.val.getUnsigned)

/-- src/asm_i8051.cpp:161-163 `block`; `Config::uintptr_t` has 16 bits. -/
def block (a : Nat) : Nat := a % 65536 / 2048 * 2048

/-- src/asm_i8051.cpp:173-176 `maySmartBranch`: AJMP, ACALL, LJMP, LCALL. -/
def maySmartBranch (opc : Nat) : Bool := opc == 0x01 || opc == 0x11 || opc == 0x02 || opc == 0x12

/-- src/asm_i8051.cpp:178-184 `shortJump` -/
def shortJump (opc : Nat) : Nat := if opc = 0x02 then 0x01 else if opc = 0x12 then 0x11 else opc
/-- src/asm_i8051.cpp:186-192 `longJump` -/
def longJump (opc : Nat) : Nat := if opc = 0x01 then 0x02 else if opc = 0x11 then 0x12 else opc

/-- src/asm_i8051.cpp:196-219 `encodeJump`; `smart` is the option `smart-branch`. -/
def encodeJump (smart : Bool) (addr : Nat) (m : Mode) (op : Operand) (a : Asm) : Asm :=
  let smartBranch := smart && maySmartBranch a.opc
  let base := addr + 2
  let target := if op.err ≠ .OK then block base else op.val.getUnsigned
  let short := fun (a : Asm) => (a.embed (target / 256 % 8 * 32)).emit8 target
  let long := fun (a : Asm) => a.emit16be op.val.getUnsigned
  if m = .ADR11 ∧ !smartBranch then short (a.check (block base != block target) .OPERAND_TOO_FAR)
  else if m = .ADR16 ∧ !smartBranch then long a
  else if op.err ≠ .OK ∨ block base ≠ block target then long { a with opc := longJump a.opc }
  else short { a with opc := shortJump a.opc }

/-- src/asm_i8051.cpp:221-255 `encodeOperand` -/
def encodeOperand (smart : Bool) (addr : Nat) (m : Mode) (op : Operand) (a : Asm) : Out Asm :=
  let a := a.setErrorIf op.err
  let v := op.val.getUnsigned
  match m with
  | .REL => encodeRelative addr op a
  | .RREG | .IDIRR => .ok (a.embed (match op.reg with | some (.R n) => n.val | _ => 255))
  | .IMM8 => .ok ((a.check op.val.overflowUint8 .OVERFLOW_RANGE).emit8 v)
  | .ADR11 | .ADR16 => .ok (encodeJump smart addr m op a)
  | .IMM16 => .ok (a.emit16be v)
  | .ADR8 | .BITAD | .NOTAD =>
    let a := a.check (op.val.overflow 255 0) (if m = .ADR8 then .OVERFLOW_RANGE else .NOT_BIT_ADDRESSABLE)
    .ok ((a.check (invalidDirect a.opc v) .OPERAND_NOT_ALLOWED).emit8 v)
  | _ => .ok a

/-- src/asm_i8051.cpp:275-287: the operands, those of `MOV dst, src` the other way round. -/
def encodeOperands (smart : Bool) (addr : Nat) (row : Row) (ops : List Operand) (a : Asm) : Out Asm :=
  if dst row = .ADR8 ∧ src row = .ADR8 then
    let a := a.setErrorIf (ops.getD 0 {}).err
    emitList (encodeOperand smart addr) [(.ADR8, ops.getD 1 {}), (.ADR8, ops.getD 0 {})] a
  else emitList (encodeOperand smart addr) ((pad 3 .NONE (modes row)).zip ops) a

/-- src/asm_i8051.cpp:257-288 `encodeImpl` -/
def encodeImpl (P : Char → Plugins Value) (smart : Bool) (addr : Nat) (name : List Char) (scan : Scan) :
    Out Res :=
  (operandList (parseOperand P) 3 scan).bind fun
  | .error (e, scan) => .ok ⟨e, [], scan⟩
  | .ok (ops, scan) =>
    let ops := pad 3 {} ops
    (searchName name (ops.map (·.mode))).bind fun
    | .error e => .ok ⟨e, [], scan⟩
    | .ok row =>
      (encodeOperands smart addr row ops ⟨.OK, row.opcode, []⟩).bind fun a => .ok ⟨a.err, a.bytes, scan⟩

/-- Assembling one line: `Assembler::encode` of an `AsmI8051`; `smart` is the option `smart-branch`. -/
def assemble (E : Env) (smart : Bool) (addr : Nat) (line : List Char) : Out Line :=
  encode syntaxOf 16 (encodeImpl (fun delim => lexer.plugins E delim addr) smart addr) addr line

end Libasm.Cpu.I8051
