import Verif.Cpu.Model
import Verif.Tables.Data.Ins8060
/-
The assembler and the disassembler of the INS8060 (SC/MP): src/asm_ins8060.cpp,
src/dis_ins8060.cpp, src/table_ins8060.cpp, src/reg_ins8060.cpp. The instruction table is
Verif/Tables/Data/Ins8060.lean, generated from src/table_ins8060.cpp.
-/
namespace Libasm.Cpu.Ins8060
open Scan Number Eval
open Tables (Row)

/-- src/entry_ins8060.h:28-36 `AddrMode` -/
inductive Mode | NONE | PNTR | IMM8 | REL8 | DISP | INDX | UNDEF
deriving DecidableEq, Repr

/-- src/table_ins8060.cpp:27-29: the addressing mode of a row. -/
def mode (r : Row) : Mode :=
  match r.operands with
  | ["E0"] => .NONE
  | ["E1", "M_PNTR"] => .PNTR
  | ["E1", "M_IMM8"] => .IMM8
  | ["E1", "M_REL8"] => .REL8
  | ["E1", "M_DISP"] => .DISP
  | ["E1", "M_INDX"] => .INDX
  | _ => .UNDEF

/-- src/reg_ins8060.h:29-39 `RegName`; REG_UNDEF is `none` where it occurs. -/
inductive Reg | PC | P1 | P2 | P3 | P0 | E
deriving DecidableEq, Repr

/-- src/reg_ins8060.cpp:32-39 -/
def regs : List (List Char × Reg) :=
  [(['E'], .E), (['P', '0'], .P0), (['P', '1'], .P1), (['P', '2'], .P2), (['P', '3'], .P3),
   (['P', 'C'], .PC)]

/-- src/reg_ins8060.cpp:56-67 `isPointerReg` -/
def isPointerReg : Option Reg → Bool
  | some .PC | some .P1 | some .P2 | some .P3 | some .P0 => true
  | _ => false

/-- src/reg_ins8060.cpp:69-73 `encodePointerReg`. REG_UNDEF is 255 there. -/
def encodePointerReg : Option Reg → Nat
  | some .PC | some .P0 => 0
  | some .P1 => 1
  | some .P2 => 2
  | some .P3 => 3
  | some .E => 5
  | none => 255

/-- src/reg_ins8060.cpp:75-77 `decodePointerReg` -/
def decodePointerReg (num : Nat) : Reg :=
  match num % 4 with
  | 0 => .PC
  | 1 => .P1
  | 2 => .P2
  | _ => .P3

/-- src/reg_ins8060.h:43-45 `page` -/
def page (addr : Nat) : Nat := addr % 65536 / 4096 * 4096
/-- src/reg_ins8060.h:47-49 `offset` -/
def offset (addr : Nat) : Nat := addr % 65536 % 4096

/-! ### Disassembler -/

/-- src/table_ins8060.cpp:166-175 `matchOpCode` -/
def matchOpCode (opc : Nat) (r : Row) : Bool :=
  let opc :=
    match mode r with
    | .INDX => opc / 8 * 8
    | .PNTR | .REL8 | .DISP => opc / 4 * 4
    | _ => opc
  opc == r.opcode

/-- src/table_ins8060.cpp:177-184 `searchOpCode`: the row, unless the instruction is unknown. -/
def searchOpCode (opc : Nat) : Option Row :=
  match Table.searchOpCode (fun _ r => matchOpCode opc r) (fun _ => true)
      Tables.Ins8060.INS8060_PAGES with
  | some (_, r) => if mode r = .UNDEF then none else some r
  | none => none

/-- `a + b` of a uint16_t, or a conversion to one. -/
def uint16 (x : Int) : Nat := (x % 65536).toNat

/-- src/dis_ins8060.cpp:44-73 `decodeIndx`: the operand and the instruction read so far. -/
def decodeIndx (o : Opts) (addr opc : Nat) (m : Mode) (hasMode : Bool) (r : Rd) :
    List Char × Rd :=
  let pre := if hasMode && decide (opc / 4 % 2 = 1) then [letter o.upper '@'] else []
  let reg := decodePointerReg opc
  let (opr, r) := r.byte
  if reg = .PC then
    let base := (addr + 1) % Config.W
    let disp := Config.int8 opr
    let fetch : Int := if m = .REL8 then 1 else 0
    let toff := offset (uint16 ((offset base : Nat) + disp + fetch))
    let target := page base + toff
    let diff := Config.int16 (Config.uint32 ((target : Int) - base - fetch))
    if diff ≥ -128 ∧ diff < 128 then (pre ++ outRelAddr .national o 16 target addr 8, r)
    else (pre ++ outAbsAddr .national o 16 target, r)
  else
    let disp :=
      if opr = 0x80 then outText o (regText regs .E)
      else outDec .national o (Config.uint32 (Config.int8 opr)) (-8)
    (pre ++ disp ++ [letter o.upper '('] ++ outText o (regText regs reg) ++ [letter o.upper ')'], r)

/-- src/dis_ins8060.cpp:75-101 `decodeImpl` -/
def decodeImpl (o : Opts) (addr : Nat) (mem : List Nat) : Dis :=
  let (opc, r) := (⟨mem, [], .OK⟩ : Rd).byte
  match searchOpCode opc with
  | none => ⟨.UNKNOWN_INSTRUCTION, [], [], r.bytes⟩
  | some row =>
    let r := { r with err := Err.OK }
    let (operands, r) :=
      match mode row with
      | .PNTR => (outText o (regText regs (decodePointerReg opc)), r)
      | .IMM8 =>
        let (v, r) := r.byte
        (outHex .national o v 8 true, r)
      | .REL8 => decodeIndx o addr opc .REL8 false r
      | .DISP => decodeIndx o addr opc .DISP false r
      | .INDX => decodeIndx o addr opc .INDX true r
      | _ => ([], r)
    let r := if page addr ≠ page (addr + r.bytes.length + 65535) then r.setErrorIf .OVERWRAP_SEGMENT
      else r
    ⟨r.err, outText o row.name, operands, r.bytes⟩

/-- Disassembling one instruction: `Disassembler::decode` of a `DisIns8060`. -/
def disassemble (o : Opts) (addr : Nat) (mem : List Nat) : Dis :=
  decode 16 (decodeImpl o) addr mem

/-! ### Assembler -/

/-- `Ins80xxSymbolParser`: src/symbol_parser.h:121-126, src/parsers.cpp:295-301; the special
directive of src/asm_ins8060.cpp:165-169 and the table of lines 32-37. -/
def syntaxOf : Syntax where
  instructionLetter c := prefixSymbol (some ['$']) none false c || c == '=' || c == '.'
  instructionTerminator c := c == '='
  commentLine := semicolonEnd
  special := [['.', 'A', 'D', 'D', 'R']]
  pseudos := [['.', '='], ['.', 'A', 'S', 'C', 'I', 'I'], ['.', 'B', 'Y', 'T', 'E'],
    ['.', 'D', 'B', 'Y', 'T', 'E']]

/-- src/asm_ins8060.cpp:43-50 `defaultPlugins` -/
def lexer : Lexer where
  number := .ins80xx
  operators := .c
  letter := defaultLetter
  location s :=
    match locationSymbol (prefixSymbol (some ['$']) none) '.' s with
    | some p => some p
    | none => locationSymbol (prefixSymbol (some ['$']) none) '$' s
  symbolLetter := prefixSymbol (some ['$']) none
  functionLetter := prefixSymbol (some ['$']) none false
  endOfLine := semicolonEnd

/-- src/insn_ins8060.h:33-39 `Operand`: `index` says that it is REG_E. -/
structure Operand where
  err : Err := .OK
  mode : Mode := .NONE
  reg : Option Reg := none
  index : Bool := false
  val : Value := Value.undefined

/-- src/reg_ins8060.cpp:46-49 `parseRegName` -/
def parseRegName (s : Scan) : Out (Option Reg × Scan) :=
  (searchText regs s).bind fun
    | some (r, p) => .ok (some r, p)
    | none => .ok (none, s)

/-- src/asm_ins8060.cpp:131-149: what may follow a displacement or E, and the end. `reg` and
`autoDisp` are the variables of that name. -/
def parseBase (scan p : Scan) (autoDisp : Bool) (op : Operand) : Out (Operand × Scan) :=
  match expect '(' (skipSpaces p) with
  | some p =>
    (parseRegName p).bind fun (base, p) =>
    if !isPointerReg base then .ok ({ op with err := .UNKNOWN_OPERAND }, scan)
    else
      match expect ')' p with
      | none => .ok ({ op with err := .MISSING_CLOSING_PAREN }, scan)
      | some p => .ok ({ op with reg := base, mode := if autoDisp then .INDX else .DISP }, p)
  | none =>
    if autoDisp || op.index then .ok ({ op with err := .UNKNOWN_OPERAND }, scan)
    else .ok ({ op with mode := .REL8 }, skipSpaces p)

/-- src/asm_ins8060.cpp:108-150 `parseOperand`: the operand and the text after it. `P` holds the
plugins with the delimiter and the current location. -/
def parseOperand (P : Plugins Value) (scan : Scan) : Out (Operand × Scan) :=
  let p := skipSpaces scan
  if P.endOfLine p then .ok ({}, p)
  else
    let (autoDisp, p) := match expect '@' p with | some q => (true, q) | none => (false, p)
    (parseRegName p).bind fun (reg, p) =>
    match reg with
    | some .E => parseBase scan p autoDisp { index := true }
    | some r => .ok ({ mode := .PNTR, reg := some r }, p)
    | none =>
      (parseInteger P p .OK).bind fun (val, err, p) =>
      if hasError err then .ok ({ err := err, val := val }, scan)
      else parseBase scan p autoDisp { err := err, val := val }

/-- src/table_ins8060.cpp:149-159 `acceptMode` -/
def acceptMode (opr : Mode) (r : Row) : Bool :=
  let table := mode r
  if opr = table then true
  else
    match opr with
    | .REL8 => table == .IMM8 || table == .DISP || table == .INDX
    | .DISP => table == .REL8 || table == .INDX
    | _ => false

/-- src/table_ins8060.cpp:161-164 `searchName` -/
def searchName (name : List Char) (opr : Mode) : Out (Except Err Row) :=
  match Table.searchName (fun r : Row => Table.strcasecmp name r.name)
      (fun _ r => acceptMode opr r) Tables.Ins8060.INS8060_PAGES false with
  | some (.ok (_, r)) => .ok (.ok r)
  | some (.error e) => .ok (.error e)
  | none => .ub

/-- `AsmInsn`: error, code and bytes emitted. -/
structure Asm where
  err : Err
  opc : Nat
  bytes : List Nat

/-- `insn.setErrorIf(op, e)`. -/
def Asm.setErrorIf (a : Asm) (e : Err) : Asm := { a with err := Config.setErrorIf a.err e }
/-- `insn.embed(x)` of an 8 bit code. -/
def Asm.embed (a : Asm) (x : Nat) : Asm := { a with opc := (a.opc ||| x) % 256 }
/-- `insn.emitInsn()`, src/insn_ins8060.h:46 -/
def Asm.emitInsn (a : Asm) : Asm := { a with bytes := a.bytes ++ [a.opc % 256] }
/-- `insn.emitByte(x)` -/
def Asm.emitByte (a : Asm) (x : Int) : Asm := { a with bytes := a.bytes ++ [(x % 256).toNat] }

/-- `static_cast<int16_t>` -/
def int16 (x : Int) : Int := Config.int16 (uint16 x)

/-- src/asm_ins8060.cpp:57-93 `encodeRel8`; `m` is `insn.addrMode()`. -/
def encodeRel8 (addr : Nat) (m : Mode) (op : Operand) (a : Asm) : Out Asm :=
  if op.mode = .DISP then
    let pcdisp := op.reg = some .PC ∨ op.reg = some .P0
    if op.index then
      let a := if pcdisp then a.setErrorIf .REGISTER_NOT_ALLOWED else a
      let a := a.embed (encodePointerReg op.reg)
      .ok (a.emitInsn.emitByte (-128))
    else
      let delta := int16 op.val.getSigned
      (ofOption (Config.overflowDelta delta 8)).bind fun far =>
      let a := if far || (!decide pcdisp && delta == -128) then a.setErrorIf .OVERFLOW_RANGE else a
      let a := a.embed (encodePointerReg op.reg)
      .ok (a.emitInsn.emitByte delta)
  else
    let base := (addr + 1) % 65536
    let fetch : Int := if m = .REL8 then 1 else 0
    let target := if op.err ≠ .OK then base else op.val.getUnsigned % 65536
    (ofOption (Config.checkAddrSeg 16 target addr 12 false)).bind fun e =>
    let a := a.setErrorIf e
    let diff : Int := (offset (uint16 (target - fetch)) : Nat) - (offset base : Nat)
    (ofOption (Config.signExtend (Config.uint32 diff) 12)).bind fun d =>
    let delta := int16 d
    (ofOption (Config.overflowDelta delta 8)).bind fun far =>
    let a := if far then a.setErrorIf .OPERAND_TOO_FAR else a
    let delta := if op.err ≠ .OK then 0 else delta
    let a := a.embed (encodePointerReg (some .PC))
    .ok (a.emitInsn.emitByte delta)

/-- src/asm_ins8060.cpp:92-114 `encodeIndx` -/
def encodeIndx (addr : Nat) (m : Mode) (op : Operand) (a : Asm) : Out Asm :=
  if op.mode = .REL8 then encodeRel8 addr m op a
  else
    let a := a.embed (encodePointerReg op.reg)
    let a :=
      if op.mode = .INDX then
        (if m ≠ .INDX then a.setErrorIf .OPERAND_NOT_ALLOWED else a).embed 4
      else a
    let disp := op.val.getSigned
    let pcdisp := op.reg = some .PC ∨ op.reg = some .P0
    if op.index then
      let a := if pcdisp then a.setErrorIf .REGISTER_NOT_ALLOWED else a
      .ok (a.emitInsn.emitByte (-128))
    else
      (ofOption (Config.overflowDelta disp 8)).bind fun far =>
      let a := if far || (!decide pcdisp && disp == -128) then a.setErrorIf .OVERFLOW_RANGE else a
      .ok (a.emitInsn.emitByte disp)

/-- src/asm_ins8060.cpp:186-209, the switch of `encodeImpl`. -/
def encodeMode (addr : Nat) (m : Mode) (op : Operand) (a : Asm) : Out Asm :=
  match m with
  | .NONE => .ok a.emitInsn
  | .REL8 => encodeRel8 addr m op a
  | .PNTR => .ok (a.embed (encodePointerReg op.reg)).emitInsn
  | .DISP | .INDX => encodeIndx addr m op a
  | .IMM8 =>
    let a := if op.val.overflowUint8 then a.setErrorIf .OVERFLOW_RANGE else a
    .ok (a.emitInsn.emitByte op.val.getUnsigned)
  | .UNDEF => .ok a

/-- src/asm_ins8060.cpp:176-213 `encodeImpl` -/
def encodeImpl (P : Plugins Value) (addr : Nat) (name : List Char) (scan : Scan) : Out Res :=
  (parseOperand P scan).bind fun (op, scan) =>
  if hasError op.err then .ok ⟨op.err, [], scan⟩
  else
    let scan := skipSpaces scan
    (searchName name op.mode).bind fun
    | .error e => .ok ⟨e, [], scan⟩
    | .ok row =>
      (encodeMode addr (mode row) op ⟨Config.setErrorIf .OK op.err, row.opcode, []⟩).bind fun a =>
      let a :=
        if a.bytes.length > 0 ∧ page addr ≠ page (addr + a.bytes.length + 65535) then
          a.setErrorIf .OVERWRAP_SEGMENT
        else a
      .ok ⟨a.err, a.bytes, scan⟩

/-- Assembling one line: `Assembler::encode` of an `AsmIns8060`. -/
def assemble (E : Env) (addr : Nat) (line : List Char) : Out Line :=
  encode syntaxOf 16 (encodeImpl (lexer.plugins E '\x00' addr) addr) addr line

end Libasm.Cpu.Ins8060
