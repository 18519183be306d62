import Verif.Cpu.ListModel
import Verif.Maker.Model
import Verif.Tables.Data.Z80
/-
The assembler and the disassembler of the Z80: src/asm_z80.cpp, src/dis_z80.cpp, src/table_z80.cpp,
src/reg_z80.cpp, src/insn_z80.h. The instruction tables are Verif/Tables/Data/Z80.lean, generated from
src/table_z80.cpp.
-/
namespace Libasm.Cpu.Z80
open Scan Number Eval
open Tables (Row)

/-- src/reg_z80.h:29-53 `RegName`; REG_UNDEF is `none` where it occurs. -/
inductive Reg | BC | DE | HL | SP | IX | IY | AF | AFP | B | C | D | E | H | L | A | I | R
deriving DecidableEq, Repr

/-- The numbers of src/reg_z80.h:29-53. -/
def Reg.num : Reg → Nat
  | .BC => 0 | .DE => 1 | .HL => 2 | .SP => 3 | .IX => 4 | .IY => 5 | .AF => 6 | .AFP => 7
  | .B => 8 | .C => 9 | .D => 10 | .E => 11 | .H => 12 | .L => 13 | .A => 15 | .I => 16 | .R => 17

/-- src/reg_z80.h:55-65 `CcName` -/
inductive Cc | NZ | Z | NC | C | PO | PE | P | M
deriving DecidableEq, Repr

/-- The numbers of src/reg_z80.h:55-65; src/reg_z80.cpp:155-157 `encodeCcName`. -/
def Cc.num : Cc → Nat
  | .NZ => 0 | .Z => 1 | .NC => 2 | .C => 3 | .PO => 4 | .PE => 5 | .P => 6 | .M => 7

/-- src/entry_z80.h:29-69 `AddrMode`: `R r` is R_BASE + r, `I r` is I_BASE + r; `PTR`, `IIDX` and `RIDX` are
I_PTR, I_IDX and R_IDX, `IXB` is T_IXB. -/
inductive Mode
  | NONE | IM8 | IM16 | ABS | IOA | REL | IDX | CC4 | CC8 | R16 | NOHL | R16X | STK | SRC | DST | SR8 | DR8
  | VEC | BIT | IMMD | IXB | PTR | IIDX | RIDX | R (r : Reg) | I (r : Reg) | UNDEF
deriving DecidableEq, Repr

/-- The name of an addressing mode in the table. -/
def modeOf : String → Mode
  | "M_IM8" => .IM8
  | "M_IM16" => .IM16
  | "M_ABS" => .ABS
  | "M_IOA" => .IOA
  | "M_REL" => .REL
  | "M_IDX" => .IDX
  | "M_CC4" => .CC4
  | "M_CC8" => .CC8
  | "M_R16" => .R16
  | "M_NOHL" => .NOHL
  | "M_R16X" => .R16X
  | "M_STK" => .STK
  | "M_SRC" => .SRC
  | "M_DST" => .DST
  | "M_SR8" => .SR8
  | "M_DR8" => .DR8
  | "M_VEC" => .VEC
  | "M_BIT" => .BIT
  | "M_IMMD" => .IMMD
  | "T_IXB" => .IXB
  | "I_PTR" => .PTR
  | "I_IDX" => .IIDX
  | "R_IDX" => .RIDX
  | "R_DE" => .R .DE
  | "R_HL" => .R .HL
  | "R_SP" => .R .SP
  | "R_AF" => .R .AF
  | "R_AFP" => .R .AFP
  | "R_A" => .R .A
  | "R_I" => .R .I
  | "R_R" => .R .R
  | "I_HL" => .I .HL
  | "I_SP" => .I .SP
  | "I_C" => .I .C
  | _ => .UNDEF

/-- src/table_z80.cpp:27-33: the addressing modes of a row. -/
def modes (r : Row) : List Mode :=
  match r.operands with
  | ["E0"] => []
  | ["E1", d] => [modeOf d]
  | ["E2", d, s] => [modeOf d, modeOf s]
  | ["I1", d] => [modeOf d]
  | ["I2", d, s] => [modeOf d, modeOf s]
  | _ => [.UNDEF]

/-- src/table_z80.cpp:31-33, src/entry_z80.h:86 `indexBit` -/
def indexBit (r : Row) : Bool :=
  match r.operands with
  | "I1" :: _ => true
  | "I2" :: _ => true
  | _ => false

/-- `insn.dst()` -/
def dst (r : Row) : Mode := (modes r).headD .NONE
/-- `insn.src()` -/
def src (r : Row) : Mode := ((modes r).drop 1).headD .NONE

/-- src/table_z80.cpp:381-388; the generated tables give `PREFIX_IX` and `PREFIX_IY` by name, they are 0xDD
and 0xFD (src/table_z80.h:35-36). -/
def pages : List (Table.Page Row) := Tables.Z80.Z80_PAGES.map fun p =>
  if p.extra = ["TableZ80::PREFIX_IX"] then { p with prefix_ := 0xdd }
  else if p.extra = ["TableZ80::PREFIX_IY"] then { p with prefix_ := 0xfd }
  else p

/-! ### Registers -/

/-- src/reg_z80.cpp:33-51 `REG_ENTRIES` -/
def regs : List (List Char × Reg) :=
  [(['A'], .A), (['A', 'F'], .AF), (['A', 'F', '\''], .AFP), (['B'], .B), (['B', 'C'], .BC), (['C'], .C),
   (['D'], .D), (['D', 'E'], .DE), (['E'], .E), (['H'], .H), (['H', 'L'], .HL), (['I'], .I), (['I', 'X'], .IX),
   (['I', 'Y'], .IY), (['L'], .L), (['R'], .R), (['S', 'P'], .SP)]

/-- src/reg_z80.cpp:53-62 `CC_ENTRIES` -/
def ccs : List (List Char × Cc) :=
  [(['C'], .C), (['M'], .M), (['N', 'C'], .NC), (['N', 'Z'], .NZ), (['P'], .P), (['P', 'E'], .PE),
   (['P', 'O'], .PO), (['Z'], .Z)]

/-- The number of a register as `uint8_t`; REG_UNDEF is -1. -/
def regNum : Option Reg → Nat
  | some r => r.num
  | none => 255

/-- src/reg_z80.cpp:80-86 `encodeDataReg` -/
def encodeDataReg (r : Option Reg) : Nat := if r = some .HL then 6 else (regNum r + 248) % 256

/-- src/reg_z80.cpp:88-93 `decodeDataReg` -/
def decodeDataReg (num : Nat) : Reg :=
  match num % 8 with
  | 0 => .B | 1 => .C | 2 => .D | 3 => .E | 4 => .H | 5 => .L | 6 => .HL | _ => .A

/-- src/reg_z80.cpp:99-101 `encodePointerRegIx`; lines 95-97 `encodePointerReg` -/
def encodePointerRegIx (r ix : Option Reg) : Nat := if r = ix then Reg.HL.num else regNum r

/-- src/reg_z80.cpp:132-138 `decodeIndexReg` -/
def decodeIndexReg (pre : Nat) : Option Reg :=
  if pre = 0xdd then some .IX else if pre = 0xfd then some .IY else none

/-- src/reg_z80.cpp:103-110 `decodePointerReg` -/
def decodePointerReg (num pre : Nat) : Reg :=
  match num % 4 with
  | 0 => .BC | 1 => .DE | 2 => (decodeIndexReg pre).getD .HL | _ => .SP

/-- src/reg_z80.cpp:112-116 `encodeStackReg` -/
def encodeStackReg (r : Option Reg) : Nat := if r = some .AF then 3 else regNum r

/-- src/reg_z80.cpp:118-122 `decodeStackReg` -/
def decodeStackReg (num : Nat) : Reg :=
  match num % 4 with
  | 0 => .BC | 1 => .DE | 2 => .HL | _ => .AF

/-- src/reg_z80.cpp:128-130 `decodeIndirectBase` -/
def decodeIndirectBase (num : Nat) : Reg := if num % 2 = 0 then .BC else .DE

/-- src/reg_z80.cpp:159-161 `decodeCcName` -/
def decodeCcName (num : Nat) : Cc :=
  match num % 8 with
  | 0 => .NZ | 1 => .Z | 2 => .NC | 3 => .C | 4 => .PO | 5 => .PE | 6 => .P | _ => .M

/-- src/reg_z80.cpp:150-153 `isCc4Name` -/
def isCc4Name (c : Cc) : Bool := decide (c.num < 4)

/-! ### Disassembler -/

/-- `opc & ~(7 << 3)` -/
def clearDst (opc : Nat) : Nat := opc / 64 * 64 + opc % 8
/-- `opc & ~7` -/
def clearSrc (opc : Nat) : Nat := opc / 8 * 8
/-- `opc & ~(3 << 4)` -/
def clearPtr (opc : Nat) : Nat := opc / 64 * 64 + opc % 16
/-- `opc & ~(1 << 4)` -/
def clearInd (opc : Nat) : Nat := opc / 32 * 32 + opc % 16
/-- `opc & ~(3 << 3)` -/
def clearCc4 (opc : Nat) : Nat := opc / 32 * 32 + opc % 8

/-- src/table_z80.cpp:463-481: the second half of `matchOpCode`. -/
def matchRest (opc : Nat) (r : Row) : Bool :=
  let either := fun m => decide (dst r = m ∨ src r = m)
  if dst r = .CC8 ∨ dst r = .VEC ∨ dst r = .BIT then clearDst opc == r.opcode
  else if either .R16 || either .R16X || either .STK then clearPtr opc == r.opcode
  else if either .NOHL then
    if opc / 16 % 4 = 2 then false else clearPtr opc == r.opcode
  else if either .PTR then clearInd opc == r.opcode
  else if dst r = .CC4 then clearCc4 opc == r.opcode
  else if dst r = .IMMD then
    if opc / 8 % 4 = 1 then false else clearCc4 opc == r.opcode
  else opc == r.opcode

/-- src/table_z80.cpp:444-490 `matchOpCode` -/
def matchOpCode (opc : Nat) (r : Row) : Bool :=
  let either := fun m => decide (dst r = m ∨ src r = m)
  if either .DR8 && opc / 8 % 8 == 6 then false
  else
    let opc := if either .DR8 then clearDst opc else opc
    let opc := if either .DST then clearDst opc else opc
    if src r = .SR8 ∧ opc % 8 = 6 then false
    else
      let opc := if src r = .SR8 then clearSrc opc else opc
      let opc := if either .SRC then clearSrc opc else opc
      matchRest opc r

/-- src/table_z80.cpp:484-487 `searchOpCode` -/
def searchOpCode (pre opc : Nat) : Option Row :=
  (Table.searchOpCode (fun _ r => matchOpCode opc r) (fun p => pre == p.prefix_) pages).map (·.2)

/-- src/table_z80.cpp:489-491 `isPrefix`, src/entry_table.h:112-122 -/
def isPrefix (code : Nat) : Bool := pages.any fun p => p.prefix_ != 0 && p.prefix_ == code

/-- src/reg_z80.cpp:75-78 `outRegName` -/
def outReg (o : Opts) (r : Reg) : List Char := outText o (regText regs r)
/-- `outRegName` of a register or REG_UNDEF. -/
def outReg? (o : Opts) (r : Option Reg) : List Char := (r.map (outReg o)).getD []
/-- src/dis_z80.cpp:35-37 `outIndirectReg` -/
def outIndirect (o : Opts) (t : List Char) : List Char := '(' :: t ++ [')']
/-- src/dis_z80.cpp:45-49 `outDataReg` -/
def outDataReg (o : Opts) (r : Reg) : List Char :=
  if r = .HL then outIndirect o (outReg o r) else outReg o r

/-- src/dis_z80.cpp:39-43 `outIndexOffset`, of the byte that was read. -/
def outIndexOffset (o : Opts) (b : Nat) : List Char :=
  (if b < 128 then ['+'] else []) ++ outDec .intel o (Config.uint32 (int8 b)) (-8)

/-- The operand `(IX+nn)`, src/dis_z80.cpp:69-72,104-107 -/
def outIndexed (o : Opts) (pre b : Nat) : List Char :=
  '(' :: outReg? o (decodeIndexReg pre) ++ outIndexOffset o b ++ [')']

/-- src/dis_z80.cpp:79-85 `decodeRelative` -/
def decodeRelative (o : Opts) (addr : Nat) (r : Rd) : List Char × Rd :=
  let (b, r) := r.byte
  let target := ((((addr + r.bytes.length : Nat) : Int) + int8 b) % Config.W).toNat
  (outRelAddr .intel o 16 target addr 8, r.setErrorIf (Config.checkAddr 16 target false))

/-- src/dis_z80.cpp:87-172 `decodeOperand` -/
def decodeOperand (o : Opts) (addr pre opc : Nat) (m : Mode) (r : Rd) : List Char × Rd :=
  match m with
  | .IM8 => (outHex .intel o r.byte.1 8 true, r.byte.2)
  | .IM16 => (outHex .intel o r.le16.1 16 true, r.le16.2)
  | .ABS => (outIndirect o (outAbsAddr .intel o 16 r.le16.1), r.le16.2)
  | .IOA => (outIndirect o (outHex .intel o r.byte.1 8 true), r.byte.2)
  | .IDX => (outIndexed o pre r.byte.1, r.byte.2)
  | .CC4 => (outText o (regText ccs (decodeCcName (opc / 8 % 4))), r)
  | .CC8 => (outText o (regText ccs (decodeCcName (opc / 8))), r)
  | .REL => decodeRelative o addr r
  | .R16 | .NOHL | .R16X => (outReg o (decodePointerReg (opc / 16) pre), r)
  | .STK => (outReg o (decodeStackReg (opc / 16)), r)
  | .SRC | .SR8 => (outDataReg o (decodeDataReg opc), r)
  | .DST | .DR8 => (outDataReg o (decodeDataReg (opc / 8)), r)
  | .VEC => (outHex .intel o (opc / 8 % 8 * 8) 8 true, r)
  | .BIT => (outHex .intel o (opc / 8 % 8) 3 true, r)
  | .IMMD => ([Char.ofNat (48 + (opc / 8 % 4 - 1))], r)
  | .RIDX => (outReg? o (decodeIndexReg pre), r)
  | .R .BC | .R .C | .R .B | .R .D | .R .E | .R .H | .R .L | .R .IX | .R .IY => ([], r)
  | .R reg => (outReg o reg, r)
  | .PTR => (outIndirect o (outReg o (decodeIndirectBase (opc / 16))), r)
  | .IIDX => (outIndirect o (outReg? o (decodeIndexReg pre)), r)
  | .I .HL => (outIndirect o (outReg o .HL), r)
  | .I .SP => (outIndirect o (outReg o .SP), r)
  | .I .C => (outIndirect o (outReg o .C), r)
  | .I _ | .NONE | .IXB | .UNDEF => ([], r)

/-- src/dis_z80.cpp:51-77 `decodeIndexedBitOp`: the name of the instruction is the one of the table of
the prefix CB. The errors of the search there are not those of the instruction (src/insn_z80.h:76). -/
def decodeIndexedBitOp (o : Opts) (pre opc : Nat) (r : Rd) : Dis :=
  let (offset, r) := r.byte
  let (code, r) := r.byte
  match searchOpCode opc code with
  | none => ⟨(r.setErrorIf .UNKNOWN_INSTRUCTION).err, [], [], r.bytes⟩
  | some row =>
    if decodeDataReg code = .HL then
      ⟨r.err, outText o row.name,
        (if dst row = .BIT then outHex .intel o (code / 8 % 8) 3 true ++ [',', ' '] else []) ++ outIndexed o pre offset,
        r.bytes⟩
    else ⟨(r.setErrorIf .UNKNOWN_INSTRUCTION).err, [], [], r.bytes⟩

/-- src/dis_z80.cpp:184-197: the instruction of the prefix and code read so far. -/
def decodeInsn (o : Opts) (addr pre opc : Nat) (r : Rd) : Dis :=
  match searchOpCode pre opc with
  | none => ⟨.UNKNOWN_INSTRUCTION, [], [], r.bytes⟩
  | some row =>
    let r := { r with err := Err.OK }
    if dst row = .IXB then decodeIndexedBitOp o pre opc r
    else
      let (t, r) := decodeList (decodeOperand o addr pre opc) (modes row) r
      ⟨r.err, outText o row.name, t, r.bytes⟩

/-- src/dis_z80.cpp:174-197 `decodeImpl` -/
def decodeImpl (o : Opts) (addr : Nat) (mem : List Nat) : Dis :=
  let (opc, r) := (⟨mem, [], .OK⟩ : Rd).byte
  if isPrefix opc then
    let (opc', r) := r.byte
    if r.err ≠ .OK then ⟨r.err, [], [], r.bytes⟩ else decodeInsn o addr opc opc' r
  else decodeInsn o addr 0 opc r

/-- Disassembling one instruction: `Disassembler::decode` of a `DisZ80`. -/
def disassemble (o : Opts) (addr : Nat) (mem : List Nat) : Dis := decode 16 (decodeImpl o) addr mem

/-! ### Assembler -/

/-- src/symbol_parser.h:78-80 `IntelSymbolParser`, `SemicolonCommentParser`; the table of
src/asm_z80.cpp:32-41. -/
def syntaxOf : Syntax where
  instructionLetter c := prefixSymbol none (some ['_', '?']) false c
  instructionTerminator _ := false
  commentLine s := semicolonEnd s
  special := []
  pseudos := [['D', 'B'], ['D', 'E', 'F', 'B'], ['D', 'E', 'F', 'M'], ['D', 'E', 'F', 'S'],
    ['D', 'E', 'F', 'W'], ['D', 'L'], ['D', 'S'], ['D', 'W']]

/-- src/asm_z80.cpp:47-54 `defaultPlugins` -/
def lexer : Lexer := Maker.z80

/-- src/insn_z80.h:36-41 `Operand` -/
structure Operand where
  err : Err := .OK
  mode : Mode := .NONE
  reg : Option Reg := none
  val : Value := Value.undefined
deriving DecidableEq

/-- src/asm_z80.cpp:203-224: the mode of a register. -/
def registerMode (r : Reg) : Mode :=
  match r with
  | .IX | .IY => .RIDX
  | .B | .D | .E | .H | .L => .SR8
  | r => .R r

/-- src/asm_z80.cpp:241-257: the mode of a register between parentheses. -/
def indirectMode (r : Reg) : Option Mode :=
  match r with
  | .BC | .DE => some .PTR
  | .IX | .IY => some .IIDX
  | .HL | .SP | .C => some (.I r)
  | _ => none

/-- src/asm_z80.cpp:228-275: what is between parentheses; `p` is after the opening one. `start` is where
the operand starts, where the text is left after an error. -/
def parseParen (plugins : Char → Plugins Value) (start p : Scan) : Out (Except (Err × Scan) (Operand × Scan)) :=
  (searchText regs (skipSpaces p)).bind fun
  | none =>
    (parseInteger (plugins ')') (skipSpaces p) .OK).bind fun (val, err, q) =>
    if hasError err then .ok (.error (err, start))
    else
      match expect ')' (skipSpaces q) with
      | none => .ok (.error (.MISSING_CLOSING_PAREN, start))
      | some q => .ok (.ok ({ err := err, mode := .ABS, val := val }, q))
  | some (reg, q) =>
    match expect ')' (skipSpaces q) with
    | some q =>
      match indirectMode reg with
      | some m => .ok (.ok ({ mode := m, reg := some reg }, q))
      | none => .ok (.error (.REGISTER_NOT_ALLOWED, start))
    | none =>
      if (deref (skipSpaces q) = '+' ∨ deref (skipSpaces q) = '-') ∧ (reg = .IX ∨ reg = .IY) then
        (parseInteger (plugins ')') (skipSpaces q) .OK).bind fun (val, err, q) =>
        if hasError err then .ok (.error (err, start))
        else
          match expect ')' (skipSpaces q) with
          | none => .ok (.error (.MISSING_CLOSING_PAREN, start))
          | some q => .ok (.ok ({ err := err, mode := .IDX, reg := some reg, val := val }, q))
      else .ok (.error (.UNKNOWN_OPERAND, start))

/-- src/asm_z80.cpp:175-283 `parseOperand` -/
def parseOperand (plugins : Char → Plugins Value) (scan : Scan) : Out (Except (Err × Scan) (Operand × Scan)) :=
  let p := skipSpaces scan
  if (plugins '\x00').endOfLine p then .ok (.ok ({}, p))
  else
    (searchText regs p).bind fun reg =>
    if reg.map (·.1) = some .C then
      .ok (.ok ({ mode := .R .C, reg := some .C, val := Value.setUnsigned Cc.C.num }, (reg.map (·.2)).getD p))
    else
      (searchText ccs p).bind fun
      | some (cc, q) =>
        .ok (.ok ({ mode := if isCc4Name cc then .CC4 else .CC8, val := Value.setUnsigned cc.num }, q))
      | none =>
        match reg with
        | some (r, q) => .ok (.ok ({ mode := registerMode r, reg := some r }, q))
        | none =>
          match expect '(' p with
          | some q => parseParen plugins p q
          | none =>
            (parseInteger (plugins '\x00') p .OK).bind fun (val, err, q) =>
            if hasError err then .ok (.error (err, p))
            else .ok (.ok ({ err := err, mode := .IM16, val := val }, q))

/-- src/table_z80.cpp:400-431 `acceptMode` -/
def acceptMode (opr table : Mode) : Bool :=
  if opr = table then true
  else
    match opr with
    | .SR8 | .R .A => table == .DR8 || table == .SRC || table == .DST || table == .SR8
    | .I .HL => table == .SRC || table == .DST
    | .R .C => table == .SRC || table == .DST || table == .SR8 || table == .DR8 || table == .CC4 || table == .CC8
    | .R .BC | .R .DE => table == .R16 || table == .NOHL || table == .R16X || table == .STK
    | .R .HL => table == .R16 || table == .STK
    | .R .SP => table == .R16 || table == .NOHL || table == .R16X
    | .R .AF => table == .STK
    | .RIDX => table == .R16X
    | .IM16 => table == .IM8 || table == .REL || table == .BIT || table == .VEC || table == .IMMD
    | .ABS => table == .IOA
    | .CC4 => table == .CC8
    | _ => false

/-- src/table_z80.cpp:432-435 `acceptModes` -/
def acceptModes (d s : Mode) (r : Row) : Bool := acceptMode d (dst r) && acceptMode s (src r)

/-- src/table_z80.cpp:437-440 `searchName`: the prefix of the page, and the row. -/
def searchName (name : List Char) (d s : Mode) : Out (Except Err (Nat × Row)) :=
  match Table.searchName (fun r : Row => Table.strcasecmp name r.name) (fun _ r => acceptModes d s r) pages false with
  | some x => .ok x
  | none => .ub

/-- `AsmInsn`: the error, the code and the bytes of the operands, and the prefix. -/
structure Ins where
  asm : Asm
  pre : Nat
deriving DecidableEq

/-- src/insn_z80.h:47-52 `emitInsn`, lines 54-67: the bytes of the operands go to the places after the code. -/
def Ins.bytes (i : Ins) : List Nat := (if i.pre ≠ 0 then [i.pre % 256] else []) ++ i.asm.bytes

/-- src/asm_z80.cpp:70-72 `encodeIndexReg` -/
def indexPrefix (r : Option Reg) : Nat := if r = some .IX then 0xdd else 0xfd

/-- src/asm_z80.cpp:74-81 `encodeIndexedBitOp` -/
def encodeIndexedBitOp (op : Operand) (i : Ins) : Ins :=
  ⟨⟨i.asm.err, i.pre, i.asm.ops ++ [op.val.getUnsigned % 256, i.asm.opc]⟩, indexPrefix op.reg⟩

/-- `~0x38` of an `uint32_t` -/
def notVec : Nat := 0xffffffc7

/-- src/asm_z80.cpp:61-68,83-173 `encodeRelative`, `encodeOperand` -/
def encodeOperand (addr : Nat) (ixbit : Bool) (m : Mode) (op other : Operand) (i : Ins) : Out Ins :=
  let a := i.asm.setErrorIf op.err
  let v := op.val.getUnsigned
  let put := fun a => Out.ok { i with asm := a }
  match m with
  | .IM8 => put ((a.check op.val.overflowUint8 .OVERFLOW_RANGE).emit8 v)
  | .IOA => put ((a.check (op.val.overflow 255 0) .OVERFLOW_RANGE).emit8 v)
  | .IDX =>
    let a := a.check op.val.overflowInt8 .OVERFLOW_RANGE
    if ixbit then .ok (encodeIndexedBitOp op { i with asm := a })
    else .ok ⟨a.emit8 v, indexPrefix op.reg⟩
  | .RIDX | .IIDX => .ok ⟨a, indexPrefix op.reg⟩
  | .IM16 | .ABS => put (a.emit16le v)
  | .REL => (a.rel8 16 (addr + 2) (if op.err ≠ .OK then addr + 2 else v)).bind put
  | .CC4 | .CC8 => put (a.embed (v % 256 * 8))
  | .R16 | .NOHL => put (a.embed (regNum op.reg * 16))
  | .R16X => put (a.embed (encodePointerRegIx op.reg other.reg * 16))
  | .STK => put (a.embed (encodeStackReg op.reg * 16))
  | .PTR => put (a.embed (regNum op.reg * 16))
  | .SRC | .SR8 => put (a.embed (encodeDataReg op.reg))
  | .DST | .DR8 => put (a.embed (encodeDataReg op.reg * 8))
  | .R .R => put (a.embed 8)
  | .VEC =>
    if v &&& notVec ≠ 0 then put ((a.setErrorIf .ILLEGAL_OPERAND).embed (v &&& notVec))
    else put (a.embed v)
  | .BIT => put ((a.check (op.val.overflow 7 0) .ILLEGAL_BIT_NUMBER).embed (v % 8 * 8))
  | .IMMD =>
    if v = 0 then put a
    else if v = 1 then put (a.embed 16)
    else if v = 2 then put (a.embed 24)
    else put (a.setErrorIf .ILLEGAL_OPERAND)
  | _ => put a

/-- src/asm_z80.cpp:284-302 `encodeImpl` -/
def encodeImpl (plugins : Char → Plugins Value) (addr : Nat) (name : List Char) (scan : Scan) : Out Res :=
  (operandList (parseOperand plugins) 2 scan).bind fun
  | .error (e, scan) => .ok ⟨e, [], scan⟩
  | .ok (ops, scan) =>
    let d := (ops[0]?).getD {}
    let s := (ops[1]?).getD {}
    (searchName name d.mode s.mode).bind fun
    | .error e => .ok ⟨e, [], scan⟩
    | .ok (pre, row) =>
      (encodeOperand addr (indexBit row) (dst row) d s ⟨⟨.OK, row.opcode, []⟩, pre⟩).bind fun i =>
      (encodeOperand addr (indexBit row) (src row) s d i).bind fun i =>
      .ok ⟨i.asm.err, i.bytes, scan⟩

/-- Assembling one line: `Assembler::encode` of an `AsmZ80`. -/
def assemble (E : Env) (addr : Nat) (line : List Char) : Out Line :=
  encode syntaxOf 16 (encodeImpl (fun delim => lexer.plugins E delim addr) addr) addr line

end Libasm.Cpu.Z80
