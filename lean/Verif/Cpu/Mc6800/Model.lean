import Verif.Cpu.Model
import Verif.Tables.Data.Mc6800
/-
The assembler and the disassembler of the MC6800 family (MC6800, MB8861, MC6801, HD6301, MC68HC11):
src/asm_mc6800.cpp, src/dis_mc6800.cpp, src/table_mc6800.cpp, src/reg_mc6800.cpp,
src/insn_mc6800.h. The instruction tables are Verif/Tables/Data/Mc6800.lean, generated from
src/table_mc6800.cpp.
-/
namespace Libasm.Cpu.Mc6800
open Scan Number Eval
open Tables (Row)

/-- src/config_mc6800.h:25-31 `CpuType` -/
inductive CpuType | MC6800 | MB8861 | MC6801 | HD6301 | MC68HC11
deriving DecidableEq, Repr

/-- src/entry_mc6800.h:28-45 `AddrMode` -/
inductive Mode
  | NONE | DIR | EXT | IDX | REL | IM8 | IM16 | GN8 | GN16 | GMEM | BMM | BIT | IDY | UNDEF
deriving DecidableEq, Repr

/-- The name of an addressing mode in the table. -/
def modeOf : String → Mode
  | "M_DIR" => .DIR
  | "M_EXT" => .EXT
  | "M_IDX" => .IDX
  | "M_REL" => .REL
  | "M_IM8" => .IM8
  | "M_IM16" => .IM16
  | "M_GN8" => .GN8
  | "M_GN16" => .GN16
  | "M_GMEM" => .GMEM
  | "M_BMM" => .BMM
  | "M_BIT" => .BIT
  | "M_IDY" => .IDY
  | _ => .UNDEF

/-- src/entry_mc6800.h:47-77 `Flags` -/
structure Flags where
  mode1 : Mode
  mode2 : Mode := .NONE
  mode3 : Mode := .NONE
  undefined : Bool := false
deriving DecidableEq

/-- src/table_mc6800.cpp:27-33: the flags of a row. -/
def flags (r : Row) : Flags :=
  match r.operands with
  | ["E0"] => ⟨.NONE, .NONE, .NONE, false⟩
  | ["E1", a] => ⟨modeOf a, .NONE, .NONE, false⟩
  | ["E2", a, b] => ⟨modeOf a, modeOf b, .NONE, false⟩
  | ["E3", a, b, c] => ⟨modeOf a, modeOf b, modeOf c, false⟩
  | ["U1", a] => ⟨modeOf a, .NONE, .NONE, true⟩
  | _ => ⟨.UNDEF, .UNDEF, .UNDEF, false⟩

/-- src/table_mc6800.cpp:567-608 `cpu`: the pages of the processor. -/
def pages : CpuType → List (Table.Page Row)
  | .MC6800 => Tables.Mc6800.MC6800_PAGES
  | .MB8861 => Tables.Mc6800.MB8861_PAGES
  | .MC6801 => Tables.Mc6800.MC6801_PAGES
  | .HD6301 => Tables.Mc6800.HD6301_PAGES
  | .MC68HC11 => Tables.Mc6800.MC68HC11_PAGES

/-! ### Disassembler -/

/-- src/table_mc6800.cpp:653-665 `matchOpCode` -/
def matchOpCode (opc : Nat) (r : Row) : Bool :=
  let f := flags r
  if f.mode1 = .GMEM ∨ f.mode2 = .GMEM then
    (if opc / 16 = 6 ∨ opc / 16 = 7 then opc / 32 * 32 + opc % 16 else opc) == r.opcode
  else if f.mode1 = .GN8 ∨ f.mode1 = .GN16 then opc / 64 * 64 + opc % 16 == r.opcode
  else opc == r.opcode

/-- src/table_mc6800.cpp:693-695, src/entry_table.h:112-122 `isPrefix` -/
def isPrefix (cpu : CpuType) (code : Nat) : Bool :=
  (pages cpu).any fun p => p.prefix_ != 0 && p.prefix_ == code

/-- src/table_mc6800.cpp:667-675 `searchOpCodeImpl`: the page and the row; none for an unknown or an
undefined instruction. -/
def searchOpCodeImpl (cpu : CpuType) (pre opc : Nat) : Option (Table.Page Row × Row) :=
  match Table.searchOpCode (fun _ r => matchOpCode opc r) (fun p => pre == p.prefix_) (pages cpu) with
  | some (p, r) => if (flags r).undefined then none else some (p, r)
  | none => none

/-- src/table_mc6800.cpp:677-680 `searchOpCode` -/
def searchOpCode (cpu : CpuType) (pre opc : Nat) : Option Row :=
  (searchOpCodeImpl cpu pre opc).map (·.2)

/-- src/table_mc6800.cpp:682-691 `searchOpCodeAlias`: the row after the one found, if it has the same
code. Simplified: that there is a row after it at all is not checked by the code; it is `none`
here, as is INTERNAL_ERROR (`alias_some` shows that neither happens). -/
def searchOpCodeAlias (cpu : CpuType) (pre opc : Nat) : Option Row :=
  match searchOpCodeImpl cpu pre opc with
  | none => none
  | some (p, r) =>
    match p.entries.dropWhile (fun e => decide (e ≠ r)) with
    | _ :: a :: _ => if a.opcode = opc then some a else none
    | _ => none

/-- src/dis_mc6800.cpp:68-74 `bitNumber`, -1 as none. -/
def bitNumber (val : Nat) : Option Nat := (List.range 8).find? fun pos => val == 2 ^ pos

/-- `~val8` as a byte. -/
def not8 (val : Nat) : Nat := 255 - val

/-- src/dis_mc6800.cpp:36-44 `decodeDirectPage`, without symbols -/
def decodeDirectPage (o : Opts) (r : Rd) : List Char × Rd :=
  (outAbsAddr .motorola o 8 r.byte.1, r.byte.2)

/-- src/dis_mc6800.cpp:46-56 `decodeExtended`, without symbols -/
def decodeExtended (o : Opts) (r : Rd) : List Char × Rd :=
  ((if r.be16.1 < 0x100 then ['>'] else []) ++ outAbsAddr .motorola o 16 r.be16.1, r.be16.2)

/-- src/dis_mc6800.cpp:105-109: `outDec`, a comma and the index register. -/
def decodeIndexed (o : Opts) (reg : Char) (r : Rd) : List Char × Rd :=
  (outDec .motorola o r.byte.1 8 ++ [letter o.upper ',', letter o.upper reg], r.byte.2)

/-- `static_cast<int8_t>` -/
def int8 (b : Nat) : Int := if b < 128 then b else (b : Int) - 256

/-- src/dis_mc6800.cpp:58-64 `decodeRelative`, 32 bit arithmetic -/
def decodeRelative (o : Opts) (addr : Nat) (r : Rd) : List Char × Rd :=
  let (b, r) := r.byte
  let base := addr + r.bytes.length
  let target := (((base : Int) + int8 b) % Config.W).toNat
  let r := r.setErrorIf (Config.checkAddr 16 target false)
  (outRelAddr .motorola o 16 target addr 8, r)

/-- src/dis_mc6800.cpp:121-136: the immediate operands. -/
def decodeImmediate8 (o : Opts) (r : Rd) : List Char × Rd :=
  ('#' :: outHex .motorola o r.byte.1 8 true, r.byte.2)
def decodeImmediate16 (o : Opts) (r : Rd) : List Char × Rd :=
  ('#' :: outHex .motorola o r.be16.1 16 true, r.be16.2)

/-- src/dis_mc6800.cpp:78-88 `decodeBitNumber`: also the row the name comes from, which is that of the
alias for a single bit. -/
def decodeBitNumber (o : Opts) (cpu : CpuType) (pre opc : Nat) (row : Row) (r : Rd) :
    List Char × Rd × Row :=
  let (val8, r) := r.byte
  match bitNumber (if opc % 16 = 1 then not8 val8 else val8) with
  | some n =>
    match searchOpCodeAlias cpu pre opc with
    | some a => (outHex .motorola o n 3 true, { r with err := Err.OK }, a)
    | none => (outHex .motorola o n 3 true, { r with err := Err.INTERNAL_ERROR }, row)
  | none => ('#' :: outHex .motorola o val8 8 true, r, row)

/-- The generic modes of src/dis_mc6800.cpp:90-142 `decodeOperand`: which of the others the code
selects. -/
def select (opc : Nat) : Mode → Mode
  | .GN8 => match opc / 16 % 4 with | 1 => .DIR | 2 => .IDX | 3 => .EXT | _ => .IM8
  | .GN16 => match opc / 16 % 4 with | 1 => .DIR | 2 => .IDX | 3 => .EXT | _ => .IM16
  | .GMEM => if opc / 16 = 6 then .IDX else .EXT
  | m => m

/-- src/dis_mc6800.cpp:90-142 `decodeOperand` -/
def decodeOperand (o : Opts) (cpu : CpuType) (addr pre opc : Nat) (row : Row) (m : Mode) (r : Rd) :
    List Char × Rd × Row :=
  let same := fun (x : List Char × Rd) => (x.1, x.2, row)
  match select opc m with
  | .DIR => same (decodeDirectPage o r)
  | .EXT => same (decodeExtended o r)
  | .IDX => same (decodeIndexed o 'X' r)
  | .IDY => same (decodeIndexed o 'Y' r)
  | .REL => same (decodeRelative o addr r)
  | .IM8 => same (decodeImmediate8 o r)
  | .IM16 => same (decodeImmediate16 o r)
  | .BMM => decodeBitNumber o cpu pre opc row r
  | _ => ([], r, row)

/-- src/dis_mc6800.cpp:154-165: the instruction of the prefix and code read so far. -/
def decodeInsn (o : Opts) (cpu : CpuType) (addr pre opc : Nat) (r : Rd) : Dis :=
  match searchOpCode cpu pre opc with
  | none => ⟨.UNKNOWN_INSTRUCTION, [], [], r.bytes⟩
  | some row =>
    let r := { r with err := Err.OK }
    let (t, r, row) := decodeOperand o cpu addr pre opc row (flags row).mode1 r
    if (flags row).mode2 = .NONE then ⟨r.err, outText o row.name, t, r.bytes⟩
    else
      let (u, r, row) := decodeOperand o cpu addr pre opc row (flags row).mode2 r
      if (flags row).mode3 = .NONE then ⟨r.err, outText o row.name, t ++ [',', ' '] ++ u, r.bytes⟩
      else
        let (w, r, row) := decodeOperand o cpu addr pre opc row (flags row).mode3 r
        ⟨r.err, outText o row.name, t ++ [',', ' '] ++ u ++ [',', ' '] ++ w, r.bytes⟩

/-- src/dis_mc6800.cpp:144-166 `decodeImpl` -/
def decodeImpl (o : Opts) (cpu : CpuType) (addr : Nat) (mem : List Nat) : Dis :=
  let (opc, r) := (⟨mem, [], .OK⟩ : Rd).byte
  if isPrefix cpu opc then
    let (opc', r) := r.byte
    if r.err ≠ .OK then ⟨r.err, [], [], r.bytes⟩ else decodeInsn o cpu addr opc opc' r
  else decodeInsn o cpu addr 0 opc r

/-- Disassembling one instruction: `Disassembler::decode` of a `DisMc6800`. -/
def disassemble (o : Opts) (cpu : CpuType) (addr : Nat) (mem : List Nat) : Dis :=
  decode 16 (decodeImpl o cpu) addr mem

/-! ### Assembler -/

/-- `MotorolaSymbolParser::symbolLetter`, src/symbol_parser.h:82-88 -/
def symbol : Bool → Char → Bool := prefixSymbol (some ['.']) (some ['_', '.', '$'])

/-- `MotorolaSymbolParser`, `StarCommentParser`: src/symbol_parser.h:82-88, src/parsers.cpp:571-573;
the table of src/asm_mc6800.cpp:33-38. -/
def syntaxOf : Syntax where
  instructionLetter c := symbol false c
  instructionTerminator _ := false
  commentLine s := deref s == '*' || deref s == ';'
  special := []
  pseudos := [['F', 'C', 'B'], ['F', 'C', 'C'], ['F', 'D', 'B'], ['R', 'M', 'B']]

/-- src/parsers.cpp:438-449 `MotorolaLetterParser::parseLetter` -/
def motorolaLetter (s : Scan) : Err × Nat × Scan :=
  match expect '\'' s with
  | none => (.NOT_AN_EXPECTED, 0, s)
  | some [] => (.ILLEGAL_CONSTANT, 0, s)
  | some (c :: p) => if c = '\x00' then (.ILLEGAL_CONSTANT, 0, s) else (.OK, c.toNat, (expect '\'' p).getD p)

/-- src/parsers.cpp:575-579 `StarCommentParser::endOfLine`, at a text without leading spaces -/
def starEnd (s : Scan) : Bool := deref s == '\x00' || deref s == ' ' || deref s == ';'

/-- src/asm_mc6800.cpp:44-46, src/value_parser.cpp:75-98: the Motorola plugins; the functions are part
of the environment. -/
def lexer : Lexer where
  number := .motorola
  operators := .motorola
  letter := motorolaLetter
  location := locationSymbol symbol '*'
  symbolLetter := symbol
  functionLetter := symbol false
  endOfLine := starEnd

/-- src/insn_mc6800.h:34-39 `Operand`; `size` is used inside `parseOperand` only. -/
structure Operand where
  err : Err := .OK
  mode : Mode := .NONE
  val : Value := Value.undefined
deriving DecidableEq

/-- src/reg_mc6800.cpp:29-35 `parseRegName`: the addressing mode it makes, and the text after it. -/
def parseRegName (s : Scan) : Option (Mode × Scan) :=
  match Table.iexpectWord s ['X'] with
  | some p => some (.IDX, p)
  | none =>
    match Table.iexpectWord s ['Y'] with
    | some p => some (.IDY, p)
    | none => none

/-- src/asm_mc6800.cpp:90-100: the mode of an address; `size` is 0 without a prefix. -/
def addressMode (size : Nat) (v : Value) : Mode :=
  if size = 0 then
    if v.overflowUint8 then .EXT else if v.overflow 7 0 then .DIR else .BIT
  else if size = 8 then .DIR
  else .EXT

/-- src/asm_mc6800.cpp:71-76: the size prefix, and the text after it. -/
def sizePrefix (p : Scan) : Nat × Scan :=
  match expect '<' p with
  | some q => (8, q)
  | none =>
    match expect '>' p with
    | some q => (16, q)
    | none => (0, p)

/-- src/asm_mc6800.cpp:81-89: a comma and an index register. -/
def indexReg (p : Scan) : Option (Mode × Scan) :=
  match expect ',' (skipSpaces p) with
  | some a => parseRegName (skipSpaces a)
  | none => none

/-- src/asm_mc6800.cpp:53-103 `parseOperand`; after an error the text is left where the operand starts. -/
def parseOperand (P : Plugins Value) (scan : Scan) : Out (Operand × Scan) :=
  let scan := skipSpaces scan
  let p := scan
  if deref p = ',' then .ok ({}, p)
  else
    match expect '#' p with
    | some p =>
      (parseInteger P p .OK).bind fun (val, err, p) =>
      if hasError err then .ok ({ err := err, val := val }, scan)
      else .ok ({ err := err, mode := .IM16, val := val }, p)
    | none =>
      let (size, p) := sizePrefix p
      (parseInteger P p .OK).bind fun (val, err, p) =>
      if hasError err then .ok ({ err := err, val := val }, scan)
      else
        match indexReg p with
        | some (m, a) => .ok ({ err := err, mode := m, val := val }, a)
        | none => .ok ({ err := err, mode := addressMode size val, val := val }, p)

/-- src/table_mc6800.cpp:614-617 `hasOperand` -/
def hasOperand (cpu : CpuType) (name : List Char) : Out Bool :=
  match Table.searchName (fun r : Row => Table.strcasecmp name r.name) (fun _ _ => true)
      (pages cpu) false with
  | some (.ok (_, r)) => .ok (decide ((flags r).mode1 ≠ .NONE))
  | some (.error _) => .ok false
  | none => .ub

/-- src/table_mc6800.cpp:619-635 `acceptMode` -/
def acceptMode (opr table : Mode) : Bool :=
  if opr = table then true
  else if table = .GN8 ∨ table = .GN16 then
    opr == .EXT || opr == .DIR || opr == .BIT || opr == .IM16 || opr == .IDX
  else if table = .GMEM then opr == .EXT || opr == .DIR || opr == .BIT || opr == .IDX
  else
    match opr with
    | .EXT => table == .REL
    | .DIR => table == .REL || table == .EXT
    | .BIT => table == .REL || table == .EXT || table == .DIR
    | .IM16 => table == .IM8 || table == .BMM
    | _ => false

/-- src/table_mc6800.cpp:637-651 `searchName`, `acceptModes`: the prefix and the row. -/
def searchName (cpu : CpuType) (name : List Char) (m1 m2 m3 : Mode) : Out (Except Err (Nat × Row)) :=
  match Table.searchName (fun r : Row => Table.strcasecmp name r.name)
      (fun _ r => acceptMode m1 (flags r).mode1 && acceptMode m2 (flags r).mode2 &&
        acceptMode m3 (flags r).mode3) (pages cpu) false with
  | some (.ok (pre, r)) =>
    if (flags r).undefined then .ok (.error .OPERAND_NOT_ALLOWED) else .ok (.ok (pre, r))
  | some (.error e) => .ok (.error e)
  | none => .ub

/-- `AsmInsn`: error, prefix, code, and the bytes emitted for the operands. They go to the buffer
before the prefix and the code do, to the places after those (src/insn_mc6800.h:41-62). -/
structure Asm where
  err : Err
  pre : Nat
  opc : Nat
  ops : List Nat
deriving DecidableEq

/-- `insn.setErrorIf(op, e)`. -/
def Asm.setErrorIf (a : Asm) (e : Err) : Asm := { a with err := Config.setErrorIf a.err e }
/-- `insn.embed(x)` of an 8 bit code. -/
def Asm.embed (a : Asm) (x : Nat) : Asm := { a with opc := (a.opc ||| x) % 256 }
/-- src/insn_mc6800.h:52 `emitOperand8` -/
def Asm.emit8 (a : Asm) (x : Nat) : Asm := { a with ops := a.ops ++ [x % 256] }
/-- src/insn_mc6800.h:53 `emitOperand16`, most significant byte first -/
def Asm.emit16 (a : Asm) (x : Nat) : Asm := { a with ops := a.ops ++ [x / 256 % 256, x % 256] }
/-- src/insn_mc6800.h:46-51 `emitInsn`: all the bytes. -/
def Asm.bytes (a : Asm) : List Nat :=
  (if a.pre ≠ 0 then [a.pre % 256] else []) ++ [a.opc % 256] ++ a.ops
/-- `insn.length()` while the operands are emitted. -/
def Asm.length (a : Asm) : Nat :=
  if a.ops = [] then 0 else (if a.pre ≠ 0 then 2 else 1) + a.ops.length

/-- src/asm_mc6800.cpp:105-112 `emitRelative` -/
def emitRelative (addr : Nat) (op : Operand) (a : Asm) : Out Asm :=
  let base := (addr + (if a.length = 0 then 2 else a.length + 1)) % Config.W
  let target := if op.err ≠ .OK then base else op.val.getUnsigned
  (ofOption (Config.branchDelta 16 base target a.err)).bind fun (delta, err) =>
  (ofOption (Config.overflowDelta delta 8)).bind fun far =>
  let a := { a with err := err }
  let a := if far then a.setErrorIf .OPERAND_TOO_FAR else a
  .ok (a.emit8 (delta % 256).toNat)

/-- src/asm_mc6800.cpp:114-122 `emitImmediate` -/
def emitImmediate (m : Mode) (op : Operand) (a : Asm) : Asm :=
  if m = .GN16 ∨ m = .IM16 then a.emit16 op.val.getUnsigned
  else (if op.val.overflowUint8 then a.setErrorIf .OVERFLOW_RANGE else a).emit8 op.val.getUnsigned

/-- src/asm_mc6800.cpp:124-128 `emitBitNumber` -/
def emitBitNumber (op : Operand) (a : Asm) : Asm :=
  let imm := 2 ^ (op.val.getUnsigned % 8)
  a.emit8 (if a.opc % 16 = 1 then not8 imm else imm)

/-- A byte operand with its check, src/asm_mc6800.cpp:140-141,153-154,164-165. -/
def emitByte (op : Operand) (a : Asm) : Asm :=
  if op.val.overflow 255 0 then a.setErrorIf .OVERFLOW_RANGE else a

/-- src/asm_mc6800.cpp:130-185 `emitOperand` -/
def emitOperand (addr : Nat) (m : Mode) (op : Operand) (a : Asm) : Out Asm :=
  let a := a.setErrorIf op.err
  let val16 := op.val.getUnsigned
  match m with
  | .GN8 | .GN16 =>
    if op.mode = .DIR ∨ op.mode = .BIT then .ok ((a.embed 0x10).emit8 val16)
    else if op.mode = .IDX ∨ op.mode = .IDY then .ok (((emitByte op a).embed 0x20).emit8 val16)
    else if op.mode = .EXT then .ok ((a.embed 0x30).emit16 val16)
    else .ok (emitImmediate m op a)
  | .GMEM =>
    if op.mode = .IDX then .ok ((emitByte op a).emit8 val16)
    else .ok ((a.embed 0x70).emit16 val16)
  | .DIR | .IDX | .IDY => .ok ((emitByte op a).emit8 val16)
  | .EXT => .ok (a.emit16 val16)
  | .REL => emitRelative addr op a
  | .IM8 | .IM16 | .BMM => .ok (emitImmediate m op a)
  | .BIT => .ok (emitBitNumber op a)
  | .NONE | .UNDEF => .ok a

/-- src/asm_mc6800.cpp:203-210: after the operands are read. -/
def encodeInsn (cpu : CpuType) (addr : Nat) (name : List Char) (op1 op2 op3 : Operand)
    (scan : Scan) : Out Res :=
  (searchName cpu name op1.mode op2.mode op3.mode).bind fun
  | .error e => .ok ⟨e, [], scan⟩
  | .ok (pre, row) =>
    (emitOperand addr (flags row).mode1 op1 ⟨.OK, pre, row.opcode, []⟩).bind fun a =>
    (emitOperand addr (flags row).mode2 op2 a).bind fun a =>
    (emitOperand addr (flags row).mode3 op3 a).bind fun a =>
    .ok ⟨a.err, a.bytes, scan⟩

/-- src/asm_mc6800.cpp:192-199: a comma and one more operand, if there is a comma. -/
def parseNext (P : Plugins Value) (scan : Scan) : Out (Operand × Scan) :=
  match expect ',' (skipSpaces scan) with
  | some scan => parseOperand P scan
  | none => .ok ({}, skipSpaces scan)

/-- src/asm_mc6800.cpp:187-211 `encodeImpl` -/
def encodeImpl (P : Plugins Value) (cpu : CpuType) (addr : Nat) (name : List Char) (scan : Scan) :
    Out Res :=
  (hasOperand cpu name).bind fun has =>
  if has then
    (parseOperand P scan).bind fun (op1, scan) =>
    if hasError op1.err then .ok ⟨op1.err, [], scan⟩
    else
      (parseNext P scan).bind fun (op2, scan) =>
      if hasError op2.err then .ok ⟨op2.err, [], scan⟩
      else
        (parseNext P scan).bind fun (op3, scan) =>
        if hasError op3.err then .ok ⟨op3.err, [], scan⟩
        else encodeInsn cpu addr name op1 op2 op3 (skipSpaces scan)
  else encodeInsn cpu addr name {} {} {} (skipSpaces scan)

/-- Assembling one line: `Assembler::encode` of an `AsmMc6800`. -/
def assemble (E : Env) (cpu : CpuType) (addr : Nat) (line : List Char) : Out Line :=
  encode syntaxOf 16 (encodeImpl (lexer.plugins E '\x00' addr) cpu addr) addr line

end Libasm.Cpu.Mc6800
