import Verif.Cpu.ListModel
import Verif.Cpu.Mc6800.Model
import Verif.Tables.Data.Mc6805
/-
The assembler and the disassembler of the MC6805 family (MC6805, MC146805, MC68HC05): src/asm_mc6805.cpp,
src/dis_mc6805.cpp, src/table_mc6805.cpp, src/reg_mc6805.cpp, src/insn_mc6805.h. The instruction tables are
Verif/Tables/Data/Mc6805.lean, generated from src/table_mc6805.cpp.
-/
namespace Libasm.Cpu.Mc6805
open Scan Number Eval
open Tables (Row)

/-- src/config_mc6805.h:25-29 `CpuType` -/
inductive CpuType | MC6805 | MC146805 | MC68HC05
deriving DecidableEq, Repr

/-- src/entry_mc6805.h:28-40 `AddrMode`; the code has no UNDEF. -/
inductive Mode
  | NONE | DIR | EXT | IDX | REL | IMM | IX0 | IX2 | BNO | GEN | MEM | UNDEF
deriving DecidableEq, Repr

/-- The name of an addressing mode in the table. -/
def modeOf : String → Mode
  | "M_DIR" => .DIR
  | "M_EXT" => .EXT
  | "M_IDX" => .IDX
  | "M_REL" => .REL
  | "M_IMM" => .IMM
  | "M_IX0" => .IX0
  | "M_IX2" => .IX2
  | "M_BNO" => .BNO
  | "M_GEN" => .GEN
  | "M_MEM" => .MEM
  | _ => .UNDEF

/-- src/table_mc6805.cpp:27-33, src/entry_mc6805.h:42-76 `Flags`: the modes of a row, without the M_NONE after
them. -/
def modes (r : Row) : List Mode :=
  match r.operands with
  | ["E0"] => []
  | ["E1", a] => [modeOf a]
  | ["U1", a] => [modeOf a]
  | ["E2", a, b] => [modeOf a, modeOf b]
  | ["E3", a, b, c] => [modeOf a, modeOf b, modeOf c]
  | _ => [.UNDEF]

/-- src/entry_mc6805.h:62 `undefined` -/
def undefined (r : Row) : Bool := r.operands.head? == some "U1"

/-- `mode1()` -/
def mode1 (r : Row) : Mode := (modes r).getD 0 .NONE

/-- src/table_mc6805.cpp:240-268 `cpu`: the pages of the processor. -/
def pages : CpuType → List (Table.Page Row)
  | .MC6805 => Tables.Mc6805.MC6805_PAGES
  | .MC146805 => Tables.Mc6805.MC146805_PAGES
  | .MC68HC05 => Tables.Mc6805.MC68HC05_PAGES

/-- src/asm_mc6805.cpp:62-64, src/dis_mc6805.cpp:45-47 `addressWidth`, of the option `pc-bits` -/
def addressWidth (pcBits : Nat) : Nat := if pcBits = 0 then 13 else pcBits

/-! ### Disassembler -/

/-- src/table_mc6805.cpp:312-326 `matchOpCode` -/
def matchOpCode (opc : Nat) (r : Row) : Bool :=
  (match mode1 r with
    | .MEM => if opc / 16 = 3 ∨ opc / 16 = 6 ∨ opc / 16 = 7 then 0x30 + opc % 16 else opc
    | .GEN => if 0xA ≤ opc / 16 then 0xA0 + opc % 16 else opc
    | .BNO => opc / 16 * 16 + opc % 2
    | _ => opc) == r.opcode

/-- src/table_mc6805.cpp:328-335 `searchOpCode`: none for an unknown or an undefined instruction. -/
def searchOpCode (cpu : CpuType) (opc : Nat) : Option Row :=
  match Table.searchOpCode (fun _ r => matchOpCode opc r) (fun p => p.prefix_ == 0) (pages cpu) with
  | some (_, r) => if undefined r then none else some r
  | none => none

/-- src/dis_mc6805.cpp:62-70 `decodeDirectPage`, without symbols -/
def decodeDirectPage (o : Opts) (r : Rd) : List Char × Rd :=
  (outAbsAddr .motorola o 8 r.byte.1, r.byte.2)

/-- src/dis_mc6805.cpp:72-83 `decodeExtended`, without symbols; `w` is the address width. -/
def decodeExtended (o : Opts) (w : Nat) (r : Rd) : List Char × Rd :=
  let (addr, r) := r.be16
  let r := r.setErrorIf (Config.checkAddr w addr false)
  ((if addr < 0x100 then ['>'] else []) ++ outAbsAddr .motorola o (if r.err = .OK then w else 16) addr, r)

/-- A comma and the index register. -/
def indexX (o : Opts) : List Char := [',', letter o.upper 'X']

/-- src/dis_mc6805.cpp:85-101 `decodeIndexed` of M_IX2 -/
def decodeIndexed16 (o : Opts) (r : Rd) : List Char × Rd :=
  ((if r.be16.1 < 0x100 then ['>'] else []) ++ outAbsAddr .motorola o 16 r.be16.1 ++ indexX o, r.be16.2)

/-- src/dis_mc6805.cpp:85-101 `decodeIndexed` of M_IDX -/
def decodeIndexed8 (o : Opts) (r : Rd) : List Char × Rd :=
  ((if r.byte.1 = 0 then ['<'] else []) ++ outDec .motorola o r.byte.1 8 ++ indexX o, r.byte.2)

/-- src/dis_mc6805.cpp:103-109 `decodeRelative`, 32 bit arithmetic -/
def decodeRelative (o : Opts) (w addr : Nat) (r : Rd) : List Char × Rd :=
  let (b, r) := r.byte
  let target := (((addr + r.bytes.length : Nat) : Int) + int8 b) % Config.W
  let r := r.setErrorIf (Config.checkAddr w target.toNat false)
  (outRelAddr .motorola o w target.toNat addr 8, r)

/-- src/dis_mc6805.cpp:112-137: which of the others the code selects for a generic mode. -/
def select (opc : Nat) : Mode → Mode
  | .GEN | .MEM =>
    match opc / 16 with
    | 0xA => .IMM
    | 0x3 | 0xB => .DIR
    | 0xC => .EXT
    | 0xD => .IX2
    | 0x6 | 0xE => .IDX
    | _ => .IX0
  | m => m

/-- src/dis_mc6805.cpp:111-162 `decodeOperand` -/
def decodeOperand (o : Opts) (w addr opc : Nat) (m : Mode) (r : Rd) : List Char × Rd :=
  match select opc m with
  | .DIR => decodeDirectPage o r
  | .EXT => decodeExtended o w r
  | .IX0 => (indexX o, r)
  | .IX2 => decodeIndexed16 o r
  | .IDX => decodeIndexed8 o r
  | .REL => decodeRelative o w addr r
  | .IMM => ('#' :: outHex .motorola o r.byte.1 8 true, r.byte.2)
  | .BNO => (outHex .motorola o (opc / 2 % 8) 3 true, r)
  | _ => ([], r)

/-- src/dis_mc6805.cpp:164-179 `decodeImpl`. When an entry is found the error is reset
(src/entry_table.h:214), also that of a missing first byte. -/
def decodeImpl (o : Opts) (cpu : CpuType) (w addr : Nat) (mem : List Nat) : Dis :=
  let (opc, r) := (⟨mem, [], .OK⟩ : Rd).byte
  match searchOpCode cpu opc with
  | none => ⟨.UNKNOWN_INSTRUCTION, [], [], r.bytes⟩
  | some row =>
    let (t, r) := decodeList (decodeOperand o w addr opc) (modes row) { r with err := Err.OK }
    ⟨r.err, outText o row.name, t, r.bytes⟩

/-- Disassembling one instruction: `Disassembler::decode` of a `DisMc6805` with the option `pc-bits`. -/
def disassemble (o : Opts) (cpu : CpuType) (pcBits addr : Nat) (mem : List Nat) : Dis :=
  decode (addressWidth pcBits) (decodeImpl o cpu (addressWidth pcBits)) addr mem

/-! ### Assembler -/

/-- The Motorola symbol and comment parsers; the table of src/asm_mc6805.cpp:37-42, which is that of the
MC6800. -/
abbrev syntaxOf : Syntax := Mc6800.syntaxOf

/-- src/asm_mc6805.cpp:48-50: the notation of Motorola. -/
abbrev lexer : Lexer := Mc6800.lexer

/-- src/insn_mc6805.h:34-39 `Operand`; `size` is used inside `parseOperand` only. -/
structure Operand where
  err : Err := .OK
  mode : Mode := .NONE
  val : Value := Value.undefined
deriving DecidableEq

/-- src/reg_mc6805.cpp:27-34 `parseRegName`: the text after the X. -/
def parseRegName (s : Scan) : Option Scan := Table.iexpectWord s ['X']

/-- src/asm_mc6805.cpp:111-122: the mode of an address with an index; `size` is 0 without a prefix. -/
def indexMode (size : Nat) (v : Value) : Mode :=
  if size = 8 then .IDX
  else if size = 16 then .IX2
  else if v.isZero then .IX0
  else if v.overflow 255 0 then .IX2
  else .IDX

/-- src/asm_mc6805.cpp:124-134: the mode of an address. -/
def addressMode (size : Nat) (v : Value) : Mode :=
  if size = 0 then
    if v.overflow 255 0 then .EXT else if v.overflow 7 0 then .DIR else .BNO
  else if size = 8 then .DIR
  else .EXT

/-- src/asm_mc6805.cpp:109-110: a comma and the index register. -/
def indexReg (p : Scan) : Option Scan :=
  match expect ',' (skipSpaces p) with
  | some a => parseRegName (skipSpaces a)
  | none => none

/-- src/asm_mc6805.cpp:98-137: an address, with its size. -/
def parseAddress (P : Plugins Value) (start : Scan) (size : Nat) (p : Scan) :
    Out (Except (Err × Scan) (Operand × Scan)) :=
  (parseInteger P p .OK).bind fun (val, err, p) =>
  if hasError err then .ok (.error (err, start))
  else
    match indexReg p with
    | some a => .ok (.ok ({ err := err, mode := indexMode size val, val := val }, a))
    | none => .ok (.ok ({ err := err, mode := addressMode size val, val := val }, p))

/-- src/asm_mc6805.cpp:75-138 `parseOperand`; after an error the text is left where the operand starts. -/
def parseOperand (P : Plugins Value) (scan : Scan) : Out (Except (Err × Scan) (Operand × Scan)) :=
  let start := skipSpaces scan
  match expect '#' start with
  | some p =>
    (parseInteger P p .OK).bind fun (val, err, p) =>
    if hasError err then .ok (.error (err, start))
    else .ok (.ok ({ err := err, mode := .IMM, val := val }, p))
  | none =>
    match expect ',' start with
    | some p =>
      match parseRegName p with
      | some p => .ok (.ok ({ mode := .IX0 }, p))
      | none => .ok (.error (.UNKNOWN_OPERAND, start))
    | none => parseAddress P start (Mc6800.sizePrefix start).1 (Mc6800.sizePrefix start).2

/-- src/table_mc6805.cpp:279-294 `acceptMode` -/
def acceptMode (opr table : Mode) : Bool :=
  if opr = table then true
  else if table = .GEN then
    opr == .BNO || opr == .IMM || opr == .DIR || opr == .EXT || opr == .IDX || opr == .IX0 || opr == .IX2
  else if table = .MEM then opr == .BNO || opr == .DIR || opr == .IDX || opr == .IX0
  else
    match opr with
    | .EXT => table == .REL
    | .DIR => table == .REL || table == .EXT
    | .BNO => table == .REL || table == .DIR || table == .EXT
    | _ => false

/-- src/table_mc6805.cpp:296-305 `acceptModes` of the modes of three operands -/
def acceptModes (ops : List Mode) (r : Row) : Bool :=
  (ops.zip (pad 3 .NONE (modes r))).all fun p => acceptMode p.1 p.2

/-- src/table_mc6805.cpp:307-310 `searchName`, `acceptModes` -/
def searchName (cpu : CpuType) (name : List Char) (ops : List Mode) : Out (Except Err Row) :=
  match Table.searchName (fun r : Row => Table.strcasecmp name r.name) (fun _ r => acceptModes ops r)
      (pages cpu) false with
  | some (.ok (_, r)) => if undefined r then .ok (.error .OPERAND_NOT_ALLOWED) else .ok (.ok r)
  | some (.error e) => .ok (.error e)
  | none => .ub

/-- src/table_mc6805.cpp:274-277 `hasOperand` -/
def hasOperand (cpu : CpuType) (name : List Char) : Out Bool :=
  match Table.searchName (fun r : Row => Table.strcasecmp name r.name) (fun _ _ => true) (pages cpu) false with
  | some (.ok (_, r)) => .ok (decide (mode1 r ≠ .NONE))
  | some (.error _) => .ok false
  | none => .ub

/-- src/asm_mc6805.cpp:140-147 `emitRelative` -/
def emitRelative (w addr : Nat) (op : Operand) (a : Asm) : Out Asm :=
  let base := (addr + a.length + (if a.length = 0 then 2 else 1)) % Config.W
  a.rel8 w base (if op.err ≠ .OK then base else op.val.getUnsigned)

/-- src/asm_mc6805.cpp:155-195,248-249: the code and the mode for an operand of the mode `om` and the number
`v`, in the place of the mode `m` of the table. The number of a bit is put into the code before the first
operand is emitted; here it is with that operand, as the mode is only ever the first of a row
(`bits_first`). -/
def place (m om : Mode) (v opc : Nat) : Nat × Mode :=
  match m with
  | .GEN =>
    match om with
    | .IMM => (opc % 16 ||| 0xA0, .IMM)
    | .DIR | .BNO => (opc % 16 ||| 0xB0, .DIR)
    | .EXT => (opc % 16 ||| 0xC0, .EXT)
    | .IX2 => (opc % 16 ||| 0xD0, .IX2)
    | .IDX => (opc % 16 ||| 0xE0, .IDX)
    | _ => (opc % 16 ||| 0xF0, .IX0)
  | .MEM =>
    match om with
    | .DIR | .BNO => (opc % 16 ||| 0x30, .DIR)
    | .IDX => (opc % 16 ||| 0x60, .IDX)
    | _ => (opc % 16 ||| 0x70, .IX0)
  | .BNO => ((opc ||| v % 8 * 2) % 256, .BNO)
  | m => (opc, m)

/-- src/asm_mc6805.cpp:196-226: the modes that are not generic -/
def emitMode (w addr : Nat) (m : Mode) (op : Operand) (a : Asm) : Out Asm :=
  let v := op.val.getUnsigned
  match m with
  | .DIR | .IDX => .ok ((a.check (op.val.overflow 255 0) .OVERFLOW_RANGE).emit8 v)
  | .IX2 => .ok (a.emit16be v)
  | .EXT => .ok ((a.check (decide (Config.checkAddr w v false ≠ .OK)) .OVERFLOW_RANGE).emit16be v)
  | .REL => emitRelative w addr op a
  | .IMM => .ok ((a.check op.val.overflowUint8 .OVERFLOW_RANGE).emit8 v)
  | _ => .ok a

/-- src/asm_mc6805.cpp:155-227 `emitOperand` -/
def encodeOperand (w addr : Nat) (m : Mode) (op : Operand) (a : Asm) : Out Asm :=
  let a := a.setErrorIf op.err
  let p := place m op.mode op.val.getUnsigned a.opc
  emitMode w addr p.2 op { a with opc := p.1 }

/-- src/asm_mc6805.cpp:229-255 `encodeImpl` -/
def encodeImpl (P : Plugins Value) (cpu : CpuType) (w addr : Nat) (name : List Char) (scan : Scan) : Out Res :=
  (hasOperand cpu name).bind fun has =>
  (if has then operandList (parseOperand P) 3 scan else .ok (.ok ([], skipSpaces scan))).bind fun
  | .error (e, scan) => .ok ⟨e, [], scan⟩
  | .ok (ops, scan) =>
    let ops := pad 3 {} ops
    (searchName cpu name (ops.map (·.mode))).bind fun
    | .error e => .ok ⟨e, [], scan⟩
    | .ok row =>
      (emitList (encodeOperand w addr) ((pad 3 .NONE (modes row)).zip ops) ⟨.OK, row.opcode, []⟩).bind fun a =>
      .ok ⟨a.err, a.bytes, scan⟩

/-- The number of a bit is only ever the first operand, as `place` has it. -/
theorem bits_first : ∀ cpu ∈ [CpuType.MC6805, .MC146805, .MC68HC05], ∀ p ∈ pages cpu, ∀ r ∈ p.entries,
    Mode.BNO ∉ (modes r).drop 1 := by decide +kernel

/-- Assembling one line: `Assembler::encode` of an `AsmMc6805` with the option `pc-bits`. -/
def assemble (E : Env) (cpu : CpuType) (pcBits addr : Nat) (line : List Char) : Out Line :=
  encode syntaxOf (addressWidth pcBits)
    (encodeImpl (lexer.plugins E '\x00' addr) cpu (addressWidth pcBits) addr) addr line

end Libasm.Cpu.Mc6805
