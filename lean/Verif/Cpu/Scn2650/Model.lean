import Verif.Cpu.ListModel
import Verif.Maker.Model
import Verif.Tables.Data.Scn2650
/-
The assembler and the disassembler of the SCN2650 (Signetics 2650): src/asm_scn2650.cpp, src/dis_scn2650.cpp,
src/table_scn2650.cpp, src/reg_scn2650.cpp, src/reg_scn2650.h, src/insn_scn2650.h. The instruction table is
Verif/Tables/Data/Scn2650.lean, generated from src/table_scn2650.cpp.
-/
namespace Libasm.Cpu.Scn2650
open Scan Number Eval
open Tables (Row)

/-- src/entry_scn2650.h:28-42 `AddrMode`; the code has no UNDEF. -/
inductive Mode
  | NONE | REGN | REG0 | R123 | IMM8 | CCVN | C012 | REL7 | ABS7 | AB13 | IX13 | IX15 | AB15 | UNDEF
deriving DecidableEq, Repr

/-- The name of an addressing mode in the table. -/
def modeOf : String → Mode
  | "M_REGN" => .REGN
  | "M_REG0" => .REG0
  | "M_R123" => .R123
  | "M_IMM8" => .IMM8
  | "M_CCVN" => .CCVN
  | "M_C012" => .C012
  | "M_REL7" => .REL7
  | "M_ABS7" => .ABS7
  | "M_AB13" => .AB13
  | "M_IX13" => .IX13
  | "M_IX15" => .IX15
  | "M_AB15" => .AB15
  | _ => .UNDEF

/-- src/table_scn2650.cpp:27-30, src/entry_scn2650.h:44-62 `Flags`: `mode1()` and `mode2()` of a row. -/
def modes (r : Row) : Mode × Mode :=
  match r.operands with
  | ["E0"] => (.NONE, .NONE)
  | ["E1", a] => (modeOf a, .NONE)
  | ["E2", a, b] => (modeOf a, modeOf b)
  | _ => (.UNDEF, .UNDEF)

/-- src/table_scn2650.cpp:212-224 `SCN2650_PAGES`, `CPU_TABLE`, `cpu` -/
def pages : List (Table.Page Row) := Tables.Scn2650.SCN2650_PAGES

/-- src/reg_scn2650.h:47-49 `page`: 8 kilobytes. -/
def page (addr : Nat) : Nat := addr / 8192 * 8192
/-- src/reg_scn2650.h:51-53 `offset` -/
def offset (addr : Nat) : Nat := addr % 8192
/-- src/reg_scn2650.h:55-57 `inpage`, with arithmetic of 16 bits (`Config::uintptr_t` of addresses of 15 bits) -/
def inpage (addr : Nat) (delta : Int) : Nat := page addr + (((addr : Int) + delta) % 8192).toNat

/-- src/reg_scn2650.cpp:32-37 `CC_ENTRIES`; the numbers of src/reg_scn2650.h:37-43 -/
def ccs : List (List Char × Nat) := [(['E', 'Q'], 0), (['G', 'T'], 1), (['L', 'T'], 2), (['U', 'N'], 3)]

/-! ### Disassembler -/

/-- src/table_scn2650.cpp:261-276 `matchOpCode` -/
def matchOpCode (opc : Nat) (r : Row) : Bool :=
  let (m1, m2) := modes r
  if m1 = .R123 ∧ opc % 4 = 0 then false
  else if m1 = .C012 ∧ opc % 4 = 3 then false
  else if m1 = .REGN ∨ m1 = .R123 ∨ m1 = .CCVN ∨ m1 = .C012 then opc / 4 * 4 == r.opcode
  else if m2 = .IX13 then opc / 4 * 4 == r.opcode
  else opc == r.opcode

/-- src/table_scn2650.cpp:278-281 `searchOpCode` -/
def searchOpCode (opc : Nat) : Option Row :=
  (Table.searchOpCode (fun _ r => matchOpCode opc r) (fun p => p.prefix_ == 0) pages).map (·.2)

/-- src/reg_scn2650.cpp:60-66 `decodeRegName`, `outRegName` -/
def outReg (o : Opts) (n : Nat) : List Char := letter o.upper 'R' :: fmtDec o.upper (n % 4)
/-- src/reg_scn2650.cpp:77-84 `decodeCcName`, `outCcName` -/
def outCc (o : Opts) (n : Nat) : List Char := outText o (regText ccs (n % 4))

/-- What an operand leaves: what is added to the name of the instruction, what is printed, and the reader. -/
structure Part where
  name : List Char
  text : List Char
  rd : Rd

/-- src/dis_scn2650.cpp:61-70 `decodeAbsolute` -/
def decodeAbsolute (o : Opts) (m : Mode) (r : Rd) : Part :=
  let (opr, r) := r.be16
  ⟨[], (if opr / 32768 % 2 = 1 then ['*'] else []) ++ outAbsAddr .surroundH o 15 (opr % 32768) ++
    (if m = .IX15 then [',', ' '] ++ outReg o 3 else []), r⟩

/-- src/dis_scn2650.cpp:72-92 `decodeIndexed`; `insn.length()` is the number of bytes read. -/
def decodeIndexed (o : Opts) (addr opc : Nat) (r : Rd) : Part :=
  let (opr, r) := r.be16
  let base := inpage addr r.bytes.length
  let target := page base + offset opr
  let idx := opr / 8192 % 4
  ⟨',' :: outReg o (if idx ≠ 0 then 0 else opc),
    (if opr / 32768 % 2 = 1 then ['*'] else []) ++ outAbsAddr .surroundH o 15 target ++
    (if idx ≠ 0 then [',', ' '] ++ outReg o opc ++
      (if idx = 1 then [',', ' ', '+'] else if idx = 2 then [',', ' ', '-'] else []) else []), r⟩

/-- `signExtend(opr, 7)` of src/config_base.cpp:26-30 -/
def signed7 (x : Nat) : Int := if x % 128 < 64 then (x % 128 : Nat) else ((x % 128 : Nat) : Int) - 128

/-- src/dis_scn2650.cpp:94-108 `decodeRelative`; `insn.length()` is the number of bytes read. -/
def decodeRelative (o : Opts) (addr : Nat) (m : Mode) (r : Rd) : Part :=
  let (opr, r) := r.byte
  let star := if opr / 128 % 2 = 1 then ['*'] else []
  let delta := signed7 opr
  if m = .REL7 then
    let target := inpage (inpage addr r.bytes.length) delta
    ⟨[], star ++ outRelAddr .surroundH o 15 target addr 7, r⟩
  else ⟨[], star ++ outAbsAddr .surroundH o 15 (delta % 8192).toNat, r⟩

/-- src/dis_scn2650.cpp:110-142 `decodeOperand`, without symbols; `m2` is `insn.mode2()`. -/
def decodeOperand (o : Opts) (addr opc : Nat) (m2 m : Mode) (r : Rd) : Part :=
  match m with
  | .REG0 | .R123 | .REGN => if m2 = .IX13 then ⟨[], [], r⟩ else ⟨',' :: outReg o opc, [], r⟩
  | .C012 | .CCVN => ⟨',' :: outCc o opc, [], r⟩
  | .IMM8 => ⟨[], outHex .surroundH o r.byte.1 8 true, r.byte.2⟩
  | .REL7 | .ABS7 => decodeRelative o addr m r
  | .IX13 | .AB13 => decodeIndexed o addr opc r
  | .IX15 | .AB15 => decodeAbsolute o m r
  | _ => ⟨[], [], r⟩

/-- src/dis_scn2650.cpp:144-154 `decodeImpl`. When an entry is found the error is reset
(src/entry_table.h:214), also that of a missing first byte. -/
def decodeImpl (o : Opts) (addr : Nat) (mem : List Nat) : Dis :=
  let (opc, r) := (⟨mem, [], .OK⟩ : Rd).byte
  match searchOpCode opc with
  | none => ⟨.UNKNOWN_INSTRUCTION, [], [], r.bytes⟩
  | some row =>
    let (m1, m2) := modes row
    let x := decodeOperand o addr opc m2 m1 { r with err := Err.OK }
    let y := decodeOperand o addr opc m2 m2 x.rd
    ⟨y.rd.err, outText o row.name ++ x.name ++ y.name, x.text ++ y.text, y.rd.bytes⟩

/-- Disassembling one instruction: `Disassembler::decode` of a `DisScn2650`; addresses have 15 bits
(src/config_scn2650.h). -/
def disassemble (o : Opts) (addr : Nat) (mem : List Nat) : Dis :=
  decode 15 (decodeImpl o) addr mem

/-! ### Assembler -/

/-- The default `SymbolParser`, `StarCommentParser`: src/value_parser.cpp:26-51, src/parsers.cpp:571-573; the
table of src/asm_scn2650.cpp:32-42. -/
def syntaxOf : Syntax where
  instructionLetter c := Eval.symbolLetter false c
  instructionTerminator _ := false
  commentLine s := deref s == '*' || deref s == ';'
  special := []
  pseudos := [['A', 'C', 'O', 'N'], ['A', 'L', 'I', 'T'], ['D', 'A', 'T', 'A'], ['R', 'E', 'S']]

/-- src/asm_scn2650.cpp:47-57: numbers, letters and operators of Signetics. -/
def lexer : Lexer := Maker.signetics

/-- src/insn_scn2650.h:40-48 `Operand`; `sign` is none for 0. -/
structure Operand where
  err : Err := .OK
  mode : Mode := .NONE
  reg : Option Nat := none
  cc : Option Nat := none
  indir : Bool := false
  sign : Option Char := none
  val : Value := Value.undefined
deriving DecidableEq

/-- src/reg_scn2650.cpp:44-54 `parseRegName` -/
def parseRegName (s : Scan) : Option (Nat × Scan) :=
  match iexpect 'R' s with
  | none => none
  | some p =>
    match Table.parseRegNumber p with
    | none => none
    | some (n, rest) => if n < 4 then some (n, rest) else none

/-- src/parsers.cpp:575-579 `StarCommentParser::endOfLine`: the spaces are skipped in any case. -/
def endOfLine (s : Scan) : Bool :=
  deref s == '\x00' || deref s == ' ' || deref (skipSpaces s) == '\x00' || deref (skipSpaces s) == ';'

/-- src/asm_scn2650.cpp:88-111: what comes after the value of an operand at `p`. -/
def parseIndex (start : Scan) (indir : Bool) (val : Value) (err : Err) (p : Scan) :
    Except (Err × Scan) (Operand × Scan) :=
  match expect ',' p with
  | some p =>
    match parseRegName (skipSpaces p) with
    | none => .error (.UNKNOWN_OPERAND, start)
    | some (reg, p) =>
      match expect ',' (skipSpaces p) with
      | some p =>
        match skipSpaces p with
        | '+' :: p => .ok ({ err := err, mode := .IX13, reg := some reg, indir := indir, sign := some '+', val := val }, p)
        | '-' :: p => .ok ({ err := err, mode := .IX13, reg := some reg, indir := indir, sign := some '-', val := val }, p)
        | _ => .error (.UNKNOWN_OPERAND, start)
      | none =>
        .ok ({ err := err, mode := if reg = 3 then .IX15 else .IX13, reg := some reg, indir := indir, val := val },
          skipSpaces p)
  | none => .ok ({ err := err, mode := if indir then .AB15 else .IMM8, indir := indir, val := val }, p)

/-- src/asm_scn2650.cpp:64-112 `parseOperand`; after an error the text is left where the operand starts. -/
def parseOperand (P : Plugins Value) (scan : Scan) : Out (Except (Err × Scan) (Operand × Scan)) :=
  let start := skipSpaces scan
  if endOfLine scan then .ok (.ok ({}, start))
  else
    match parseRegName start with
    | some (reg, p) => .ok (.ok ({ mode := if reg = 0 then .REG0 else .R123, reg := some reg }, p))
    | none =>
      (searchText ccs start).bind fun
      | some (cc, p) => .ok (.ok ({ mode := if cc = 3 then .CCVN else .C012, cc := some cc }, p))
      | none =>
        let indir := (expect '*' start).isSome
        let p := (expect '*' start).getD start
        (parseInteger P (skipSpaces p) .OK).bind fun (val, err, p) =>
        if hasError err then .ok (.error (err, start))
        else .ok (parseIndex start indir val err p)

/-- src/table_scn2650.cpp:234-249 `acceptMode` -/
def acceptMode (opr table : Mode) : Bool :=
  if opr = table then true
  else
    match opr with
    | .REG0 | .R123 => table == .REGN
    | .C012 => table == .CCVN
    | .IMM8 => table == .ABS7 || table == .AB13 || table == .AB15 || table == .REL7 || table == .IX15
    | .AB15 => table == .ABS7 || table == .AB13 || table == .REL7 || table == .IX15
    | .IX15 => table == .AB15 || table == .IX13 || table == .AB13
    | _ => false

/-- src/table_scn2650.cpp:251-254 `acceptModes` -/
def acceptModes (m1 m2 : Mode) (r : Row) : Bool := acceptMode m1 (modes r).1 && acceptMode m2 (modes r).2

/-- src/table_scn2650.cpp:256-259 `searchName`, with what accepts an entry -/
def searchWith (accept : Row → Bool) (name : List Char) : Out (Except Err Row) :=
  match Table.searchName (fun r : Row => Table.strcasecmp name r.name) (fun _ r => accept r) pages false with
  | some (.ok (_, r)) => .ok (.ok r)
  | some (.error e) => .ok (.error e)
  | none => .ub

/-- src/table_scn2650.cpp:256-259 `searchName` -/
def searchName (name : List Char) (m1 m2 : Mode) : Out (Except Err Row) := searchWith (acceptModes m1 m2) name

/-- src/table_scn2650.cpp:226-233 `hasOperand`; it leaves the modes of the first entry of the name. -/
def hasOperand (name : List Char) : Out (Mode × Mode) :=
  (searchWith (fun _ => true) name).bind fun
  | .ok r => .ok (modes r)
  | .error _ => .ok (.NONE, .NONE)

/-- `insn.setErrorIf(op, checkAddr(target, insn.address(), 13))` -/
def Asm.checkPage (a : Asm) (target addr : Nat) : Out Asm :=
  (ofOption (Config.checkAddrSeg 15 target addr 13 false)).bind fun e => .ok (a.setErrorIf e)

/-- src/asm_scn2650.cpp:114-126 `emitAbsolute` -/
def emitAbsolute (addr : Nat) (m : Mode) (op : Operand) (a : Asm) : Out Asm :=
  let target := if op.err ≠ .OK then addr else op.val.getUnsigned
  let a := a.setErrorIf (Config.checkAddr 15 target false)
  let opr := if op.indir then target ||| 0x8000 else target
  if m = .IX15 then
    let a := a.check (op.reg != some 3 && op.reg != none) .REGISTER_NOT_ALLOWED
    .ok ((a.embed 3).emit16be opr)
  else .ok (a.emit16be opr)

/-- `encodeRegName` of a register that may be REG_UNDEF = -1, as an uint8_t -/
def encodeReg (r : Option Nat) : Nat := r.getD 255

/-- src/asm_scn2650.cpp:128-149 `emitIndexed` -/
def emitIndexed (addr : Nat) (m : Mode) (op : Operand) (a : Asm) : Out Asm :=
  let target := if op.err ≠ .OK then addr else op.val.getUnsigned
  (Asm.checkPage a target addr).bind fun a =>
  let opr := if op.indir then offset target ||| 0x8000 else offset target
  if m = .IX13 then
    let idx := if op.sign = some '+' then 0x2000 else if op.sign = some '-' then 0x4000 else 0x6000
    .ok ((a.embed (encodeReg op.reg)).emit16be (opr ||| idx))
  else .ok (a.emit16be opr)

/-- src/asm_scn2650.cpp:151-163 `emitZeroPage`; the argument of `page` has 16 bits. -/
def emitZeroPage (op : Operand) (a : Asm) : Out Asm :=
  let target := op.val.getUnsigned
  let a := a.check (page (target % 65536) != 0) .OVERFLOW_RANGE
  (ofOption (Config.signExtend target 13)).bind fun off =>
  (ofOption (Config.overflowDelta off 7)).bind fun far =>
  .ok ((a.check far .OPERAND_TOO_FAR).emit8 (target % 128 + if op.indir then 128 else 0))

/-- src/asm_scn2650.cpp:165-176 `emitRelative` -/
def emitRelative (addr : Nat) (op : Operand) (a : Asm) : Out Asm :=
  let base := inpage addr 2
  let target := if op.err ≠ .OK then base else op.val.getUnsigned
  (Asm.checkPage a target addr).bind fun a =>
  (ofOption (Config.branchDelta 15 base target a.err)).bind fun (delta, err) =>
  (ofOption (Config.overflowDelta delta 7)).bind fun far =>
  .ok ((({ a with err := err } : Asm).check far .OPERAND_TOO_FAR).emit8
    ((delta % 128).toNat + if op.indir then 128 else 0))

/-- src/asm_scn2650.cpp:178-212 `encodeOperand` -/
def encodeOperand (addr : Nat) (m : Mode) (op : Operand) (a : Asm) : Out Asm :=
  let a := a.setErrorIf op.err
  match m with
  | .REGN | .REG0 | .R123 => .ok (a.embed (encodeReg op.reg))
  | .CCVN | .C012 => .ok (a.embed (encodeReg op.cc))
  | .IMM8 => .ok ((a.check op.val.overflowUint8 .OVERFLOW_RANGE).emit8 op.val.getUnsigned)
  | .REL7 => emitRelative addr op a
  | .ABS7 => emitZeroPage op a
  | .AB13 | .IX13 => emitIndexed addr m op a
  | .AB15 | .IX15 => emitAbsolute addr m op a
  | _ => .ok a

/-- src/asm_scn2650.cpp:216-229: the operands. `Assembler::encode` has skipped the spaces before `scan`. -/
def parseOperands (P : Plugins Value) (ms : Mode × Mode) (scan : Scan) :
    Out (Except (Err × Scan) (Operand × Operand × Scan)) :=
  let comma := (expect ',' scan).isSome
  let scan := (expect ',' scan).getD scan
  if ms.1 = .NONE then .ok (.ok ({}, {}, scan))
  else
    (parseOperand P (if comma then scan else skipSpaces scan)).bind fun
    | .error e => .ok (.error e)
    | .ok (op1, scan) =>
      if ms.2 = .NONE then .ok (.ok (op1, {}, scan))
      else
        let next := if comma then some scan else expect ',' (skipSpaces scan)
        match next with
        | none => .ok (.ok (op1, {}, scan))
        | some scan =>
          (parseOperand P (skipSpaces scan)).bind fun
          | .error e => .ok (.error e)
          | .ok (op2, scan) => .ok (.ok (op1, op2, scan))

/-- src/asm_scn2650.cpp:214-241 `encodeImpl`; the register that is added to the name is not modelled. -/
def encodeImpl (P : Plugins Value) (addr : Nat) (name : List Char) (scan : Scan) : Out Res :=
  (hasOperand name).bind fun ms =>
  (parseOperands P ms scan).bind fun
  | .error (e, scan) => .ok ⟨e, [], scan⟩
  | .ok (op1, op2, scan) =>
    (searchName name op1.mode op2.mode).bind fun
    | .error e => .ok ⟨e, [], skipSpaces scan⟩
    | .ok row =>
      (encodeOperand addr (modes row).1 op1 ⟨.OK, row.opcode, []⟩).bind fun a =>
      (encodeOperand addr (modes row).2 op2 a).bind fun a =>
      .ok ⟨a.err, a.bytes, skipSpaces scan⟩

/-- Assembling one line: `Assembler::encode` of an `AsmScn2650`. -/
def assemble (E : Env) (addr : Nat) (line : List Char) : Out Line :=
  encode syntaxOf 15 (encodeImpl (lexer.plugins E '\x00' addr) addr) addr line

end Libasm.Cpu.Scn2650
