import Verif.Cpu.Model
import Verif.Tables.Data.Cdp1802
/-
The assembler and the disassembler of the CDP1802 family: src/asm_cdp1802.cpp, src/dis_cdp1802.cpp,
src/table_cdp1802.cpp, src/reg_cdp1802.cpp, src/insn_cdp1802.h. The instruction tables are
Verif/Tables/Data/Cdp1802.lean, generated from src/table_cdp1802.cpp.
-/
namespace Libasm.Cpu.Cdp1802
open Scan Number Eval
open Tables (Row)

/-- src/config_cdp1802.h:25-29 `CpuType` -/
inductive CpuType | CDP1802 | CDP1804 | CDP1804A
deriving DecidableEq, Repr

/-- src/entry_cdp1802.h:28-38 `AddrMode` -/
inductive Mode | NONE | REGN | REG1 | IMM8 | PAGE | ADDR | SHRT | LONG | IOAD | UNDEF
deriving DecidableEq, Repr

/-- The name of an addressing mode in the table. -/
def modeOf : String → Mode
  | "M_REGN" => .REGN
  | "M_REG1" => .REG1
  | "M_IMM8" => .IMM8
  | "M_PAGE" => .PAGE
  | "M_ADDR" => .ADDR
  | "M_SHRT" => .SHRT
  | "M_LONG" => .LONG
  | "M_IOAD" => .IOAD
  | _ => .UNDEF

/-- src/table_cdp1802.cpp:27-30: the addressing modes of a row. -/
def flags (r : Row) : Mode × Mode :=
  match r.operands with
  | ["E0"] => (.NONE, .NONE)
  | ["E1", m] => (modeOf m, .NONE)
  | ["E2", m, n] => (modeOf m, modeOf n)
  | _ => (.UNDEF, .UNDEF)

/-- src/table_cdp1802.cpp:317-325 `cpu`: the pages of the processor. -/
def pages : CpuType → List (Table.Page Row)
  | .CDP1802 => Tables.Cdp1802.CDP1802_PAGES
  | .CDP1804 => Tables.Cdp1802.CDP1804_PAGES
  | .CDP1804A => Tables.Cdp1802.CDP1804A_PAGES

/-! ### Disassembler -/

/-- src/table_cdp1802.cpp:348-360 `matchOpCode` -/
def matchOpCode (opc : Nat) (r : Row) : Bool :=
  match (flags r).1 with
  | .REGN | .REG1 => opc / 16 * 16 == r.opcode
  | .IOAD => if opc % 8 = 0 then false else opc / 8 * 8 == r.opcode
  | _ => opc == r.opcode

/-- src/table_cdp1802.cpp:367-369, src/entry_table.h:112-122 `isPrefix` -/
def isPrefix (cpu : CpuType) (code : Nat) : Bool :=
  (pages cpu).any fun p => p.prefix_ != 0 && p.prefix_ == code

/-- src/table_cdp1802.cpp:362-365 `searchOpCode` -/
def searchOpCode (cpu : CpuType) (pre opc : Nat) : Option Row :=
  (Table.searchOpCode (fun _ r => matchOpCode opc r) (fun p => pre == p.prefix_) (pages cpu)).map (·.2)

/-- src/reg_cdp1802.cpp:39-41 `outRegName` -/
def outRegName (o : Opts) (n : Nat) : List Char := letter o.upper 'R' :: fmtDec o.upper n

/-- src/dis_cdp1802.cpp:66-72 `page`, `inpage`: 16 bit addresses. -/
def inpage (base off : Nat) : Nat := base % 65536 / 256 * 256 + off

/-- src/dis_cdp1802.cpp:76-104 `decodeOperand` -/
def decodeOperand (o : Opts) (useReg : Bool) (addr opc : Nat) (m : Mode) (r : Rd) : List Char × Rd :=
  match m with
  | .REG1 | .REGN =>
    if useReg then (outRegName o (opc % 16), r) else (outDec .surroundX o (opc % 16) 4, r)
  | .IMM8 => (outHex .surroundX o r.byte.1 8 true, r.byte.2)
  | .IOAD => (outHex .surroundX o (opc % 8) 3 true, r)
  | .ADDR | .LONG => (outAbsAddr .surroundX o 16 r.be16.1, r.be16.2)
  | .PAGE | .SHRT => (outAbsAddr .surroundX o 16 (inpage (addr + 2) r.byte.1), r.byte.2)
  | .NONE | .UNDEF => ([], r)

/-- src/dis_cdp1802.cpp:116-126: the instruction of the prefix and code read so far. -/
def decodeInsn (o : Opts) (useReg : Bool) (cpu : CpuType) (addr pre opc : Nat) (r : Rd) : Dis :=
  match searchOpCode cpu pre opc with
  | none => ⟨.UNKNOWN_INSTRUCTION, [], [], r.bytes⟩
  | some row =>
    let r := { r with err := Err.OK }
    let m1 := (flags row).1
    let m2 := (flags row).2
    if m1 = .NONE then ⟨r.err, outText o row.name, [], r.bytes⟩
    else
      let (t, r) := decodeOperand o useReg addr opc m1 r
      if m2 = .NONE then ⟨r.err, outText o row.name, t, r.bytes⟩
      else
        let (u, r) := decodeOperand o useReg addr opc m2 r
        ⟨r.err, outText o row.name, t ++ [',', ' '] ++ u, r.bytes⟩

/-- src/dis_cdp1802.cpp:106-127 `decodeImpl` -/
def decodeImpl (o : Opts) (useReg : Bool) (cpu : CpuType) (addr : Nat) (mem : List Nat) : Dis :=
  let (opc, r) := (⟨mem, [], .OK⟩ : Rd).byte
  if isPrefix cpu opc then
    let (opc', r) := r.byte
    if r.err ≠ .OK then ⟨r.err, [], [], r.bytes⟩ else decodeInsn o useReg cpu addr opc opc' r
  else decodeInsn o useReg cpu addr 0 opc r

/-- Disassembling one instruction: `Disassembler::decode` of a `DisCdp1802`. -/
def disassemble (o : Opts) (useReg : Bool) (cpu : CpuType) (addr : Nat) (mem : List Nat) : Dis :=
  decode 16 (decodeImpl o useReg cpu) addr mem

/-! ### Assembler -/

/-- `RcaSymbolParser`, `RcaCommentParser`: src/symbol_parser.h:90-100, src/parsers.cpp:278-284,581-583;
the table of src/asm_cdp1802.cpp:36-38. -/
def syntaxOf : Syntax where
  instructionLetter c := symbolLetter false c || c == '='
  instructionTerminator c := c == '='
  commentLine s := (Table.iexpectText s ['.', '.']).isSome || semicolonEnd s
  special := []
  pseudos := [['D', 'C']]

/-- src/letter_parser.h:97-104,117-119, src/parsers.cpp:339-357: `RcaLetterParser`, an optional `T`
before the letter. -/
def rcaLetter (s : Scan) : Err × Nat × Scan :=
  match iexpect 'T' s with
  | some p =>
    match defaultLetter p with
    | (.OK, c, rest) => (.OK, c, rest)
    | (e, c, _) => (e, c, s)
  | none => defaultLetter s

/-- src/asm_cdp1802.cpp:44-53 `defaultPlugins`; the functions are part of the environment. -/
def lexer : Lexer where
  number := .rca
  operators := .c
  letter := rcaLetter
  location := locationSymbol symbolLetter '*'
  symbolLetter := symbolLetter
  functionLetter c := symbolLetter false c || c == '.'
  endOfLine := semicolonEnd

/-- src/insn_cdp1802.h:33-37 `Operand` -/
structure Operand where
  err : Err := .OK
  mode : Mode := .NONE
  val : Value := Value.undefined
deriving DecidableEq

/-- src/reg_cdp1802.cpp:27-37 `parseRegName`: the number and the text after it. -/
def parseRegName (s : Scan) : Option (Nat × Scan) :=
  match iexpect 'R' s with
  | none => none
  | some p =>
    match Table.parseRegNumber p with
    | none => none
    | some (n, q) => if n < 16 then some (n, q) else none

/-- The part of `parseOperand` after the register, src/asm_cdp1802.cpp:180-185. -/
def parseNumber (P : Plugins Value) (p : Scan) : Out (Operand × Scan) :=
  (parseInteger P p .OK).bind fun (val, err, q) =>
  if hasError err then .ok ({ err := err, val := val }, p)
  else .ok ({ err := err, mode := .ADDR, val := val }, q)

/-- src/asm_cdp1802.cpp:165-186 `parseOperand` -/
def parseOperand (P : Plugins Value) (useReg : Bool) (scan : Scan) : Out (Operand × Scan) :=
  let p := skipSpaces scan
  if P.endOfLine p then .ok ({}, p)
  else if useReg then
    match parseRegName p with
    | some (n, q) => .ok ({ mode := .REGN, val := Value.setUnsigned n }, q)
    | none => parseNumber P p
  else parseNumber P p

/-- src/table_cdp1802.cpp:327-336 `acceptMode` -/
def acceptMode (opr table : Mode) : Bool :=
  if opr = table then true
  else
    match opr with
    | .REGN => table == .REG1
    | .ADDR => table == .REGN || table == .REG1 || table == .IMM8 || table == .PAGE ||
      table == .IOAD || table == .SHRT || table == .LONG
    | _ => false

/-- src/table_cdp1802.cpp:338-346 `searchName`, `acceptModes`: the prefix and the row. -/
def searchName (cpu : CpuType) (name : List Char) (m1 m2 : Mode) : Out (Except Err (Nat × Row)) :=
  match Table.searchName (fun r : Row => Table.strcasecmp name r.name)
      (fun _ r => acceptMode m1 (flags r).1 && acceptMode m2 (flags r).2) (pages cpu) false with
  | some (.ok (pre, r)) => .ok (.ok (pre, r))
  | some (.error e) => .ok (.error e)
  | none => .ub

/-- `AsmInsn`: error, prefix, code and bytes emitted. -/
structure Asm where
  err : Err
  pre : Nat
  opc : Nat
  bytes : List Nat
deriving DecidableEq

/-- `insn.setErrorIf(op, e)`. -/
def Asm.setErrorIf (a : Asm) (e : Err) : Asm := { a with err := Config.setErrorIf a.err e }
/-- `insn.embed(x)` of an 8 bit code. -/
def Asm.embed (a : Asm) (x : Nat) : Asm := { a with opc := (a.opc ||| x) % 256 }
/-- src/insn_cdp1802.h:44-48 `emitInsn` -/
def Asm.emitInsn (a : Asm) : Asm :=
  { a with bytes := a.bytes ++ (if a.pre ≠ 0 then [a.pre % 256] else []) ++ [a.opc % 256] }
/-- `insn.emitByte(x)` -/
def Asm.emitByte (a : Asm) (x : Nat) : Asm := { a with bytes := a.bytes ++ [x % 256] }
/-- `insn.emitUint16(x)`, most significant byte first -/
def Asm.emit16 (a : Asm) (x : Nat) : Asm :=
  { a with bytes := a.bytes ++ [x / 256 % 256, x % 256] }

/-- src/asm_cdp1802.cpp:94-97: a branch inside the page, without the check. -/
def intraPage (target : Nat) (a : Asm) : Asm := a.emitInsn.emitByte target

/-- src/asm_cdp1802.cpp:100-105: a branch anywhere. -/
def interPage (op : Operand) (a : Asm) : Asm :=
  ((a.setErrorIf (Config.checkAddr 16 op.val.getUnsigned false)).emitInsn).emit16 op.val.getUnsigned

/-- src/asm_cdp1802.cpp:89-113 `encodePage`; `smart` is the option `smart-branch`. -/
def encodePage (smart : Bool) (addr : Nat) (m : Mode) (op : Operand) (a : Asm) : Out Asm :=
  let base := (addr + 2) % Config.W
  let target := if op.err ≠ .OK then base else op.val.getUnsigned
  (ofOption (Config.checkAddrSeg 16 target base 8 false)).bind fun e =>
  if m = .PAGE ∨ (m = .SHRT ∧ smart = false) then .ok (intraPage target (a.setErrorIf e))
  else if m = .ADDR ∨ (m = .LONG ∧ smart = false) then .ok (interPage op a)
  else if op.err ≠ .OK ∨ e ≠ .OK then .ok (interPage op { a with opc := 0xc0 + a.opc % 16 })
  else .ok (intraPage target { a with opc := 0x30 + a.opc % 16 })

/-- `val.setUnsigned(dflt)` when there is an error in the operand. -/
def orElse (op : Operand) (val : Value) (dflt : Nat) : Value :=
  if op.err ≠ .OK then Value.setUnsigned dflt else val

/-- src/asm_cdp1802.cpp:127-137: a register number. -/
def emitReg (op : Operand) (val : Value) (a : Asm) : Asm :=
  let val := orElse op val 7
  let (a, val) :=
    if val.overflow 15 0 then (a.setErrorIf .ILLEGAL_REGISTER, Value.setUnsigned 7) else (a, val)
  (a.embed val.getUnsigned).emitInsn

/-- src/asm_cdp1802.cpp:115-163 `emitOperand` -/
def emitOperand (smart : Bool) (addr : Nat) (m : Mode) (op : Operand) (a : Asm) : Out Asm :=
  let a := a.setErrorIf op.err
  match m with
  | .REG1 =>
    let val := orElse op op.val 7
    if val.isZero then .ok (emitReg op (Value.setUnsigned 7) (a.setErrorIf .REGISTER_NOT_ALLOWED))
    else .ok (emitReg op val a)
  | .REGN => .ok (emitReg op op.val a)
  | .IMM8 =>
    let a := if op.val.overflowUint8 then a.setErrorIf .OVERFLOW_RANGE else a
    .ok (a.emitInsn.emitByte op.val.getUnsigned)
  | .PAGE | .ADDR | .SHRT | .LONG => encodePage smart addr m op a
  | .IOAD =>
    let val := orElse op op.val 1
    if val.isZero || val.overflow 7 0 then
      .ok (((a.setErrorIf .OPERAND_NOT_ALLOWED).embed 1).emitInsn)
    else .ok ((a.embed val.getUnsigned).emitInsn)
  | .NONE | .UNDEF => .ok a.emitInsn

/-- src/asm_cdp1802.cpp:198-207: after the operands are read. -/
def encodeInsn (smart : Bool) (cpu : CpuType) (addr : Nat) (name : List Char) (op1 op2 : Operand)
    (scan : Scan) : Out Res :=
  (searchName cpu name op1.mode op2.mode).bind fun
  | .error e => .ok ⟨e, [], scan⟩
  | .ok (pre, row) =>
    (emitOperand smart addr (flags row).1 op1 ⟨.OK, pre, row.opcode, []⟩).bind fun a =>
    let a := if (flags row).2 = .ADDR then (a.setErrorIf op2.err).emit16 op2.val.getUnsigned else a
    .ok ⟨a.err, a.bytes, scan⟩

/-- src/asm_cdp1802.cpp:188-208 `encodeImpl` -/
def encodeImpl (P : Plugins Value) (useReg smart : Bool) (cpu : CpuType) (addr : Nat)
    (name : List Char) (scan : Scan) : Out Res :=
  (parseOperand P useReg scan).bind fun (op1, scan) =>
  if hasError op1.err then .ok ⟨op1.err, [], scan⟩
  else
    match expect ',' (skipSpaces scan) with
    | some scan =>
      (parseOperand P useReg scan).bind fun (op2, scan) =>
      if hasError op2.err then .ok ⟨op2.err, [], scan⟩
      else encodeInsn smart cpu addr name op1 op2 (skipSpaces scan)
    | none => encodeInsn smart cpu addr name op1 {} (skipSpaces scan)

/-- Assembling one line: `Assembler::encode` of an `AsmCdp1802`. -/
def assemble (E : Env) (useReg smart : Bool) (cpu : CpuType) (addr : Nat) (line : List Char) :
    Out Line :=
  encode syntaxOf 16 (encodeImpl (lexer.plugins E '\x00' addr) useReg smart cpu addr) addr line

end Libasm.Cpu.Cdp1802
