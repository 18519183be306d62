import Verif.Cpu.ListModel
import Verif.Maker.Model
import Verif.Tables.Data.Pdp8
/-
The assembler and the disassembler of the PDP-8 processors IM6100 and HD6120: src/asm_pdp8.cpp, src/dis_pdp8.cpp,
src/table_pdp8.cpp, src/reg_pdp8.h, src/insn_pdp8.h, src/entry_pdp8.h, src/config_pdp8.h. The instruction tables are in
Verif/Tables/Data/Pdp8.lean, generated from src/table_pdp8.cpp. A word of 12 bits is kept in two bytes, the most
significant first; addresses are those of words.

Not modelled: the option `implicit-word` of the assembler, which is off by default.
-/
namespace Libasm.Cpu.Pdp8
open Scan Number Eval
open Tables (Row)

/-- src/config_pdp8.h:25-28 `CpuType` -/
inductive CpuType | IM6100 | HD6120
deriving DecidableEq, Repr

/-- src/config_pdp8.h:33-35 `addressWidth` -/
def width : CpuType → Nat
  | .IM6100 => 12
  | .HD6120 => 15

/-- src/entry_pdp8.h:28-37 `AddrMode`; the code has no UNDEF. -/
inductive Mode | NONE | GR1 | GR2 | GR3 | MEM | CMP | IOT | MEX | UNDEF
deriving DecidableEq, Repr

/-- The name of an addressing mode in the table. -/
def modeOf : String → Mode
  | "M_GR1" => .GR1
  | "M_GR2" => .GR2
  | "M_GR3" => .GR3
  | "M_MEM" => .MEM
  | "M_CMP" => .CMP
  | "M_IOT" => .IOT
  | "M_MEX" => .MEX
  | _ => .UNDEF

/-- src/table_pdp8.cpp:73-80, 156-164, 196-197, 243-245: the bits that stand in a row, by the text of the row. -/
def bitsOf : String → Nat
  | "CLA|CLL|CMA|CML|IAC" => 0xF1
  | "R1|R2|R3" => 0x0E
  | "CLA|R1|R2|R3" => 0x8E
  | "CLL|CML" => 0x50
  | "CLA|CMA" => 0xA0
  | "CLA" => 0x80
  | "CLL" => 0x40
  | "CMA|IAC" => 0x21
  | "CMA" => 0x20
  | "CML" => 0x10
  | "IAC" => 0x01
  | "CLA|SMA|SZA|SNL|B08|OSR|HLT" => 0xFE
  | "SMA|SZA|SNL|B08" => 0x78
  | "SMA" => 0x40
  | "SPA" => 0x40
  | "SZA" => 0x20
  | "SNA" => 0x20
  | "SNL" => 0x10
  | "SZL" => 0x10
  | "B08" => 0x08
  | "CLA|OSR" => 0x84
  | "OSR" => 0x04
  | "HLT" => 0x02
  | "CLA|MQA|MQL" => 0xD0
  | "CLA|MQA" => 0xC0
  | "CLA|MQL" => 0x90
  | "MQA|MQL" => 0x50
  | "MQA" => 0x40
  | "MQL" => 0x10
  | "00777" => 0x1FF
  | "00073" => 0x3B
  | "CDF" => 0x01
  | "CIF" => 0x02
  | "B09" => 0x04
  | _ => 0

/-- src/entry_pdp8.h:39-75 `Entry`, `Flags` -/
structure Op where
  opcode : Nat
  name : List Char
  mode : Mode
  bits : Nat
  selector : Nat
  combination : Bool
  multi : Bool
deriving DecidableEq, Repr

/-- src/table_pdp8.cpp:27-32: the macros of the rows -/
def opOf (r : Row) : Op :=
  match r.operands with
  | ["E", m, b] => ⟨r.opcode, r.name, modeOf m, bitsOf b, 0, false, false⟩
  | ["C", m, b, s] => ⟨r.opcode, r.name, modeOf m, bitsOf b, bitsOf s, true, false⟩
  | ["M", m, b, s] => ⟨r.opcode, r.name, modeOf m, bitsOf b, bitsOf s, true, true⟩
  | _ => ⟨r.opcode, r.name, .UNDEF, 0, 0, false, false⟩

/-- src/table_pdp8.cpp:36-53: the mask and the group of a page -/
def groupOf : List String → Nat × Nat
  | ["MASK_GR1", "GID_GR1"] => (0xF00, 0xE00)
  | ["MASK_GR2", "GID_GR2"] => (0xF01, 0xF00)
  | ["MASK_GR3", "GID_GR3"] => (0xF01, 0xF01)
  | ["MASK_MEX", "GID_MEX"] => (0xFC4, 0xC80)
  | ["MASK_I20", "GID_I20"] => (0xFC4, 0xC84)
  | ["MASK_IOT", "GID_IOT"] => (0xE00, 0xC00)
  | _ => (0xE00, 0)

/-- A page with its rows read; the mask and the group are kept in the place of the prefix. -/
def pageOfRows (p : Table.Page Row) : Table.Page Op :=
  ⟨(groupOf p.extra).1 * 4096 + (groupOf p.extra).2, [], p.entries.map opOf, p.index⟩

/-- `readGroupMask` -/
def groupMask (p : Table.Page Op) : Nat := p.prefix_ / 4096
/-- `readGroupId` -/
def groupId (p : Table.Page Op) : Nat := p.prefix_ % 4096

/-- src/table_pdp8.cpp:369-395 `IM6100_PAGES`, `HD6120_PAGES`, `CPU_TABLE`, `cpu` -/
def pages : CpuType → List (Table.Page Op)
  | .IM6100 => Tables.Pdp8.IM6100_PAGES.map pageOfRows
  | .HD6120 => Tables.Pdp8.HD6120_PAGES.map pageOfRows

/-- src/reg_pdp8.h:30-32 `pageOf`: from a number of 16 bits to one of 8. -/
def pageOf (addr : Nat) : Nat := addr % 65536 / 128 % 256
/-- src/reg_pdp8.h:34-36 `offsetOf` -/
def offsetOf (opc : Nat) : Nat := opc % 128

/-- `a & ~b` of numbers of 16 bits -/
def andNot (a b : Nat) : Nat := a &&& (0xFFFF ^^^ b)

/-! ### Disassembler -/

/-- src/table_pdp8.cpp:416-419 `pageMatcher` -/
def pageMatcher (opc : Nat) (p : Table.Page Op) : Bool :=
  opc &&& groupMask p == groupId p || groupId p == 0

/-- src/table_pdp8.cpp:421-426 `matchOpCode` -/
def matchOpCode (opc : Nat) (p : Table.Page Op) (e : Op) : Bool :=
  opc &&& (e.bits ||| e.selector ||| groupMask p) == e.opcode

/-- src/table_pdp8.cpp:428-436 `searchOpCode`: the entry -/
def searchOpCode (ps : List (Table.Page Op)) (opc : Nat) : Option Op :=
  (Table.searchOpCode (matchOpCode opc) (pageMatcher opc) ps).map (·.2)

/-- src/table_pdp8.cpp:326-339: the loop of `EntryPage::appendMicros`, the names in their order and what is left;
`clear` is `clearMask`. -/
def pageMicros (gmask : Nat) : List Op → Nat → Nat → List (List Char) × Nat
  | [], micros, clear => ([], andNot micros clear)
  | e :: es, micros, clear =>
    if micros = 0 then ([], andNot micros clear)
    else if e.combination && (micros &&& (e.bits ||| e.selector) == andNot e.opcode gmask) then
      let (ns, left) := pageMicros gmask es (andNot micros e.bits) (clear ||| e.selector)
      (e.name :: ns, left)
    else pageMicros gmask es micros clear

/-- src/table_pdp8.cpp:310 `readGroup`: the mode of the first row -/
def readGroup (p : Table.Page Op) : Mode :=
  match p.entries with
  | [] => .UNDEF
  | e :: _ => e.mode

/-- src/table_pdp8.cpp:354-365: the loop of `Cpu::appendMicros`, the names for every page of the group -/
def allMicros (op : Op) : List (Table.Page Op) → Nat → List (List (List Char)) × Nat
  | [], micros => ([], micros)
  | p :: ps, micros =>
    if readGroup p = op.mode then
      let micros := andNot micros (groupMask p)
      let micros := if op.mode = .MEX then andNot micros 0x38 else micros
      let (ns, left) := pageMicros (groupMask p) p.entries micros op.selector
      let (nss, left) := allMicros op ps left
      (ns :: nss, left)
    else allMicros op ps micros

/-- src/table_pdp8.cpp:352-353, 433-435: the micro-operations besides the entry -/
def microsOf (ps : List (Table.Page Op)) (op : Op) (opc : Nat) : List (List (List Char)) × Nat :=
  if op.mode = .GR1 ∨ op.mode = .GR2 ∨ op.mode = .GR3 ∨ op.mode = .MEX then allMicros op ps (andNot opc op.bits)
  else ([], 0)

/-- src/table_pdp8.cpp:337-340: the names of one page, with a space between them -/
def outMicros (o : Opts) : List (List Char) → List Char
  | [] => []
  | [n] => outText o n
  | n :: ns => outText o n ++ [' '] ++ outMicros o ns

/-- src/dis_pdp8.cpp:49-64: the operands after the micro-operations `t` -/
def decodeOperands (o : Opts) (cpu : CpuType) (addr opc : Nat) (m : Mode) (t : List Char) : List Char :=
  match m with
  | .MEM =>
    (if opc / 256 % 2 = 1 then [letter o.upper 'i', ' '] else []) ++
    outAbsAddr .plain o (width cpu)
      (offsetOf opc + (if opc / 128 % 2 = 0 then 0 else pageOf addr) * 128)
  | .IOT => outHex .plain o (opc / 8 % 64) 6 true ++ [' '] ++ outHex .plain o (opc % 8) 3 true
  | .MEX => t ++ (if t.length > 0 then [' '] else []) ++ outHex .plain o (opc / 8 % 8 * 8) 6 true
  | _ => t

/-- src/dis_pdp8.cpp:43-66 `decodeImpl`. When an entry is found the error is reset (src/entry_table.h:214), also
that of a missing byte of the code. -/
def decodeImpl (o : Opts) (cpu : CpuType) (addr : Nat) (mem : List Nat) : Dis :=
  let (opc, r) := (⟨mem, [], .OK⟩ : Rd).be16
  match searchOpCode (pages cpu) opc with
  | none => ⟨.UNKNOWN_INSTRUCTION, [], [], r.bytes⟩
  | some op =>
    let (ns, left) := microsOf (pages cpu) op opc
    let t := (ns.map (outMicros o)).flatten
    if left ≠ 0 then ⟨.INVALID_INSTRUCTION, outText o op.name, t, r.bytes⟩
    else ⟨.OK, outText o op.name, decodeOperands o cpu addr opc op.mode t, r.bytes⟩

/-- Disassembling one instruction: `Disassembler::decode` of a `DisPdp8`. -/
def disassemble (o : Opts) (cpu : CpuType) (addr : Nat) (mem : List Nat) : Dis :=
  decode (width cpu) (decodeImpl o cpu) addr mem

/-! ### Assembler -/

/-- src/parsers.cpp:585-587 `Pdp8CommentParser::endOfLine` -/
def endOfLine (s : Scan) : Bool := deref s == '\x00' || deref s == '/' || deref s == ';'

/-- src/parsers.cpp:327-333 `Pdp8SymbolParser`, src/comment_parser.h:30; src/asm_pdp8.cpp:33-42, 302-317: the
directives. -/
def syntaxOf (cpu : CpuType) : Syntax where
  instructionLetter c := Eval.symbolLetter false c || c == '*' || c == '='
  instructionTerminator c := c == '*' || c == '='
  commentLine := endOfLine
  special := [['O', 'C', 'T', 'A', 'L'], ['D', 'E', 'C', 'I', 'M', 'A', 'L'], ['D', 'U', 'B', 'L'], ['P', 'A', 'G', 'E']] ++
    (if cpu = .HD6120 then [['F', 'I', 'E', 'L', 'D']] else []) ++ [['T', 'E', 'X', 'T']]
  pseudos := [['*']]

/-- src/parsers.cpp:553-561 `Pdp8LetterParser::readLetter`; `none` is ILLEGAL_CONSTANT. -/
def readLetter : Scan → Option (Nat × Scan)
  | [] => none
  | c :: p => if c = '\x00' ∨ (0x60 ≤ c.toNat ∧ c.toNat < 0x7F) then none else some ((c.toNat + 0x80) % 256, p)

/-- src/parsers.cpp:537-551 `Pdp8LetterParser::parseLetter`, with 339-356 for a letter in quotes -/
def parseLetter (s : Scan) : Err × Nat × Scan :=
  match expect '\'' s with
  | some p =>
    match readLetter p with
    | none => (.ILLEGAL_CONSTANT, 0, s)
    | some (c, q) =>
      match expect '\'' q with
      | some rest => (.OK, c, rest)
      | none => (.MISSING_CLOSING_QUOTE, c, s)
  | none =>
    match expect '"' s with
    | some p =>
      match readLetter p with
      | none => (.ILLEGAL_CONSTANT, 0, s)
      | some (c, q) => (.OK, c, q)
    | none => (.NOT_AN_EXPECTED, 0, s)

/-- src/asm_pdp8.cpp:48-57 `defaultPlugins`; src/parsers.cpp:323-325 -/
def lexer : Lexer where
  number := .intel
  operators := .pdp8
  letter := parseLetter
  location s :=
    match locationSymbol Eval.symbolLetter '.' s with
    | some p => some p
    | none => locationSymbol Eval.symbolLetter '$' s
  symbolLetter := Eval.symbolLetter
  functionLetter := Eval.symbolLetter false
  endOfLine := endOfLine

/-- src/asm_base.cpp:112-124 `parseInteger` with the input radix of the assembler, which is 8 after
src/asm_pdp8.cpp:67-72 `reset` -/
def parseNumber (P : Plugins Value) (radix : Radix) (scan : Scan) (err : Err) : Out (Value × Err × Scan) :=
  (eval P scan err radix).bind fun r => .ok (r.value, r.err, r.scan)

/-- src/table_pdp8.cpp:397-404 `searchName` -/
def searchName (ps : List (Table.Page Op)) (name : List Char) : Option (Except Err Op) :=
  (Table.searchName (fun e : Op => Table.strcasecmp name e.name) (fun _ _ => true) ps false).map
    (·.map (·.2))

/-- src/table_pdp8.cpp:406-415 `searchMicro` -/
def searchMicro (ps : List (Table.Page Op)) (name : List Char) (m : Mode) : Option (Except Err Op) :=
  (Table.searchName (fun e : Op => Table.strcasecmp name e.name) (fun _ e => decide (e.mode = m)) ps false).map
    (·.map (·.2))

/-- The instruction being put together: `insn`, and `mode` and `done` of src/asm_pdp8.cpp:217-218. -/
structure Asm where
  opcode : Nat
  err : Err
  mode : Mode
  done : Nat
deriving DecidableEq, Repr

/-- `insn.setErrorIf(e)` -/
def Asm.setErrorIf (s : Asm) (e : Err) : Asm := { s with err := Config.setErrorIf s.err e }

/-- src/asm_pdp8.cpp:174-184 `encodeMicro`, and `setErrorIf` of what it gives -/
def encodeMicro (s : Asm) (m : Op) : Asm :=
  if s.done &&& m.bits ≠ 0 then s.setErrorIf .INVALID_INSTRUCTION
  else if s.opcode &&& m.selector ≠ m.opcode &&& m.selector then s.setErrorIf .INVALID_INSTRUCTION
  else { s with done := s.done ||| m.bits, opcode := s.opcode ||| m.opcode }

/-- src/asm_pdp8.cpp:239-252: the first group that has the name, from the groups `ms` -/
def firstGroup (ps : List (Table.Page Op)) (name : List Char) (s : Asm) : List Mode → Out Asm
  | [] => .ok (s.setErrorIf .UNKNOWN_INSTRUCTION)
  | m :: ms =>
    match searchMicro ps name m with
    | none => .ub
    | some (.ok e) => .ok (encodeMicro { s with mode := m } e)
    | some (.error _) => firstGroup ps name s ms

/-- src/asm_pdp8.cpp:225-252: one name of `parseOperateOperand` -/
def operateMicro (ps : List (Table.Page Op)) (name : List Char) (s : Asm) : Out Asm :=
  match searchName ps name with
  | none => .ub
  | some x =>
    let s := s.setErrorIf (match x with | .ok _ => .OK | .error e => e)
    if s.err = .UNKNOWN_INSTRUCTION then .ok s
    else if s.mode ≠ .NONE then
      match searchMicro ps name s.mode with
      | none => .ub
      | some (.ok e) => .ok (encodeMicro s e)
      | some (.error e) =>
        .ok (s.setErrorIf (if e = .OPERAND_NOT_ALLOWED then .INVALID_INSTRUCTION else e))
    else firstGroup ps name s [.GR1, .GR2, .GR3]

/-- src/value_parser.cpp:444-461 `readInstruction` for micro-operations -/
def readMicro (p : Scan) : List Char × Scan :=
  readInstruction (fun c => Eval.symbolLetter false c || c == '*' || c == '=') (fun c => c == '*' || c == '=') p

/-- src/asm_pdp8.cpp:228-261: the loop of `parseOperateOperand`. Every turn takes a letter at least, so the number
of turns allowed is not reached. -/
def operateLoop (ps : List (Table.Page Op)) (start : Scan) : Nat → Scan → Asm → Out (Asm × Scan)
  | 0, _, _ => .diverge
  | n + 1, p, s =>
    let p := skipSpaces p
    if endOfLine p then .ok (s, p)
    else
      match readMicro p with
      | ([], _) => .ok ({ s with err := .UNKNOWN_INSTRUCTION }, start)
      | (name, q) => (operateMicro ps (name.take 11) s).bind fun s => operateLoop ps start n q s

/-- src/asm_pdp8.cpp:186-200 `parseField` -/
def parseField (P : Plugins Value) (radix : Radix) (scan : Scan) (s : Asm) : Out (Asm × Scan) :=
  (parseNumber P radix scan s.err).bind fun (v, err, p) =>
  let s := { s with err := err }
  if hasError err then .ok (s, scan)
  else
    let field := v.getUnsigned
    if field < 8 then .ok ({ s with opcode := s.opcode ||| field * 8 }, p)
    else if field &&& 0xFFFFFFC7 ≠ 0 then
      .ok ({ s.setErrorIf .ILLEGAL_OPERAND with opcode := s.opcode ||| (field &&& 0xFFFFFFC7) % 65536 }, p)
    else .ok ({ s with opcode := s.opcode ||| field % 65536 }, p)

/-- src/asm_pdp8.cpp:206-218: the loop of `parseMemExtensionOperand` -/
def extensionLoop (P : Plugins Value) (radix : Radix) (ps : List (Table.Page Op)) : Nat → Scan → Asm → Out (Asm × Scan)
  | 0, _, _ => .diverge
  | n + 1, p, s =>
    let p := skipSpaces p
    if endOfLine p then .ok ({ s with err := .MISSING_OPERAND }, p)
    else
      match readMicro p with
      | ([], _) => parseField P radix p s
      | (name, q) =>
        match searchName ps (name.take 11) with
        | none => .ub
        | some (.error _) => parseField P radix p s
        | some (.ok _) =>
          match searchMicro ps (name.take 11) .MEX with
          | none => .ub
          | some (.error _) => parseField P radix p s
          | some (.ok e) => extensionLoop P radix ps n q (encodeMicro s e)

/-- src/asm_pdp8.cpp:129-151 `parseMemReferenceOperand` -/
def parseMem (P : Plugins Value) (radix : Radix) (addr : Nat) (scan : Scan) (s : Asm) : Out (Asm × Scan) :=
  let (indir, p) :=
    match iexpect 'i' scan with
    | some q =>
      match expect ' ' q with
      | some q => (true, q)
      | none => (false, scan)
    | none => (false, scan)
  (parseNumber P radix p s.err).bind fun (v, err, q) =>
  let s := { s with err := err }
  if hasError err then .ok (s, scan)
  else
    let target := v.getUnsigned
    let s := if indir then { s with opcode := s.opcode ||| 0x100 } else s
    if pageOf target = 0 then .ok ({ s with opcode := s.opcode ||| offsetOf target }, q)
    else if pageOf addr = pageOf target then
      .ok ({ s with opcode := s.opcode ||| (0x80 ||| offsetOf target) }, q)
    else .ok ({ s with err := .OPERAND_TOO_FAR }, scan)

/-- src/asm_pdp8.cpp:153-172 `parseIoTransferOperand` -/
def parseTransfer (P : Plugins Value) (radix : Radix) (scan : Scan) (s : Asm) : Out (Asm × Scan) :=
  (parseNumber P radix scan s.err).bind fun (device, err, p) =>
  let s := { s with err := err }
  if hasError err then .ok (s, scan)
  else
    let p := skipSpaces p
    if endOfLine p then .ok ({ s with err := .MISSING_OPERAND }, scan)
    else
      (parseNumber P radix p s.err).bind fun (control, err, q) =>
      let s := { s with err := err }
      if hasError err then .ok (s, scan)
      else if device.overflow 0x3F 0 then .ok (s.setErrorIf .OVERFLOW_RANGE, scan)
      else if control.overflow 7 0 then .ok (s.setErrorIf .OVERFLOW_RANGE, scan)
      else
        .ok ({ s with opcode := s.opcode ||| (device.getUnsigned * 8 ||| control.getUnsigned) % 65536 }, q)

/-- src/asm_pdp8.cpp:336-346: the operands of an instruction -/
def parseOperands (P : Plugins Value) (radix : Radix) (ps : List (Table.Page Op)) (addr : Nat) (op : Op) (scan : Scan) :
    Out (Asm × Scan) :=
  match op.mode with
  | .MEM => parseMem P radix addr scan ⟨op.opcode, .OK, .MEM, 0⟩
  | .GR1 | .GR2 | .GR3 =>
    operateLoop ps scan (scan.length + 1) scan
      ⟨op.opcode, .OK, if op.multi then .NONE else op.mode, op.bits⟩
  | .IOT => parseTransfer P radix scan ⟨op.opcode, .OK, .IOT, 0⟩
  | .MEX => extensionLoop P radix ps (scan.length + 1) scan ⟨op.opcode, .OK, .MEX, andNot op.opcode op.bits⟩
  | _ => .ok (⟨op.opcode, .OK, op.mode, 0⟩, scan)

/-- src/asm_pdp8.cpp:318-349 `encodeImpl` without the option `implicit-word`; src/insn_pdp8.h:39 `emitInsn` -/
def encodeImpl (E : Env) (radix : Radix) (cpu : CpuType) (addr : Nat) (name : List Char) (scan : Scan) : Out Res :=
  match searchName (pages cpu) name with
  | none => .ub
  | some (.error e) => .ok ⟨e, [], scan⟩
  | some (.ok op) =>
    (parseOperands (lexer.plugins E '\x00' addr) radix (pages cpu) addr op (skipSpaces scan)).bind fun (s, rest) =>
    .ok ⟨s.err, [s.opcode / 256 % 256, s.opcode % 256], rest⟩

/-- Assembling one line without label: `Assembler::encode` of an `AsmPdp8` with this input radix. -/
def assemble (E : Env) (radix : Radix) (cpu : CpuType) (addr : Nat) (line : List Char) : Out Line :=
  encode (syntaxOf cpu) (width cpu) (encodeImpl E radix cpu addr) addr line

end Libasm.Cpu.Pdp8
