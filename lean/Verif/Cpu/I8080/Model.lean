import Verif.Cpu.Model
import Verif.Tables.Data.I8080
/-
The assembler and the disassembler of the i8080 family, in Intel and in Zilog syntax:
src/asm_i8080.cpp, src/dis_i8080.cpp, src/table_i8080.cpp, src/reg_i8080.cpp, src/insn_i8080.h. The
instruction tables are Verif/Tables/Data/I8080.lean, generated from src/table_i8080.cpp.
-/
namespace Libasm.Cpu.I8080
open Scan Number Eval
open Tables (Row)

/-- src/config_i8080.h:25-29 `CpuType` -/
inductive CpuType | I8080 | I8085 | V30EMU
deriving DecidableEq, Repr

/-- src/reg_i8080.h:28-48 `RegName`; REG_UNDEF is `none` where it occurs. -/
inductive Reg | B | C | D | E | H | L | M | A | BC | DE | HL | SP | PSW | AF | IM
deriving DecidableEq, Repr

/-- The numbers of src/reg_i8080.h:28-48. -/
def Reg.num : Reg → Nat
  | .B => 0 | .C => 1 | .D => 2 | .E => 3 | .H => 4 | .L => 5 | .M => 6 | .A => 7
  | .BC => 8 | .DE => 9 | .HL => 10 | .SP => 11 | .PSW => 12 | .AF => 13 | .IM => 14

/-- src/reg_i8080.h:50-60 `CcName` -/
inductive Cc | NZ | Z | NC | C | PO | PE | P | M
deriving DecidableEq, Repr

/-- The numbers of src/reg_i8080.h:50-60; src/reg_i8080.cpp:193-195 `encodeCcName`. -/
def Cc.num : Cc → Nat
  | .NZ => 0 | .Z => 1 | .NC => 2 | .C => 3 | .PO => 4 | .PE => 5 | .P => 6 | .M => 7

/-- src/entry_i8080.h:29-56 `AddrMode`: `R r` is R_BASE + r, `I r` is I_BASE + r. -/
inductive Mode
  | NONE | IM8 | IM16 | ABS | IOA | PTR | STK | IDX | SRC | DST | VEC | CC | R (r : Reg) | I (r : Reg)
  | UNDEF
deriving DecidableEq, Repr

/-- The name of an addressing mode in the table. -/
def modeOf : String → Mode
  | "M_IM8" => .IM8
  | "M_IM16" => .IM16
  | "M_ABS" => .ABS
  | "M_IOA" => .IOA
  | "M_PTR" => .PTR
  | "M_STK" => .STK
  | "M_IDX" => .IDX
  | "M_SRC" => .SRC
  | "M_DST" => .DST
  | "M_VEC" => .VEC
  | "M_CC" => .CC
  | "R_A" => .R .A
  | "R_DE" => .R .DE
  | "R_HL" => .R .HL
  | "R_SP" => .R .SP
  | "R_IM" => .R .IM
  | "I_HL" => .I .HL
  | "I_SP" => .I .SP
  | _ => .UNDEF

/-- src/table_i8080.cpp:27-33: the addressing modes of a row, and whether it is undefined. -/
def flags (r : Row) : Mode × Mode × Bool :=
  match r.operands with
  | ["E0"] => (.NONE, .NONE, false)
  | ["E1", d] => (modeOf d, .NONE, false)
  | ["E2", d, s] => (modeOf d, modeOf s, false)
  | ["U2", d, s] => (modeOf d, modeOf s, true)
  | _ => (.UNDEF, .UNDEF, true)

/-- src/table_i8080.cpp:419-422 `cpu`: the pages of the processor. -/
def pages (cpu : CpuType) (zilog : Bool) : List (Table.Page Row) :=
  match cpu, zilog with
  | .I8080, false => Tables.I8080.I8080_PAGES
  | .I8085, false => Tables.I8080.I8085_PAGES
  | .V30EMU, false => Tables.I8080.V30EMU_PAGES
  | .I8080, true => Tables.I8080.Z8080_PAGES
  | .I8085, true => Tables.I8080.Z8085_PAGES
  | .V30EMU, true => Tables.I8080.Z30EMU_PAGES

/-! ### Registers -/

/-- src/reg_i8080.cpp:30-41 -/
def intelRegs : List (List Char × Reg) :=
  [(['A'], .A), (['B'], .B), (['C'], .C), (['D'], .D), (['E'], .E), (['H'], .H), (['L'], .L),
   (['M'], .M), (['P', 'S', 'W'], .PSW), (['S', 'P'], .SP)]

/-- src/reg_i8080.cpp:43-59 -/
def zilogRegs : List (List Char × Reg) :=
  [(['A'], .A), (['A', 'F'], .AF), (['B'], .B), (['B', 'C'], .BC), (['C'], .C), (['D'], .D),
   (['D', 'E'], .DE), (['E'], .E), (['H'], .H), (['H', 'L'], .HL), (['I', 'M'], .IM), (['L'], .L),
   (['M'], .M), (['P', 'S', 'W'], .PSW), (['S', 'P'], .SP)]

/-- src/reg_i8080.cpp:61-70 -/
def ccs : List (List Char × Cc) :=
  [(['C'], .C), (['M'], .M), (['N', 'C'], .NC), (['N', 'Z'], .NZ), (['P'], .P), (['P', 'E'], .PE),
   (['P', 'O'], .PO), (['Z'], .Z)]

/-- The number of a register as `uint8_t`; REG_UNDEF is -1. -/
def regNum : Option Reg → Nat
  | some r => r.num
  | none => 255

/-- `name >= REG_BC`, of an `int8_t`. -/
def isPair : Option Reg → Bool
  | some r => decide (r.num ≥ 8)
  | none => false

/-- src/reg_i8080.cpp:110-114 `encodePointerReg` -/
def encodePointerReg (r : Option Reg) : Nat :=
  if isPair r then regNum r - 8 else regNum r / 2

/-- src/reg_i8080.cpp:128-134 `encodeStackReg` -/
def encodeStackReg (r : Option Reg) : Nat :=
  if r = some .PSW ∨ r = some .AF then 3 else if isPair r then regNum r - 8 else regNum r / 2

/-- src/reg_i8080.cpp:140-144 `encodeIndexReg` -/
def encodeIndexReg (r : Option Reg) : Nat :=
  if isPair r then regNum r - 8 else regNum r / 2

/-- src/reg_i8080.cpp:151-155 `encodeDataReg` -/
def encodeDataReg (r : Option Reg) : Nat :=
  regNum (if r = some .HL then some .M else r)

/-- src/reg_i8080.cpp:157-162 `decodePointerReg` -/
def decodePointerReg (num : Nat) (zilog : Bool) : Reg :=
  match num % 4 with
  | 0 => if zilog then .BC else .B
  | 1 => if zilog then .DE else .D
  | 2 => if zilog then .HL else .H
  | _ => .SP

/-- src/reg_i8080.cpp:164-169 `decodeStackReg` -/
def decodeStackReg (num : Nat) (zilog : Bool) : Reg :=
  match num % 4 with
  | 0 => if zilog then .BC else .B
  | 1 => if zilog then .DE else .D
  | 2 => if zilog then .HL else .H
  | _ => if zilog then .AF else .PSW

/-- src/reg_i8080.cpp:171-177 `decodeIndexReg` -/
def decodeIndexReg (num : Nat) (zilog : Bool) : Reg :=
  if num % 2 = 0 then (if zilog then .BC else .B) else (if zilog then .DE else .D)

/-- src/reg_i8080.cpp:179-181 `decodeDataReg` -/
def decodeDataReg (num : Nat) : Reg :=
  match num % 8 with
  | 0 => .B | 1 => .C | 2 => .D | 3 => .E | 4 => .H | 5 => .L | 6 => .M | _ => .A

/-- src/reg_i8080.cpp:197-199 `decodeCcName` -/
def decodeCcName (num : Nat) : Cc :=
  match num % 8 with
  | 0 => .NZ | 1 => .Z | 2 => .NC | 3 => .C | 4 => .PO | 5 => .PE | 6 => .P | _ => .M

/-! ### Disassembler -/

/-- src/reg_i8080.cpp:86-96 `outRegName` -/
def outRegName (o : Opts) (r : Reg) (indirect : Bool) : List Char :=
  (if indirect then [letter o.upper '('] else []) ++ outText o (regText zilogRegs r) ++
    (if indirect then [letter o.upper ')'] else [])

/-- `opc & ~mask` of the masks 7, 070, 0x30 and 0x10 -/
def clear (opc lo width : Nat) : Nat :=
  opc - opc / 2 ^ lo % 2 ^ width * 2 ^ lo

/-- src/table_i8080.cpp:483-500 `matchOpCode`. (`dst == M_STK` is there twice, no source is
M_STK.) -/
def matchOpCode (opc : Nat) (r : Row) : Bool :=
  let dst := (flags r).1
  let src := (flags r).2.1
  let opc := if dst = .SRC ∨ src = .SRC then clear opc 0 3 else opc
  let opc := if dst = .DST then clear opc 3 3 else opc
  let opc :=
    if dst = .PTR ∨ dst = .STK ∨ src = .PTR then clear opc 4 2
    else if dst = .IDX ∨ src = .IDX then clear opc 4 1
    else if dst = .CC ∨ dst = .VEC then clear opc 3 3
    else opc
  opc == r.opcode

/-- src/table_i8080.cpp:507-509 `isPrefix` -/
def isPrefix (cpu : CpuType) (code : Nat) : Bool := cpu = .V30EMU && code == 0xed

/-- src/table_i8080.cpp:502-505 `searchOpCode` -/
def searchOpCode (cpu : CpuType) (zilog : Bool) (pre opc : Nat) : Option Row :=
  (Table.searchOpCode (fun _ r => matchOpCode opc r) (fun p => pre == p.prefix_)
    (pages cpu zilog)).map (·.2)

/-- src/dis_i8080.cpp:48-55 `outDataReg` -/
def outDataReg (o : Opts) (zilog : Bool) (num : Nat) : List Char :=
  if num % 8 = 6 ∧ zilog = true then outRegName o .HL true
  else outRegName o (decodeDataReg (num % 8)) false

/-- Between parentheses in Zilog syntax, src/dis_i8080.cpp:64-68,74-78. -/
def inParen (o : Opts) (zilog : Bool) (t : List Char) : List Char :=
  if zilog then [letter o.upper '('] ++ t ++ [letter o.upper ')'] else t

/-- src/dis_i8080.cpp:57-113 `decodeOperand` -/
def decodeOperand (o : Opts) (zilog : Bool) (opc : Nat) (m : Mode) (r : Rd) : List Char × Rd :=
  match m with
  | .IM8 => (outHex .intel o r.byte.1 8 true, r.byte.2)
  | .IOA => (inParen o zilog (outHex .intel o r.byte.1 8 false), r.byte.2)
  | .IM16 => (outHex .intel o r.le16.1 16 true, r.le16.2)
  | .ABS => (inParen o zilog (outAbsAddr .intel o 16 r.le16.1), r.le16.2)
  | .PTR => (outRegName o (decodePointerReg (opc / 16) zilog) false, r)
  | .STK => (outRegName o (decodeStackReg (opc / 16) zilog) false, r)
  | .IDX => (outRegName o (decodeIndexReg (opc / 16) zilog) zilog, r)
  | .SRC => (outDataReg o zilog opc, r)
  | .DST => (outDataReg o zilog (opc / 8), r)
  | .VEC =>
    if zilog then (outHex .intel o (opc / 8 % 8 * 8) 8 true, r)
    else (outHex .intel o (opc / 8 % 8) 3 true, r)
  | .CC => (outText o (regText ccs (decodeCcName (opc / 8))), r)
  | .R reg => (outRegName o reg false, r)
  | .I reg => (outRegName o reg true, r)
  | .NONE | .UNDEF => ([], r)

/-- src/dis_i8080.cpp:125-136: the instruction of the prefix and code read so far. -/
def decodeInsn (o : Opts) (cpu : CpuType) (zilog : Bool) (pre opc : Nat) (r : Rd) : Dis :=
  match searchOpCode cpu zilog pre opc with
  | none => ⟨.UNKNOWN_INSTRUCTION, [], [], r.bytes⟩
  | some row =>
    let r := { r with err := Err.OK }
    let dst := (flags row).1
    let src := (flags row).2.1
    if dst = .NONE then ⟨r.err, outText o row.name, [], r.bytes⟩
    else
      let (t, r) := decodeOperand o zilog opc dst r
      if src = .NONE then ⟨r.err, outText o row.name, t, r.bytes⟩
      else
        let (u, r) := decodeOperand o zilog opc src r
        ⟨r.err, outText o row.name, t ++ [',', ' '] ++ u, r.bytes⟩

/-- src/dis_i8080.cpp:115-136 `decodeImpl` -/
def decodeImpl (o : Opts) (cpu : CpuType) (zilog : Bool) (_addr : Nat) (mem : List Nat) : Dis :=
  let (opc, r) := (⟨mem, [], .OK⟩ : Rd).byte
  if isPrefix cpu opc then
    let (opc', r) := r.byte
    if r.err ≠ .OK then ⟨r.err, [], [], r.bytes⟩ else decodeInsn o cpu zilog opc opc' r
  else decodeInsn o cpu zilog 0 opc r

/-- Disassembling one instruction: `Disassembler::decode` of a `DisI8080`. -/
def disassemble (o : Opts) (cpu : CpuType) (zilog : Bool) (addr : Nat) (mem : List Nat) : Dis :=
  decode 16 (decodeImpl o cpu zilog) addr mem

/-! ### Assembler -/

/-- The symbol parser of src/asm_i8080.cpp:45-47, the special directive of lines 249-256 and the
table of lines 32-40. -/
def syntaxOf : Syntax where
  instructionLetter c := prefixSymbol (some ['@', '?']) none false c
  instructionTerminator _ := false
  commentLine := semicolonEnd
  special := [['Z', '8', '0', 'S', 'Y', 'N', 'T', 'A', 'X']]
  pseudos := [['D', 'B'], ['D', 'E', 'F', 'B'], ['D', 'E', 'F', 'M'], ['D', 'E', 'F', 'S'],
    ['D', 'E', 'F', 'W'], ['D', 'S'], ['D', 'W']]

/-- src/asm_i8080.cpp:50-55 `defaultPlugins` -/
def lexer : Lexer where
  number := .intel
  operators := .intel
  letter := defaultLetter
  location := locationSymbol (prefixSymbol (some ['@', '?']) none) '$'
  symbolLetter := prefixSymbol (some ['@', '?']) none
  functionLetter := prefixSymbol (some ['@', '?']) none false
  endOfLine := semicolonEnd

/-- src/insn_i8080.h:34-39 `Operand` -/
structure Operand where
  err : Err := .OK
  mode : Mode := .NONE
  reg : Option Reg := none
  val : Value := Value.undefined

/-- src/reg_i8080.cpp:81-84 `parseRegName` -/
def parseRegName (zilog : Bool) (s : Scan) : Out (Option Reg × Scan) :=
  (searchText (if zilog then zilogRegs else intelRegs) s).bind fun
    | some (r, p) => .ok (some r, p)
    | none => .ok (none, s)

/-- src/reg_i8080.cpp:183-186 `parseCcName` -/
def parseCcName (s : Scan) : Out (Option Cc × Scan) :=
  (searchText ccs s).bind fun
    | some (r, p) => .ok (some r, p)
    | none => .ok (none, s)

/-- src/asm_i8080.cpp:156-166: the mode of a register in Zilog syntax. -/
def zilogRegMode (r : Reg) : Mode :=
  match r with
  | .B | .D | .E | .H | .L => .SRC
  | r => .R r

/-- src/asm_i8080.cpp:215-230: the mode of a register in Intel syntax. -/
def intelRegMode (r : Reg) : Mode :=
  match r with
  | .H => .R .H
  | .SP => .PTR
  | .PSW => .STK
  | .B | .D => .IDX
  | _ => .SRC

/-- `Value::setUnsigned` of a small number. -/
def unsigned (n : Nat) : Value := Value.setUnsigned n

/-- src/asm_i8080.cpp:127-206 `parseZilogOperand`: the operand and the text after it. `plugins` are
those of the assembler with a delimiter. -/
def parseZilogOperand (plugins : Char → Plugins Value) (scan : Scan) : Out (Operand × Scan) :=
  let p := skipSpaces scan
  if (plugins '\x00').endOfLine p then .ok ({}, p)
  else
    (parseRegName true p).bind fun (reg, a) =>
    if reg = some .C then .ok ({ mode := .R .C, reg := some .C, val := unsigned Cc.C.num }, a)
    else
      (parseCcName p).bind fun (cc, q) =>
      match cc with
      | some cc => .ok ({ mode := .CC, val := unsigned cc.num }, q)
      | none =>
        match reg with
        | some r => .ok ({ mode := zilogRegMode r, reg := some r }, a)
        | none =>
          match expect '(' p with
          | some q =>
            (parseRegName true (skipSpaces q)).bind fun (reg, b) =>
            match reg with
            | none =>
              (parseInteger (plugins ')') (skipSpaces q) .OK).bind fun (val, err, b) =>
              if hasError err then .ok ({ err := err, val := val }, p)
              else
                match expect ')' (skipSpaces b) with
                | none => .ok ({ err := .MISSING_CLOSING_PAREN, val := val }, p)
                | some b => .ok ({ err := err, mode := .ABS, val := val }, b)
            | some r =>
              match expect ')' (skipSpaces b) with
              | none => .ok ({ err := .UNKNOWN_OPERAND, reg := some r }, p)
              | some b =>
                match r with
                | .BC | .DE => .ok ({ mode := .IDX, reg := some r }, b)
                | .HL | .SP => .ok ({ mode := .I r, reg := some r }, b)
                | _ => .ok ({ err := .REGISTER_NOT_ALLOWED, reg := some r }, p)
          | none =>
            (parseInteger (plugins '\x00') p .OK).bind fun (val, err, q) =>
            if hasError err then .ok ({ err := err, val := val }, p)
            else .ok ({ err := err, mode := .IM16, val := val }, q)

/-- src/asm_i8080.cpp:208-243 `parseIntelOperand` -/
def parseIntelOperand (plugins : Char → Plugins Value) (scan : Scan) : Out (Operand × Scan) :=
  let p := skipSpaces scan
  if (plugins '\x00').endOfLine p then .ok ({}, p)
  else
    (parseRegName false p).bind fun (reg, a) =>
    match reg with
    | some r => .ok ({ mode := intelRegMode r, reg := some r }, a)
    | none =>
      (parseInteger (plugins '\x00') p .OK).bind fun (val, err, q) =>
      if hasError err then .ok ({ err := err, val := val }, p)
      else .ok ({ err := err, mode := .IM16, val := val }, q)

/-- src/asm_i8080.cpp:245-247 `parseOperand` -/
def parseOperand (plugins : Char → Plugins Value) (zilog : Bool) (scan : Scan) :
    Out (Operand × Scan) :=
  if zilog then parseZilogOperand plugins scan else parseIntelOperand plugins scan

/-- src/table_i8080.cpp:424-434 `acceptIntelMode` -/
def acceptIntelMode (opr table : Mode) : Bool :=
  if opr = table then true
  else
    match opr with
    | .SRC => table == .DST
    | .IDX | .R .H => table == .PTR || table == .STK || table == .SRC || table == .DST
    | .IM16 => table == .IM8 || table == .ABS || table == .IOA || table == .VEC
    | _ => false

/-- src/table_i8080.cpp:442-464 `acceptZilogMode` -/
def acceptZilogMode (opr table : Mode) : Bool :=
  if opr = table then true
  else
    match opr with
    | .SRC | .R .A => table == .DST || table == .SRC
    | .I .HL => table == .SRC || table == .DST
    | .R .C => table == .SRC || table == .DST || table == .CC
    | .R .BC | .R .DE | .R .HL => table == .PTR || table == .STK
    | .R .SP => table == .PTR
    | .R .AF => table == .STK
    | .IM16 => table == .IM8 || table == .VEC
    | .ABS => table == .IOA
    | _ => false

/-- src/table_i8080.cpp:436-440,466-475 `acceptIntelModes`, `acceptZilogModes` -/
def acceptModes (zilog : Bool) (dst src : Mode) (r : Row) : Bool :=
  if zilog then acceptZilogMode dst (flags r).1 && acceptZilogMode src (flags r).2.1
  else acceptIntelMode dst (flags r).1 && acceptIntelMode src (flags r).2.1

/-- src/table_i8080.cpp:477-481 `searchName`: the prefix and the row. `acceptZilogModes` leaves an
error behind when it takes an undefined row. -/
def searchName (cpu : CpuType) (zilog : Bool) (name : List Char) (dst src : Mode) :
    Out (Except Err (Nat × Row)) :=
  match Table.searchName (fun r : Row => Table.strcasecmp name r.name)
      (fun _ r => acceptModes zilog dst src r) (pages cpu zilog) false with
  | some (.ok (pre, r)) =>
    .ok (if zilog = true ∧ (flags r).2.2 = true then .error .OPERAND_NOT_ALLOWED else .ok (pre, r))
  | some (.error e) => .ok (.error e)
  | none => .ub

/-- `AsmInsn`: error, code, and the bytes after the code. -/
structure Asm where
  err : Err
  opc : Nat
  operand : List Nat

/-- `insn.setErrorIf(op, e)`. -/
def Asm.setErrorIf (a : Asm) (e : Err) : Asm := { a with err := Config.setErrorIf a.err e }
/-- `insn.embed(x)` of an 8 bit code. -/
def Asm.embed (a : Asm) (x : Nat) : Asm := { a with opc := (a.opc ||| x) % 256 }
/-- src/insn_i8080.h:53 `emitOperand8` -/
def Asm.emit8 (a : Asm) (x : Nat) : Asm := { a with operand := a.operand ++ [x % 256] }
/-- src/insn_i8080.h:54 `emitOperand16` -/
def Asm.emit16 (a : Asm) (x : Nat) : Asm :=
  { a with operand := a.operand ++ [x % 256, x / 256 % 256] }

/-- src/asm_i8080.cpp:74-125 `encodeOperand` -/
def encodeOperand (zilog : Bool) (op : Operand) (m : Mode) (a : Asm) : Asm :=
  let a := a.setErrorIf op.err
  let val16 := op.val.getUnsigned % 65536
  match m with
  | .IOA =>
    let a := if op.val.overflow 255 0 then a.setErrorIf .OVERFLOW_RANGE else a
    let a := if op.val.overflowUint8 then a.setErrorIf .OVERFLOW_RANGE else a
    a.emit8 val16
  | .IM8 =>
    let a := if op.val.overflowUint8 then a.setErrorIf .OVERFLOW_RANGE else a
    a.emit8 val16
  | .IM16 | .ABS => a.emit16 val16
  | .PTR => a.embed (encodePointerReg op.reg * 16)
  | .STK => a.embed (encodeStackReg op.reg * 16)
  | .IDX => a.embed (encodeIndexReg op.reg * 16)
  | .SRC => a.embed (encodeDataReg op.reg)
  | .DST => a.embed (encodeDataReg op.reg * 8)
  | .VEC =>
    if zilog then
      if val16 &&& 0xffc7 ≠ 0 then (a.setErrorIf .ILLEGAL_OPERAND).embed (val16 &&& 0xffc7)
      else a.embed val16
    else
      let a := if op.val.overflow 7 0 then a.setErrorIf .OVERFLOW_RANGE else a
      a.embed (val16 % 8 * 8)
  | .CC => a.embed (val16 * 8)
  | _ => a

/-- src/insn_i8080.h:47-52 `emitInsn`: the operands were placed after the room for the code. -/
def Asm.emitInsn (a : Asm) (pre : Nat) : List Nat :=
  (if pre ≠ 0 then [pre % 256] else []) ++ [a.opc % 256] ++ a.operand

/-- src/asm_i8080.cpp:265-275: after the operands are read. -/
def encodeInsn (cpu : CpuType) (zilog : Bool) (name : List Char) (dst src : Operand) (scan : Scan) :
    Out Res :=
  (searchName cpu zilog name dst.mode src.mode).bind fun
  | .error e => .ok ⟨e, [], scan⟩
  | .ok (pre, row) =>
    let a := encodeOperand zilog dst (flags row).1 ⟨.OK, row.opcode, []⟩
    let a := encodeOperand zilog src (flags row).2.1 a
    .ok ⟨a.err, a.emitInsn pre, scan⟩

/-- src/asm_i8080.cpp:258-276 `encodeImpl`. An error in the second operand does not end it: line 263
asks for the error of the instruction, which has none yet. -/
def encodeImpl (plugins : Char → Plugins Value) (cpu : CpuType) (zilog : Bool) (name : List Char)
    (scan : Scan) : Out Res :=
  (parseOperand plugins zilog scan).bind fun (dst, scan) =>
  if hasError dst.err then .ok ⟨dst.err, [], scan⟩
  else
    match expect ',' (skipSpaces scan) with
    | some scan =>
      (parseOperand plugins zilog scan).bind fun (src, scan) =>
      encodeInsn cpu zilog name dst src (skipSpaces scan)
    | none => encodeInsn cpu zilog name dst {} (skipSpaces scan)

/-- Assembling one line: `Assembler::encode` of an `AsmI8080`. -/
def assemble (E : Env) (cpu : CpuType) (zilog : Bool) (addr : Nat) (line : List Char) : Out Line :=
  encode syntaxOf 16 (encodeImpl (fun delim => lexer.plugins E delim addr) cpu zilog) addr line

end Libasm.Cpu.I8080
