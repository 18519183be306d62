import Verif.Cpu.ListModel
import Verif.Cpu.Intel
import Verif.Tables.Data.Tlcs90
/-
The assembler and the disassembler of the TLCS-90: src/asm_tlcs90.cpp, src/dis_tlcs90.cpp,
src/table_tlcs90.cpp, src/reg_tlcs90.cpp, src/insn_tlcs90.h. The instruction tables are
Verif/Tables/Data/Tlcs90.lean, generated from src/table_tlcs90.cpp.
-/
namespace Libasm.Cpu.Tlcs90
open Scan Number Eval

/-- src/reg_tlcs90.h:28-49 `RegName`; REG_UNDEF is `none` where it occurs. -/
inductive Reg | BC | DE | HL | IX | IY | SP | AF | AFP | B | C | D | E | H | L | A
deriving DecidableEq, Repr

/-- The numbers of src/reg_tlcs90.h:28-49. -/
def Reg.num : Reg → Nat
  | .BC => 0 | .DE => 1 | .HL => 2 | .IX => 4 | .IY => 5 | .SP => 6 | .AF => 14 | .AFP => 15
  | .B => 16 | .C => 17 | .D => 18 | .E => 19 | .H => 20 | .L => 21 | .A => 22

/-- src/entry_tlcs90.h:29-63 `AddrMode`: `R r` is R_BASE + r. -/
inductive Mode
  | NONE | IMM8 | IMM16 | BIT | EXT | DIR | REL8 | REL16 | IND | IDX | BASE | CC | STACK | REG8 | REG16 | REGIX
  | HLPA | IXPD | R (r : Reg) | SYM | SRC16 | SRC | DST | UNDEF
deriving DecidableEq, Repr

/-- The name of an addressing mode in the table. -/
def modeOf : String → Mode
  | "M_NONE" => .NONE
  | "M_IMM8" => .IMM8
  | "M_IMM16" => .IMM16
  | "M_BIT" => .BIT
  | "M_EXT" => .EXT
  | "M_DIR" => .DIR
  | "M_REL8" => .REL8
  | "M_REL16" => .REL16
  | "M_IND" => .IND
  | "M_IDX" => .IDX
  | "M_BASE" => .BASE
  | "M_CC" => .CC
  | "M_STACK" => .STACK
  | "M_REG8" => .REG8
  | "M_REG16" => .REG16
  | "M_REGIX" => .REGIX
  | "M_HLPA" => .HLPA
  | "M_IXPD" => .IXPD
  | "M_SRC16" => .SRC16
  | "M_SRC" => .SRC
  | "M_DST" => .DST
  | "R_BC" => .R .BC
  | "R_DE" => .R .DE
  | "R_HL" => .R .HL
  | "R_SP" => .R .SP
  | "R_AF" => .R .AF
  | "R_AFP" => .R .AFP
  | "R_A" => .R .A
  | _ => .UNDEF

/-- src/entry_tlcs90.h:65-91 `Entry`, together with the addressing mode of the page it is in. -/
structure Entry where
  page : Mode
  opcode : Nat
  name : List Char
  dst : Mode
  src : Mode
deriving DecidableEq

/-- src/table_tlcs90.cpp:28-31: a row of the table. -/
def entryOf (page : Mode) (r : Tables.Row) : Entry :=
  match r.operands with
  | ["E0"] => ⟨page, r.opcode, r.name, .NONE, .NONE⟩
  | ["E1", d] => ⟨page, r.opcode, r.name, modeOf d, .NONE⟩
  | ["E2", d, s] => ⟨page, r.opcode, r.name, modeOf d, modeOf s⟩
  | _ => ⟨page, r.opcode, r.name, .UNDEF, .UNDEF⟩

/-- src/table_tlcs90.cpp:524-545 `TLCS90_PAGES` -/
def pages : List (Table.Page Entry) := Tables.Tlcs90.TLCS90_PAGES.map fun p =>
  ⟨p.prefix_, p.extra, p.entries.map (entryOf (modeOf (p.extra.headD ""))), p.index⟩

/-- src/table_tlcs90.cpp:495 `readPrefixMode` -/
def pageMode (p : Table.Page Entry) : Mode := modeOf (p.extra.headD "")

/-! ### Registers -/

/-- src/reg_tlcs90.cpp:32-48 `REG_ENTRIES` -/
def regs : List (List Char × Reg) :=
  [(['A'], .A), (['A', 'F'], .AF), (['A', 'F', '\''], .AFP), (['B'], .B), (['B', 'C'], .BC), (['C'], .C),
   (['D'], .D), (['D', 'E'], .DE), (['E'], .E), (['H'], .H), (['H', 'L'], .HL), (['I', 'X'], .IX),
   (['I', 'Y'], .IY), (['L'], .L), (['S', 'P'], .SP)]

/-- src/reg_tlcs90.cpp:50-74 `CC_ENTRIES`, with the numbers of src/reg_tlcs90.h:51-78 `CcName`. -/
def ccs : List (List Char × Nat) :=
  [(['C'], 7), (['E', 'Q'], 22), (['F'], 0), (['G', 'E'], 9), (['G', 'T'], 10), (['L', 'E'], 2), (['L', 'T'], 1),
   (['M'], 21), (['M', 'I'], 5), (['N', 'C'], 15), (['N', 'E'], 30), (['N', 'O', 'V'], 12), (['N', 'Z'], 14),
   (['O', 'V'], 4), (['P'], 29), (['P', 'E'], 20), (['P', 'L'], 13), (['P', 'O'], 28), (['U', 'G', 'E'], 31),
   (['U', 'G', 'T'], 11), (['U', 'L', 'E'], 3), (['U', 'L', 'T'], 23), (['Z'], 6)]

/-- The number of a register as `uint8_t`; REG_UNDEF is -1. -/
def regNum : Option Reg → Nat
  | some r => r.num
  | none => 255

/-- src/reg_tlcs90.cpp:92-94 `isReg16` -/
def isReg16 (r : Reg) : Bool := decide (r.num ≤ 6)
/-- src/reg_tlcs90.cpp:96-98 `isRegIndex` -/
def isRegIndex (r : Reg) : Bool := isReg16 r && decide (4 ≤ r.num)

/-- src/reg_tlcs90.cpp:100-102 `encodeReg8` -/
def encodeReg8 (r : Option Reg) : Nat := (regNum r + 240) % 256

/-- src/reg_tlcs90.cpp:104-109 `decodeReg8` -/
def decodeReg8 (num : Nat) : Option Reg :=
  match num % 8 with
  | 0 => some .B | 1 => some .C | 2 => some .D | 3 => some .E | 4 => some .H | 5 => some .L | 6 => some .A
  | _ => none

/-- src/reg_tlcs90.cpp:111-113 `encodeReg16` -/
def encodeReg16 (r : Option Reg) : Nat := regNum r

/-- src/reg_tlcs90.cpp:115-120 `decodeReg16` -/
def decodeReg16 (num : Nat) : Option Reg :=
  match num % 8 with
  | 0 => some .BC | 1 => some .DE | 2 => some .HL | 4 => some .IX | 5 => some .IY | 6 => some .SP
  | _ => none

/-- src/reg_tlcs90.cpp:122-126 `encodeStackReg` -/
def encodeStackReg (r : Option Reg) : Nat := if r = some .AF then 6 else regNum r

/-- src/reg_tlcs90.cpp:128-135 `decodeStackReg` -/
def decodeStackReg (num : Nat) : Option Reg :=
  match num % 8 with
  | 0 => some .BC | 1 => some .DE | 2 => some .HL | 4 => some .IX | 5 => some .IY | 6 => some .AF
  | _ => none

/-- src/reg_tlcs90.cpp:137-139 `encodeIndexReg` -/
def encodeIndexReg (r : Option Reg) : Nat := (regNum r + 252) % 256

/-- src/reg_tlcs90.cpp:141-146 `decodeIndexReg` -/
def decodeIndexReg (num : Nat) : Option Reg :=
  match num % 4 with
  | 0 => some .IX | 1 => some .IY | 2 => some .SP
  | _ => none

/-- src/reg_tlcs90.cpp:158-161 `encodeCcName`, of an `uint8_t` -/
def encodeCcName (cc : Nat) : Nat := if cc ≥ 16 then cc - 16 else cc

/-- src/reg_tlcs90.cpp:163-165 `decodeCcName` -/
def decodeCcName (num : Nat) : Nat := num % 16

/-! ### Disassembler -/

/-- src/table_tlcs90.cpp:496-515 `EntryPage::prefixMatcher` -/
def pageMatch (code : Nat) (p : Table.Page Entry) : Bool :=
  match pageMode p with
  | .IND | .REG16 => code / 8 * 8 == p.prefix_ && code % 8 != 3 && code % 8 != 7
  | .IDX | .IXPD => code / 4 * 4 == p.prefix_ && code % 8 != 3
  | .REG8 => code / 8 * 8 == p.prefix_ && code % 8 != 7
  | .CC => code / 16 * 16 == p.prefix_
  | _ => code == p.prefix_

/-- src/table_tlcs90.cpp:553-562 `isPrefix`: the addressing mode of the first page with this prefix. -/
def isPrefix (code : Nat) : Option Mode :=
  (pages.find? fun p => p.prefix_ != 0 && pageMatch code p).map pageMode

/-- src/table_tlcs90.cpp:647-656 `invalidPrefixCode` -/
def invalidCode (code : Nat) (m : Mode) : Bool :=
  match m with
  | .REG8 => code % 8 == 7
  | .REG16 | .STACK => code % 8 == 3 || code % 8 == 7
  | .REGIX => code % 4 == 3
  | _ => false

/-- src/table_tlcs90.cpp:658-674 `matchOpCode` -/
def matchOpCode (opc : Nat) (e : Entry) : Bool :=
  if invalidCode opc e.dst || invalidCode opc e.src then false
  else if e.dst = .REG8 ∨ e.src = .REG8 ∨ e.dst = .REG16 ∨ e.src = .REG16 ∨ e.dst = .BIT ∨ e.dst = .STACK then
    opc / 8 * 8 == e.opcode
  else if e.dst = .CC then opc / 16 * 16 == e.opcode
  else if e.dst = .REGIX then opc / 4 * 4 == e.opcode
  else opc == e.opcode

/-- src/table_tlcs90.cpp:676-679, the search in `searchOpCode`; lines 639-645 `prefixMatcher`: the mode of the
page found is the one of the entry. -/
def searchOpCode (pre opc : Nat) : Option Entry :=
  (Table.searchOpCode (fun _ e => matchOpCode opc e) (pageMatch pre) pages).map (·.2)

/-- `Operand` of the disassembler: the register, the condition, and the byte or word that was read. -/
structure DOp where
  reg : Option Reg := none
  cc : Nat := 255
  val : Nat := 0
deriving DecidableEq

/-- src/insn_tlcs90.h:68-96 `readOpCode`, the operand of the prefix. -/
def readPrefix (pre : Nat) (m : Mode) (r : Rd) : DOp × Rd :=
  match m with
  | .EXT => ({ val := r.le16.1 }, r.le16.2)
  | .DIR => ({ val := r.byte.1 }, r.byte.2)
  | .IND => ({ reg := decodeReg16 pre }, r)
  | .IDX => ({ reg := decodeIndexReg pre, val := r.byte.1 }, r.byte.2)
  | .REG8 => ({ reg := decodeReg8 pre }, r)
  | .CC => ({ cc := decodeCcName pre }, r)
  | _ => ({}, r)

/-- `op.setError(UNKNOWN_INSTRUCTION)` and `insn.setErrorIf(out, op)` of a register that does not exist. -/
def checkReg (reg : Option Reg) (r : Rd) : Rd := if reg = none then r.setErrorIf .UNKNOWN_INSTRUCTION else r

/-- src/dis_tlcs90.cpp:36-80 `readOperand`, with the errors of lines 175-177,187-189. -/
def readOperand (opc : Nat) (m : Mode) (r : Rd) : DOp × Rd :=
  match m with
  | .BIT => ({ val := opc % 8 }, r)
  | .IMM8 | .REL8 | .DIR => ({ val := r.byte.1 }, r.byte.2)
  | .IMM16 | .REL16 | .EXT => ({ val := r.le16.1 }, r.le16.2)
  | .CC => ({ cc := decodeCcName opc }, r)
  | .STACK => ({ reg := decodeStackReg opc }, checkReg (decodeStackReg opc) r)
  | .REG8 => ({ reg := decodeReg8 opc }, checkReg (decodeReg8 opc) r)
  | .REG16 => ({ reg := decodeReg16 opc }, checkReg (decodeReg16 opc) r)
  | .REGIX => ({ reg := decodeIndexReg opc }, checkReg (decodeIndexReg opc) r)
  | _ => ({}, r)

/-- src/reg_tlcs90.cpp:87-90 `outRegName` -/
def outReg (o : Opts) (r : Reg) : List Char := outText o (regText regs r)
/-- `outRegName` of a register or REG_UNDEF. -/
def outReg? (o : Opts) (r : Option Reg) : List Char := (r.map (outReg o)).getD []

/-- `static_cast<int16_t>` -/
def int16 (v : Nat) : Int := if v < 32768 then v else (v : Int) - 65536

/-- src/dis_tlcs90.cpp:82-89 `decodeRelative`: the target -/
def relTarget (addr : Nat) (delta : Int) : Nat := ((((addr + 2 : Nat) : Int) + delta) % Config.W).toNat

/-- src/dis_tlcs90.cpp:120-126: the offset of an index register, of the byte that was read. -/
def outOffset (o : Opts) (b : Nat) : List Char :=
  (if b < 128 then ['+'] else []) ++ outHex .intel o (Config.uint32 (int8 b)) (-8) true

/-- src/dis_tlcs90.cpp:91-157 `decodeOperand`: the text, and the error of the target of a branch. -/
def outOperand (o : Opts) (addr : Nat) (m : Mode) (d : DOp) : List Char × Err :=
  match m with
  | .IMM8 | .BIT => (outHex .intel o d.val 8 true, .OK)
  | .IMM16 => (outHex .intel o d.val 16 true, .OK)
  | .DIR => ('(' :: outHex .intel o (d.val ||| 0xff00) 16 true ++ [')'], .OK)
  | .EXT => ('(' :: outHex .intel o d.val 16 true ++ [')'], .OK)
  | .REL8 => (outRelAddr .intel o 16 (relTarget addr (int8 d.val)) addr 8,
      Config.checkAddr 16 (relTarget addr (int8 d.val)) false)
  | .REL16 => (outRelAddr .intel o 16 (relTarget addr (int16 d.val)) addr 16,
      Config.checkAddr 16 (relTarget addr (int16 d.val)) false)
  | .IND => ('(' :: outReg? o d.reg ++ [')'], .OK)
  | .IDX => ('(' :: outReg? o d.reg ++ outOffset o d.val ++ [')'], .OK)
  | .IXPD => (outReg? o d.reg ++ outOffset o d.val, .OK)
  | .BASE => ('(' :: outReg o .HL ++ ['+'] ++ outReg o .A ++ [')'], .OK)
  | .HLPA => (outReg o .HL ++ ['+'] ++ outReg o .A, .OK)
  | .CC => (outText o (regText ccs d.cc), .OK)
  | .STACK | .REG8 | .REG16 | .REGIX => (outReg? o d.reg, .OK)
  | .R .BC => (outReg o .BC, .OK)
  | .R .DE => (outReg o .DE, .OK)
  | .R .HL => (outReg o .HL, .OK)
  | .R .SP => (outReg o .SP, .OK)
  | .R .AF => (outReg o .AF, .OK)
  | .R .AFP => (outReg o .AFP, .OK)
  | .R .A => (outReg o .A, .OK)
  | _ => ([], .OK)

/-- src/dis_tlcs90.cpp:176-183,188-195: one operand; `pm` and `p` are the mode and the operand of the prefix, and
`own` is the mode that stands for it. -/
def decodeOne (o : Opts) (addr opc : Nat) (own : Mode) (pm : Mode) (p : DOp) (m : Mode) (r : Rd) : List Char × Rd :=
  if m = own then ((outOperand o addr pm p).1, r.setErrorIf (outOperand o addr pm p).2)
  else
    let (d, r) := readOperand opc m r
    ((outOperand o addr m d).1, r.setErrorIf (outOperand o addr m d).2)

/-- src/dis_tlcs90.cpp:173-197: the operands; the comma is left out after a condition that is not printed. -/
def decodeOperands (o : Opts) (addr opc : Nat) (e : Entry) (p : DOp) (r : Rd) : List Char × Rd :=
  if e.dst = .NONE then ([], r)
  else
    let x := decodeOne o addr opc .DST e.page p e.dst r
    if e.src = .NONE then x
    else
      let y := decodeOne o addr opc .SRC e.page p e.src x.2
      (x.1 ++ (if x.1 = [] then [] else [',', ' ']) ++ y.1, y.2)

/-- src/table_tlcs90.cpp:680-689: what is done with the result of the search, and src/dis_tlcs90.cpp:170-198.
The search sets the error. -/
def decodeInsn (o : Opts) (addr pre opc : Nat) (p : DOp) (r : Rd) : Dis :=
  match searchOpCode pre opc with
  | none => ⟨.UNKNOWN_INSTRUCTION, [], [], r.bytes⟩
  | some e =>
    if e.src = .SRC16 then
      if invalidCode pre .REG16 then ⟨.UNKNOWN_INSTRUCTION, [], [], r.bytes⟩
      else
        let x := decodeOperands o addr opc { e with src := .SRC } { reg := decodeReg16 pre } { r with err := .OK }
        ⟨x.2.err, outText o e.name, x.1, x.2.bytes⟩
    else
      let x := decodeOperands o addr opc e p { r with err := .OK }
      ⟨x.2.err, outText o e.name, x.1, x.2.bytes⟩

/-- src/dis_tlcs90.cpp:159-199 `decodeImpl` -/
def decodeImpl (o : Opts) (addr : Nat) (mem : List Nat) : Dis :=
  let (opc, r) := (⟨mem, [], .OK⟩ : Rd).byte
  match isPrefix opc with
  | some m =>
    let (p, r) := readPrefix opc m r
    let (opc', r) := r.byte
    if r.err ≠ .OK then ⟨r.err, [], [], r.bytes⟩ else decodeInsn o addr opc opc' p r
  | none => decodeInsn o addr 0 opc {} r

/-- Disassembling one instruction: `Disassembler::decode` of a `DisTlcs90`. -/
def disassemble (o : Opts) (addr : Nat) (mem : List Nat) : Dis := decode 16 (decodeImpl o) addr mem

/-! ### Assembler -/

/-- `IntelSymbolParser::symbolLetter`, src/symbol_parser.h:78-80 -/
def symbol : Bool → Char → Bool := prefixSymbol none (some ['_', '?'])

/-- `IntelSymbolParser`, `SemicolonCommentParser`; the table of src/asm_tlcs90.cpp:32-37. -/
def syntaxOf : Syntax where
  instructionLetter c := symbol false c
  instructionTerminator _ := false
  commentLine s := semicolonEnd s
  special := []
  pseudos := [['D', 'B'], ['D', 'L'], ['D', 'S'], ['D', 'W']]

/-- src/asm_tlcs90.cpp:48-50, src/value_parser.cpp:53-73: the Intel plugins. -/
def lexer : Lexer := intelLexer symbol

/-- src/insn_tlcs90.h:40-46 `Operand`; CC_UNDEF is -1. -/
structure Operand where
  err : Err := .OK
  mode : Mode := .NONE
  reg : Option Reg := none
  cc : Nat := 255
  val : Value := Value.undefined
deriving DecidableEq

/-- src/asm_tlcs90.cpp:238-253: the mode of a register. -/
def registerMode (r : Reg) : Mode :=
  match r with
  | .IX | .IY => .REGIX
  | .B | .D | .E | .H | .L => .REG8
  | r => .R r

/-- src/asm_tlcs90.cpp:186-197: an expression, between parentheses if `paren`; `start` is where the text is left
after an error. -/
def parseNumber (P : Char → Plugins Value) (paren : Bool) (start p : Scan) : Out (Except (Err × Scan) (Operand × Scan)) :=
  (parseInteger (P (if paren then ')' else '\x00')) p .OK).bind fun (val, err, q) =>
  if hasError err then .ok (.error (err, start))
  else if paren then
    match expect ')' (skipSpaces q) with
    | none => .ok (.error (.MISSING_CLOSING_PAREN, start))
    | some q =>
      .ok (.ok ({ err := err, val := val,
                  mode := if err ≠ .OK then .SYM else if val.getUnsigned ≥ 0xff00 then .DIR else .EXT }, q))
  else .ok (.ok ({ err := err, mode := .IMM16, val := val }, q))

/-- src/asm_tlcs90.cpp:225-236: the offset of an index register, from the sign on. -/
def parseOffset (P : Char → Plugins Value) (paren : Bool) (reg : Reg) (start p : Scan) :
    Out (Except (Err × Scan) (Operand × Scan)) :=
  if isRegIndex reg then
    (parseInteger (P (if paren then ')' else '\x00')) p .OK).bind fun (val, err, q) =>
    if hasError err then .ok (.error (err, start))
    else if paren then
      match expect ')' (skipSpaces q) with
      | none => .ok (.error (.MISSING_CLOSING_PAREN, start))
      | some q => .ok (.ok ({ err := err, mode := .IDX, reg := some reg, val := val }, q))
    else .ok (.ok ({ err := err, mode := .IXPD, reg := some reg, val := val }, q))
  else .ok (.error (.REGISTER_NOT_ALLOWED, start))

/-- src/asm_tlcs90.cpp:200-256: after the register; `p` is after the spaces that follow it. -/
def parseAfter (P : Char → Plugins Value) (paren : Bool) (reg : Reg) (start p : Scan) :
    Out (Except (Err × Scan) (Operand × Scan)) :=
  match (if paren then expect ')' p else none) with
  | some q =>
    if isReg16 reg then .ok (.ok ({ mode := .IND, reg := some reg }, q))
    else .ok (.error (.REGISTER_NOT_ALLOWED, start))
  | none =>
    if deref p = '+' ∨ deref p = '-' then
      if reg = .HL ∧ deref p = '+' then
        (searchText regs (skipSpaces (p.drop 1))).bind fun
        | some (idx, q) =>
          if idx ≠ .A then .ok (.error (.REGISTER_NOT_ALLOWED, start))
          else if paren then
            match expect ')' (skipSpaces q) with
            | none => .ok (.error (.MISSING_CLOSING_PAREN, start))
            | some q => .ok (.ok ({ mode := .BASE, reg := some reg }, q))
          else .ok (.ok ({ mode := .HLPA, reg := some reg }, q))
        | none => parseOffset P paren reg start p
      else parseOffset P paren reg start p
    else .ok (.ok ({ mode := registerMode reg, reg := some reg }, p))

/-- src/asm_tlcs90.cpp:163-256 `parseOperand` -/
def parseOperand (P : Char → Plugins Value) (scan : Scan) : Out (Except (Err × Scan) (Operand × Scan)) :=
  let p := skipSpaces scan
  if (P '\x00').endOfLine p then .ok (.ok ({}, p))
  else
    (searchText ccs p).bind fun
    | some (cc, q) =>
      if cc = 7 then .ok (.ok ({ mode := .R .C, reg := some .C, cc := cc }, q))
      else .ok (.ok ({ mode := .CC, cc := cc }, q))
    | none =>
      let paren := (expect '(' p).isSome
      let q := skipSpaces ((expect '(' p).getD p)
      (searchText regs q).bind fun
      | none => parseNumber P paren p q
      | some (reg, q) => parseAfter P paren reg p (skipSpaces q)

/-- src/table_tlcs90.cpp:573-593 `acceptMode` -/
def acceptMode (opr table : Mode) : Bool :=
  if opr = table then true
  else
    match opr with
    | .R .A => table == .REG8
    | .R .C => table == .REG8 || table == .CC
    | .R .BC | .R .DE | .R .HL => table == .REG16 || table == .STACK
    | .REGIX | .R .SP => table == .REG16 || table == .STACK || table == .REGIX
    | .IMM16 => table == .IMM8 || table == .BIT || table == .REL8 || table == .REL16
    | .DIR => table == .EXT
    | .SYM => table == .EXT || table == .DIR
    | .R .AF => table == .STACK
    | _ => false

/-- src/table_tlcs90.cpp:603,615: the mode of the first operand. -/
def dstMode (e : Entry) : Mode := if e.dst = .DST then e.page else e.dst
/-- src/table_tlcs90.cpp:604,616: the mode of the second operand. -/
def srcMode (e : Entry) : Mode := if e.src = .SRC then e.page else if e.src = .SRC16 then .REG16 else e.src

/-- src/table_tlcs90.cpp:599-606 `acceptModes`; lines 599-601 `pageSetup`. -/
def acceptModes (d s : Mode) (e : Entry) : Bool := acceptMode d (dstMode e) && acceptMode s (srcMode e)

/-- src/table_tlcs90.cpp:627-630 `searchName`: the prefix of the page, and the entry. -/
def searchName (name : List Char) (d s : Mode) : Out (Except Err (Nat × Entry)) :=
  match Table.searchName (fun e : Entry => Table.strcasecmp name e.name) (fun _ e => acceptModes d s e) pages false with
  | some x => .ok x
  | none => .ub

/-- `AsmInsn`: the error, the bytes, and src/insn_tlcs90.h:53-63 `_emitInsn`. -/
structure Ins where
  err : Err
  bytes : List Nat
  pending : Bool
deriving DecidableEq

/-- `insn.setErrorIf(op, e)`. -/
def Ins.setErrorIf (i : Ins) (e : Err) : Ins := { i with err := Config.setErrorIf i.err e }
/-- `if (c) insn.setErrorIf(op, e)`. -/
def Ins.check (i : Ins) (c : Bool) (e : Err) : Ins := if c then i.setErrorIf e else i
/-- src/insn_tlcs90.h:54-59 `emitInsn` -/
def Ins.emitInsn (i : Ins) (opc : Nat) : Ins :=
  if i.pending then { i with bytes := i.bytes ++ [opc % 256], pending := false } else i
/-- `emitByte` -/
def Ins.emitByte (i : Ins) (v : Nat) : Ins := { i with bytes := i.bytes ++ [v % 256] }
/-- `emitUint16` -/
def Ins.emit16 (i : Ins) (v : Nat) : Ins := { i with bytes := i.bytes ++ [v % 256, v / 256 % 256] }

/-- src/asm_tlcs90.cpp:54-72,74-103 `encodeRelative`; `smart` is the option `smart-branch`. -/
def encodeRelative (smart : Bool) (addr : Nat) (m : Mode) (op : Operand) (opc : Nat) (i : Ins) : Out Ins :=
  let base := addr + 2
  let target := if op.err ≠ .OK then base else op.val.getUnsigned
  (ofOption (Config.branchDelta 16 base target i.err)).bind fun (delta, err) =>
  (ofOption (Config.overflowDelta delta 8)).bind fun far =>
  let i := { i with err := err }
  let short := fun (i : Ins) (opc : Nat) => (i.emitInsn opc).emitByte (delta % 256).toNat
  let long := fun (i : Ins) (opc : Nat) => (i.emitInsn opc).emit16 (delta % 65536).toNat
  if smart && (opc == 0x1b || opc == 0xc8) then
    if op.err ≠ .OK ∨ far = true then .ok (long i 0x1b) else .ok (short i 0xc8)
  else if m = .REL8 then .ok (short (i.check far .OPERAND_TOO_FAR) opc)
  else .ok (long i opc)

/-- src/asm_tlcs90.cpp:99-161 `encodeOperand` -/
def encodeOperand (smart : Bool) (addr : Nat) (m : Mode) (op : Operand) (opc : Nat) (i : Ins) : Out Ins :=
  let i := i.setErrorIf op.err
  let v := op.val.getUnsigned
  match m with
  | .IMM8 => .ok (((i.check op.val.overflowUint8 .OVERFLOW_RANGE).emitInsn opc).emitByte v)
  | .DIR => .ok ((i.emitInsn opc).emitByte v)
  | .IMM16 => .ok (((i.check op.val.overflowUint16 .OVERFLOW_RANGE).emitInsn opc).emit16 v)
  | .EXT => .ok ((i.emitInsn opc).emit16 v)
  | .BIT => .ok ((i.check (op.val.overflow 7 0) .OVERFLOW_RANGE).emitInsn (opc ||| v % 8))
  | .REL8 | .REL16 => encodeRelative smart addr m op opc i
  | .IND => .ok (i.emitInsn (opc ||| encodeReg16 op.reg))
  | .IDX | .IXPD =>
    .ok (((i.check op.val.overflowInt8 .OVERFLOW_RANGE).emitInsn (opc ||| encodeIndexReg op.reg)).emitByte v)
  | .CC => .ok (i.emitInsn (opc ||| encodeCcName op.cc))
  | .STACK => .ok (i.emitInsn (opc ||| encodeStackReg op.reg))
  | .REG8 => .ok (i.emitInsn (opc ||| encodeReg8 op.reg))
  | .REG16 => .ok (i.emitInsn (opc ||| encodeReg16 op.reg))
  | .REGIX => .ok (i.emitInsn (opc ||| encodeIndexReg op.reg))
  | .R .A | .R .HL => .ok i
  | _ => .ok (i.emitInsn opc)

/-- src/asm_tlcs90.cpp:275-283: the bytes before the code; `pre` is the prefix of the page. -/
def encodePrefix (smart : Bool) (addr pre : Nat) (e : Entry) (d s : Operand) : Out Ins :=
  if pre = 0 then .ok ⟨.OK, [], false⟩
  else if e.dst = .DST then encodeOperand smart addr (dstMode e) d pre ⟨.OK, [], true⟩
  else if e.src = .SRC ∨ e.src = .SRC16 then encodeOperand smart addr (srcMode e) s pre ⟨.OK, [], true⟩
  else .ok ⟨.OK, [pre % 256], true⟩

/-- src/asm_tlcs90.cpp:284-290: the code and the bytes after it. -/
def encodeCode (smart : Bool) (addr : Nat) (e : Entry) (d s : Operand) (i : Ins) : Out Ins :=
  let i := { i with pending := true }
  (if e.dst = .DST then .ok i else encodeOperand smart addr (dstMode e) d e.opcode i).bind fun i =>
  (if e.dst ≠ .DST ∧ (e.src = .SRC ∨ e.src = .SRC16) then .ok i
   else encodeOperand smart addr (srcMode e) s e.opcode i).bind fun i =>
  .ok (i.emitInsn e.opcode)

/-- src/asm_tlcs90.cpp:258-292 `encodeImpl`; the mode of the prefix is the one src/table_tlcs90.cpp:612-632
`readCode` leaves. -/
def encodeImpl (P : Char → Plugins Value) (smart : Bool) (addr : Nat) (name : List Char) (scan : Scan) : Out Res :=
  (operandList (parseOperand P) 2 scan).bind fun
  | .error (e, scan) => .ok ⟨e, [], scan⟩
  | .ok (ops, scan) =>
    let d := (ops[0]?).getD {}
    let s := (ops[1]?).getD {}
    (searchName name d.mode s.mode).bind fun
    | .error e => .ok ⟨e, [], scan⟩
    | .ok (pre, e) =>
      (encodePrefix smart addr pre e d s).bind fun i =>
      (encodeCode smart addr e d s i).bind fun i =>
      .ok ⟨i.err, i.bytes, scan⟩

/-- Assembling one line: `Assembler::encode` of an `AsmTlcs90`. -/
def assemble (E : Env) (smart : Bool) (addr : Nat) (line : List Char) : Out Line :=
  encode syntaxOf 16 (encodeImpl (fun delim => lexer.plugins E delim addr) smart addr) addr line

end Libasm.Cpu.Tlcs90
