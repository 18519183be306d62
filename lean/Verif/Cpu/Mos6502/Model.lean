import Verif.Cpu.Mc6800.Model
import Verif.Tables.Data.Mos6502
/-
The assembler and the disassembler of the MOS6502 family (6502, 65SC02, 65C02, W65C02S, 65816):
src/asm_mos6502.cpp, src/dis_mos6502.cpp, src/table_mos6502.cpp, src/reg_mos6502.cpp,
src/insn_mos6502.h, src/entry_mos6502.h. The instruction tables are
Verif/Tables/Data/Mos6502.lean, generated from src/table_mos6502.cpp.
-/
namespace Libasm.Cpu.Mos6502
open Scan Number Eval
open Tables (Row)

/-- src/config_mos6502.h:25-31 `CpuType` -/
inductive CpuType | MOS6502 | G65SC02 | R65C02 | W65C02S | W65C816
deriving DecidableEq, Repr

/-- src/config_mos6502.h:36 `bankModel` -/
def bankModel (cpu : CpuType) : Bool := cpu == .W65C816

/-- src/config_mos6502.h:38-40 `addressWidth` -/
def width (cpu : CpuType) : Nat := if bankModel cpu then 24 else 16

/-- src/entry_mos6502.h:39-82 `AddrMode` without its flags; the code has no UNDEF. -/
inductive Base
  | NONE | REGA | REGX | REGY | REGS | IMA | IMX | IM8 | ABS | ABSL | DPG | REL | LREL | BANK | UNDEF
deriving DecidableEq, Repr

/-- src/entry_mos6502.h:41-42: neither flag, `I_FLAG`, `L_FLAG`. No mode of the code has both. -/
inductive Ind | no | indirect | long
deriving DecidableEq, Repr

/-- src/entry_mos6502.h:39-82 `AddrMode` -/
structure Mode where
  base : Base
  ind : Ind := .no
deriving DecidableEq, Repr

/-- The name of an addressing mode in the table. -/
def modeOf : String → Mode
  | "M_REGA" => ⟨.REGA, .no⟩
  | "M_REGX" => ⟨.REGX, .no⟩
  | "I_REGX" => ⟨.REGX, .indirect⟩
  | "M_REGY" => ⟨.REGY, .no⟩
  | "M_REGS" => ⟨.REGS, .no⟩
  | "I_REGS" => ⟨.REGS, .indirect⟩
  | "M_IMA" => ⟨.IMA, .no⟩
  | "M_IMX" => ⟨.IMX, .no⟩
  | "M_IM8" => ⟨.IM8, .no⟩
  | "M_ABS" => ⟨.ABS, .no⟩
  | "I_ABS" => ⟨.ABS, .indirect⟩
  | "L_ABS" => ⟨.ABS, .long⟩
  | "M_ABSL" => ⟨.ABSL, .no⟩
  | "M_DPG" => ⟨.DPG, .no⟩
  | "I_DPG" => ⟨.DPG, .indirect⟩
  | "L_DPG" => ⟨.DPG, .long⟩
  | "M_REL" => ⟨.REL, .no⟩
  | "M_LREL" => ⟨.LREL, .no⟩
  | "M_BANK" => ⟨.BANK, .no⟩
  | _ => ⟨.UNDEF, .no⟩

/-- `M_NONE` -/
def none_ : Mode := ⟨.NONE, .no⟩

/-- src/entry_mos6502.h:89-109 `Flags` -/
structure Flags where
  mode1 : Mode
  mode2 : Mode := none_
  mode3 : Mode := none_
deriving DecidableEq

/-- src/table_mos6502.cpp:27-31: the flags of a row. (`mode2` and `mode3` have no room for the flags
L_FLAG and, for `mode3`, I_FLAG; no row has them there.) -/
def flags (r : Row) : Flags :=
  match r.operands with
  | ["E0"] => ⟨none_, none_, none_⟩
  | ["E1", a] => ⟨modeOf a, none_, none_⟩
  | ["E2", a, b] => ⟨modeOf a, modeOf b, none_⟩
  | ["E3", a, b, c] => ⟨modeOf a, modeOf b, modeOf c⟩
  | _ => ⟨⟨.UNDEF, .no⟩, ⟨.UNDEF, .no⟩, ⟨.UNDEF, .no⟩⟩

/-- src/table_mos6502.cpp:676-714 `cpu`: the pages of the processor. -/
def pages : CpuType → List (Table.Page Row)
  | .MOS6502 => Tables.Mos6502.MOS6502_PAGES
  | .G65SC02 => Tables.Mos6502.G65SC02_PAGES
  | .R65C02 => Tables.Mos6502.R65C02_PAGES
  | .W65C02S => Tables.Mos6502.W65C02S_PAGES
  | .W65C816 => Tables.Mos6502.W65C816_PAGES

/-- The options: `longa`, `longi` of both (asm_mos6502.cpp:66-67, dis_mos6502.cpp:50-53),
`indirect-long` of the disassembler (dis_mos6502.cpp:54-55), `smart-branch` of the assembler. -/
structure Cfg where
  longA : Bool
  longI : Bool
  indirectLong : Bool := true
  smart : Bool := false
deriving DecidableEq

/-- src/reg_mos6502.cpp:33-38 `REG_ENTRIES` -/
def registers : List (List Char × Base) := [(['A'], .REGA), (['S'], .REGS), (['X'], .REGX), (['Y'], .REGY)]

/-! ### Disassembler -/

/-- src/table_mos6502.cpp:755-763 `matchOpCode` -/
def matchOpCode (indirectLong : Bool) (opc : Nat) (r : Row) : Bool :=
  if opc ≠ r.opcode ∨ r.opcode = 0x42 then false
  else if (flags r).mode1 = ⟨.ABS, .long⟩ ∨ (flags r).mode1 = ⟨.DPG, .long⟩ then indirectLong
  else true

/-- src/table_mos6502.cpp:765-768 `searchOpCode` -/
def searchOpCode (cpu : CpuType) (indirectLong : Bool) (opc : Nat) : Option Row :=
  (Table.searchOpCode (fun _ r => matchOpCode indirectLong opc r) (fun _ => true) (pages cpu)).map (·.2)

/-- src/dis_mos6502.cpp:87-95 `longImmediate` -/
def longImmediate (cfg : Cfg) (cpu : CpuType) (m : Base) : Bool :=
  cpu == .W65C816 && ((m == .IMA && cfg.longA) || (m == .IMX && cfg.longI))

/-- src/dis_mos6502.cpp:97-102 `decodeImmediate` -/
def decodeImmediate (o : Opts) (long : Bool) (r : Rd) : List Char × Rd :=
  if long then ('#' :: outHex .motorola o r.le16.1 16 true, r.le16.2)
  else ('#' :: outHex .motorola o r.byte.1 8 true, r.byte.2)

/-- src/dis_mos6502.cpp:104-122 `decodeAbsoluteLong`, without symbols -/
def decodeAbsoluteLong (o : Opts) (cpu : CpuType) (opc : Nat) (r : Rd) : List Char × Rd :=
  let (low, r) := r.le16
  let (bank, r) := r.byte
  let target := bank * 65536 + low
  let r := r.setErrorIf (Config.checkAddr (width cpu) target false)
  (if opc = 0x22 then outAbsAddr .motorola o (width cpu) target
    else (if target < 0x10000 then ['>', '>'] else []) ++ outAbsAddr .motorola o (width cpu) target, r)

/-- src/dis_mos6502.cpp:124-134 `decodeAbsolute`, without symbols -/
def decodeAbsolute (o : Opts) (r : Rd) : List Char × Rd :=
  ((if r.le16.1 < 0x100 then ['>'] else []) ++ outAbsAddr .motorola o 16 r.le16.1, r.le16.2)

/-- src/dis_mos6502.cpp:136-144 `decodeDirectPage`, without symbols -/
def decodeDirectPage (o : Opts) (r : Rd) : List Char × Rd :=
  (outAbsAddr .motorola o 8 r.byte.1, r.byte.2)

/-- `static_cast<int8_t>`, `static_cast<int16_t>` -/
def int8 (b : Nat) : Int := if b < 128 then b else (b : Int) - 256
def int16 (w : Nat) : Int := if w < 32768 then w else (w : Int) - 65536

/-- src/dis_mos6502.cpp:154-163: the target of a displacement, 32 bit arithmetic; `checkAddr` of the
segment is defined (`seg_some`). -/
def decodeTarget (o : Opts) (cpu : CpuType) (addr : Nat) (delta : Int) (bits : Nat) (r : Rd) : List Char × Rd :=
  let base := addr + r.bytes.length
  let target := (((base : Int) + delta) % Config.W).toNat
  let r := r.setErrorIf
    (if bankModel cpu then (Config.checkAddrSeg (width cpu) target addr 16 false).getD .INTERNAL_ERROR
      else Config.checkAddr (width cpu) target false)
  (outRelAddr .motorola o (width cpu) target addr bits, r)

/-- src/dis_mos6502.cpp:152-163 `decodeRelative` -/
def decodeRelative (o : Opts) (cpu : CpuType) (addr : Nat) (long : Bool) (r : Rd) : List Char × Rd :=
  if long then decodeTarget o cpu addr (int16 r.le16.1) 16 r.le16.2
  else decodeTarget o cpu addr (int8 r.byte.1) 8 r.byte.2

/-- src/dis_mos6502.cpp:165-175 `decodeBlockMove` -/
def decodeBlockMove (o : Opts) (cpu : CpuType) (r : Rd) : List Char × Rd :=
  let (dbank, r) := r.byte
  let dstError := r.err
  let (sbank, r) := r.byte
  (outAbsAddr .motorola o (width cpu) (sbank * 65536) ++ [',', ' '] ++
    outAbsAddr .motorola o (width cpu) (dbank * 65536),
    if dstError ≠ .OK then { r with err := dstError } else r)

/-- src/dis_mos6502.cpp:177-213 `decodeOperand` -/
def decodeOperand (o : Opts) (cfg : Cfg) (cpu : CpuType) (addr opc : Nat) (m : Base) (r : Rd) : List Char × Rd :=
  match m with
  | .REGA | .REGX | .REGY | .REGS => (outText o (regText registers m), r)
  | .IMA | .IMX | .IM8 => decodeImmediate o (longImmediate cfg cpu m) r
  | .ABS => decodeAbsolute o r
  | .ABSL => decodeAbsoluteLong o cpu opc r
  | .DPG => decodeDirectPage o r
  | .REL => decodeRelative o cpu addr false r
  | .LREL => decodeRelative o cpu addr true r
  | .NONE | .BANK | .UNDEF => ([], r)

/-- The opening bracket of src/dis_mos6502.cpp:229-232. -/
def opening : Ind → List Char
  | .no => []
  | .indirect => ['(']
  | .long => ['[']

/-- The closing bracket of src/dis_mos6502.cpp:236-239,244-247. -/
def closing : Ind → List Char
  | .no => []
  | .indirect => [')']
  | .long => [']']

/-- src/dis_mos6502.cpp:223-256: the operands of an instruction. -/
def decodeOperands (o : Opts) (cfg : Cfg) (cpu : CpuType) (addr opc : Nat) (f : Flags) (r : Rd) : List Char × Rd :=
  if f.mode1 = ⟨.BANK, .no⟩ ∧ f.mode2 = ⟨.BANK, .no⟩ then decodeBlockMove o cpu r
  else if f.mode1 = none_ then ([], r)
  else
    let (t1, r) := decodeOperand o cfg cpu addr opc f.mode1.base r
    let t1 := opening f.mode1.ind ++ t1 ++ (if f.mode1.ind ≠ f.mode2.ind then closing f.mode1.ind else [])
    if f.mode2 = none_ then (t1, r)
    else
      let (t2, r) := decodeOperand o cfg cpu addr opc f.mode2.base r
      let t2 := t1 ++ [','] ++ t2 ++ closing f.mode2.ind
      if f.mode3 = none_ then (t2, r)
      else
        let (t3, r) := decodeOperand o cfg cpu addr opc f.mode3.base r
        (t2 ++ [','] ++ t3, r)

/-- src/dis_mos6502.cpp:215-258 `decodeImpl` -/
def decodeImpl (o : Opts) (cfg : Cfg) (cpu : CpuType) (addr : Nat) (mem : List Nat) : Dis :=
  let (opc, r) := (⟨mem, [], .OK⟩ : Rd).byte
  match searchOpCode cpu cfg.indirectLong opc with
  | none => ⟨.UNKNOWN_INSTRUCTION, [], [], r.bytes⟩
  | some row =>
    let (t, r) := decodeOperands o cfg cpu addr opc (flags row) { r with err := Err.OK }
    ⟨r.err, outText o row.name, t, r.bytes⟩

/-- Disassembling one instruction: `Disassembler::decode` of a `DisMos6502`. -/
def disassemble (o : Opts) (cfg : Cfg) (cpu : CpuType) (addr : Nat) (mem : List Nat) : Dis :=
  decode (width cpu) (decodeImpl o cfg cpu) addr mem

/-! ### Assembler -/

/-- `MostekSymbolParser`: `SimpleSymbolParser::symbolLetter` with PSTR_UNDER, src/symbol_parser.h:112-119 -/
def symbol : Bool → Char → Bool := simpleSymbol ['_']

/-- `MostekSymbolParser`, `MostekCommentParser`: src/parsers.cpp:291-293, src/symbol_parser.h:118,
src/comment_parser.h:61-70; the table of src/asm_mos6502.cpp:36-45, the directives of
src/asm_mos6502.cpp:320-331. -/
def syntaxOf : Syntax where
  instructionLetter c := symbol false c || c == '.' || c == '=' || c == '*' || c == ':'
  instructionTerminator c := c == '='
  commentLine s := deref (skipSpaces s) == '\x00' || deref (skipSpaces s) == ';'
  special := [['L', 'O', 'N', 'G', 'A'], ['L', 'O', 'N', 'G', 'I']]
  pseudos := [['*', '='], ['.', 'A', 'L', 'I', 'G', 'N'], ['.', 'B', 'Y', 'T', 'E'], ['.', 'W', 'O', 'R', 'D'],
    ['F', 'C', 'B'], ['F', 'C', 'C'], ['F', 'D', 'B'], ['R', 'M', 'B']]

/-- src/asm_mos6502.cpp:51-59, src/value_parser.cpp:75-98: the Mostek plugins, with the operators of C. -/
def lexer : Lexer where
  number := .motorola
  operators := .c
  letter := Mc6800.motorolaLetter
  location := locationSymbol symbol '*'
  symbolLetter := symbol
  functionLetter := symbol false
  endOfLine := Mc6800.starEnd

/-- src/insn_mos6502.h:39-47 `Operand` -/
structure Operand where
  err : Err := .OK
  mode : Mode := none_
  val : Value := Value.undefined
deriving DecidableEq

/-- src/insn_mos6502.h:43-46 `embed` -/
def Operand.embed (op : Operand) (i : Ind) : Operand := { op with mode := ⟨op.mode.base, i⟩ }

/-- `indirect`, the closing bracket that is missing; NUL if none is. -/
def indOf (indirect : Char) : Ind :=
  if indirect = '\x00' then .no else if indirect = ')' then .indirect else .long

/-- src/asm_mos6502.cpp:233-248 `parseOpenIndirect`: the text after the bracket and the new
`indirect`; none for UNKNOWN_OPERAND. The flag it puts into the mode is `indOf` of the latter. -/
def parseOpenIndirect (p : Scan) (indirect : Char) : Option (Scan × Char) :=
  match expect '(' p with
  | some q => if indirect ≠ '\x00' then none else some (q, ')')
  | none =>
    match expect '[' p with
    | some q => if indirect ≠ '\x00' then none else some (q, ']')
    | none => some (p, indirect)

/-- src/asm_mos6502.cpp:250-261 `parseCloseIndirect`: the text after the bracket and the new
`indirect`; none for UNKNOWN_OPERAND. -/
def parseCloseIndirect (p : Scan) (indirect : Char) : Option (Scan × Char) :=
  match expect ')' (skipSpaces p) with
  | some q => if indirect ≠ ')' then none else some (q, '\x00')
  | none =>
    match expect ']' (skipSpaces p) with
    | some q => if indirect ≠ ']' then none else some (q, '\x00')
    | none => some (skipSpaces p, indirect)

/-- The size overrides `<`, `>`, `>>`. -/
inductive Size | no | zp | abs | long
deriving DecidableEq

/-- src/asm_mos6502.cpp:265-274 `parseSizeOverride` -/
def parseSizeOverride (p : Scan) : Size × Scan :=
  match expect '<' p with
  | some q => (.zp, q)
  | none =>
    match expect '>' p with
    | some q =>
      match expect '>' q with
      | some q => (.long, q)
      | none => (.abs, q)
    | none => (.no, p)

/-- src/asm_mos6502.cpp:198-214 `selectMode`, with the modes `parseOperand` gives it (so the
UNKNOWN_OPERAND of a missing long mode cannot happen). -/
def selectMode (size : Size) (val : Value) (err : Err) : Base :=
  match size with
  | .long => .ABSL
  | .abs => .ABS
  | .zp => .DPG
  | .no =>
    if val.overflow 65535 0 = true ∧ err = .OK then .ABSL
    else if val.overflow 255 0 then .ABS else .DPG

/-- src/asm_mos6502.cpp:283-296: an immediate operand, after its `#`. -/
def parseImmediate (P : Char → Plugins Value) (scan p : Scan) (indirect : Char) : Out (Operand × Scan × Char) :=
  let low := (expect '<' p).isSome
  let high := (expect '>' p).isSome
  let p := if low || high then p.drop 1 else p
  (parseInteger (P '\x00') p .OK).bind fun (val, err, p) =>
  if hasError err then .ok ({ err := err, val := val }, scan, indirect)
  else
    let val := if low then Value.setU (val.getUnsigned % 256)
      else if high then Value.setU (val.getUnsigned / 256 % 256) else val
    .ok ({ err := err, mode := ⟨.IMA, .no⟩, val := val }, p, indirect)

/-- src/asm_mos6502.cpp:313-317: the end of an operand that was read. -/
def closeOperand (op : Operand) (scan p : Scan) (indirect : Char) : Out (Operand × Scan × Char) :=
  if indirect = '\x00' then .ok (op, p, indirect)
  else
    match parseCloseIndirect p indirect with
    | some (p, indirect) => .ok (op, p, indirect)
    | none => .ok ({ op with err := .UNKNOWN_OPERAND }, scan, indirect)

/-- src/asm_mos6502.cpp:278-318 `parseOperand`: the operand, the text after it, `indirect`; after an
error the text is left where the operand starts. `P` is the parser with a delimiter. -/
def parseOperand (P : Char → Plugins Value) (scan : Scan) (indirect : Char) : Out (Operand × Scan × Char) :=
  let scan := skipSpaces scan
  let p := scan
  if (P '\x00').endOfLine p then .ok ({}, scan, indirect)
  else
    match expect '#' p with
    | some p => parseImmediate P scan p indirect
    | none =>
      match parseOpenIndirect p indirect with
      | none => .ok ({ err := .UNKNOWN_OPERAND }, scan, indirect)
      | some (p, indirect) =>
        (searchText registers (skipSpaces p)).bind fun
        | some (reg, p) => closeOperand { mode := ⟨reg, indOf indirect⟩ } scan p indirect
        | none =>
          let (size, p) := parseSizeOverride (skipSpaces p)
          (parseInteger (P indirect) p .OK).bind fun (val, err, p) =>
          if hasError err then .ok ({ err := err, val := val }, scan, indirect)
          else closeOperand { err := err, mode := ⟨selectMode size val err, indOf indirect⟩, val := val } scan p indirect

/-- src/table_mos6502.cpp:720-723 `hasOperand` -/
def hasOperand (cpu : CpuType) (name : List Char) : Out Bool :=
  match Table.searchName (fun r : Row => Table.strcasecmp name r.name) (fun _ _ => true) (pages cpu) false with
  | some (.ok (_, r)) => .ok (decide ((flags r).mode1 ≠ none_))
  | some (.error _) => .ok false
  | none => .ub

/-- src/table_mos6502.cpp:725-742 `acceptMode` -/
def acceptMode (opr table : Mode) : Bool :=
  if opr = table then true
  else
    match opr with
    | ⟨.IMA, .no⟩ => table == ⟨.IMX, .no⟩ || table == ⟨.IM8, .no⟩
    | ⟨.DPG, .no⟩ => table == ⟨.ABS, .no⟩ || table == ⟨.REL, .no⟩ || table == ⟨.ABSL, .no⟩ ||
        table == ⟨.LREL, .no⟩ || table == ⟨.BANK, .no⟩
    | ⟨.ABS, .no⟩ => table == ⟨.REL, .no⟩ || table == ⟨.ABSL, .no⟩ || table == ⟨.LREL, .no⟩ ||
        table == ⟨.BANK, .no⟩
    | ⟨.ABSL, .no⟩ => table == ⟨.REL, .no⟩ || table == ⟨.LREL, .no⟩ || table == ⟨.BANK, .no⟩
    | ⟨.DPG, .indirect⟩ => table == ⟨.ABS, .indirect⟩
    | ⟨.DPG, .long⟩ => table == ⟨.ABS, .long⟩
    | _ => false

/-- src/table_mos6502.cpp:744-753 `acceptModes`, `searchName` -/
def searchName (cpu : CpuType) (name : List Char) (m1 m2 m3 : Mode) : Out (Except Err Row) :=
  match Table.searchName (fun r : Row => Table.strcasecmp name r.name)
      (fun _ r => acceptMode m1 (flags r).mode1 && acceptMode m2 (flags r).mode2 &&
        acceptMode m3 (flags r).mode3) (pages cpu) false with
  | some (.ok (_, r)) => .ok (.ok r)
  | some (.error e) => .ok (.error e)
  | none => .ub

/-- `AsmInsn`: error, code, and the bytes emitted for the operands. They go to the buffer before the
code does, to the places after it (src/insn_mos6502.h:49-64). -/
structure Asm where
  err : Err
  opc : Nat
  ops : List Nat
deriving DecidableEq

/-- `insn.setErrorIf(op, e)`. -/
def Asm.setErrorIf (a : Asm) (e : Err) : Asm := { a with err := Config.setErrorIf a.err e }
/-- src/insn_mos6502.h:55 `emitOperand8` -/
def Asm.emit8 (a : Asm) (x : Nat) : Asm := { a with ops := a.ops ++ [x % 256] }
/-- src/insn_mos6502.h:56 `emitOperand16`, least significant byte first -/
def Asm.emit16 (a : Asm) (x : Nat) : Asm := { a with ops := a.ops ++ [x % 256, x / 256 % 256] }
/-- src/insn_mos6502.h:54 `emitInsn`: all the bytes. -/
def Asm.bytes (a : Asm) : List Nat := a.opc % 256 :: a.ops
/-- `insn.length()` while the operands are emitted. -/
def Asm.length (a : Asm) : Nat := if a.ops = [] then 0 else 1 + a.ops.length

/-- src/asm_mos6502.cpp:120-122,135-137: the target and its bank. -/
def checkBank (cpu : CpuType) (addr base : Nat) (op : Operand) (a : Asm) : Out (Nat × Asm) :=
  let target := if op.err ≠ .OK then base else op.val.getUnsigned
  if bankModel cpu then
    (ofOption (Config.checkAddrSeg (width cpu) target addr 16 false)).bind fun e => .ok (target, a.setErrorIf e)
  else .ok (target, a)

/-- `branchDelta(base, target, insn, op)` -/
def delta (cpu : CpuType) (base target : Nat) (a : Asm) : Out (Int × Asm) :=
  (ofOption (Config.branchDelta (width cpu) base target a.err)).bind fun (d, err) => .ok (d, { a with err := err })

/-- src/asm_mos6502.cpp:125-130: from the label `short_branch`. -/
def shortBranch (cpu : CpuType) (base target : Nat) (a : Asm) : Out Asm :=
  (delta cpu base target a).bind fun (d, a) =>
  (ofOption (Config.overflowDelta d 8)).bind fun far =>
  .ok ((if far then a.setErrorIf .OPERAND_TOO_FAR else a).emit8 (d % 256).toNat)

/-- src/asm_mos6502.cpp:133-140: from the label `long_branch`. -/
def longBranch (cpu : CpuType) (addr : Nat) (op : Operand) (a : Asm) : Out Asm :=
  let base := (addr + 3) % Config.W
  (checkBank cpu addr base op a).bind fun (target, a) =>
  (delta cpu base target a).bind fun (d, a) =>
  .ok (a.emit16 (d % 65536).toNat)

/-- src/asm_mos6502.cpp:100-103 `maySmartBranch` -/
def maySmartBranch (cpu : CpuType) (a : Asm) : Bool := cpu == .W65C816 && (a.opc == 0x80 || a.opc == 0x82)

/-- src/asm_mos6502.cpp:116-148 `encodeRelative` -/
def encodeRelative (cfg : Cfg) (cpu : CpuType) (addr : Nat) (m : Base) (op : Operand) (a : Asm) : Out Asm :=
  let base := (addr + (if a.length = 0 then 1 else a.length) + 1) % Config.W
  (checkBank cpu addr base op a).bind fun (target, a) =>
  let smart := cfg.smart && maySmartBranch cpu a
  if m = .REL ∧ smart = false then shortBranch cpu base target a
  else if m = .LREL ∧ smart = false then longBranch cpu addr op a
  else
    (delta cpu base target a).bind fun (d, a) =>
    (ofOption (Config.overflowDelta d 8)).bind fun far =>
    if op.err ≠ .OK ∨ far = true then longBranch cpu addr op { a with opc := 0x82, err := op.err }
    else shortBranch cpu base target { a with opc := 0x80 }

/-- src/asm_mos6502.cpp:150-160 `emitImmediate` -/
def emitImmediate (op : Operand) (imm16 : Bool) (a : Asm) : Asm :=
  if imm16 then
    (if op.val.overflowUint16 then a.setErrorIf .OVERFLOW_RANGE else a).emit16 op.val.getUnsigned
  else
    (if op.val.overflowUint8 then a.setErrorIf .OVERFLOW_RANGE else a).emit8 op.val.getUnsigned

/-- src/asm_mos6502.cpp:162-196 `encodeOperand`. (The modes M_ABS and M_DPG make the check of
`emitImmediate` twice.) -/
def encodeOperand (cfg : Cfg) (cpu : CpuType) (addr : Nat) (m : Base) (op : Operand) (a : Asm) : Out Asm :=
  match m with
  | .IMA => .ok (emitImmediate op cfg.longA a)
  | .IMX => .ok (emitImmediate op cfg.longI a)
  | .ABS => .ok (emitImmediate op true a)
  | .ABSL =>
    let a := if Config.checkAddr (width cpu) op.val.getUnsigned false ≠ .OK then a.setErrorIf .OVERFLOW_RANGE else a
    .ok ((a.emit16 op.val.getUnsigned).emit8 (op.val.getUnsigned / 65536))
  | .DPG | .IM8 => .ok (emitImmediate op false a)
  | .REL | .LREL => encodeRelative cfg cpu addr m op a
  | .NONE | .REGA | .REGX | .REGY | .REGS | .BANK | .UNDEF => .ok a

/-- src/asm_mos6502.cpp:335-338 `hasRegister` -/
def hasRegister (m : Mode) : Bool :=
  m.base == .REGA || m.base == .REGX || m.base == .REGY || m.base == .REGS

/-- src/asm_mos6502.cpp:366-377: the error to report. -/
def nameError (cpu : CpuType) (e : Err) (op1 op2 op3 : Operand) : Err :=
  if e = .OPERAND_NOT_ALLOWED ∧ (hasRegister op1.mode ∨
      hasRegister op2.mode ∧ ¬(cpu = .W65C816 ∧ hasRegister op3.mode) ∨ hasRegister op3.mode) then
    .REGISTER_NOT_ALLOWED
  else e

/-- src/asm_mos6502.cpp:379-390: after the entry is found. The error of the third operand is not
looked at. -/
def emitOperands (cfg : Cfg) (cpu : CpuType) (addr : Nat) (f : Flags) (op1 op2 : Operand) (a : Asm) : Out Asm :=
  let a := (a.setErrorIf op1.err).setErrorIf op2.err
  if f.mode1 = ⟨.BANK, .no⟩ ∧ f.mode2 = ⟨.BANK, .no⟩ then
    .ok ((a.emit8 (op2.val.getUnsigned / 65536)).emit8 (op1.val.getUnsigned / 65536))
  else
    (encodeOperand cfg cpu addr f.mode1.base op1 a).bind fun a => encodeOperand cfg cpu addr f.mode2.base op2 a

/-- src/asm_mos6502.cpp:364-392: after the operands are read. -/
def encodeInsn (cfg : Cfg) (cpu : CpuType) (addr : Nat) (name : List Char) (op1 op2 op3 : Operand)
    (scan : Scan) : Out Res :=
  (searchName cpu name op1.mode op2.mode op3.mode).bind fun
  | .error e => .ok ⟨nameError cpu e op1 op2 op3, [], scan⟩
  | .ok row =>
    (emitOperands cfg cpu addr (flags row) op1 op2 ⟨.OK, row.opcode, []⟩).bind fun a => .ok ⟨a.err, a.bytes, scan⟩

/-- A comma and one more operand, if there is a comma: src/asm_mos6502.cpp:352-355,359-362. -/
def parseNext (P : Char → Plugins Value) (scan : Scan) (indirect : Char) : Out (Operand × Scan × Char) :=
  match expect ',' (skipSpaces scan) with
  | some scan => parseOperand P scan indirect
  | none => .ok ({}, skipSpaces scan, indirect)

/-- src/asm_mos6502.cpp:346-393 `encodeImpl`. The comparison of line 358 is with '(', which `indirect`
never is. -/
def encodeImpl (P : Char → Plugins Value) (cfg : Cfg) (cpu : CpuType) (addr : Nat) (name : List Char)
    (scan : Scan) : Out Res :=
  (hasOperand cpu name).bind fun has =>
  if has then
    (parseOperand P scan '\x00').bind fun (op1, scan, indirect) =>
    if hasError op1.err then .ok ⟨op1.err, [], scan⟩
    else
      (parseNext P scan indirect).bind fun (op2, scan, indirect) =>
      if hasError op2.err then .ok ⟨op2.err, [], scan⟩
      else if indirect ≠ '\x00' then
        .ok ⟨if indirect = '(' then .MISSING_CLOSING_PAREN else .MISSING_CLOSING_BRACKET, [], scan⟩
      else
        (parseNext P scan indirect).bind fun (op3, scan, _) =>
        if hasError op3.err then .ok ⟨op3.err, [], scan⟩
        else encodeInsn cfg cpu addr name op1 op2 op3 (skipSpaces scan)
  else encodeInsn cfg cpu addr name {} {} {} (skipSpaces scan)

/-- Assembling one line: `Assembler::encode` of an `AsmMos6502`. -/
def assemble (E : Env) (cfg : Cfg) (cpu : CpuType) (addr : Nat) (line : List Char) : Out Line :=
  encode syntaxOf (width cpu) (encodeImpl (fun delim => lexer.plugins E delim addr) cfg cpu addr) addr line

/-! ### Settings of the assembler -/

/-- The settings a program can change. -/
structure Settings where
  cpu : CpuType := .MOS6502
  longA : Bool := false
  longI : Bool := false
deriving DecidableEq

/-- Directive `cpu`, options `longa` and `longi`. -/
inductive Setting
  | cpu (c : CpuType)
  | longA (enable : Bool)
  | longI (enable : Bool)

/-- src/config_base.h:182 `setCpuType`, src/asm_mos6502.cpp:75-89 `setLongAccumulator`, `setLongIndex`:
the settings, and the error that is reported. -/
def Settings.set (s : Settings) : Setting → Settings × Err
  | .cpu c => ({ s with cpu := c }, .OK)
  | .longA enable =>
    if s.cpu = .W65C816 then ({ s with longA := enable }, .OK)
    else ({ s with longA := false }, if enable then .OPERAND_NOT_ALLOWED else .OK)
  | .longI enable =>
    if s.cpu = .W65C816 then ({ s with longI := enable }, .OK)
    else ({ s with longI := false }, if enable then .OPERAND_NOT_ALLOWED else .OK)

/-- The settings after a sequence of changes none of which is in error; none if one is. -/
def Settings.after (s : Settings) : List Setting → Option Settings
  | [] => some s
  | c :: rest => if (s.set c).2 = .OK then (s.set c).1.after rest else none

end Libasm.Cpu.Mos6502
