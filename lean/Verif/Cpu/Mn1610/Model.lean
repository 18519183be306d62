import Verif.Cpu.ListModel
import Verif.Maker.Model
import Verif.Tables.Data.Mn1610
/-
The assembler and the disassembler of the MN1610, the MN1613 and the MN1613A: src/asm_mn1610.cpp,
src/dis_mn1610.cpp, src/table_mn1610.cpp, src/reg_mn1610.cpp, src/insn_mn1610.h, src/entry_mn1610.h,
src/config_mn1610.h. The instruction tables are in Verif/Tables/Data/Mn1610.lean, generated from
src/table_mn1610.cpp. Addresses are those of words of two bytes, the most significant first.
-/
namespace Libasm.Cpu.Mn1610
open Scan Number Eval
open Tables (Row)

/-- src/config_mn1610.h:25-29 `CpuType` -/
inductive CpuType | MN1610 | MN1613 | MN1613A
deriving DecidableEq, Repr

/-- src/config_mn1610.h:34-36 `addressWidth` -/
def width : CpuType → Nat
  | .MN1610 => 16
  | _ => 18

/-- src/entry_mn1610.h:28-62 `AddrMode`; the code has no UNDEF. -/
inductive Mode
  | NONE | SKIP | ILVL | BIT | IM4 | IM8 | IM8W | IOA | IM16 | ABS | COP | EOP | RD | RDG | RS | RSG | SB | RB | RBW
  | RP | RHR | RHW | IABS | RI | RIAU | R0 | DR0 | RI1 | RI2 | GEN | INDX | IXID | IDIX | UNDEF
deriving DecidableEq, Repr

/-- The name of an addressing mode in the table. -/
def modeOf : String → Mode
  | "M_SKIP" => .SKIP
  | "M_ILVL" => .ILVL
  | "M_BIT" => .BIT
  | "M_IM4" => .IM4
  | "M_IM8" => .IM8
  | "M_IM8W" => .IM8W
  | "M_IOA" => .IOA
  | "M_IM16" => .IM16
  | "M_ABS" => .ABS
  | "M_COP" => .COP
  | "M_EOP" => .EOP
  | "M_RD" => .RD
  | "M_RDG" => .RDG
  | "M_RS" => .RS
  | "M_RSG" => .RSG
  | "M_SB" => .SB
  | "M_RB" => .RB
  | "M_RBW" => .RBW
  | "M_RP" => .RP
  | "M_RHR" => .RHR
  | "M_RHW" => .RHW
  | "M_IABS" => .IABS
  | "M_RI" => .RI
  | "M_RIAU" => .RIAU
  | "M_R0" => .R0
  | "M_DR0" => .DR0
  | "M_RI1" => .RI1
  | "M_RI2" => .RI2
  | "M_GEN" => .GEN
  | _ => .UNDEF

/-- src/table_mn1610.cpp:27-32: the modes of a row, without the M_NONE after them. -/
def modes (r : Row) : List Mode :=
  match r.operands with
  | ["E0"] => []
  | ["E1", a] => [modeOf a]
  | ["E2", a, b] => [modeOf a, modeOf b]
  | ["E3", a, b, c] => [modeOf a, modeOf b, modeOf c]
  | ["E4", a, b, c, d] => [modeOf a, modeOf b, modeOf c, modeOf d]
  | _ => [.UNDEF]

/-- src/table_mn1610.cpp:276-299 `MN1610_PAGES`, `MN1613_PAGES`, `CPU_TABLE`, `cpu` -/
def pages : CpuType → List (Table.Page Row)
  | .MN1610 => Tables.Mn1610.MN1610_PAGES
  | _ => Tables.Mn1610.MN1613_PAGES

/-! ### Registers and conditions: their numbers are those of src/reg_mn1610.h:28-95 -/

/-- src/reg_mn1610.cpp:32-63 `REG_ENTRIES` -/
def regs : List (List Char × Nat) :=
  [(['C', 'S', 'B', 'R'], 16), (['D', 'R', '0'], 8), (['I', 'C'], 7), (['I', 'C', 'B'], 33),
   (['I', 'I', 'S', 'R'], 30), (['N', 'P', 'P'], 34), (['O', 'S', 'R', '0'], 20), (['O', 'S', 'R', '1'], 21),
   (['O', 'S', 'R', '2'], 22), (['O', 'S', 'R', '3'], 23), (['R', '0'], 0), (['R', '1'], 1), (['R', '2'], 2),
   (['R', '3'], 3), (['R', '4'], 4), (['S', 'B', 'R', 'B'], 32), (['S', 'C', 'R'], 27), (['S', 'I', 'R'], 29),
   (['S', 'O', 'R'], 31), (['S', 'P'], 5), (['S', 'S', 'B', 'R'], 17), (['S', 'S', 'R'], 28), (['S', 'T', 'R'], 6),
   (['T', 'C', 'R'], 24), (['T', 'I', 'R'], 25), (['T', 'S', 'R'], 26), (['T', 'S', 'R', '0'], 18),
   (['T', 'S', 'R', '1'], 19), (['X', '0'], 11), (['X', '1'], 12)]

/-- src/reg_mn1610.cpp:65-87 `CC_ENTRIES` -/
def ccs : List (List Char × Nat) :=
  [(['C'], 32), (['C', 'E'], 51), (['E'], 20), (['E', 'N', 'Z'], 9), (['E', 'Z'], 8), (['L', 'M'], 15),
   (['L', 'M', 'Z'], 12), (['L', 'P'], 13), (['L', 'P', 'Z'], 14), (['M'], 2), (['M', 'Z'], 6), (['N', 'E'], 21),
   (['N', 'Z'], 5), (['O', 'N', 'Z'], 11), (['O', 'Z'], 10), (['P'], 7), (['P', 'Z'], 3), (['R', 'E'], 49),
   (['S', 'E'], 50), (['S', 'K', 'P'], 1), (['Z'], 4)]

/-- src/reg_mn1610.cpp:100-105 `isGeneric` -/
def isGeneric (n : Nat) : Bool := n == 11 || n == 12 || decide (n ≤ 6)
/-- src/reg_mn1610.cpp:107-109 `isIndex` -/
def isIndex (n : Nat) : Bool := n == 11 || n == 12 || n == 3 || n == 4
/-- src/reg_mn1610.cpp:111-116 `isIndirect` -/
def isIndirect (n : Nat) : Bool := n == 11 || n == 12 || decide (1 ≤ n ∧ n ≤ 4)
/-- src/reg_mn1610.cpp:118-121 `isSegmentBase` -/
def isSegmentBase (n : Nat) : Bool := decide (16 ≤ n ∧ n ≤ 19)
/-- src/reg_mn1610.cpp:123-126 `isSegment` -/
def isSegment (n : Nat) : Bool := decide (16 ≤ n ∧ n ≤ 23)
/-- src/reg_mn1610.cpp:128-131 `isHardware` -/
def isHardware (n : Nat) : Bool := decide (24 ≤ n ∧ n ≤ 31)
/-- src/reg_mn1610.cpp:133-136 `isSpecial` -/
def isSpecial (n : Nat) : Bool := decide (32 ≤ n ∧ n ≤ 34)

/-- src/reg_mn1610.cpp:138-143 `encodeGeneric` -/
def encodeGeneric (n : Nat) : Nat := if n = 11 ∨ n = 12 then n - 8 else n
/-- src/reg_mn1610.cpp:145-147 `encodeIndex` -/
def encodeIndex (n : Nat) : Nat := if n = 11 ∨ n = 3 then 4 else 5
/-- src/reg_mn1610.cpp:149-154 `encodeIndirect` -/
def encodeIndirect (n : Nat) : Nat := encodeGeneric n - 1
/-- src/reg_mn1610.cpp:156-158 `encodeSegment` -/
def encodeSegment (n : Nat) : Nat := n - 16
/-- src/reg_mn1610.cpp:160-164 `encodeHardware` -/
def encodeHardware (n : Nat) : Nat := if n = 31 then 5 else n - 24
/-- src/reg_mn1610.cpp:166-168 `encodeSpecial` -/
def encodeSpecial (n : Nat) : Nat := n - 32

/-! ### Disassembler -/

/-- A field of the code: whether the row has it, where it is, how wide, the values it may not have, and the bits
that are cleared. -/
structure Field where
  has : Bool
  shift : Nat
  ones : Nat
  bad : List Nat
  mask : Nat

/-- src/table_mn1610.cpp:363-426: the tests of `matchOpCode`, in their order. -/
def fields (m1 m2 m3 m4 : Mode) : List Field :=
  [⟨m1 == .GEN || m2 == .GEN, 0, 0, [], 0x38FF⟩,
   ⟨m1 == .RD, 8, 7, [7], 0x700⟩,
   ⟨m1 == .RDG, 8, 7, [6, 7], 0x700⟩,
   ⟨m1 == .RS || m2 == .RS, 0, 7, [7], 7⟩,
   ⟨m1 == .RSG, 0, 7, [6, 7], 7⟩,
   ⟨m1 == .RI || m2 == .RI, 0, 0, [], 3⟩,
   ⟨m3 == .RIAU, 6, 3, [0], 0xC3⟩,
   ⟨m2 == .SB, 0, 0, [], 0x30⟩,
   ⟨m1 == .RBW || m2 == .RBW, 4, 7, [0], 0x70⟩,
   ⟨m1 == .RB || m2 == .RB, 0, 0, [], 0x70⟩,
   ⟨m1 == .RP || m2 == .RP, 4, 7, [3, 4, 5, 6, 7], 0x70⟩,
   ⟨m2 == .RHR || m2 == .RHW, 4, 7, [7], 0x70⟩,
   ⟨m3 == .SKIP || m4 == .SKIP, 0, 0, [], 0xF0⟩,
   ⟨m2 == .IM8 || m2 == .IOA, 0, 0, [], 0xFF⟩,
   ⟨m2 == .IM4 || m2 == .BIT, 0, 0, [], 0xF⟩,
   ⟨m1 == .ILVL || m2 == .EOP, 0, 0, [], 3⟩,
   ⟨m2 == .COP || m3 == .COP, 0, 0, [], 8⟩]

/-- One of the tests: `return false`, or `opc &= ~mask`. -/
def Field.take (f : Field) (opc : Nat) : Option Nat :=
  if f.bad.contains ((opc >>> f.shift) &&& f.ones) then none else some (opc &&& (0xFFFF ^^^ f.mask))

/-- All the tests, one after the other. -/
def takeAll : List Field → Nat → Option Nat
  | [], opc => some opc
  | f :: fs, opc => (f.take opc).bind (takeAll fs)

/-- The mode at a place, `M_NONE` if there is none. -/
def modeAt (r : Row) (i : Nat) : Mode := (modes r).getD i .NONE

/-- The fields of a row. -/
def rowFields (r : Row) : List Field :=
  (fields (modeAt r 0) (modeAt r 1) (modeAt r 2) (modeAt r 3)).filter (·.has)

/-- src/table_mn1610.cpp:367-441 `matchOpCode` -/
def matchOpCode (opc : Nat) (r : Row) : Bool := takeAll (rowFields r) opc == some r.opcode

/-- src/table_mn1610.cpp:430-433 `searchOpCode` -/
def searchOpCode (cpu : CpuType) (opc : Nat) : Option Row :=
  match Table.searchOpCode (fun _ r => matchOpCode opc r) (fun _ => true) (pages cpu) with
  | some (_, r) => some r
  | none => none

/-- src/reg_mn1610.cpp:193-196 `outRegName` -/
def outReg (o : Opts) (n : Nat) : List Char := outText o (regText regs n)

/-- src/reg_mn1610.cpp:245-248 `outCcName`, src/dis_mn1610.cpp:44-47 `outConditionCode`: no condition has the number
of CC_NONE. -/
def outCc (o : Opts) (n : Nat) : List Char := outText o (regText ccs n)

/-- src/reg_mn1610.cpp:170-173 `decodeRegNum`; 255 is REG_UNDEF, of which nothing is printed. -/
def decodeRegNum (n : Nat) : Nat := if n % 8 = 7 then 255 else n % 8
/-- src/reg_mn1610.cpp:183-186 `decodeHardware` -/
def decodeHardware (n : Nat) : Nat := if n % 8 = 7 then 255 else n % 8 + 24
/-- src/reg_mn1610.cpp:188-191 `decodeSpecial` -/
def decodeSpecial (n : Nat) : Nat := if n % 8 ≥ 3 then 255 else n % 8 + 32
/-- src/reg_mn1610.cpp:240-243 `decodeEop` -/
def decodeEop (n : Nat) : Nat := if n % 4 = 0 then 0 else n % 4 + 48
/-- src/reg_mn1610.cpp:236-238 `decodeCop` -/
def decodeCop (n : Nat) : Nat := if n % 2 = 0 then 0 else 32

/-- src/dis_mn1610.cpp:57-98 `outGenericAddr` -/
def outGenericAddr (o : Opts) (cpu : CpuType) (opc base : Nat) : List Char :=
  let addr := opc % 256
  let target := (((base : Int) + int8 addr) % (Config.W : Int)).toNat
  let relative :=
    if o.relative then outRelAddr .surroundX o (width cpu) target base 8
    else outAbsAddr .surroundX o (width cpu) target ++
      ['-', letter o.upper o.curSym, '('] ++ outReg o 7 ++ [')']
  match opc / 2048 % 8 with
  | 0 => outAbsAddr .surroundX o 8 addr
  | 1 => relative
  | 2 => ['('] ++ outAbsAddr .surroundX o 8 addr ++ [')']
  | 3 => ['('] ++ relative ++ [')']
  | 4 => outDec .surroundX o addr 8 ++ ['('] ++ outReg o 11 ++ [')']
  | 5 => outDec .surroundX o addr 8 ++ ['('] ++ outReg o 12 ++ [')']
  | 6 => ['('] ++ outAbsAddr .surroundX o 8 addr ++ [')'] ++ ['('] ++ outReg o 11 ++ [')']
  | _ => ['('] ++ outAbsAddr .surroundX o 8 addr ++ [')'] ++ ['('] ++ outReg o 12 ++ [')']

/-- src/dis_mn1610.cpp:96-103 `outIndirect` -/
def outIndirect (o : Opts) (opc : Nat) : List Char :=
  (if opc / 64 % 4 = 2 then ['-'] else []) ++ ['('] ++ outReg o (opc % 4 + 1) ++ [')'] ++
    (if opc / 64 % 4 = 3 then ['+'] else [])

/-- src/dis_mn1610.cpp:105-188 `decodeOperand`, with `outRegister` (49-55) written out -/
def decodeOperand (o : Opts) (cpu : CpuType) (addr opc : Nat) (m : Mode) (r : Rd) : List Char × Rd :=
  match m with
  | .SKIP => (outCc o (opc / 16 % 16), r)
  | .RD | .RDG => (outReg o (decodeRegNum (opc / 256)), r)
  | .RS | .RSG => (outReg o (decodeRegNum opc), r)
  | .GEN => (outGenericAddr o cpu opc addr, r)
  | .EOP => (outCc o (decodeEop opc), r)
  | .IM4 | .BIT => (outDec .surroundX o (opc % 16) 4, r)
  | .IM8W => (outDec .surroundX o (r.be16.1 % 256) 8, r.be16.2)
  | .IM8 => (outDec .surroundX o (opc % 256) 8, r)
  | .IOA => (outAbsAddr .surroundX o 8 (opc % 256), r)
  | .ILVL => (outDec .surroundX o (opc % 4) 2, r)
  | .IM16 => (outHex .surroundX o r.be16.1 16 true, r.be16.2)
  | .ABS => (outAbsAddr .surroundX o 16 r.be16.1, r.be16.2)
  | .R0 => (outReg o 0, r)
  | .DR0 => (outReg o 8, r)
  | .RI1 => (['('] ++ outReg o 1 ++ [')'], r)
  | .RI2 => (['('] ++ outReg o 2 ++ [')'], r)
  | .RI => (['('] ++ outReg o (opc % 4 + 1) ++ [')'], r)
  | .RIAU => (outIndirect o opc, r)
  | .SB => (if opc / 16 % 4 = 0 then [] else outReg o (opc / 16 % 4 + 16), r)
  | .IABS => (['('] ++ outAbsAddr .surroundX o 16 r.be16.1 ++ [')'], r.be16.2)
  | .COP => (outCc o (decodeCop (opc / 8)), r)
  | .RBW | .RB => (outReg o (opc / 16 % 8 + 16), r)
  | .RHR => (outReg o (decodeHardware (opc / 16)), r)
  | .RHW => (outReg o (if decodeHardware (opc / 16) = 29 then 31 else decodeHardware (opc / 16)), r)
  | .RP => (outReg o (decodeSpecial (opc / 16)), r)
  | _ => ([], r)

/-- src/dis_mn1610.cpp:190-200 `outComma`: whether the operand and its comma are left out -/
def omitted (opc : Nat) (m : Mode) : Bool :=
  match m with
  | .SKIP => opc / 16 % 16 == 0
  | .EOP => opc % 4 == 0
  | .COP => opc / 8 % 2 == 0
  | .SB => opc / 16 % 4 == 0
  | _ => false

/-- src/dis_mn1610.cpp:210-220: the operands after the first -/
def decodeMore (o : Opts) (cpu : CpuType) (addr opc : Nat) : List Mode → Rd → List Char × Rd
  | [], r => ([], r)
  | m :: ms, r =>
    let x := decodeOperand o cpu addr opc m r
    let y := decodeMore o cpu addr opc ms x.2
    ((if omitted opc m then [] else [',', ' ']) ++ x.1 ++ y.1, y.2)

/-- src/dis_mn1610.cpp:209-220: the operands -/
def decodeOperands (o : Opts) (cpu : CpuType) (addr opc : Nat) : List Mode → Rd → List Char × Rd
  | [], r => ([], r)
  | m :: ms, r =>
    let x := decodeOperand o cpu addr opc m r
    let y := decodeMore o cpu addr opc ms x.2
    (x.1 ++ y.1, y.2)

/-- src/dis_mn1610.cpp:202-222 `decodeImpl`. When an entry is found the error is reset
(src/entry_table.h:214), also that of a missing byte of the code. -/
def decodeImpl (o : Opts) (cpu : CpuType) (addr : Nat) (mem : List Nat) : Dis :=
  let (opc, r) := (⟨mem, [], .OK⟩ : Rd).be16
  match searchOpCode cpu opc with
  | none => ⟨.UNKNOWN_INSTRUCTION, [], [], r.bytes⟩
  | some row =>
    let (t, r) := decodeOperands o cpu addr opc (modes row) { r with err := Err.OK }
    ⟨r.err, outText o row.name, t, r.bytes⟩

/-- Disassembling one instruction: `Disassembler::decode` of a `DisMn1610`. -/
def disassemble (o : Opts) (cpu : CpuType) (addr : Nat) (mem : List Nat) : Dis :=
  decode (width cpu) (decodeImpl o cpu) addr mem

/-! ### Assembler -/

/-- `PanasonicSymbolParser`, `StarCommentParser`: src/symbol_parser.h:106-110, src/parsers.cpp:571-573;
src/asm_mn1610.cpp:33-36, 400-405. -/
def syntaxOf : Syntax where
  instructionLetter c := Eval.symbolLetter false c
  instructionTerminator _ := false
  commentLine s := deref s == '*' || deref s == ';'
  special := [['d', 'c']]
  pseudos := [['d', 's'], ['l', 'o', 'c']]

/-- src/asm_mn1610.cpp:43-51 `defaultPlugins` -/
def lexer : Lexer := Maker.mn1610

/-- src/insn_mn1610.h:36-42 `Operand`; 255 is REG_UNDEF and CC_UNDEF. -/
structure Operand where
  err : Err := .OK
  mode : Mode := .NONE
  reg : Nat := 255
  cc : Nat := 255
  val : Value := Value.undefined
deriving DecidableEq

/-- src/asm_mn1610.cpp:227-233, src/reg_mn1610.cpp:206-218 `isSkip`, `isCop`, `isEop` -/
def ccMode (cc : Nat) : Mode :=
  if 1 ≤ cc ∧ cc ≤ 21 then .SKIP else if cc = 32 then .COP else if 49 ≤ cc then .EOP else .NONE

/-- src/asm_mn1610.cpp:268-282: the mode of a register alone; the instruction counter has none. -/
def regMode (n : Nat) : Mode :=
  if n = 0 then .R0
  else if isGeneric n then (if n = 6 then .RD else .RDG)
  else if isSegmentBase n then .SB
  else if n = 8 then .DR0
  else if isSegment n then .RB
  else if isSpecial n then .RP
  else if isHardware n then .RHR
  else .NONE

/-- src/asm_mn1610.cpp:249-257: the mode of a register in parentheses -/
def indirectMode (n : Nat) : Option Mode :=
  if n = 1 then some .RI1 else if n = 2 then some .RI2 else if isIndirect n then some .RI else none

/-- src/asm_mn1610.cpp:245-286: `t` is the text after the register. -/
def registerOperand (start : Scan) (indir preDec : Bool) (reg : Nat) (t : Scan) :
    Except (Err × Scan) (Operand × Scan) :=
  let t := skipSpaces t
  if indir || preDec then
    match indirectMode reg with
    | none => .error (.REGISTER_NOT_ALLOWED, start)
    | some mode =>
      match expect ')' t with
      | none => .error (.MISSING_CLOSING_PAREN, start)
      | some t =>
        if preDec then .ok ({ mode := .RIAU, reg := reg, val := Value.setS (-1) }, t)
        else
          match expect '+' t with
          | some t => .ok ({ mode := .RIAU, reg := reg, val := Value.setUnsigned 1 }, t)
          | none => .ok ({ mode := mode, reg := reg }, t)
  else .ok ({ mode := regMode reg, reg := reg }, t)

/-- src/asm_mn1610.cpp:296-302: the mode of a number -/
def valueMode (v : Value) : Mode :=
  if v.overflowUint16 then .ABS else if v.overflowUint8 then .IM16 else .IM8

/-- `endOfLine(p) || *p == ','`: the text after the spaces if it is so. -/
def ending (P : Plugins Value) (p : Scan) : Option Scan :=
  if P.endOfLine p || P.endOfLine (skipSpaces p) || deref (skipSpaces p) == ',' then some (skipSpaces p) else none

/-- src/asm_mn1610.cpp:335-340: what ends with `(v)` -/
def absoluteOperand (P : Plugins Value) (start : Scan) (val : Value) (err : Err) (p : Scan) :
    Except (Err × Scan) (Operand × Scan) :=
  match ending P p with
  | some p => .ok ({ err := err, mode := .IABS, val := val }, p)
  | none => .error (.UNKNOWN_OPERAND, start)

/-- src/asm_mn1610.cpp:306-319: `p` is the text after the second opening parenthesis. -/
def indexOperand (start : Scan) (indir : Bool) (val : Value) (err : Err) (p : Scan) :
    Out (Except (Err × Scan) (Operand × Scan)) :=
  (searchText regs (skipSpaces p)).bind fun
  | none => .ok (.error (.UNKNOWN_OPERAND, start))
  | some (reg, p) =>
    match expect ')' (skipSpaces p) with
    | none => .ok (.error (.MISSING_CLOSING_PAREN, start))
    | some p =>
      let p := skipSpaces p
      if indir then
        match expect ')' p with
        | none => .ok (.error (.MISSING_CLOSING_PAREN, start))
        | some p => .ok (.ok ({ err := err, mode := .IXID, reg := reg, val := val }, p))
      else .ok (.ok ({ err := err, mode := .INDX, reg := reg, val := val }, p))

/-- src/asm_mn1610.cpp:290-341: `q` is the text after the opening parenthesis, if there is one. After an error of an
index register that is none, nothing else is looked at than the text before it. -/
def valueOperand (P : Char → Plugins Value) (start : Scan) (indir : Bool) (q : Scan) :
    Out (Except (Err × Scan) (Operand × Scan)) :=
  (parseInteger (P (if indir then ')' else '\x00')) q .OK).bind fun (val, err, p) =>
  if hasError err then .ok (.error (err, start))
  else
    match ending (P '\x00') p with
    | some p => .ok (.ok ({ err := err, mode := valueMode val, val := val }, p))
    | none =>
      match expect '(' (skipSpaces p) with
      | some p => indexOperand start indir val err p
      | none =>
        match (if indir then expect ')' (skipSpaces p) else some (skipSpaces p)) with
        | none => .ok (.error (.MISSING_CLOSING_PAREN, start))
        | some p =>
          match expect '(' (skipSpaces p) with
          | none => .ok (absoluteOperand (P '\x00') start val err p)
          | some rp =>
            (searchText regs (skipSpaces rp)).bind fun
            | none => .ok (absoluteOperand (P '\x00') start val err p)
            | some (reg, rp) =>
              match expect ')' (skipSpaces rp) with
              | none => .ok (.error (.MISSING_CLOSING_PAREN, start))
              | some rp => .ok (.ok ({ err := err, mode := .IDIX, reg := reg, val := val }, rp))

/-- src/asm_mn1610.cpp:221-341 `parseOperand`; after an error the text is left where the operand starts. -/
def parseOperand (P : Char → Plugins Value) (scan : Scan) : Out (Except (Err × Scan) (Operand × Scan)) :=
  let p := skipSpaces scan
  (searchText ccs p).bind fun
  | some (cc, q) => .ok (.ok ({ mode := ccMode cc, cc := cc }, q))
  | none =>
    let indir := deref p == '('
    let minus := deref p == '-'
    let preDec := minus && deref (p.drop 1) == '('
    let t := if minus then p.drop 1 else p
    (searchText regs (if indir || preDec then t.drop 1 else t)).bind fun
    | some (reg, t) => .ok (registerOperand p indir preDec reg t)
    | none =>
      if preDec then .ok (.error (.UNKNOWN_OPERAND, p))
      else valueOperand P p indir (if indir then p.drop 1 else p)

/-- src/table_mn1610.cpp:314-352 `acceptMode` -/
def acceptMode (opr table : Mode) : Bool :=
  if table = opr then true
  else
    match table with
    | .SKIP => opr == .NONE
    | .RD => opr == .R0 || opr == .RDG
    | .RDG => opr == .R0
    | .RS => opr == .R0 || opr == .RDG || opr == .RD
    | .RSG => opr == .R0 || opr == .RDG
    | .RI => opr == .RI1 || opr == .RI2
    | .RIAU => opr == .RI1 || opr == .RI2 || opr == .RI
    | .COP | .ILVL | .BIT | .IM4 | .IM8 | .IM8W | .IM16 | .IOA | .ABS => opr == .IM8 || opr == .IM16 || opr == .ABS
    | .RB | .RBW => opr == .SB || opr == .RB
    | .RHW => opr == .RHR
    | .GEN =>
      opr == .IM8 || opr == .IM16 || opr == .ABS || opr == .IABS || opr == .INDX || opr == .IXID || opr == .IDIX
    | _ => false

/-- src/table_mn1610.cpp:345-349 `acceptModes` of the modes of four operands -/
def acceptModes (ops : List Mode) (r : Row) : Bool :=
  (ops.zip (pad 4 .NONE (modes r))).all fun p => acceptMode p.1 p.2

/-- src/entry_table.h `searchName` with what accepts an entry -/
def searchWith (cpu : CpuType) (accept : Row → Bool) (name : List Char) : Out (Except Err Row) :=
  match Table.searchName (fun r : Row => Table.strcasecmp name r.name) (fun _ r => accept r) (pages cpu) false with
  | some (.ok (_, r)) => .ok (.ok r)
  | some (.error e) => .ok (.error e)
  | none => .ub

/-- src/table_mn1610.cpp:351-354 `searchName` -/
def searchName (cpu : CpuType) (name : List Char) (ops : List Mode) : Out (Except Err Row) :=
  searchWith cpu (acceptModes ops) name

/-- src/table_mn1610.cpp:295-302 `acceptAll`, `hasOperand` -/
def hasOperand (cpu : CpuType) (name : List Char) : Out Bool :=
  (searchWith cpu (fun _ => true) name).bind fun
  | .ok r => .ok (modes r != [])
  | .error _ => .ok false

/-- `insn.embed(x)` of a 16 bit code -/
def embed (a : Asm) (x : Nat) : Asm := { a with opc := a.opc ||| x % 65536 }

/-- src/asm_mn1610.cpp:58-65 `encodeIcRelative` -/
def encodeIcRelative (cpu : CpuType) (addr : Nat) (op : Operand) (a : Asm) : Out Asm :=
  (ofOption (Config.branchDelta (width cpu) addr op.val.getUnsigned a.err)).bind fun (delta, err) =>
  (ofOption (Config.overflowDelta delta 8)).bind fun far =>
  let a := ({ a with err := err } : Asm).check far .OPERAND_TOO_FAR
  let a := embed a ((if op.mode = .IABS then 3 else 1) * 2048)
  .ok (embed a (delta % 256).toNat)

/-- src/asm_mn1610.cpp:67-118 `encodeGenericAddress` -/
def encodeGenericAddress (cpu : CpuType) (addr : Nat) (op : Operand) (a : Asm) : Out Asm :=
  let v := op.val.getUnsigned
  match op.mode with
  | .IABS =>
    if op.val.overflow 255 0 = false then .ok (embed (embed a (2 * 2048)) (v % 256))
    else encodeIcRelative cpu addr op a
  | .ABS | .IM16 => encodeIcRelative cpu addr op a
  | .IXID | .INDX | .IDIX =>
    if isIndex op.reg then
      let a := a.check (op.mode == .IXID) .REGISTER_NOT_ALLOWED
      let a := a.check (op.val.overflow 255 0) .OVERFLOW_RANGE
      let a := embed a (v % 256)
      .ok (embed a (((if op.mode = .IDIX then 2 else 0) ||| encodeIndex op.reg) * 2048))
    else if op.reg = 7 then
      let a := a.check (op.mode == .IDIX) .REGISTER_NOT_ALLOWED
      let a := a.check op.val.overflowInt8 .OPERAND_TOO_FAR
      let a := embed a (v % 256)
      .ok (embed a ((if op.mode = .INDX then 1 else 3) * 2048))
    else .ok (a.setErrorIf .REGISTER_NOT_ALLOWED)
  | .IM8 | .IM4 | .ILVL => .ok (embed a v)
  | _ => .ok a

/-- src/asm_mn1610.cpp:118-219 `encodeOperand` -/
def encodeOperand (cpu : CpuType) (addr : Nat) (m : Mode) (op : Operand) (a : Asm) : Out Asm :=
  let a := a.setErrorIf op.err
  let v := op.val.getUnsigned
  match m with
  | .RDG => .ok (embed (a.check (op.reg == 6) .REGISTER_NOT_ALLOWED) (encodeGeneric op.reg * 256))
  | .RD => .ok (embed a (encodeGeneric op.reg * 256))
  | .RSG => .ok (embed (a.check (op.reg == 6) .REGISTER_NOT_ALLOWED) (encodeGeneric op.reg))
  | .RS => .ok (embed a (encodeGeneric op.reg))
  | .RBW => .ok (embed (a.check (op.reg == 16) .REGISTER_NOT_ALLOWED) (encodeSegment op.reg * 16))
  | .SB | .RB => .ok (embed a (encodeSegment op.reg * 16))
  | .RHR => .ok (embed (a.check (op.reg == 31) .REGISTER_NOT_ALLOWED) (encodeHardware op.reg * 16))
  | .RHW => .ok (embed (a.check (op.reg == 29) .REGISTER_NOT_ALLOWED) (encodeHardware op.reg * 16))
  | .RP => .ok (embed a (encodeSpecial op.reg * 16))
  | .RIAU =>
    let a := embed a ((if op.mode = .RIAU then (if v = 1 then 3 else 2) else 1) * 64)
    .ok (embed a (encodeIndirect op.reg))
  | .RI => .ok (embed a (encodeIndirect op.reg))
  | .SKIP => .ok (if op.mode = .SKIP then embed a (op.cc % 16 * 16) else a)
  | .EOP => .ok (embed a (op.cc - 48))
  | .COP =>
    if op.mode = .COP then .ok (embed a 8)
    else .ok (embed (a.check (op.val.overflow 1 0) .ILLEGAL_CONSTANT) (v % 2 * 8))
  | .IM8W | .IM16 => .ok ((a.check op.val.overflowUint16 .OVERFLOW_RANGE).emit16be v)
  | .IABS => .ok (a.emit16be v)
  | .BIT => .ok (embed (a.check (op.val.overflow 15 0) .ILLEGAL_BIT_NUMBER) (v % 16))
  | .ILVL =>
    let v := if op.val.overflow 3 0 then v % 4 else v % 256
    let a := a.check (op.val.overflow 3 0) .ILLEGAL_CONSTANT
    let v := if op.val.overflow 15 0 then v % 16 else v
    let a := a.check (op.val.overflow 15 0) .OVERFLOW_RANGE
    .ok (embed (a.check op.val.overflowUint8 .OVERFLOW_RANGE) v)
  | .IM4 =>
    let v := if op.val.overflow 15 0 then v % 16 else v % 256
    let a := a.check (op.val.overflow 15 0) .OVERFLOW_RANGE
    .ok (embed (a.check op.val.overflowUint8 .OVERFLOW_RANGE) v)
  | .IM8 | .IOA => .ok (embed (a.check op.val.overflowUint8 .OVERFLOW_RANGE) (v % 256))
  | .ABS => .ok ((a.setErrorIf (Config.checkAddr (width cpu) v false)).emit16be v)
  | .GEN => encodeGenericAddress cpu addr op a
  | _ => .ok a

/-- src/insn_mn1610.h:49-50: the code goes before the operands, the most significant byte first. -/
def bytes (a : Asm) : List Nat := a.opc / 256 % 256 :: a.opc % 256 :: a.ops

/-- src/asm_mn1610.cpp:402-418: the operands, if the instruction has any -/
def parseOperands (P : Char → Plugins Value) (has : Bool) (scan : Scan) :
    Out (Except (Err × Scan) (List Operand × Scan)) :=
  if has then operandList (parseOperand P) 4 scan else .ok (.ok ([], skipSpaces scan))

/-- src/asm_mn1610.cpp:400-429 `encodeImpl` -/
def encodeImpl (P : Char → Plugins Value) (cpu : CpuType) (addr : Nat) (name : List Char) (scan : Scan) : Out Res :=
  (hasOperand cpu name).bind fun has =>
  (parseOperands P has scan).bind fun
  | .error (e, scan) => .ok ⟨e, [], scan⟩
  | .ok (ops, scan) =>
    let ops := pad 4 {} ops
    (searchName cpu name (ops.map (·.mode))).bind fun
    | .error e => .ok ⟨e, [], scan⟩
    | .ok row =>
      (emitList (encodeOperand cpu addr) ((pad 4 .NONE (modes row)).zip ops) ⟨.OK, row.opcode, []⟩).bind fun a =>
      .ok ⟨a.err, bytes a, scan⟩

/-- Assembling one line: `Assembler::encode` of an `AsmMn1610`. -/
def assemble (E : Env) (cpu : CpuType) (addr : Nat) (line : List Char) : Out Line :=
  encode syntaxOf (width cpu) (encodeImpl (fun d => lexer.plugins E d addr) cpu addr) addr line

end Libasm.Cpu.Mn1610
