import Verif.Cpu.ListModel
import Verif.Maker.Model
import Verif.Tables.Data.F3850
/-
The assembler and the disassembler of the F3850 (Fairchild F8): src/asm_f3850.cpp, src/dis_f3850.cpp,
src/table_f3850.cpp, src/reg_f3850.cpp, src/insn_f3850.h. The instruction table is
Verif/Tables/Data/F3850.lean, generated from src/table_f3850.cpp.
-/
namespace Libasm.Cpu.F3850
open Scan Number Eval
open Tables (Row)

/-- src/entry_f3850.h:29-55 `AddrMode`; the code has no UNDEF. -/
inductive Mode
  | NONE | A | W | IS | KU | KL | QU | QL | H | K | Q | P | P0 | DC | J | REG | C1 | C4 | IM3 | IM4 | IM8
  | ADDR | REL | IOS | IOA | UNDEF
deriving DecidableEq, Repr

/-- The name of an addressing mode in the table. -/
def modeOf : String → Mode
  | "M_A" => .A
  | "M_W" => .W
  | "M_IS" => .IS
  | "M_KU" => .KU
  | "M_KL" => .KL
  | "M_QU" => .QU
  | "M_QL" => .QL
  | "M_H" => .H
  | "M_K" => .K
  | "M_Q" => .Q
  | "M_P" => .P
  | "M_P0" => .P0
  | "M_DC" => .DC
  | "M_J" => .J
  | "M_REG" => .REG
  | "M_C1" => .C1
  | "M_C4" => .C4
  | "M_IM3" => .IM3
  | "M_IM4" => .IM4
  | "M_IM8" => .IM8
  | "M_ADDR" => .ADDR
  | "M_REL" => .REL
  | "M_IOS" => .IOS
  | "M_IOA" => .IOA
  | _ => .UNDEF

/-- src/table_f3850.cpp:27-30, src/entry_f3850.h:55-74 `Flags`: the modes of a row, without the M_NONE
after them. -/
def modes (r : Row) : List Mode :=
  match r.operands with
  | ["E0"] => []
  | ["E1", a] => [modeOf a]
  | ["E2", a, b] => [modeOf a, modeOf b]
  | _ => [.UNDEF]

/-- `flags.mode1()` -/
def mode1 (r : Row) : Mode := (modes r).getD 0 .NONE
/-- `flags.mode2()` -/
def mode2 (r : Row) : Mode := (modes r).getD 1 .NONE

/-- src/table_f3850.cpp:195-207 `F3850_PAGES`, `CPU_TABLE`, `cpu` -/
def pages : List (Table.Page Row) := Tables.F3850.F3850_PAGES

/-- src/reg_f3850.h:27-51 `RegName`; those from `REG_alias` = 16 on name the scratchpad registers 9 to 14. -/
abbrev Reg := Nat
def REG_A : Reg := 1
def REG_W : Reg := 2
def REG_IS : Reg := 3
def REG_KU : Reg := 4
def REG_KL : Reg := 5
def REG_QU : Reg := 6
def REG_QL : Reg := 7
def REG_DC : Reg := 8
def REG_P : Reg := 9
def REG_P0 : Reg := 10
def REG_H : Reg := 11
def REG_K : Reg := 12
def REG_Q : Reg := 13
def REG_alias : Reg := 16
def REG_J : Reg := 25
def REG_HU : Reg := 26
def REG_HL : Reg := 27
def REG_S : Reg := 28
def REG_I : Reg := 29
def REG_D : Reg := 30

/-- src/reg_f3850.cpp:32-52 `REG_ENTRIES` -/
def regs : List (List Char × Reg) :=
  [(['A'], REG_A), (['D'], REG_D), (['D', 'C'], REG_DC), (['H'], REG_H), (['H', 'L'], REG_HL), (['H', 'U'], REG_HU),
    (['I'], REG_I), (['I', 'S'], REG_IS), (['J'], REG_J), (['K'], REG_K), (['K', 'L'], REG_KL), (['K', 'U'], REG_KU),
    (['P'], REG_P), (['P', '0'], REG_P0), (['Q'], REG_Q), (['Q', 'L'], REG_QL), (['Q', 'U'], REG_QU), (['S'], REG_S),
    (['W'], REG_W)]

/-- The mode that has the number of a register below `REG_alias` (src/entry_f3850.h:31-43). -/
def regMode (r : Reg) : Mode :=
  if r = REG_A then .A
  else if r = REG_W then .W
  else if r = REG_IS then .IS
  else if r = REG_KU then .KU
  else if r = REG_KL then .KL
  else if r = REG_QU then .QU
  else if r = REG_QL then .QL
  else if r = REG_DC then .DC
  else if r = REG_P then .P
  else if r = REG_P0 then .P0
  else if r = REG_H then .H
  else if r = REG_K then .K
  else if r = REG_Q then .Q
  else .UNDEF

/-- The register that has the number of a mode below M_REG, except M_J. -/
def modeReg : Mode → Option Reg
  | .A => some REG_A
  | .W => some REG_W
  | .IS => some REG_IS
  | .KU => some REG_KU
  | .KL => some REG_KL
  | .QU => some REG_QU
  | .QL => some REG_QL
  | .DC => some REG_DC
  | .P => some REG_P
  | .P0 => some REG_P0
  | .H => some REG_H
  | .K => some REG_K
  | .Q => some REG_Q
  | _ => none

/-! ### Disassembler -/

/-- src/table_f3850.cpp:250-262 `matchOpCode` -/
def matchOpCode (opc : Nat) (r : Row) : Bool :=
  if mode1 r = .REG ∨ mode2 r = .REG ∨ mode1 r = .IM4 ∨ mode1 r = .IOS then opc / 16 * 16 == r.opcode
  else if mode1 r = .IM3 then opc / 8 * 8 == r.opcode
  else opc == r.opcode

/-- src/table_f3850.cpp:253-256 `searchOpCode` -/
def searchOpCode (opc : Nat) : Option Row :=
  (Table.searchOpCode (fun _ r => matchOpCode opc r) (fun p => p.prefix_ == 0) pages).map (·.2)

/-- src/reg_f3850.cpp:73-76 `outRegName` -/
def outReg (o : Opts) (r : Reg) : List Char := outText o (regText regs r)

/-- src/reg_f3850.cpp:64-71 `decodeRegName` -/
def decodeRegName (opc : Nat) : Option Reg :=
  if 9 ≤ opc % 16 ∧ opc % 16 ≤ 14 then some (opc % 16 + REG_alias) else none

/-- src/dis_f3850.cpp:37-43 `decodeRelative`, 32 bit arithmetic -/
def decodeRelative (o : Opts) (addr : Nat) (r : Rd) : List Char × Rd :=
  let (b, r) := r.byte
  let target := (((addr + 1 : Nat) : Int) + int8 b) % Config.W
  let r := r.setErrorIf (Config.checkAddr 16 target.toNat false)
  (outRelAddr .fairchild o 16 target.toNat addr 8, r)

/-- src/dis_f3850.cpp:44-101 `decodeOperand`, without symbols -/
def decodeOperand (o : Opts) (addr opc : Nat) (m : Mode) (r : Rd) : List Char × Rd :=
  match m with
  | .REG =>
    let r := if opc % 16 = 15 then r.setErrorIf .OPERAND_NOT_ALLOWED else r
    match decodeRegName opc with
    | some name => (outReg o name, r)
    | none => (outDec .fairchild o (opc % 16) 4, r)
  | .C1 => (outDec .fairchild o 1 1, r)
  | .C4 => (outDec .fairchild o 4 3, r)
  | .IM3 => (outHex .fairchild o (opc % 8) 3 true, r)
  | .IOS =>
    let r := if opc % 16 = 2 ∨ opc % 16 = 3 then r.setErrorIf .OPERAND_NOT_ALLOWED else r
    (outHex .fairchild o (opc % 16) 4 true, r)
  | .IM4 => (outHex .fairchild o (opc % 16) 4 true, r)
  | .IOA =>
    let (ioa, r) := r.byte
    (outHex .fairchild o ioa 8 true, if ioa < 4 then r.setErrorIf .OPERAND_NOT_ALLOWED else r)
  | .IM8 => (outHex .fairchild o r.byte.1 8 true, r.byte.2)
  | .ADDR => (outAbsAddr .fairchild o 16 r.be16.1, r.be16.2)
  | .REL => decodeRelative o addr r
  | .J => (outReg o REG_J, r)
  | m =>
    match modeReg m with
    | some reg => (outReg o reg, r)
    | none => ([], r)

/-- src/dis_f3850.cpp:102-116 `decodeImpl`. When an entry is found the error is reset
(src/entry_table.h:214), also that of a missing first byte. -/
def decodeImpl (o : Opts) (addr : Nat) (mem : List Nat) : Dis :=
  let (opc, r) := (⟨mem, [], .OK⟩ : Rd).byte
  match searchOpCode opc with
  | none => ⟨.UNKNOWN_INSTRUCTION, [], [], r.bytes⟩
  | some row =>
    let (t, r) := decodeList (decodeOperand o addr opc) (modes row) { r with err := Err.OK }
    ⟨r.err, outText o row.name, t, r.bytes⟩

/-- Disassembling one instruction: `Disassembler::decode` of a `DisF3850`; addresses have 16 bits
(src/config_f3850.h). -/
def disassemble (o : Opts) (addr : Nat) (mem : List Nat) : Dis :=
  decode 16 (decodeImpl o) addr mem

/-! ### Assembler -/

/-- `FairchildSymbolParser`, `StarCommentParser`: src/symbol_parser.h:101-104, src/parsers.cpp:571-573; the
table of src/asm_f3850.cpp:32-40. -/
def syntaxOf : Syntax where
  instructionLetter c := Eval.symbolLetter false c
  instructionTerminator _ := false
  commentLine s := deref s == '*' || deref s == ';'
  special := []
  pseudos := [['D', 'A'], ['D', 'C'], ['R', 'S']]

/-- src/asm_f3850.cpp:45-53: numbers, letters and location symbols of Fairchild, operators of C. -/
def lexer : Lexer := Maker.f3850

/-- src/insn_f3850.h:34-38 `Operand` -/
structure Operand where
  err : Err := .OK
  mode : Mode := .NONE
  val : Value := Value.undefined
deriving DecidableEq

/-- src/asm_f3850.cpp:66-73: the mode of a register. -/
def registerMode (reg : Reg) : Mode :=
  if reg < REG_alias then regMode reg
  else if reg = REG_J then .J
  else .REG

/-- src/asm_f3850.cpp:84-97: the mode of a number, and the error of one that has none. -/
def numberMode (v : Value) : Option Mode :=
  if v.getSigned = 1 then some .C1
  else if v.getSigned = 4 then some .C4
  else if v.overflow 7 0 then some .IM3
  else if v.overflow 15 0 then some .IM4
  else if !v.overflowUint8 then some .IM8
  else if !v.overflowUint16 then some .ADDR
  else none

/-- src/asm_f3850.cpp:60-100 `parseOperand`; after an error the text is left where the operand starts. The
number of a register less `REG_alias` is made an uint32_t. -/
def parseOperand (P : Plugins Value) (scan : Scan) : Out (Except (Err × Scan) (Operand × Scan)) :=
  let start := skipSpaces scan
  (searchText regs start).bind fun
  | some (reg, p) =>
    .ok (.ok ({ mode := registerMode reg, val := Value.setUnsigned ((reg + Config.W - REG_alias) % Config.W) }, p))
  | none =>
    (parseInteger P (skipSpaces start) .OK).bind fun (val, err, p) =>
    if hasError err then .ok (.error (err, start))
    else
      match numberMode val with
      | some m => .ok (.ok ({ err := err, mode := m, val := val }, p))
      | none => .ok (.ok ({ err := .OVERFLOW_RANGE, val := val }, p))

/-- src/table_f3850.cpp:218-228: the modes of numbers. -/
def isNumber (m : Mode) : Bool :=
  m == .C1 || m == .C4 || m == .IM3 || m == .IM4 || m == .IM8 || m == .ADDR

/-- src/table_f3850.cpp:218-228 `acceptMode` -/
def acceptMode (opr table : Mode) : Bool :=
  if opr = table then true
  else if opr = .J then table == .REG
  else if isNumber opr then isNumber table || table == .REL || table == .REG || table == .IOS || table == .IOA
  else false

/-- src/table_f3850.cpp:230-233 `acceptModes` of the modes of two operands -/
def acceptModes (ops : List Mode) (r : Row) : Bool :=
  (ops.zip (pad 2 .NONE (modes r))).all fun p => acceptMode p.1 p.2

/-- src/table_f3850.cpp:235-238 `searchName`, with what accepts an entry -/
def searchWith (accept : Row → Bool) (name : List Char) : Out (Except Err Row) :=
  match Table.searchName (fun r : Row => Table.strcasecmp name r.name) (fun _ r => accept r) pages false with
  | some (.ok (_, r)) => .ok (.ok r)
  | some (.error e) => .ok (.error e)
  | none => .ub

/-- src/table_f3850.cpp:235-238 `searchName` -/
def searchName (name : List Char) (ops : List Mode) : Out (Except Err Row) :=
  searchWith (acceptModes ops) name

/-- src/table_f3850.cpp:209-216 `hasOperand` -/
def hasOperand (name : List Char) : Out Bool :=
  (searchWith (fun _ => true) name).bind fun
  | .ok r => .ok (decide (mode1 r ≠ .NONE))
  | .error _ => .ok false

/-- src/asm_f3850.cpp:101-108 `emitRelative` -/
def encodeRelative (addr : Nat) (op : Operand) (a : Asm) : Out Asm :=
  let base := (addr + 1) % Config.W
  a.rel8 16 base (if op.err ≠ .OK then base else op.val.getUnsigned)

/-- src/asm_f3850.cpp:110-162 `encodeOperand` -/
def encodeOperand (addr : Nat) (m : Mode) (op : Operand) (a : Asm) : Out Asm :=
  let a := a.setErrorIf op.err
  let v := op.val.getUnsigned
  match m with
  | .REG =>
    .ok (((a.check (op.val.overflow 15 0) .OVERFLOW_RANGE).check (v == 15) .OPERAND_NOT_ALLOWED).embed (v % 16))
  | .C1 =>
    if v = 1 then .ok a
    else if v = 4 then .ok { a with opc := (a.opc + 2) % 256 }
    else .ok (a.setErrorIf .OPERAND_NOT_ALLOWED)
  | .IM3 => .ok ((a.check (op.val.overflow 7 0) .OVERFLOW_RANGE).embed (v % 8))
  | .IOS =>
    .ok (((a.check (v == 2 || v == 3) .OPERAND_NOT_ALLOWED).check (op.val.overflow 15 0) .OVERFLOW_RANGE).embed (v % 16))
  | .IM4 => .ok ((a.check (op.val.overflow 15 0) .OVERFLOW_RANGE).embed (v % 16))
  | .IOA =>
    .ok (((a.check (op.err == .OK && !op.val.overflow 3 0) .OPERAND_NOT_ALLOWED).check op.val.overflowUint8
      .OVERFLOW_RANGE).emit8 v)
  | .IM8 => .ok ((a.check op.val.overflowUint8 .OVERFLOW_RANGE).emit8 v)
  | .ADDR => .ok (a.emit16be v)
  | .REL => encodeRelative addr op a
  | _ => .ok a

/-- src/asm_f3850.cpp:164-183 `encodeImpl` -/
def encodeImpl (P : Plugins Value) (addr : Nat) (name : List Char) (scan : Scan) : Out Res :=
  (hasOperand name).bind fun has =>
  (if has then operandList (parseOperand P) 2 scan else .ok (.ok ([], skipSpaces scan))).bind fun
  | .error (e, scan) => .ok ⟨e, [], scan⟩
  | .ok (ops, scan) =>
    let ops := pad 2 {} ops
    (searchName name (ops.map (·.mode))).bind fun
    | .error e => .ok ⟨e, [], scan⟩
    | .ok row =>
      (emitList (encodeOperand addr) ((pad 2 .NONE (modes row)).zip ops) ⟨.OK, row.opcode, []⟩).bind fun a =>
      .ok ⟨a.err, a.bytes, scan⟩

/-- Assembling one line: `Assembler::encode` of an `AsmF3850`. -/
def assemble (E : Env) (addr : Nat) (line : List Char) : Out Line :=
  encode syntaxOf 16 (encodeImpl (lexer.plugins E '\x00' addr) addr) addr line

end Libasm.Cpu.F3850
