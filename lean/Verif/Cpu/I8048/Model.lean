import Verif.Cpu.ListModel
import Verif.Tables.Data.I8048
/-
The assembler and the disassembler of the i8048 family (8048, 8039, 80C48, 80C39, MSM80C48, MSM80C39):
src/asm_i8048.cpp, src/dis_i8048.cpp, src/table_i8048.cpp, src/reg_i8048.cpp, src/insn_i8048.h. The
instruction tables are Verif/Tables/Data/I8048.lean, generated from src/table_i8048.cpp.
-/
namespace Libasm.Cpu.I8048
open Scan Number Eval
open Tables (Row)

/-- src/config_i8048.h:27-34 `CpuType` -/
inductive CpuType | I8048 | I8039 | I80C48 | I80C39 | MSM80C48 | MSM80C39
deriving DecidableEq, Repr

/-- src/entry_i8048.h:28-58 `AddrMode`; the code has no UNDEF. -/
inductive Mode
  | NONE | A | R | IR | IMM8 | BIT8 | BITN | BUS | P12 | PEXT | AD11 | AD08 | IA | PSW | C | I | F | RB | MB | T
  | CNT | TCNT | TCNTI | CLK | IR3 | P | P1 | P2 | UNDEF
deriving DecidableEq, Repr

/-- The name of an addressing mode in the table. -/
def modeOf : String → Mode
  | "M_A" => .A
  | "M_R" => .R
  | "M_IR" => .IR
  | "M_IMM8" => .IMM8
  | "M_BIT8" => .BIT8
  | "M_BITN" => .BITN
  | "M_BUS" => .BUS
  | "M_P12" => .P12
  | "M_PEXT" => .PEXT
  | "M_AD11" => .AD11
  | "M_AD08" => .AD08
  | "M_IA" => .IA
  | "M_PSW" => .PSW
  | "M_C" => .C
  | "M_I" => .I
  | "M_F" => .F
  | "M_RB" => .RB
  | "M_MB" => .MB
  | "M_T" => .T
  | "M_CNT" => .CNT
  | "M_TCNT" => .TCNT
  | "M_TCNTI" => .TCNTI
  | "M_CLK" => .CLK
  | "M_IR3" => .IR3
  | "M_P" => .P
  | "M_P1" => .P1
  | "M_P2" => .P2
  | _ => .UNDEF

/-- src/table_i8048.cpp:27-30, src/entry_i8048.h:60-75 `Flags`: the modes of a row, without the M_NONE
after them. -/
def modes (r : Row) : List Mode :=
  match r.operands with
  | ["E0"] => []
  | ["E1", a] => [modeOf a]
  | ["E2", a, b] => [modeOf a, modeOf b]
  | _ => [.UNDEF]

/-- `flags.dst()` -/
def dst (r : Row) : Mode := (modes r).getD 0 .NONE
/-- `flags.src()` -/
def src (r : Row) : Mode := (modes r).getD 1 .NONE

/-- src/table_i8048.cpp:268-289 `INST_PAGES`, `CPU_TABLE`, `cpu`: the pages of the processor. -/
def pages : CpuType → List (Table.Page Row)
  | .I8039 => (Tables.I8048.INST_PAGES.take 2).drop 1
  | .I80C39 => (Tables.I8048.INST_PAGES.take 3).drop 1
  | .MSM80C39 => (Tables.I8048.INST_PAGES.take 4).drop 1
  | .I8048 => (Tables.I8048.INST_PAGES.take 2).drop 0
  | .I80C48 => (Tables.I8048.INST_PAGES.take 3).drop 0
  | .MSM80C48 => (Tables.I8048.INST_PAGES.take 4).drop 0

/-- src/reg_i8048.h:28-67 `RegName`: the numbers of the registers; those of R0 to R7 are 0 to 7. -/
abbrev Reg := Nat
def REG_BUS : Reg := 8
def REG_P1 : Reg := 9
def REG_P2 : Reg := 10
def REG_P4 : Reg := 12
def REG_P5 : Reg := 13
def REG_P6 : Reg := 14
def REG_P7 : Reg := 15
def REG_A : Reg := 16
def REG_PSW : Reg := 17
def REG_P : Reg := 18
def REG_F0 : Reg := 24
def REG_F1 : Reg := 25
def REG_C : Reg := 26
def REG_I : Reg := 27
def REG_RB0 : Reg := 28
def REG_RB1 : Reg := 29
def REG_MB0 : Reg := 30
def REG_MB1 : Reg := 31
def REG_T : Reg := 32
def REG_CLK : Reg := 33
def REG_CNT : Reg := 34
def REG_TCNT : Reg := 35
def REG_TCNTI : Reg := 36

/-- src/reg_i8048.cpp:32-64 `REG_ENTRIES` -/
def regs : List (List Char × Reg) :=
  [(['A'], REG_A), (['B', 'U', 'S'], REG_BUS), (['C'], REG_C), (['C', 'L', 'K'], REG_CLK), (['C', 'N', 'T'], REG_CNT),
    (['F', '0'], REG_F0), (['F', '1'], REG_F1), (['I'], REG_I), (['M', 'B', '0'], REG_MB0), (['M', 'B', '1'], REG_MB1),
    (['P'], REG_P), (['P', '1'], REG_P1), (['P', '2'], REG_P2), (['P', '4'], REG_P4), (['P', '5'], REG_P5),
    (['P', '6'], REG_P6), (['P', '7'], REG_P7), (['P', 'S', 'W'], REG_PSW), (['R', '0'], 0), (['R', '1'], 1),
    (['R', '2'], 2), (['R', '3'], 3), (['R', '4'], 4), (['R', '5'], 5), (['R', '6'], 6), (['R', '7'], 7),
    (['R', 'B', '0'], REG_RB0), (['R', 'B', '1'], REG_RB1), (['T'], REG_T), (['T', 'C', 'N', 'T'], REG_TCNT),
    (['T', 'C', 'N', 'T', 'I'], REG_TCNTI)]

/-! ### Disassembler -/

/-- src/table_i8048.cpp:315-340 `matchOpCode` -/
def matchOpCode (opc : Nat) (r : Row) : Bool :=
  let either := fun m => decide (dst r = m ∨ src r = m)
  if either .R then opc / 8 * 8 == r.opcode
  else if either .IR then opc / 2 * 2 == r.opcode
  else if either .PEXT then opc / 4 * 4 == r.opcode
  else if dst r = .AD11 ∨ dst r = .BITN then opc % 32 == r.opcode
  else if dst r = .F then opc / 64 * 64 + opc % 32 == r.opcode
  else if dst r = .RB ∨ dst r = .MB then opc / 32 * 32 + opc % 16 == r.opcode
  else if either .P12 then opc == r.opcode + 1 || opc == r.opcode + 2
  else opc == r.opcode

/-- src/table_i8048.cpp:334-337 `searchOpCode` -/
def searchOpCode (cpu : CpuType) (opc : Nat) : Option Row :=
  (Table.searchOpCode (fun _ r => matchOpCode opc r) (fun p => p.prefix_ == 0) (pages cpu)).map (·.2)

/-- src/reg_i8048.cpp:76-79 `outRegName` -/
def outReg (o : Opts) (r : Reg) : List Char := outText o (regText regs r)

/-- src/reg_i8048.cpp:100-102 `decodeRRegNum` -/
def rreg (n : Nat) : Reg := n % 8
/-- src/reg_i8048.cpp:108-110 `decodePortNum` -/
def port (n : Nat) : Reg := n % 8 + REG_BUS

/-- src/dis_i8048.cpp:34-121 `decodeOperand`, without symbols -/
def decodeOperand (o : Opts) (addr opc : Nat) (m : Mode) (r : Rd) : List Char × Rd :=
  match m with
  | .IA => ('@' :: outReg o REG_A, r)
  | .A => (outReg o REG_A, r)
  | .IR | .IR3 => ('@' :: outReg o (rreg opc), r)
  | .R => (outReg o (rreg opc), r)
  | .BUS => (outReg o REG_BUS, r)
  | .P12 | .PEXT => (outReg o (port opc), r)
  | .P => (outReg o REG_P, r)
  | .P1 => (outReg o REG_P1, r)
  | .P2 => (outReg o REG_P2, r)
  | .AD08 => (outAbsAddr .intel o 12 ((addr + 1) / 256 * 256 + r.byte.1), r.byte.2)
  | .AD11 => (outAbsAddr .intel o 12 (opc / 32 * 256 + r.byte.1), r.byte.2)
  | .BITN => (outDec .intel o (opc / 32) 3, r)
  | .IMM8 => ('#' :: outDec .intel o r.byte.1 8, r.byte.2)
  | .BIT8 => ('#' :: outHex .intel o r.byte.1 8 false, r.byte.2)
  | .PSW => (outReg o REG_PSW, r)
  | .C => (outReg o REG_C, r)
  | .F => (outReg o (if opc / 32 % 2 = 1 then REG_F1 else REG_F0), r)
  | .RB => (outReg o (if opc / 16 % 2 = 1 then REG_RB1 else REG_RB0), r)
  | .MB => (outReg o (if opc / 16 % 2 = 1 then REG_MB1 else REG_MB0), r)
  | .I => (outReg o REG_I, r)
  | .T => (outReg o REG_T, r)
  | .CNT => (outReg o REG_CNT, r)
  | .TCNT => (outReg o REG_TCNT, r)
  | .TCNTI => (outReg o REG_TCNTI, r)
  | .CLK => (outReg o REG_CLK, r)
  | .NONE | .UNDEF => ([], r)

/-- src/dis_i8048.cpp:122-136 `decodeImpl`. When an entry is found the error is reset
(src/entry_table.h:214), also that of a missing first byte. -/
def decodeImpl (o : Opts) (cpu : CpuType) (addr : Nat) (mem : List Nat) : Dis :=
  let (opc, r) := (⟨mem, [], .OK⟩ : Rd).byte
  match searchOpCode cpu opc with
  | none => ⟨.UNKNOWN_INSTRUCTION, [], [], r.bytes⟩
  | some row =>
    let (t, r) := decodeList (decodeOperand o addr opc) (modes row) { r with err := Err.OK }
    ⟨r.err, outText o row.name, t, r.bytes⟩

/-- Disassembling one instruction: `Disassembler::decode` of a `DisI8048`; addresses have 12 bits
(src/config_i8048.h:35). -/
def disassemble (o : Opts) (cpu : CpuType) (addr : Nat) (mem : List Nat) : Dis :=
  decode 12 (decodeImpl o cpu) addr mem

/-! ### Assembler -/

/-- `IntelSymbolParser::symbolLetter`, src/symbol_parser.h:78-80 -/
def symbol : Bool → Char → Bool := prefixSymbol none (some ['_', '?'])

/-- `IntelSymbolParser`, `SemicolonCommentParser`; the table of src/asm_i8048.cpp:32-36. -/
def syntaxOf : Syntax where
  instructionLetter c := symbol false c
  instructionTerminator _ := false
  commentLine s := semicolonEnd s
  special := []
  pseudos := [['D', 'B'], ['D', 'S'], ['D', 'W']]

/-- src/asm_i8048.cpp:42-44, src/value_parser.cpp:53-73: the Intel plugins. -/
def lexer : Lexer where
  number := .intel
  operators := .intel
  letter := defaultLetter
  location := locationSymbol symbol '$'
  symbolLetter := symbol
  functionLetter := symbol false
  endOfLine := semicolonEnd

/-- src/insn_i8048.h:34-39 `Operand` -/
structure Operand where
  err : Err := .OK
  mode : Mode := .NONE
  reg : Option Reg := none
  val : Value := Value.undefined
deriving DecidableEq

/-- src/asm_i8048.cpp:74-86: the mode of a register after `@`. -/
def indirectMode (reg : Reg) : Option Mode :=
  if reg = REG_A then some .IA
  else if reg = 0 ∨ reg = 1 then some .IR
  else if reg = 3 then some .IR3
  else none

/-- src/asm_i8048.cpp:90-156: the mode of a register. -/
def registerMode (reg : Reg) : Option Mode :=
  if reg = REG_BUS then some .BUS
  else if reg = REG_P then some .P
  else if reg = REG_P1 then some .P1
  else if reg = REG_P2 then some .P2
  else if reg = REG_P4 ∨ reg = REG_P5 ∨ reg = REG_P6 ∨ reg = REG_P7 then some .PEXT
  else if reg = REG_A then some .A
  else if reg = REG_PSW then some .PSW
  else if reg = REG_F0 ∨ reg = REG_F1 then some .F
  else if reg = REG_C then some .C
  else if reg = REG_I then some .I
  else if reg = REG_RB0 ∨ reg = REG_RB1 then some .RB
  else if reg = REG_MB0 ∨ reg = REG_MB1 then some .MB
  else if reg = REG_T then some .T
  else if reg = REG_CLK then some .CLK
  else if reg = REG_CNT then some .CNT
  else if reg = REG_TCNT then some .TCNT
  else if reg = REG_TCNTI then some .TCNTI
  else if reg ≤ 7 then some .R
  else none

/-- src/asm_i8048.cpp:51-168 `parseOperand`; after an error the text is left where the operand starts. -/
def parseOperand (P : Plugins Value) (scan : Scan) : Out (Except (Err × Scan) (Operand × Scan)) :=
  let start := skipSpaces scan
  if P.endOfLine start then .ok (.ok ({}, start))
  else
    match expect '#' start with
    | some p =>
      (parseInteger P p .OK).bind fun (val, err, p) =>
      if hasError err then .ok (.error (err, start))
      else .ok (.ok ({ err := err, mode := .IMM8, val := val }, p))
    | none =>
      let indir := (expect '@' start).isSome
      let p := (expect '@' start).getD start
      if indir ∧ Ctype.isSpace (deref p) then .ok (.error (.UNKNOWN_OPERAND, start))
      else
        (searchText regs p).bind fun
        | some (reg, p) =>
          if indir then
            match indirectMode reg with
            | some m => .ok (.ok ({ mode := m, reg := some reg }, p))
            | none => .ok (.error (.REGISTER_NOT_ALLOWED, start))
          else
            match registerMode reg with
            | some m => .ok (.ok ({ mode := m, reg := some reg }, p))
            | none => .ok (.error (.UNKNOWN_OPERAND, start))
        | none =>
          if indir then .ok (.error (.UNKNOWN_OPERAND, start))
          else
            (parseInteger P p .OK).bind fun (val, err, p) =>
            if hasError err then .ok (.error (err, start))
            else .ok (.ok ({ err := err, mode := .AD11, val := val }, p))

/-- src/table_i8048.cpp:288-298 `acceptMode` -/
def acceptMode (opr table : Mode) : Bool :=
  if opr = table then true
  else if opr = .IMM8 then table == .BIT8
  else if opr = .AD11 then table == .AD08 || table == .BITN
  else if opr = .P1 ∨ opr = .P2 then table == .P12
  else false

/-- src/table_i8048.cpp:300-303 `acceptModes` of the modes of two operands -/
def acceptModes (ops : List Mode) (r : Row) : Bool :=
  (ops.zip (pad 2 .NONE (modes r))).all fun p => acceptMode p.1 p.2

/-- src/table_i8048.cpp:305-308 `searchName` -/
def searchName (cpu : CpuType) (name : List Char) (ops : List Mode) : Out (Except Err Row) :=
  match Table.searchName (fun r : Row => Table.strcasecmp name r.name) (fun _ r => acceptModes ops r)
      (pages cpu) false with
  | some (.ok (_, r)) => .ok (.ok r)
  | some (.error e) => .ok (.error e)
  | none => .ub

/-- src/asm_i8048.cpp:172-174 `page`; `Config::uintptr_t` has 16 bits. -/
def page (a : Nat) : Nat := a % 65536 / 256 * 256

/-- src/asm_i8048.cpp:178-191 `encodeAddress` -/
def encodeAddress (addr : Nat) (m : Mode) (op : Operand) (a : Asm) : Asm :=
  let target := op.val.getUnsigned
  if m = .AD08 then (a.check (page target != page (addr + 1)) .OPERAND_TOO_FAR).emit8 target
  else
    ((a.check (Config.checkAddr 12 target false != .OK) .OVERFLOW_RANGE).embed (target / 256 % 8 * 32)).emit8 target

/-- The number of a register; `static_cast<uint8_t>(REG_UNDEF)` without one. -/
def regNum (op : Operand) : Nat := op.reg.getD 255

/-- src/asm_i8048.cpp:193-232 `encodeOperand`; the code of a register is the number of it
(src/reg_i8048.cpp:96-98,104-106). -/
def encodeOperand (addr : Nat) (m : Mode) (op : Operand) (a : Asm) : Out Asm :=
  let a := a.setErrorIf op.err
  let v := op.val.getUnsigned
  match m with
  | .IR | .IR3 | .R => .ok (a.embed (regNum op))
  | .P12 | .PEXT => .ok (a.embed ((regNum op + 256 - REG_BUS) % 256))
  | .AD08 | .AD11 => .ok (encodeAddress addr m op a)
  | .IMM8 | .BIT8 => .ok ((a.check op.val.overflowUint8 .OVERFLOW_RANGE).emit8 v)
  | .BITN => .ok ((a.check (op.val.overflow 7 0) .ILLEGAL_BIT_NUMBER).embed (v % 8 * 32))
  | .F => .ok (a.embed (if op.reg = some REG_F1 then 0x20 else 0))
  | .RB => .ok (a.embed (if op.reg = some REG_RB1 then 0x10 else 0))
  | .MB => .ok (a.embed (if op.reg = some REG_MB1 then 0x10 else 0))
  | _ => .ok a

/-- src/asm_i8048.cpp:234-251 `encodeImpl` -/
def encodeImpl (P : Plugins Value) (cpu : CpuType) (addr : Nat) (name : List Char) (scan : Scan) : Out Res :=
  (operandList (parseOperand P) 2 scan).bind fun
  | .error (e, scan) => .ok ⟨e, [], scan⟩
  | .ok (ops, scan) =>
    let ops := pad 2 {} ops
    (searchName cpu name (ops.map (·.mode))).bind fun
    | .error e => .ok ⟨e, [], scan⟩
    | .ok row =>
      (emitList (encodeOperand addr) ((pad 2 .NONE (modes row)).zip ops) ⟨.OK, row.opcode, []⟩).bind fun a =>
      .ok ⟨a.err, a.bytes, scan⟩

/-- Assembling one line: `Assembler::encode` of an `AsmI8048`. -/
def assemble (E : Env) (cpu : CpuType) (addr : Nat) (line : List Char) : Out Line :=
  encode syntaxOf 12 (encodeImpl (lexer.plugins E '\x00' addr) cpu addr) addr line

end Libasm.Cpu.I8048
