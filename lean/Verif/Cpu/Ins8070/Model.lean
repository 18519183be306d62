import Verif.Cpu.ListModel
import Verif.Cpu.Ins8060.Model
import Verif.Tables.Data.Ins8070
/-
The assembler and the disassembler of the INS8070: src/asm_ins8070.cpp, src/dis_ins8070.cpp,
src/table_ins8070.cpp, src/reg_ins8070.cpp, src/insn_ins8070.h, src/entry_ins8070.h. The instruction table
is Verif/Tables/Data/Ins8070.lean, generated from src/table_ins8070.cpp.
-/
namespace Libasm.Cpu.Ins8070
open Scan Number Eval
open Tables (Row)

/-- src/entry_ins8070.h:34-50 `AddrMode`; the code has no UNDEF. -/
inductive Mode
  | NONE | AR | ER | EA | TR | SR | P23 | SP | PTR | IMM | ADR | VEC | IDX | PCR | GEN | UNDEF
deriving DecidableEq, Repr

/-- The name of an addressing mode in the table. -/
def modeOf : String → Mode
  | "M_AR" => .AR
  | "M_ER" => .ER
  | "M_EA" => .EA
  | "M_TR" => .TR
  | "M_SR" => .SR
  | "M_P23" => .P23
  | "M_SP" => .SP
  | "M_PTR" => .PTR
  | "M_IMM" => .IMM
  | "M_ADR" => .ADR
  | "M_VEC" => .VEC
  | "M_IDX" => .IDX
  | "M_PCR" => .PCR
  | "M_GEN" => .GEN
  | _ => .UNDEF

/-- src/table_ins8070.cpp:27-36, src/entry_ins8070.h:52-95 `Flags`: the modes of a row, without the M_NONE
after them. -/
def modes (r : Row) : List Mode :=
  match r.operands with
  | ["E0"] => []
  | ["E1", a, _] => [modeOf a]
  | ["E2", a, b, _] => [modeOf a, modeOf b]
  | ["X1", a] => [modeOf a]
  | ["U1", a] => [modeOf a]
  | ["U2", a, b] => [modeOf a, modeOf b]
  | _ => [.UNDEF]

/-- `flags.size() == SZ_WORD` -/
def word (r : Row) : Bool := r.operands.getLast? == some "SZ_WORD"

/-- `flags.execute()` -/
def execute (r : Row) : Bool := r.operands.head? == some "X1"

/-- `flags.undefined()` -/
def undefined (r : Row) : Bool := r.operands.head? == some "U1" || r.operands.head? == some "U2"

/-- `insn.execute() ? 1 : 0` -/
def fetch (r : Row) : Nat := if execute r then 1 else 0

/-- src/table_ins8070.cpp:187-199 `INS8070_PAGES`, `CPU_TABLE`, `cpu` -/
def pages : List (Table.Page Row) := Tables.Ins8070.INS8070_PAGES

/-- src/reg_ins8070.h:28-41 `RegName`; REG_UNDEF is `none` where it occurs. -/
inductive Reg | PC | SP | P2 | P3 | A | E | EA | T | S
deriving DecidableEq, Repr

/-- src/reg_ins8070.cpp:32-44 `REG_ENTRIES` -/
def regs : List (List Char × Reg) :=
  [(['A'], .A), (['E'], .E), (['E', 'A'], .EA), (['P', '2'], .P2), (['P', '3'], .P3), (['P', 'C'], .PC),
   (['S'], .S), (['S', 'P'], .SP), (['T'], .T)]

/-- src/reg_ins8070.cpp:59-62 `isPointerReg` -/
def isPointerReg : Reg → Bool
  | .PC | .SP | .P2 | .P3 => true
  | _ => false

/-- src/reg_ins8070.cpp:64-66 `encodePointerReg` -/
def encodePointerReg : Option Reg → Nat
  | some .PC => 0
  | some .SP => 1
  | some .P2 => 2
  | some .P3 => 3
  | some .A => 4
  | some .E => 5
  | some .EA => 6
  | some .T => 7
  | some .S => 9
  | none => 255

/-- src/reg_ins8070.cpp:68-70 `decodePointerReg` -/
def decodePointerReg (num : Nat) : Reg :=
  match num % 4 with
  | 0 => .PC
  | 1 => .SP
  | 2 => .P2
  | _ => .P3

/-! ### Disassembler -/

/-- src/table_ins8070.cpp:234-248 `maskCode`: the code without the bits of an operand -/
def maskCode (m : Mode) (opc : Nat) : Nat :=
  match m with
  | .VEC => opc / 16 * 16
  | .IDX | .P23 => opc / 2 * 2
  | .PTR => opc / 4 * 4
  | .GEN => opc / 8 * 8
  | _ => opc

/-- src/table_ins8070.cpp:250-256 `matchOpCode` -/
def matchOpCode (opc : Nat) (r : Row) : Bool :=
  (modes r).foldl (fun c m => maskCode m c) opc == r.opcode

/-- src/table_ins8070.cpp:258-265 `searchOpCode`: the row, unless the instruction is unknown. -/
def searchOpCode (opc : Nat) : Option Row :=
  match Table.searchOpCode (fun _ r => matchOpCode opc r) (fun _ => true) pages with
  | some (_, r) => if undefined r then none else some r
  | none => none

/-- src/reg_ins8070.cpp:54-57 `outRegName` -/
def outReg (o : Opts) (r : Reg) : List Char := outText o (regText regs r)

/-- src/dis_ins8070.cpp:56-61 `decodeImmediate`; `sharp` is the option `use-sharp`. -/
def decodeImmediate (o : Opts) (sharp : Bool) (row : Row) (r : Rd) : List Char × Rd :=
  let (val, r) := if word row then r.le16 else r.byte
  ((if sharp then '#' else '=') :: outHex .national o val (if word row then 16 else 8) true, r)

/-- src/dis_ins8070.cpp:63-67 `decodeAbsolute`, 16 bit arithmetic -/
def decodeAbsolute (o : Opts) (row : Row) (r : Rd) : List Char × Rd :=
  let (val, r) := r.le16
  (outAbsAddr .national o 16 ((val + fetch row) % 65536), r)

/-- src/dis_ins8070.cpp:69-72 `decodeDirect` -/
def decodeDirect (o : Opts) (r : Rd) : List Char × Rd :=
  let (val, r) := r.byte
  (outAbsAddr .national o 16 (0xFF00 + val), r)

/-- src/dis_ins8070.cpp:74-91 `decodeRelative` of M_PCR, 32 bit arithmetic -/
def decodeTarget (o : Opts) (addr : Nat) (row : Row) (r : Rd) : List Char × Rd :=
  let (b, r) := r.byte
  let target := (((addr + 1 + fetch row : Nat) : Int) + int8 b) % Config.W
  let r := r.setErrorIf (Config.checkAddr 16 target.toNat false)
  (outRelAddr .national o 16 target.toNat addr 8 ++ (if execute row then [] else ',' :: outReg o .PC), r)

/-- src/dis_ins8070.cpp:74-91 `decodeRelative` of M_IDX -/
def decodeIndexed (o : Opts) (opc : Nat) (auto : Bool) (r : Rd) : List Char × Rd :=
  let (b, r) := r.byte
  ((if auto then ['@'] else []) ++ outDec .national o (Config.uint32 (int8 b)) (-8) ++
    ',' :: outReg o (decodePointerReg opc), r)

/-- src/dis_ins8070.cpp:93-114 `decodeGeneric` -/
def decodeGeneric (o : Opts) (sharp : Bool) (addr opc : Nat) (row : Row) (r : Rd) : List Char × Rd :=
  match opc % 8 with
  | 0 => decodeTarget o addr row r
  | 1 | 2 | 3 => decodeIndexed o opc false r
  | 4 => decodeImmediate o sharp row r
  | 5 => decodeDirect o r
  | _ => decodeIndexed o opc true r

/-- src/dis_ins8070.cpp:116-158 `decodeOperand`, without symbols -/
def decodeOperand (o : Opts) (sharp : Bool) (addr opc : Nat) (row : Row) (m : Mode) (r : Rd) : List Char × Rd :=
  match m with
  | .AR => (outReg o .A, r)
  | .ER => (outReg o .E, r)
  | .SR => (outReg o .S, r)
  | .EA => (outReg o .EA, r)
  | .P23 => (outReg o (if opc % 2 = 1 then .P3 else .P2), r)
  | .PTR => (outReg o (decodePointerReg opc), r)
  | .TR => (outReg o .T, r)
  | .IMM => decodeImmediate o sharp row r
  | .ADR => decodeAbsolute o row r
  | .VEC => (outDec .national o (opc % 16) 4, r)
  | .IDX => decodeIndexed o opc false r
  | .PCR => decodeTarget o addr row r
  | .GEN => decodeGeneric o sharp addr opc row r
  | _ => ([], r)

/-- src/dis_ins8070.cpp:160-171 `decodeImpl`. When an entry is found the error is reset
(src/entry_table.h:214), also that of a missing first byte. -/
def decodeImpl (o : Opts) (sharp : Bool) (addr : Nat) (mem : List Nat) : Dis :=
  let (opc, r) := (⟨mem, [], .OK⟩ : Rd).byte
  match searchOpCode opc with
  | none => ⟨.UNKNOWN_INSTRUCTION, [], [], r.bytes⟩
  | some row =>
    let (t, r) := decodeList (decodeOperand o sharp addr opc row) (modes row) { r with err := Err.OK }
    ⟨r.err, outText o row.name, t, r.bytes⟩

/-- Disassembling one instruction: `Disassembler::decode` of a `DisIns8070`; addresses have 16 bits
(src/config_ins8070.h). -/
def disassemble (o : Opts) (sharp : Bool) (addr : Nat) (mem : List Nat) : Dis :=
  decode 16 (decodeImpl o sharp) addr mem

/-! ### Assembler -/

/-- The names of directives are those of the INS8060: src/asm_ins8070.cpp:32-37 and 235-239, which are
src/asm_ins8060.cpp:32-37 and 165-169. -/
def syntaxOf : Syntax := Ins8060.syntaxOf

/-- src/asm_ins8070.cpp:43-50 `defaultPlugins`: those of the INS8060 (src/asm_ins8060.cpp:42-49) with other
functions, which come from the environment. -/
def lexer : Lexer := Ins8060.lexer

/-- src/insn_ins8070.h:38-44 `Operand` -/
structure Operand where
  err : Err := .OK
  mode : Mode := .NONE
  reg : Option Reg := none
  auto : Bool := false
  val : Value := Value.undefined

/-- src/reg_ins8070.cpp:49-52 `parseRegName` -/
def parseRegName (s : Scan) : Out (Option (Reg × Scan)) := searchText regs s

/-- src/asm_ins8070.cpp:156-182: the mode of a register -/
def registerMode : Reg → Mode
  | .A => .AR
  | .E => .ER
  | .S => .SR
  | .EA => .EA
  | .T => .TR
  | .SP => .SP
  | .PC => .PTR
  | .P2 | .P3 => .P23

/-- src/asm_ins8070.cpp:197-213: the register after a comma -/
def parseIndex (start : Scan) (auto : Bool) (err : Err) (val : Value) (p : Scan) :
    Out (Except (Err × Scan) (Operand × Scan)) :=
  let p := skipSpaces p
  let (auto, p) := if auto then (true, p) else match expect '@' p with | some q => (true, q) | none => (false, p)
  (parseRegName p).bind fun
  | none => .ok (.error (.UNKNOWN_OPERAND, start))
  | some (ptr, p) =>
    if !isPointerReg ptr then .ok (.error (.REGISTER_NOT_ALLOWED, start))
    else if auto && (ptr == .PC || ptr == .SP) then .ok (.error (.REGISTER_NOT_ALLOWED, start))
    else
      .ok (.ok ({ err := err, reg := some ptr, auto := auto, val := val,
                  mode := if auto || ptr == .SP || ptr == .PC then .GEN else .IDX }, p))

/-- src/asm_ins8070.cpp:189-218: a number, with a register or without -/
def parseNumber (P : Plugins Value) (start : Scan) (auto : Bool) (p : Scan) :
    Out (Except (Err × Scan) (Operand × Scan)) :=
  (parseInteger P p .OK).bind fun (val, err, p) =>
  if hasError err then .ok (.error (err, start))
  else
    let p := skipSpaces p
    if deref p == '(' then .ok (.error (.MISSING_COMMA, start))
    else
      match expect ',' p with
      | some p => parseIndex start auto err val p
      | none => .ok (.ok ({ err := err, mode := if val.overflow 15 0 then .ADR else .VEC, val := val }, p))

/-- src/asm_ins8070.cpp:141-220 `parseOperand`; after an error the text is left where the operand starts. -/
def parseOperand (P : Plugins Value) (scan : Scan) : Out (Except (Err × Scan) (Operand × Scan)) :=
  let start := skipSpaces scan
  if P.endOfLine start then .ok (.ok ({}, start))
  else
    match (match expect '#' start with | some p => some p | none => expect '=' start) with
    | some p =>
      (parseInteger P p .OK).bind fun (val, err, p) =>
      if hasError err then .ok (.error (err, start))
      else .ok (.ok ({ err := err, mode := .IMM, val := val }, p))
    | none =>
      (parseRegName start).bind fun
      | some (reg, p) => .ok (.ok ({ mode := registerMode reg, reg := some reg }, p))
      | none =>
        match expect '@' start with
        | some p => parseNumber P start true p
        | none => parseNumber P start false start

/-- src/table_ins8070.cpp:201-217 `acceptMode` -/
def acceptMode (opr table : Mode) : Bool :=
  if opr = table then true
  else
    match opr with
    | .ADR => table == .GEN || table == .PCR
    | .VEC => table == .GEN || table == .PCR || table == .ADR
    | .IDX | .IMM => table == .GEN
    | .P23 | .SP => table == .PTR
    | _ => false

/-- src/table_ins8070.cpp:219-227 `acceptModes` of the modes of two operands -/
def acceptModes (ops : List Mode) (r : Row) : Bool :=
  (ops.zip (pad 2 .NONE (modes r))).all fun p => acceptMode p.1 p.2

/-- src/table_ins8070.cpp:229-232 `searchName`. The error that is left behind by `acceptModes` (lines 222-223)
when it takes an undefined row is reported. -/
def searchName (name : List Char) (ops : List Mode) : Out (Except Err Row) :=
  match Table.searchName (fun r : Row => Table.strcasecmp name r.name) (fun _ r => acceptModes ops r) pages false with
  | some (.ok (_, r)) => .ok (if undefined r then .error .OPERAND_NOT_ALLOWED else .ok r)
  | some (.error e) => .ok (.error e)
  | none => .ub

/-- src/asm_ins8070.cpp:57-61 `emitAbsolute` -/
def emitAbsolute (op : Operand) (a : Asm) : Asm :=
  a.emit16le (if op.err ≠ .OK then 0 else (op.val.getUnsigned + Config.W - 1) % Config.W)

/-- src/asm_ins8070.cpp:63-71 `emitImmediate` -/
def emitImmediate (row : Row) (op : Operand) (a : Asm) : Asm :=
  if word row then a.emit16le op.val.getUnsigned
  else (a.check op.val.overflowUint8 .OVERFLOW_RANGE).emit8 op.val.getUnsigned

/-- src/asm_ins8070.cpp:73-82 `emitRelative`, 32 bit arithmetic -/
def emitRelative (addr : Nat) (row : Row) (op : Operand) (a : Asm) : Out Asm :=
  let base := (addr + 1) % Config.W
  let target := ((if op.err ≠ .OK then base + fetch row else op.val.getUnsigned) + Config.W - fetch row) % Config.W
  a.rel8 16 base target

/-- src/asm_ins8070.cpp:84-111 `emitGeneric` -/
def emitGeneric (addr : Nat) (row : Row) (op : Operand) (a : Asm) : Out Asm :=
  if op.mode = .IMM then .ok (emitImmediate row op (a.embed 4))
  else if (op.mode = .ADR ∨ op.mode = .VEC) ∧ op.reg = none then
    let target := if op.err ≠ .OK then 0xFF00 else op.val.getUnsigned
    if target < 0xFF00 then emitRelative addr row op a
    else .ok ((a.embed 5).emit8 target)
  else if op.reg = some .PC then emitRelative addr row op a
  else
    let a := a.embed (encodePointerReg op.reg)
    let a := if op.auto then a.embed 4 else a
    .ok ((a.check op.val.overflowInt8 .OVERFLOW_RANGE).emit8 (op.val.getSigned % 256).toNat)

/-- src/asm_ins8070.cpp:113-139 `emitOperand` -/
def encodeOperand (addr : Nat) (row : Row) (m : Mode) (op : Operand) (a : Asm) : Out Asm :=
  let a := a.setErrorIf op.err
  match m with
  | .P23 | .PTR => .ok (a.embed (encodePointerReg op.reg))
  | .VEC => .ok (a.embed (op.val.getUnsigned % 16))
  | .IMM => .ok (emitImmediate row op a)
  | .ADR => .ok (emitAbsolute op a)
  | .IDX | .GEN => emitGeneric addr row op a
  | .PCR => emitRelative addr row op a
  | _ => .ok a

/-- src/asm_ins8070.cpp:241-259 `encodeImpl` -/
def encodeImpl (P : Plugins Value) (addr : Nat) (name : List Char) (scan : Scan) : Out Res :=
  (operandList (parseOperand P) 2 scan).bind fun
  | .error (e, scan) => .ok ⟨e, [], scan⟩
  | .ok (ops, scan) =>
    let ops := pad 2 {} ops
    (searchName name (ops.map (·.mode))).bind fun
    | .error e => .ok ⟨e, [], scan⟩
    | .ok row =>
      (emitList (encodeOperand addr row) ((pad 2 .NONE (modes row)).zip ops) ⟨.OK, row.opcode, []⟩).bind fun a =>
      .ok ⟨a.err, a.bytes, scan⟩

/-- Assembling one line: `Assembler::encode` of an `AsmIns8070`. -/
def assemble (E : Env) (addr : Nat) (line : List Char) : Out Line :=
  encode syntaxOf 16 (encodeImpl (lexer.plugins E '\x00' addr) addr) addr line

end Libasm.Cpu.Ins8070
