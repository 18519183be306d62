import Verif.Cpu.ListModel
import Verif.Maker.Model
import Verif.Tables.Data.Tms7000
/-
The assembler and the disassembler of the TMS7000: src/asm_tms7000.cpp, src/dis_tms7000.cpp,
src/table_tms7000.cpp, src/reg_tms7000.cpp, src/reg_tms7000.h, src/insn_tms7000.h. The instruction table
is Verif/Tables/Data/Tms7000.lean, generated from src/table_tms7000.cpp.
-/
namespace Libasm.Cpu.Tms7000
open Scan Number Eval
open Tables (Row)

/-- src/entry_tms7000.h:28-46 `AddrMode`; the code has no UNDEF. -/
inductive Mode
  | NONE | A | B | RN | ST | IM8 | PN | REL | ABS | IDIR | BIDX | IM16 | BIMM | TRAP | ADRR | ADRP | UNDEF
deriving DecidableEq, Repr

/-- The name of an addressing mode in the table. -/
def modeOf : String → Mode
  | "M_A" => .A
  | "M_B" => .B
  | "M_RN" => .RN
  | "M_ST" => .ST
  | "M_IM8" => .IM8
  | "M_PN" => .PN
  | "M_REL" => .REL
  | "M_ABS" => .ABS
  | "M_IDIR" => .IDIR
  | "M_BIDX" => .BIDX
  | "M_IM16" => .IM16
  | "M_BIMM" => .BIMM
  | "M_TRAP" => .TRAP
  | _ => .UNDEF

/-- src/table_tms7000.cpp:27-31, src/entry_tms7000.h:48-70 `Flags`: the modes of a row, without the M_NONE
after them. -/
def modes (r : Row) : List Mode :=
  match r.operands with
  | ["E0"] => []
  | ["E1", a] => [modeOf a]
  | ["E2", a, b] => [modeOf a, modeOf b]
  | ["E3", a, b, c] => [modeOf a, modeOf b, modeOf c]
  | _ => [.UNDEF]

/-- `flags.src()` -/
def src (r : Row) : Mode := (modes r).getD 0 .NONE

/-- src/table_tms7000.cpp:464-476 `TMS7000_PAGES`, `CPU_TABLE`, `cpu` -/
def pages : List (Table.Page Row) := Tables.Tms7000.TMS7000_PAGES

/-- src/reg_tms7000.h:25-63 `RegName`: A, B, ST, R0 to R255 and P0 to P255. -/
inductive Reg
  | A | B | ST
  | R (n : Nat)
  | P (n : Nat)
deriving DecidableEq, Repr

/-! ### Disassembler -/

/-- src/table_tms7000.cpp:514-521 `matchOpCode` -/
def matchOpCode (opc : Nat) (r : Row) : Bool :=
  if src r = .TRAP then decide (opc ≥ r.opcode) else opc == r.opcode

/-- src/table_tms7000.cpp:523-526 `searchOpCode` -/
def searchOpCode (opc : Nat) : Option Row :=
  (Table.searchOpCode (fun _ r => matchOpCode opc r) (fun p => p.prefix_ == 0) pages).map (·.2)

/-- src/reg_tms7000.cpp:54-64 `outRegName` -/
def outReg (o : Opts) : Reg → List Char
  | .A => [letter o.upper 'A']
  | .B => [letter o.upper 'B']
  | .R n => letter o.upper 'R' :: fmtDec o.upper n
  | .P n => letter o.upper 'P' :: fmtDec o.upper n
  | .ST => outText o ['S', 'T']

/-- src/dis_tms7000.cpp:42-49 `decodeRegister` -/
def decodeRegister (o : Opts) (r : Rd) : List Char × Rd :=
  let (regno, r) := r.byte
  if r.err = .OK ∧ regno < 2 then ([letter o.upper (Char.ofNat ('A'.toNat + regno))], r) else (outReg o (.R regno), r)

/-- src/dis_tms7000.cpp:30 `TEXT_IDXB` -/
def idxB (o : Opts) : List Char := outText o ['(', 'B', ')']

/-- src/dis_tms7000.cpp:51-57 `decodeImmediate` -/
def decodeImmediate (o : Opts) (m : Mode) (r : Rd) : List Char × Rd :=
  let (val, r) := if m = .IM8 then r.byte else r.be16
  ('%' :: outHex .texas o val (if m = .IM8 then 8 else 16) true ++ (if m = .BIMM then idxB o else []), r)

/-- src/dis_tms7000.cpp:59-64 `decodeAbsolute` -/
def decodeAbsolute (o : Opts) (m : Mode) (r : Rd) : List Char × Rd :=
  let (val, r) := r.be16
  ('@' :: outAbsAddr .texas o 16 val ++ (if m = .BIDX then idxB o else []), r)

/-- src/dis_tms7000.cpp:66-72 `decodeRelative`, 32 bit arithmetic -/
def decodeRelative (o : Opts) (addr : Nat) (r : Rd) : List Char × Rd :=
  let (b, r) := r.byte
  let target := (((addr + r.bytes.length : Nat) : Int) + int8 b) % Config.W
  let r := r.setErrorIf (Config.checkAddr 16 target.toNat false)
  (outRelAddr .texas o 16 target.toNat addr 8, r)

/-- src/dis_tms7000.cpp:74-113 `decodeOperand`, without symbols -/
def decodeOperand (o : Opts) (addr opc : Nat) (m : Mode) (r : Rd) : List Char × Rd :=
  match m with
  | .A => (outReg o .A, r)
  | .B => (outReg o .B, r)
  | .ST => (outReg o .ST, r)
  | .RN => decodeRegister o r
  | .PN => (outReg o (.P r.byte.1), r.byte.2)
  | .IM8 | .IM16 | .BIMM => decodeImmediate o m r
  | .ABS | .BIDX => decodeAbsolute o m r
  | .IDIR => ('*' :: outReg o (.R r.byte.1), r.byte.2)
  | .REL => decodeRelative o addr r
  | .TRAP => (outDec .texas o (0x1F - opc % 32) 5, r)
  | _ => ([], r)

/-- src/dis_tms7000.cpp:115-131 `decodeImpl`. When an entry is found the error is reset
(src/entry_table.h:214), also that of a missing first byte. -/
def decodeImpl (o : Opts) (addr : Nat) (mem : List Nat) : Dis :=
  let (opc, r) := (⟨mem, [], .OK⟩ : Rd).byte
  match searchOpCode opc with
  | none => ⟨.UNKNOWN_INSTRUCTION, [], [], r.bytes⟩
  | some row =>
    let (t, r) := decodeList (decodeOperand o addr opc) (modes row) { r with err := Err.OK }
    ⟨r.err, outText o row.name, t, r.bytes⟩

/-- Disassembling one instruction: `Disassembler::decode` of a `DisTms7000`; addresses have 16 bits
(src/config_tms7000.h). -/
def disassemble (o : Opts) (addr : Nat) (mem : List Nat) : Dis :=
  decode 16 (decodeImpl o) addr mem

/-! ### Assembler -/

/-- The default `SymbolParser`, `StarCommentParser`: src/value_parser.cpp:26-51,104-106, src/parsers.cpp:571-573; the
table of src/asm_tms7000.cpp:32-39. -/
def syntaxOf : Syntax where
  instructionLetter c := Eval.symbolLetter false c
  instructionTerminator _ := false
  commentLine s := deref s == '*' || deref s == ';'
  special := []
  pseudos := [['A', 'O', 'R', 'G'], ['B', 'S', 'S'], ['B', 'Y', 'T', 'E'], ['D', 'A', 'T', 'A'],
    ['E', 'V', 'E', 'N'], ['T', 'E', 'X', 'T']]

/-- src/asm_tms7000.cpp:45-47: the notation of Texas Instruments. -/
def lexer : Lexer := Maker.texas

/-- src/insn_tms7000.h:34-38 `Operand` -/
structure Operand where
  err : Err := .OK
  mode : Mode := .NONE
  val : Value := Value.undefined
deriving DecidableEq

/-- src/reg_tms7000.cpp:32-45: a letter and a number below 256. -/
def parseNumbered (c : Char) (s : Scan) : Option (Nat × Scan) :=
  match iexpect c s with
  | none => none
  | some p =>
    match Table.parseRegNumber p with
    | none => none
    | some (n, q) => if n < 256 then some (n, q) else none

/-- src/reg_tms7000.cpp:27-53 `parseRegName` -/
def parseRegName (s : Scan) : Option (Reg × Scan) :=
  match Table.iexpectWord s ['A'] with
  | some p => some (.A, p)
  | none =>
  match Table.iexpectWord s ['B'] with
  | some p => some (.B, p)
  | none =>
  match parseNumbered 'R' s with
  | some (n, p) => some (.R n, p)
  | none =>
  match parseNumbered 'P' s with
  | some (n, p) => some (.P n, p)
  | none =>
  match Table.iexpectWord s ['S', 'T'] with
  | some p => some (.ST, p)
  | none => none

/-- src/asm_tms7000.cpp:54-73 `hasIndexB`: whether there is `(B)` and the text after it, or the error. -/
def hasIndexB (scan : Scan) : Except Err (Bool × Scan) :=
  match expect '(' (skipSpaces scan) with
  | none => .ok (false, scan)
  | some p =>
    match parseRegName (skipSpaces p) with
    | some (.B, p) =>
      match expect ')' (skipSpaces p) with
      | some p => .ok (true, p)
      | none => .error .MISSING_CLOSING_PAREN
    | none => .error .UNKNOWN_OPERAND
    | some _ => .error .REGISTER_NOT_ALLOWED

/-- src/asm_tms7000.cpp:75-98,130-133 `toAddrMode`, and the number of the register -/
def registerOperand : Reg → Operand
  | .A => { mode := .A, val := Value.setUnsigned 0 }
  | .B => { mode := .B, val := Value.setUnsigned 1 }
  | .ST => { mode := .ST, val := Value.setUnsigned 0 }
  | .R n => { mode := .RN, val := Value.setUnsigned n }
  | .P n => { mode := .PN, val := Value.setUnsigned n }

/-- src/asm_tms7000.cpp:167-174: the mode of an address -/
def addressMode (v : Value) : Mode :=
  if v.overflow 0x1FF 0 then .REL else if v.overflow 0xFF 0 then .ADRP else .ADRR

/-- src/asm_tms7000.cpp:144-176: the number of an address, after its marks -/
def parseAddress (P : Plugins Value) (start : Scan) (indir abs : Bool) (p : Scan) :
    Out (Except (Err × Scan) (Operand × Scan)) :=
  (parseInteger P (skipSpaces p) .OK).bind fun (val, err, p) =>
  if hasError err then .ok (.error (err, start))
  else
    match hasIndexB p with
    | .error e => .ok (.error (e, start))
    | .ok (true, p) =>
      if !indir && abs then .ok (.ok ({ err := err, mode := .BIDX, val := val }, p))
      else .ok (.error (.UNKNOWN_OPERAND, start))
    | .ok (false, p) =>
      if indir then
        if val.overflow 255 0 then .ok (.error (.OVERFLOW_RANGE, start))
        else .ok (.ok ({ err := err, mode := .IDIR, val := val }, p))
      else if abs then .ok (.ok ({ err := err, mode := .ABS, val := val }, p))
      else .ok (.ok ({ err := err, mode := addressMode val, val := val }, p))

/-- src/asm_tms7000.cpp:120-176: a register or an address, `indir` if a `*` was before it -/
def parseMemory (P : Plugins Value) (start : Scan) (indir : Bool) (p : Scan) :
    Out (Except (Err × Scan) (Operand × Scan)) :=
  match parseRegName p with
  | some (reg, p) =>
    if !indir then .ok (.ok (registerOperand reg, p))
    else
      match reg with
      | .R n => .ok (.ok ({ mode := .IDIR, val := Value.setUnsigned n }, p))
      | _ => .ok (.error (.UNKNOWN_OPERAND, start))
  | none =>
    match expect '@' p with
    | some q =>
      if indir || (expect '*' (skipSpaces q)).isSome then .ok (.error (.UNKNOWN_OPERAND, start))
      else parseAddress P start false true q
    | none => parseAddress P start indir false p

/-- src/asm_tms7000.cpp:100-178 `parseOperand`; after an error the text is left where the operand starts.
The errors of a register, `*@` and `@*`, are set before anything is read, `parseRegName` sets none. -/
def parseOperand (P : Plugins Value) (scan : Scan) : Out (Except (Err × Scan) (Operand × Scan)) :=
  let start := skipSpaces scan
  match expect '%' start with
  | some p =>
    (parseInteger P p .OK).bind fun (val, err, p) =>
    if hasError err then .ok (.error (err, start))
    else
      match hasIndexB p with
      | .error e => .ok (.error (e, start))
      | .ok (true, p) => .ok (.ok ({ err := err, mode := .BIMM, val := val }, p))
      | .ok (false, p) =>
        .ok (.ok ({ err := err, mode := if val.overflowUint8 then .IM16 else .IM8, val := val }, p))
  | none =>
    match expect '*' start with
    | some p => parseMemory P start true (skipSpaces p)
    | none => parseMemory P start false start

/-- src/table_tms7000.cpp:488-501 `acceptMode` -/
def acceptMode (opr table : Mode) : Bool :=
  if opr = table then true
  else
    match opr with
    | .A | .B => table == .RN
    | .IM8 => table == .IM16
    | .ADRR => table == .RN || table == .REL || table == .TRAP
    | .ADRP => table == .PN || table == .REL
    | _ => false

/-- src/table_tms7000.cpp:503-507 `acceptModes` of the modes of three operands -/
def acceptModes (ops : List Mode) (r : Row) : Bool :=
  (ops.zip (pad 3 .NONE (modes r))).all fun p => acceptMode p.1 p.2

/-- src/table_tms7000.cpp:509-512 `searchName`, with what accepts an entry -/
def searchWith (accept : Row → Bool) (name : List Char) : Out (Except Err Row) :=
  match Table.searchName (fun r : Row => Table.strcasecmp name r.name) (fun _ r => accept r) pages false with
  | some (.ok (_, r)) => .ok (.ok r)
  | some (.error e) => .ok (.error e)
  | none => .ub

/-- src/table_tms7000.cpp:509-512 `searchName` -/
def searchName (name : List Char) (ops : List Mode) : Out (Except Err Row) :=
  searchWith (acceptModes ops) name

/-- src/table_tms7000.cpp:480-487 `hasOperand` -/
def hasOperand (name : List Char) : Out Bool :=
  (searchWith (fun _ => true) name).bind fun
  | .ok r => .ok (decide (src r ≠ .NONE))
  | .error _ => .ok false

/-- src/asm_tms7000.cpp:174-182 `emitRelative` -/
def encodeRelative (addr : Nat) (op : Operand) (a : Asm) : Out Asm :=
  let base := (addr + (if a.length = 0 then 2 else a.length + 1)) % Config.W
  a.rel8 16 base (if op.err ≠ .OK then base else op.val.getUnsigned)

/-- src/asm_tms7000.cpp:184-212 `encodeOperand` -/
def encodeOperand (addr : Nat) (m : Mode) (op : Operand) (a : Asm) : Out Asm :=
  let a := a.setErrorIf op.err
  let v := op.val.getUnsigned
  match m with
  | .RN | .PN | .IM8 | .IDIR => .ok (a.emit8 v)
  | .REL => encodeRelative addr op a
  | .ABS | .BIDX | .IM16 | .BIMM => .ok (a.emit16be v)
  | .TRAP =>
    if op.val.overflow 23 0 then .ok { a with err := .OVERFLOW_RANGE }
    else .ok { a with opc := (a.opc + 23 + Config.W - v) % 256 }
  | _ => .ok a

/-- src/asm_tms7000.cpp:214-238 `encodeImpl` -/
def encodeImpl (P : Plugins Value) (addr : Nat) (name : List Char) (scan : Scan) : Out Res :=
  (hasOperand name).bind fun has =>
  (if has then operandList (parseOperand P) 3 scan else .ok (.ok ([], skipSpaces scan))).bind fun
  | .error (e, scan) => .ok ⟨e, [], scan⟩
  | .ok (ops, scan) =>
    let ops := pad 3 {} ops
    (searchName name (ops.map (·.mode))).bind fun
    | .error e => .ok ⟨e, [], scan⟩
    | .ok row =>
      (emitList (encodeOperand addr) ((pad 3 .NONE (modes row)).zip ops) ⟨.OK, row.opcode, []⟩).bind fun a =>
      .ok ⟨a.err, a.bytes, scan⟩

/-- Assembling one line: `Assembler::encode` of an `AsmTms7000`. -/
def assemble (E : Env) (addr : Nat) (line : List Char) : Out Line :=
  encode syntaxOf 16 (encodeImpl (lexer.plugins E '\x00' addr) addr) addr line

end Libasm.Cpu.Tms7000
