import Verif.Cpu.ListModel
import Verif.Maker.Model
import Verif.Tables.Data.Tms32010
/-
The assembler and the disassembler of the TMS32010 and the TMS32015: src/asm_tms32010.cpp,
src/dis_tms32010.cpp, src/table_tms32010.cpp, src/reg_tms32010.cpp, src/insn_tms32010.h, src/entry_tms32010.h,
src/config_tms32010.h. The instruction table is Verif/Tables/Data/Tms32010.lean, generated from
src/table_tms32010.cpp. Addresses are those of words of two bytes, the least significant first.
-/
namespace Libasm.Cpu.Tms32010
open Scan Number Eval
open Tables (Row)

/-- src/config_tms32010.h:25-28 `CpuType` -/
inductive CpuType | TMS32010 | TMS32015
deriving DecidableEq, Repr

/-- src/config_tms32010.h:34-36 `dataMemoryLimit` -/
def dataMemoryLimit : CpuType → Nat
  | .TMS32010 => 0x8F
  | .TMS32015 => 0xFF

/-- src/entry_tms32010.h:28-47 `AddrMode`; the code has no UNDEF. -/
inductive Mode
  | NONE | LS0 | DPK | ARK | AR | NARP | LS3 | IM3 | PA | LS4 | IM8 | MAM | PMA | IM13 | ARP | INC | DEC | UNDEF
deriving DecidableEq, Repr

/-- `uint8_t(mode)` -/
def Mode.num : Mode → Nat
  | .NONE => 0 | .LS0 => 1 | .DPK => 2 | .ARK => 3 | .AR => 4 | .NARP => 5 | .LS3 => 6 | .IM3 => 7 | .PA => 8
  | .LS4 => 9 | .IM8 => 10 | .MAM => 11 | .PMA => 12 | .IM13 => 13 | .ARP => 14 | .INC => 15 | .DEC => 16
  | .UNDEF => 17

/-- The name of an addressing mode in the table. -/
def modeOf : String → Mode
  | "M_LS0" => .LS0
  | "M_DPK" => .DPK
  | "M_ARK" => .ARK
  | "M_AR" => .AR
  | "M_NARP" => .NARP
  | "M_LS3" => .LS3
  | "M_PA" => .PA
  | "M_LS4" => .LS4
  | "M_IM8" => .IM8
  | "M_MAM" => .MAM
  | "M_PMA" => .PMA
  | "M_IM13" => .IM13
  | _ => .UNDEF

/-- src/table_tms32010.cpp:26-30: the modes of a row, without the M_NONE after them. -/
def modes (r : Row) : List Mode :=
  match r.operands with
  | ["E0"] => []
  | ["E1", a] => [modeOf a]
  | ["E2", a, b] => [modeOf a, modeOf b]
  | ["E3", a, b, c] => [modeOf a, modeOf b, modeOf c]
  | _ => [.UNDEF]

/-- src/table_tms32010.cpp:163-176 `TMS32010_PAGES`, `CPU_TABLE`, `cpu`: both processors have the same page. -/
def pages : List (Table.Page Row) := Tables.Tms32010.TMS32010_PAGES

/-- src/reg_tms32010.h:28-40 `RegName`; REG_UNDEF is `none` where it occurs. -/
inductive Reg | AR (n : Nat) | PA (n : Nat)
deriving DecidableEq, Repr

/-! ### Disassembler -/

/-- src/table_tms32010.cpp:216-232: the code without the bits of immediate data or of a memory operand, `none` if
these cannot be. Where `opc &= ~0xB9` is done, the bits of 0x46 are 0, so that the lower byte is cleared. -/
def maskLow (m1 m2 : Mode) (opc : Nat) : Option Nat :=
  if m1 = .IM8 ∨ m2 = .IM8 then some (opc / 256 * 256)
  else if m1 = .MAM ∨ m2 = .MAM then
    if opc / 128 % 2 = 0 then some (opc / 128 * 128)
    else if opc / 64 % 2 = 1 ∨ opc / 2 % 4 ≠ 0 then none
    else if opc / 16 % 4 = 3 then none
    else if opc / 8 % 2 = 1 ∧ opc % 8 ≠ 0 then none
    else some (opc / 256 * 256)
  else if m1 = .IM13 then some (opc / 8192 * 8192)
  else some opc

/-- src/table_tms32010.cpp:233-249: then without the bits of the other operands. -/
def maskRest (m1 m2 : Mode) (opc : Nat) : Option Nat :=
  let opc := if m1 = .AR then opc - opc / 256 % 2 * 256 else opc
  let opc := if m1 = .ARK ∨ m1 = .DPK then opc / 2 * 2 else opc
  let opc := if m2 = .LS4 then opc - opc / 256 % 16 * 256 else opc
  let opc := if m2 = .PA then opc - opc / 256 % 8 * 256 else opc
  if m2 = .LS3 then
    if opc / 256 % 8 < 2 ∨ opc / 256 % 8 = 4 then some (opc - opc / 256 % 8 * 256) else none
  else some opc

/-- The mode at a place, `M_NONE` if there is none. -/
def modeAt (r : Row) (i : Nat) : Mode := (modes r).getD i .NONE

/-- src/table_tms32010.cpp:211-251 `matchOpCode` -/
def matchOpCode (opc : Nat) (r : Row) : Bool :=
  match (maskLow (modeAt r 0) (modeAt r 1) opc).bind (maskRest (modeAt r 0) (modeAt r 1)) with
  | some opc => opc == r.opcode
  | none => false

/-- src/table_tms32010.cpp:252-255 `searchOpCode` -/
def searchOpCode (opc : Nat) : Option Row :=
  match Table.searchOpCode (fun _ r => matchOpCode opc r) (fun _ => true) pages with
  | some (_, r) => some r
  | none => none

/-- src/reg_tms32010.cpp:53-57 `outRegName` -/
def outReg (o : Opts) : Reg → List Char
  | .AR n => outText o ['A', 'R'] ++ fmtDec o.upper n
  | .PA n => outText o ['P', 'A'] ++ fmtDec o.upper n

/-- src/dis_tms32010.cpp:44-56 `outDirect`: SST has the second page of the data memory. -/
def outDirect (o : Opts) (cpu : CpuType) (opc : Nat) (r : Rd) : List Char × Rd :=
  if opc / 256 = 0x7C then
    (outAbsAddr .suffixh o 8 (opc % 128 + 128),
      if opc % 128 + 128 > dataMemoryLimit cpu then r.setErrorIf .OVERFLOW_RANGE else r)
  else (outAbsAddr .suffixh o 8 (opc % 128), r)

/-- src/dis_tms32010.cpp:58-65 `outIndirect` -/
def outIndirect (opc : Nat) : List Char :=
  '*' :: (if opc / 32 % 2 = 1 then ['+'] else if opc / 16 % 2 = 1 then ['-'] else [])

/-- `out.comma()`, src/str_buffer.cpp -/
def comma : List Char := [',', ' ']

/-- src/dis_tms32010.cpp:67-73 `outNextArp` -/
def outNextArp (o : Opts) (opc : Nat) : List Char :=
  if opc / 128 % 2 = 1 ∧ opc / 8 % 2 = 0 then comma ++ outReg o (.AR (opc % 2)) else []

/-- src/dis_tms32010.cpp:75-83 `outShiftCount` -/
def outShiftCount (o : Opts) (count opc : Nat) : List Char :=
  if count ≠ 0 ∨ (opc / 128 % 2 = 1 ∧ opc / 8 % 2 = 0) then comma ++ outDec .suffixh o count 4 else []

/-- src/dis_tms32010.cpp:85-90 `outProgramAddress` -/
def outProgramAddress (o : Opts) (r : Rd) : List Char × Rd :=
  let (pma, r) := r.le16
  let r := r.setErrorIf (Config.checkAddr 12 pma false)
  (outAbsAddr .suffixh o (if r.err ≠ .OK then 16 else 12) pma, r)

/-- src/dis_tms32010.cpp:92-137 `decodeOperand`, without symbols; `signExtend` of 13 bits is written out. -/
def decodeOperand (o : Opts) (cpu : CpuType) (opc : Nat) (m : Mode) (r : Rd) : List Char × Rd :=
  match m with
  | .MAM => if opc / 128 % 2 = 1 then (outIndirect opc, r) else outDirect o cpu opc r
  | .NARP => (outNextArp o opc, r)
  | .LS4 => (outShiftCount o (opc / 256 % 16) opc, r)
  | .LS3 | .LS0 => (outShiftCount o (opc / 256 % 8) opc, r)
  | .AR => (outReg o (.AR (opc / 256 % 2)), r)
  | .PA => (outReg o (.PA (opc / 256 % 8)), r)
  | .ARK => (outReg o (.AR (opc % 2)), r)
  | .DPK => ([letter o.upper (if opc % 2 = 0 then '0' else '1')], r)
  | .IM8 => (outDec .suffixh o (opc % 256) 8, r)
  | .IM13 => (outDec .suffixh o (if opc % 8192 < 4096 then opc % 8192 else opc % 8192 + Config.W - 8192) (-13), r)
  | .PMA => outProgramAddress o r
  | _ => ([], r)

/-- src/dis_tms32010.cpp:148-149: whether the operand comes with its own comma -/
def ownComma : Mode → Bool
  | .LS4 | .LS3 | .LS0 | .NARP => true
  | _ => false

/-- src/dis_tms32010.cpp:145-155: the operands of an instruction -/
def decodeOperands (o : Opts) (cpu : CpuType) (opc : Nat) (r : Rd) : List Mode → List Char × Rd
  | [] => ([], r)
  | [m1] => decodeOperand o cpu opc m1 r
  | [m1, m2] =>
    let (t1, r) := decodeOperand o cpu opc m1 r
    let (t2, r) := decodeOperand o cpu opc m2 r
    (t1 ++ (if ownComma m2 then [] else comma) ++ t2, r)
  | m1 :: m2 :: m3 :: _ =>
    let (t1, r) := decodeOperand o cpu opc m1 r
    let (t2, r) := decodeOperand o cpu opc m2 r
    let (t3, r) := decodeOperand o cpu opc m3 r
    (t1 ++ (if ownComma m2 then [] else comma) ++ t2 ++ t3, r)

/-- src/dis_tms32010.cpp:139-156 `decodeImpl`. When an entry is found the error is reset
(src/entry_table.h:214), also that of a missing byte of the code. -/
def decodeImpl (o : Opts) (cpu : CpuType) (mem : List Nat) : Dis :=
  let (opc, r) := (⟨mem, [], .OK⟩ : Rd).le16
  match searchOpCode opc with
  | none => ⟨.UNKNOWN_INSTRUCTION, [], [], r.bytes⟩
  | some row =>
    let (t, r) := decodeOperands o cpu opc { r with err := Err.OK } (modes row)
    ⟨r.err, outText o row.name, t, r.bytes⟩

/-- Disassembling one instruction: `Disassembler::decode` of a `DisTms32010`; addresses have 12 bits
(src/config_tms32010.h:32). -/
def disassemble (o : Opts) (cpu : CpuType) (addr : Nat) (mem : List Nat) : Dis :=
  decode 12 (fun _ mem => decodeImpl o cpu mem) addr mem

/-! ### Assembler -/

/-- `Tms32010SymbolParser`, `Tms32010CommentParser`: src/symbol_parser.h:157-160, src/parsers.cpp:335-337,
src/comment_parser.h:77-82; the table of src/asm_tms32010.cpp:32-40. -/
def syntaxOf : Syntax where
  instructionLetter c := simpleSymbol ['_', '$'] false c || c == '.'
  instructionTerminator _ := false
  commentLine s := deref s == '*'
  special := []
  pseudos := [['.', 'a', 'l', 'i', 'g', 'n'], ['.', 'b', 'y', 't', 'e'], ['.', 'e', 'v', 'e', 'n'],
    ['.', 'l', 'o', 'n', 'g'], ['.', 'o', 'r', 'g'], ['.', 's', 't', 'r', 'i', 'n', 'g'], ['.', 'w', 'o', 'r', 'd']]

/-- src/asm_tms32010.cpp:46-54 `defaultPlugins` -/
def lexer : Lexer := Maker.tms32010

/-- src/insn_tms32010.h:38-43 `Operand`; the register is not used after parsing. -/
structure Operand where
  err : Err := .OK
  mode : Mode := .NONE
  val : Value := Value.undefined
deriving DecidableEq

/-- src/reg_tms32010.cpp:33-51 `parseRegName` -/
def parseRegName (s : Scan) : Option (Reg × Scan) :=
  match iexpectText ['A', 'R'] s with
  | some p =>
    match Table.parseRegNumber p with
    | some (n, q) => if n < 2 then some (.AR n, q) else none
    | none => none
  | none =>
    match iexpectText ['P', 'A'] s with
    | some p =>
      match Table.parseRegNumber p with
      | some (n, q) => if n < 8 then some (.PA n, q) else none
      | none => none
    | none => none

/-- src/asm_tms32010.cpp:63-77 `constantType`, of the 16 lower bits -/
def constantType (v : Nat) : Mode :=
  let v := v % 65536
  if v = 0 then .LS0
  else if v = 1 then .DPK
  else if v = 4 then .LS3
  else if v < 8 then .IM3
  else if v < 16 then .LS4
  else if v < 256 then .IM8
  else .IM13

/-- src/asm_tms32010.cpp:141-181 `parseOperand`; after an error the text is left where the operand starts. -/
def parseOperand (P : Plugins Value) (scan : Scan) : Out (Except (Err × Scan) (Operand × Scan)) :=
  let start := skipSpaces scan
  if P.endOfLine start then .ok (.ok ({}, start))
  else
    match expect '*' start with
    | some p =>
      match expect '+' p with
      | some p => .ok (.ok ({ mode := .INC }, p))
      | none =>
        match expect '-' p with
        | some p => .ok (.ok ({ mode := .DEC }, p))
        | none => .ok (.ok ({ mode := .ARP }, p))
    | none =>
      match parseRegName start with
      | some (.AR n, p) => .ok (.ok ({ mode := .AR, val := Value.setUnsigned n }, p))
      | some (.PA n, p) => .ok (.ok ({ mode := .PA, val := Value.setUnsigned n }, p))
      | none =>
        (parseInteger P start .OK).bind fun (val, err, p) =>
        if hasError err then .ok (.error (err, start))
        else .ok (.ok ({ err := err, mode := constantType val.getUnsigned, val := val }, p))

/-- src/table_tms32010.cpp:178-198 `acceptMode` -/
def acceptMode (opr table : Mode) : Bool :=
  if opr = table then true
  else if opr = .NONE then table == .LS0 || table == .LS3 || table == .LS4 || table == .NARP
  else if opr = .AR then table == .ARK || table == .NARP
  else if opr = .PA then false
  else if opr = .ARP ∨ opr = .INC ∨ opr = .DEC then table == .MAM
  else if opr = .IM13 ∧ table = .PMA then true
  else decide (1 ≤ table.num ∧ table.num ≤ 13 ∧ opr.num ≤ table.num)

/-- src/table_tms32010.cpp:200-204 `acceptModes` of the modes of three operands -/
def acceptModes (ops : List Mode) (r : Row) : Bool :=
  (ops.zip (pad 3 .NONE (modes r))).all fun p => acceptMode p.1 p.2

/-- src/table_tms32010.cpp:206-209 `searchName` -/
def searchName (name : List Char) (ops : List Mode) : Out (Except Err Row) :=
  match Table.searchName (fun r : Row => Table.strcasecmp name r.name) (fun _ r => acceptModes ops r) pages false with
  | some (.ok (_, r)) => .ok (.ok r)
  | some (.error e) => .ok (.error e)
  | none => .ub

/-- `insn.embed(x)` of a 16 bit code -/
def embed (a : Asm) (x : Nat) : Asm := { a with opc := a.opc ||| x % 65536 }

/-- src/asm_tms32010.cpp:81-139 `encodeOperand` -/
def encodeOperand (cpu : CpuType) (m : Mode) (op : Operand) (a : Asm) : Asm :=
  let a := a.setErrorIf op.err
  let v := op.val.getUnsigned
  match m with
  | .MAM =>
    match op.mode with
    | .ARP => embed a 0x88
    | .INC => embed a 0xA8
    | .DEC => embed a 0x98
    | _ =>
      let a := a.check (decide (v > dataMemoryLimit cpu)) .OVERFLOW_RANGE
      let a := a.check (decide (a.opc = 0x7C00 ∧ v < 0x80)) .OVERFLOW_RANGE
      embed a (v % 128)
  | .LS3 | .LS4 | .PA | .AR => embed a (v * 256)
  | .NARP =>
    if op.mode = .NONE then a
    else embed { a with opc := a.opc - a.opc / 8 % 2 * 8 } v
  | .ARK | .DPK | .IM8 => embed a v
  | .IM13 => embed (a.check (op.val.overflow 0x0FFF (-0x1000)) .OVERFLOW_RANGE) (v % 8192)
  | .PMA => (a.check (op.val.overflow 0x0FFF 0) .OVERFLOW_RANGE).emit16le (v % 4096)
  | _ => a

/-- src/insn_tms32010.h:50-52: the code goes before the operands, the least significant byte first. -/
def bytes (a : Asm) : List Nat := a.opc % 256 :: a.opc / 256 % 256 :: a.ops

/-- src/asm_tms32010.cpp:179-202 `encodeImpl` -/
def encodeImpl (P : Plugins Value) (cpu : CpuType) (name : List Char) (scan : Scan) : Out Res :=
  (operandList (parseOperand P) 3 scan).bind fun
  | .error (e, scan) => .ok ⟨e, [], scan⟩
  | .ok (ops, scan) =>
    let ops := pad 3 {} ops
    (searchName name (ops.map (·.mode))).bind fun
    | .error e => .ok ⟨e, [], scan⟩
    | .ok row =>
      let a := ((pad 3 .NONE (modes row)).zip ops).foldl (fun a p => encodeOperand cpu p.1 p.2 a) ⟨.OK, row.opcode, []⟩
      .ok ⟨a.err, bytes a, scan⟩

/-- Assembling one line: `Assembler::encode` of an `AsmTms32010`. -/
def assemble (E : Env) (cpu : CpuType) (addr : Nat) (line : List Char) : Out Line :=
  encode syntaxOf 12 (encodeImpl (lexer.plugins E '\x00' addr) cpu) addr line

end Libasm.Cpu.Tms32010
