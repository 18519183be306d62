import Verif.Cpu.ListModel
import Verif.Maker.Model
import Verif.Tables.Data.Tms9900
/-
The assembler and the disassembler of the TMS9900, TMS9980, TMS9995, TMS99105 and TMS99110: src/asm_tms9900.cpp,
src/dis_tms9900.cpp, src/table_tms9900.cpp, src/reg_tms9900.cpp, src/insn_tms9900.h, src/entry_tms9900.h,
src/config_tms9900.h. The instruction table is Verif/Tables/Data/Tms9900.lean, generated from
src/table_tms9900.cpp. Words have the most significant byte first.
-/
namespace Libasm.Cpu.Tms9900
open Scan Number Eval
open Tables (Row)

/-- src/config_tms9900.h:25-31 `CpuType` -/
inductive CpuType | TMS9900 | TMS9980 | TMS9995 | TMS99105 | TMS99110
deriving DecidableEq, Repr

/-- src/config_tms9900.h:36-38 `addressWidth` -/
def width : CpuType → Nat
  | .TMS9980 => 14
  | _ => 16

/-- src/entry_tms9900.h:28-51 `AddrMode`; the code has no UNDEF. -/
inductive Mode
  | NONE | IMM | REG | SCNT | SRC | CNT | XOP | DREG | DST | REL | CRU | RTWP | SRC2 | DST0 | DST4 | BIT0 | CNT4
  | IREG | INCR | SYBL | INDX | UNDEF
deriving DecidableEq, Repr

/-- `uint8_t(mode)`: M_CNT4 and M_IREG are the same number. -/
def Mode.num : Mode → Nat
  | .NONE => 0 | .IMM => 1 | .REG => 2 | .SCNT => 3 | .SRC => 4 | .CNT => 5 | .XOP => 6 | .DREG => 7 | .DST => 8
  | .REL => 10 | .CRU => 11 | .RTWP => 12 | .SRC2 => 13 | .DST0 => 14 | .DST4 => 15 | .BIT0 => 16 | .CNT4 => 17
  | .IREG => 17 | .INCR => 18 | .SYBL => 19 | .INDX => 20 | .UNDEF => 31

/-- The name of an addressing mode in the table. -/
def modeOf : String → Mode
  | "M_IMM" => .IMM
  | "M_REG" => .REG
  | "M_SCNT" => .SCNT
  | "M_SRC" => .SRC
  | "M_CNT" => .CNT
  | "M_XOP" => .XOP
  | "M_DREG" => .DREG
  | "M_DST" => .DST
  | "M_REL" => .REL
  | "M_CRU" => .CRU
  | "M_RTWP" => .RTWP
  | "M_SRC2" => .SRC2
  | "M_DST0" => .DST0
  | "M_DST4" => .DST4
  | "M_BIT0" => .BIT0
  | "M_CNT4" => .CNT4
  | _ => .UNDEF

/-- src/entry_tms9900.h:54-75, src/table_tms9900.cpp:27-37 `Flags` -/
structure Flags where
  src : Mode
  dst : Mode
  byteOp : Bool
deriving DecidableEq

/-- `readFlags` of a row -/
def flags (r : Row) : Flags :=
  match r.operands with
  | ["E0"] => ⟨.NONE, .NONE, false⟩
  | ["E1", a] => ⟨modeOf a, .NONE, false⟩
  | ["E2", a, b] => ⟨modeOf a, modeOf b, false⟩
  | ["B2", a, b] => ⟨modeOf a, modeOf b, true⟩
  | _ => ⟨.UNDEF, .UNDEF, false⟩

/-- src/table_tms9900.cpp:265-300 `CPU_TABLE`, `cpu` -/
def pages : CpuType → List (Table.Page Row)
  | .TMS9900 | .TMS9980 => Tables.Tms9900.TMS9900_PAGES
  | .TMS9995 => Tables.Tms9900.TMS9995_PAGES
  | .TMS99105 => Tables.Tms9900.TMS99105_PAGES
  | .TMS99110 => Tables.Tms9900.TMS99110_PAGES

/-! ### Disassembler -/

/-- src/table_tms9900.cpp:336-352: the code without the bits of the operands. -/
def mask (f : Flags) (opc : Nat) : Nat :=
  let opc := if f.src = .REG ∨ f.dst = .REG then opc / 16 * 16
    else if f.src = .REL ∨ f.src = .CRU then opc / 256 * 256 else opc
  let opc := if f.src = .SRC then opc / 64 * 64 else opc
  let opc := if f.dst = .DST then opc - opc / 64 % 64 * 64 else opc
  let opc := if f.dst = .CNT ∨ f.dst = .XOP ∨ f.dst = .DREG then opc - opc / 64 % 16 * 64 else opc
  if f.dst = .SCNT then opc - opc / 16 % 16 * 16 else opc

/-- src/table_tms9900.cpp:335-354 `matchOpCode` -/
def matchOpCode (opc : Nat) (r : Row) : Bool := mask (flags r) opc == r.opcode

/-- src/table_tms9900.cpp:356-359 `searchOpCode` -/
def searchOpCode (cpu : CpuType) (opc : Nat) : Option Row :=
  match Table.searchOpCode (fun _ r => matchOpCode opc r) (fun _ => true) (pages cpu) with
  | some (_, r) => some r
  | none => none

/-- src/reg_tms9900.cpp:39-41 `outRegName` -/
def outReg (o : Opts) (n : Nat) : List Char := letter o.upper 'R' :: fmtDec o.upper (n % 16)

/-- src/dis_tms9900.cpp:36-61 `checkPostWord`: what is wrong with the second word. -/
def checkPost (dst : Mode) (post : Nat) : Err :=
  match dst with
  | .DST0 => if post / 4096 ≠ 0 then .UNKNOWN_POSTBYTE else .OK
  | .DST4 => if post / 4096 ≠ 4 then .UNKNOWN_POSTBYTE else .OK
  | .CNT4 => if post / 1024 ≠ 16 then .UNKNOWN_POSTBYTE else .OK
  | .BIT0 => if post / 1024 ≠ 0 ∨ post / 16 % 4 = 3 then .UNKNOWN_POSTBYTE else .OK
  | _ => .OK

/-- src/dis_tms9900.cpp:63-81 `decodeModeReg` -/
def decodeModeReg (o : Opts) (cpu : CpuType) (byteOp : Bool) (modeReg : Nat) (r : Rd) : List Char × Rd :=
  let reg := modeReg % 16
  match modeReg / 16 % 4 with
  | 0 => (outReg o reg, r)
  | 1 => ('*' :: outReg o reg, r)
  | 2 =>
    let (addr, r) := r.be16
    let r := if reg = 0 then r.setErrorIf (Config.checkAddr (width cpu) addr (!byteOp)) else r
    ('@' :: outHex .texas o addr 16 true ++ (if reg ≠ 0 then '(' :: outReg o reg ++ [')'] else []), r)
  | _ => ('*' :: outReg o reg ++ ['+'], r)

/-- src/dis_tms9900.cpp:83-89 `decodeRelative`, 32 bit arithmetic -/
def decodeRelative (o : Opts) (cpu : CpuType) (addr opc : Nat) (r : Rd) : List Char × Rd :=
  let target := (((addr + 2 : Nat) : Int) + int8 (opc % 256) * 2) % Config.W
  (outRelAddr .texas o (width cpu) target.toNat addr 9,
    r.setErrorIf (Config.checkAddr (width cpu) target.toNat false))

/-- src/dis_tms9900.cpp:91-154 `decodeOperand`, without symbols -/
def decodeOperand (o : Opts) (cpu : CpuType) (addr opc post : Nat) (byteOp : Bool) (m : Mode) (r : Rd) :
    List Char × Rd :=
  match m with
  | .IMM => (outHex .texas o r.be16.1 16 true, r.be16.2)
  | .REG => (outReg o opc, r)
  | .DREG => (outReg o (opc / 64), r)
  | .SRC => decodeModeReg o cpu byteOp opc r
  | .SRC2 => decodeModeReg o cpu byteOp post r
  | .DST => decodeModeReg o cpu byteOp (opc / 64) r
  | .DST0 | .DST4 => decodeModeReg o cpu byteOp (post / 64) r
  | .CNT4 => (if post / 64 % 16 = 0 then outReg o 0 else outDec .texas o (post / 64 % 16) 5, r)
  | .CNT => (outDec .texas o (if opc / 64 % 16 = 0 then 16 else opc / 64 % 16) 5, r)
  | .XOP => (outDec .texas o (opc / 64 % 16) 5, r)
  | .BIT0 => (outDec .texas o (post / 64 % 16) 4, r)
  | .REL => decodeRelative o cpu addr opc r
  | .SCNT => (if opc / 16 % 16 = 0 then outReg o 0 else outDec .texas o (opc / 16 % 16) 4, r)
  | .CRU => (outDec .texas o (opc % 256) (-8), r)
  | .RTWP => (if opc % 8 ≠ 0 then outHex .texas o (opc % 8) 7 true else [], r)
  | _ => ([], r)

/-- `out.comma()`, src/str_buffer.cpp -/
def comma : List Char := [',', ' ']

/-- src/dis_tms9900.cpp:168-171: the operands of an instruction -/
def decodeOperands (o : Opts) (cpu : CpuType) (addr opc post : Nat) (f : Flags) (r : Rd) : List Char × Rd :=
  let (t1, r) := decodeOperand o cpu addr opc post f.byteOp f.src r
  if f.dst = .NONE then (t1, r)
  else
    let (t2, r) := decodeOperand o cpu addr opc post f.byteOp f.dst r
    (t1 ++ comma ++ t2, r)

/-- src/dis_tms9900.cpp:156-173 `decodeImpl`. When an entry is found the error is reset
(src/entry_table.h:214), also that of a missing byte of the code. -/
def decodeImpl (o : Opts) (cpu : CpuType) (addr : Nat) (mem : List Nat) : Dis :=
  let (opc, r) := (⟨mem, [], .OK⟩ : Rd).be16
  match searchOpCode cpu opc with
  | none => ⟨.UNKNOWN_INSTRUCTION, [], [], r.bytes⟩
  | some row =>
    let r := { r with err := Err.OK }
    let f := flags row
    if f.src = .SRC2 then
      let (post, r) := r.be16
      let r := r.setErrorIf (checkPost f.dst post)
      if r.err ≠ .OK then ⟨r.err, outText o row.name, [], r.bytes⟩
      else
        let (t, r) := decodeOperands o cpu addr opc post f r
        ⟨r.err, outText o row.name, t, r.bytes⟩
    else
      let (t, r) := decodeOperands o cpu addr opc 0 f r
      ⟨r.err, outText o row.name, t, r.bytes⟩

/-- Disassembling one instruction: `Disassembler::decode` of a `DisTms9900`. -/
def disassemble (o : Opts) (cpu : CpuType) (addr : Nat) (mem : List Nat) : Dis :=
  decode (width cpu) (decodeImpl o cpu) addr mem

/-! ### Assembler -/

/-- The default `SymbolParser`, `StarCommentParser`: src/value_parser.cpp:26-51,104-106, src/parsers.cpp:571-573; the
table of src/asm_tms9900.cpp:33-40 and `processPseudo`, src/asm_tms9900.cpp:275-280. -/
def syntaxOf : Syntax where
  instructionLetter c := Eval.symbolLetter false c
  instructionTerminator _ := false
  commentLine s := deref s == '*' || deref s == ';'
  special := [['S', 'I', 'N', 'G', 'L', 'E']]
  pseudos := [['A', 'O', 'R', 'G'], ['B', 'S', 'S'], ['B', 'Y', 'T', 'E'], ['D', 'A', 'T', 'A'],
    ['E', 'V', 'E', 'N'], ['T', 'E', 'X', 'T']]

/-- src/asm_tms9900.cpp:46-48: the notation of Texas Instruments. -/
def lexer : Lexer := Maker.texas

/-- src/insn_tms9900.h:35-40 `Operand`; `REG_UNDEF` is `none`. -/
structure Operand where
  err : Err := .OK
  mode : Mode := .NONE
  reg : Option Nat := none
  val : Value := Value.undefined
deriving DecidableEq

/-- src/reg_tms9900.cpp:27-37 `parseRegName` -/
def parseRegName (s : Scan) : Option (Nat × Scan) :=
  match iexpect 'R' s with
  | some p =>
    match Table.parseRegNumber p with
    | some (n, q) => if n < 16 then some (n, q) else none
    | none => none
  | none => none

/-- src/reg_tms9900.cpp:43-45 `encodeRegNumber` -/
def encodeReg : Option Nat → Nat
  | some n => n
  | none => 255

/-- src/asm_tms9900.cpp:213-226: what may come after an address -/
def parseIndex (start : Scan) (val : Value) (err : Err) (p : Scan) : Except (Err × Scan) (Operand × Scan) :=
  match expect '(' (skipSpaces p) with
  | some p =>
    match parseRegName (skipSpaces p) with
    | none => .error (.UNKNOWN_OPERAND, start)
    | some (n, p) =>
      if n = 0 then .error (.REGISTER_NOT_ALLOWED, start)
      else
        match expect ')' (skipSpaces p) with
        | none => .error (.MISSING_CLOSING_PAREN, start)
        | some p => .ok ({ err := err, mode := .INDX, reg := some n, val := val }, p)
  | none => .ok ({ err := err, mode := .SYBL, val := val }, skipSpaces p)

/-- src/asm_tms9900.cpp:194-242 `parseOperand`; after an error the text is left where the operand starts. -/
def parseOperand (P : Plugins Value) (scan : Scan) : Out (Except (Err × Scan) (Operand × Scan)) :=
  let start := skipSpaces scan
  if P.endOfLine start then .ok (.ok ({}, start))
  else
    match expect '*' start with
    | some p =>
      match parseRegName p with
      | none => .ok (.error (.UNKNOWN_OPERAND, start))
      | some (n, p) =>
        match expect '+' p with
        | some p => .ok (.ok ({ mode := .INCR, reg := some n }, p))
        | none => .ok (.ok ({ mode := .IREG, reg := some n }, p))
    | none =>
      match expect '@' start with
      | some p =>
        (parseInteger P p .OK).bind fun (val, err, p) =>
        if hasError err then .ok (.error (err, start)) else .ok (parseIndex start val err p)
      | none =>
        match parseRegName start with
        | some (n, p) => .ok (.ok ({ mode := .REG, reg := some n }, p))
        | none =>
          (parseInteger P start .OK).bind fun (val, err, p) =>
          if hasError err then .ok (.error (err, start))
          else .ok (.ok ({ err := err, mode := .IMM, val := val }, p))

/-- src/table_tms9900.cpp:310-323 `acceptMode` -/
def acceptMode (opr table : Mode) : Bool :=
  if opr.num = table.num then true
  else if opr = .IREG ∨ opr = .INCR ∨ opr = .SYBL ∨ opr = .INDX then
    table == .SRC || table == .DST || table == .SRC2 || table == .DST0 || table == .DST4
  else if opr = .REG then
    table == .SRC || table == .DST || table == .SRC2 || table == .DST0 || table == .DST4 || table == .DREG ||
      table == .SCNT || table == .CNT4
  else if opr = .IMM then
    table == .REL || table == .SCNT || table == .CNT || table == .CNT4 || table == .CRU || table == .BIT0 ||
      table == .XOP || table == .RTWP
  else false

/-- src/table_tms9900.cpp:325-328 `acceptModes` -/
def acceptModes (m1 m2 : Mode) (r : Row) : Bool := acceptMode m1 (flags r).src && acceptMode m2 (flags r).dst

/-- src/table_tms9900.cpp:330-333 `searchName`, with what accepts an entry -/
def searchWith (cpu : CpuType) (accept : Row → Bool) (name : List Char) : Out (Except Err Row) :=
  match Table.searchName (fun r : Row => Table.strcasecmp name r.name) (fun _ r => accept r) (pages cpu) false with
  | some (.ok (_, r)) => .ok (.ok r)
  | some (.error e) => .ok (.error e)
  | none => .ub

/-- src/table_tms9900.cpp:330-333 `searchName` -/
def searchName (cpu : CpuType) (name : List Char) (m1 m2 : Mode) : Out (Except Err Row) :=
  searchWith cpu (acceptModes m1 m2) name

/-- src/table_tms9900.cpp:305-308 `hasOperand` -/
def hasOperand (cpu : CpuType) (name : List Char) : Out Bool :=
  (searchWith cpu (fun _ => true) name).bind fun
  | .ok r => .ok (decide ((flags r).src ≠ .NONE))
  | .error _ => .ok false

/-- `AsmInsn`, src/insn_tms9900.h:42-64: error, code, second word, and the bytes emitted for the operands; these go
to the places after the words, which are emitted last. -/
structure Asm where
  err : Err
  opc : Nat
  post : Nat
  ops : List Nat
deriving DecidableEq

/-- `insn.setErrorIf(op, e)` -/
def Asm.setErrorIf (a : Asm) (e : Err) : Asm := { a with err := Config.setErrorIf a.err e }
/-- `if (c) insn.setErrorIf(op, e)` -/
def Asm.check (a : Asm) (c : Bool) (e : Err) : Asm := if c then a.setErrorIf e else a
/-- `insn.embed(x)` of a 16 bit code -/
def Asm.embed (a : Asm) (x : Nat) : Asm := { a with opc := a.opc ||| x % 65536 }
/-- `insn.embedPostfix(x)` -/
def Asm.embedPost (a : Asm) (x : Nat) : Asm := { a with post := a.post ||| x % 65536 }
/-- `insn.emitOperand16(x)` -/
def Asm.emit16 (a : Asm) (x : Nat) : Asm := { a with ops := a.ops ++ [x / 256 % 256, x % 256] }

/-- src/asm_tms9900.cpp:55-63 `encodeRelative`; the division of C++ rounds towards zero. -/
def encodeRelative (cpu : CpuType) (addr : Nat) (op : Operand) (a : Asm) : Out Asm :=
  let base := addr + 2
  let target := if op.err ≠ .OK then base else op.val.getUnsigned
  let a := a.setErrorIf (Config.checkAddr (width cpu) target true)
  (ofOption (Config.branchDelta (width cpu) base target a.err)).bind fun (delta, err) =>
  (ofOption (Config.overflowDelta (delta.tdiv 2) 8)).bind fun far =>
  .ok ((({ a with err := err } : Asm).check far .OPERAND_TOO_FAR).embed (delta.tdiv 2 % 256).toNat)

/-- src/asm_tms9900.cpp:75-96: the mode and the register of an operand, and what is emitted for it -/
def encodeMode (cpu : CpuType) (byteOp : Bool) (op : Operand) (a : Asm) : Nat × Asm :=
  let v := op.val.getUnsigned
  match op.mode with
  | .REG => (encodeReg op.reg, a)
  | .IREG => (encodeReg op.reg ||| 0x10, a)
  | .INCR => (encodeReg op.reg ||| 0x30, a)
  | .SYBL => (0x20, (a.setErrorIf (Config.checkAddr (width cpu) v (!byteOp))).emit16 v)
  | _ => (encodeReg op.reg ||| 0x20, (a.check (decide (op.reg = some 0)) .REGISTER_NOT_ALLOWED).emit16 v)

/-- src/asm_tms9900.cpp:72-111 `encodeModeReg` -/
def encodeModeReg (cpu : CpuType) (f : Flags) (m : Mode) (op : Operand) (a : Asm) : Asm :=
  let a := a.check (decide (m = .SRC2 ∧ f.dst = .BIT0 ∧ op.mode = .INCR)) .OPERAND_NOT_ALLOWED
  let (x, a) := encodeMode cpu f.byteOp op a
  match m with
  | .SRC => a.embed x
  | .SRC2 => a.embedPost x
  | .DST => a.embed (x * 64)
  | _ => a.embedPost (x * 64)

/-- src/asm_tms9900.cpp:178-182: the common end of M_CNT4 and M_BIT0 -/
def encodeBit (op : Operand) (a : Asm) : Asm :=
  (a.check (op.val.overflow 15 0) .OVERFLOW_RANGE).embedPost (op.val.getUnsigned % 16 * 64)

/-- src/asm_tms9900.cpp:65-70,113-192 `encodeOperand` -/
def encodeOperand (cpu : CpuType) (addr : Nat) (f : Flags) (m : Mode) (op : Operand) (a : Asm) : Out Asm :=
  let a := a.setErrorIf op.err
  let v := op.val.getUnsigned
  match m with
  | .IMM => .ok (a.emit16 v)
  | .REG => .ok (a.embed (encodeReg op.reg))
  | .DREG => .ok (a.embed (encodeReg op.reg * 64))
  | .DST4 => .ok (encodeModeReg cpu f m op (a.embedPost 0x4000))
  | .DST0 | .SRC | .SRC2 | .DST => .ok (encodeModeReg cpu f m op a)
  | .REL => encodeRelative cpu addr op a
  | .CRU => .ok ((a.check op.val.overflowInt16 .OVERFLOW_RANGE).embed (v % 256))
  | .CNT => .ok ((a.check (op.val.isZero || op.val.overflow 16 0) .OVERFLOW_RANGE).embed (v % 16 * 64))
  | .XOP => .ok ((a.check (op.val.overflow 15 0) .OVERFLOW_RANGE).embed (v % 16 * 64))
  | .SCNT =>
    if op.mode = .REG then .ok (a.check (decide (op.reg ≠ some 0)) .REGISTER_NOT_ALLOWED)
    else if op.val.isZero then .ok ((a.setErrorIf .OPERAND_NOT_ALLOWED).embed (v % 16 * 16))
    else .ok ((a.check (op.val.overflow 15 0) .OVERFLOW_RANGE).embed (v % 16 * 16))
  | .CNT4 =>
    let a := a.embedPost 0x4000
    if op.mode = .REG then .ok (a.check (decide (op.reg ≠ some 0)) .REGISTER_NOT_ALLOWED)
    else .ok (encodeBit op (a.check op.val.isZero .OPERAND_NOT_ALLOWED))
  | .BIT0 => .ok (encodeBit op a)
  | .RTWP =>
    .ok ((a.check (op.val.isNegative || decide (v = 3 ∨ v > 4)) .OPERAND_NOT_ALLOWED).embed (v % 8))
  | _ => .ok a

/-- src/insn_tms9900.h:47-51 `emitInsn`: the words go before the operands. -/
def bytes (f : Flags) (a : Asm) : List Nat :=
  a.opc / 256 % 256 :: a.opc % 256 ::
    (if f.src = .SRC2 then a.post / 256 % 256 :: a.post % 256 :: a.ops else a.ops)

/-- src/asm_tms9900.cpp:282-301 `encodeImpl` -/
def encodeImpl (P : Plugins Value) (cpu : CpuType) (addr : Nat) (name : List Char) (scan : Scan) : Out Res :=
  (hasOperand cpu name).bind fun has =>
  (if has then operandList (parseOperand P) 2 scan else .ok (.ok ([], skipSpaces scan))).bind fun
  | .error (e, scan) => .ok ⟨e, [], scan⟩
  | .ok (ops, scan) =>
    let op1 := ops.getD 0 {}
    let op2 := ops.getD 1 {}
    (searchName cpu name op1.mode op2.mode).bind fun
    | .error e => .ok ⟨e, [], scan⟩
    | .ok row =>
      let f := flags row
      (encodeOperand cpu addr f f.src op1 ⟨.OK, row.opcode, 0, []⟩).bind fun a =>
      (encodeOperand cpu addr f f.dst op2 a).bind fun a =>
      .ok ⟨a.err, bytes f a, scan⟩

/-- Assembling one line: `Assembler::encode` of an `AsmTms9900`. -/
def assemble (E : Env) (cpu : CpuType) (addr : Nat) (line : List Char) : Out Line :=
  encode syntaxOf (width cpu) (encodeImpl (lexer.plugins E '\x00' addr) cpu addr) addr line

end Libasm.Cpu.Tms9900
