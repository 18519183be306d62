import Verif.Eval.Default
import Verif.Table.Model
import Verif.Config.Model
/-
What the assemblers and disassemblers of all CPUs have in common: printing operands
(src/dis_base.cpp), reading instruction bytes, and taking a source line apart
(src/asm_base.cpp:78-112, src/value_parser.cpp:444-460).

Simplified: the output buffers and the buffer of instruction bytes are unbounded lists (the bounded
ones are modelled in Verif/StrBuffer and Verif/Insn), the disassembler has no symbol table (the
command line tool passes none, driver/dis_driver.cpp:127), and error positions are left out.
-/
namespace Libasm.Cpu
open Scan Number Eval

/-! ### Disassembler -/

/-- The options of src/dis_base.cpp:60-117: `upper-hex`, `upper-case`, `list-radix` 8, `relative`,
`c-style`, `intel-hex`, `origin-char`. -/
structure Opts where
  upperHex : Bool
  upper : Bool
  octal : Bool
  relative : Bool
  cstyle : Bool
  intelHex : Bool
  curSym : Char

/-- src/dis_base.cpp:57-65 `Disassembler::reset`, with the location symbol of the CPU. -/
def Opts.default (curSym : Char) : Opts := ⟨true, true, false, false, false, false, curSym⟩

/-- src/dis_base.cpp:69-79 `formatter`: `own` is the formatter of the CPU. -/
def formatter (own : Style) (o : Opts) : Style :=
  if o.cstyle then .cstyle else if o.intelHex then .intel else own

/-- `out.text_P(text)` into the buffer of src/dis_base.cpp:134. -/
def outText (o : Opts) (text : List Char) : List Char := text.map (letter o.upper)

/-- src/dis_base.cpp:162-171 `outDec` -/
def outDec (own : Style) (o : Opts) (v : Nat) (bits : Int) : List Char :=
  if o.octal then formatSigned ((formatter own o).oct o.upperHex) o.upperHex v bits
  else formatSigned (fun v _ => (formatter own o).dec o.upperHex v) o.upperHex v bits

/-- src/dis_base.cpp:178-193 `outHex` -/
def outHex (own : Style) (o : Opts) (v : Nat) (bits : Int) (relax : Bool) : List Char :=
  if o.octal then formatSigned ((formatter own o).oct o.upperHex) o.upperHex v bits
  else if relax && decide ((Number.absolute v bits).2 ≤ 32) then
    formatSigned (fun v _ => (formatter own o).dec o.upperHex v) o.upperHex v bits
  else formatSigned ((formatter own o).hex o.upperHex) o.upperHex v bits

/-- src/dis_base.cpp:200-210 `outAbsAddr`: `width` is the address width, of the CPU or given. -/
def outAbsAddr (own : Style) (o : Opts) (width v : Nat) : List Char :=
  if o.octal then formatSigned ((formatter own o).oct o.upperHex) o.upperHex v width
  else formatSigned ((formatter own o).hex o.upperHex) o.upperHex v width

/-- src/dis_base.cpp:215-240 `outRelAddr`: `width` is the address width of the CPU. -/
def outRelAddr (own : Style) (o : Opts) (width target origin deltaBits : Nat) : List Char :=
  if !o.relative then outAbsAddr own o width target
  else
    let delta := Config.int32 (Config.sub32 target origin)
    let sym := letter o.upper o.curSym
    if delta = 0 then [sym]
    else
      let sign := letter o.upper (if delta < 0 then '-' else '+')
      let val := delta.natAbs
      let num :=
        if o.octal then formatSigned ((formatter own o).oct o.upperHex) o.upperHex val deltaBits
        else if deltaBits ≤ 14 then
          formatSigned (fun v _ => (formatter own o).dec o.upperHex v) o.upperHex val deltaBits
        else outHex own o val deltaBits true
      sym :: sign :: num

/-- `DisInsnBase`: the bytes `_memory` has left, those read into the instruction, and the
error. -/
structure Rd where
  mem : List Nat
  bytes : List Nat
  err : Err

/-- `insn.setErrorIf(e)`, src/error_reporter.h:139-141 -/
def Rd.setErrorIf (r : Rd) (e : Err) : Rd := { r with err := Config.setErrorIf r.err e }

/-- src/insn_base.cpp:129-138 `readByte` -/
def Rd.byte (r : Rd) : Nat × Rd :=
  match r.mem with
  | [] => (0, r.setErrorIf .NO_MEMORY)
  | b :: mem => (b % 256, { r with mem := mem, bytes := r.bytes ++ [b % 256] })

/-- src/insn_base.cpp:140-144 `readUint16Be` -/
def Rd.be16 (r : Rd) : Nat × Rd :=
  let (m, r) := r.byte
  let (l, r) := r.byte
  (m * 256 + l, r)

/-- src/insn_base.cpp:146-150 `readUint16Le` -/
def Rd.le16 (r : Rd) : Nat × Rd :=
  let (l, r) := r.byte
  let (m, r) := r.byte
  (m * 256 + l, r)

/-- What `Disassembler::decode` leaves behind: the error, the name and the operands printed, and
the bytes of the instruction. -/
structure Dis where
  err : Err
  name : List Char
  operands : List Char
  bytes : List Nat
deriving DecidableEq

/-- src/dis_base.cpp:134-146 `Disassembler::decode`; `impl` is the `decodeImpl` of the CPU. -/
def decode (width : Nat) (impl : Nat → List Nat → Dis) (addr : Nat) (mem : List Nat) : Dis :=
  if Config.checkAddr width addr false ≠ .OK then
    ⟨Config.checkAddr width addr false, [], [], []⟩
  else impl addr mem

/-! ### Assembler -/

/-- What the tables of an assembler say about source lines. -/
structure Syntax where
  /-- `SymbolParser::instructionLetter` -/
  instructionLetter : Char → Bool
  /-- `SymbolParser::instructionTerminator` -/
  instructionTerminator : Char → Bool
  /-- `CommentParser::commentLine` -/
  commentLine : Scan → Bool
  /-- the directives the CPU's `processPseudo` compares with first -/
  special : List (List Char)
  /-- the directives in the CPU's table -/
  pseudos : List (List Char)

/-- The directives common to all CPUs, src/asm_base.cpp:33-39. -/
def commonPseudos : List (List Char) :=
  [['A', 'L', 'I', 'G', 'N'], ['O', 'P', 'T', 'I', 'O', 'N'], ['O', 'R', 'G']]

/-- src/value_parser.cpp:444-461 `readInstruction`: the name and the text after it. -/
def readInstruction (letter terminator : Char → Bool) : Scan → List Char × Scan
  | [] => ([], [])
  | c :: t =>
    if letter c then
      if terminator c then ([c], t)
      else
        let (name, rest) := readInstruction letter terminator t
        (c :: name, rest)
    else ([], c :: t)

/-- Whether `processPseudo` knows the name: src/asm_base.cpp:105-110 and, for the first, the
overrides of the CPUs. -/
def isPseudo (S : Syntax) (name : List Char) : Bool :=
  S.special.any (fun n => Table.strcasecmp name n == 0) ||
  (Table.binarySearch S.pseudos (fun n => Table.strcasecmp name n)).join.isSome ||
  (Table.binarySearch commonPseudos (fun n => Table.strcasecmp name n)).join.isSome

/-- What encoding an instruction gives: the error, the bytes, and the text not used. -/
structure Res where
  err : Err
  bytes : List Nat
  rest : Scan
deriving DecidableEq

/-- What a line is. What a directive does is modelled in Verif/Driver. -/
inductive Line where
  | comment
  | directive (name : List Char) (rest : Scan)
  | insn (r : Res)
deriving DecidableEq

/-- src/asm_base.cpp:78-103 `Assembler::encode`; `impl name scan` is the `encodeImpl` of the CPU at
`addr`. `Insn::_name` has room for 11 letters. -/
def encode (S : Syntax) (width : Nat) (impl : List Char → Scan → Out Res) (addr : Nat)
    (line : List Char) : Out Line :=
  let scan := skipSpaces line
  if S.commentLine scan then .ok .comment
  else
    let (name, scan) := readInstruction S.instructionLetter S.instructionTerminator scan
    let name := name.take 11
    let scan := skipSpaces scan
    if isPseudo S name then .ok (.directive name scan)
    else if Config.checkAddr width addr false ≠ .OK then
      .ok (.insn ⟨Config.checkAddr width addr false, [], scan⟩)
    else (impl name scan).bind fun r => .ok (.insn r)

/-- What an expression may refer to besides its text: reading floating point numbers (not
modelled), the symbols and the functions. -/
structure Env where
  float : Scan → Option (Err × Value × Scan)
  symbols : List Char → Option Value
  functions : List Char → Option (Int × (List Value → Out (Except Err Value)))

/-- The plugins of a CPU that differ from the default ones. -/
structure Lexer where
  number : Parser
  operators : OpStyle
  /-- `LetterParser::parseLetter` -/
  letter : Scan → Err × Nat × Scan
  /-- `SymbolParser::locationSymbol` -/
  location : Scan → Option Scan
  /-- `SymbolParser::symbolLetter`; the flag says that it is the first letter -/
  symbolLetter : Bool → Char → Bool
  /-- `SymbolParser::functionNameLetter` -/
  functionLetter : Char → Bool
  /-- `CommentParser::endOfLine` -/
  endOfLine : Scan → Bool

/-- src/value_parser.cpp:421-430,463-472 `readSymbol`, `readFunctionName`: name and remaining
text. -/
def readName (head : Char → Bool) (letter : Char → Bool) (s : Scan) : Option (List Char × Scan) :=
  match s with
  | [] => none
  | c :: t => if head c then some (c :: t.takeWhile letter, t.dropWhile letter) else none

/-- The parser of an assembler, with a delimiter and the current location. -/
def Lexer.plugins (L : Lexer) (E : Env) (delim : Char) (loc : Nat) : Plugins Value :=
  { undef := Value.undefined, toRadix := toRadix, ops := L.operators.parser
    endOfLine := L.endOfLine
    parseConstant := constant L.letter L.number.parse L.location E.float delim loc
    readFunctionName := readName (L.symbolLetter true) L.functionLetter
    readSymbol := readName (L.symbolLetter true) (L.symbolLetter false)
    lookupFunction := E.functions, lookupSymbol := E.symbols, delimitor := delim }

/-- src/asm_base.cpp:112-124 `parseInteger`, `parseExpr`: the value, the error and the text after
it. (No value of the model is a float.) -/
def parseInteger (P : Plugins Value) (scan : Scan) (err : Err) : Out (Value × Err × Scan) :=
  (eval P scan err .r10).bind fun r => .ok (r.value, r.err, r.scan)

/-- A computation that may be undefined. -/
def ofOption {α : Type} : Option α → Out α
  | some a => .ok a
  | none => .ub

/-- src/parsers.cpp:255-262 `SymbolParser::locationSymbol(scan, location)`: `letter` is
`symbolLetter`. -/
def locationSymbol (letter : Bool → Char → Bool) (c : Char) (s : Scan) : Option Scan :=
  match expect c s with
  | some p => if letter false (deref p) then none else some p
  | none => none

/-- `strchr_P(text, c)` of a `c` that is not NUL. -/
def oneOf (text : List Char) (c : Char) : Bool := c != '\x00' && text.contains c

/-- src/parsers.cpp:268-276 `PrefixSymbolParser::symbolLetter`; `none` is a null pointer. -/
def prefixSymbol (pre extra : Option (List Char)) (head : Bool) (c : Char) : Bool :=
  if Eval.symbolLetter head c then true
  else
    match head, pre with
    | true, some p => oneOf p c
    | _, _ =>
      match extra with
      | some e => oneOf e c
      | none => false

/-- src/parsers.cpp:264-266 `SimpleSymbolParser::symbolLetter` -/
def simpleSymbol (extra : List Char) (head : Bool) (c : Char) : Bool :=
  Eval.symbolLetter head c || oneOf extra c

/-! ### Registers -/

/-- src/reg_base.cpp:63-65 `searchText`: the register and the text after it. -/
def searchText {α : Type} (table : List (List Char × α)) (s : Scan) :
    Out (Option (α × Scan)) :=
  match Table.searchSymbol table (·.1) Table.isNameLetter s with
  | none => .ub
  | some none => .ok none
  | some (some (e, rest)) => .ok (some (e.2, rest))

/-- src/reg_base.cpp:59-61 `searchName`, and `outText`: nothing if there is no such register. -/
def regText {α : Type} [DecidableEq α] (table : List (List Char × α)) (reg : α) : List Char :=
  match table.find? (fun e => e.2 = reg) with
  | some e => e.1
  | none => []

end Libasm.Cpu
