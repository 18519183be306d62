import Verif.Cpu.Model
import Verif.Eval.Default
import Verif.Eval.Operators
/-
src/option_base.{h,cpp} and the option part of src/dis_base.cpp and src/asm_base.cpp: options are
given by name and text (command line `-o name=text`, directive `option`).

Setters are functions of the settings; what an option set by another class does (`options()`, the
options of one CPU) is a list of the same kind. `strtol` is that of a host with a 64-bit `long`.
-/
namespace Libasm.Options
open Ctype Scan Eval

/-- src/str_scanner.cpp:53-56 `expectTrue`. -/
def expectTrue (s : Scan) : Option Scan :=
  iexpectWord "enable".toList s <|> iexpectWord "true".toList s <|> iexpectWord "yes".toList s <|>
    iexpectWord "on".toList s

/-- src/str_scanner.cpp:58-61 `expectFalse`. -/
def expectFalse (s : Scan) : Option Scan :=
  iexpectWord "disable".toList s <|> iexpectWord "false".toList s <|> iexpectWord "no".toList s <|>
    iexpectWord "off".toList s

/-- `p.expect('"')`: whether the quote is there, and the text after it. -/
def dquote (s : Scan) : Bool × Scan :=
  match expect '"' s with
  | some t => (true, t)
  | none => (false, s)

/-- `dquote && !p.expect('"')` and what follows: the error if the closing quote is missing, else the
text after it. -/
def closing (q : Bool) (e : Err) (s : Scan) : Except Err Scan :=
  if q then
    match expect '"' s with
    | some t => .ok t
    | none => .error e
  else .ok s

/-- A value that was read and the text after it, or an error. -/
abbrev Parsed (α : Type) := Except Err (α × Scan)

/-- src/option_base.cpp:28-46 `parseBool`. -/
def parseBool (s : Scan) : Parsed Bool :=
  let d := dquote s
  match expectTrue d.2 with
  | some p => (closing d.1 .MISSING_CLOSING_DQUOTE p).map ((true, ·))
  | none =>
    match expectFalse d.2 with
    | some p => (closing d.1 .MISSING_CLOSING_DQUOTE p).map ((false, ·))
    | none => .error .NOT_AN_EXPECTED

/-- The number of decimal digits. -/
def decimal (ds : List Char) : Nat := ds.foldl (fun n c => n * 10 + (c.toNat - 48)) 0

/-- C `strtol(text, &end, 10)`: blanks, a sign, digits; none if there is no digit. A number beyond the
range of `long` is the nearest `long`. -/
def strtol (s : Scan) : Option (Int × Scan) :=
  let p := s.dropWhile isSpace
  let sg : Bool × Scan :=
    match p with
    | '-' :: t => (true, t)
    | '+' :: t => (false, t)
    | _ => (false, p)
  let ds := sg.2.takeWhile isDigit
  if ds = [] then none
  else
    let n : Int := if sg.1 then -(decimal ds) else decimal ds
    some (max (-2 ^ 63) (min (2 ^ 63 - 1) n), sg.2.dropWhile isDigit)

/-- Conversion to `int32_t`. -/
def toInt32 (n : Int) : Int := (n + 2 ^ 31) % 2 ^ 32 - 2 ^ 31

/-- src/option_base.cpp:48-55 `parseInt`. -/
def parseInt (s : Scan) : Parsed Int :=
  match strtol s with
  | none => .error .ILLEGAL_CONSTANT
  | some (n, p) => .ok (toInt32 n, p)

/-- src/option_base.cpp:69-79 `parseIntOption`. -/
def parseIntOption (s : Scan) : Parsed Int :=
  let d := dquote s
  match parseInt d.2 with
  | .error e => .error e
  | .ok (v, p) => (closing d.1 .ILLEGAL_CONSTANT p).map ((v, ·))

/-- src/option_base.cpp:59-67 `parseBoolOption`. -/
def parseBoolOption (s : Scan) : Parsed Bool :=
  match parseBool s with
  | .ok r => .ok r
  | .error _ =>
    match parseIntOption s with
    | .error e => .error e
    | .ok (v, p) => .ok (decide (v ≠ 0), p)

/-- src/option_base.cpp:81-89 `parseCharOption`. -/
def parseCharOption (s : Scan) : Parsed Char :=
  let quote : Option Char := if deref s = '"' ∨ deref s = '\'' then some (deref s) else none
  let value := deref s
  let p := s.drop 1
  match quote with
  | none => .ok (value, p)
  | some q =>
    match expect q p with
    | some t => .ok (value, t)
    | none => .error (if q = '"' then .MISSING_CLOSING_DQUOTE else .MISSING_CLOSING_QUOTE)

/-- src/option_base.cpp:91-103 `parseTextOption`. -/
def parseTextOption (s : Scan) : Parsed (List Char) :=
  let d := dquote s
  let v := d.2.takeWhile isAlnum
  if v = [] then .error .ILLEGAL_CONSTANT
  else (closing d.1 .MISSING_CLOSING_DQUOTE (d.2.dropWhile isAlnum)).map ((v, ·))

/-! ### Options of an application with the settings `σ` -/

/-- src/option_base.h:62-160 `BoolOption`, `IntOption`, `CharOption`, `TextOption`: the setter, which
may refuse a value. -/
inductive Kind (σ : Type)
  | bool (set : Bool → σ → Except Err σ)
  | int (set : Int → σ → Except Err σ)
  | char (set : Char → σ → Except Err σ)
  | text (set : List Char → σ → Except Err σ)

/-- src/option_base.h:29-60 `OptionBase`. -/
structure Entry (σ : Type) where
  name : String
  kind : Kind σ

/-- The readers of numbers and truth values: those of src/option_base.cpp, or those of the assembler
(src/option_base.h:70-78,103-111). -/
structure Readers where
  bool : Scan → Parsed Bool
  int : Scan → Parsed Int

/-- src/option_base.h:80-84,113-117,133-137,153-157 `set`: the settings and the error. -/
def Entry.set {σ : Type} (r : Readers) (o : Entry σ) (s : Scan) (st : σ) : Err × σ :=
  let out (x : Except Err σ) : Err × σ := match x with | .error e => (e, st) | .ok st' => (.OK, st')
  match o.kind with
  | .bool f => match r.bool s with | .error e => (e, st) | .ok (v, _) => out (f v st)
  | .int f => match r.int s with | .error e => (e, st) | .ok (v, _) => out (f v st)
  | .char f => match parseCharOption s with | .error e => (e, st) | .ok (v, _) => out (f v st)
  | .text f => match parseTextOption s with | .error e => (e, st) | .ok (v, _) => out (f v st)

/-- src/option_base.cpp:105-116 `Options::search`, `Options::setOption`. -/
def setIn {σ : Type} (r : Readers) (os : List (Entry σ)) (name : List Char) (s : Scan) (st : σ) : Err × σ :=
  match os.find? (fun o => iequals name o.name.toList) with
  | some o => o.set r s st
  | none => (.UNKNOWN_OPTION, st)

/-- src/dis_base.cpp:127-132, src/asm_base.cpp:153-157 `setOption`: the common options, then those
of the CPU, which have settings of their own. (A reader that fails leaves the text where it was; the
setters of the common options accept every value.) -/
def setOption {σ τ : Type} (r : Readers) (common : List (Entry σ)) (own : List (Entry τ))
    (name : List Char) (s : Scan) (st : σ × τ) : Err × (σ × τ) :=
  match setIn r common name s st.1 with
  | (.OK, st') => (.OK, (st', st.2))
  | (_, st') =>
    match setIn r own name s st.2 with
    | (e, own') => (e, (st', own'))

/-! ### The disassembler -/

/-- The readers of src/option_base.cpp. -/
def plainReaders : Readers := ⟨parseBoolOption, parseIntOption⟩

/-- src/dis_base.cpp:40-57 the common options and their setters, src/dis_base.cpp:81-117. `sym` is the
location symbol of the CPU. -/
def disOptions (sym : Char) : List (Entry Cpu.Opts) := [
  ⟨"upper-hex", .bool fun v o => .ok { o with upperHex := v }⟩,
  ⟨"upper-case", .bool fun v o => .ok { o with upper := v }⟩,
  ⟨"list-radix", .int fun v o => .ok { o with octal := decide (v = 8) }⟩,
  ⟨"relative", .bool fun v o => .ok { o with relative := v }⟩,
  ⟨"c-style", .bool fun v o => .ok { o with cstyle := v, intelHex := if v && o.intelHex then false else o.intelHex }⟩,
  ⟨"intel-hex", .bool fun v o => .ok { o with intelHex := v, cstyle := if v && o.cstyle then false else o.cstyle }⟩,
  ⟨"origin-char", .char fun v o => .ok { o with curSym := if v ≠ '\x00' then v else sym }⟩]

/-- src/dis_base.cpp:127-132 `Disassembler::setOption` of a CPU with the options `own`. -/
def disSetOption {τ : Type} (sym : Char) (own : List (Entry τ)) (name : List Char) (s : Scan)
    (st : Cpu.Opts × τ) : Err × (Cpu.Opts × τ) :=
  setOption plainReaders (disOptions sym) own name s st

/-! ### The assembler -/

/-- src/asm_base.cpp:423-434 `Assembler::parseIntOption`. `eval` is `parseInteger`: the error, the
value as `getSigned` gives it and the text after it. -/
def asmParseInt (eval : Scan → Err × Int × Scan) (s : Scan) : Parsed Int :=
  let d := dquote s
  match eval d.2 with
  | (.OK, v, p) => (closing d.1 .ILLEGAL_CONSTANT p).map ((v, ·))
  | (e, _, _) => .error e

/-- src/asm_base.cpp:413-421 `Assembler::parseBoolOption`. -/
def asmParseBool (eval : Scan → Err × Int × Scan) (s : Scan) : Parsed Bool :=
  match parseBoolOption s with
  | .ok r => .ok r
  | .error _ =>
    match asmParseInt eval s with
    | .error e => .error e
    | .ok (v, p) => .ok (decide (v ≠ 0), p)

/-- src/asm_base.h:92-97 the settings of the common options. -/
structure AsmOpts where
  octal : Bool
  smart : Bool
deriving DecidableEq

/-- src/asm_base.cpp:45-76 the common options and their setters. -/
def asmOptions : List (Entry AsmOpts) := [
  ⟨"list-radix", .int fun v o => .ok { o with octal := decide (v = 8) }⟩,
  ⟨"smart-branch", .bool fun v o => .ok { o with smart := v }⟩]

/-- src/asm_base.cpp:148-157 `Assembler::setOption`. -/
def asmSetOption {τ : Type} (eval : Scan → Err × Int × Scan) (own : List (Entry τ))
    (name : List Char) (s : Scan) (st : AsmOpts × τ) : Err × (AsmOpts × τ) :=
  setOption ⟨asmParseBool eval, asmParseInt eval⟩ asmOptions own name s st

/-- src/asm_base.cpp:159-174 the operands of the directive `option`: the name, perhaps in double quotes,
a comma and the value. The text after the value is not modelled. -/
def optionDirective {τ : Type} (eval : Scan → Err × Int × Scan) (own : List (Entry τ)) (s : Scan)
    (st : AsmOpts × τ) : Err × (AsmOpts × τ) :=
  let d := dquote (skipSpaces s)
  let name := d.2.takeWhile fun c => isAlnum c || c == '-'
  match closing d.1 .MISSING_CLOSING_DQUOTE (d.2.dropWhile fun c => isAlnum c || c == '-') with
  | .error e => (e, st)
  | .ok p =>
    match expect ',' (skipSpaces p) with
    | none => (.MISSING_COMMA, st)
    | some p => asmSetOption eval own name (skipSpaces p) st

end Libasm.Options
