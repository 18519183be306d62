import Verif.Eval.Operators
/-
Model of `ValueParser::parseConstant`, `readSymbol`, `readFunctionName`
(src/value_parser.cpp:344-472) and of the default plugins: C style numbers and operators, letters
in single quotes, alphanumeric symbols, `;` comments (src/value_parser.cpp:26-51).

Reading a floating point number (`float80_t::read`) is not modelled: it is a parameter `float`
of the constants, so what is proved holds whatever it does.
-/
namespace Libasm.Eval
open Scan Number Ctype

/-- src/str_scanner.cpp:45-51 `iexpectWord_P` -/
def iexpectWord (w : List Char) (s : Scan) : Option Scan :=
  match iexpectText w s with
  | some p => if isAlnum (deref p) || deref p == '_' then none else some p
  | none => none

/-- src/value_parser.cpp:358-364: an exponent part, if there is one. -/
def exponent (p : Scan) : Option Scan :=
  match iexpect 'E' p with
  | some q =>
    let q := match expect '-' q with
      | some q => q
      | none => (expect '+' q).getD q
    match expectP isDigit q with
    | some q => some (trimStart isDigit q)
    | none => none
  | none => none

/-- src/value_parser.cpp:346-374 `isFloatNumber`, with the error code of the integer parser. -/
def isFloatNumber (delim : Char) (p : Scan) (err : Err) : Bool :=
  match err with
  | .OVERFLOW_RANGE => true
  | .OK =>
    match (expect '.' p).bind (fun q => if delim ≠ '.' then expectP isDigit q else none) with
    | some _ => true
    | none => (exponent p).isSome
  | .NOT_AN_EXPECTED =>
    (iexpectWord ['I', 'N', 'F'] p).isSome ||
    (iexpectWord ['I', 'N', 'F', 'I', 'N', 'I', 'T', 'Y'] p).isSome ||
    (iexpectWord ['N', 'A', 'N'] p).isSome
  | _ => false

/-- src/value_parser.cpp:377-419 `parseConstant`.  `letter` is `_letter.parseLetter`, `number`
is `_number.parseNumber`, `float` is lines 397-404: what is read where `isFloatNumber` holds,
`none` if nothing is.  Simplified: when `isFloatNumber` holds and nothing is read the code goes on
at line 406 with the end of the word INF or NAN as the position an error would leave behind. -/
def constant (letter : Scan → Err × Nat × Scan) (number : Scan → Radix → Err × Value × Scan)
    (location : Scan → Option Scan) (float : Scan → Option (Err × Value × Scan))
    (delim : Char) (currentLocation : Nat) (s : Scan) (radix : Radix) : Err × Value × Scan :=
  match letter s with
  | (.OK, c, p) => (.OK, Value.setUnsigned c, p)
  | (.NOT_AN_EXPECTED, _, _) =>
    let (err, val, p) := number s radix
    match (if isFloatNumber delim p err then float s else none) with
    | some r => r
    | none =>
      if err ≠ .NOT_AN_EXPECTED then (err, val, p)
      else
        match location s with
        | some p => (.OK, Value.setUnsigned currentLocation, p)
        | none => (.NOT_AN_EXPECTED, val, s)
  | (e, _, _) => (e, Value.undefined, s)

/-- src/parsers.cpp:339-376 `LetterParser::parseLetter`, with `readLetter`, of the default letter
parser: a character in single quotes, a single quote as two. -/
def defaultLetter (s : Scan) : Err × Nat × Scan :=
  match expect '\'' s with
  | none => (.NOT_AN_EXPECTED, 0, s)
  | some p =>
    match expect '\'' p with
    | some q =>
      match expect '\'' q with
      | some q =>
        match expect '\'' q with
        | some rest => (.OK, 39, rest)
        | none => (.MISSING_CLOSING_QUOTE, 39, s)
      | none => (.MISSING_CLOSING_QUOTE, 0, s)
    | none =>
      match p with
      | [] => (.ILLEGAL_CONSTANT, 0, s)
      | c :: q =>
        match expect '\'' q with
        | some rest => (.OK, c.toNat, rest)
        | none => (.MISSING_CLOSING_QUOTE, c.toNat, s)

/-- src/parsers.cpp:251-253 `SymbolParser::symbolLetter` -/
def symbolLetter (head : Bool) (c : Char) : Bool :=
  isAlpha c || (!head && isDigit c) || c == '_'

/-- src/parsers.cpp:255-262 `SymbolParser::locationSymbol` with `$` -/
def defaultLocation (s : Scan) : Option Scan :=
  match expect '$' s with
  | some p => if symbolLetter false (deref p) then none else some p
  | none => none

/-- src/value_parser.cpp:421-430,463-472 `readSymbol`, `readFunctionName` with the letters of the
default symbol parser: name and remaining text. -/
def defaultSymbol (s : Scan) : Option (List Char × Scan) :=
  match s with
  | [] => none
  | c :: t =>
    if symbolLetter true c then
      some (c :: t.takeWhile (symbolLetter false), t.dropWhile (symbolLetter false))
    else none

/-- src/parsers.cpp:563-565 `SemicolonCommentParser::endOfLine` -/
def semicolonEnd (s : Scan) : Bool := deref s == '\x00' || deref s == ';'

/-- src/value_parser.cpp:26-51: the default symbol, letter, comment and function plugins with the
number and operator parser of a CPU, and with the symbol table, the function table, the delimiter
and the current location of a `ParserContext`. -/
def stylePlugins (number : Parser) (style : OpStyle)
    (float : Scan → Option (Err × Value × Scan))
    (symbols : List Char → Option Value)
    (functions : List Char → Option (Int × (List Value → Out (Except Err Value))))
    (delim : Char) (currentLocation : Nat) : Plugins Value :=
  { undef := Value.undefined, toRadix := toRadix, ops := style.parser
    endOfLine := semicolonEnd
    parseConstant :=
      constant defaultLetter number.parse defaultLocation float delim currentLocation
    readFunctionName := defaultSymbol, readSymbol := defaultSymbol
    lookupFunction := functions, lookupSymbol := symbols, delimitor := delim }

/-- src/value_parser.cpp:26-51: all plugins the default ones. -/
def defaultPlugins (float : Scan → Option (Err × Value × Scan))
    (symbols : List Char → Option Value)
    (functions : List Char → Option (Int × (List Value → Out (Except Err Value))))
    (delim : Char) (currentLocation : Nat) : Plugins Value :=
  stylePlugins .cstyle .c float symbols functions delim currentLocation

end Libasm.Eval
