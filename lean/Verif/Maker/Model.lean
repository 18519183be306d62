import Verif.Cpu.Mc6800.Model
/-
The lexers of assemblers whose instructions are not modelled: numbers, letters, symbols, comments
and operators of Texas Instruments, Signetics, Zilog, Fairchild and Panasonic, and of the Z80, i8086,
MC68000 and TMS32010.
-/
namespace Libasm.Maker
open Scan Number Ctype Eval Cpu

/-- src/parsers.cpp:40-42 `to_digit` -/
def toDigit (c : Char) : Nat := if isDigit c then c.toNat - 48 else (toUpper c).toNat - 65 + 10

/-- src/parsers.cpp:451-488 `ZilogLetterParser::readLetter` with the delimiter `'`: error, letter
and the text after it. -/
def zilogRead : Scan → Err × Nat × Scan
  | [] => (.OK, 0, [])
  | c :: p =>
    if c = '%' then
      if isXdigit (at' p 0) && isXdigit (at' p 1) then
        (.OK, toDigit (at' p 0) * 16 + toDigit (at' p 1), p.drop 2)
      else
        match toUpper (deref p) with
        | 'L' => (.OK, 0x0A, p.drop 1)
        | 'T' => (.OK, 0x09, p.drop 1)
        | 'R' => (.OK, 0x0D, p.drop 1)
        | 'P' => (.OK, 0x0C, p.drop 1)
        | '%' => (.OK, 0x25, p.drop 1)
        | 'Q' => (.OK, 0x27, p.drop 1)
        | _ => (.UNKNOWN_ESCAPE_SEQUENCE, (deref p).toNat, p.drop 1)
    else if c = '\'' then (.ILLEGAL_CONSTANT, c.toNat, p)
    else (.OK, c.toNat, p)

/-- src/parsers.cpp:339-357 `LetterParser::parseLetter` with `ZilogLetterParser::readLetter` -/
def zilogLetter (s : Scan) : Err × Nat × Scan :=
  match expect '\'' s with
  | none => (.NOT_AN_EXPECTED, 0, s)
  | some p =>
    match zilogRead p with
    | (.OK, c, q) =>
      match expect '\'' q with
      | some rest => (.OK, c, rest)
      | none => (.MISSING_CLOSING_QUOTE, c, s)
    | (e, c, _) => (e, c, s)

/-- src/parsers.cpp:339-357, src/letter_parser.h:136-139 `SigneticsLetterParser`: the default letter
after an `A`. -/
def signeticsLetter (s : Scan) : Err × Nat × Scan :=
  match iexpect 'A' s with
  | none => (.NOT_AN_EXPECTED, 0, s)
  | some p =>
    match defaultLetter p with
    | (.OK, c, rest) => (.OK, c, rest)
    | (e, c, _) => (e, c, s)

/-- src/value_parser.cpp:26-51: the default symbols, letters and comments. -/
def plain (number : Parser) (operators : OpStyle) : Lexer where
  number := number
  operators := operators
  letter := defaultLetter
  location := locationSymbol Eval.symbolLetter '$'
  symbolLetter := Eval.symbolLetter
  functionLetter := Eval.symbolLetter false
  endOfLine := semicolonEnd

/-- src/value_parser.cpp:58-73 the Intel plugins, src/symbol_parser.h:78-80: names with `_` and `?`. -/
def intel : Lexer :=
  { plain .intel .intel with
    location := locationSymbol (prefixSymbol none (some ['_', '?'])) '$'
    symbolLetter := prefixSymbol none (some ['_', '?'])
    functionLetter := prefixSymbol none (some ['_', '?']) false }

/-- src/asm_z80.cpp:47-54: the Intel plugins with the operators of Zilog. -/
def z80 : Lexer := { intel with operators := .zilog }

/-- src/value_parser.cpp:100-115 the Texas Instruments plugins, of the TMS9900 and TMS7000. -/
def texas : Lexer := { plain .texas .texas with endOfLine := Mc6800.starEnd }

/-- src/asm_scn2650.cpp:47-57 -/
def signetics : Lexer :=
  { plain .signetics .signetics with letter := signeticsLetter, endOfLine := Mc6800.starEnd }

/-- src/value_parser.cpp:117-127 the Zilog plugins, with a symbol parser. -/
def zilog (symbol : Bool → Char → Bool) : Lexer :=
  { plain .zilog .zilog with
    letter := zilogLetter, location := locationSymbol symbol '$', symbolLetter := symbol
    functionLetter := symbol false }

/-- src/asm_z8.cpp:51-56, src/symbol_parser.h:162-164 -/
def z8 : Lexer := zilog (simpleSymbol ['_', '.', '$', '?'])

/-- src/asm_z8000.cpp:50-55, src/symbol_parser.h:166-168 -/
def z8000 : Lexer := zilog (prefixSymbol none (some ['_']))

/-- src/asm_mc68000.cpp:70-79: the Motorola plugins with the letters and operators of C. -/
def mc68000 : Lexer :=
  { Mc6800.lexer with letter := defaultLetter, operators := .c }

/-- src/parsers.cpp:339-357, src/letter_parser.h:96-115 `IbmLetterParser`: an optional `C` before the
letter. -/
def ibmLetter (s : Scan) : Err × Nat × Scan :=
  match iexpect 'C' s with
  | some p =>
    match defaultLetter p with
    | (.OK, c, rest) => (.OK, c, rest)
    | (e, c, _) => (e, c, s)
  | none => defaultLetter s

/-- src/parsers.cpp:359-376 `LetterParser::readLetter` with the delimiter `'`. -/
def readLetter (s : Scan) : Err × Nat × Scan :=
  match expect '\'' s with
  | some p =>
    match expect '\'' p with
    | some p => (.OK, 39, p)
    | none => (.MISSING_CLOSING_QUOTE, 0, s)
  | none =>
    match s with
    | [] => (.ILLEGAL_CONSTANT, 0, s)
    | c :: p => if c = '\x00' then (.ILLEGAL_CONSTANT, 0, s) else (.OK, c.toNat, p)

/-- src/parsers.cpp:490-515 `FairchildLetterParser::parseLetter` -/
def fairchildLetter (s : Scan) : Err × Nat × Scan :=
  match iexpect 'C' s with
  | some p =>
    match defaultLetter p with
    | (.OK, c, rest) => (.OK, c, rest)
    | (e, c, _) => (e, c, s)
  | none =>
    match expect '#' s with
    | some [] => (.NOT_AN_EXPECTED, 0, s)
    | some (c :: p) => if c = '\x00' then (.NOT_AN_EXPECTED, 0, s) else (.OK, c.toNat, p)
    | none =>
      match expect '\'' s with
      | none => (.NOT_AN_EXPECTED, 0, s)
      | some p =>
        match readLetter p with
        | (.OK, c, q) => (.OK, c, (expect '\'' q).getD q)
        | (e, c, _) => (e, c, s)

/-- src/asm_f3850.cpp:45-53, src/parsers.cpp:286-289 -/
def f3850 : Lexer :=
  { plain .fairchild .c with
    letter := fairchildLetter, endOfLine := Mc6800.starEnd
    location := fun s =>
      match locationSymbol Eval.symbolLetter '*' s with
      | some p => some p
      | none =>
        match locationSymbol Eval.symbolLetter '$' s with
        | some p => some p
        | none => locationSymbol Eval.symbolLetter '.' s }

/-- src/asm_mn1610.cpp:43-51, src/symbol_parser.h:105-109 -/
def mn1610 : Lexer :=
  { plain .panasonic .c with
    letter := ibmLetter, location := locationSymbol Eval.symbolLetter '*', endOfLine := Mc6800.starEnd }

/-- src/asm_tms32010.cpp:46-54, src/symbol_parser.h:157-160, src/comment_parser.h:77-82,
src/letter_parser.h:153-155 -/
def tms32010 : Lexer :=
  { plain .intel .c with
    location := locationSymbol (simpleSymbol ['_', '$']) '$'
    symbolLetter := simpleSymbol ['_', '$']
    functionLetter := simpleSymbol ['_', '$'] false }

/-- src/asm_i8086.cpp:54-65: the Intel plugins with other names. -/
def i8086 : Lexer :=
  { intel with
    location := locationSymbol (simpleSymbol ['_', '@', '?']) '$'
    symbolLetter := simpleSymbol ['_', '@', '?']
    functionLetter := simpleSymbol ['_', '@', '?'] false }

end Libasm.Maker
