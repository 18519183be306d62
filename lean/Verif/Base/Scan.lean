import Verif.Base.Ctype
/-
Model of src/str_scanner.h and src/str_scanner.cpp.  A `StrScanner` is the list of the characters
between `_str` and `_end`.  The text is a C string, so it holds no NUL; `*scan` past the end is
NUL.  `iexpectText_P` of the code does not look at `_end`; it agrees with the model when the
scanner reaches to the end of the underlying C string, which is the case for every scanner
modelled here.
-/
namespace Libasm

/-- A `StrScanner`: the remaining text. -/
abbrev Scan := List Char

namespace Scan
open Ctype

/-- src/str_scanner.h:54 `operator*` -/
def deref (s : Scan) : Char := s.headD '\x00'

/-- src/str_scanner.h:57 `operator[]` -/
def at' (s : Scan) (i : Nat) : Char := s.getD i '\x00'

/-- src/str_scanner.h:89-94 `trimStart` -/
def trimStart (p : Char → Bool) (s : Scan) : Scan := s.dropWhile p

/-- src/str_scanner.h:119 `skipSpaces` -/
def skipSpaces (s : Scan) : Scan := trimStart isSpace s

/-- src/str_scanner.h:122-130 `expect(predicate)`: the text after the character, if it is there. -/
def expectP (p : Char → Bool) : Scan → Option Scan
  | [] => none
  | c :: t => if p c then some t else none

/-- src/str_scanner.h:133-135 `expect(char)` -/
def expect (c : Char) (s : Scan) : Option Scan := expectP (fun d => d == c) s

/-- src/str_scanner.h:138-140 `iexpect(char)` -/
def iexpect (c : Char) (s : Scan) : Option Scan := expectP (fun d => toUpper d == toUpper c) s

/-- src/str_scanner.cpp `iexpectText_P`: every character of `text` in turn, ignoring case. -/
def iexpectText : List Char → Scan → Option Scan
  | [], s => some s
  | c :: t, s => (iexpect c s).bind (iexpectText t)

end Scan
end Libasm
