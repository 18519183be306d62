import Verif.Base.Error
import Verif.Base.Scan
import Verif.Value.Model
/-
Model of number reading and formatting: src/value.cpp:26-71, src/parsers.cpp:32-249 with
src/number_parser.h, and src/formatters.cpp, src/formatters.h, src/value_formatter.cpp:124-161.
The output buffer of the formatters is an unbounded list of characters here (the bounded buffer
is modelled in Verif/StrBuffer).
-/
namespace Libasm.Number
open Ctype Scan

/-- src/value.h `Radix` without RADIX_NONE (a `none` of `Option Radix`). -/
inductive Radix | r2 | r8 | r10 | r16
deriving DecidableEq, Repr

/-- `uint8_t(radix)` -/
def Radix.toNat : Radix → Nat
  | .r2 => 2 | .r8 => 8 | .r10 => 10 | .r16 => 16

/-- src/value.cpp:26-30 `isValidDigit`, the same text as `is_digit`, src/parsers.cpp:44-48. -/
def isDigitOf (r : Radix) (c : Char) : Bool :=
  match r with
  | .r16 => isXdigit c
  | r => decide (48 ≤ c.toNat) && decide (c.toNat < 48 + r.toNat)

/-- src/value.cpp:32-36 `toNumber`.  The result is a uint8_t. -/
def toNumber (r : Radix) (c : Char) : Nat :=
  if r = .r16 ∧ 65 ≤ c.toNat then (c.toNat &&& 0xDF) - 65 + 10 else c.toNat - 48

/-- src/value.cpp:47-54: the loop of `strToNumber`; `ovf` is `error == OVERFLOW_RANGE`. -/
def strLoop (r : Radix) : Scan → Nat → Bool → Nat × Bool × Scan
  | [], v, ovf => (v, ovf, [])
  | c :: t, v, ovf =>
    if isDigitOf r c then
      let n := toNumber r c
      let limit := (Value.M - 1) / r.toNat
      let limitDigit := (Value.M - 1) % r.toNat
      let ovf := if v > limit ∨ (v = limit ∧ n > limitDigit) then true else ovf
      strLoop r t ((v * r.toNat % Value.M + n) % Value.M) ovf
    else (v, ovf, c :: t)

/-- src/value.cpp:38-71 `strToNumber` and `Value::read`: error, value, remaining text. -/
def read (r : Radix) (s : Scan) : Err × Value × Scan :=
  if isDigitOf r (deref s) then
    let (v, ovf, rest) := strLoop r s 0 false
    if ovf then (.OVERFLOW_RANGE, Value.undefined, rest) else (.OK, ⟨v, .unsigned⟩, rest)
  else (.NOT_AN_EXPECTED, Value.undefined, s)

/-- src/parsers.cpp:32-34 -/
def isOctal (c : Char) : Bool := decide (48 ≤ c.toNat) && decide (c.toNat < 56)
/-- src/parsers.cpp:36-38 -/
def isBinary (c : Char) : Bool := c == '0' || c == '1'

/-- src/parsers.cpp:54-57: "0b" followed by a binary digit. -/
def cBinary (s : Scan) : Bool :=
  match expect '0' s with
  | none => false
  | some p => match iexpect 'B' p with
    | none => false
    | some p => isBinary (deref p)

/-- src/parsers.cpp:52-75 `scanNumberEnd`: the text after the number, if there is one.  A `suffix`
of 0 is `none`. -/
def scanNumberEnd (s : Scan) (r : Radix) (suffix : Option Char) : Option Scan :=
  if r = .r2 ∧ suffix = some 'B' ∧ cBinary s = true then none
  else if isDigitOf r (deref s) then
    if r = .r16 ∧ isDigitOf .r10 (deref s) = false then none
    else
      let p := trimStart (isDigitOf r) s
      match suffix with
      | none => if isAlnum (deref p) then none else some p
      | some c => iexpect c p
  else none

/-- src/parsers.cpp:77-87 `CStyleNumberParser::hasPrefix`: radix and text after the prefix. -/
def cstylePrefix (s : Scan) (dflt : Radix) : Option (Radix × Scan) :=
  match iexpectText ['0', 'x'] s with
  | some p => some (.r16, p)
  | none => match iexpectText ['0', 'b'] s with
    | some p => some (.r2, p)
    | none =>
      if deref s = '0' ∧ isOctal (at' s 1) = true then some (.r8, s)
      else if isDigitOf dflt (deref s) then some (dflt, s) else none

/-- `error != NOT_AN_EXPECTED ? p : scan` of every parser. -/
def advance (s : Scan) (x : Err × Value × Scan) : Err × Value × Scan :=
  if x.1 = .NOT_AN_EXPECTED then (x.1, x.2.1, s) else x

/-- The result of a parser that sees no number: value and text are left as they are.  (The
caller's value is always undefined before the call, src/value_parser.cpp:377-419.) -/
def notNumber (s : Scan) : Err × Value × Scan := (.NOT_AN_EXPECTED, Value.undefined, s)

/-- src/parsers.cpp:89-99 `CStyleNumberParser::parseNumber` -/
def cstyleParse (s : Scan) (dflt : Radix) : Err × Value × Scan :=
  match cstylePrefix s dflt with
  | none => notNumber s
  | some (r, p) => advance s (read r p)

/-- src/parsers.cpp:101-111 `IntelNumberParser::hasSuffix`: radix and text after the suffix. -/
def intelSuffix (s : Scan) : Option (Radix × Scan) :=
  match scanNumberEnd s .r16 (some 'H') with
  | some e => some (.r16, e)
  | none => match scanNumberEnd s .r8 (some 'O') with
    | some e => some (.r8, e)
    | none => match scanNumberEnd s .r8 (some 'Q') with
      | some e => some (.r8, e)
      | none => match scanNumberEnd s .r2 (some 'B') with
        | some e => some (.r2, e)
        | none => match scanNumberEnd s .r10 (some 'D') with
          | some e => some (.r10, e)
          | none => none

/-- src/parsers.cpp:121-127 `IntelNumberParser::parseNumber` up to a known end. -/
def intelRead (s : Scan) (r : Radix) (e : Scan) : Err × Value × Scan :=
  let x := read r s
  if x.1 = .NOT_AN_EXPECTED then x else (x.1, x.2.1, e)

/-- src/parsers.cpp:113-119 `IntelNumberParser::parseNumber` -/
def intelParse (s : Scan) (dflt : Radix) : Err × Value × Scan :=
  match intelSuffix s with
  | none => cstyleParse s dflt
  | some (r, e) => intelRead s r e

/-- src/number_parser.h:57-61: the prefix letters; 0 is `none`. -/
structure Prefixes where
  hex : Option Char
  bin : Option Char
  oct : Option Char
  dec : Option Char
deriving Repr

/-- `_hex && scan.iexpect(_hex)` -/
def optExpect (c : Option Char) (s : Scan) : Option Scan := c.bind (iexpect · s)

/-- src/parsers.cpp:129-139 `PrefixNumberParser::hasPrefix` -/
def prefixRadix (k : Prefixes) (s : Scan) : Option (Radix × Scan) :=
  match optExpect k.hex s with
  | some p => some (.r16, p)
  | none => match optExpect k.bin s with
    | some p => some (.r2, p)
    | none => match optExpect k.oct s with
      | some p => some (.r8, p)
      | none => match optExpect k.dec s with
        | some p => some (.r10, p)
        | none => none

/-- src/parsers.cpp:141-150 `PrefixNumberParser::parseNumber` -/
def prefixParse (k : Prefixes) (s : Scan) (dflt : Radix) : Err × Value × Scan :=
  match prefixRadix k s with
  | none => intelParse s dflt
  | some (r, p) => advance s (read r p)

/-- src/parsers.cpp:152-160 `ZilogNumberParser::hasPrefix` -/
def zilogPrefix (s : Scan) : Option (Radix × Scan) :=
  match iexpectText ['%', '(', '8', ')'] s with
  | some p => some (.r8, p)
  | none => match iexpectText ['%', '(', '2', ')'] s with
    | some p => some (.r2, p)
    | none => match expect '%' s with
      | some p => if isXdigit (deref p) then some (.r16, p) else none
      | none => none

/-- src/parsers.cpp:162-172 `ZilogNumberParser::parseNumber` -/
def zilogParse (s : Scan) (dflt : Radix) : Err × Value × Scan :=
  match zilogPrefix s with
  | none => intelParse s dflt
  | some (r, p) => advance s (read r p)

/-- src/parsers.cpp:174-189 `IbmNumberParser::parseNumber` -/
def ibmParse (k : Prefixes) (s : Scan) (dflt : Radix) : Err × Value × Scan :=
  match prefixRadix k s with
  | none => intelParse s dflt
  | some (r, p) => match expect '\'' p with
    | none => notNumber s
    | some p =>
      if isDigitOf r (deref p) then
        let x := read r p
        match expect '\'' x.2.2 with
        | some p => (x.1, x.2.1, p)
        | none => (.MISSING_CLOSING_QUOTE, x.2.1, s)
      else notNumber s

/-- src/parsers.cpp:191-200 `RcaNumberParser::parseNumber` -/
def rcaParse (s : Scan) (dflt : Radix) : Err × Value × Scan :=
  if deref s = '#' ∧ isXdigit (at' s 1) = true then
    let x := read .r16 (s.drop 1)
    if x.1 = .OK then x else (x.1, x.2.1, s)
  else ibmParse ⟨some 'X', some 'B', none, some 'D'⟩ s dflt

/-- src/parsers.cpp:202-208 `NationalNumberParser::hasPrefix` -/
def nationalPrefix (k : Prefixes) (s : Scan) : Option (Radix × Scan) :=
  match (if k.hex = none then (iexpect 'X' s).or (iexpect 'H' s) else none) with
  | some p => some (.r16, p)
  | none => match (if k.oct = some 'Q' then iexpect 'O' s else none) with
    | some p => some (.r8, p)
    | none => prefixRadix k s

/-- src/parsers.cpp:210-224 `NationalNumberParser::parseNumber` -/
def nationalParse (k : Prefixes) (s : Scan) (dflt : Radix) : Err × Value × Scan :=
  match nationalPrefix k s with
  | none => intelParse s dflt
  | some (r, p) => match expect '\'' p with
    | none => notNumber s
    | some p =>
      if isDigitOf r (deref p) then
        let x := read r p
        advance s (x.1, x.2.1, (expect '\'' x.2.2).getD x.2.2)
      else notNumber s

/-- src/parsers.cpp:226-235 `FairchildNumberParser::parseNumber` -/
def fairchildParse (s : Scan) (dflt : Radix) : Err × Value × Scan :=
  if deref s = '$' ∧ isXdigit (at' s 1) = true then advance s (read .r16 (s.drop 1))
  else ibmParse ⟨some 'H', some 'B', some 'O', some 'D'⟩ s dflt

/-- src/parsers.cpp:237-249 `Pdp11NumberParser::parseNumber`.  The characters after `"` are ASCII;
`setUnsigned(uint32_t)`. -/
def pdp11Parse (s : Scan) (dflt : Radix) : Err × Value × Scan :=
  match s with
  | '"' :: a :: b :: t => (.OK, ⟨b.toNat * 256 + a.toNat, .unsigned⟩, t)
  | _ =>
    match scanNumberEnd s .r10 (some '.') with
    | some e => if isDigit (deref e) then intelParse s dflt else intelRead s .r10 e
    | none => intelParse s dflt

/-! ### The concrete parsers of src/number_parser.h -/

/-- src/number_parser.h:26-190: the number parser classes. -/
inductive Parser
  | cstyle | intel | motorola | zilog | texas | rca | fairchild | panasonic | signetics
  | ins80xx | ns32000 | pdp11
deriving DecidableEq, Repr

/-- The virtual function `parseNumber` of each class, with the constructor arguments of
src/number_parser.h:101-186. -/
def Parser.parse : Parser → Scan → Radix → Err × Value × Scan
  | .cstyle => cstyleParse
  | .intel => intelParse
  | .motorola => prefixParse ⟨some '$', some '%', some '@', some '&'⟩
  | .zilog => zilogParse
  | .texas => prefixParse ⟨some '>', some '?', none, none⟩
  | .rca => rcaParse
  | .fairchild => fairchildParse
  | .panasonic => ibmParse ⟨some 'X', none, none, none⟩
  | .signetics => ibmParse ⟨some 'H', some 'B', some 'O', some 'D'⟩
  | .ins80xx => nationalParse ⟨some 'X', none, none, none⟩
  | .ns32000 => nationalParse ⟨none, some 'B', some 'Q', some 'D'⟩
  | .pdp11 => pdp11Parse

/-! ### Formatters -/

/-- `out.letter(c)` of a `StrCaseBuffer`, src/str_buffer.h:179-195. -/
def letter (upper : Bool) (c : Char) : Char := if upper then toUpper c else toLower c

/-- src/formatters.cpp:78-82 (and 29-30, 46-47, 64-65): the character of a digit. -/
def digitChar (d : Nat) : Char := if d < 10 then Char.ofNat (d + 48) else Char.ofNat (d - 10 + 97)

/-- The loops `while (val) { letter(val % base); val /= base; }` of src/formatters.cpp:28-32, 45-49,
63-67, 77-84: digits from the least significant one.  `val` is a uint32_t, so the loop runs at most
32 times: that is the `fuel`. -/
def revDigits (base : Nat) : Nat → Nat → List Char
  | 0, _ => []
  | fuel + 1, v => if v = 0 then [] else digitChar (v % base) :: revDigits base fuel (v / base)

/-- "zero filling" of src/formatters.cpp:50-52, 68-71, 85-88. -/
def zeroFill (n : Nat) (ds : List Char) : List Char := ds ++ List.replicate (n - ds.length) '0'

/-- src/formatters.cpp:26-36 `outDec` -/
def outDec (v : Nat) : List Char := if v = 0 then ['0'] else revDigits 10 32 v
/-- src/formatters.cpp:43-54 `outBin` -/
def outBin (v width : Nat) : List Char := zeroFill width (revDigits 2 32 v)
/-- src/formatters.cpp:61-73 `outOct` -/
def outOct (v width : Nat) : List Char :=
  zeroFill (width / 3 + (if width % 3 ≠ 0 then 1 else 0)) (revDigits 8 32 v)
/-- src/formatters.cpp:75-90 `outHex` -/
def outHex (v width : Nat) : List Char :=
  zeroFill (width / 4 + (if width % 4 ≠ 0 then 1 else 0)) (revDigits 16 32 v)

/-- src/formatters.cpp:21-24 `DecFormatter::format` -/
def fmtDec (up : Bool) (v : Nat) : List Char := ((outDec v).map (letter up)).reverse
/-- src/formatters.cpp:38-41 `BinFormatter::format` -/
def fmtBin (up : Bool) (v w : Nat) : List Char := ((outBin v w).map (letter up)).reverse
/-- src/formatters.cpp:56-59 `OctFormatter::format` -/
def fmtOct (up : Bool) (v w : Nat) : List Char := ((outOct v w).map (letter up)).reverse
/-- src/formatters.cpp:92-95 `HexFormatter::format` -/
def fmtHex (up : Bool) (v w : Nat) : List Char := ((outHex v w).map (letter up)).reverse
/-- src/formatters.cpp:97-103 `SuffixHexFormatter::format`: `top[-1]` is the last digit written.
(With no digit at all, `val == 0 && bits == 0`, the code reads the character before; the model
then adds no '0'.) -/
def fmtSuffixHex (suffix : Char) (up : Bool) (v w : Nat) : List Char :=
  let ds := (outHex v w).map (letter up)
  let ds := if 57 < (ds.getLastD '0').toNat then ds ++ [letter up '0'] else ds
  ds.reverse ++ [letter up suffix]

/-- src/value_formatter.h: the four formatters of a style.  src/value_formatter.cpp:25-122 and the
CPU files name them; the text of each is that of src/formatters.h:258-359. -/
inductive Style
  | plain | cstyle | intel | motorola | fairchild | national | texas | zilog
  /-- src/dis_cdp1802.cpp, src/dis_mn1610.cpp: hexadecimal is X'..' -/
  | surroundX
  /-- src/dis_scn2650.cpp: hexadecimal is H'..' -/
  | surroundH
  /-- src/dis_mos6502.cpp: hexadecimal is $.. -/
  | prefixDollar
  /-- src/dis_tms32010.cpp: hexadecimal is ..h -/
  | suffixh
deriving DecidableEq, Repr

/-- The prefix is written with `text_P`, that is with `letter`. -/
def pre (up : Bool) (p : List Char) : List Char := p.map (letter up)

/-- `bin()` of each style: src/value_formatter.cpp:30-33 and the overrides. -/
def Style.bin : Style → Bool → Nat → Nat → List Char
  | .cstyle, up, v, w => ['0', 'b'] ++ fmtBin up v w
  | .intel, up, v, w => fmtBin up v w ++ [letter up 'B']
  | .motorola, up, v, w => pre up ['%'] ++ fmtBin up v w
  | .fairchild, up, v, w => pre up ['b', '\''] ++ fmtBin up v w ++ [letter up '\'']
  | .national, up, v, w => pre up ['b', '\''] ++ fmtBin up v w
  | .texas, up, v, w => pre up ['?'] ++ fmtBin up v w
  | .zilog, up, v, w => pre up ['%', '(', '2', ')'] ++ fmtBin up v w
  | _, up, v, w => fmtBin up v w

/-- `oct()` of each style: src/value_formatter.cpp:35-38 and the overrides. -/
def Style.oct : Style → Bool → Nat → Nat → List Char
  | .cstyle, up, v, w => pre up ['0'] ++ fmtOct up v w
  | .intel, up, v, w => fmtOct up v w ++ [letter up 'Q']
  | .motorola, up, v, w => pre up ['@'] ++ fmtOct up v w
  | .fairchild, up, v, w => pre up ['o', '\''] ++ fmtOct up v w ++ [letter up '\'']
  | .national, up, v, w => pre up ['o', '\''] ++ fmtOct up v w
  | .zilog, up, v, w => pre up ['%', '(', '8', ')'] ++ fmtOct up v w
  | _, up, v, w => fmtOct up v w

/-- `dec()` of each style: src/value_formatter.cpp:25-28; no style overrides it but PDP-11. -/
def Style.dec : Style → Bool → Nat → List Char
  | _, up, v => fmtDec up v

/-- `hex()` of each style: src/value_formatter.cpp:40-43 and the overrides. -/
def Style.hex : Style → Bool → Nat → Nat → List Char
  | .plain, up, v, w => fmtHex up v w
  | .cstyle, up, v, w => ['0', 'x'] ++ fmtHex up v w
  | .intel, up, v, w => fmtSuffixHex 'H' up v w
  | .suffixh, up, v, w => fmtSuffixHex 'h' up v w
  | .motorola, up, v, w => pre up ['$'] ++ fmtHex up v w
  | .prefixDollar, up, v, w => pre up ['$'] ++ fmtHex up v w
  | .fairchild, up, v, w => pre up ['h', '\''] ++ fmtHex up v w ++ [letter up '\'']
  | .surroundH, up, v, w => pre up ['h', '\''] ++ fmtHex up v w ++ [letter up '\'']
  | .surroundX, up, v, w => pre up ['x', '\''] ++ fmtHex up v w ++ [letter up '\'']
  | .national, up, v, w => pre up ['x', '\''] ++ fmtHex up v w
  | .texas, up, v, w => pre up ['>'] ++ fmtHex up v w
  | .zilog, up, v, w => pre up ['%'] ++ fmtHex up v w

/-- src/value_formatter.cpp:140-154 `absolute`, with a 64-bit `unsigned long`: whether the number
is negative, and its magnitude. -/
def absolute (v : Nat) (bits : Int) : Bool × Nat :=
  let bw := bits.natAbs
  let neg := decide (bits < 0) && (v &&& (1 <<< (bw - 1))) != 0
  let v' := if neg then (4294967296 - v) % 4294967296 else v
  (neg, v' &&& ((1 <<< bw) - 1))

/-- src/value_formatter.cpp:124-138, 156-161: formatDec/formatBin/formatOct/formatHex. -/
def formatSigned (fmt : Nat → Nat → List Char) (up : Bool) (v : Nat) (bits : Int) : List Char :=
  let a := absolute v bits
  (if a.1 then [letter up '-'] else []) ++ fmt a.2 bits.natAbs

end Libasm.Number
