import Verif.Number.Model
/-
Model of the listings: driver/list_formatter.cpp, driver/asm_formatter.cpp and the `getLine` of
driver/dis_formatter.cpp.

Text is what is appended to the buffer; the 256 letters of the buffer (driver/asm_driver.cpp:112) are
not modelled, nor is the text of an error line.  The cells of `Insn` behind its bytes are zero
(src/insn_base.cpp:34).
-/
namespace Libasm.Listing

/-- src/config_base.h:48-52 `OpCodeWidth`. -/
inductive Width | w8 | w12 | w16
deriving DecidableEq, Repr

/-- The bits of a width. -/
def Width.bits : Width → Nat
  | .w8 => 8 | .w12 => 12 | .w16 => 16

/-- What a listing depends on: `addressUnit()` in bytes, `opCodeWidth()`, whether `endian()` is
ENDIAN_BIG, whether `_listRadix` is RADIX_16 (otherwise it is RADIX_8: src/asm_base.cpp `setListRadix`
and src/dis_base.cpp:91-94 allow no other), `_upperHex`. -/
structure Style where
  unit : Nat
  width : Width
  big : Bool
  hex : Bool
  upper : Bool
deriving DecidableEq, Repr

/-- `uint8_t(_listRadix)` -/
def Style.base (s : Style) : Nat := if s.hex then 16 else 8

/-- driver/list_formatter.cpp:157-162 `outSpaces` -/
def spaces (n : Int) : List Char := List.replicate n.toNat ' '

/-- driver/list_formatter.cpp:35-43 `calcDigits`; a uint32_t has at most 32 digits. -/
def digitsLoop (base : Nat) : Nat → Nat → Nat
  | 0, _ => 0
  | fuel + 1, v => if v / base = 0 then 1 else 1 + digitsLoop base fuel (v / base)

/-- driver/list_formatter.cpp:35-43 `calcDigits` -/
def calcDigits (v base : Nat) : Nat := digitsLoop base 32 v

/-- driver/list_formatter.cpp:58-66 `calcBits`: the loop at `bits`, where `mask` is 2 to the power of
`bits - 1`. -/
def bitsLoop (v : Nat) : Nat → Nat
  | 0 => 0
  | 1 => 1
  | bits + 2 => if v / 2 ^ (bits + 1) % 2 = 0 then bitsLoop v (bits + 1) else bits + 2

/-- driver/list_formatter.cpp:58-66 `calcBits` -/
def calcBits (v : Nat) : Nat := bitsLoop v 32

/-- driver/list_formatter.cpp:68-70 `calcRadixBits` -/
def Style.radixBits (s : Style) : Nat := calcBits (s.base - 1)

/-- driver/list_formatter.cpp:88-92: leading zeros are skipped, but not the last letter. -/
def skipZeros : List Char → List Char
  | [] => []
  | [c] => [c]
  | c :: d :: cs => if c = '0' then skipZeros (d :: cs) else c :: d :: cs

/-- driver/list_formatter.cpp:72-99 `formatValue`.  The formatter is the plain one
(driver/list_formatter.cpp:25, src/value_formatter.h), octal numerals have no letters. -/
def formatValue (s : Style) (val bits : Nat) (width : Int) (zeroSuppress : Bool) : List Char :=
  let bits := if bits = 0 then calcBits val else bits
  let len := bits / s.radixBits + (if bits % s.radixBits = 0 then 0 else 1)
  let before := if width > 0 then spaces (width - len) else []
  let number := if s.hex then Number.fmtHex s.upper val bits else Number.fmtOct false val bits
  if width < 0 then
    let nonZero := if zeroSuppress then skipZeros number else number
    nonZero ++ spaces (number.length - nonZero.length) ++ spaces (-width - number.length)
  else before ++ number

/-- driver/list_formatter.cpp:101-105 `formatAddress` -/
def formatAddress (s : Style) (addr : Nat) : List Char :=
  formatValue s (addr % 4294967296) 0 8 true ++ [' ', ':']

/-- driver/list_formatter.cpp:115-145: the loop of `formatBytes`.  `offset` is where the line starts,
`addr` that plus the start address, `bytes` the bytes of the instruction; the loop body runs at most
`fuel` times.  The text and the new `len`. -/
def bytesLoop (s : Style) (addr : Nat) (bytes : List Nat) (offset : Nat) :
    Nat → Nat → Nat → List Char × Nat
  | 0, _, len => ([], len)
  | fuel + 1, pos, len =>
    if offset + len < bytes.length ∧ pos < 6 then
      let val := bytes.getD (offset + len) 0
      let len := len + 1
      let digits : Int := calcDigits 0xFFFF s.base
      if s.width = .w16 ∧ s.unit = 1 ∧ pos = 0 ∧ addr % 2 ≠ 0 then
        let cell := formatValue s val 8 (if s.big then digits else -digits) false
        let (text, len) := bytesLoop s addr bytes offset fuel (pos + 1) len
        (' ' :: cell ++ text, len)
      else if s.width = .w16 ∧ s.unit = 1 ∧ offset + len = bytes.length then
        let cell := formatValue s val 8 (if s.big then 0 else digits) false
        let (text, len) := bytesLoop s addr bytes offset fuel (pos + 1) len
        (' ' :: cell ++ text, len)
      else if s.width = .w8 then
        let cell := formatValue s val 8 0 false
        let (text, len) := bytesLoop s addr bytes offset fuel (pos + 1) len
        (' ' :: cell ++ text, len)
      else
        let next := bytes.getD (offset + len) 0
        let len := len + 1
        let val := if s.big then val <<< 8 ||| next else val ||| next <<< 8
        let cell := formatValue s val s.width.bits 0 false
        let (text, len) := bytesLoop s addr bytes offset fuel (pos + 2) len
        (' ' :: cell ++ text, len)
    else ([], len)

/-- driver/list_formatter.cpp:107-147 `formatBytes`: the text and the number of bytes formatted; `pos`
grows and stays below 6. -/
def formatBytes (s : Style) (start : Nat) (bytes : List Nat) (offset : Nat) : List Char × Nat :=
  bytesLoop s (offset + start) bytes offset 6 0 0

/-- driver/list_formatter.cpp:149-155 `formatTab`: the spaces up to a tab position, where `len` letters
are written.  `tab` is at most `len + 1` away from being enough, so that many steps do. -/
def tabSpaces (len tab delta : Nat) : Nat → List Char
  | 0 => []
  | fuel + 1 => if tab < len + 1 then tabSpaces len (tab + delta) delta fuel else spaces (tab - len)

/-- A line of a listing: an error message, or the columns in front of the address, the address, the
value or the bytes, and the rest. -/
inductive Line
  | error
  | body (number address bytes source : List Char)
deriving DecidableEq, Repr

/-- What a listing is made of: driver/asm_formatter.h:51-60 `_line`, `_value` (`getUnsigned()` of a
defined value), `_insn`, `_lineNumber` and the place in the sources. -/
structure Item where
  line : List Char
  value : Option Nat
  start : Nat
  bytes : List Nat
  hasError : Bool
  nest : Nat
  lineno : Nat
  lineNumber : Bool
deriving DecidableEq, Repr

/-- driver/asm_formatter.cpp:104-122 `formatLineNumber` -/
def lineNumber (i : Item) (first : Bool) : List Char :=
  if first then
    (if i.nest > 1 then '(' :: Number.fmtDec false (i.nest - 1) ++ [')'] else spaces 3) ++
    (if i.lineNumber then
      spaces (5 - calcDigits i.lineno 10) ++ Number.fmtDec false i.lineno ++ ['/'] else [])
  else spaces (if i.lineNumber then 3 + 6 else 3)

/-- driver/asm_formatter.cpp:84-101: the line `getLine` makes at `_nextLine` (which is not negative)
and the new `_nextLine`. -/
def asmLine (s : Style) (i : Item) (next : Nat) : Line × Nat :=
  let number := lineNumber i (next = 0)
  let address := formatAddress s (i.start + next)
  let (bytes, formatted) :=
    match i.value with
    | some v => ([' ', '='] ++ formatValue s (v % 4294967296) 0 0 false, 0)
    | none => formatBytes s i.start i.bytes next
  let source :=
    if next = 0 ∧ i.line ≠ [] then
      let pos := number.length + address.length
      tabSpaces (pos + bytes.length) (pos + 19 + 1) 4 256 ++ i.line
    else []
  (.body number address bytes source, next + formatted)

/-- driver/asm_driver.cpp:143-147 with driver/asm_formatter.cpp:58-60 `hasNextLine` and :62-103
`getLine`: the lines from `_nextLine` on, at most `fuel` of them; `none` means there are more. -/
def asmLines (s : Style) (i : Item) : Nat → Nat → Option (List Line)
  | 0, _ => none
  | fuel + 1, next =>
    let (line, next) := asmLine s i next
    if next < i.bytes.length then (asmLines s i fuel next).map (line :: ·) else some [line]

/-- driver/asm_driver.cpp:139-147: the listing of an item.  `set` (driver/asm_formatter.cpp:44-52) makes
`_nextLine` negative, so there is at least one line. -/
def asmListing (s : Style) (i : Item) (fuel : Nat) : Option (List Line) :=
  (asmLines s i fuel 0).map fun lines => if i.hasError then .error :: lines else lines

/-- driver/dis_formatter.cpp:103-119 `formatLine`: the line made at `next`, and the new `next`; `text` is
the name and the operands with the spaces between them. -/
def disLine (s : Style) (text : List Char) (start : Nat) (bytes : List Nat) (next : Nat) : Line × Nat :=
  let address := formatAddress s (start + next)
  let (column, formatted) := formatBytes s start bytes next
  let source :=
    if next = 0 ∧ text ≠ [] then
      let pos := address.length
      let tab := tabSpaces (pos + column.length) (pos + 19 + 1) 4 256
      let out := pos + column.length + tab.length
      tab ++ tabSpaces out (out + 8) 4 256 ++ text
    else []
  (.body [] address column source, next + formatted)

/-- driver/dis_driver.cpp:131-135 with driver/dis_formatter.cpp:150-152 `hasNextLine`: the lines from
`_nextLine` on. -/
def disLines (s : Style) (text : List Char) (start : Nat) (bytes : List Nat) : Nat → Nat → Option (List Line)
  | 0, _ => none
  | fuel + 1, next =>
    let (line, next) := disLine s text start bytes next
    if next < bytes.length then (disLines s text start bytes fuel next).map (line :: ·) else some [line]

end Libasm.Listing
