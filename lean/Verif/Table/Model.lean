import Verif.Base.Ctype
import Verif.Base.Error
import Verif.Base.Scan
/-
Model of name comparison (strcasecmp and friends as used through src/config_host.h:66-70),
src/str_scanner.cpp:23-51, src/table_base.h, the searches of src/entry_table.h, src/reg_base.cpp
and src/pseudos.h.

A C string is a list of characters without NUL; the end of the list is the NUL.  Pointers into a
table are indexes.  Matchers and comparators are pure functions of the item here; a few CPUs have
matchers that also note something in the instruction, which is not modelled.  `none` inside the
search loops would be a read outside the table.
-/
namespace Libasm.Table
open Ctype

/-! ### Comparison without case -/

/-- `tolower` as a number, as strcasecmp(3) compares. -/
def low (c : Char) : Int := ((toLower c).toNat : Int)

/-- `strcasecmp(a, b)`: difference of the first letters that differ. -/
def strcasecmp : List Char → List Char → Int
  | [], [] => 0
  | [], b :: _ => 0 - low b
  | a :: _, [] => low a - 0
  | a :: as, b :: bs => if low a = low b then strcasecmp as bs else low a - low b

/-- `strncasecmp(a, b, n)` -/
def strncasecmp : List Char → List Char → Nat → Int
  | _, _, 0 => 0
  | [], [], _ + 1 => 0
  | [], b :: _, _ + 1 => 0 - low b
  | a :: _, [], _ + 1 => low a - 0
  | a :: as, b :: bs, n + 1 => if low a = low b then strncasecmp as bs n else low a - low b

/-- src/str_scanner.cpp:23-31 `iequals`, `iequals_P`. -/
def iequals (s text : List Char) : Bool :=
  decide (s.length = text.length) && decide (strncasecmp s text text.length = 0)

/-- src/str_scanner.cpp:33-43 `iexpectText_P`: the text after it. The comparison runs to the end of
the C string, not of the scanner; the two are the same here. -/
def iexpectText (s text : List Char) : Option (List Char) :=
  if strncasecmp s text text.length = 0 then some (s.drop text.length) else none

/-- src/str_scanner.cpp:45-51 `iexpectWord_P`. -/
def iexpectWord (s text : List Char) : Option (List Char) :=
  match iexpectText s text with
  | none => none
  | some r => if isAlnum (Scan.deref r) || Scan.deref r == '_' then none else some r

/-! ### Searches -/

/-- src/table_base.h:47-55 `Table::linearSearch`. -/
def linearSearch {α : Type} (items : List α) (matcher : α → Bool) : Option α :=
  match items with
  | [] => none
  | item :: rest => if matcher item then some item else linearSearch rest matcher

/-- src/table_base.h:60-82 `Table::binarySearch`, from `head`, `tail` and `found` on: the index
found, if any. The outer `none` is a read outside the table. -/
def bsearch {α : Type} (items : List α) (cmp : α → Int) (head tail : Nat) (found : Option Nat) :
    Option (Option Nat) :=
  if _h : tail - head = 0 then some found
  else
    let middle := head + (tail - head) / 2
    match items[middle]? with
    | none => none
    | some item =>
      if cmp item > 0 then bsearch items cmp (middle + 1) tail found
      else if cmp item < 0 then bsearch items cmp head middle found
      else bsearch items cmp head middle (some middle)
termination_by tail - head

/-- `Table::binarySearch` on the whole table: the item found. -/
def binarySearch {α : Type} (items : List α) (cmp : α → Int) : Option (Option α) :=
  match bsearch items cmp 0 items.length none with
  | none => none
  | some none => some none
  | some (some i) =>
    match items[i]? with
    | none => none
    | some item => some (some item)

/-- src/table_base.h:119-133, the first loop of `IndexedTable::binarySearch`. -/
def lowerBound {α : Type} (items : List α) (index : List Nat) (cmp : α → Int) (head tail : Nat) :
    Option Nat :=
  if _h : tail - head = 0 then some head
  else
    let middle := head + (tail - head) / 2
    match index[middle]?.bind (items[·]?) with
    | none => none
    | some item =>
      if cmp item > 0 then lowerBound items index cmp (middle + 1) tail
      else lowerBound items index cmp head middle
termination_by tail - head

/-- Result of `IndexedTable::binarySearch`: nullptr, the tail of the table as a marker that the name
is there (`notExactMatch`, table_base.h:114), or an item. -/
inductive Found (α : Type) | none | nameOnly | item (a : α)
deriving DecidableEq, Repr

/-- src/table_base.h:134-149, the second loop, over the index entries from `head` on. -/
def pick {α : Type} (items : List α) (cmp : α → Int) (matcher2 : α → Bool) :
    List Nat → Found α → Option (Found α)
  | [], found => some found
  | i :: is, found =>
    match items[i]? with
    | none => none
    | some item =>
      if cmp item ≠ 0 then some found
      else if matcher2 item then some (.item item)
      else pick items cmp matcher2 is .nameOnly

/-- src/table_base.h:116-151 `IndexedTable::binarySearch`. -/
def indexedSearch {α : Type} (items : List α) (index : List Nat) (cmp : α → Int)
    (matcher2 : α → Bool) : Option (Found α) :=
  match lowerBound items index cmp 0 index.length with
  | none => none
  | some head => pick items cmp matcher2 (index.drop head) .none

/-- A page of an instruction table: src/entry_table.h:33-78. The prefix is 0 for a plain page;
`extra` holds what the pages of some CPUs have besides (a mask, an addressing mode). -/
structure Page (α : Type) where
  prefix_ : Nat
  extra : List String := []
  entries : List α
  index : List Nat
deriving Repr

/-- src/entry_table.h:153-172 `CpuBase::searchName`: the page prefix and the entry, or the error.
What `pageSetup` leaves in the instruction for `acceptOperands` is the page. -/
def searchName {α : Type} (cmp : α → Int) (accept : Page α → α → Bool) :
    List (Page α) → Bool → Option (Except Err (Nat × α))
  | [], found => some (.error (if found then .OPERAND_NOT_ALLOWED else .UNKNOWN_INSTRUCTION))
  | page :: pages, found =>
    match indexedSearch page.entries page.index cmp (accept page) with
    | none => none
    | some .nameOnly => searchName cmp accept pages true
    | some (.item entry) => some (.ok (page.prefix_, entry))
    | some .none => searchName cmp accept pages found

/-- src/entry_table.h:208-227 `CpuBase::searchOpCode`. -/
def searchOpCode {α : Type} (matchCode : Page α → α → Bool) (pageMatcher : Page α → Bool) :
    List (Page α) → Option (Page α × α)
  | [] => none
  | page :: pages =>
    if pageMatcher page then
      match linearSearch page.entries (matchCode page) with
      | some entry => some (page, entry)
      | none => searchOpCode matchCode pageMatcher pages
    else searchOpCode matchCode pageMatcher pages

/-! ### Register names and numbers -/

/-- src/reg_base.cpp:32-40 `textMatcher`. -/
def textMatcher (symbol text : List Char) : Int :=
  let res := strncasecmp symbol text symbol.length
  if res ≠ 0 then res else if symbol.length < text.length then -1 else 0

/-- src/reg_base.cpp:71-80 `searchSymbol`: the entry and the text after the name. -/
def searchSymbol {α : Type} (table : List α) (text : α → List Char) (letter : Char → Bool)
    (scan : List Char) : Option (Option (α × List Char)) :=
  let symbol := scan.takeWhile letter
  if symbol.length = 0 then some none
  else
    match binarySearch table (fun item => textMatcher symbol (text item)) with
    | none => none
    | some none => some none
    | some (some item) => some (some (item, scan.dropWhile letter))

/-- src/reg_base.cpp:45-47 -/
def isNameLetter (c : Char) : Bool := isAlnum c || c == '\''
/-- src/reg_base.h:30-32 -/
def isIdLetter (c : Char) : Bool := isAlnum c || c == '_'

/-- The conversion to int8_t of `leading_zero++`. -/
def incInt8 (z : Int) : Int := if z = 127 then -128 else z + 1

/-- src/reg_base.cpp:82-93 the loop of `parseRegNumber`: value, `leading_zero` and remaining text.
`c` is the first character of what remains. -/
def regLoop : List Char → Nat → Int → Nat × Int × List Char
  | [], val, z => (val, z, [])
  | c :: cs, val, z =>
    if isDigit c && decide (val < 1000) then
      let z := if val = 0 ∧ c = '0' then incInt8 z else z
      regLoop cs (val * 10 + (c.toNat - 48)) z
    else (val, z, c :: cs)

/-- src/reg_base.cpp:82-101 `parseRegNumber`: the number and the text after it; `none` for -1. -/
def parseRegNumber (scan : List Char) : Option (Nat × List Char) :=
  let (val, z, p) := regLoop scan 0 0
  if isIdLetter (Scan.deref p) then none
  else if (val = 0 ∧ z ≠ 1) ∨ (val ≠ 0 ∧ z ≥ 1) then none
  else some (val, p)

end Libasm.Table
