import Verif.Base.Error
import Verif.Base.Ctype
import Verif.Number.Model
/-
Model of src/str_buffer.h and src/str_buffer.cpp: a text buffer over a caller's array of chars.

`none` stands for undefined behaviour: an access outside the array, or the negation of the least
signed number.  Pointers into the array are indexes; `_str` is index 0.  A `StrCaseBuffer` works on
the same three pointers and the same array (copied by the constructor and handed back with
`over`), so one state serves both and each operation says which case conversion it uses.
Not modelled: float32/float64/float80 and `convert`, which need the text of `gcvt`.
-/
namespace Libasm.StrBuffer
open Ctype

/-- src/str_buffer.h:163-166: the array and the pointers into it. -/
structure Buf where
  mem : List Char
  out : Nat
  end_ : Nat
  error : Err
deriving DecidableEq, Repr

/-- The character that ends a text. -/
def nul : Char := '\x00'

/-- `*p = c` -/
def store (mem : List Char) (p : Nat) (c : Char) : Option (List Char) :=
  if p < mem.length then some (mem.set p c) else none

/-- src/str_buffer.cpp:22-25 the constructor. `_end = buffer + size - 1` is taken for `size ≥ 1`. -/
def Buf.new (mem : List Char) : Option Buf :=
  match store mem 0 nul with
  | none => none
  | some m => some ⟨m, 0, mem.length - 1, .OK⟩

/-- src/str_buffer.cpp:32-36 `reset`. -/
def Buf.reset (b : Buf) : Option Buf :=
  match store b.mem 0 nul with
  | none => none
  | some m => some { b with mem := m, out := 0, error := .OK }

/-- src/str_buffer.cpp:46-54 `rletter`. -/
def Buf.rletter (b : Buf) (c : Char) : Option Buf :=
  if b.out < b.end_ then
    match store b.mem b.out c with
    | none => none
    | some m =>
      match store m (b.out + 1) nul with
      | none => none
      | some m => some { b with mem := m, out := b.out + 1 }
  else some { b with error := .BUFFER_OVERFLOW }

/-- src/str_buffer.h:172-196: StrBuffer itself, StrCaseBuffer with `toupper` or `tolower`. -/
inductive Conv | raw | upper | lower
deriving DecidableEq, Repr

/-- `_converter(c)` -/
def Conv.apply : Conv → Char → Char
  | .raw, c => c
  | .upper, c => toUpper c
  | .lower, c => toLower c

/-- src/str_buffer.cpp:56-58, src/str_buffer.h:189-192 `letter`. -/
def Buf.letter (cv : Conv) (b : Buf) (c : Char) : Option Buf := b.rletter (cv.apply c)

/-- Several letters, in order. -/
def Buf.letters (cv : Conv) (b : Buf) : List Char → Option Buf
  | [] => some b
  | c :: cs =>
    match b.letter cv c with
    | none => none
    | some b => b.letters cv cs

/-- src/str_buffer.cpp:60-106 `text`, `text_P`, and with `raw` `rtext`, `rtext_P`: up to the NUL. -/
def Buf.text (cv : Conv) (b : Buf) : List Char → Option Buf
  | [] => some b
  | c :: cs =>
    if c = nul then some b
    else
      match b.letter cv c with
      | none => none
      | some b => b.text cv cs

/-- src/str_buffer.cpp:144-146 `comma`. -/
def Buf.comma (b : Buf) : Option Buf :=
  match b.rletter ',' with
  | none => none
  | some b => b.rletter ' '

/-- src/str_buffer.cpp:152-156: the loop of `reverse`. `e` is one past the pointer `end`. -/
def revLoop (mem : List Char) (i e : Nat) : Option (List Char) :=
  if i + 1 < e then
    match mem[i]?, mem[e - 1]? with
    | some a, some b => revLoop ((mem.set i b).set (e - 1) a) (i + 1) (e - 1)
    | _, _ => none
  else some mem
termination_by e - i

/-- src/str_buffer.cpp:148-159 `reverse(start)`. -/
def Buf.reverse (b : Buf) (start : Nat) : Option Buf :=
  if start > b.out then some { b with error := .OVERWRAP_SEGMENT }
  else
    match revLoop b.mem start b.out with
    | none => none
    | some m => some { b with mem := m }

/-- `start = mark()`, the letters, and `reverse(start)`: src/str_buffer.h:78-90, 100-111, 121-132
and the formatters of src/formatters.cpp:21-24, 38-41, 56-59, 92-95. What is written does not
depend on the buffer. -/
def Buf.reversed (cv : Conv) (b : Buf) (cs : List Char) : Option Buf :=
  match b.letters cv cs with
  | none => none
  | some b' => b'.reverse b.out

/-- src/str_buffer.h:83-84 `digit + (digit < 10 ? '0' : 'A' - 10)`. -/
def digitChar (d : Nat) : Char := if d < 10 then Char.ofNat (d + 48) else Char.ofNat (d + 55)

/-- src/str_buffer.h:79-89 and 122-131, the loops of `hex` and `oct`: letters in the order written.
`i` is the number of digits the type may have. -/
def digitLoop (base : Nat) : Nat → Nat → Nat → List Char
  | 0, _, prec => List.replicate prec '0'
  | i + 1, u, prec =>
    digitChar (u % base) ::
      (if prec ≠ 0 then
        if prec - 1 = 0 then [] else digitLoop base i (u / base) (prec - 1)
      else digitLoop base i (u / base) 0)

/-- src/str_buffer.h:101-110, the loops of `dec`. -/
def decLoop (u prec : Nat) : List Char :=
  digitChar (u % 10) ::
    (if h : u / 10 = 0 then List.replicate (prec - 1) '0' else decLoop (u / 10) (prec - 1))
termination_by u
decreasing_by omega

/-- src/str_buffer.h:94-99 `dec` of a signed type of `bits` bits: whether there is a sign, and the
number whose digits are written. `-v` is computed in `int` for the types narrower than that. -/
def magnitude (bits : Nat) (v : Int) : Option (Bool × Nat) :=
  if v < 0 then
    if 32 ≤ bits ∧ v = -(2 ^ (bits - 1) : Int) then none
    else some (true, ((-v) % (2 ^ bits : Int)).toNat)
  else some (false, v.toNat)

/-- One call of a StrBuffer method. -/
inductive Op
  | reset
  /-- `letter(c)`; `rletter(c)` with `raw` -/
  | letter (cv : Conv) (c : Char)
  /-- `text(cs)`, `text_P(cs)`; `rtext`, `rtext_P` with `raw` -/
  | text (cv : Conv) (cs : List Char)
  | comma
  /-- `hex(v, prec)` of a type of `bytes` bytes -/
  | hex (cv : Conv) (bytes v prec : Nat)
  /-- `oct(v, prec)` -/
  | oct (cv : Conv) (bytes v prec : Nat)
  /-- `dec(v, prec)` of an unsigned type -/
  | dec (cv : Conv) (v prec : Nat)
  /-- `dec(v, prec)` of a signed type of `bits` bits -/
  | sdec (cv : Conv) (bits : Nat) (v : Int) (prec : Nat)
  /-- the number formatters: letters written back to front -/
  | format (cv : Conv) (cs : List Char)
deriving DecidableEq, Repr

def Buf.step (b : Buf) : Op → Option Buf
  | .reset => b.reset
  | .letter cv c => b.letter cv c
  | .text cv cs => b.text cv cs
  | .comma => b.comma
  | .hex cv bytes v prec => b.reversed cv (digitLoop 16 (bytes * 2) (v % 256 ^ bytes) prec)
  | .oct cv bytes v prec =>
    let bits := bytes * 8
    b.reversed cv (digitLoop 8 (bits / 3 + (if bits % 3 ≠ 0 then 1 else 0)) (v % 256 ^ bytes) prec)
  | .dec cv v prec => b.reversed cv (decLoop v prec)
  | .sdec cv bits v prec =>
    match magnitude bits v with
    | none => none
    | some (negative, u) =>
      match (if negative then b.letter cv '-' else some b) with
      | none => none
      | some b => b.reversed cv (decLoop u prec)
  | .format cv cs => b.reversed cv cs

/-- A sequence of calls. -/
def Buf.run (b : Buf) : List Op → Option Buf
  | [] => some b
  | o :: os =>
    match b.step o with
    | none => none
    | some b => b.run os

end Libasm.StrBuffer
