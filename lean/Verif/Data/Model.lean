import Verif.Eval.Default
import Verif.Config.Model
/-
Model of the data directives: src/asm_base.cpp:260-405 `isString`, `generateString`,
`defineDataConstant`, and :243-258 `defineString`.

`Out.ub` is undefined behaviour and `Out.diverge` a loop that does not end.  The types DATA_FLOAT32
and DATA_FLOAT64 are not modelled, nor are the places errors are about.  Letters are numbers below
256 (`emitByte` takes a uint8_t).
-/
namespace Libasm.Data
open Scan Ctype Insn
open Eval hiding setErrorIf
open Config (setErrorIf)

/-- src/letter_parser.h:28-70 `LetterParser`, the part about strings: `stringPrefix` (the text after it),
`stringDelimiter` (the delimiter and the text after it, if there is one), `readLetter` (the letter,
the error and the text after it). -/
structure Letters where
  stringPrefix : Scan → Scan
  stringDelimiter : Scan → Option (Char × Scan)
  readLetter : Scan → Char → Nat × Err × Scan

/-- src/parsers.cpp:359-376 `LetterParser::readLetter`. -/
def defaultReadLetter (s : Scan) (delim : Char) : Nat × Err × Scan :=
  match expect delim s with
  | some p =>
    match expect delim p with
    | some q => (delim.toNat, .OK, q)
    | none => (0, if delim = '"' then .MISSING_CLOSING_DQUOTE else .MISSING_CLOSING_QUOTE, s)
  | none =>
    match s with
    | [] => (0, .ILLEGAL_CONSTANT, s)
    | c :: p => if c = '\x00' then (0, .ILLEGAL_CONSTANT, s) else (c.toNat, .OK, p)

/-- A character out of a set: `scan.expect('\'')` and the like. -/
def oneOf (delims : List Char) : Scan → Option (Char × Scan)
  | [] => none
  | c :: p => if c ∈ delims then some (c, p) else none

/-- src/letter_parser.h:63-69 `LetterParser` (delimiter `'`), src/parsers.cpp:522-525
`MostekLetterParser` (`'` or `"`): no prefix, the default `readLetter`. -/
def simpleLetters (delims : List Char) : Letters :=
  { stringPrefix := id, stringDelimiter := oneOf delims, readLetter := defaultReadLetter }

/-- src/asm_base.h:74-85 `DataType` without DATA_ALIGN2, which is a flag. -/
inductive DataType | byte | byteOrWord | byteInWord | byteNoString | word | wordNoString | long
deriving DecidableEq, Repr

/-- What the directives use of the assembler: `endOfLine` (the verdict and the text afterwards),
`parseExpr` with delimiter 0 (value, error, rest), the letters, `config().endian()` and
`config().addressUnit()`. -/
structure Env where
  endOfLine : Scan → Bool × Scan
  parseExpr : Scan → Out (Value × Err × Scan)
  letters : Letters
  big : Bool
  wordUnit : Bool

/-- src/asm_base.cpp:275-290: the loop of `isString`, at most `fuel` times: the error and the text
at the closing delimiter. -/
def stringEnd (E : Env) (delim : Char) : Nat → Scan → Out (Err × Scan)
  | 0, _ => .diverge
  | fuel + 1, p =>
    if deref p = '\x00' then
      .ok (if delim = '"' then .MISSING_CLOSING_DQUOTE else .MISSING_CLOSING_QUOTE, p)
    else if deref p = delim ∧
        ((E.endOfLine (p.drop 1)).1 ∨ deref (E.endOfLine (p.drop 1)).2 = ',') then .ok (.OK, p)
    else
      match E.letters.readLetter p delim with
      | (_, e, q) => if e ≠ .OK then .ok (e, q) else stringEnd E delim fuel q

/-- src/asm_base.cpp:265-291 `isString`: `error` is fresh, so it is the error returned. -/
def isString (E : Env) (scan : Scan) : Out (Err × Scan) :=
  match E.letters.stringDelimiter (E.letters.stringPrefix scan) with
  | none => .ok (.NOT_AN_EXPECTED, scan)
  | some (delim, p) => stringEnd E delim (p.length + 1) p

/-- `error.setErrorIf(at, insn.emit...(data))`. -/
def emitIf (b : Buf) (error : Err) (f : Form) (data : Nat) : Out (Buf × Err) :=
  match b.emit f data with
  | none => .ub
  | some (b, e) => .ok (b, setErrorIf error e)

/-- src/asm_base.cpp:299-305: the letters up to `stop`, at most `fuel` of them; `count` is a
uint8_t. -/
def letterLoop (E : Env) (delim : Char) (stop : Scan) :
    Nat → Scan → Buf → Err → Nat → Out (Buf × Err × Nat)
  | 0, _, _, _, _ => .diverge
  | fuel + 1, scan, b, error, count =>
    if scan.length > stop.length then
      match E.letters.readLetter scan delim with
      | (c, _, rest) =>
        (emitIf b error .byte c).bind fun (b, error) =>
          letterLoop E delim stop fuel rest b error ((count + 1) % 256)
    else .ok (b, error, count)

/-- `n` zero bytes. -/
def padBytes : Nat → Buf → Err → Out (Buf × Err)
  | 0, b, error => .ok (b, error)
  | n + 1, b, error => (emitIf b error .byte 0).bind fun (b, error) => padBytes n b error

/-- src/asm_base.cpp:308-325: padding after `count` letters. -/
def padding (E : Env) (type : DataType) (count : Nat) : Nat :=
  match type with
  | .word => if count % 2 ≠ 0 then 1 else 0
  | .long => (4 - count % 4) % 4
  | _ => if E.wordUnit ∧ count % 2 ≠ 0 then 1 else 0

/-- src/asm_base.cpp:292-325 `generateString`: buffer, error and text afterwards. -/
def generateString (E : Env) (scan stop : Scan) (b : Buf) (type : DataType) (error : Err) :
    Out (Buf × Err × Scan) :=
  let scan := E.letters.stringPrefix scan
  let (delim, scan) := match E.letters.stringDelimiter scan with
    | some (d, p) => (d, p)
    | none => ('\x00', scan)
  (letterLoop E delim stop (scan.length + 1) scan b error 0).bind fun (b, error, count) =>
    let rest := match E.letters.stringDelimiter stop with
      | some (_, p) => p
      | none => stop
    (padBytes (padding E type count) b error).bind fun (b, error) => .ok (b, error, rest)

/-- src/asm_base.cpp:362-382: how a value of a type is emitted. -/
def emitValue (E : Env) (type : DataType) (val : Value) (b : Buf) (error : Err) : Out (Buf × Err) :=
  let v := val.getUnsigned
  let word := if E.big then Form.be16 else Form.le16
  match type with
  | .byteOrWord => if val.overflowUint8 then emitIf b error word v else emitIf b error .byte v
  | .byte | .byteNoString => emitIf b error .byte v
  | .byteInWord => emitIf b error word (v % 256)
  | .word | .wordNoString => emitIf b error word v
  | .long => emitIf b error (if E.big then .be32 else .le32) v

/-- One pass through the loop of `defineDataConstant`: on to the loop condition, or out of it with
`break`. `error` is the error of the directive. -/
inductive Flow
  | next (scan : Scan) (b : Buf) (error : Err)
  | stop (scan : Scan) (b : Buf) (error : Err)

/-- `hasError()`, src/error_reporter.h:124. -/
def hard (e : Err) : Bool := e ≠ .OK && e ≠ .UNDEFINED_SYMBOL

/-- src/asm_base.cpp:346-400: an operand that is not a string; `strErr` is why. -/
def valueOperand (E : Env) (type : DataType) (scan : Scan) (strErr : Err) (b : Buf) (error : Err) :
    Out Flow :=
  (E.parseExpr scan).bind fun (val, exprErr, p) =>
    let (fin, p) := E.endOfLine p
    if !fin && deref p ≠ ',' then
      .ok (.stop scan b (setErrorIf error (if strErr ≠ .OK then strErr else .ILLEGAL_CONSTANT)))
    else if hard exprErr then
      .ok (.stop scan b (setErrorIf error (if strErr ≠ .OK then strErr else exprErr)))
    else
      (emitValue E type val b exprErr).bind fun (b, exprErr) =>
        let error := setErrorIf error exprErr
        .ok (if error = .NO_MEMORY then .stop p b error else .next p b error)

/-- src/asm_base.cpp:334-400: one operand. `isString` leaves `strErr` alone when there is no string
delimiter. -/
def operand (E : Env) (type : DataType) (scan : Scan) (b : Buf) (error : Err) : Out Flow :=
  let scan := skipSpaces scan
  if type = .byteNoString ∨ type = .wordNoString then valueOperand E type scan .OK b error
  else
    (isString E scan).bind fun (err, stop) =>
      if err = .OK then
        (generateString E scan stop b type .OK).bind fun (b, strErr, rest) =>
          let error := setErrorIf error strErr
          .ok (if error = .NO_MEMORY then .stop rest b error else .next rest b error)
      else valueOperand E type scan (if err = .NOT_AN_EXPECTED then .OK else err) b error

/-- src/asm_base.cpp:333-401: the loop, at most `fuel` operands: text, buffer and error. -/
def operands (E : Env) (type : DataType) : Nat → Scan → Buf → Err → Out (Scan × Buf × Err)
  | 0, _, _, _ => .diverge
  | fuel + 1, scan, b, error =>
    (operand E type scan b error).bind fun
      | .stop scan b error => .ok (scan, b, error)
      | .next scan b error =>
        match expect ',' (skipSpaces scan) with
        | some rest => operands E type fuel rest b error
        | none => .ok (skipSpaces scan, b, error)

/-- src/asm_base.cpp:327-402 `defineDataConstant`: the text after the operands, and the
instruction with the error set. With `align2` the address is aligned first; the location of the
assembler follows it, see `Config.setCurrentLocation`. -/
def defineDataConstant (E : Env) (type : DataType) (align2 : Bool) (scan : Scan) (b : Buf) :
    Out (Scan × Buf) :=
  match (if align2 then b.align 2 else some b) with
  | none => .ub
  | some b =>
    (operands E type (scan.length + 1) scan b .OK).bind fun (scan, b, error) =>
      .ok (scan, { b with error := error })

/-- src/asm_base.cpp:249-255: the inner loop of `defineString`: letters up to the delimiter.
`none` is a missing delimiter. -/
def rawString (delim : Char) : Scan → Buf → Err → Out (Option (Scan × Err) × Buf)
  | [], b, _ => .ok (none, b)
  | c :: p, b, error =>
    if c = delim then .ok (some (p, error), b)
    else if c = '\x00' then .ok (none, b)
    else (emitIf b error .byte c.toNat).bind fun (b, error) => rawString delim p b error

/-- src/asm_base.cpp:244-260 `defineString`, at most `fuel` strings. -/
def defineStringLoop : Nat → Scan → Buf → Err → Out (Scan × Buf)
  | 0, _, _, _ => .diverge
  | fuel + 1, scan, b, error =>
    let scan := skipSpaces scan
    (rawString (deref scan) (scan.drop 1) b error).bind fun
      | (none, b) => .ok (scan.drop 1, (b.setErrorIf .MISSING_CLOSING_DELIMITER).1)
      | (some (p, error), b) =>
        match expect ',' (skipSpaces p) with
        | some rest => defineStringLoop fuel rest b error
        | none => .ok (skipSpaces p, { b with error := error })

/-- src/asm_base.cpp:244-260 `defineString`. -/
def defineString (scan : Scan) (b : Buf) : Out (Scan × Buf) :=
  defineStringLoop (scan.length + 1) scan b .OK

/-- src/parsers.cpp:563-565 `SemicolonCommentParser::endOfLine`: spaces are skipped. -/
def semicolonEndOfLine (s : Scan) : Bool × Scan :=
  (deref (skipSpaces s) = '\x00' || deref (skipSpaces s) = ';', skipSpaces s)

/-- src/asm_base.cpp:121-124 `parseExpr` with the default plugins of src/value_parser.cpp:26-51. -/
def defaultEnv (delims : List Char) (float : Scan → Option (Err × Value × Scan))
    (symbols : List Char → Option Value)
    (functions : List Char → Option (Int × (List Value → Out (Except Err Value))))
    (loc : Nat) (big wordUnit : Bool) : Env :=
  { endOfLine := semicolonEndOfLine
    parseExpr := fun s =>
      (eval (stylePlugins .cstyle .c float symbols functions '\x00' loc) s .OK .r10).bind fun r =>
        .ok (r.value, r.err, r.scan)
    letters := simpleLetters delims, big := big, wordUnit := wordUnit }

end Libasm.Data
