import Verif.Eval.Model
/-
Model of the operators and operator parsers of src/operators.cpp on integer values: what every
operator computes, its entry in the tables, and how every style reads prefix and infix operators.
`dec_float16` (the PDP-11 `^F` operator) needs floating point and is left out.
-/
namespace Libasm.Eval
open Scan Number Ctype

/-- A result without error; `none` (undefined behaviour of the arithmetic) is the outcome `ub`. -/
def lift : Option Value → Out (Except Err Value)
  | some v => .ok (.ok v)
  | none => .ub

/-- `stack.pushUnsigned(n)` as a result. -/
def unsigned (n : Nat) : Out (Except Err Value) := .ok (.ok (Value.setUnsigned n))

/-- `stack.pushUnsigned(b)` of a truth value. -/
def bool (b : Bool) : Out (Except Err Value) := unsigned b.toNat

/-- src/operators.cpp:51-55 -/
def bitwiseNot (v : Value) := lift (some v.bitNot)
/-- src/operators.cpp:57-61: on the low 32 bits -/
def logicalNot (v : Value) := bool (v.getUnsigned == 0)
/-- src/operators.cpp:63-71 -/
def unaryMinus (v : Value) := lift v.negate
/-- src/operators.cpp:73-81 -/
def unaryPlus (v : Value) := lift (some v)
/-- src/operators.cpp:83-88 -/
def multiply (l r : Value) := lift (l.mul r)
/-- src/operators.cpp:90-97 -/
def divide (l r : Value) : Out (Except Err Value) :=
  if r.isZero then .ok (.error .DIVIDE_BY_ZERO) else lift (l.div r)
/-- src/operators.cpp:99-106 -/
def modulo (l r : Value) : Out (Except Err Value) :=
  if r.isZero then .ok (.error .DIVIDE_BY_ZERO) else lift (l.mod r)
/-- src/operators.cpp:108-113 -/
def add (l r : Value) := lift (l.add r)
/-- src/operators.cpp:115-120 -/
def subtract (l r : Value) := lift (l.sub r)
/-- src/operators.cpp:122-128; `lhs << rhs` of two uint32_t wraps -/
def logicalShiftLeft (l r : Value) :=
  unsigned (if r.getUnsigned < 32 then l.getUnsigned * 2 ^ r.getUnsigned % 4294967296 else 0)
/-- src/operators.cpp:130-135 -/
def arithmeticShiftRight (l r : Value) := lift (some (l.shr r))
/-- src/operators.cpp:137-142 -/
def lessThan (l r : Value) := bool (l.lt r)
/-- src/operators.cpp:144-149 -/
def lessThanOrEqual (l r : Value) := bool (l.lt r || l.eq r)
/-- src/operators.cpp:151-156 -/
def greaterThanOrEqual (l r : Value) := bool (!l.lt r)
/-- src/operators.cpp:158-163 -/
def greaterThan (l r : Value) := bool (!l.lt r && !l.eq r)
/-- src/operators.cpp:165-170 -/
def logicalEqual (l r : Value) := bool (l.eq r)
/-- src/operators.cpp:172-177 -/
def logicalNotEqual (l r : Value) := bool (!l.eq r)
/-- src/operators.cpp:179-184 -/
def bitwiseAnd (l r : Value) := lift (some (l.bitAnd r))
/-- src/operators.cpp:186-191 -/
def bitwiseXor (l r : Value) := lift (some (l.bitXor r))
/-- src/operators.cpp:193-198 -/
def bitwiseOr (l r : Value) := lift (some (l.bitOr r))
/-- src/operators.cpp:200-207 -/
def logicalAnd (l r : Value) := bool (l.logAnd r)
/-- src/operators.cpp:209-215 -/
def logicalOr (l r : Value) := bool (l.logOr r)

/-- An `Operator` of an operator table. -/
abbrev Op := Operator Value

/-- src/operators.cpp:222 -/
def opBitwiseNot : Op := ⟨3, .right, 1, .un bitwiseNot⟩
/-- src/operators.cpp:223 -/
def opLogicalNot : Op := ⟨3, .right, 1, .un logicalNot⟩
/-- src/operators.cpp:224 -/
def opUnaryMinus : Op := ⟨3, .right, 1, .un unaryMinus⟩
/-- src/operators.cpp:225 -/
def opUnaryPlus : Op := ⟨3, .right, 1, .un unaryPlus⟩
/-- src/operators.cpp:226 -/
def opMul : Op := ⟨5, .left, 2, .bin multiply⟩
/-- src/operators.cpp:227 -/
def opDiv : Op := ⟨5, .left, 2, .bin divide⟩
/-- src/operators.cpp:228 -/
def opMod : Op := ⟨5, .left, 2, .bin modulo⟩
/-- src/operators.cpp:229 -/
def opAdd : Op := ⟨6, .left, 2, .bin add⟩
/-- src/operators.cpp:230 -/
def opSub : Op := ⟨6, .left, 2, .bin subtract⟩
/-- src/operators.cpp:231 -/
def opShiftLeft : Op := ⟨7, .left, 2, .bin logicalShiftLeft⟩
/-- src/operators.cpp:232 -/
def opShiftRight : Op := ⟨7, .left, 2, .bin arithmeticShiftRight⟩
/-- src/operators.cpp:233 -/
def opLogicalLt : Op := ⟨9, .none, 2, .bin lessThan⟩
/-- src/operators.cpp:234 -/
def opLogicalLe : Op := ⟨9, .none, 2, .bin lessThanOrEqual⟩
/-- src/operators.cpp:235 -/
def opLogicalGe : Op := ⟨9, .none, 2, .bin greaterThanOrEqual⟩
/-- src/operators.cpp:236 -/
def opLogicalGt : Op := ⟨9, .none, 2, .bin greaterThan⟩
/-- src/operators.cpp:237 -/
def opLogicalEq : Op := ⟨10, .none, 2, .bin logicalEqual⟩
/-- src/operators.cpp:238 -/
def opLogicalNe : Op := ⟨10, .none, 2, .bin logicalNotEqual⟩
/-- src/operators.cpp:239 -/
def opBitwiseAnd : Op := ⟨11, .left, 2, .bin bitwiseAnd⟩
/-- src/operators.cpp:240 -/
def opBitwiseXor : Op := ⟨12, .left, 2, .bin bitwiseXor⟩
/-- src/operators.cpp:241 -/
def opBitwiseOr : Op := ⟨13, .left, 2, .bin bitwiseOr⟩
/-- src/operators.cpp:242 -/
def opLogicalAnd : Op := ⟨14, .left, 2, .bin logicalAnd⟩
/-- src/operators.cpp:243 -/
def opLogicalOr : Op := ⟨15, .left, 2, .bin logicalOr⟩

/-- What a `readPrefix` or `readInfix` that leaves the stack alone returns. -/
abbrev Read := Scan → Option (Op × Scan)

/-- `opr = &o` if `expect` succeeded. -/
def found (o : Op) : Option Scan → Option (Op × Scan)
  | some rest => some (o, rest)
  | none => none

/-- src/operators.cpp:256-272.  After a `!` followed by `=` the code goes on to test for `-` and
`+` after the `!`; it finds `=` there. -/
def cPrefix : Read := fun s =>
  match expect '~' s with
  | some p => some (opBitwiseNot, p)
  | none =>
    match expect '!' s with
    | some p => if deref p ≠ '=' then some (opLogicalNot, p) else none
    | none =>
      match expect '-' s with
      | some p => some (opUnaryMinus, p)
      | none => found opUnaryPlus (expect '+' s)

/-- `p.expect(c)` chooses between two operators: `c` follows or not. -/
def orElse (c : Char) (yes no : Op) (p : Scan) : Option (Op × Scan) :=
  match expect c p with
  | some q => some (yes, q)
  | none => some (no, p)

/-- src/operators.cpp:274-320 -/
def cInfix : Read := fun s =>
  match s with
  | [] => none
  | c :: p =>
    if c = '*' then some (opMul, p)
    else if c = '/' then some (opDiv, p)
    else if c = '%' then some (opMod, p)
    else if c = '+' then some (opAdd, p)
    else if c = '-' then some (opSub, p)
    else if c = '<' then
      match expect '<' p with
      | some q => some (opShiftLeft, q)
      | none => orElse '=' opLogicalLe opLogicalLt p
    else if c = '>' then
      match expect '>' p with
      | some q => some (opShiftRight, q)
      | none => orElse '=' opLogicalGe opLogicalGt p
    else if c = '&' then orElse '&' opLogicalAnd opBitwiseAnd p
    else if c = '^' then some (opBitwiseXor, p)
    else if c = '|' then orElse '|' opLogicalOr opBitwiseOr p
    else if c = '!' then found opLogicalNe (expect '=' p)
    else if c = '=' then found opLogicalEq (expect '=' p)
    else none

/-- A `readPrefix` that leaves the value stack and the radix alone. -/
def pure (r : Read) : Scan → List Value → Radix →
    Out (Option Op × Scan × List Value × Radix) := fun s st radix =>
  match r s with
  | some (o, p) => .ok (some o, p, st, radix)
  | none => .ok (none, s, st, radix)

/-- src/operators.h:138-139 and the given readers. -/
def parser (pre inf : Read) : OpParser Value :=
  { readPrefix := pure pre, readInfix := inf, isOpen := expect '(', isClose := expect ')' }

/-- src/operators.cpp:322-327 -/
def exponential (l r : Value) := lift (l.exponential r)
/-- src/operators.cpp:329-335; `lhs` is a uint16_t promoted to int -/
def rotateLeft16 (l r : Value) :=
  let n := r.getUnsigned % 16
  let x := l.getUnsigned % 65536
  unsigned ((x <<< n ||| x >>> (16 - n)) % 65536)
/-- src/operators.cpp:337-343 -/
def rotateRight16 (l r : Value) :=
  let n := r.getUnsigned % 16
  let x := l.getUnsigned % 65536
  unsigned ((x >>> n ||| x <<< (16 - n)) % 65536)
/-- src/operators.cpp:345-351 -/
def shiftLeft16 (l r : Value) :=
  let x := l.getUnsigned % 65536
  unsigned ((if r.getUnsigned < 16 then x <<< r.getUnsigned else 0) % 65536)
/-- src/operators.cpp:353-359 -/
def shiftRight16 (l r : Value) :=
  let x := l.getUnsigned % 65536
  unsigned ((if r.getUnsigned < 16 then x >>> r.getUnsigned else 0) % 65536)

/-- src/operators.cpp:362 -/
def motorolaExponential : Op := ⟨5, .right, 2, .bin exponential⟩
/-- src/operators.cpp:363 -/
def motorolaRotateLeft : Op := ⟨5, .left, 2, .bin rotateLeft16⟩
/-- src/operators.cpp:364 -/
def motorolaRotateRight : Op := ⟨5, .left, 2, .bin rotateRight16⟩
/-- src/operators.cpp:365 -/
def motorolaShiftLeft : Op := ⟨5, .left, 2, .bin shiftLeft16⟩
/-- src/operators.cpp:366 -/
def motorolaShiftRight : Op := ⟨5, .left, 2, .bin shiftRight16⟩
/-- src/operators.cpp:367 -/
def motorolaBitwiseAnd : Op := ⟨5, .left, 2, .bin bitwiseAnd⟩
/-- src/operators.cpp:368 -/
def motorolaBitwiseXor : Op := ⟨5, .left, 2, .bin bitwiseXor⟩
/-- src/operators.cpp:369 -/
def motorolaBitwiseOr : Op := ⟨5, .left, 2, .bin bitwiseOr⟩

/-- src/operators.cpp:376-394: after the `!`.  When a letter is followed by an alphanumeric the
code goes on with the tests at the character after the letter; none of the characters tested for
is alphanumeric except `L` and `R`, so `!XL`, `!XR` and `!LR` read as rotations. -/
def motorolaBang (p : Scan) : Option (Op × Scan) :=
  match p with
  | '.' :: q => some (motorolaBitwiseAnd, q)
  | '+' :: q => some (motorolaBitwiseOr, q)
  | 'X' :: q =>
    if !isAlnum (deref q) then some (motorolaBitwiseXor, q)
    else match q with
      | 'L' :: q => if !isAlnum (deref q) then some (motorolaRotateLeft, q)
        else match q with
          | 'R' :: q => if !isAlnum (deref q) then some (motorolaRotateRight, q) else none
          | _ => none
      | 'R' :: q => if !isAlnum (deref q) then some (motorolaRotateRight, q) else none
      | _ => none
  | '^' :: q => some (motorolaExponential, q)
  | '<' :: q => some (motorolaShiftLeft, q)
  | '>' :: q => some (motorolaShiftRight, q)
  | 'L' :: q => if !isAlnum (deref q) then some (motorolaRotateLeft, q)
    else match q with
      | 'R' :: q => if !isAlnum (deref q) then some (motorolaRotateRight, q) else none
      | _ => none
  | 'R' :: q => if !isAlnum (deref q) then some (motorolaRotateRight, q) else none
  | _ => none

/-- src/operators.cpp:372-400 -/
def motorolaInfix : Read := fun s =>
  match (expect '!' s).bind motorolaBang with
  | some r => some r
  | none => cInfix s

/-- src/operators.cpp:402-406 -/
def mostSignificantByte (v : Value) := unsigned (v.getUnsigned / 256 % 256)
/-- src/operators.cpp:408-412 -/
def leastSignificantByte (v : Value) := unsigned (v.getUnsigned % 256)
/-- src/operators.cpp:414-418 -/
def mostSignificantWord (v : Value) := unsigned (v.getUnsigned / 65536 % 65536)
/-- src/operators.cpp:420-424 -/
def leastSignificantWord (v : Value) := unsigned (v.getUnsigned % 65536)

/-- src/operators.cpp:427 -/
def intelHigh : Op := ⟨3, .right, 1, .un mostSignificantByte⟩
/-- src/operators.cpp:428 -/
def intelLow : Op := ⟨3, .right, 1, .un leastSignificantByte⟩
/-- src/operators.cpp:429 -/
def intelMsw : Op := ⟨3, .right, 1, .un mostSignificantWord⟩
/-- src/operators.cpp:430 -/
def intelLsw : Op := ⟨3, .right, 1, .un leastSignificantWord⟩
/-- src/operators.cpp:431: a binary operation with `nargs` 1 -/
def intelShiftRight : Op := ⟨5, .left, 1, .bin shiftRight16⟩
/-- src/operators.cpp:432: a binary operation with `nargs` 1 -/
def intelShiftLeft : Op := ⟨5, .left, 1, .bin shiftLeft16⟩
/-- src/operators.cpp:433 -/
def intelUnaryMinus : Op := ⟨6, .right, 1, .un unaryMinus⟩
/-- src/operators.cpp:434 -/
def intelUnaryPlus : Op := ⟨6, .right, 1, .un unaryPlus⟩
/-- src/operators.cpp:435 -/
def intelLogicalEq : Op := ⟨9, .none, 2, .bin logicalEqual⟩
/-- src/operators.cpp:436 -/
def intelLogicalNe : Op := ⟨9, .none, 2, .bin logicalNotEqual⟩
/-- src/operators.cpp:437 -/
def intelBitwiseNot : Op := ⟨10, .right, 1, .un bitwiseNot⟩
/-- src/operators.cpp:438 -/
def intelBitwiseAnd : Op := ⟨11, .left, 2, .bin bitwiseAnd⟩
/-- src/operators.cpp:439 -/
def intelBitwiseXor : Op := ⟨12, .left, 2, .bin bitwiseXor⟩
/-- src/operators.cpp:440 -/
def intelBitwiseOr : Op := ⟨12, .left, 2, .bin bitwiseOr⟩

/-- src/str_scanner.cpp:28-31 `iequals_P` -/
def iequals (name text : List Char) : Bool := name.map toUpper == text.map toUpper

/-- A chain of `name.iequals_P(...)` tests on the alphanumeric word at the start of the text
(`p.trimStart(isalnum)`). -/
def word (table : List (List Char × Op)) : Read := fun s =>
  match table.find? (fun e => iequals (s.takeWhile isAlnum) e.1) with
  | some e => some (e.2, s.dropWhile isAlnum)
  | none => none

/-- src/operators.cpp:455-465 -/
def intelPrefixWords : List (List Char × Op) :=
  [(['N', 'O', 'T'], intelBitwiseNot), (['H', 'I', 'G', 'H'], intelHigh),
   (['L', 'O', 'W'], intelLow), (['M', 'S', 'W'], intelMsw), (['L', 'S', 'W'], intelLsw)]

/-- src/operators.cpp:480-504 -/
def intelInfixWords : List (List Char × Op) :=
  [(['M', 'O', 'D'], opMod), (['A', 'N', 'D'], intelBitwiseAnd), (['O', 'R'], intelBitwiseOr),
   (['X', 'O', 'R'], intelBitwiseXor), (['S', 'H', 'R'], intelShiftRight),
   (['S', 'H', 'L'], intelShiftLeft), (['E', 'Q'], intelLogicalEq), (['N', 'E'], intelLogicalNe),
   (['L', 'T'], opLogicalLt), (['L', 'E'], opLogicalLe), (['G', 'E'], opLogicalGe),
   (['G', 'T'], opLogicalGt)]

/-- src/operators.cpp:443-471 -/
def intelPrefix : Read := fun s =>
  match expect '-' s with
  | some p => some (intelUnaryMinus, p)
  | none =>
    match expect '+' s with
    | some p => some (intelUnaryPlus, p)
    | none =>
      match word intelPrefixWords s with
      | some r => some r
      | none => cPrefix s

/-- src/operators.cpp:473-510 -/
def intelInfix : Read := fun s =>
  match word intelInfixWords s with
  | some r => some r
  | none => cInfix s

/-- src/operators.cpp:513: a binary operation with `nargs` 1 -/
def zilogShiftRight : Op := ⟨5, .left, 1, .bin shiftRight16⟩
/-- src/operators.cpp:514: a binary operation with `nargs` 1 -/
def zilogShiftLeft : Op := ⟨5, .left, 1, .bin shiftLeft16⟩
/-- src/operators.cpp:515 -/
def zilogBitwiseAnd : Op := ⟨5, .left, 2, .bin bitwiseAnd⟩
/-- src/operators.cpp:516 -/
def zilogBitwiseXor : Op := ⟨6, .left, 2, .bin bitwiseXor⟩
/-- src/operators.cpp:517 -/
def zilogBitwiseOr : Op := ⟨6, .left, 2, .bin bitwiseOr⟩

/-- src/operators.cpp:527-537 -/
def zilogPrefixWords : List (List Char × Op) :=
  [(['L', 'N', 'O', 'T'], opBitwiseNot), (['H', 'I', 'G', 'H'], intelHigh),
   (['L', 'O', 'W'], intelLow), (['H', 'I', 'G', 'H', '1', '6'], intelMsw),
   (['L', 'O', 'W', '1', '6'], intelLsw)]

/-- src/operators.cpp:552-564 -/
def zilogInfixWords : List (List Char × Op) :=
  [(['M', 'O', 'D'], opMod), (['S', 'H', 'R'], zilogShiftRight), (['S', 'H', 'L'], zilogShiftLeft),
   (['L', 'A', 'N', 'D'], zilogBitwiseAnd), (['L', 'O', 'R'], zilogBitwiseOr),
   (['L', 'X', 'O', 'R'], zilogBitwiseXor)]

/-- src/operators.cpp:520-543 -/
def zilogPrefix : Read := fun s =>
  match word zilogPrefixWords s with
  | some r => some r
  | none => cPrefix s

/-- src/operators.cpp:545-570 -/
def zilogInfix : Read := fun s =>
  match word zilogInfixWords s with
  | some r => some r
  | none => cInfix s

/-- src/operators.cpp:572-580 -/
def signeticsPrefix : Read := fun s =>
  match expect '<' s with
  | some p => some (intelLow, p)
  | none =>
    match expect '>' s with
    | some p => some (intelHigh, p)
    | none => cPrefix s

/-- src/operators.cpp:582-587 -/
def texasPrefix : Read := fun s =>
  match expect '#' s with
  | some p => some (opBitwiseNot, p)
  | none => cPrefix s

/-- src/operators.cpp:589-603 -/
def texasInfix : Read := fun s =>
  match iexpectText ['+', '+'] s with
  | some p => some (opBitwiseOr, p)
  | none =>
    match iexpectText ['&', '&'] s with
    | some p => some (opBitwiseXor, p)
    | none =>
      match iexpectText ['/', '/'] s with
      | some p => some (motorolaShiftRight, p)
      | none =>
        match expect '=' s with
        | some p => some (opLogicalEq, p)
        | none =>
          match iexpectText ['#', '='] s with
          | some p => some (opLogicalNe, p)
          | none => cInfix s

/-- src/operators.cpp:605-610 -/
def pdp8Infix : Read := fun s =>
  match expect '!' s with
  | some p => some (opBitwiseOr, p)
  | none => cInfix s

/-- src/operators.cpp:698 -/
def opRestoreRadix : Op := ⟨3, .right, 1, .restoreRadix⟩

/-- src/operators.cpp:725-727: `stack.pushUnsigned(context.defaultRadix)`, not guarded. -/
def pushRadix (old new : Radix) (p : Scan) (st : List Value) :
    Out (Option Op × Scan × List Value × Radix) :=
  (push (Value.setUnsigned old.toNat) st).bind fun st => .ok (some opRestoreRadix, p, st, new)

/-- src/operators.cpp:716-747 without the `^F` operator. -/
def pdp11Prefix (s : Scan) (st : List Value) (radix : Radix) :
    Out (Option Op × Scan × List Value × Radix) :=
  if deref s = '<' ∧ at' s 1 ≠ '<' ∧ at' s 1 ≠ '=' then .ok (none, s, st, radix)
  else
    match expect '^' s with
    | some p =>
      match iexpect 'D' p with
      | some p => pushRadix radix .r10 p st
      | none =>
        match iexpect 'O' p with
        | some p => pushRadix radix .r8 p st
        | none =>
          match iexpect 'B' p with
          | some p => pushRadix radix .r2 p st
          | none =>
            match iexpect 'C' p with
            | some p => .ok (some opBitwiseNot, p, st, radix)
            | none => pure cPrefix s st radix
    | none => pure cPrefix s st radix

/-- src/operators.cpp:749-758 -/
def pdp11Infix : Read := fun s =>
  if deref s = '>' ∧ at' s 1 ≠ '>' ∧ at' s 1 ≠ '=' then none
  else
    match expect '!' s with
    | some p => some (opBitwiseOr, p)
    | none => cInfix s

/-- The operator parsers of src/operators.h:142-182. -/
inductive OpStyle | c | intel | motorola | signetics | texas | zilog | pdp8 | pdp11
deriving DecidableEq, Repr

/-- src/operators.h:142-182: which `readPrefix`, `readInfix`, `isOpenExpr`, `isCloseExpr` every
operator parser has. -/
def OpStyle.parser : OpStyle → OpParser Value
  | .c => Eval.parser cPrefix cInfix
  | .intel => Eval.parser intelPrefix intelInfix
  | .motorola => Eval.parser cPrefix motorolaInfix
  | .signetics => Eval.parser signeticsPrefix cInfix
  | .texas => Eval.parser texasPrefix texasInfix
  | .zilog => Eval.parser zilogPrefix zilogInfix
  | .pdp8 => Eval.parser cPrefix pdp8Infix
  | .pdp11 =>
    { readPrefix := pdp11Prefix, readInfix := pdp11Infix
      isOpen := fun s => (expect '(' s).orElse fun _ => expect '<' s
      isClose := fun s => (expect ')' s).orElse fun _ => expect '>' s }

/-- `static_cast<Radix>(v.getUnsigned())`; the code only does this to a radix it pushed. -/
def toRadix (v : Value) : Radix :=
  if v.getUnsigned = 2 then .r2 else if v.getUnsigned = 8 then .r8
  else if v.getUnsigned = 16 then .r16 else .r10

end Libasm.Eval
