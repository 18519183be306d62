import Verif.Base.Error
import Verif.Base.Scan
import Verif.Number.Model
/-
Model of the expression evaluator: src/value_parser.cpp:129-342 (`OperatorStack`, `eval`, `_eval`),
src/stack.h, and `Operator`, `ValueStack` of src/operators.h and src/operators.cpp:31-49.

The type `V` of the values is a parameter: the control of `_eval` does not depend on it.  The
plugins (number, letter, symbol, comment and operator parsers, symbol and function table) are a
structure of functions; Verif/Eval/Operators.lean and Verif/Eval/Default.lean define the ones of
the library.  Error positions (`ErrorAt::_at`) are not modelled, only the error codes.

Stacks are lists with the top first.  Reading `ostack.top()` of an empty stack and writing
`_contents[8]` are the outcome `stackUB`.
-/
namespace Libasm.Eval
open Scan Number

/-- What can come out of running a piece of C++: an access outside of a stack, another kind of
undefined behaviour (signed overflow), no termination within the fuel, or a result. -/
inductive Out (α : Type) where
  | stackUB | ub | diverge
  | ok (a : α)

namespace Out
/-- Sequencing. -/
def bind {α β : Type} : Out α → (α → Out β) → Out β
  | .ok a, f => f a
  | .stackUB, _ => .stackUB
  | .ub, _ => .ub
  | .diverge, _ => .diverge
end Out

/-- src/operators.h:53-57 `Operator::Assoc`. -/
inductive Assoc | left | right | none
deriving DecidableEq, Repr

/-- What an `Operator` does to the value stack: pops one or two values and pushes the result
(every `OperatorEval` of src/operators.cpp but `restore_radix` has one of the first two forms), or
`_fn`: `nargs()` and what the function computes from the value stack, or nothing (a
parenthesis).  The value of an operator or function that returns an error is never looked at. -/
inductive Kind (V : Type) where
  | un (f : V → Out (Except Err V))
  | bin (f : V → V → Out (Except Err V))
  | restoreRadix
  | fn (nargs : Int) (f : List V → Out (Except Err V))
  | none

/-- src/operators.h:51-130 `Operator`. `nargs` is also `stackPosition()`. -/
structure Operator (V : Type) where
  prec : Nat
  assoc : Assoc
  nargs : Nat
  kind : Kind V

/-- `CAPACITY` of src/operators.h:29 and src/value_parser.cpp:129. -/
def capacity : Nat := 8

namespace Operator
variable {V : Type}

/-- src/operators.cpp:31-33 -/
def isHigher (t o : Operator V) : Bool :=
  decide (t.prec < o.prec) || (decide (t.prec = o.prec) && decide (o.assoc = .left))

/-- src/operators.cpp:35-37 -/
def isNoneAssoc (t o : Operator V) : Bool :=
  decide (t.prec = o.prec) && decide (t.assoc = .none)

/-- src/operators.h:97 -/
def isOpenParen (t : Operator V) : Bool := decide (t.prec = 254)

/-- src/operators.h:89 -/
def isFunction (t : Operator V) : Bool :=
  match t.kind with
  | .fn _ _ => true
  | _ => false

/-- src/operators.h:95-96: constructor for an opening parenthesis. -/
def paren (pos : Nat) : Operator V := ⟨254, .left, pos, .none⟩

/-- src/operators.h:87-88: constructor for a function. -/
def function (nargs : Int) (f : List V → Out (Except Err V)) : Operator V :=
  ⟨2, .left, 0, .fn nargs f⟩

end Operator

variable {V : Type}

/-- src/stack.h:36 `pop`; `ELEM()` from an empty stack. -/
def pop (undef : V) : List V → V × List V
  | [] => (undef, [])
  | v :: st => (v, st)

/-- src/operators.h:31-33 `ValueStack::push`: not guarded. -/
def push (v : V) (st : List V) : Out (List V) :=
  if st.length < capacity then .ok (v :: st) else .stackUB

/-- Pushes the result of an operator unless it is an error. -/
def pushResult (st : List V) : Except Err V → Out (Except Err (List V))
  | .error e => .ok (.error e)
  | .ok v => (push v st).bind fun st => .ok (.ok st)

/-- src/operators.cpp:39-49 `Operator::eval`.  An operator of kind `none` has a null `_op`. -/
def Operator.eval (undef : V) (toRadix : V → Radix)
    (o : Operator V) (st : List V) (radix : Radix) (argc : Int) :
    Out (Except Err (List V × Radix)) :=
  let argc : Int := if argc = 0 then st.length else argc
  match o.kind with
  | .fn nargs f =>
    if nargs < 0 ∨ argc = nargs then
      -- driver/function_store.cpp:94-100: the value, then `argc` pops, then a push
      (f st).bind fun r =>
        (pushResult (st.drop (argc % 256).toNat) r).bind fun r => .ok (r.map (·, radix))
    else .ok (.error (if argc > nargs then .TOO_MANY_FUNC_ARGUMENT else .TOO_FEW_FUNC_ARGUMENT))
  | k =>
    if argc ≥ o.nargs then
      match k with
      | .un f =>
        let (v, st) := pop undef st
        (f v).bind fun r => (pushResult st r).bind fun r => .ok (r.map (·, radix))
      | .bin f =>
        let (rhs, st) := pop undef st
        let (lhs, st) := pop undef st
        (f lhs rhs).bind fun r => (pushResult st r).bind fun r => .ok (r.map (·, radix))
      | .restoreRadix =>
        -- src/operators.cpp:691-697
        let (v, st) := pop undef st
        let (r, st) := pop undef st
        (push v st).bind fun st => .ok (.ok (st, toRadix r))
      | _ => .ub
    else .ok (.error .MISSING_OPERAND)

/-- src/operators.h:135-140 `OperatorParser`. `readPrefix` may push on the value stack and change
the default radix (PDP-11). -/
structure OpParser (V : Type) where
  readPrefix : Scan → List V → Radix → Out (Option (Operator V) × Scan × List V × Radix)
  readInfix : Scan → Option (Operator V × Scan)
  isOpen : Scan → Option Scan
  isClose : Scan → Option Scan

/-- src/value_parser.h:30-40 `ParserContext` and src/value_parser.h:116-122: what `_eval` uses. -/
structure Plugins (V : Type) where
  /-- `Value()` -/
  undef : V
  /-- `static_cast<Radix>(value.getUnsigned())` (PDP-11) -/
  toRadix : V → Radix
  ops : OpParser V
  /-- `_comment.endOfLine`, at a text without leading spaces -/
  endOfLine : Scan → Bool
  /-- src/value_parser.cpp:377-419: error, value, remaining text -/
  parseConstant : Scan → Radix → Err × V × Scan
  /-- src/value_parser.cpp:463-472: name, remaining text -/
  readFunctionName : Scan → Option (List Char × Scan)
  /-- src/value_parser.cpp:421-430: name, remaining text -/
  readSymbol : Scan → Option (List Char × Scan)
  /-- `_function.lookupFunction`, then `context.symbolTable->lookupFunction` -/
  lookupFunction : List Char → Option (Int × (List V → Out (Except Err V)))
  /-- `context.symbolTable->lookupSymbol` -/
  lookupSymbol : List Char → Option V
  /-- `context.delimitor` -/
  delimitor : Char

/-- What one iteration of the loop of `_eval` has read. Not in the code: only recorded to state
properties about the tokens of a text. -/
inductive Tok | operand | prefix | infix | fn | comma | opening | closing
deriving DecidableEq, Repr

/-- The local variables of `_eval`, src/value_parser.cpp:143-149, with `scan`, `error` and
`context.defaultRadix`. -/
structure St (V : Type) where
  scan : Scan
  vst : List V
  ost : List (Operator V)
  endOfExpr : Char
  inParen : Nat
  maybePrefix : Bool
  expectFnArgs : Bool
  inFnArgs : Nat
  err : Err
  radix : Radix
  /-- not in the code: the tokens read so far, newest first -/
  trace : List Tok

/-- src/error_reporter.h:139-141,153-155 `setErrorIf`. -/
def setErrorIf (err e : Err) : Err := if err = .OK then e else err

/-- src/error_reporter.h:124 `hasError`. -/
def hasError (err : Err) : Bool := decide (err ≠ .OK ∧ err ≠ .UNDEFINED_SYMBOL)

/-- How an iteration of the loop ends: `continue`, `break` or `return` of a value. -/
inductive Next (V : Type) where
  | cont (s : St V)
  | brk (s : St V)
  | ret (s : St V) (v : V)

/-- `error.setErrorIf(at, e); return Value();` -/
def fail (P : Plugins V) (s : St V) (e : Err) : Out (Next V) :=
  .ok (.ret { s with err := setErrorIf s.err e } P.undef)

/-- `op.eval(vstack, context)` -/
def evalOp (P : Plugins V) (o : Operator V) (st : List V) (radix : Radix) (argc : Int) :
    Out (Except Err (List V × Radix)) := o.eval P.undef P.toRadix st radix argc

/-- src/value_parser.cpp:235-250: reduce while the top of the operator stack binds tighter. -/
def reduceInfix (P : Plugins V) (opr : Operator V) :
    List (Operator V) → List V → Radix → Out (Except Err (List (Operator V) × List V × Radix))
  | [], st, r => .ok (.ok ([], st, r))
  | t :: os, st, r =>
    if t.isNoneAssoc opr then .ok (.error .OPERATOR_NOT_ASSOCIATIVE)
    else if t.isHigher opr then
      (evalOp P t st r 0).bind fun
        | .error e => .ok (.error e)
        | .ok (st, r) => reduceInfix P opr os st r
    else .ok (.ok (t :: os, st, r))

/-- src/value_parser.cpp:263-270: reduce to the opening parenthesis; `top()` is not guarded. -/
def reduceComma (P : Plugins V) :
    List (Operator V) → List V → Radix → Out (Except Err (List (Operator V) × List V × Radix))
  | [], _, _ => .stackUB
  | t :: os, st, r =>
    if t.isOpenParen then .ok (.ok (t :: os, st, r))
    else
      (evalOp P t st r 0).bind fun
        | .error e => .ok (.error e)
        | .ok (st, r) => reduceComma P os st r

/-- src/value_parser.cpp:296-303: reduce to the opening parenthesis or the bottom. -/
def reduceClose (P : Plugins V) :
    List (Operator V) → List V → Radix → Out (Except Err (List (Operator V) × List V × Radix))
  | [], st, r => .ok (.ok ([], st, r))
  | t :: os, st, r =>
    if t.isOpenParen then .ok (.ok (t :: os, st, r))
    else
      (evalOp P t st r 0).bind fun
        | .error e => .ok (.error e)
        | .ok (st, r) => reduceClose P os st r

/-- src/value_parser.cpp:329-340: reduce everything. -/
def reduceAll (P : Plugins V) :
    List (Operator V) → List V → Radix → Out (Except Err (List V × Radix))
  | [], st, r => .ok (.ok (st, r))
  | t :: os, st, r =>
    if t.isOpenParen then .ok (.error .MISSING_CLOSING_PAREN)
    else
      (evalOp P t st r 0).bind fun
        | .error e => .ok (.error e)
        | .ok (st, r) => reduceAll P os st r

/-- src/value_parser.cpp:234-259: `opr` was read, `scan` is the text after it. -/
def stepOperator (P : Plugins V) (s : St V) (opr : Operator V) (scan : Scan) : Out (Next V) :=
  (reduceInfix P opr s.ost s.vst s.radix).bind fun
    | .error e => fail P { s with scan := scan } e
    | .ok (ost, vst, radix) =>
      let s := { s with scan := scan, vst := vst, radix := radix }
      if ost.length ≥ capacity then fail P { s with ost := ost } .TOO_COMPLEX_EXPRESSION
      else
        .ok (.cont { s with
          ost := opr :: ost, maybePrefix := true
          trace := (if s.maybePrefix then .prefix else .infix) :: s.trace })

/-- src/value_parser.cpp:261-326: comma, parentheses, or the end of the expression.  `expr` is the
text at the start of the iteration, `scan` the same without leading spaces. -/
def stepPunct (P : Plugins V) (s : St V) (expr scan : Scan) : Out (Next V) :=
  match (if s.inFnArgs > 0 then expect ',' scan else none) with
  | some rest =>
    (reduceComma P s.ost s.vst s.radix).bind fun
      | .error e => fail P { s with scan := rest } e
      | .ok (ost, vst, radix) =>
        .ok (.cont { s with
          scan := rest, ost := ost, vst := vst, radix := radix, maybePrefix := true
          trace := .comma :: s.trace })
  | none =>
    match P.ops.isOpen scan with
    | some rest =>
      if !s.maybePrefix && !s.expectFnArgs then .ok (.brk { s with scan := scan })
      else if s.ost.length ≥ capacity then
        fail P { s with scan := rest } .TOO_COMPLEX_EXPRESSION
      else
        .ok (.cont { s with
          scan := rest, ost := .paren s.vst.length :: s.ost, endOfExpr := '\x00'
          inParen := s.inParen + 1, maybePrefix := true, expectFnArgs := false
          trace := .opening :: s.trace })
    | none =>
      match P.ops.isClose scan with
      | some rest =>
        (reduceClose P s.ost s.vst s.radix).bind fun
          | .error e => fail P { s with scan := rest } e
          | .ok ([], vst, radix) =>
            .ok (.brk { s with scan := rest, ost := [], vst := vst, radix := radix })
          | .ok (openParen :: ost, vst, radix) =>
            let s := { s with scan := rest, vst := vst, radix := radix, ost := ost }
            let close := fun (s : St V) =>
              .ok (.cont { s with
                inParen := s.inParen - 1, maybePrefix := false
                endOfExpr := if s.inParen - 1 = 0 then P.delimitor else s.endOfExpr
                trace := .closing :: s.trace })
            match ost with
            | fn :: ost =>
              if fn.isFunction then
                let argc : Int := vst.length - openParen.nargs
                (evalOp P fn vst radix argc).bind fun
                  | .error e => fail P s e
                  | .ok (vst, radix) =>
                    close { s with ost := ost, vst := vst, radix := radix
                                   inFnArgs := s.inFnArgs - 1 }
              else close s
            | [] => close s
      | none => .ok (.brk { s with scan := expr })

/-- src/value_parser.cpp:207-222: read a symbol, otherwise go on at line 225, where `readPrefix`
is called a second time with the same text and again returns null. -/
def stepSymbol (P : Plugins V) (s : St V) (expr scan : Scan) : Out (Next V) :=
  match P.readSymbol scan with
  | some (name, rest) =>
    if s.vst.length ≥ capacity then fail P { s with scan := rest } .TOO_COMPLEX_EXPRESSION
    else
      let s := { s with scan := rest, maybePrefix := false, trace := .operand :: s.trace }
      match P.lookupSymbol name with
      | some v => (push v s.vst).bind fun vst => .ok (.cont { s with vst := vst })
      | none =>
        (push P.undef s.vst).bind fun vst =>
          .ok (.cont { s with vst := vst, err := setErrorIf s.err .UNDEFINED_SYMBOL })
  | none => stepPunct P s expr scan

/-- src/value_parser.cpp:168-222: a constant, function name or symbol where an operand may
stand. -/
def stepOperand (P : Plugins V) (s : St V) (expr scan : Scan) : Out (Next V) :=
  match P.parseConstant scan s.radix with
  | (.OK, v, rest) =>
    if s.vst.length ≥ capacity then fail P { s with scan := rest } .TOO_COMPLEX_EXPRESSION
    else
      (push v s.vst).bind fun vst =>
        .ok (.cont { s with
          scan := rest, vst := vst, maybePrefix := false, trace := .operand :: s.trace })
  | (.NOT_AN_EXPECTED, v, _) =>
    match P.readFunctionName scan with
    | some (name, rest) =>
      match P.lookupFunction name with
      | some (nargs, f) =>
        let start := skipSpaces rest
        match P.ops.isOpen start with
        | none =>
          .ok (.ret { s with scan := start, err := setErrorIf s.err .MISSING_FUNC_ARGUMENT } v)
        | some _ =>
          -- src/stack.h:32-35: a guarded push
          let ost := if s.ost.length < capacity then Operator.function nargs f :: s.ost else s.ost
          .ok (.cont { s with
            scan := start, ost := ost, maybePrefix := false, expectFnArgs := true
            inFnArgs := s.inFnArgs + 1, trace := .fn :: s.trace })
      | none => stepSymbol P s expr scan
    | none => stepSymbol P s expr scan
  | (e, v, rest) => .ok (.ret { s with scan := rest, err := setErrorIf s.err e } v)

/-- src/value_parser.cpp:150-327: one iteration of the loop. -/
def step (P : Plugins V) (s : St V) : Out (Next V) :=
  let scan := skipSpaces s.scan
  if P.endOfLine scan then .ok (.brk { s with scan := scan })
  else if deref scan = s.endOfExpr ∧ s.vst ≠ [] then .ok (.brk { s with scan := scan })
  else if s.maybePrefix then
    (P.ops.readPrefix scan s.vst s.radix).bind fun (opr, rest, vst, radix) =>
      let s' := { s with vst := vst, radix := radix }
      if hasError s.err then .ok (.ret { s' with scan := rest } P.undef)
      else
        match opr with
        | some o => stepOperator P s' o rest
        | none => stepOperand P s' s.scan scan
  else
    match P.ops.readInfix scan with
    | some (o, rest) =>
      if hasError s.err then .ok (.ret { s with scan := rest } P.undef)
      else stepOperator P s o rest
    | none =>
      if hasError s.err then .ok (.ret { s with scan := scan } P.undef)
      else stepPunct P s s.scan scan

/-- What `eval` leaves behind: the value it returns, `error`, `scan`; and the tokens read (ghost,
oldest first). -/
structure Result (V : Type) where
  value : V
  err : Err
  scan : Scan
  tokens : List Tok

/-- src/value_parser.cpp:329-341: after the loop. -/
def finish (P : Plugins V) (s : St V) : Out (Result V) :=
  (reduceAll P s.ost s.vst s.radix).bind fun
    | .error e => .ok ⟨P.undef, setErrorIf s.err e, s.scan, s.trace.reverse⟩
    | .ok (vst, _) => .ok ⟨(pop P.undef vst).1, s.err, s.scan, s.trace.reverse⟩

/-- src/value_parser.cpp:150-342: at most `fuel` iterations. -/
def loop (P : Plugins V) : Nat → St V → Out (Result V)
  | 0, _ => .diverge
  | fuel + 1, s =>
    (step P s).bind fun
      | .cont s => loop P fuel s
      | .brk s => finish P s
      | .ret s v => .ok ⟨v, s.err, s.scan, s.trace.reverse⟩

/-- src/value_parser.cpp:143-149: initial values. -/
def start (P : Plugins V) (scan : Scan) (err : Err) (radix : Radix) : St V :=
  { scan := scan, vst := [], ost := [], endOfExpr := P.delimitor, inParen := 0
    maybePrefix := true, expectFnArgs := false, inFnArgs := 0, err := err, radix := radix
    trace := [] }

/-- src/value_parser.cpp:134-140 `eval`, running at most `fuel` iterations. -/
def evalFuel (P : Plugins V) (fuel : Nat) (text : Scan) (err : Err) (radix : Radix) :
    Out (Result V) :=
  let scan := skipSpaces text
  (loop P fuel (start P scan err radix)).bind fun r =>
    .ok (if r.scan.length = scan.length then
      { r with err := setErrorIf r.err .NOT_AN_EXPECTED } else r)

/-- `eval`, with as many iterations as the text has characters, and one more. -/
def eval (P : Plugins V) (text : Scan) (err : Err) (radix : Radix) : Out (Result V) :=
  evalFuel P (text.length + 1) text err radix

end Libasm.Eval
