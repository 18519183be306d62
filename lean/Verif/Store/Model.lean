import Verif.Eval.Default
/-
Model of driver/symbol_store.cpp, driver/symbol_store.h, driver/function_store.cpp and
driver/function_store.h.

A `std::map` is a list of pairs; the first pair with a key counts, and `clear` leaves the empty
list.  Names are the character lists `std::string(symbol.str(), symbol.size())`.  A `Value` is an
integer one (Verif/Value/Model.lean).
-/
namespace Libasm.Store
open Eval Number

abbrev Name := List Char

/-- A `std::map` keyed by strings. -/
abbrev Map (α : Type) := List (Name × α)

/-- `map.find(key)` -/
def Map.find {α : Type} (m : Map α) (key : Name) : Option α :=
  match m with
  | [] => none
  | (k, v) :: rest => if k = key then some v else Map.find rest key

/-- `map[key] = value` -/
def Map.put {α : Type} (m : Map α) (key : Name) (v : α) : Map α := (key, v) :: m

/-- `map == other`: the same keys, with equal values. -/
def Map.same {α : Type} (eq : α → α → Bool) (a b : Map α) : Bool :=
  (a.map Prod.fst ++ b.map Prod.fst).all fun k =>
    match a.find k, b.find k with
    | some x, some y => eq x y
    | none, none => true
    | _, _ => false

/-- driver/function_store.h:51-70 `Function`: the body and the positions of the parameters. The
members `parser` and `symtab` are the same for all functions of a store. -/
structure Fn where
  body : List Char
  paramsAt : Map Nat
deriving DecidableEq, Repr

/-- driver/symbol_store.h:62-65. -/
structure Symbols where
  constants : Map Value
  variables : Map Value
  functions : Map Fn

/-- driver/symbol_store.cpp:22: an empty store; also lines 39-43 `clear`. -/
def Symbols.empty : Symbols := ⟨[], [], []⟩

/-- driver/symbol_store.cpp:44-46 `clearFunctions`. -/
def Symbols.clearFunctions (s : Symbols) : Symbols := { s with functions := [] }

/-- driver/symbol_store.cpp:24-27 `operator==`; the values are compared with `Value::operator==`,
the functions by body and parameters (driver/function_store.cpp:28-30). -/
def Symbols.same (a b : Symbols) : Bool :=
  Map.same Value.eq a.constants b.constants && Map.same Value.eq a.variables b.variables &&
    Map.same (fun f g => decide (f.body = g.body) && Map.same (fun i j : Nat => decide (i = j)) f.paramsAt g.paramsAt)
      a.functions b.functions

/-- driver/symbol_store.cpp:63-67 `hasValue`. -/
def Symbols.hasValue (s : Symbols) (name : Name) (isVar : Bool) : Bool :=
  ((if isVar then s.variables else s.constants).find name).isSome

/-- driver/symbol_store.cpp:48-50 `hasSymbol`. -/
def Symbols.hasSymbol (s : Symbols) (name : Name) : Bool :=
  s.hasValue name false || s.hasValue name true

/-- driver/symbol_store.cpp:52-61 `lookupSymbol`. -/
def Symbols.lookup (s : Symbols) (name : Name) : Option Value :=
  match s.constants.find name with
  | some v => some v
  | none => s.variables.find name

/-- driver/symbol_store.cpp:69-79 `internSymbol`: the store afterwards and the error. -/
def Symbols.intern (s : Symbols) (v : Value) (name : Name) (isVar : Bool) : Symbols × Err :=
  if s.hasValue name (!isVar) then (s, .DUPLICATE_LABEL)
  else if v.overflowUint32 then (s, .OVERFLOW_RANGE)
  else if isVar then ({ s with variables := s.variables.put name v }, .OK)
  else ({ s with constants := s.constants.put name v }, .OK)

/-- driver/symbol_store.cpp:81-83 `hasFunction`. -/
def Symbols.hasFunction (s : Symbols) (name : Name) : Bool := (s.functions.find name).isSome

/-- driver/function_store.cpp:63-66: the loop over the parameters; `emplace` keeps what is there.
`argc` is the value before `--argc`. -/
def bindParams : List Name → Nat → Map Nat → Map Nat
  | [], _, m => m
  | p :: ps, argc, m =>
    bindParams ps (argc - 1) (if (m.find p).isSome then m else m.put p (argc - 1))

/-- driver/function_store.cpp:57-70 `internFunction`, driver/symbol_store.cpp:90-93. -/
def Symbols.internFunction (s : Symbols) (name : Name) (params : List Name) (body : List Char) :
    Symbols × Err :=
  if (s.functions.find name).isSome then (s, .DUPLICATE_FUNCTION)
  else
    ({ s with functions := s.functions.put name ⟨body, bindParams params params.length []⟩ }, .OK)

/-- driver/function_store.h:57 `nargs`: `paramsAt.size()`, narrowed to 8 bits. -/
def Fn.nargs (f : Fn) : Int :=
  if f.paramsAt.length % 256 < 128 then (f.paramsAt.length % 256 : Nat)
  else ((f.paramsAt.length % 256 : Nat) : Int) - 256

/-- driver/function_store.cpp:76-81 `Binding::lookupSymbol`: a parameter is
`stack.at(position)`, counted from the top; other names are looked up in the table of the caller. -/
def bound {V : Type} (f : Fn) (st : List V) (parent : Name → Option V) (name : Name) : Option V :=
  match f.paramsAt.find name with
  | some pos => st[pos]?
  | none => parent name

variable {V : Type}

/-- driver/function_store.cpp:87-101 `Function::eval`, without the pops and the push, which
`Operator.eval` has: the value of the body, or its error.  `mk` makes the plugins with a symbol
table; evaluation of the body starts with the radix of the caller's context.  A parameter whose
position is outside the stack is undefined behaviour: here as soon as the function is called, in
the code when the body reads it. -/
def Fn.eval (mk : (Name → Option V) → Plugins V) (radix : Radix) (f : Fn)
    (parent : Name → Option V) (st : List V) : Out (Except Err V) :=
  if f.paramsAt.all (fun p => decide (p.2 < st.length)) then
    (Eval.eval (mk (bound f st parent)) f.body .OK radix).bind fun r =>
      .ok (if r.err = .OK then .ok r.value else .error r.err)
  else .ub

/-- The plugins `P` of a CPU with a symbol table and the functions of a store: a built-in function
first, then one of the store (src/value_parser.cpp:184-188), which is evaluated with `call`. -/
def withFns (P : Plugins V) (fns : Map Fn) (symbols : Name → Option V)
    (call : Fn → List V → Out (Except Err V)) : Plugins V :=
  { P with
    lookupSymbol := symbols
    lookupFunction := fun name =>
      match P.lookupFunction name with
      | some r => some r
      | none =>
        match fns.find name with
        | none => none
        | some f => some (f.nargs, call f) }

/-- The plugins for an evaluation with a symbol table: a function is evaluated with the symbol table
of its caller as `parent` (driver/function_store.cpp:91: dynamic scope).  `depth` bounds the nesting
of calls; the code has no bound and overflows the C++ stack.  Simplified: the radix is the one the
outermost evaluation starts with (PDP-11 `^D` and the like, which change it within an expression, do
not reach the function). -/
def plugins (P : Plugins V) (fns : Map Fn) (radix : Radix) : Nat → (Name → Option V) → Plugins V
  | 0, symbols => withFns P fns symbols fun _ _ => .diverge
  | d + 1, symbols =>
    withFns P fns symbols fun f st => f.eval (plugins P fns radix d) radix symbols st

end Libasm.Store
