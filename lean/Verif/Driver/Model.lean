import Verif.Store.Model
import Verif.Config.Model
import Verif.BinMemory.Model
/-
Model of driver/asm_sources.h, cli/file_sources.h, driver/asm_directive.cpp, the assembly loop of
driver/asm_driver.cpp and the pass loop of cli/asm_commander.cpp.

The assemblers of the driver are a parameter (`Cpu`): a type `σ` for the state of all of them and of
the driver's choice among them, and the operations the driver uses.  The theorems hold for every
value of that parameter.  What an assembler may depend on is written in the types of its operations:
its state and the symbol table as it can be looked up.

Errors are codes; the places they are about are not modelled.  Text output is not modelled: the
listing is the list of what `AsmFormatter::set` is given for each line, and the error output holds a
line for each of these with an error (driver/asm_driver.cpp:141-147: `getLine` is called at least
once for each, driver/asm_formatter.cpp:51,58-60).
-/
namespace Libasm.Driver
open Eval (Out)
open Store (Name Symbols Fn)
open Config (setErrorIf)
open Insn (Buf)

/-! ### Sources -/

/-- driver/text_reader.h, cli/file_reader.h: an open file: its name, the lines not yet read (as
delivered by the model of `FileReader::readLine`, Verif/Reader/Model.lean) and `lineno()`. -/
structure Reader where
  name : Name
  rest : List (List Char)
  lineno : Nat
deriving DecidableEq, Repr

/-- cli/file_sources.h:58 `_sources`; the last opened reader is the head of the list. -/
abbrev Sources := List Reader

/-- The files that can be opened and their lines. -/
abbrev Files := Name → Option (List (List Char))

/-- cli/file_sources.h:57 `max_includes`. -/
def maxIncludes : Nat := 4

/-- cli/file_sources.h:33-35: the name of the including file has a directory. -/
def Sources.inDirectory (s : Sources) : Bool :=
  match s with
  | [] => false
  | parent :: _ => parent.name.contains '/'

/-- cli/file_sources.h:30-47 `open`.  Line 40 `_sources.push_back(path)` makes a temporary reader and
copies it into the list; `FileReader` has a destructor that frees its line buffer but no copy
constructor (cli/file_reader.h:28-44), so the reader in the list is left with a freed buffer: the
next `readLine`, or the destructor, is undefined behaviour.  It is `ub` here at once.  Line 36
`emplace_back` makes the reader in place. -/
def Sources.open (files : Files) (s : Sources) (name : Name) : Out (Sources × Err) :=
  if s.length ≥ maxIncludes then .ok (s, .TOO_MANY_INCLUDE)
  else if s.inDirectory && decide (Scan.deref name ≠ '/') then .ub
  else
    match files name with
    | none => .ok (s, .NO_INCLUDE_FOUND)
    | some lines => .ok (⟨name, lines, 0⟩ :: s, .OK)

/-- cli/file_sources.h:49-54 `closeCurrent`; on no source it is undefined. -/
def Sources.closeCurrent (s : Sources) : Sources := s.tail

/-- driver/asm_sources.h:32-41 `readLine`. -/
def Sources.readLine : Sources → Option (List Char) × Sources
  | [] => (none, [])
  | r :: rs =>
    match r.rest with
    | line :: lines => (some line, { r with rest := lines, lineno := r.lineno + 1 } :: rs)
    | [] => Sources.readLine rs

/-- driver/asm_sources.h:44-50 `nest`. -/
def Sources.nest (s : Sources) : Nat :=
  match s with
  | [] => 0
  | r :: _ => if r.lineno ≠ 0 then s.length else s.length - 1

/-- driver/asm_driver.cpp:151-152: `while (sources.nest()) sources.closeCurrent();` -/
def Sources.closeAll (s : Sources) : Sources :=
  match s with
  | [] => []
  | r :: rs => if Sources.nest (r :: rs) = 0 then r :: rs else Sources.closeAll rs

/-! ### Directives of the driver -/

/-- The handlers of driver/asm_directive.h:86-92. -/
inductive Handler | constant | variable_ | setVariable | include_ | cpu | end_ | function
deriving DecidableEq, Repr

/-- What an assembler and its expression parser see of a symbol store:
src/symbol_table.h, driver/function_store.h. -/
structure View where
  symbol : Name → Option Value
  function : Name → Option Fn

/-- The view of a store. -/
def view (s : Symbols) : View := ⟨s.lookup, s.functions.find⟩

/-- The assemblers. `δ` is the type of pointers to a directive (`AsmDirective *`). -/
structure Cpu (σ δ : Type) where
  /-- driver/asm_driver.h:41 `current` -/
  current : σ → δ
  /-- src/value_parser.h:111 `commentLine` -/
  commentLine : σ → δ → Scan → Bool
  /-- src/value_parser.cpp:432-442 `readLabel`: the label, empty if there is none, and the rest -/
  readLabel : σ → δ → Scan → Name × Scan
  /-- src/value_parser.h:112 `endOfLine`, which may skip spaces -/
  endOfLine : σ → δ → Scan → Bool × Scan
  /-- src/value_parser.cpp:444-462 `readInstruction`: the name, empty if there is none -/
  readInstruction : σ → δ → Scan → Name × Scan
  /-- src/value_parser.cpp:421-430 `readSymbol` -/
  readSymbol : σ → δ → Scan → Option (Name × Scan)
  /-- driver/asm_directive.cpp:143-149: the table of pseudo instructions of a directive -/
  pseudo : δ → Name → Option Handler
  /-- src/asm_base.cpp:74-76 `setCurrentLocation`, its result unused -/
  setLocation : σ → δ → Nat → σ
  /-- src/asm_base.h `currentLocation` -/
  location : σ → δ → Nat
  /-- src/config_base.h `addressUnit` in bytes -/
  unit : σ → δ → Nat
  /-- src/value_parser.cpp:134-140 `eval` at the current location: value, error and rest -/
  eval : σ → δ → View → Scan → Out (Value × Err × Scan)
  /-- src/asm_base.cpp:77-105 `encode`, with an instruction at the address -/
  encode : σ → δ → View → Nat → Scan → Out (σ × Buf)
  /-- driver/asm_driver.cpp:74-84 `setCpu` -/
  setCpu : σ → Name → Option σ

variable {σ δ : Type}

/-- What a line works on: the assemblers, the symbols, the sources, and of the directive the error
slot; of `Context` (driver/asm_directive.h:51-64) the label and the value. -/
structure Work (σ : Type) where
  asm : σ
  symbols : Symbols
  sources : Sources
  error : Err
  label : Name
  value : Value

/-- src/error_reporter.h:124 `hasError`. -/
def hasError (e : Err) : Bool := decide (e ≠ .OK) && decide (e ≠ .UNDEFINED_SYMBOL)

/-- driver/asm_directive.cpp:185-193: the checks of `defineSymbol`. -/
def isDuplicate (s : Symbols) (symbol : Name) (isVar : Bool) : Bool :=
  (!isVar && s.hasValue symbol false) || s.hasValue symbol (!isVar) || s.hasFunction symbol

/-- driver/asm_directive.cpp:183-208 `defineSymbol`; the rest of the text is the second result.
`report` is `reportError`: undefined symbols are reported if it is set, duplicates if it is not
(driver/asm_directive.h:54-57). -/
def defineSymbol (C : Cpu σ δ) (d : δ) (report : Bool) (scan : Scan) (symbol : Name) (isVar : Bool)
    (w : Work σ) : Out (Work σ × Scan) :=
  if !report && isDuplicate w.symbols symbol isVar then
    .ok ({ w with error := .DUPLICATE_LABEL }, scan)
  else
    (C.eval w.asm d (view w.symbols) scan).bind fun (v, e, rest) =>
      if hasError e then .ok ({ w with value := .undefined, error := e }, rest)
      else if report && decide (e = .UNDEFINED_SYMBOL) then
        .ok ({ w with value := v, error := e }, rest)
      else
        let (symbols, e) := w.symbols.intern v symbol isVar
        .ok ({ w with value := v, symbols := symbols, error := setErrorIf w.error e }, rest)

/-- driver/asm_directive.cpp:210-228 `includeFile`: the file name and the rest, or an error. -/
def includeName (scan : Scan) : Except Err (Name × Scan) :=
  match scan with
  | '"' :: t =>
    match t.dropWhile (· ≠ '"') with
    | [] => .error .MISSING_CLOSING_DQUOTE
    | _ :: r => .ok (t.takeWhile (· ≠ '"'), r)
  | '\'' :: t =>
    match t.dropWhile (· ≠ '\'') with
    | [] => .error .MISSING_CLOSING_QUOTE
    | _ :: r => .ok (t.takeWhile (· ≠ '\''), r)
  | _ => .ok (scan.takeWhile fun c => !Ctype.isSpace c, scan.dropWhile fun c => !Ctype.isSpace c)

/-- driver/asm_directive.cpp:237-243: the loop that reads parameters; the text after them.
`fuel` bounds the iterations; `none` if it is used up. -/
def readParams (C : Cpu σ δ) (d : δ) (asm : σ) : Nat → Scan → List Name → Option (List Name × Scan)
  | 0, _, _ => none
  | fuel + 1, scan, params =>
    let scan := scan.skipSpaces
    match C.readSymbol asm d scan with
    | none => some (params, scan)
    | some (param, p) =>
      match p.skipSpaces.expect ',' with
      | none => some (params, scan)
      | some p => readParams C d asm fuel p (params ++ [param])

/-- driver/asm_directive.cpp:143-270: `processPseudo` for a handler: the state, the returned error
and the rest of the text.  Simplified: a function remembers the parser of its CPU in the code. -/
def handle (C : Cpu σ δ) (files : Files) (d : δ) (report : Bool) (scan : Scan) (w : Work σ) :
    Handler → Out (Work σ × Err × Scan)
  | .constant =>                                       -- 157-161
    (defineSymbol C d report scan w.label false w).bind fun (w, rest) =>
      .ok ({ w with label := [] }, w.error, rest)
  | .variable_ =>                                      -- 163-167
    (defineSymbol C d report scan w.label true w).bind fun (w, rest) =>
      .ok ({ w with label := [] }, w.error, rest)
  | .setVariable =>                                    -- 169-181
    if w.label ≠ [] then .ok ({ w with error := .ILLEGAL_LABEL }, .ILLEGAL_LABEL, scan)
    else
      match C.readSymbol w.asm d scan with
      | none => .ok ({ w with error := .MISSING_LABEL }, .MISSING_LABEL, scan)
      | some (symbol, p) =>
        match p.skipSpaces.expect ',' with
        | none => .ok ({ w with error := .MISSING_COMMA }, .MISSING_COMMA, scan)
        | some p =>
          (defineSymbol C d report p.skipSpaces symbol true w).bind fun (w, rest) =>
            .ok (w, w.error, rest)
  | .include_ =>                                       -- 210-228
    match includeName scan with
    | .error e => .ok ({ w with error := e }, e, scan)
    | .ok (name, rest) =>
      (w.sources.open files name).bind fun (sources, e) =>
        .ok ({ w with sources := sources, error := setErrorIf w.error e }, e, rest)
  | .cpu =>                                            -- 259-266
    let name := scan.takeWhile fun c => !Ctype.isSpace c
    let rest := scan.dropWhile fun c => !Ctype.isSpace c
    match C.setCpu w.asm name with
    | none => .ok ({ w with error := .UNSUPPORTED_CPU }, .UNSUPPORTED_CPU, rest)
    | some asm => .ok ({ w with asm := asm, error := .OK }, .OK, rest)
  | .end_ => .ok (w, .END_ASSEMBLE, scan)              -- 268-270
  | .function =>                                       -- 230-257
    if w.label = [] then .ok ({ w with error := .MISSING_LABEL }, .MISSING_LABEL, scan)
    else
      match readParams C d w.asm (scan.length + 1) scan [] with
      | none => .diverge
      | some (params, scan) =>
        if !report && w.symbols.hasSymbol w.label then
          let e := setErrorIf w.error .DUPLICATE_LABEL
          .ok ({ w with error := e, label := [] }, e, scan)
        else
          let (symbols, e) := w.symbols.internFunction w.label params scan
          let e := setErrorIf w.error e
          .ok ({ w with symbols := symbols, error := e, label := [] }, e, [])

/-- driver/asm_directive.cpp:95-106: the part of `encode` up to the label: the state, the returned
error and the text after the label. -/
def pseudoPart (C : Cpu σ δ) (files : Files) (d : δ) (report : Bool) (scan : Scan) (w : Work σ) :
    Out (Work σ × Err × Scan) :=
  let (label, scan) := C.readLabel w.asm d scan
  let w := { w with label := label, value := .undefined }
  let (eol, scan) := C.endOfLine w.asm d scan.skipSpaces
  if eol then .ok (w, .OK, scan)
  else
    let (name, p) := C.readInstruction w.asm d scan
    match C.pseudo d name with
    | none => .ok (w, .UNKNOWN_DIRECTIVE, scan)
    | some h =>
      (handle C files d report p.skipSpaces w h).bind fun (w, e, p) =>
        if e = .OK ∧ (C.endOfLine w.asm d p).1 = false then
          .ok ({ w with error := .GARBAGE_AT_END }, e, scan)
        else .ok (w, e, scan)

/-- driver/asm_directive.cpp:107-115: the label of the line. -/
def labelPart (report : Bool) (address : Nat) (w : Work σ) : Work σ :=
  if w.label = [] then w
  else if !report && w.symbols.hasSymbol w.label then
    { w with error := setErrorIf w.error .DUPLICATE_LABEL }
  else { w with symbols := (w.symbols.intern (.setUnsigned address) w.label false).1 }

/-- driver/asm_directive.cpp:86-129 `AsmDirective::encode`: the state, the instruction and the
returned error. `address` is `insn.address()`. -/
def encodeLine (C : Cpu σ δ) (files : Files) (d : δ) (report : Bool) (address : Nat) (line : Scan)
    (asm : σ) (symbols : Symbols) (sources : Sources) : Out (Work σ × Buf × Err) :=
  let w : Work σ := ⟨C.setLocation asm d address, symbols, sources, .OK, [], .undefined⟩
  if C.commentLine w.asm d line then .ok (w, Buf.new address, .OK)
  else
    (pseudoPart C files d report line w).bind fun (w, e, scan) =>
      let w := labelPart report address w
      if e ≠ .UNKNOWN_DIRECTIVE then .ok (w, Buf.new address, w.error)
      else if (C.endOfLine w.asm d scan).1 then .ok ({ w with error := .OK }, Buf.new address, .OK)
      else
        (C.encode w.asm d (view w.symbols) address (C.endOfLine w.asm d scan).2).bind
          fun (asm, b) =>
            let e := if !report && decide (b.error = .UNDEFINED_SYMBOL) then Err.OK else b.error
            .ok ({ w with asm := asm, error := e }, b, e)

/-! ### The assembly loop -/

/-- What the listing is given for a line (driver/asm_formatter.cpp:44-52) and the address unit in
bytes: driver/asm_driver.cpp:121-139. -/
structure Entry where
  line : List Char
  address : Nat
  unit : Nat
  bytes : List Nat
  error : Err
  value : Value
deriving DecidableEq, Repr

/-- driver/asm_formatter.cpp:54-56 `hasError`. -/
def Entry.hasError (e : Entry) : Bool := decide (e.error ≠ .OK) && decide (e.error ≠ .END_ASSEMBLE)

/-- The state of `AsmDriver::assemble`; `log` is the listing, in order. -/
structure St (σ : Type) where
  asm : σ
  symbols : Symbols
  sources : Sources
  memory : BinMemory.Blocks
  origin : Nat
  log : List Entry

/-- driver/asm_driver.cpp:131-134: the bytes of an instruction are written. -/
def writeBytes (m : BinMemory.Blocks) (base : Nat) : List Nat → BinMemory.Blocks
  | [] => m
  | x :: xs => writeBytes (BinMemory.writeByte m (base % 4294967296) (UInt8.ofNat x)) (base + 1) xs

/-- driver/asm_driver.cpp:121-149: one iteration on a line; the second result tells whether the loop
is left (`break`).  An address unit of zero would be a division by zero. -/
def stepLine (C : Cpu σ δ) (files : Files) (report : Bool) (line : List Char) (s : St σ) :
    Out (St σ × Bool) :=
  let d := C.current s.asm
  (encodeLine C files d report s.origin line s.asm s.symbols s.sources).bind fun (w, b, e) =>
    let unit := C.unit w.asm d
    if unit = 0 then .ub
    else
      let bytes := b.bytes.take b.length
      let origin :=
        if b.length = 0 then C.location w.asm d else (b.address + b.length / unit) % 4294967296
      .ok (⟨w.asm, w.symbols, w.sources, writeBytes s.memory (b.address * unit) bytes, origin,
            s.log ++ [⟨line, b.address, unit, bytes, w.error, w.value⟩]⟩,
          decide (e = .END_ASSEMBLE))

/-- driver/asm_driver.cpp:110-153: the loop of `assemble`, at most `fuel` lines (`diverge` beyond). -/
def loop (C : Cpu σ δ) (files : Files) (report : Bool) : Nat → St σ → Out (St σ)
  | 0, _ => .diverge
  | fuel + 1, s =>
    match s.sources.readLine with
    | (none, sources) => .ok { s with sources := sources.closeAll }
    | (some line, sources) =>
      (stepLine C files report line { s with sources := sources }).bind fun (s, stop) =>
        if stop then .ok { s with sources := s.sources.closeAll } else loop C files report fuel s

/-! ### The pass loop -/

/-- The command line: the input file and what is set before each pass
(cli/asm_commander.cpp:66-73): options, and the CPU if `-C` is given. -/
structure Command (σ : Type) where
  input : Name
  setUp : σ → σ

/-- State between passes: driver, symbols and the image of the last pass; `log` is the listing. -/
structure Pass (σ : Type) where
  asm : σ
  symbols : Symbols
  memory : BinMemory.Blocks
  log : List Entry

/-- cli/asm_commander.cpp:54-75: one pass, at most `fuel` lines; `none` if the input file cannot be
opened. -/
def pass (C : Cpu σ δ) (files : Files) (cmd : Command σ) (report : Bool) (fuel : Nat) (p : Pass σ) :
    Out (Option (Pass σ)) :=
  (Sources.open files [] cmd.input).bind fun (sources, e) =>
    if e ≠ .OK then .ok none
    else
      (loop C files report fuel
        ⟨cmd.setUp p.asm, p.symbols.clearFunctions, sources, [], 0, []⟩).bind fun s =>
          .ok (some ⟨s.asm, s.symbols, s.memory, s.log⟩)

/-- cli/asm_commander.cpp:76: whether there is another pass after one from `p` to `q`. -/
def again (p q : Pass σ) : Bool :=
  q.log.all (fun e => !e.hasError) &&
    (!BinMemory.equal q.memory p.memory || !Symbols.same p.symbols q.symbols)

/-- cli/asm_commander.cpp:53-76: the pass loop, at most `fuel` more passes.  Result: the states
before and after the last pass, and whether it reported undefined symbols. -/
def passes (C : Cpu σ δ) (files : Files) (cmd : Command σ) (lines : Nat) :
    Nat → Bool → Pass σ → Out (Option (Pass σ × Pass σ × Bool))
  | 0, _, _ => .diverge
  | fuel + 1, report, p =>
    (pass C files cmd report lines p).bind fun
      | none => .ok none
      | some q =>
        if again p q then passes C files cmd lines fuel true q else .ok (some (p, q, report))

/-- cli/asm_commander.cpp:38-76: from an assembler set up with the CPU of the command line. -/
def assemble (C : Cpu σ δ) (files : Files) (cmd : Command σ) (lines fuel : Nat) (asm : σ) :
    Out (Option (Pass σ × Pass σ × Bool)) :=
  passes C files cmd lines fuel false ⟨asm, .empty, [], []⟩

end Libasm.Driver
