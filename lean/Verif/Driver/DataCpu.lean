import Verif.Driver.Model
import Verif.Data.Model
/-
An assembler to put into the driver: the part of src/asm_base.cpp that all CPUs share, with the
default parsers of src/value_parser.cpp:26-51, 16 bit addresses, bytes as address units and little
endian words.  It has the directives `byte`, `word` (aligned), `org` and `ds` and the instruction
`nop` (one byte, 0).
-/
namespace Libasm.Driver
open Eval (Out)
open Store (Name Symbols Fn)
open Insn (Buf)

/-- src/value_parser.cpp:26-51 with the symbols of a view; no functions, no floating point. -/
def dataEnv (v : View) (loc : Nat) : Data.Env :=
  Data.defaultEnv ['\''] (fun _ => none) v.symbol (fun _ => none) loc false false

/-- src/value_parser.cpp:432-442 `readLabel` with the default symbol parser. -/
def dataLabel (scan : Scan) : Name × Scan :=
  match Eval.defaultSymbol scan with
  | none => ([], scan)
  | some (label, rest) => (label, (rest.expect ':').getD rest)

/-- src/value_parser.cpp:444-462 `readInstruction` with the default symbol parser. -/
def dataInstruction (scan : Scan) : Name × Scan :=
  (scan.takeWhile (Eval.symbolLetter false), scan.dropWhile (Eval.symbolLetter false))

/-- src/asm_base.cpp:77-109 `encode` and `processPseudo`; the state is `_currentLocation`. -/
def dataEncode (loc : Nat) (v : View) (address : Nat) (text : Scan) : Out (Nat × Buf) :=
  let scan := text.skipSpaces
  let b := Buf.new address
  if (Data.semicolonEndOfLine scan).1 then .ok (loc, b)
  else
    let name := String.ofList ((dataInstruction scan).1.map Ctype.toUpper)
    let scan := (dataInstruction scan).2.skipSpaces
    if name = "BYTE" then
      (Data.defineDataConstant (dataEnv v loc) .byte false scan b).bind fun (_, b) => .ok (loc, b)
    else if name = "WORD" then
      (Data.defineDataConstant (dataEnv v loc) .word true scan b).bind fun (_, b) =>
        .ok (b.address, b)
    else if name = "ORG" then
      ((dataEnv v loc).parseExpr scan).bind fun (x, e, _) =>
        let s := (Config.defineOrigin 16 ⟨loc, b⟩ (x, e)).1
        .ok (s.location, s.insn)
    else if name = "DS" then
      ((dataEnv v loc).parseExpr scan).bind fun (x, e, _) =>
        match Config.allocateSpaces 16 1 1 false ⟨loc, b⟩ (x, e) with
        | none => .ub
        | some (s, _) => .ok (s.location, s.insn)
    else
      let e := Config.checkAddr 16 address false
      if e ≠ .OK then .ok (address, { b with error := e })
      else if name = "NOP" then
        match b.emitByteAt 0 0 with
        | none => .ub
        | some (b, _) => .ok (address, b)
      else .ok (address, { b with error := .UNKNOWN_INSTRUCTION })

/-- driver/asm_directive.cpp:31-39: the directives every CPU has, with and without the dot; names
are compared without regard to case (driver/asm_directive.h:70-74).  The default symbol parser
takes no dot. -/
def dataPseudo (name : Name) : Option Handler :=
  let name := String.ofList (name.map Ctype.toUpper)
  if name = "CPU" then some .cpu
  else if name = "INCLUDE" then some .include_
  else if name = "END" then some .end_
  else if name = "EQU" then some .constant
  else if name = "SET" then some .variable_
  else if name = "FUNCTION" then some .function
  else none

/-- The assembler as a parameter of the driver. -/
def dataCpu : Cpu Nat Unit where
  current := fun _ => ()
  commentLine := fun _ _ s => (Data.semicolonEndOfLine s).1
  readLabel := fun _ _ s => dataLabel s
  endOfLine := fun _ _ s => Data.semicolonEndOfLine s
  readInstruction := fun _ _ s => dataInstruction s
  readSymbol := fun _ _ s => Eval.defaultSymbol s
  pseudo := fun _ name => dataPseudo name
  setLocation := fun _ _ a => a
  location := fun loc _ => loc
  unit := fun _ _ => 1
  eval := fun loc _ v s => (dataEnv v loc).parseExpr s
  encode := fun loc _ v a s => dataEncode loc v a s
  setCpu := fun _ _ => none

/-- A file system with the single file `a`. -/
def oneFile (lines : List String) : Files := fun name =>
  if name = "a".toList then some (lines.map String.toList) else none

/-- The command line with the input file `a` and no options. -/
def plain : Command Nat := ⟨"a".toList, id⟩

/-- The listing of the last pass of assembling file `a`. -/
def listing (lines : List String) (fuel : Nat) : Option (List Entry) :=
  match assemble dataCpu (oneFile lines) plain 20 fuel 0 with
  | .ok (some (_, q, _)) => some q.log
  | _ => none

end Libasm.Driver
