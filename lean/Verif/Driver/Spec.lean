import Verif.Driver.Model
/-
What assembling a source with include files means, stated by recursion over the files.
-/
namespace Libasm.Driver.Spec
open Eval (Out)
open Store (Name)

variable {σ δ : Type}

/-- Assemble the lines `lines` of the file `name`, of which `n` lines are read already; `below` are
the files it is included from.  Each line is assembled in turn; when a line has opened a file,
`nested` assembles all of that file before the next line. -/
def inFile (C : Cpu σ δ) (files : Files) (report : Bool)
    (nested : Sources → Reader → St σ → Out (St σ)) (below : Sources) (name : Name) :
    Nat → List (List Char) → St σ → Out (St σ)
  | _, [], s => .ok s
  | n, line :: lines, s =>
    let here : Sources := ⟨name, lines, n + 1⟩ :: below
    (stepLine C files report line { s with sources := here }).bind fun (s, _) =>
      match s.sources with
      | [] => inFile C files report nested below name (n + 1) lines s
      | top :: rest =>
        if rest.length = here.length then
          (nested here top s).bind fun s => inFile C files report nested below name (n + 1) lines s
        else inFile C files report nested below name (n + 1) lines s

/-- Assemble a file when `room` levels of files can be opened in it. -/
def inPlace (C : Cpu σ δ) (files : Files) (report : Bool) :
    Nat → Sources → Reader → St σ → Out (St σ)
  | 0, below, r, s => inFile C files report (fun _ _ s => .ok s) below r.name r.lineno r.rest s
  | room + 1, below, r, s =>
    inFile C files report (inPlace C files report room) below r.name r.lineno r.rest s

/-- The assemblers do not use the code by which the driver marks the end of the source (only
driver/asm_directive.cpp:269 does). -/
structure NoEnd (C : Cpu σ δ) : Prop where
  encode : ∀ s d v a t r, C.encode s d v a t = .ok r → r.2.error ≠ .END_ASSEMBLE
  eval : ∀ s d v t r, C.eval s d v t = .ok r → r.2.1 ≠ .END_ASSEMBLE

/-- The assemblers and their parsers come to an end on every text, and reading a symbol does not
lengthen the text. -/
structure Ends (C : Cpu σ δ) : Prop where
  encode : ∀ s d v a t, C.encode s d v a t ≠ .diverge
  eval : ∀ s d v t, C.eval s d v t ≠ .diverge
  symbol : ∀ s d t name rest, C.readSymbol s d t = some (name, rest) → rest.length ≤ t.length

/-- The states the assembly loop goes through: at its start, and after each line read. -/
inductive Reach (C : Cpu σ δ) (files : Files) (report : Bool) (start : St σ) : St σ → Prop
  | start : Reach C files report start start
  | line {s s' : St σ} {line : List Char} {stop : Bool} {sources : Sources} :
      Reach C files report start s → s.sources.readLine = (some line, sources) →
      stepLine C files report line { s with sources := sources } = .ok (s', stop) →
      Reach C files report start s'

/-- The bytes shown in a listing, in order, with their addresses in the image: the address column
counts in address units. -/
def listed (log : List Entry) : List (Nat × UInt8) :=
  log.flatMap fun e =>
    (e.bytes.zipIdx).map fun x => ((e.address * e.unit + x.2) % 4294967296, UInt8.ofNat x.1)

/-- No line of a listing has an error. -/
def Clean (log : List Entry) : Prop := ∀ e ∈ log, e.error = .OK

/-- How the assembler in charge reads a line: it is not a comment line, has the label `label` (empty
if there is none), and after it the text `text`; `eol` tells that there is no text but a comment. -/
structure Reads (C : Cpu σ δ) (s : St σ) (line : List Char) (label : Name) (eol : Bool)
    (text : Scan) : Prop where
  code : C.commentLine (C.setLocation s.asm (C.current s.asm) s.origin) (C.current s.asm) line = false
  label : ∃ rest,
    C.readLabel (C.setLocation s.asm (C.current s.asm) s.origin) (C.current s.asm) line =
      (label, rest) ∧
    C.endOfLine (C.setLocation s.asm (C.current s.asm) s.origin) (C.current s.asm) rest.skipSpaces =
      (eol, text)

/-- The text after the label is the name of an instruction or directive, `h` is the directive of the
driver it names, if any, and `operands` is the text after it. -/
def Names (C : Cpu σ δ) (s : St σ) (text : Scan) (h : Option Handler) (operands : Scan) : Prop :=
  ∃ name rest,
    C.readInstruction (C.setLocation s.asm (C.current s.asm) s.origin) (C.current s.asm) text =
      (name, rest) ∧
    C.pseudo (C.current s.asm) name = h ∧ operands = rest.skipSpaces

end Libasm.Driver.Spec
