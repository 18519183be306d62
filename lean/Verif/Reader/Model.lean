import Verif.Eval.Model
/-
Model of cli/file_reader.cpp.

A file is the list of its bytes, as characters.  The line buffer is a C string (the characters
before the NUL) and a capacity; writing past the capacity is undefined behaviour (`Out.ub`).
Simplified: `malloc`, `realloc` and reading never fail, and sizes are unbounded (`fgets` takes an
`int`, so a line of 2^31 characters or more is not covered).
-/
namespace Libasm.Reader
open Eval (Out)

def nul : Char := '\x00'

/-- What `fgets` takes: at most `k` characters, up to a newline, and what it leaves. -/
def take : Nat → List Char → List Char × List Char
  | 0, f => ([], f)
  | _ + 1, [] => ([], [])
  | k + 1, c :: f => if c = '\n' then ([c], f) else (c :: (take k f).1, (take k f).2)

/-- C `fgets(p, max, input)`: the characters stored before the NUL; `none` at the end of the file. -/
def fgets (max : Nat) (f : List Char) : Option (List Char × List Char) :=
  match f with
  | [] => none
  | c :: t => some (take (max - 1) (c :: t))

/-- cli/file_reader.cpp:27-39: the loop of `getLine`, with at most `fuel` iterations (`diverge`
beyond).  `pre` is the string before `p`, `n` the capacity.  Result: the line, the capacity and the
rest of the file; no line for -1. -/
def getLoop : Nat → List Char → Nat → Nat → List Char → Out (Option (List Char × Nat × List Char))
  | 0, _, _, _, _ => .diverge
  | fuel + 1, pre, max, n, f =>
    match fgets max f with
    | none => .ok none
    | some (chunk, rest) =>
      if n < pre.length + chunk.length + 1 then .ub
      else
        let s := pre ++ chunk.takeWhile (· ≠ nul)
        if s.getLast? = some '\n' then .ok (some (s.dropLast, n, rest))
        else getLoop fuel s 128 (n + 128) rest

/-- cli/file_reader.cpp:24-41 `getLine` with a buffer of `n` bytes. -/
def getLine (fuel n : Nat) (f : List Char) : Out (Option (List Char × Nat × List Char)) :=
  getLoop fuel [] (n - 1) n f

/-- cli/file_reader.cpp:52-60 `FileReader::readLine` until it returns no line: all lines in order.
After the first failure the file is closed. -/
def readLines : Nat → Nat → List Char → Out (List (List Char))
  | 0, _, _ => .diverge
  | fuel + 1, n, f =>
    (getLine (f.length + 1) n f).bind fun
      | none => .ok []
      | some (line, n', rest) => (readLines fuel n' rest).bind fun ls => .ok (line :: ls)

/-- cli/file_reader.cpp:43-46: a reader starts with a buffer of 80 bytes. -/
def readFile (f : List Char) : Out (List (List Char)) := readLines (f.length + 1) 80 f

end Libasm.Reader
