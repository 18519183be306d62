import Verif.Reader.Lemmas
/-
C32.  The property: a file is its lines, each followed by a newline, and possibly a last line
without one.
-/
namespace Libasm.Reader.Props
open Eval (Out)

/-- C32: a file that is a sequence of lines, each followed by a newline, and a last piece without
one, is read as those lines, whatever their number and length (no line holds a NUL).  Missing for
the full property: the last piece, which is not returned (see `C32_violated_last`). -/
theorem C32_lines_partial (ls : List (List Char)) (tail : List Char)
    (hl : ∀ l ∈ ls, '\n' ∉ l ∧ '\x00' ∉ l) (ht : '\n' ∉ tail) :
    readFile ((ls.map (· ++ ['\n'])).flatten ++ tail) = .ok ls :=
  readLines_file tail ht ls hl _ _ (by omega) (by omega)

/-- An empty line, a line longer than the first buffer and one longer than the second; a file with
no line. -/
example : (∀ l ∈ [[], List.replicate 100 'a', List.replicate 300 'b'], '\n' ∉ l ∧ '\x00' ∉ l) ∧
    readFile (['x', '\n', '\n'] ++ List.replicate 100 'a' ++ ['\n']) =
      .ok [['x'], [], List.replicate 100 'a'] ∧ readFile [] = .ok [] := by
  refine ⟨by decide +kernel, ?_, rfl⟩
  exact C32_lines_partial [['x'], [], List.replicate 100 'a'] [] (by decide +kernel) (by simp)

/-- C32: whatever the file holds, reading it stays within the line buffer, which can have any size
of at least 3, and ends. -/
theorem C32_safe (n : Nat) (hn : 3 ≤ n) (f : List Char) :
    ∃ ls, readLines (f.length + 1) n f = .ok ls := by
  suffices ∀ (m : Nat) (f : List Char), f.length ≤ m → ∀ n fuel, 3 ≤ n → f.length < fuel →
      ∃ ls, readLines fuel n f = .ok ls from this f.length f (Nat.le_refl _) n _ hn (by omega)
  intro m
  induction m with
  | zero =>
    intro f hm n fuel hn hfuel
    have : f = [] := List.eq_nil_of_length_eq_zero (by omega)
    subst this
    cases fuel with
    | zero => cases hfuel
    | succ fuel => exact ⟨[], rfl⟩
  | succ m ih =>
    intro f hm n fuel hn hfuel
    cases fuel with
    | zero => cases hfuel
    | succ fuel =>
      unfold readLines getLine
      rcases getLoop_safe f.length f (Nat.le_refl _) (f.length + 1) (n - 1) n [] (by omega)
        (by simp <;> omega) (by omega) with h | ⟨l, n', r, h1, h2, h3⟩
      · rw [h]; exact ⟨[], rfl⟩
      · rw [h1]
        obtain ⟨ls, h⟩ := ih r (by omega) n' fuel (by omega) (by omega)
        exact ⟨l :: ls, by simp [Out.bind, h]⟩

/-- C32 fails for a last line without a newline: it is dropped. -/
theorem C32_violated_last : readFile ['a', '\n', 'b'] = .ok [['a']] := rfl

/-- C32 fails for a line with a NUL: it is cut there and joined with the next line. -/
theorem C32_violated_nul : readFile ['a', '\x00', 'b', '\n', 'c', '\n'] = .ok [['a', 'c']] := rfl

end Libasm.Reader.Props
