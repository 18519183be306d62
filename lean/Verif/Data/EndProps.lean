import Verif.Data.Ends
import Verif.Insn.Props
import Verif.Eval.Props
/-
C52: data directives come to an end on every text.
-/
namespace Libasm.Data
open Insn (Buf)
open Eval (Out)

/-- C52. In the default notation, every data directive comes to an end on every text, from every
state of the instruction buffer that the directive can be given, whatever the symbols, provided the
readers of floating point constants and the functions do (they consume what they read, come to an
end, and do not use the code END_ASSEMBLE). -/
theorem C52_data_ends (delims : List Char) (float : Scan → Option (Err × Value × Scan))
    (hf : ∀ s e v rest, float s = some (e, v, rest) →
      rest <:+ s ∧ e ≠ .END_ASSEMBLE ∧ Value.Spec.Valid v ∧ (e = .OK → rest.length < s.length))
    (symbols : List Char → Option Value)
    (functions : List Char → Option (Int × (List Value → Out (Except Err Value))))
    (hfn : ∀ name nargs f, functions name = some (nargs, f) →
      ∀ st, f st ≠ .diverge ∧ f st ≠ .ok (.error .END_ASSEMBLE))
    (loc : Nat) (big wordUnit : Bool) (type : DataType) (align2 : Bool) (text : Scan)
    (address : Nat) :
    defineDataConstant (defaultEnv delims float symbols functions loc big wordUnit) type align2 text
      (Buf.new address) ≠ .diverge := by
  have hfine : ∀ s r, float s = some r → Eval.FineNum r :=
    fun s ⟨e, v, rest⟩ h => ⟨(hf s e v rest h).2.1, (hf s e v rest h).2.2.1⟩
  have hany := Eval.style_any .cstyle .c (by decide) hfine symbols (functions := functions)
    (fun n a f h st r hr => by
      cases r with
      | ok v => exact trivial
      | error e =>
        intro he
        subst he
        exact (hfn n a f h st).2 hr) '\x00' loc
  refine data_ends ?_ type align2 text (Buf.new address) (by simp [Buf.new]) (Insn.fine_new _)
  refine ⟨default_shrinks delims, readLetter_noEnd, fun s => skip_len s, fun s => ?_, fun s r h => ?_⟩
  · refine Driver.Out.bind_ends ?_ fun _ => by simp
    have := Eval.C17_terminates .cstyle .c float
      (fun s v rest h => (hf s _ v rest h).2.2.2 rfl) symbols functions
      (fun n a f h st => (hfn n a f h st).1) '\x00' loc s .OK .r10 _ (Nat.lt_succ_self _)
    exact this.2 ▸ this.1
  · obtain ⟨x, hx, h⟩ := Driver.Out.bind_ok h
    cases h
    refine ⟨?_, (Eval.eval_fine hany (by simp) hx).1⟩
    exact (Eval.eval_rest (Eval.c_ends .cstyle
      (fun s ⟨e, v, rest⟩ h => (hf s e v rest h).1) symbols functions '\x00' loc)
      (Eval.style_good .c (by decide)).quiet hx).length_le

/-- The hypotheses hold without floating point and with a function; the result on a text with an
unclosed string. -/
example : ∃ r : Scan × Buf, defineDataConstant (defaultEnv ['\''] (fun _ => none) (fun _ => none)
      (fun n => if n = ['f'] then some (1, fun _ => .ok (.ok ⟨7, .unsigned⟩)) else none) 0 false false)
      .byte false "1, f(2), 'abc".toList (Buf.new 0) = .ok r ∧
    r.2.error = .MISSING_CLOSING_QUOTE := ⟨_, rfl, by decide +kernel⟩

example : ∀ name nargs f,
    (fun n : List Char => if n = ['f'] then
      some ((1 : Int), fun _ : List Value => (.ok (.ok ⟨7, .unsigned⟩) : Out (Except Err Value)))
      else none) name = some (nargs, f) →
    ∀ st, f st ≠ .diverge ∧ f st ≠ .ok (.error .END_ASSEMBLE) := by
  intro name nargs f h st
  dsimp only at h
  split at h
  · cases h; simp
  · cases h

end Libasm.Data
