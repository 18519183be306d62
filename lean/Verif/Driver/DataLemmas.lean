import Verif.Driver.Spec
import Verif.Driver.DataCpu
import Verif.Data.Ends
import Verif.Insn.Props
import Verif.Eval.Props
/-
The assembler of the examples meets the hypotheses of the theorems about the driver.
-/
namespace Libasm.Driver
open Eval (Out)
open Store (Name Symbols Fn)
open Insn (Buf)
open Spec

theorem dataEval (v : View) (loc : Nat) (t : Scan) (r : Value × Err × Scan)
    (h : (dataEnv v loc).parseExpr t = .ok r) : r.2.1 ≠ .END_ASSEMBLE ∧ r.2.2 <:+ t := by
  obtain ⟨x, hx, h⟩ := Out.bind_ok h
  cases h
  refine ⟨(Eval.eval_fine (Eval.style_any .cstyle .c (by decide) (fun s r h => by cases h) v.symbol
    (fun n a f h => by cases h) '\x00' loc) (by simp) hx).1, ?_⟩
  exact Eval.eval_rest (Eval.c_ends .cstyle (fun s r h => by cases h) v.symbol _ '\x00' loc)
    (Eval.style_good .c (by decide)).quiet hx

theorem dataEval_valid (v : View) (hv : ∀ n x, v.symbol n = some x → Value.Spec.Valid x)
    (loc : Nat) (t : Scan) (r : Value × Err × Scan)
    (h : (dataEnv v loc).parseExpr t = .ok r) : Value.Spec.Valid r.1 := by
  obtain ⟨x, hx, h⟩ := Out.bind_ok h
  cases h
  exact (Eval.eval_fine (Eval.style_valid .cstyle .c (by decide) (fun s r h => by cases h) hv
    (fun n a f h => by cases h) '\x00' loc) (by simp) hx).2

theorem dataEval_ends (v : View) (loc : Nat) (t : Scan) :
    (dataEnv v loc).parseExpr t ≠ .diverge := by
  refine Out.bind_ends ?_ fun _ => by simp
  have := Eval.C17_terminates .cstyle .c (fun _ => none) (fun s v r h => by cases h) v.symbol
    (fun _ => none) (fun n a f h => by cases h) '\x00' loc t .OK .r10 _ (Nat.lt_succ_self _)
  exact this.2 ▸ this.1

theorem data_proper (v : View) (loc : Nat) : Data.Proper (dataEnv v loc) where
  letters := Data.default_shrinks ['\'']
  noEnd := Data.readLetter_noEnd
  comment := fun s => Data.skip_len s
  expr := dataEval_ends v loc
  rest := fun s r h => ⟨(dataEval v loc s r h).2.length_le, (dataEval v loc s r h).1⟩

theorem checkAddr_noEnd (w a : Nat) (al : Bool) : Config.checkAddr w a al ≠ .END_ASSEMBLE := by
  unfold Config.checkAddr
  dsimp only
  split
  · simp
  · split <;> simp

theorem dataEncode_ends (loc : Nat) (v : View) (a : Nat) (t : Scan) :
    dataEncode loc v a t ≠ .diverge := by
  unfold dataEncode
  dsimp only
  split
  · simp
  · split
    · exact Out.bind_ends (Data.data_ends (data_proper v loc) _ _ _ _ (by simp [Buf.new]) (Insn.fine_new _))
        fun _ => by simp
    · split
      · exact Out.bind_ends (Data.data_ends (data_proper v loc) _ _ _ _ (by simp [Buf.new]) (Insn.fine_new _))
          fun _ => by simp
      · split
        · exact Out.bind_ends (dataEval_ends _ _ _) fun _ => by simp
        · split
          · refine Out.bind_ends (dataEval_ends _ _ _) fun x => ?_
            split <;> simp
          · split
            · simp
            · split
              · split <;> simp
              · simp

theorem dataEncode_noEnd (loc : Nat) (v : View) (a : Nat) (t : Scan) (r : Nat × Buf)
    (h : dataEncode loc v a t = .ok r) : r.2.error ≠ .END_ASSEMBLE ∧ Insn.Spec.Fine r.2 := by
  have hn : (Buf.new a).error ≠ .END_ASSEMBLE := by simp [Buf.new]
  have hF := Insn.fine_new a
  unfold dataEncode at h
  dsimp only at h
  split at h
  · cases h; exact ⟨hn, hF⟩
  · split at h
    · obtain ⟨x, hx, h⟩ := Out.bind_ok h
      cases h; exact Data.data_noEnd (data_proper v loc) hn hF hx
    · split at h
      · obtain ⟨x, hx, h⟩ := Out.bind_ok h
        cases h; exact Data.data_noEnd (data_proper v loc) hn hF hx
      · split at h
        · obtain ⟨⟨x, e, s⟩, hx, h⟩ := Out.bind_ok h
          have he := (dataEval v loc _ _ hx).1
          cases h
          unfold Config.defineOrigin
          dsimp only at he ⊢
          split
          · exact ⟨he, hF.cells, hF.used, hF.bytes⟩
          · have := Data.noEnd_if hn (checkAddr_noEnd 16 x.getUnsigned false)
            split
            · exact ⟨this, hF.cells, hF.used, hF.bytes⟩
            · refine ⟨by simp [Buf.reset], ?_, ?_, ?_⟩
              · simp [Buf.reset, Insn.maxCode]
              · simp [Buf.reset, Insn.maxCode]
              · intro x hx
                simp [Buf.reset, Insn.maxCode] at hx
                omega
        · split at h
          · obtain ⟨⟨x, e, s⟩, hx, h⟩ := Out.bind_ok h
            have he := (dataEval v loc _ _ hx).1
            dsimp only at h he
            split at h
            · cases h
            · rename_i s' _ hs
              cases h
              unfold Config.allocateSpaces at hs
              simp only [Bool.false_and, Bool.false_eq_true, if_false] at hs
              split at hs
              · cases hs; exact ⟨he, hF.cells, hF.used, hF.bytes⟩
              · split at hs
                · cases hs
                  exact ⟨(by simp : Err.OVERFLOW_RANGE ≠ .END_ASSEMBLE), hF.cells, hF.used, hF.bytes⟩
                · cases hs
                  exact ⟨Data.noEnd_if hn (checkAddr_noEnd _ _ _), hF.cells, hF.used, hF.bytes⟩
          · split at h
            · cases h; exact ⟨checkAddr_noEnd _ _ _, hF.cells, hF.used, hF.bytes⟩
            · split at h
              · split at h
                · cases h
                · rename_i b' e' hb
                  cases h
                  obtain ⟨b1, e1, h1, h2, _⟩ := Insn.emitByteAt_safe hF 0 0
                  rw [hb] at h1
                  cases h1
                  exact ⟨(Data.byte_mild 0 0 _ _ _ hn hb).1, h2⟩
              · cases h
                exact ⟨(by simp : Err.UNKNOWN_INSTRUCTION ≠ .END_ASSEMBLE), hF.cells, hF.used,
                  hF.bytes⟩

/-- The assembler of the examples never uses END_ASSEMBLE. -/
theorem data_noEnd : NoEnd dataCpu where
  encode := fun s _ v a t r h => (dataEncode_noEnd s v a t r h).1
  eval := fun s _ v t r h => (dataEval v s t r h).1

/-- The assembler of the examples comes to an end on every text. -/
theorem data_ends : Ends dataCpu where
  encode := fun s _ v a t => dataEncode_ends s v a t
  eval := fun s _ v t => dataEval_ends v s t
  symbol := fun _ _ _ _ _ h => by
    have := Eval.symbol_length h
    omega

/-- The assembler of the examples computes proper values from proper symbols. -/
theorem data_valid (s : Nat) (d : Unit) (v : View) (t : Scan) (r : Value × Err × Scan)
    (hv : ∀ n x, v.symbol n = some x → Value.Spec.Valid x) (h : dataCpu.eval s d v t = .ok r) :
    Value.Spec.Valid r.1 := dataEval_valid v hv s t r h

end Libasm.Driver
