import Verif.Data.Model
import Verif.Insn.Lemmas
import Verif.Eval.Rest
import Verif.Eval.Valid
import Verif.Driver.Ends
/-
The data directives come to an end on every text, and never report END_ASSEMBLE.
-/
namespace Libasm.Data
open Scan Ctype Insn
open Eval hiding setErrorIf
open Config (setErrorIf)

theorem noEnd_if {a e : Err} (ha : a ≠ .END_ASSEMBLE) (he : e ≠ .END_ASSEMBLE) :
    setErrorIf a e ≠ .END_ASSEMBLE := by
  unfold setErrorIf
  split
  · exact he
  · exact ha

/-- An emitter that introduces no END_ASSEMBLE. -/
def Mild (f : Buf → Option (Buf × Err)) : Prop :=
  ∀ b b' e, b.error ≠ .END_ASSEMBLE → f b = some (b', e) →
    b'.error ≠ .END_ASSEMBLE ∧ e ≠ .END_ASSEMBLE

theorem byte_mild (v p : Nat) : Mild (fun b => b.emitByteAt v p) := by
  intro b b' e hb h
  dsimp only at h
  unfold Buf.emitByteAt at h
  dsimp only at h
  split at h
  · unfold Buf.setErrorIf at h
    split at h
    · cases h; exact ⟨hb, hb⟩
    · cases h; exact ⟨by simp, by simp⟩
  · split at h
    · cases h
    · cases h; exact ⟨hb, by simp⟩

theorem both_mild {f g : Buf → Option (Buf × Err)} (hf : Mild f) (hg : Mild g) :
    Mild (both f g) := by
  intro b b' e hb h
  unfold both at h
  split at h
  · cases h
  · rename_i b1 e1 h1
    exact hg _ _ _ (hf _ _ _ hb h1).1 h

theorem be16_mild (v p : Nat) : Mild (Buf.emitUint16BeAt v p) :=
  both_mild (byte_mild _ _) (byte_mild _ _)
theorem le16_mild (v p : Nat) : Mild (Buf.emitUint16LeAt v p) :=
  both_mild (byte_mild _ _) (byte_mild _ _)
theorem be32_mild (v p : Nat) : Mild (Buf.emitUint32BeAt v p) :=
  both_mild (be16_mild _ _) (be16_mild _ _)
theorem le32_mild (v p : Nat) : Mild (Buf.emitUint32LeAt v p) :=
  both_mild (le16_mild _ _) (le16_mild _ _)

theorem emit_mild (f : Form) (v p : Nat) : Mild (Buf.emitAt f v p) := by
  cases f with
  | byte => exact byte_mild v p
  | be16 => exact be16_mild v p
  | le16 => exact le16_mild v p
  | be32 => exact be32_mild v p
  | le32 => exact le32_mild v p
  | be64 => exact both_mild (be32_mild _ _) (be32_mild _ _)
  | le64 => exact both_mild (le32_mild _ _) (le32_mild _ _)

/-- The buffer is in order, and neither it nor the error slot holds END_ASSEMBLE. -/
def Good (b : Buf) (e : Err) : Prop :=
  (b.error ≠ .END_ASSEMBLE ∧ Insn.Spec.Fine b) ∧ e ≠ .END_ASSEMBLE

theorem emitIf_ends (b : Buf) (error : Err) (f : Form) (v : Nat) : emitIf b error f v ≠ .diverge := by
  unfold emitIf
  split <;> simp

theorem emitIf_good {b : Buf} {error : Err} {f : Form} {v : Nat} {r : Buf × Err}
    (he : Good b error) (h : emitIf b error f v = .ok r) : Good r.1 r.2 := by
  unfold emitIf at h
  split at h
  · cases h
  · rename_i b' e' hb
    cases h
    have := emit_mild f v b.length b b' e' he.1.1 hb
    obtain ⟨b1, e1, h1, h2, _⟩ := emitAt_safe f v b.length b he.1.2
    have h3 : b.emit f v = some (b1, e1) := h1
    rw [hb] at h3
    cases h3
    exact ⟨⟨this.1, h2⟩, noEnd_if he.2 this.2⟩

theorem padBytes_ends (n : Nat) : ∀ (b : Buf) (e : Err), padBytes n b e ≠ .diverge := by
  induction n with
  | zero => intro b e; simp [padBytes]
  | succ n ih =>
    intro b e
    unfold padBytes
    exact Driver.Out.bind_ends (emitIf_ends _ _ _ _) fun _ => ih _ _

theorem padBytes_good (n : Nat) : ∀ (b : Buf) (e : Err) (r : Buf × Err), Good b e →
    padBytes n b e = .ok r → Good r.1 r.2 := by
  induction n with
  | zero => intro b e r hg h; cases h; exact hg
  | succ n ih =>
    intro b e r hg h
    unfold padBytes at h
    obtain ⟨a, ha, h⟩ := Out.bind_ok h
    exact ih _ _ _ (emitIf_good hg ha) h

/-! ### Strings -/

/-- What is used of the letters: a letter read without error is at least one character, and a text
is never lengthened. -/
structure Shrinks (L : Letters) : Prop where
  pre : ∀ s, (L.stringPrefix s).length ≤ s.length
  delim : ∀ s d p, L.stringDelimiter s = some (d, p) → p.length < s.length
  letter : ∀ s d, (L.readLetter s d).2.1 = .OK → (L.readLetter s d).2.2.length < s.length

theorem expect_lt {c : Char} {s p : Scan} (h : expect c s = some p) : p.length < s.length := by
  have := expect_eq h
  rw [this]; simp

theorem default_shrinks (delims : List Char) : Shrinks (simpleLetters delims) where
  pre := fun _ => Nat.le_refl _
  delim := by
    intro s d p h
    cases s with
    | nil => cases h
    | cons c t =>
      simp only [simpleLetters, oneOf] at h
      split at h
      · cases h; simp
      · cases h
  letter := by
    intro s d h
    simp only [simpleLetters] at h ⊢
    unfold defaultReadLetter at h ⊢
    split
    · rename_i p hp
      split
      · rename_i q hq
        have h1 := expect_lt hp
        have h2 := expect_lt hq
        simp only; omega
      · rename_i hq
        rw [hp] at h
        dsimp only at h
        rw [hq] at h
        dsimp only at h
        split at h <;> cases h
    · rename_i hp
      rw [hp] at h
      dsimp only at h
      cases s with
      | nil => cases h
      | cons c t =>
        dsimp only at h ⊢
        split at h
        · cases h
        · rename_i hc; rw [if_neg hc]; simp

variable {E : Env}

theorem stringEnd_ends (hL : Shrinks E.letters) (d : Char) : ∀ (fuel : Nat) (p : Scan),
    p.length < fuel → stringEnd E d fuel p ≠ .diverge := by
  intro fuel
  induction fuel with
  | zero => intro p h; omega
  | succ fuel ih =>
    intro p h
    unfold stringEnd
    split
    · simp
    · split
      · simp
      · have := hL.letter p d
        revert this
        generalize E.letters.readLetter p d = x
        obtain ⟨c, e, q⟩ := x
        intro this
        dsimp only at this ⊢
        split
        · simp
        · rename_i he
          have := this (by simpa using he)
          exact ih q (by omega)

/-- The error of `isString` comes from reading a letter, or a delimiter is missing. -/
theorem stringEnd_noEnd (hN : ∀ s d, (E.letters.readLetter s d).2.1 ≠ .END_ASSEMBLE) (d : Char) :
    ∀ (fuel : Nat) (p : Scan) (r : Err × Scan), stringEnd E d fuel p = .ok r →
      r.1 ≠ .END_ASSEMBLE := by
  intro fuel
  induction fuel with
  | zero => intro p r h; cases h
  | succ fuel ih =>
    intro p r h
    unfold stringEnd at h
    split at h
    · cases h
      by_cases hd : d = '"'
      · simp [hd]
      · simp [hd]
    · split at h
      · cases h; simp
      · have hn := hN p d
        revert hn h
        generalize E.letters.readLetter p d = x
        obtain ⟨c, e, q⟩ := x
        intro h hn
        dsimp only at h hn
        split at h
        · cases h; exact hn
        · exact ih q r h

/-- The letters up to the end of a string found by `isString` are read to the end. -/
theorem string_read (hL : Shrinks E.letters) (d : Char) : ∀ (fuel : Nat) (p stop : Scan),
    stringEnd E d fuel p = .ok (.OK, stop) →
      stop.length ≤ p.length ∧
      ∀ (fuel2 : Nat) (b : Buf) (e : Err) (n : Nat), p.length < fuel2 →
        letterLoop E d stop fuel2 p b e n ≠ .diverge := by
  intro fuel
  induction fuel with
  | zero => intro p stop h; cases h
  | succ fuel ih =>
    intro p stop h
    unfold stringEnd at h
    split at h
    · injection h with h
      injection h with h _
      split at h <;> cases h
    · split at h
      · injection h with h
        injection h with _ h
        subst h
        refine ⟨Nat.le_refl _, fun fuel2 b e n hf => ?_⟩
        cases fuel2 with
        | zero => omega
        | succ f =>
          unfold letterLoop
          rw [if_neg (by omega)]
          simp
      · have hl := hL.letter p d
        revert hl h
        generalize hx : E.letters.readLetter p d = x
        obtain ⟨c, e0, q⟩ := x
        intro h hl
        dsimp only at hl h
        split at h
        · rename_i he
          injection h with h
          injection h with h _
          exact absurd h he
        · rename_i he
          have hl := hl (by simpa using he)
          obtain ⟨h1, h2⟩ := ih q stop h
          refine ⟨by omega, fun fuel2 b e n hf => ?_⟩
          cases fuel2 with
          | zero => omega
          | succ f =>
            unfold letterLoop
            rw [if_pos (by omega), hx]
            exact Driver.Out.bind_ends (emitIf_ends _ _ _ _) fun _ => h2 f _ _ _ (by omega)

theorem letterLoop_good (d : Char) (stop : Scan) : ∀ (fuel : Nat) (p : Scan) (b : Buf) (e : Err)
    (n : Nat) (r : Buf × Err × Nat), Good b e → letterLoop E d stop fuel p b e n = .ok r →
      Good r.1 r.2.1 := by
  intro fuel
  induction fuel with
  | zero => intro p b e n r _ h; cases h
  | succ fuel ih =>
    intro p b e n r hg h
    unfold letterLoop at h
    split at h
    · obtain ⟨a, ha, h⟩ := Out.bind_ok h
      exact ih _ _ _ _ _ (emitIf_good hg ha) h
    · cases h; exact hg

/-! ### Operands -/

/-- The parts of an assembler that data directives use, as far as ending goes: the letters, the
comments and the expressions shorten the text or leave it as it is, and expressions come to an
end. -/
structure Proper (E : Env) : Prop where
  letters : Shrinks E.letters
  noEnd : ∀ s d, (E.letters.readLetter s d).2.1 ≠ .END_ASSEMBLE
  comment : ∀ s, (E.endOfLine s).2.length ≤ s.length
  expr : ∀ s, E.parseExpr s ≠ .diverge
  rest : ∀ s r, E.parseExpr s = .ok r → r.2.2.length ≤ s.length ∧ r.2.1 ≠ .END_ASSEMBLE

/-- The text, buffer and error after an operand. -/
def Flow.Good (n : Nat) : Flow → Prop
  | .next scan b e => scan.length ≤ n ∧ Data.Good b e
  | .stop _ b e => Data.Good b e

theorem emitValue_ends (type : DataType) (v : Value) (b : Buf) (e : Err) :
    emitValue E type v b e ≠ .diverge := by
  unfold emitValue
  dsimp only
  cases type <;> dsimp only
  all_goals first
    | exact emitIf_ends _ _ _ _
    | (split <;> exact emitIf_ends _ _ _ _)

theorem emitValue_good {type : DataType} {v : Value} {b : Buf} {e : Err} {r : Buf × Err}
    (hg : Good b e) (h : emitValue E type v b e = .ok r) : Good r.1 r.2 := by
  unfold emitValue at h
  dsimp only at h
  cases type <;> dsimp only at h
  all_goals first
    | exact emitIf_good hg h
    | (split at h <;> exact emitIf_good hg h)

theorem valueOperand_ends (hE : Proper E) (type : DataType) (scan : Scan) (se : Err) (b : Buf)
    (e : Err) : valueOperand E type scan se b e ≠ .diverge := by
  unfold valueOperand
  refine Driver.Out.bind_ends (hE.expr scan) fun x => ?_
  dsimp only
  split
  · simp
  · split
    · simp
    · exact Driver.Out.bind_ends (emitValue_ends _ _ _ _) fun _ => by simp

theorem valueOperand_good (hE : Proper E) {type : DataType} {scan : Scan} {se : Err} {b : Buf}
    {e : Err} {f : Flow} (hg : Good b e) (hs : se ≠ .END_ASSEMBLE)
    (h : valueOperand E type scan se b e = .ok f) : f.Good scan.length := by
  unfold valueOperand at h
  obtain ⟨⟨val, pe, p⟩, hp, h⟩ := Out.bind_ok h
  have h1 := hE.rest _ _ hp
  have h2 := hE.comment p
  dsimp only at h h1
  have hif : ∀ x : Err, x ≠ .END_ASSEMBLE → (if se ≠ .OK then se else x) ≠ .END_ASSEMBLE := by
    intro x hx
    split
    · exact hs
    · exact hx
  split at h
  · cases h; exact ⟨hg.1, noEnd_if hg.2 (hif _ (by simp))⟩
  · split at h
    · cases h; exact ⟨hg.1, noEnd_if hg.2 (hif _ h1.2)⟩
    · obtain ⟨⟨b', e'⟩, hv, h⟩ := Out.bind_ok h
      have h3 := emitValue_good ⟨hg.1, h1.2⟩ hv
      have hG : Good b' (setErrorIf e e') := ⟨h3.1, noEnd_if hg.2 h3.2⟩
      cases h
      split
      · exact hG
      · exact ⟨Nat.le_trans h2 h1.1, hG⟩

theorem operand_ends (hE : Proper E) (type : DataType) (scan : Scan) (b : Buf) (e : Err) :
    operand E type scan b e ≠ .diverge := by
  unfold operand
  dsimp only
  split
  · exact valueOperand_ends hE _ _ _ _ _
  · generalize skipSpaces scan = s
    intro hd
    cases hi : isString E s with
    | ok x =>
      obtain ⟨err, stop⟩ := x
      rw [hi] at hd
      simp only [Driver.Out.ok_bind] at hd
      split at hd
      · rename_i he
        subst he
        unfold isString at hi
        revert hd
        refine Driver.Out.bind_ends ?_ fun _ => by simp
        unfold generateString
        dsimp only
        cases hdl : E.letters.stringDelimiter (E.letters.stringPrefix s) with
        | none => rw [hdl] at hi; cases hi
        | some x =>
          obtain ⟨d, p⟩ := x
          rw [hdl] at hi
          dsimp only at hi ⊢
          have := (string_read hE.letters d _ p stop hi).2
          exact Driver.Out.bind_ends (this _ _ _ _ (by omega)) fun _ =>
            Driver.Out.bind_ends (padBytes_ends _ _ _) fun _ => by simp
      · exact valueOperand_ends hE _ _ _ _ _ hd
    | diverge =>
      unfold isString at hi
      split at hi
      · cases hi
      · exact stringEnd_ends hE.letters _ _ _ (by omega) hi
    | ub => rw [hi] at hd; cases hd
    | stackUB => rw [hi] at hd; cases hd

theorem skip_len (s : Scan) : (skipSpaces s).length ≤ s.length := (skipSpaces_suffix s).length_le

theorem operand_good (hE : Proper E) {type : DataType} {scan : Scan} {b : Buf} {e : Err} {f : Flow}
    (hg : Good b e) (h : operand E type scan b e = .ok f) : f.Good scan.length := by
  have hsk := skip_len scan
  have hmono : ∀ {f : Flow}, f.Good (skipSpaces scan).length → f.Good scan.length := by
    intro f hf
    cases f with
    | next s b e => exact ⟨Nat.le_trans hf.1 hsk, hf.2⟩
    | stop s b e => exact hf
  unfold operand at h
  dsimp only at h
  split at h
  · exact hmono (valueOperand_good hE hg (by simp) h)
  · refine hmono ?_
    revert h
    generalize skipSpaces scan = s
    intro h
    obtain ⟨⟨err, stop⟩, hi, h⟩ := Out.bind_ok h
    dsimp only at h
    split at h
    · rename_i he
      subst he
      obtain ⟨⟨b', se, rest⟩, hG, h⟩ := Out.bind_ok h
      unfold isString at hi
      unfold generateString at hG
      dsimp only at hG
      have hpre := hE.letters.pre s
      cases hdl : E.letters.stringDelimiter (E.letters.stringPrefix s) with
      | none => rw [hdl] at hi; cases hi
      | some x =>
        obtain ⟨d, p⟩ := x
        rw [hdl] at hi hG
        dsimp only at hi hG
        have hst := (string_read hE.letters d _ p stop hi).1
        have hp := hE.letters.delim _ _ _ hdl
        obtain ⟨⟨b1, e1, n⟩, h1, hG⟩ := Out.bind_ok hG
        have g1 := letterLoop_good d stop _ _ _ _ _ _ ⟨hg.1, by simp⟩ h1
        dsimp only at hG g1
        obtain ⟨⟨b2, e2⟩, h2, hG⟩ := Out.bind_ok hG
        have g2 := padBytes_good _ _ _ _ g1 h2
        cases hG
        have hrest : (match E.letters.stringDelimiter stop with
            | some (_, p) => p
            | none => stop).length ≤ s.length := by
          split
          · rename_i q hq
            have := hE.letters.delim _ _ _ hq
            omega
          · omega
        have hG2 : Good b2 (setErrorIf e e2) := ⟨g2.1, noEnd_if hg.2 g2.2⟩
        dsimp only at h
        split at h
        · cases h; exact hG2
        · cases h; exact ⟨hrest, hG2⟩
    · refine valueOperand_good hE hg ?_ h
      have : err ≠ .END_ASSEMBLE := by
        unfold isString at hi
        split at hi
        · cases hi; simp
        · exact stringEnd_noEnd hE.noEnd _ _ _ _ hi
      split
      · simp
      · exact this

theorem operands_ends (hE : Proper E) (type : DataType) : ∀ (fuel : Nat) (scan : Scan) (b : Buf)
    (e : Err), scan.length < fuel → Good b e → operands E type fuel scan b e ≠ .diverge := by
  intro fuel
  induction fuel with
  | zero => intro scan b e h; omega
  | succ fuel ih =>
    intro scan b e h hg
    unfold operands
    cases ho : operand E type scan b e with
    | ok f =>
      have := operand_good hE hg ho
      simp only [Driver.Out.ok_bind]
      cases f with
      | stop s b e => simp
      | next s b e =>
        dsimp only
        split
        · rename_i rest hr
          have h1 := expect_lt hr
          have h2 := skip_len s
          have h3 := this.1
          exact ih _ _ _ (by omega) this.2
        · simp
    | diverge => exact absurd ho (operand_ends hE _ _ _ _)
    | ub => simp [Out.bind]
    | stackUB => simp [Out.bind]

theorem operands_good (hE : Proper E) (type : DataType) : ∀ (fuel : Nat) (scan : Scan) (b : Buf)
    (e : Err) (r : Scan × Buf × Err), Good b e → operands E type fuel scan b e = .ok r →
      Good r.2.1 r.2.2 := by
  intro fuel
  induction fuel with
  | zero => intro scan b e r _ h; cases h
  | succ fuel ih =>
    intro scan b e r hg h
    unfold operands at h
    obtain ⟨f, ho, h⟩ := Out.bind_ok h
    have := operand_good hE hg ho
    cases f with
    | stop s b e => cases h; exact this
    | next s b e =>
      dsimp only at h
      split at h
      · exact ih _ _ _ _ this.2 h
      · cases h; exact this.2

theorem align_error {b b' : Buf} {n : Nat} (h : b.align n = some b') : b'.error = b.error := by
  unfold Buf.align at h
  dsimp only at h
  split at h
  · cases h
  · cases h
    split <;> rfl

theorem align_fine {b b' : Buf} {n : Nat} (hb : Insn.Spec.Fine b) (h : b.align n = some b') :
    Insn.Spec.Fine b' := by
  unfold Buf.align at h
  dsimp only at h
  split at h
  · cases h
  · cases h
    split
    · exact ⟨hb.cells, hb.used, hb.bytes⟩
    · exact hb

/-- Data directives come to an end. -/
theorem data_ends (hE : Proper E) (type : DataType) (align2 : Bool) (scan : Scan) (b : Buf)
    (hb : b.error ≠ .END_ASSEMBLE) (hF : Insn.Spec.Fine b) :
    defineDataConstant E type align2 scan b ≠ .diverge := by
  unfold defineDataConstant
  split
  · simp
  · rename_i b' hb'
    have : b'.error ≠ .END_ASSEMBLE ∧ Insn.Spec.Fine b' := by
      split at hb'
      · exact ⟨by rw [align_error hb']; exact hb, align_fine hF hb'⟩
      · cases hb'; exact ⟨hb, hF⟩
    exact Driver.Out.bind_ends (operands_ends hE _ _ _ _ _ (by omega) ⟨this, by simp⟩)
      fun _ => by simp

theorem data_noEnd (hE : Proper E) {type : DataType} {align2 : Bool} {scan : Scan} {b : Buf}
    (hb : b.error ≠ .END_ASSEMBLE) (hF : Insn.Spec.Fine b) {r : Scan × Buf}
    (h : defineDataConstant E type align2 scan b = .ok r) :
    r.2.error ≠ .END_ASSEMBLE ∧ Insn.Spec.Fine r.2 := by
  unfold defineDataConstant at h
  split at h
  · cases h
  · rename_i b' hb'
    have : b'.error ≠ .END_ASSEMBLE ∧ Insn.Spec.Fine b' := by
      split at hb'
      · exact ⟨by rw [align_error hb']; exact hb, align_fine hF hb'⟩
      · cases hb'; exact ⟨hb, hF⟩
    obtain ⟨⟨s, b2, e2⟩, h1, h⟩ := Out.bind_ok h
    cases h
    have := operands_good hE _ _ _ _ _ _ ⟨this, by simp⟩ h1
    exact ⟨this.2, ⟨this.1.2.cells, this.1.2.used, this.1.2.bytes⟩⟩

theorem readLetter_noEnd (s : Scan) (d : Char) : (defaultReadLetter s d).2.1 ≠ .END_ASSEMBLE := by
  unfold defaultReadLetter
  split
  · split
    · simp
    · by_cases h : d = '"' <;> simp [h]
  · split
    · simp
    · split <;> simp

end Libasm.Data
