import Verif.Driver.Spec
namespace Libasm.Driver
open Eval (Out)
open Store (Name Symbols Fn)
open Config (setErrorIf)
open Insn (Buf)

variable {σ δ : Type}

theorem Out.bind_ok {α β : Type} {x : Out α} {f : α → Out β} {b : β} (h : x.bind f = .ok b) :
    ∃ a, x = .ok a ∧ f a = .ok b := by
  cases x <;> simp [Out.bind] at h
  exact ⟨_, rfl, h⟩

theorem Out.ok_bind {α β : Type} (a : α) (f : α → Out β) : (Out.ok a).bind f = f a := rfl

theorem Out.bind_assoc {α β γ : Type} (x : Out α) (f : α → Out β) (g : β → Out γ) :
    (x.bind f).bind g = x.bind fun a => (f a).bind g := by
  cases x <;> rfl

theorem setErrorIf_noEnd {a b : Err} (ha : a ≠ .END_ASSEMBLE) (hb : b ≠ .END_ASSEMBLE) :
    setErrorIf a b ≠ .END_ASSEMBLE := by
  unfold setErrorIf; split <;> assumption

/-! ### What a line does to the sources -/

/-- The sources are as they were, or a file has been opened on top of them. -/
def Grows (files : Files) (a b : Sources) : Prop :=
  b = a ∨ (a.length < 4 ∧ ∃ name lines, files name = some lines ∧ b = ⟨name, lines, 0⟩ :: a)

theorem open_grows {files : Files} {s : Sources} {name : Name} {t : Sources} {e : Err}
    (h : s.open files name = .ok (t, e)) : Grows files s t ∧ e ≠ .END_ASSEMBLE := by
  unfold Sources.open at h
  split at h
  · simp at h; obtain ⟨rfl, rfl⟩ := h; exact ⟨.inl rfl, by decide⟩
  · rename_i hl
    split at h
    · cases h
    · split at h
      · simp at h; obtain ⟨rfl, rfl⟩ := h; exact ⟨.inl rfl, by decide⟩
      · rename_i lines hf
        simp at h; obtain ⟨rfl, rfl⟩ := h
        exact ⟨.inr ⟨by simp only [maxIncludes] at hl; omega, name, lines, hf, rfl⟩, by decide⟩

theorem intern_noEnd (s : Symbols) (v : Value) (n : Name) (b : Bool) :
    (s.intern v n b).2 ≠ .END_ASSEMBLE := by
  unfold Symbols.intern
  split
  · simp
  · split
    · simp
    · split <;> simp

theorem internFunction_noEnd (s : Symbols) (n : Name) (ps : List Name) (b : List Char) :
    (s.internFunction n ps b).2 ≠ .END_ASSEMBLE := by
  unfold Symbols.internFunction
  split <;> simp

theorem defineSymbol_sources {C : Cpu σ δ} {d : δ} {report : Bool} {scan : Scan} {symbol : Name}
    {isVar : Bool} {w : Work σ} {r : Work σ × Scan} (hC : Spec.NoEnd C)
    (hw : w.error ≠ .END_ASSEMBLE)
    (h : defineSymbol C d report scan symbol isVar w = .ok r) :
    r.1.sources = w.sources ∧ r.1.error ≠ .END_ASSEMBLE := by
  unfold defineSymbol at h
  split at h
  · cases h; exact ⟨rfl, by simp⟩
  · obtain ⟨⟨v, e, rest⟩, he, h⟩ := Out.bind_ok h
    have := hC.eval _ _ _ _ _ he
    dsimp only at h
    split at h
    · cases h; exact ⟨rfl, this⟩
    · split at h
      · cases h; exact ⟨rfl, this⟩
      · cases h; exact ⟨rfl, setErrorIf_noEnd hw (intern_noEnd _ _ _ _)⟩

theorem handle_sources {C : Cpu σ δ} {files : Files} {d : δ} {report : Bool} {scan : Scan}
    {w : Work σ} {hd : Handler} {r : Work σ × Err × Scan} (hC : Spec.NoEnd C)
    (hw : w.error ≠ .END_ASSEMBLE) (h : handle C files d report scan w hd = .ok r) :
    Grows files w.sources r.1.sources ∧ r.1.error ≠ .END_ASSEMBLE := by
  cases hd <;> dsimp only [handle] at h
  · obtain ⟨⟨w', rest⟩, h1, h⟩ := Out.bind_ok h
    cases h
    have := defineSymbol_sources hC hw h1
    exact ⟨.inl this.1, this.2⟩
  · obtain ⟨⟨w', rest⟩, h1, h⟩ := Out.bind_ok h
    cases h
    have := defineSymbol_sources hC hw h1
    exact ⟨.inl this.1, this.2⟩
  · split at h
    · cases h; exact ⟨.inl rfl, by simp⟩
    · split at h
      · cases h; exact ⟨.inl rfl, by simp⟩
      · split at h
        · cases h; exact ⟨.inl rfl, by simp⟩
        · obtain ⟨⟨w', rest⟩, h1, h⟩ := Out.bind_ok h
          cases h
          have := defineSymbol_sources hC hw h1
          exact ⟨.inl this.1, this.2⟩
  · split at h
    · rename_i e he
      cases h
      refine ⟨.inl rfl, ?_⟩
      show e ≠ _
      intro h0
      subst h0
      unfold includeName at he
      split at he
      · split at he <;> cases he
      · split at he <;> cases he
      · cases he
    · obtain ⟨⟨t, e⟩, h1, h⟩ := Out.bind_ok h
      cases h
      have := open_grows h1
      exact ⟨this.1, setErrorIf_noEnd hw this.2⟩
  · split at h <;> cases h <;> exact ⟨.inl rfl, by simp⟩
  · cases h; exact ⟨.inl rfl, hw⟩
  · split at h
    · cases h; exact ⟨.inl rfl, by simp⟩
    · split at h
      · cases h
      · split at h
        · cases h; exact ⟨.inl rfl, setErrorIf_noEnd hw (by decide)⟩
        · cases h; exact ⟨.inl rfl, setErrorIf_noEnd hw (internFunction_noEnd _ _ _ _)⟩

theorem pseudoPart_sources {C : Cpu σ δ} {files : Files} {d : δ} {report : Bool} {scan : Scan}
    {w : Work σ} {r : Work σ × Err × Scan} (hC : Spec.NoEnd C)
    (hw : w.error ≠ .END_ASSEMBLE) (h : pseudoPart C files d report scan w = .ok r) :
    Grows files w.sources r.1.sources ∧ r.1.error ≠ .END_ASSEMBLE := by
  unfold pseudoPart at h
  dsimp only at h
  split at h
  · cases h; exact ⟨.inl rfl, hw⟩
  · split at h
    · cases h; exact ⟨.inl rfl, hw⟩
    · obtain ⟨⟨w', e, p⟩, h1, h⟩ := Out.bind_ok h
      have := handle_sources hC (by exact hw) h1
      dsimp only at h
      split at h
      · cases h; exact ⟨this.1, by simp⟩
      · cases h; exact this

theorem labelPart_sources {report : Bool} {a : Nat} {w : Work σ} (hw : w.error ≠ .END_ASSEMBLE) :
    (labelPart report a w).sources = w.sources ∧ (labelPart report a w).error ≠ .END_ASSEMBLE := by
  unfold labelPart
  split
  · exact ⟨rfl, hw⟩
  · split
    · exact ⟨rfl, setErrorIf_noEnd hw (by decide)⟩
    · exact ⟨rfl, hw⟩

theorem encodeLine_sources {C : Cpu σ δ} {files : Files} {d : δ} {report : Bool} {a : Nat}
    {line : Scan} {asm : σ} {symbols : Symbols} {sources : Sources} {r : Work σ × Buf × Err}
    (hC : Spec.NoEnd C) (h : encodeLine C files d report a line asm symbols sources = .ok r) :
    Grows files sources r.1.sources ∧ r.2.2 ≠ .END_ASSEMBLE ∧ r.1.error = r.2.2 := by
  unfold encodeLine at h
  dsimp only at h
  split at h
  · cases h; exact ⟨.inl rfl, by simp, rfl⟩
  · obtain ⟨⟨w, e, scan⟩, h1, h⟩ := Out.bind_ok h
    have h2 := pseudoPart_sources hC (by simp) h1
    have h3 := labelPart_sources (report := report) (a := a) h2.2
    dsimp only at h h2 h3
    rw [← h3.1] at h2
    split at h
    · cases h; exact ⟨h2.1, h3.2, rfl⟩
    · split at h
      · cases h; exact ⟨h2.1, by simp, rfl⟩
      · obtain ⟨⟨asm', b⟩, h4, h⟩ := Out.bind_ok h
        have := hC.encode _ _ _ _ _ _ h4
        cases h
        refine ⟨h2.1, ?_, rfl⟩
        dsimp only
        split
        · decide
        · exact this

theorem stepLine_sources {C : Cpu σ δ} {files : Files} {report : Bool} {line : List Char}
    {s : St σ} {r : St σ × Bool} (hC : Spec.NoEnd C)
    (h : stepLine C files report line s = .ok r) :
    Grows files s.sources r.1.sources ∧ r.2 = false := by
  unfold stepLine at h
  dsimp only at h
  obtain ⟨⟨w, b, e⟩, h1, h⟩ := Out.bind_ok h
  have := encodeLine_sources hC h1
  dsimp only at h
  split at h
  · cases h
  · cases h
    exact ⟨this.1, by simpa using this.2.1⟩

/-! ### The loop and the recursion over files -/

/-- The loop, from the reader `r` on top of `below`, is the recursion over the file followed by the
loop from `below`. -/
def Agree (C : Cpu σ δ) (files : Files) (report : Bool)
    (f : Sources → Reader → St σ → Out (St σ)) (room : Nat) : Prop :=
  ∀ (below : Sources) (r : Reader) (s : St σ), below.length + 1 + room = 4 →
    ∃ k, ∀ fuel, loop C files report (fuel + k) { s with sources := r :: below } =
      (f below r s).bind fun s' => loop C files report fuel { s' with sources := below }

theorem loop_exhausted (C : Cpu σ δ) (files : Files) (report : Bool) (fuel : Nat) (s : St σ)
    (name : Name) (n : Nat) (below : Sources) :
    loop C files report fuel { s with sources := ⟨name, [], n⟩ :: below } =
      loop C files report fuel { s with sources := below } := by
  cases fuel with
  | zero => rfl
  | succ fuel => rfl

theorem inFile_agree {C : Cpu σ δ} {files : Files} {report : Bool} (hC : Spec.NoEnd C)
    {nested : Sources → Reader → St σ → Out (St σ)} {room : Nat}
    (hn : ∀ r, room = r + 1 → Agree C files report nested r)
    (below : Sources) (name : Name) (hr : below.length + 1 + room = 4) :
    ∀ (lines : List (List Char)) (n : Nat) (s : St σ), ∃ k, ∀ fuel,
      loop C files report (fuel + k) { s with sources := ⟨name, lines, n⟩ :: below } =
      (Spec.inFile C files report nested below name n lines s).bind fun s' =>
        loop C files report fuel { s' with sources := below } := by
  intro lines
  induction lines with
  | nil =>
    intro n s
    exact ⟨0, fun fuel => loop_exhausted C files report fuel s name n below⟩
  | cons line lines ih =>
    intro n s
    have hstep : ∀ fuel, loop C files report (fuel + 1)
        { s with sources := ⟨name, line :: lines, n⟩ :: below } =
        (stepLine C files report line
          { s with sources := ⟨name, lines, n + 1⟩ :: below }).bind fun r =>
          if r.2 then .ok { r.1 with sources := r.1.sources.closeAll }
          else loop C files report fuel r.1 := fun fuel => rfl
    cases hx : stepLine C files report line { s with sources := ⟨name, lines, n + 1⟩ :: below } with
    | ok r =>
      obtain ⟨s', stop⟩ := r
      obtain ⟨hg, hs⟩ := stepLine_sources hC hx
      dsimp only at hg hs
      subst hs
      rcases hg with hg | ⟨hlt, inner, ls, hf, hg⟩
      · obtain ⟨k, hk⟩ := ih (n + 1) s'
        refine ⟨k + 1, fun fuel => ?_⟩
        rw [← Nat.add_assoc, hstep, hx]
        simp only [Spec.inFile, hx, Out.ok_bind, hg]
        have hne : ¬ below.length = List.length (⟨name, lines, n + 1⟩ :: below : Sources) := by
          simp
        rw [if_neg hne, ← hk, ← hg]
        rfl
      · simp only [List.length_cons] at hlt
        obtain ⟨r, rfl⟩ : ∃ r, room = r + 1 := ⟨room - 1, by omega⟩
        obtain ⟨k1, hk1⟩ := hn r rfl (⟨name, lines, n + 1⟩ :: below) ⟨inner, ls, 0⟩ s'
          (by simp only [List.length_cons]; omega)
        cases hy : nested (⟨name, lines, n + 1⟩ :: below) ⟨inner, ls, 0⟩ s' with
        | ok s2 =>
          obtain ⟨k2, hk2⟩ := ih (n + 1) s2
          refine ⟨k2 + k1 + 1, fun fuel => ?_⟩
          rw [← Nat.add_assoc, hstep, hx]
          simp only [Spec.inFile, hx, Out.ok_bind, hg]
          have := hk1 (fuel + k2)
          rw [hy] at this
          simp only [Out.ok_bind] at this
          rw [if_pos trivial, hy]
          simp only [Out.ok_bind]
          rw [← hk2, ← this, ← hg, ← Nat.add_assoc]
          rfl
        | _ =>
          refine ⟨k1 + 1, fun fuel => ?_⟩
          rw [← Nat.add_assoc, hstep, hx]
          simp only [Spec.inFile, hx, Out.bind, hg]
          have := hk1 fuel
          rw [hy] at this
          simp only [Out.bind] at this
          rw [if_pos trivial, hy, ← hg] 
          rw [← hg] at this
          exact this
    | _ =>
      refine ⟨1, fun fuel => ?_⟩
      rw [hstep, hx]
      simp only [Spec.inFile, hx, Out.bind]

theorem inPlace_agree {C : Cpu σ δ} {files : Files} {report : Bool} (hC : Spec.NoEnd C) :
    ∀ room, Agree C files report (Spec.inPlace C files report room) room := by
  intro room
  induction room with
  | zero =>
    intro below r s hr
    exact inFile_agree hC (fun _ h => by cases h) below r.name hr r.rest r.lineno s
  | succ room ih =>
    intro below r s hr
    exact inFile_agree hC (fun r h => by cases h; exact ih) below r.name hr r.rest r.lineno s

end Libasm.Driver
