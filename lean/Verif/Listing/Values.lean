import Verif.Driver.Lines
/-
A line that defines a symbol has no bytes.
-/
namespace Libasm.Driver
open Eval (Out)
open Store (Name Symbols Fn)
open Config (setErrorIf)
open Insn (Buf)

variable {σ δ : Type}

theorem setErrorIf_unknown {a b : Err} (ha : a ≠ .UNKNOWN_DIRECTIVE) (hb : b ≠ .UNKNOWN_DIRECTIVE) :
    setErrorIf a b ≠ .UNKNOWN_DIRECTIVE := by
  unfold setErrorIf
  split <;> assumption

theorem intern_known (s : Symbols) (v : Value) (n : Name) (b : Bool) :
    (s.intern v n b).2 ≠ .UNKNOWN_DIRECTIVE := by
  unfold Symbols.intern
  repeat' split
  all_goals simp

theorem defineSymbol_value {C : Cpu σ δ} {d : δ} {report : Bool} {scan rest : Scan} {symbol : Name}
    {isVar : Bool} {w w' : Work σ} (hw : w.error = .OK) (hv : w.value = .undefined)
    (h : defineSymbol C d report scan symbol isVar w = .ok (w', rest)) :
    w'.value = .undefined ∨ w'.error ≠ .UNKNOWN_DIRECTIVE := by
  unfold defineSymbol at h
  split at h
  · cases h; exact .inl hv
  · obtain ⟨⟨v, e, r⟩, h1, h2⟩ := Out.bind_ok h
    dsimp only at h2
    split at h2
    · cases h2; exact .inl rfl
    · split at h2
      · rename_i he
        cases h2
        refine .inr ?_
        simp at he
        rw [he.2]
        simp
      · cases h2
        refine .inr (setErrorIf_unknown ?_ (intern_known _ _ _ _))
        rw [hw]
        simp

theorem handle_value {C : Cpu σ δ} {files : Files} {d : δ} {report : Bool} {scan rest : Scan}
    {w w' : Work σ} {hd : Handler} {e : Err} (hw : w.error = .OK) (hv : w.value = .undefined)
    (h : handle C files d report scan w hd = .ok (w', e, rest)) :
    w'.value = .undefined ∨ e ≠ .UNKNOWN_DIRECTIVE := by
  cases hd with
  | constant =>
    obtain ⟨⟨w1, r⟩, h1, h2⟩ := Out.bind_ok h
    have := defineSymbol_value hw hv h1
    cases h2
    exact this
  | variable_ =>
    obtain ⟨⟨w1, r⟩, h1, h2⟩ := Out.bind_ok h
    have := defineSymbol_value hw hv h1
    cases h2
    exact this
  | setVariable =>
    simp only [handle] at h
    split at h
    · cases h; exact .inl hv
    · split at h
      · cases h; exact .inl hv
      · split at h
        · cases h; exact .inl hv
        · obtain ⟨⟨w1, r⟩, h1, h2⟩ := Out.bind_ok h
          cases h2
          exact defineSymbol_value hw hv h1
  | include_ =>
    simp only [handle] at h
    split at h
    · cases h; exact .inl hv
    · obtain ⟨⟨w1, r⟩, h1, h2⟩ := Out.bind_ok h
      cases h2
      exact .inl hv
  | cpu =>
    simp only [handle] at h
    split at h <;> cases h <;> exact .inl hv
  | end_ => cases h; exact .inl hv
  | function =>
    simp only [handle] at h
    split at h
    · cases h; exact .inl hv
    · split at h
      · cases h
      · split at h <;> cases h <;> exact .inl hv

theorem encodeLine_value {C : Cpu σ δ} {files : Files} {d : δ} {report : Bool} {address : Nat}
    {line : Scan} {asm : σ} {symbols : Symbols} {sources : Sources} {w : Work σ} {b : Buf} {e : Err}
    (h : encodeLine C files d report address line asm symbols sources = .ok (w, b, e)) :
    w.value = .undefined ∨ b = Buf.new address := by
  unfold encodeLine at h
  dsimp only at h
  split at h
  · cases h; exact .inl rfl
  · obtain ⟨⟨w1, e1, s1⟩, h1, h2⟩ := Out.bind_ok h
    have hp : w1.value = .undefined ∨ e1 ≠ .UNKNOWN_DIRECTIVE := by
      unfold pseudoPart at h1
      dsimp only at h1
      split at h1
      · cases h1; exact .inl rfl
      · split at h1
        · cases h1; exact .inl rfl
        · obtain ⟨⟨w2, e2, s2⟩, g1, g2⟩ := Out.bind_ok h1
          have := handle_value rfl rfl g1
          dsimp only at g2
          split at g2 <;> cases g2 <;> exact this
    have hl : (labelPart report address w1).value = w1.value := by
      unfold labelPart
      repeat' split
      all_goals rfl
    dsimp only at h2
    split at h2
    · cases h2; exact .inr rfl
    · rename_i he
      have he' : e1 = .UNKNOWN_DIRECTIVE := Classical.byContradiction fun g => he g
      have hu : w1.value = .undefined := hp.resolve_right (fun g => g he')
      split at h2
      · cases h2; exact .inr rfl
      · obtain ⟨⟨a, b'⟩, g1, g2⟩ := Out.bind_ok h2
        cases g2
        exact .inl (hl.trans hu)

/-- The entry a line adds to the log. -/
theorem stepLine_value {C : Cpu σ δ} {files : Files} {report : Bool} {line : List Char} {s s' : St σ}
    {stop : Bool} (h : stepLine C files report line s = .ok (s', stop)) :
    ∃ e, s'.log = s.log ++ [e] ∧ (e.value = .undefined ∨ e.bytes = []) := by
  unfold stepLine at h
  obtain ⟨⟨w, b, e⟩, h1, h2⟩ := Out.bind_ok h
  dsimp only at h2
  split at h2
  · cases h2
  · cases h2
    refine ⟨_, rfl, ?_⟩
    rcases encodeLine_value h1 with g | g
    · exact .inl g
    · subst g; exact .inr (by simp [Buf.new])

theorem loop_value {C : Cpu σ δ} {files : Files} {report : Bool} (fuel : Nat) {s s' : St σ}
    (hs : ∀ e ∈ s.log, e.value = .undefined ∨ e.bytes = [])
    (h : loop C files report fuel s = .ok s') :
    ∀ e ∈ s'.log, e.value = .undefined ∨ e.bytes = [] := by
  induction fuel generalizing s with
  | zero => cases h
  | succ fuel ih =>
    unfold loop at h
    split at h
    · cases h; exact hs
    · obtain ⟨⟨s1, stop⟩, h1, h2⟩ := Out.bind_ok h
      obtain ⟨e, g1, g2⟩ := stepLine_value h1
      have hs1 : ∀ e ∈ s1.log, e.value = .undefined ∨ e.bytes = [] := by
        intro x hx
        rw [g1] at hx
        rcases List.mem_append.1 hx with hx | hx
        · exact hs x hx
        · rw [List.mem_singleton.1 hx]; exact g2
      dsimp only at h2
      split at h2
      · cases h2; exact hs1
      · exact ih hs1 h2

theorem pass_value {C : Cpu σ δ} {files : Files} {cmd : Command σ} {report : Bool} {fuel : Nat}
    {p q : Pass σ} (h : pass C files cmd report fuel p = .ok (some q)) :
    ∀ e ∈ q.log, e.value = .undefined ∨ e.bytes = [] := by
  unfold pass at h
  obtain ⟨⟨src, e⟩, h1, h⟩ := Out.bind_ok h
  dsimp only at h
  split at h
  · cases h
  · obtain ⟨s, h2, h⟩ := Out.bind_ok h
    cases h
    exact loop_value fuel (s := ⟨_, _, _, [], 0, []⟩) (by simp) h2

end Libasm.Driver
