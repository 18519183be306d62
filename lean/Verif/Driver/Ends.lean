import Verif.Driver.Lemmas
/- The loops end. -/
namespace Libasm.Driver
open Eval (Out)
open Store (Name Symbols Fn)
open Config (setErrorIf)
open Insn (Buf)

variable {σ δ : Type}

theorem Out.bind_ends {α β : Type} {x : Out α} {f : α → Out β} (hx : x ≠ .diverge)
    (hf : ∀ a, f a ≠ .diverge) : x.bind f ≠ .diverge := by
  cases x with
  | ok a => exact hf a
  | diverge => exact absurd rfl hx
  | _ => simp [Out.bind]

theorem skipSpaces_length (s : Scan) : s.skipSpaces.length ≤ s.length := by
  unfold Scan.skipSpaces Scan.trimStart
  exact (List.dropWhile_suffix _).length_le

theorem expect_length {c : Char} {s t : Scan} (h : s.expect c = some t) : t.length < s.length := by
  unfold Scan.expect Scan.expectP at h
  split at h
  · cases h
  · split at h
    · cases h; simp
    · cases h

theorem readParams_ends {C : Cpu σ δ} (hC : Spec.Ends C) (d : δ) (asm : σ) :
    ∀ (fuel : Nat) (scan : Scan) (params : List Name), scan.length < fuel →
      readParams C d asm fuel scan params ≠ none := by
  intro fuel
  induction fuel with
  | zero => intro scan params h; omega
  | succ fuel ih =>
    intro scan params h
    unfold readParams
    dsimp only
    split
    · simp
    · rename_i param p hp
      split
      · simp
      · rename_i q hq
        have h1 := hC.symbol _ _ _ _ _ hp
        have h2 := expect_length hq
        have h3 := skipSpaces_length p
        have h4 := skipSpaces_length scan
        exact ih q _ (by omega)

theorem defineSymbol_ends {C : Cpu σ δ} (hC : Spec.Ends C) (d : δ) (report : Bool) (scan : Scan)
    (symbol : Name) (isVar : Bool) (w : Work σ) :
    defineSymbol C d report scan symbol isVar w ≠ .diverge := by
  unfold defineSymbol
  split
  · simp
  · refine Out.bind_ends (hC.eval _ _ _ _) ?_
    rintro ⟨v, e, rest⟩
    dsimp only
    split
    · simp
    · split <;> simp

theorem open_ends (files : Files) (s : Sources) (name : Name) : s.open files name ≠ .diverge := by
  unfold Sources.open
  split
  · simp
  · split
    · simp
    · split <;> simp

theorem handle_ends {C : Cpu σ δ} (hC : Spec.Ends C) (files : Files) (d : δ) (report : Bool)
    (scan : Scan) (w : Work σ) (h : Handler) : handle C files d report scan w h ≠ .diverge := by
  cases h <;> dsimp only [handle]
  · exact Out.bind_ends (defineSymbol_ends hC _ _ _ _ _ _) (fun _ => by simp)
  · exact Out.bind_ends (defineSymbol_ends hC _ _ _ _ _ _) (fun _ => by simp)
  · split
    · simp
    · split
      · simp
      · split
        · simp
        · exact Out.bind_ends (defineSymbol_ends hC _ _ _ _ _ _) (fun _ => by simp)
  · split
    · simp
    · exact Out.bind_ends (open_ends _ _ _) (fun _ => by simp)
  · split <;> simp
  · simp
  · split
    · simp
    · split
      · rename_i h0
        exact absurd h0 (readParams_ends hC _ _ _ _ _ (by omega))
      · split <;> simp

theorem encodeLine_ends {C : Cpu σ δ} (hC : Spec.Ends C) (files : Files) (d : δ) (report : Bool)
    (a : Nat) (line : Scan) (asm : σ) (symbols : Symbols) (sources : Sources) :
    encodeLine C files d report a line asm symbols sources ≠ .diverge := by
  unfold encodeLine
  dsimp only
  split
  · simp
  · refine Out.bind_ends ?_ ?_
    · unfold pseudoPart
      dsimp only
      split
      · simp
      · split
        · simp
        · refine Out.bind_ends (handle_ends hC _ _ _ _ _ _) ?_
          rintro ⟨w, e, p⟩
          dsimp only
          split <;> simp
    · rintro ⟨w, e, scan⟩
      dsimp only
      split
      · simp
      · split
        · simp
        · exact Out.bind_ends (hC.encode _ _ _ _ _) (fun _ => by simp)

theorem stepLine_ends {C : Cpu σ δ} (hC : Spec.Ends C) (files : Files) (report : Bool)
    (line : List Char) (s : St σ) : stepLine C files report line s ≠ .diverge := by
  unfold stepLine
  refine Out.bind_ends (encodeLine_ends hC _ _ _ _ _ _ _ _) ?_
  rintro ⟨w, b, e⟩
  dsimp only
  split <;> simp

theorem inFile_ends {C : Cpu σ δ} (hC : Spec.Ends C) (files : Files) (report : Bool)
    {nested : Sources → Reader → St σ → Out (St σ)} (hn : ∀ b r s, nested b r s ≠ .diverge)
    (below : Sources) (name : Name) :
    ∀ (lines : List (List Char)) (n : Nat) (s : St σ),
      Spec.inFile C files report nested below name n lines s ≠ .diverge := by
  intro lines
  induction lines with
  | nil => intro n s; simp [Spec.inFile]
  | cons line lines ih =>
    intro n s
    simp only [Spec.inFile]
    refine Out.bind_ends (stepLine_ends hC _ _ _ _) ?_
    rintro ⟨s', stop⟩
    dsimp only
    split
    · exact ih _ _
    · split
      · exact Out.bind_ends (hn _ _ _) (fun s => ih _ _)
      · exact ih _ _

theorem inPlace_ends {C : Cpu σ δ} (hC : Spec.Ends C) (files : Files) (report : Bool) :
    ∀ room below r s, Spec.inPlace C files report room below r s ≠ .diverge := by
  intro room
  induction room with
  | zero => intro below r s; exact inFile_ends hC files report (fun _ _ _ => by simp) _ _ _ _ _
  | succ room ih => intro below r s; exact inFile_ends hC files report ih _ _ _ _ _

end Libasm.Driver
