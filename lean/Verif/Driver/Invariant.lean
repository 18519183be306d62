import Verif.Driver.Same
import Verif.Eval.Valid
/- Properties of the symbol store that every line keeps. -/
namespace Libasm.Driver
open Eval (Out)
open Store (Name Symbols Fn Map)
open Config (setErrorIf)
open Insn (Buf)

variable {σ δ : Type}

/-- A property of stores kept by every definition of a value with property `Q`. -/
structure Kept (C : Cpu σ δ) (I : Symbols → Prop) (Q : Value → Prop) : Prop where
  intern : ∀ s v n b, I s → Q v → I (s.intern v n b).1
  function : ∀ s n ps body, I s → I (s.internFunction n ps body).1
  address : ∀ a, Q (.setUnsigned a)
  values : ∀ s, I s → ∀ n v, s.lookup n = some v → Q v
  eval : ∀ s d v t r, (∀ n x, v.symbol n = some x → Q x) → C.eval s d v t = .ok r → Q r.1

variable {C : Cpu σ δ} {I : Symbols → Prop} {Q : Value → Prop}

theorem defineSymbol_kept (hK : Kept C I Q) {d : δ} {report : Bool} {scan : Scan} {symbol : Name}
    {isVar : Bool} {w : Work σ} {r : Work σ × Scan} (hw : I w.symbols)
    (h : defineSymbol C d report scan symbol isVar w = .ok r) : I r.1.symbols := by
  unfold defineSymbol at h
  split at h
  · cases h; exact hw
  · obtain ⟨⟨v, e, rest⟩, he, h⟩ := Out.bind_ok h
    have := hK.eval _ _ _ _ _ (fun n x hx => hK.values _ hw n x hx) he
    dsimp only at h
    split at h
    · cases h; exact hw
    · split at h
      · cases h; exact hw
      · cases h; exact hK.intern _ _ _ _ hw this

theorem handle_kept (hK : Kept C I Q) {files : Files} {d : δ} {report : Bool} {scan : Scan}
    {w : Work σ} {hd : Handler} {r : Work σ × Err × Scan} (hw : I w.symbols)
    (h : handle C files d report scan w hd = .ok r) : I r.1.symbols := by
  cases hd <;> dsimp only [handle] at h
  · obtain ⟨⟨w', rest⟩, h1, h⟩ := Out.bind_ok h
    cases h
    exact defineSymbol_kept hK hw h1
  · obtain ⟨⟨w', rest⟩, h1, h⟩ := Out.bind_ok h
    cases h
    exact defineSymbol_kept hK hw h1
  · split at h
    · cases h; exact hw
    · split at h
      · cases h; exact hw
      · split at h
        · cases h; exact hw
        · obtain ⟨⟨w', rest⟩, h1, h⟩ := Out.bind_ok h
          cases h
          exact defineSymbol_kept hK hw h1
  · split at h
    · cases h; exact hw
    · obtain ⟨⟨t, e⟩, h1, h⟩ := Out.bind_ok h
      cases h
      exact hw
  · split at h <;> cases h <;> exact hw
  · cases h; exact hw
  · split at h
    · cases h; exact hw
    · split at h
      · cases h
      · split at h
        · cases h; exact hw
        · cases h; exact hK.function _ _ _ _ hw

theorem encodeLine_kept (hK : Kept C I Q) {files : Files} {d : δ} {report : Bool} {a : Nat}
    {line : Scan} {asm : σ} {symbols : Symbols} {sources : Sources} {r : Work σ × Buf × Err}
    (hs : I symbols) (h : encodeLine C files d report a line asm symbols sources = .ok r) :
    I r.1.symbols := by
  unfold encodeLine at h
  dsimp only at h
  split at h
  · cases h; exact hs
  · obtain ⟨⟨w, e, scan⟩, h1, h⟩ := Out.bind_ok h
    have h2 : I w.symbols := by
      unfold pseudoPart at h1
      dsimp only at h1
      split at h1
      · cases h1; exact hs
      · split at h1
        · cases h1; exact hs
        · obtain ⟨⟨w', e', p⟩, h2, h1⟩ := Out.bind_ok h1
          have := handle_kept hK (by exact hs) h2
          dsimp only at h1
          split at h1 <;> cases h1 <;> exact this
    have h3 : I (labelPart report a w).symbols := by
      unfold labelPart
      split
      · exact h2
      · split
        · exact h2
        · exact hK.intern _ _ _ _ h2 (hK.address _)
    dsimp only at h
    split at h
    · cases h; exact h3
    · split at h
      · cases h; exact h3
      · obtain ⟨⟨asm', b⟩, h4, h⟩ := Out.bind_ok h
        cases h
        exact h3

theorem stepLine_kept (hK : Kept C I Q) {files : Files} {report : Bool} {line : List Char}
    {s : St σ} {r : St σ × Bool} (hs : I s.symbols)
    (h : stepLine C files report line s = .ok r) : I r.1.symbols := by
  unfold stepLine at h
  dsimp only at h
  obtain ⟨⟨w, b, e⟩, h1, h⟩ := Out.bind_ok h
  have := encodeLine_kept hK hs h1
  dsimp only at h
  split at h
  · cases h
  · cases h; exact this

theorem loop_kept (hK : Kept C I Q) {files : Files} {report : Bool} :
    ∀ (fuel : Nat) {s s' : St σ}, I s.symbols → loop C files report fuel s = .ok s' →
      I s'.symbols := by
  intro fuel
  induction fuel with
  | zero => intro s s' _ h; cases h
  | succ fuel ih =>
    intro s s' hs h
    simp only [loop] at h
    cases hr : s.sources.readLine with
    | mk line src =>
      rw [hr] at h
      cases line with
      | none => cases h; exact hs
      | some line =>
        obtain ⟨⟨x, b⟩, h1, h⟩ := Out.bind_ok h
        have := stepLine_kept hK (by exact hs) h1
        dsimp only at h
        split at h
        · cases h; exact this
        · exact ih this h

theorem pass_kept (hK : Kept C I Q) (hc : ∀ s, I s → I s.clearFunctions) {files : Files}
    {cmd : Command σ} {report : Bool} {fuel : Nat} {p q : Pass σ} (hp : I p.symbols)
    (h : pass C files cmd report fuel p = .ok (some q)) : I q.symbols := by
  unfold pass at h
  obtain ⟨⟨src, e⟩, h1, h⟩ := Out.bind_ok h
  dsimp only at h
  split at h
  · cases h
  · obtain ⟨s, h2, h⟩ := Out.bind_ok h
    cases h
    exact loop_kept hK fuel (hc _ hp) h2

/-- The states around the last pass of the pass loop: both were kept well, the last one came from a
pass, and no other pass was asked for. -/
theorem passes_spec {files : Files} {cmd : Command σ} {lines : Nat}
    (P : Pass σ → Prop)
    (hP : ∀ report p q, P p → pass C files cmd report lines p = .ok (some q) → P q) :
    ∀ (fuel : Nat) (report : Bool) (p0 p q : Pass σ) (rep : Bool), P p0 →
      passes C files cmd lines fuel report p0 = .ok (some (p, q, rep)) →
      P p ∧ pass C files cmd rep lines p = .ok (some q) ∧ again p q = false := by
  intro fuel
  induction fuel with
  | zero => intro report p0 p q rep _ h; cases h
  | succ fuel ih =>
    intro report p0 p q rep hp0 h
    simp only [passes] at h
    obtain ⟨o, h1, h⟩ := Out.bind_ok h
    cases o with
    | none => cases h
    | some q1 =>
      dsimp only at h
      split at h
      · exact ih true q1 p q rep (hP _ _ _ hp0 h1) h
      · rename_i hag
        cases h
        exact ⟨hp0, h1, by simpa using hag⟩

/-! ### Values in the store are determined by their bits -/

/-- What every value in the store is: within 32 bits, and valid. -/
def Tidy (v : Value) : Prop := v.overflowUint32 = false ∧ Value.Spec.Valid v

/-- All values of a store are tidy, and no name is both a constant and a variable. -/
structure TidyStore (s : Symbols) : Prop where
  constants : ∀ n v, s.constants.find n = some v → Tidy v
  variables : ∀ n v, s.variables.find n = some v → Tidy v
  kinds : ∀ n, s.constants.find n = none ∨ s.variables.find n = none

theorem tidy_intern (s : Symbols) (v : Value) (n : Name) (b : Bool) (hs : TidyStore s)
    (hv : Value.Spec.Valid v) : TidyStore (s.intern v n b).1 := by
  unfold Symbols.intern
  split
  · exact hs
  · rename_i hk
    split
    · exact hs
    · rename_i ho
      have ho : v.overflowUint32 = false := by simpa using ho
      split
      · subst_vars
        have hk : s.constants.find n = none := by
          simpa [Symbols.hasValue] using hk
        refine ⟨hs.constants, fun m x hx => ?_, fun m => ?_⟩
        · dsimp only at hx
          rw [find_put_cons] at hx
          split at hx
          · cases hx; exact ⟨ho, hv⟩
          · exact hs.variables m x hx
        · show _ ∨ Map.find (Map.put _ _ _) _ = none
          rw [find_put_cons]
          split
          · subst_vars; exact .inl hk
          · exact hs.kinds m
      · rename_i hb
        have hb : b = false := by simpa using hb
        subst hb
        have hk : s.variables.find n = none := by
          simpa [Symbols.hasValue] using hk
        refine ⟨fun m x hx => ?_, hs.variables, fun m => ?_⟩
        · dsimp only at hx
          rw [find_put_cons] at hx
          split at hx
          · cases hx; exact ⟨ho, hv⟩
          · exact hs.constants m x hx
        · show Map.find (Map.put _ _ _) _ = none ∨ _
          rw [find_put_cons]
          split
          · subst_vars; exact .inr hk
          · exact hs.kinds m

theorem tidy_kept (hC : ∀ s d v t r, (∀ n x, v.symbol n = some x → Value.Spec.Valid x) →
    C.eval s d v t = .ok r → Value.Spec.Valid r.1) :
    Kept C TidyStore Value.Spec.Valid where
  intern := fun s v n b hs hv => tidy_intern s v n b hs hv
  function := by
    intro s n ps body hs
    unfold Symbols.internFunction
    split
    · exact hs
    · exact ⟨hs.constants, hs.variables, hs.kinds⟩
  address := fun _ => Value.setU_valid _
  values := by
    intro s hs n v h
    unfold Symbols.lookup at h
    split at h
    · rename_i x hx
      cases h; exact (hs.constants _ _ hx).2
    · exact (hs.variables _ _ h).2
  eval := hC

theorem tidy_eq {v w : Value} (hv : Tidy v) (hw : Tidy w) (he : Value.eq v w = true)
    (hu : v.type = .undef ↔ w.type = .undef) : v = w := by
  obtain ⟨bv, tv⟩ := v
  obtain ⟨bw, tw⟩ := w
  have hb : bv = bw := by simpa [Value.eq] using he
  subst hb
  obtain ⟨v1, v2⟩ := hv
  obtain ⟨w1, w2⟩ := hw
  simp only [Value.overflowUint32, Value.isUnsigned, Value.asSigned] at v1 w1
  simp only [Value.Spec.Valid] at v2 w2
  congr 1
  cases tv <;> cases tw <;> simp [Value.H, Value.M] at v1 v2 w1 w2 hu ⊢ <;> omega

theorem same_find {α : Type} {eq : α → α → Bool} {a b : Map α} (h : Map.same eq a b = true)
    (n : Name) :
    (a.find n = none ∧ b.find n = none) ∨
      ∃ x y, a.find n = some x ∧ b.find n = some y ∧ eq x y = true := by
  have hmem : ∀ (m : Map α), m.find n ≠ none → n ∈ m.map Prod.fst := by
    intro m
    induction m with
    | nil => intro h; exact absurd rfl h
    | cons kv rest ih =>
      obtain ⟨k, v⟩ := kv
      intro h
      simp only [Map.find] at h
      simp only [List.map_cons, List.mem_cons]
      split at h
      · rename_i hk; exact .inl hk.symm
      · exact .inr (ih h)
  unfold Map.same at h
  rw [List.all_eq_true] at h
  cases ha : a.find n with
  | none =>
    cases hb : b.find n with
    | none => exact .inl ⟨rfl, rfl⟩
    | some y =>
      have := h n (List.mem_append_right _ (hmem b (by rw [hb]; simp)))
      rw [ha, hb] at this
      cases this
  | some x =>
    have := h n (List.mem_append_left _ (hmem a (by rw [ha]; simp)))
    rw [ha] at this
    cases hb : b.find n with
    | none => rw [hb] at this; cases this
    | some y => rw [hb] at this; exact .inr ⟨x, y, rfl, rfl, this⟩

/-- Stores that compare equal are alike, when they agree on what is undefined. -/
theorem same_alike {a b : Symbols} (ha : TidyStore a) (hb : TidyStore b)
    (hs : Symbols.same a b = true)
    (hu : ∀ n v w, a.lookup n = some v → b.lookup n = some w →
      (v.type = .undef ↔ w.type = .undef)) :
    (∀ n, a.constants.find n = b.constants.find n) ∧
      ∀ n, a.variables.find n = b.variables.find n := by
  unfold Symbols.same at hs
  simp only [Bool.and_eq_true] at hs
  obtain ⟨⟨h1, h2⟩, _⟩ := hs
  constructor
  · intro n
    rcases same_find h1 n with ⟨x, y⟩ | ⟨x, y, hx, hy, he⟩
    · rw [x, y]
    · rw [hx, hy, tidy_eq (ha.constants n x hx) (hb.constants n y hy) he
        (hu n x y (by simp [Symbols.lookup, hx]) (by simp [Symbols.lookup, hy]))]
  · intro n
    rcases same_find h2 n with ⟨x, y⟩ | ⟨x, y, hx, hy, he⟩
    · rw [x, y]
    · have ka : a.constants.find n = none := by
        rcases ha.kinds n with h | h
        · exact h
        · rw [hx] at h; cases h
      have kb : b.constants.find n = none := by
        rcases hb.kinds n with h | h
        · exact h
        · rw [hy] at h; cases h
      rw [hx, hy, tidy_eq (ha.variables n x hx) (hb.variables n y hy) he
        (hu n x y (by simp [Symbols.lookup, ka, hx]) (by simp [Symbols.lookup, kb, hy]))]

/-- A pass from alike stores and the same set-up. -/
theorem pass_alike (C : Cpu σ δ) (files : Files) (cmd : Command σ) (report : Bool) (fuel : Nat)
    {p p' q : Pass σ} (hup : cmd.setUp p'.asm = cmd.setUp p.asm)
    (hc : ∀ n, p.symbols.constants.find n = p'.symbols.constants.find n)
    (hv : ∀ n, p.symbols.variables.find n = p'.symbols.variables.find n)
    (h : pass C files cmd report fuel p = .ok (some q)) :
    ∃ q', pass C files cmd report fuel p' = .ok (some q') ∧ q'.asm = q.asm ∧
      Alike q.symbols q'.symbols ∧ q'.memory = q.memory ∧ q'.log = q.log := by
  unfold pass at h ⊢
  obtain ⟨⟨src, e⟩, h1, h⟩ := Out.bind_ok h
  rw [h1]
  simp only [Out.ok_bind] at h ⊢
  split at h
  · cases h
  · rename_i he
    rw [if_neg he]
    obtain ⟨s, h2, h⟩ := Out.bind_ok h
    cases h
    have := loop_alike C files report fuel
      (s := ⟨cmd.setUp p.asm, p.symbols.clearFunctions, src, [], 0, []⟩)
      (s' := ⟨cmd.setUp p'.asm, p'.symbols.clearFunctions, src, [], 0, []⟩)
      ⟨hup.symm, Alike.clearFunctions hc hv, rfl, rfl, rfl, rfl⟩
    rw [h2] at this
    generalize hx : loop C files report fuel
      ⟨cmd.setUp p'.asm, p'.symbols.clearFunctions, src, [], 0, []⟩ = x at this
    cases this with
    | ok hal =>
      rename_i s2
      exact ⟨_, rfl, hal.asm.symm, hal.symbols, hal.memory.symm, hal.log.symm⟩

end Libasm.Driver
