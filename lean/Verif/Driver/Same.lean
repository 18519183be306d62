import Verif.Driver.Lemmas
/- A pass depends on the symbol store only through what can be looked up in it. -/
namespace Libasm.Driver
open Eval (Out)
open Store (Name Symbols Fn Map)
open Config (setErrorIf)
open Insn (Buf)

variable {σ δ : Type}

/-- Two stores in which everything is found alike. -/
structure Alike (a b : Symbols) : Prop where
  constants : ∀ n, a.constants.find n = b.constants.find n
  variables : ∀ n, a.variables.find n = b.variables.find n
  functions : ∀ n, a.functions.find n = b.functions.find n

theorem Alike.refl (a : Symbols) : Alike a a := ⟨fun _ => rfl, fun _ => rfl, fun _ => rfl⟩

theorem Alike.hasValue {a b : Symbols} (h : Alike a b) (n : Name) (v : Bool) :
    a.hasValue n v = b.hasValue n v := by
  unfold Symbols.hasValue
  cases v <;> simp [h.constants, h.variables]

theorem Alike.hasSymbol {a b : Symbols} (h : Alike a b) (n : Name) :
    a.hasSymbol n = b.hasSymbol n := by
  unfold Symbols.hasSymbol
  rw [h.hasValue, h.hasValue]

theorem Alike.hasFunction {a b : Symbols} (h : Alike a b) (n : Name) :
    a.hasFunction n = b.hasFunction n := by
  unfold Symbols.hasFunction
  rw [h.functions]

theorem Alike.view {a b : Symbols} (h : Alike a b) : view a = view b := by
  unfold Driver.view
  congr 1
  · funext n
    unfold Symbols.lookup
    rw [h.constants, h.variables]
  · funext n
    exact h.functions n

theorem find_put_cons {α : Type} (m : Map α) (k n : Name) (v : α) :
    (m.put k v).find n = if k = n then some v else m.find n := rfl

theorem Alike.intern {a b : Symbols} (h : Alike a b) (v : Value) (n : Name) (isVar : Bool) :
    (a.intern v n isVar).2 = (b.intern v n isVar).2 ∧
      Alike (a.intern v n isVar).1 (b.intern v n isVar).1 := by
  unfold Symbols.intern
  rw [h.hasValue]
  split
  · exact ⟨rfl, h⟩
  · split
    · exact ⟨rfl, h⟩
    · split
      · refine ⟨rfl, ⟨h.constants, fun m => ?_, h.functions⟩⟩
        show Map.find (Map.put _ _ _) _ = Map.find (Map.put _ _ _) _
        rw [find_put_cons, find_put_cons, h.variables]
      · refine ⟨rfl, ⟨fun m => ?_, h.variables, h.functions⟩⟩
        show Map.find (Map.put _ _ _) _ = Map.find (Map.put _ _ _) _
        rw [find_put_cons, find_put_cons, h.constants]

theorem Alike.internFunction {a b : Symbols} (h : Alike a b) (n : Name) (ps : List Name)
    (body : List Char) :
    (a.internFunction n ps body).2 = (b.internFunction n ps body).2 ∧
      Alike (a.internFunction n ps body).1 (b.internFunction n ps body).1 := by
  unfold Symbols.internFunction
  rw [h.functions]
  split
  · exact ⟨rfl, h⟩
  · refine ⟨rfl, ⟨h.constants, h.variables, fun m => ?_⟩⟩
    show Map.find (Map.put _ _ _) _ = Map.find (Map.put _ _ _) _
    rw [find_put_cons, find_put_cons, h.functions]

theorem Alike.clearFunctions {a b : Symbols} (hc : ∀ n, a.constants.find n = b.constants.find n)
    (hv : ∀ n, a.variables.find n = b.variables.find n) :
    Alike a.clearFunctions b.clearFunctions := ⟨hc, hv, fun _ => rfl⟩

/-- The same outcome up to a relation. -/
inductive OutRel {α β : Type} (R : α → β → Prop) : Out α → Out β → Prop
  | stackUB : OutRel R .stackUB .stackUB
  | ub : OutRel R .ub .ub
  | diverge : OutRel R .diverge .diverge
  | ok {a b} : R a b → OutRel R (.ok a) (.ok b)

theorem OutRel.bind {α β α' β' : Type} {R : α → β → Prop} {S : α' → β' → Prop} {x : Out α}
    {y : Out β} {f : α → Out α'} {g : β → Out β'} (h : OutRel R x y)
    (hf : ∀ a b, R a b → OutRel S (f a) (g b)) : OutRel S (x.bind f) (y.bind g) := by
  cases h with
  | ok h => exact hf _ _ h
  | stackUB => exact .stackUB
  | ub => exact .ub
  | diverge => exact .diverge

theorem OutRel.refl {α : Type} {R : α → α → Prop} (hR : ∀ a, R a a) (x : Out α) : OutRel R x x := by
  cases x with
  | ok a => exact .ok (hR a)
  | stackUB => exact .stackUB
  | ub => exact .ub
  | diverge => exact .diverge

/-- States of a line that differ in the representation of the symbols only. -/
structure WorkAlike (a b : Work σ) : Prop where
  asm : a.asm = b.asm
  symbols : Alike a.symbols b.symbols
  sources : a.sources = b.sources
  error : a.error = b.error
  label : a.label = b.label
  value : a.value = b.value

theorem WorkAlike.elim {w w' : Work σ} (h : WorkAlike w w') :
    ∃ t, Alike w.symbols t ∧ w' = { w with symbols := t } := by
  obtain ⟨a, s, src, e, l, v⟩ := w
  obtain ⟨a', s', src', e', l', v'⟩ := w'
  obtain ⟨h1, h2, h3, h4, h5, h6⟩ := h
  dsimp only at h1 h2 h3 h4 h5 h6
  subst h1 h3 h4 h5 h6
  exact ⟨s', h2, rfl⟩

theorem defineSymbol_alike (C : Cpu σ δ) (d : δ) (report : Bool) (scan : Scan) (symbol : Name)
    (isVar : Bool) {w w' : Work σ} (h : WorkAlike w w') :
    OutRel (fun r r' => WorkAlike r.1 r'.1 ∧ r.2 = r'.2)
      (defineSymbol C d report scan symbol isVar w) (defineSymbol C d report scan symbol isVar w') := by
  obtain ⟨t, ht, rfl⟩ := h.elim
  unfold defineSymbol
  have hd : isDuplicate w.symbols symbol isVar = isDuplicate t symbol isVar := by
    unfold isDuplicate
    rw [ht.hasValue, ht.hasValue, ht.hasFunction]
  dsimp only
  rw [hd, ht.view]
  split
  · exact .ok ⟨⟨rfl, ht, rfl, rfl, rfl, rfl⟩, rfl⟩
  · refine OutRel.bind (R := Eq) (OutRel.refl (fun _ => rfl) _) ?_
    rintro ⟨v, e, rest⟩ _ rfl
    dsimp only
    split
    · exact .ok ⟨⟨rfl, ht, rfl, rfl, rfl, rfl⟩, rfl⟩
    · split
      · exact .ok ⟨⟨rfl, ht, rfl, rfl, rfl, rfl⟩, rfl⟩
      · have := ht.intern v symbol isVar
        exact .ok ⟨⟨rfl, this.2, rfl, by rw [this.1], rfl, rfl⟩, rfl⟩

theorem handle_alike (C : Cpu σ δ) (files : Files) (d : δ) (report : Bool) (scan : Scan)
    (hd : Handler) {w w' : Work σ} (h : WorkAlike w w') :
    OutRel (fun r r' => WorkAlike r.1 r'.1 ∧ r.2 = r'.2)
      (handle C files d report scan w hd) (handle C files d report scan w' hd) := by
  have hsym : ∀ (b : Bool) (f : Work σ → Scan → Work σ × Err × Scan)
      (_ : ∀ x y s, WorkAlike x y → WorkAlike (f x s).1 (f y s).1 ∧ (f x s).2 = (f y s).2)
      (scan : Scan) (n : Name),
      OutRel (fun r r' => WorkAlike r.1 r'.1 ∧ r.2 = r'.2)
        ((defineSymbol C d report scan n b w).bind fun p => .ok (f p.1 p.2))
        ((defineSymbol C d report scan n b w').bind fun p => .ok (f p.1 p.2)) := by
    intro b f hf scan n
    refine OutRel.bind (defineSymbol_alike C d report scan n b h) ?_
    rintro ⟨x, s⟩ ⟨y, s'⟩ ⟨h1, h2⟩
    dsimp only at h1 h2
    subst h2
    exact .ok (hf _ _ _ h1)
  obtain ⟨t, ht, rfl⟩ := h.elim
  cases hd <;> dsimp only [handle]
  · exact hsym false (fun x s => ({ x with label := [] }, x.error, s))
      (fun x y s hxy => ⟨⟨hxy.1, hxy.2, hxy.3, hxy.4, rfl, hxy.6⟩, by rw [hxy.error]⟩) scan w.label
  · exact hsym true (fun x s => ({ x with label := [] }, x.error, s))
      (fun x y s hxy => ⟨⟨hxy.1, hxy.2, hxy.3, hxy.4, rfl, hxy.6⟩, by rw [hxy.error]⟩) scan w.label
  · split
    · exact .ok ⟨⟨rfl, ht, rfl, rfl, rfl, rfl⟩, rfl⟩
    · split
      · exact .ok ⟨⟨rfl, ht, rfl, rfl, rfl, rfl⟩, rfl⟩
      · split
        · exact .ok ⟨⟨rfl, ht, rfl, rfl, rfl, rfl⟩, rfl⟩
        · exact hsym true (fun x s => (x, x.error, s))
            (fun x y s hxy => ⟨hxy, by rw [hxy.error]⟩) _ _
  · split
    · exact .ok ⟨⟨rfl, ht, rfl, rfl, rfl, rfl⟩, rfl⟩
    · refine OutRel.bind (R := Eq) (OutRel.refl (fun _ => rfl) _) ?_
      rintro ⟨s, e⟩ _ rfl
      exact .ok ⟨⟨rfl, ht, rfl, rfl, rfl, rfl⟩, rfl⟩
  · split
    · exact .ok ⟨⟨rfl, ht, rfl, rfl, rfl, rfl⟩, rfl⟩
    · exact .ok ⟨⟨rfl, ht, rfl, rfl, rfl, rfl⟩, rfl⟩
  · exact .ok ⟨⟨rfl, ht, rfl, rfl, rfl, rfl⟩, rfl⟩
  · split
    · exact .ok ⟨⟨rfl, ht, rfl, rfl, rfl, rfl⟩, rfl⟩
    · split
      · exact .diverge
      · rename_i params body _
        rw [ht.hasSymbol]
        split
        · exact .ok ⟨⟨rfl, ht, rfl, rfl, rfl, rfl⟩, rfl⟩
        · have := ht.internFunction w.label params body
          exact .ok ⟨⟨rfl, this.2, rfl, by rw [this.1], rfl, rfl⟩, by rw [this.1]⟩

theorem pseudoPart_alike (C : Cpu σ δ) (files : Files) (d : δ) (report : Bool) (scan : Scan)
    {w w' : Work σ} (h : WorkAlike w w') :
    OutRel (fun r r' => WorkAlike r.1 r'.1 ∧ r.2 = r'.2)
      (pseudoPart C files d report scan w) (pseudoPart C files d report scan w') := by
  obtain ⟨t, ht, rfl⟩ := h.elim
  unfold pseudoPart
  dsimp only
  split
  · exact .ok ⟨⟨rfl, ht, rfl, rfl, rfl, rfl⟩, rfl⟩
  · split
    · exact .ok ⟨⟨rfl, ht, rfl, rfl, rfl, rfl⟩, rfl⟩
    · refine OutRel.bind (handle_alike C files d report _ _ ⟨rfl, ht, rfl, rfl, rfl, rfl⟩) ?_
      rintro ⟨x, e, p⟩ ⟨y, e', p'⟩ ⟨h1, h2⟩
      cases h2
      dsimp only at h1 ⊢
      rw [h1.asm]
      split
      · exact .ok ⟨⟨rfl, h1.2, h1.3, rfl, h1.5, h1.6⟩, rfl⟩
      · exact .ok ⟨h1, rfl⟩

theorem labelPart_alike (report : Bool) (a : Nat) {w w' : Work σ} (h : WorkAlike w w') :
    WorkAlike (labelPart report a w) (labelPart report a w') := by
  obtain ⟨t, ht, rfl⟩ := h.elim
  unfold labelPart
  dsimp only
  rw [ht.hasSymbol]
  split
  · exact ⟨rfl, ht, rfl, rfl, rfl, rfl⟩
  · split
    · exact ⟨rfl, ht, rfl, rfl, rfl, rfl⟩
    · exact ⟨rfl, (ht.intern _ _ _).2, rfl, rfl, rfl, rfl⟩

theorem encodeLine_alike (C : Cpu σ δ) (files : Files) (d : δ) (report : Bool) (a : Nat)
    (line : Scan) (asm : σ) (sources : Sources) {s t : Symbols} (h : Alike s t) :
    OutRel (fun r r' => WorkAlike r.1 r'.1 ∧ r.2 = r'.2)
      (encodeLine C files d report a line asm s sources)
      (encodeLine C files d report a line asm t sources) := by
  unfold encodeLine
  dsimp only
  split
  · exact .ok ⟨⟨rfl, h, rfl, rfl, rfl, rfl⟩, rfl⟩
  · refine OutRel.bind (pseudoPart_alike C files d report line ⟨rfl, h, rfl, rfl, rfl, rfl⟩) ?_
    rintro ⟨x, e, p⟩ ⟨y, e', p'⟩ ⟨h1, h2⟩
    cases h2
    dsimp only at h1 ⊢
    have h3 := labelPart_alike report a h1
    split
    · exact .ok ⟨h3, by rw [h3.error]⟩
    · rw [h3.asm]
      split
      · exact .ok ⟨⟨rfl, h3.2, h3.3, rfl, h3.5, h3.6⟩, rfl⟩
      · rw [h3.symbols.view]
        refine OutRel.bind (R := Eq) (OutRel.refl (fun _ => rfl) _) ?_
        rintro ⟨asm', b⟩ _ rfl
        exact .ok ⟨⟨rfl, h3.2, h3.3, rfl, h3.5, h3.6⟩, rfl⟩

/-- States of the loop that differ in the representation of the symbols only. -/
structure StAlike (a b : St σ) : Prop where
  asm : a.asm = b.asm
  symbols : Alike a.symbols b.symbols
  sources : a.sources = b.sources
  memory : a.memory = b.memory
  origin : a.origin = b.origin
  log : a.log = b.log

theorem StAlike.elim {w w' : St σ} (h : StAlike w w') :
    ∃ t, Alike w.symbols t ∧ w' = { w with symbols := t } := by
  obtain ⟨a, s, src, e, l, v⟩ := w
  obtain ⟨a', s', src', e', l', v'⟩ := w'
  obtain ⟨h1, h2, h3, h4, h5, h6⟩ := h
  dsimp only at h1 h2 h3 h4 h5 h6
  subst h1 h3 h4 h5 h6
  exact ⟨s', h2, rfl⟩

theorem stepLine_alike (C : Cpu σ δ) (files : Files) (report : Bool) (line : List Char)
    {s s' : St σ} (h : StAlike s s') :
    OutRel (fun r r' => StAlike r.1 r'.1 ∧ r.2 = r'.2)
      (stepLine C files report line s) (stepLine C files report line s') := by
  obtain ⟨t, ht, rfl⟩ := h.elim
  unfold stepLine
  dsimp only
  refine OutRel.bind (encodeLine_alike C files _ report _ line _ _ ht) ?_
  rintro ⟨x, b, e⟩ ⟨y, b', e'⟩ ⟨h1, h2⟩
  cases h2
  dsimp only at h1 ⊢
  rw [h1.asm]
  split
  · exact .ub
  · exact .ok ⟨⟨rfl, h1.2, h1.3, rfl, rfl, by simp only [h1.error, h1.value]⟩, rfl⟩

theorem loop_alike (C : Cpu σ δ) (files : Files) (report : Bool) :
    ∀ (fuel : Nat) {s s' : St σ}, StAlike s s' →
      OutRel StAlike (loop C files report fuel s) (loop C files report fuel s') := by
  intro fuel
  induction fuel with
  | zero => intro s s' _; exact .diverge
  | succ fuel ih =>
    intro s s' h
    obtain ⟨t, ht, rfl⟩ := h.elim
    simp only [loop]
    cases hr : s.sources.readLine with
    | mk line src =>
      cases line with
      | none => exact .ok ⟨rfl, ht, rfl, rfl, rfl, rfl⟩
      | some line =>
        dsimp only
        refine OutRel.bind (stepLine_alike C files report line ⟨rfl, ht, rfl, rfl, rfl, rfl⟩) ?_
        rintro ⟨x, b⟩ ⟨y, b'⟩ ⟨h1, h2⟩
        dsimp only at h1 h2 ⊢
        subst h2
        split
        · exact .ok ⟨h1.1, h1.2, by rw [h1.sources], h1.4, h1.5, h1.6⟩
        · exact ih h1

end Libasm.Driver
