import Verif.BinMemory.Write
/-
Canonicity of the block list, iteration and `setRange`.
-/
namespace Libasm.BinMemory

theorem writes_snoc (ws : List (Nat × UInt8)) (w : Nat × UInt8) :
    writes (ws ++ [w]) = writeByte (writes ws) w.1 w.2 := by
  simp [writes]

theorem lastWrite_snoc (ws : List (Nat × UInt8)) (w : Nat × UInt8) (a : Nat) :
    Spec.lastWrite (ws ++ [w]) a = if w.1 = a then some w.2 else Spec.lastWrite ws a := by
  simp [Spec.lastWrite]

theorem foldl_ok (ws : List (Nat × UInt8)) : ∀ (m : Blocks), WF m → Spec.Addr32 ws →
    WF (ws.foldl (fun m w => writeByte m w.1 w.2) m) ∧
    ∀ a, contents (ws.foldl (fun m w => writeByte m w.1 w.2) m) a =
      ws.foldl (fun r w => if w.1 = a then some w.2 else r) (contents m a) := by
  induction ws with
  | nil => intro m hm _; exact ⟨hm, fun _ => rfl⟩
  | cons w ws ih =>
    intro m hm h
    have h1 := writeByte_ok hm (h w (by simp)) w.2
    have h2 := ih _ h1.1 (fun x hx => h x (by simp [hx]))
    refine ⟨h2.1, fun a => ?_⟩
    simp only [List.foldl_cons]
    rw [h2.2, h1.2]
    congr 1
    by_cases ha : a = w.1
    · simp [ha]
    · have : ¬ w.1 = a := fun h => ha h.symm
      simp [ha, this]

theorem writes_ok {ws : List (Nat × UInt8)} (h : Spec.Addr32 ws) :
    WF (writes ws) ∧ ∀ a, contents (writes ws) a = Spec.lastWrite ws a :=
  foldl_ok ws [] trivial h

/-! ### Canonicity -/

theorem contents_head {e : Entry} {r : Blocks} {a : Nat} (ha : e.base ≤ a)
    (hs : a < e.stop) : contents (e :: r) a = e.data[a - e.base]? := by
  have : a - e.base < e.data.length := by simp only [Entry.stop] at hs; omega
  simp [contents, cell, ha, this]

theorem contents_tail {e : Entry} {r : Blocks} {a : Nat}
    (hs : e.stop ≤ a) : contents (e :: r) a = contents r a := by
  simp [contents, cell_none_of_ge hs]

theorem contents_below {e : Entry} {r : Blocks} {t} (h : Ch (e :: r) t) {a : Nat}
    (ha : a < e.base) : contents (e :: r) a = none := by
  apply contents_none
  intro f hf
  rcases List.mem_cons.1 hf with rfl | hf
  · exact Or.inl ha
  · left; have := ch_gt h f hf; simp only [Entry.stop] at this; omega

theorem contents_stop {e : Entry} {r : Blocks} {t} (h : Ch (e :: r) t) :
    contents (e :: r) e.stop = none := by
  apply contents_none
  intro f hf
  rcases List.mem_cons.1 hf with rfl | hf
  · exact Or.inr (Nat.le_refl _)
  · exact Or.inl (ch_gt h f hf)

theorem contents_base {e : Entry} {r : Blocks} (h : WF (e :: r)) :
    (contents (e :: r) e.base).isSome := by
  have := h.1.ne
  rw [contents_head (Nat.le_refl _) (by simp [Entry.stop]; omega)]
  simp; omega

theorem canonical {m n : Blocks} (hm : WF m) (hn : WF n)
    (h : ∀ a, contents m a = contents n a) :
    m.map (fun e => (e.key, e.base, e.data)) = n.map (fun e => (e.key, e.base, e.data)) := by
  induction m generalizing n with
  | nil =>
    cases n with
    | nil => rfl
    | cons f s =>
      have h1 := contents_base hn
      rw [← h] at h1
      simp [contents] at h1
  | cons e r ih =>
    cases n with
    | nil =>
      have h1 := contents_base hm
      rw [h] at h1
      simp [contents] at h1
    | cons f s =>
      have hb : e.base = f.base := by
        rcases Nat.lt_trichotomy e.base f.base with h1 | h1 | h1
        · have h2 := contents_base hm
          rw [h, contents_below hn h1] at h2
          simp at h2
        · exact h1
        · have h2 := contents_base hn
          rw [← h, contents_below hm h1] at h2
          simp at h2
      have hl : e.stop = f.stop := by
        rcases Nat.lt_trichotomy e.stop f.stop with h1 | h1 | h1
        · have h2 := contents_stop hm
          have h3 : f.base ≤ e.stop := by simp only [Entry.stop]; omega
          rw [h, contents_head h3 h1] at h2
          simp [Entry.stop] at h2 h1
          omega
        · exact h1
        · have h2 := contents_stop hn
          have h3 : e.base ≤ f.stop := by simp only [Entry.stop]; omega
          rw [← h, contents_head h3 h1] at h2
          simp [Entry.stop] at h2 h1
          omega
      have hlen : e.data.length = f.data.length := by simp only [Entry.stop] at hl; omega
      have hd : e.data = f.data := by
        apply List.ext_getElem? 
        intro i
        by_cases hi : i < e.data.length
        · have h1 := contents_head (e := e) (r := r) (a := e.base + i) (by omega) (by simp only [Entry.stop]; omega)
          have h2 := contents_head (e := f) (r := s) (a := e.base + i) (by omega) (by simp only [Entry.stop]; omega)
          rw [h, h2] at h1
          have e1 : e.base + i - f.base = i := by omega
          have e2 : e.base + i - e.base = i := by omega
          rw [e1, e2] at h1
          exact h1.symm
        · rw [List.getElem?_eq_none (by omega), List.getElem?_eq_none (by omega)]
      have hk : e.key = f.key := by rw [hm.1.key_eq, hn.1.key_eq, hb]
      have hr : WF r := hm.2.2.2
      have hs : WF s := hn.2.2.2
      have := ih hr hs (fun a => by
        rcases Nat.lt_or_ge a e.stop with ha | ha
        · rw [contents_none, contents_none]
          · intro x hx; left; have := ch_gt hn x hx; omega
          · intro x hx; left; have := ch_gt hm x hx; omega
        · rw [← contents_tail (e := e) ha, ← contents_tail (e := f) (r := s) (by omega), h])
      simp [this, hk, hb, hd]

/-! ### Iteration -/

theorem find_key {pre : Blocks} {e : Entry} {post : Blocks} (h : WR (pre ++ e :: post)) :
    (pre ++ e :: post).find? (fun x => decide (x.key = e.key)) = some e := by
  have h1 := (List.pairwise_append.1 h.order).2.2
  rw [List.find?_append, List.find?_eq_none.2]
  · simp
  · intro x hx
    have := h1 x hx e (by simp)
    have := (h.each x (by simp [hx])).1
    simp only [Entry.stop] at *
    simp; omega

theorem walkFrom_ok {m : Blocks} (hr : WR m)
    (hn : ∀ pre e post, m = pre ++ e :: post → e.next = hd post none) :
    ∀ post pre fuel, m = pre ++ post → post.length ≤ fuel →
      walkFrom m fuel (hd post none) = some post := by
  intro post
  induction post with
  | nil => intro pre fuel _ _; cases fuel <;> rfl
  | cons e r ih =>
    intro pre fuel hm hf
    cases fuel with
    | zero => simp at hf
    | succ fuel =>
      simp only [hd, walkFrom]
      rw [show m.find? (fun x => decide (x.key = e.key)) = some e by
        rw [hm]; exact find_key (by rw [← hm]; exact hr)]
      simp only
      rw [hn pre e r hm, ih (pre ++ [e]) fuel (by simp [hm]) (by simpa using hf)]
      rfl

theorem wf_next {m : Blocks} (h : WF m) :
    ∀ pre e post, m = pre ++ e :: post → e.next = hd post none := by
  intro pre e post hm
  have h' : Ch (pre ++ e :: post) none := by rw [← hm]; exact h
  exact ((ch_append pre (e :: post) none).1 h').2.2.1

theorem walk_ok {m : Blocks} (h : WF m) : walk m = some m := by
  have := walkFrom_ok (WF.toWR h) (wf_next h) m [] m.length rfl (Nat.le_refl _)
  unfold walk
  cases m with
  | nil => rfl
  | cons e r => exact this

/-! ### setRange -/

theorem stop_eq {e : Entry} (h : Ok e) :
    e.last = e.stop - 1 := by
  have h1 := h.ne
  have h2 := h.top
  simp only [Entry.stop, Entry.size, Entry.last] at *
  omega

theorem cell_trimStart {e : Entry} {start : Nat} (h : e.base < start) (a : Nat) :
    cell (e.trimStart start) a = if start ≤ a then cell e a else none := by
  simp only [cell, Entry.trimStart]
  by_cases h3 : start ≤ a
  · have h4 : e.base ≤ a := by omega
    have h5 : start - e.base + (a - start) = a - e.base := by omega
    simp [h3, h4, h5]
  · simp [h3]

theorem cell_trimEnd {e : Entry} {end_ : Nat} (h : e.base ≤ end_) (hs : end_ < e.stop) (a : Nat) :
    cell (e.trimEnd end_) a = if a ≤ end_ then cell e a else none := by
  simp only [Entry.stop] at hs
  simp only [cell, Entry.trimEnd]
  by_cases h3 : e.base ≤ a
  · simp only [h3, if_true]
    by_cases h4 : a ≤ end_
    · simp only [h4, if_true]
      rw [List.getElem?_take_of_lt (by omega)]
    · simp only [h4, if_false]
      apply List.getElem?_eq_none
      rw [List.length_take]; omega
  · simp [h3]

theorem rangeStep_eq {e : Entry} (h : Ok e) (start end_ : Nat) :
    rangeStep start end_ e =
      if e.stop - 1 < start ∨ e.base > end_ then none
      else if e.base < start then
        (if e.base < end_ ∧ e.stop - 1 ≥ end_ then some ((e.trimStart start).trimEnd end_)
         else some (e.trimStart start))
      else if e.base < end_ ∧ e.stop - 1 ≥ end_ then some (e.trimEnd end_) else some e := by
  unfold rangeStep
  rw [stop_eq h]
  by_cases hout : e.stop - 1 < start ∨ e.base > end_
  · simp [hout]
  · simp only [hout, if_false]
    have : e.stop - 1 ≥ start := by omega
    simp only [this, and_true]
    by_cases h1 : e.base < start <;> by_cases h2 : e.base < end_ ∧ e.stop - 1 ≥ end_ <;>
      simp [h1, h2]

theorem cell_trim {e : Entry} (h : Ok e) {start end_ : Nat} (hse : start ≤ end_)
    (hno : ¬ (e.base = end_ ∧ end_ + 1 < e.stop)) (a : Nat) :
    (match rangeStep start end_ e with
      | none => none
      | some f => cell f a) = if start ≤ a ∧ a ≤ end_ then cell e a else none := by
  have hlen := h.ne
  have hstop : e.base < e.stop := by simp only [Entry.stop]; omega
  rw [rangeStep_eq h]
  by_cases hout : e.stop - 1 < start ∨ e.base > end_
  · simp only [hout, if_true]
    split
    · symm
      rcases hout with h1 | h1
      · apply cell_none_of_ge; omega
      · apply cell_none_of_lt; omega
    · rfl
  · simp only [hout, if_false]
    have hlo : ∀ {x}, x < e.base → cell e x = none := fun h => cell_none_of_lt h
    have hhi : ∀ {x}, e.stop ≤ x → cell e x = none := fun h => cell_none_of_ge h
    by_cases h1 : e.base < start
    · have hstop' : (e.trimStart start).stop = e.stop := by
        simp only [Entry.stop, Entry.trimStart, List.length_drop] at *; omega
      simp only [h1, if_true]
      by_cases h2 : e.base < end_ ∧ e.stop - 1 ≥ end_
      · simp only [h2, and_self, if_true]
        rw [cell_trimEnd (by simpa [Entry.trimStart] using hse) (by omega), cell_trimStart h1]
        by_cases h3 : start ≤ a <;> by_cases h4 : a ≤ end_ <;> simp [h3, h4]
      · simp only [h2, if_false]
        rw [cell_trimStart h1]
        by_cases h4 : a ≤ end_
        · simp [h4]
        · simp [h4, hhi (x := a) (by omega)]
    · simp only [h1, if_false]
      by_cases h2 : e.base < end_ ∧ e.stop - 1 ≥ end_
      · simp only [h2, and_self, if_true]
        rw [cell_trimEnd (by omega) (by omega)]
        by_cases h3 : start ≤ a
        · simp [h3]
        · simp [h3, hlo (x := a) (by omega)]
      · simp only [h2, if_false]
        by_cases h3 : start ≤ a
        · by_cases h4 : a ≤ end_
          · simp [h3, h4]
          · simp [h4, hhi (x := a) (by omega)]
        · simp [h3, hlo (x := a) (by omega)]

theorem cutLast_contents (m : Blocks) (a : Nat) : contents (cutLast m) a = contents m a := by
  induction m with
  | nil => rfl
  | cons e r ih =>
    cases r with
    | nil => rfl
    | cons f s => simp only [cutLast, contents] at *; rw [ih]

theorem filterMap_contents {m : Blocks} (hok : ∀ e ∈ m, Ok e) {start end_ : Nat}
    (hse : start ≤ end_) (hno : ∀ e ∈ m, ¬ (e.base = end_ ∧ end_ + 1 < e.stop)) (a : Nat) :
    contents (m.filterMap (rangeStep start end_)) a =
      if start ≤ a ∧ a ≤ end_ then contents m a else none := by
  induction m with
  | nil => simp [contents]
  | cons e r ih =>
    have h1 := cell_trim (hok e (by simp)) hse (hno e (by simp)) a
    have h2 := ih (fun x hx => hok x (by simp [hx])) (fun x hx => hno x (by simp [hx]))
    cases hr : rangeStep start end_ e with
    | none =>
      rw [hr] at h1
      rw [List.filterMap_cons_none hr, h2]
      by_cases hin : start ≤ a ∧ a ≤ end_
      · rw [if_pos hin] at h1 ⊢
        rw [if_pos hin]
        simp only [contents]
        rw [← h1]; rfl
      · rw [if_neg hin, if_neg hin]
    | some f =>
      rw [hr] at h1
      rw [List.filterMap_cons_some hr]
      simp only [contents]
      have h1' : cell f a = _ := h1
      rw [h2, h1']
      by_cases hin : start ≤ a ∧ a ≤ end_
      · rw [if_pos hin, if_pos hin, if_pos hin]
      · rw [if_neg hin, if_neg hin, if_neg hin]; rfl

theorem rangeStep_some {start end_ : Nat} {e f : Entry} (hok : Ok e) (hse : start ≤ end_)
    (h : rangeStep start end_ e = some f) :
    f.key = e.key ∧ f.next = e.next ∧ e.key ≤ f.base ∧ f.stop ≤ e.stop ∧ 0 < f.data.length ∧
    start ≤ e.stop - 1 ∧ e.base ≤ end_ := by
  have hlen := hok.ne
  have hk := hok.key_eq
  rw [rangeStep_eq hok] at h
  by_cases hout : e.stop - 1 < start ∨ e.base > end_
  · simp [hout] at h
  · simp only [hout, if_false] at h
    by_cases h1 : e.base < start <;>
      by_cases h2 : e.base < end_ ∧ e.stop - 1 ≥ end_ <;>
      simp only [h1, h2, and_self, if_true, if_false, Option.some.injEq] at h <;>
      subst h <;>
      simp only [Entry.trimStart, Entry.trimEnd, Entry.stop,
        List.length_take, List.length_drop, true_and] at * <;> omega

theorem setRange_wr {m : Blocks} (h : WF m) {start end_ : Nat} (hse : start ≤ end_) :
    WR (m.filterMap (rangeStep start end_)) := by
  have hok := ch_ok h
  have hwr := WF.toWR h
  constructor
  · intro f hf
    obtain ⟨e, he, hef⟩ := List.mem_filterMap.1 hf
    obtain ⟨h1, -, h3, h4, h5, -⟩ := rangeStep_some (hok e he) hse hef
    exact ⟨by omega, h5⟩
  · apply List.Pairwise.filterMap _ _ (hwr.order.imp_of_mem (S := fun e f =>
      e.stop < f.key ∧ Ok e ∧ Ok f) (fun he hf h => ⟨h, hok _ he, hok _ hf⟩))
    rintro e f ⟨hef, hoe, hof⟩ e' he' f' hf'
    obtain ⟨h1, -, h3, h4, h5, -⟩ := rangeStep_some hoe hse he'
    obtain ⟨g1, -, g3, g4, g5, -⟩ := rangeStep_some hof hse hf'
    omega

theorem cutLast_keys (m : Blocks) :
    (cutLast m).map (fun e => (e.key, e.base, e.data)) = m.map (fun e => (e.key, e.base, e.data)) := by
  induction m with
  | nil => rfl
  | cons e r ih =>
    cases r with
    | nil => rfl
    | cons f s => simp only [cutLast, List.map_cons] at *; rw [ih]

theorem cutLast_wr {m : Blocks} (h : WR m) : WR (cutLast m) := by
  have hmap := cutLast_keys m
  have lift : ∀ n : Blocks, WR n ↔ (∀ x ∈ n.map (fun e => (e.key, e.base, e.data)),
      x.1 ≤ x.2.1 ∧ 0 < x.2.2.length) ∧
      (n.map (fun e => (e.key, e.base, e.data))).Pairwise
        (fun x y => x.2.1 + x.2.2.length < y.1) := by
    intro n
    rw [List.pairwise_map]
    constructor
    · rintro ⟨h1, h2⟩
      exact ⟨by simpa using h1, h2⟩
    · rintro ⟨h1, h2⟩
      exact ⟨by simpa using h1, h2⟩
  rw [lift, hmap, ← lift]; exact h

end Libasm.BinMemory
