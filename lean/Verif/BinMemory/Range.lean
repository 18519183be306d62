import Verif.BinMemory.Iter
/-
Helper lemmas for the iteration and `setRange` theorems.
-/
namespace Libasm.BinMemory
open Spec

theorem mem_bytesFrom (base : Nat) (d : List UInt8) (a : Nat) (v : UInt8) :
    (a, v) ∈ bytesFrom base d ↔ base ≤ a ∧ d[a - base]? = some v := by
  induction d generalizing base with
  | nil => simp [bytesFrom]
  | cons x r ih =>
    simp only [bytesFrom, List.mem_cons, Prod.mk.injEq, ih]
    constructor
    · rintro (⟨rfl, rfl⟩ | ⟨h1, h2⟩)
      · simp
      · refine ⟨by omega, ?_⟩
        have : a - base = (a - (base + 1)) + 1 := by omega
        rw [this]; simpa using h2
    · rintro ⟨h1, h2⟩
      by_cases h : a = base
      · subst h; simp at h2; exact Or.inl ⟨rfl, h2.symm⟩
      · right
        have : a - base = (a - (base + 1)) + 1 := by omega
        rw [this] at h2
        exact ⟨by omega, by simpa using h2⟩

theorem mem_bytesFrom_cell (e : Entry) (a : Nat) (v : UInt8) :
    (a, v) ∈ bytesFrom e.base e.data ↔ cell e a = some v := by
  rw [mem_bytesFrom]
  simp only [cell]
  by_cases h : e.base ≤ a
  · simp [h]
  · simp [h]

theorem mem_bytesFrom_lt {base : Nat} {d : List UInt8} {p : Nat × UInt8}
    (h : p ∈ bytesFrom base d) : base ≤ p.1 ∧ p.1 < base + d.length := by
  obtain ⟨h1, h2⟩ := (mem_bytesFrom base d p.1 p.2).1 h
  have := (List.getElem?_eq_some_iff.1 h2).1
  omega

theorem mem_image_iff {m : Blocks} (h : WR m) (a : Nat) (v : UInt8) :
    (a, v) ∈ image (m.map fun e => (e.base, e.data)) ↔ contents m a = some v := by
  induction m with
  | nil => simp [image, contents]
  | cons e r ih =>
    have hp := List.pairwise_cons.1 h.order
    have ihr := ih ⟨fun x hx => h.each x (by simp [hx]), hp.2⟩
    have : (a, v) ∈ image ((e :: r).map fun e => (e.base, e.data)) ↔
        (a, v) ∈ bytesFrom e.base e.data ∨ (a, v) ∈ image (r.map fun e => (e.base, e.data)) := by
      simp [image]
    rw [this, ihr, mem_bytesFrom_cell]
    simp only [contents]
    constructor
    · rintro (h1 | h1)
      · simp [h1]
      · have : cell e a = none := by
          by_cases hs : e.stop ≤ a
          · exact cell_none_of_ge hs
          · rw [contents_none] at h1
            · simp at h1
            · intro f hf
              have := hp.1 f hf
              have := (h.each f (by simp [hf])).1
              left; omega
        simp [this, h1]
    · intro h1
      cases hc : cell e a with
      | some w => left; simpa [hc] using h1
      | none => right; simpa [hc] using h1

theorem bytesFrom_sorted (base : Nat) (d : List UInt8) :
    (bytesFrom base d).Pairwise (fun p q => p.1 < q.1) := by
  induction d generalizing base with
  | nil => simp [bytesFrom]
  | cons x r ih =>
    refine List.pairwise_cons.2 ⟨fun p hp => ?_, ih _⟩
    have := mem_bytesFrom_lt hp
    show base < p.1
    omega

theorem image_sorted {m : Blocks} (h : WR m) :
    (image (m.map fun e => (e.base, e.data))).Pairwise (fun p q => p.1 < q.1) := by
  induction m with
  | nil => simp [image]
  | cons e r ih =>
    have hp := List.pairwise_cons.1 h.order
    have ihr := ih ⟨fun x hx => h.each x (by simp [hx]), hp.2⟩
    have : image ((e :: r).map fun e => (e.base, e.data)) =
        bytesFrom e.base e.data ++ image (r.map fun e => (e.base, e.data)) := by
      simp [image]
    rw [this, List.pairwise_append]
    refine ⟨bytesFrom_sorted _ _, ihr, ?_⟩
    intro p hp1 q hq
    have h1 := mem_bytesFrom_lt hp1
    simp only [image, List.mem_flatMap, List.mem_map] at hq
    obtain ⟨b, ⟨f, hf, rfl⟩, hq⟩ := hq
    have h2 := mem_bytesFrom_lt hq
    have h3 := hp.1 f hf
    have h4 := (h.each f (by simp [hf])).1
    simp only [Entry.stop] at *
    omega

theorem separated_of_wr {m : Blocks} (h : WR m) : Separated (m.map fun e => (e.base, e.data)) := by
  constructor
  · intro b hb
    obtain ⟨e, he, rfl⟩ := List.mem_map.1 hb
    have := (h.each e he).2
    intro h0
    simp only at h0
    rw [h0] at this
    simp at this
  · rw [List.pairwise_map]
    apply h.order.imp_of_mem
    intro e f _ hf hef
    have := (h.each f hf).1
    simp only [Entry.stop] at *
    omega

theorem bounds {m : Blocks} (h : WF m) (hne : m ≠ []) :
    (contents m (startAddress m)).isSome ∧ (contents m (endAddress m)).isSome ∧
    ∀ a, (contents m a).isSome → startAddress m ≤ a ∧ a ≤ endAddress m := by
  cases m with
  | nil => exact absurd rfl hne
  | cons e r =>
    rcases List.eq_nil_or_concat (e :: r) with h0 | ⟨l, x, h0⟩
    · simp at h0
    · have hx : e :: r = l ++ [x] := by simpa using h0
      have hokx : Ok x := ch_ok h x (by rw [hx]; simp)
      have hend : endAddress (e :: r) = x.stop - 1 := by
        unfold endAddress
        rw [hx, List.getLast?_concat]
        exact stop_eq hokx
      have hch : Ch (l ++ [x]) none := by rw [← hx]; exact h
      have hl := ch_lt (b := x.key) ((ch_append l [x] none).1 hch).1
      have hxk := hokx.key_eq
      have hxn := hokx.ne
      have hcx : ∀ {a}, x.base ≤ a → contents (l ++ [x]) a = cell x a := by
        intro a ha
        rw [contents_append, contents_none]
        · simp [contents]
        · intro f hf; right; have := hl f hf; omega
      refine ⟨contents_base h, ?_, ?_⟩
      · rw [hend, hx, hcx (by simp only [Entry.stop]; omega), cell_isSome]
        unfold Entry.inside Entry.stop
        rw [Bool.and_eq_true, decide_eq_true_eq, decide_eq_true_eq]
        omega
      · intro a ha
        constructor
        · by_cases hb : a < e.base
          · rw [contents_below h hb] at ha; simp at ha
          · exact Nat.not_lt.1 hb
        · rw [hend]
          by_cases hb : x.stop ≤ a
          · rw [hx, contents_none] at ha
            · simp at ha
            · intro f hf
              right
              rcases List.mem_append.1 hf with hf | hf
              · have := hl f hf
                have : x.base ≤ x.stop := by simp [Entry.stop]
                omega
              · simp only [List.mem_singleton] at hf
                subst hf; exact hb
          · omega

theorem no_run_at_end {m : Blocks} (h : WF m) {end_ : Nat}
    (hrun : (contents m end_).isSome → (contents m (end_ + 1)).isSome →
      0 < end_ ∧ (contents m (end_ - 1)).isSome) :
    ∀ e ∈ m, ¬ (e.base = end_ ∧ end_ + 1 < e.stop) := by
  rintro e he ⟨h1, h2⟩
  obtain ⟨pre, post, hm⟩ := List.append_of_mem he
  have hch : Ch (pre ++ e :: post) none := by rw [← hm]; exact h
  obtain ⟨hc1, hc2⟩ := (ch_append pre (e :: post) none).1 hch
  have hl := ch_lt (b := e.key) hc1
  have hk := hc2.1.key_eq
  have hpre : ∀ {a}, e.base ≤ a → contents pre a = none := by
    intro a ha
    apply contents_none
    intro f hf; have := hl f hf; right; omega
  have hin : ∀ a, e.base ≤ a → a < e.stop → (contents m a).isSome := by
    intro a ha hs
    rw [hm, contents_append, hpre ha, Option.none_or, contents_head ha hs]
    simp only [Entry.stop] at hs
    simp; omega
  obtain ⟨h3, h4⟩ := hrun (hin _ (by omega) (by omega)) (hin _ (by omega) (by omega))
  rw [hm, contents_none] at h4
  · simp at h4
  · intro f hf
    rcases List.mem_append.1 hf with hf | hf
    · have := hl f hf; right; omega
    · rcases List.mem_cons.1 hf with rfl | hf
      · left; omega
      · have := ch_gt hc2 f hf
        left; omega

/-- Consecutive blocks are linked (the last block is not constrained). -/
def Linked : Blocks → Prop
  | [] => True
  | [_] => True
  | e :: f :: r => e.next = some f.key ∧ Linked (f :: r)

theorem linked_filterMap {m : Blocks} {start end_ : Nat} (h : WF m) (hse : start ≤ end_) :
    Linked (m.filterMap (rangeStep start end_)) := by
  induction m with
  | nil => exact trivial
  | cons e r ih =>
    have ihr := ih h.2.2.2
    cases hr : rangeStep start end_ e with
    | none => rw [List.filterMap_cons_none hr]; exact ihr
    | some e' =>
      rw [List.filterMap_cons_some hr]
      obtain ⟨h1, h2, h3, h4, h5, h6, h7⟩ := rangeStep_some h.1 hse hr
      cases r with
      | nil => exact trivial
      | cons f s =>
        have hef := ch_gt h f (by simp)
        have hokf := h.2.2.2.1
        have hfn := hokf.ne
        have hnext := h.2.1
        simp only [hd] at hnext
        cases hf : rangeStep start end_ f with
        | some f' =>
          rw [List.filterMap_cons_some hf] at ihr ⊢
          obtain ⟨g1, -⟩ := rangeStep_some hokf hse hf
          exact ⟨by rw [h2, hnext, g1], ihr⟩
        | none =>
          have hempty : (f :: s).filterMap (rangeStep start end_) = [] := by
            have hfend : f.base > end_ := by
              rw [rangeStep_eq hokf] at hf
              by_cases hout : f.stop - 1 < start ∨ f.base > end_
              · rcases hout with h8 | h8
                · simp only [Entry.stop] at *; omega
                · exact h8
              · rw [if_neg hout] at hf
                split at hf <;> split at hf <;> simp at hf
            rw [List.filterMap_eq_nil_iff]
            intro g hg
            have hg' : g.base > end_ := by
              rcases List.mem_cons.1 hg with rfl | hg
              · exact hfend
              · have := ch_gt h.2.2.2 g hg
                simp only [Entry.stop] at this
                omega
            rw [rangeStep_eq (ch_ok h.2.2.2 g hg), if_pos (Or.inr hg')]
          rw [hempty]; exact trivial

theorem linked_cutLast {m : Blocks} (h : Linked m) :
    ∀ pre e post, cutLast m = pre ++ e :: post → e.next = hd post none := by
  induction m with
  | nil => intro pre e post h0; simp [cutLast] at h0
  | cons x r ih =>
    cases r with
    | nil =>
      intro pre e post h0
      cases pre with
      | nil =>
        simp only [cutLast, List.nil_append, List.cons.injEq] at h0
        obtain ⟨rfl, rfl⟩ := h0
        rfl
      | cons y pre => simp [cutLast] at h0
    | cons f s =>
      intro pre e post h0
      cases pre with
      | nil =>
        simp only [cutLast, List.nil_append, List.cons.injEq] at h0
        obtain ⟨rfl, rfl⟩ := h0
        rw [h.1]
        cases s <;> rfl
      | cons y pre =>
        simp only [cutLast, List.cons_append, List.cons.injEq] at h0
        exact ih h.2 pre e post h0.2

theorem walk_setRange {m : Blocks} (h : WF m) {start end_ : Nat} (hse : start ≤ end_) :
    walk (cutLast (m.filterMap (rangeStep start end_))) =
      some (cutLast (m.filterMap (rangeStep start end_))) := by
  have hwr := cutLast_wr (setRange_wr h hse)
  have := walkFrom_ok hwr (linked_cutLast (linked_filterMap h hse)) _ [] _ rfl (Nat.le_refl _)
  unfold walk
  generalize cutLast (m.filterMap (rangeStep start end_)) = l at *
  cases l with
  | nil => rfl
  | cons e r => exact this

end Libasm.BinMemory
