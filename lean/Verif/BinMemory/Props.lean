import Verif.BinMemory.Range
/-
Property theorems C01-C04 about driver/bin_memory.
-/
namespace Libasm.BinMemory
open Spec

/-- C01. After any sequence of byte writes to 32-bit addresses, in any order and with any
overlap, an address reports a byte exactly when it was written, and reads back as the value
most recently written to it (and as 0 when it never was). -/
theorem C01_last_write_wins (ws : List (Nat × UInt8)) (h : Addr32 ws) (a : Nat) :
    hasByte (writes ws) a = (lastWrite ws a).isSome ∧
    readByte (writes ws) a = (lastWrite ws a).getD 0 := by
  obtain ⟨h1, h2⟩ := writes_ok h
  rw [← h2]
  exact read_contents (WF.toWR h1) a

example : Addr32 [(5, 1), (7, 2), (6, 3), (7, 4), (0xFFFFFFFF, 9)] ∧
    readByte (writes [(5, 1), (7, 2), (6, 3), (7, 4), (0xFFFFFFFF, 9)]) 7 = 4 ∧
    (writes [(5, 1), (7, 2), (6, 3), (7, 4), (0xFFFFFFFF, 9)]).length = 2 := by
  decide

/-- C02. Two memories compare equal exactly when they hold the same bytes at the same
addresses, whatever histories produced them. -/
theorem C02_equality_is_content (ws vs : List (Nat × UInt8)) (hw : Addr32 ws) (hv : Addr32 vs) :
    equal (writes ws) (writes vs) = true ↔ ∀ a, lastWrite ws a = lastWrite vs a := by
  obtain ⟨h1, h2⟩ := writes_ok hw
  obtain ⟨g1, g2⟩ := writes_ok hv
  have hce : ∀ m n : Blocks, m.map (fun e => (e.key, e.base, e.data)) =
      n.map (fun e => (e.key, e.base, e.data)) → ∀ a, contents m a = contents n a := by
    intro m
    induction m with
    | nil =>
      intro n hmn a
      cases n with
      | nil => rfl
      | cons f s => simp at hmn
    | cons e r ih =>
      intro n hmn a
      cases n with
      | nil => simp at hmn
      | cons f s =>
        simp only [List.map_cons, List.cons.injEq, Prod.mk.injEq] at hmn
        obtain ⟨⟨_, hb, hd⟩, hr⟩ := hmn
        simp only [contents, cell, hb, hd]
        rw [ih s hr]
  constructor
  · intro h a
    rw [← h2, ← g2]
    exact hce _ _ (by simpa [equal] using h) a
  · intro h
    have := canonical h1 g1 (fun a => by rw [h2, g2, h])
    simp [equal, this]

example : equal (writes [(5, 1), (6, 2), (7, 3)]) (writes [(7, 9), (5, 1), (7, 3), (6, 2)]) = true ∧
    equal (writes [(5, 1), (6, 2)]) (writes [(5, 1), (7, 2)]) = false := by decide

/-- C03. Walking the blocks from `begin()` through `next()` ends, and visits every written byte
exactly once, in strictly ascending address order; the blocks are the maximal contiguous runs
of written addresses. -/
theorem C03_iteration_exact (ws : List (Nat × UInt8)) (h : Addr32 ws) :
    ∃ bs, walk (writes ws) = some bs ∧
      (∀ a v, (a, v) ∈ image (bs.map fun e => (e.base, e.data)) ↔ lastWrite ws a = some v) ∧
      (image (bs.map fun e => (e.base, e.data))).Pairwise (fun p q => p.1 < q.1) ∧
      Separated (bs.map fun e => (e.base, e.data)) := by
  obtain ⟨h1, h2⟩ := writes_ok h
  refine ⟨writes ws, walk_ok h1, ?_, image_sorted (WF.toWR h1), separated_of_wr (WF.toWR h1)⟩
  intro a v
  rw [← h2, mem_image_iff (WF.toWR h1)]

/-- C03, continued: `startAddress` and `endAddress` are the least and the greatest written
address. -/
theorem C03_start_end (ws : List (Nat × UInt8)) (h : Addr32 ws) (hne : ws ≠ []) :
    (lastWrite ws (startAddress (writes ws))).isSome ∧
    (lastWrite ws (endAddress (writes ws))).isSome ∧
    ∀ a, (lastWrite ws a).isSome →
      startAddress (writes ws) ≤ a ∧ a ≤ endAddress (writes ws) := by
  obtain ⟨h1, h2⟩ := writes_ok h
  have hw : writes ws ≠ [] := by
    intro h0
    cases ws with
    | nil => exact hne rfl
    | cons w ws' =>
      rcases List.eq_nil_or_concat (w :: ws') with h3 | ⟨l, x, h3⟩
      · simp at h3
      · have h3' : w :: ws' = l ++ [x] := by simpa using h3
        have := h2 x.1
        rw [h0, h3', lastWrite_snoc] at this
        simp [contents] at this
  have := bounds h1 hw
  simpa only [h2] using this

example : startAddress (writes [(9, 1), (5, 2), (6, 3)]) = 5 ∧
    endAddress (writes [(9, 1), (5, 2), (6, 3)]) = 9 ∧
    (walk (writes [(9, 1), (5, 2), (6, 3)])).map (·.map fun e => (e.base, e.data)) =
      some [(5, [2, 3]), (9, [1])] := by decide

/-- C04, full statement: restricting the memory to `[start, end]` keeps exactly the bytes in
the range. -/
def SetRangeExact (ws : List (Nat × UInt8)) (start end_ : Nat) : Prop :=
  ∀ a, hasByte (setRange (writes ws) start end_) a =
      (decide (start ≤ a ∧ a ≤ end_) && (lastWrite ws a).isSome) ∧
    readByte (setRange (writes ws) start end_) a =
      if start ≤ a ∧ a ≤ end_ then (lastWrite ws a).getD 0 else 0

/-- The code violates C04: a block that starts exactly at `end` is not trimmed. -/
theorem C04_violated : ¬ SetRangeExact [(5, 1), (6, 2)] 5 5 := by
  intro h
  have := (h 6).1
  revert this
  decide

/-- C04, proved part: the range is exact unless a run of two or more written bytes begins
exactly at `end` (bytes written at `end` and `end+1` but not at `end-1`); see `C04_violated`.
Iteration over the restricted memory visits exactly the bytes kept. -/
theorem C04_setRange_partial (ws : List (Nat × UInt8)) (h : Addr32 ws) (start end_ : Nat)
    (hse : start ≤ end_)
    (hrun : (lastWrite ws end_).isSome → (lastWrite ws (end_ + 1)).isSome →
      0 < end_ ∧ (lastWrite ws (end_ - 1)).isSome) :
    SetRangeExact ws start end_ ∧
    ∃ bs, walk (setRange (writes ws) start end_) = some bs ∧
      (∀ a v, (a, v) ∈ image (bs.map fun e => (e.base, e.data)) ↔
        start ≤ a ∧ a ≤ end_ ∧ lastWrite ws a = some v) ∧
      (image (bs.map fun e => (e.base, e.data))).Pairwise (fun p q => p.1 < q.1) := by
  obtain ⟨h1, h2⟩ := writes_ok h
  have hno := no_run_at_end h1 (end_ := end_) (by simpa only [h2] using hrun)
  have hwr := cutLast_wr (setRange_wr h1 hse)
  have hsr : setRange (writes ws) start end_ =
      cutLast ((writes ws).filterMap (rangeStep start end_)) := by
    simp [setRange, Nat.not_lt.2 hse]
  have hcon : ∀ a, contents (setRange (writes ws) start end_) a =
      if start ≤ a ∧ a ≤ end_ then lastWrite ws a else none := by
    intro a
    rw [hsr, cutLast_contents, filterMap_contents (ch_ok h1) hse hno, h2]
  refine ⟨?_, setRange (writes ws) start end_, ?_, ?_, ?_⟩
  · intro a
    have := read_contents (m := setRange (writes ws) start end_) (by rw [hsr]; exact hwr) a
    rw [hcon] at this
    rw [this.1, this.2]
    by_cases hin : start ≤ a ∧ a ≤ end_
    · simp [hin]
    · simp [hin]
  · rw [hsr]; exact walk_setRange h1 hse
  · intro a v
    rw [mem_image_iff (by rw [hsr]; exact hwr), hcon]
    by_cases hin : start ≤ a ∧ a ≤ end_
    · simp [hin]
    · simp only [hin, if_false]
      constructor
      · simp
      · rintro ⟨x, y, _⟩; exact absurd ⟨x, y⟩ hin
  · rw [hsr]; exact image_sorted hwr

example : Addr32 [(4, 1), (5, 1), (6, 2), (9, 3)] ∧
    ((lastWrite [(4, 1), (5, 1), (6, 2), (9, 3)] 5).isSome →
      (lastWrite [(4, 1), (5, 1), (6, 2), (9, 3)] 6).isSome →
      0 < 5 ∧ (lastWrite [(4, 1), (5, 1), (6, 2), (9, 3)] 4).isSome) ∧
    hasByte (setRange (writes [(4, 1), (5, 1), (6, 2), (9, 3)]) 5 5) 5 = true ∧
    hasByte (setRange (writes [(4, 1), (5, 1), (6, 2), (9, 3)]) 5 5) 6 = false := by
  decide

end Libasm.BinMemory
