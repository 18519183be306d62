import Verif.StrBuffer.Lemmas
/-
C23: the bounded output buffer.
-/
namespace Libasm.StrBuffer
open Spec

theorem step_rep {size : Nat} {b : Buf} {t : List Char} (h : Rep size b t) (hs : 0 < size) (o : Op)
    (ho : Ok o) (hr : o ≠ .reset) : ∃ b', b.step o = some b' ∧ Rep size b' (t ++ added o) := by
  cases o with
  | reset => exact absurd rfl hr
  | letter cv c =>
    obtain ⟨b', e, r, _⟩ := rletter_rep h (cv.apply c)
    exact ⟨b', e, r⟩
  | text cv cs => exact text_rep cv cs h
  | comma =>
    obtain ⟨b1, e1, r1, _⟩ := rletter_rep h ','
    obtain ⟨b2, e2, r2, _⟩ := rletter_rep r1 ' '
    refine ⟨b2, ?_, by simpa [added] using r2⟩
    show (match b.rletter ',' with | none => none | some b => b.rletter ' ') = _
    rw [e1]; exact e2
  | hex cv bytes v prec =>
    have ho' : v < 256 ^ bytes := ho
    obtain ⟨b', e, r, _⟩ := reversed_rep cv (digitLoop 16 (bytes * 2) (v % 256 ^ bytes) prec) h
    refine ⟨b', e, ?_⟩
    rw [← List.map_reverse, digitLoop_numeral _ _ _ _ (by decide), Nat.mod_eq_of_lt ho'] at r
    · exact r
    · rw [Nat.mul_comm, Nat.pow_mul, Nat.mod_eq_of_lt ho']; exact ho'
  | oct cv bytes v prec =>
    have hd : bytes * 8 / 3 + (if bytes * 8 % 3 ≠ 0 then 1 else 0) = (bytes * 8 + 2) / 3 := by
      split <;> omega
    obtain ⟨b', e, r, _⟩ := reversed_rep cv (digitLoop 8 ((bytes * 8 + 2) / 3) (v % 256 ^ bytes) prec) h
    refine ⟨b', ?_, ?_⟩
    · show b.reversed cv (digitLoop 8 (bytes * 8 / 3 + (if bytes * 8 % 3 ≠ 0 then 1 else 0)) _ prec) = _
      rw [hd]; exact e
    · rw [← List.map_reverse, digitLoop_numeral _ _ _ _ (by decide)] at r
      · exact r
      · apply Nat.lt_of_lt_of_le (Nat.mod_lt _ (Nat.pow_pos (by decide)))
        rw [show (256 : Nat) = 2 ^ 8 from rfl, ← Nat.pow_mul, show (8 : Nat) = 2 ^ 3 from rfl, ← Nat.pow_mul]
        exact Nat.pow_le_pow_right (by decide) (by omega)
  | dec cv v prec =>
    obtain ⟨b', e, r, _⟩ := reversed_rep cv (decLoop v prec) h
    refine ⟨b', e, ?_⟩
    rw [← List.map_reverse, decLoop_eq, decimal_stays] at r
    exact r
  | sdec cv bits v prec =>
    obtain ⟨o1, o2, o3, o4⟩ := ho
    show ∃ b', (match magnitude bits v with
      | none => none
      | some (negative, u) =>
        match (if negative then b.letter cv '-' else some b) with
        | none => none
        | some b => b.reversed cv (decLoop u prec)) = some b' ∧ _
    by_cases hv : v < 0
    · have hm : magnitude bits v = some (true, v.natAbs) := by
        unfold magnitude
        rw [if_pos hv, if_neg (fun hh => o4 hh.1 hh.2)]
        have hp : (2 ^ bits : Int) = 2 * 2 ^ (bits - 1) := by rw [← Int.pow_succ']; congr 1; omega
        rw [Int.emod_eq_of_lt (by omega) (by rw [hp]; omega)]
        congr 2
        omega
      rw [hm]
      simp only [if_true]
      obtain ⟨b1, e1, r1, _⟩ := rletter_rep h (cv.apply '-')
      obtain ⟨b2, e2, r2, _⟩ := reversed_rep cv (decLoop v.natAbs prec) r1
      have e1' : b.letter cv '-' = some b1 := e1
      rw [e1']
      refine ⟨b2, e2, ?_⟩
      rw [← List.map_reverse, decLoop_eq, decimal_stays, digits_stay cv (Or.inl rfl)] at r2
      show Rep size b2 (t ++ ((if v < 0 then ['-'] else []) ++ decimal v.natAbs prec))
      rw [if_pos hv]
      simpa using r2
    · have hm : magnitude bits v = some (false, v.natAbs) := by
        unfold magnitude
        rw [if_neg hv]
        congr 2
        omega
      rw [hm]
      simp only [Bool.false_eq_true, if_false]
      obtain ⟨b2, e2, r2, _⟩ := reversed_rep cv (decLoop v.natAbs prec) h
      refine ⟨b2, e2, ?_⟩
      rw [← List.map_reverse, decLoop_eq, decimal_stays] at r2
      show Rep size b2 (t ++ ((if v < 0 then ['-'] else []) ++ decimal v.natAbs prec))
      rw [if_neg hv]
      simpa using r2
  | format cv cs =>
    obtain ⟨b', e, r, _⟩ := reversed_rep cv cs h
    exact ⟨b', e, r⟩

theorem reset_rep {size : Nat} {b : Buf} (hs : 0 < size) (h1 : b.mem.length = size)
    (h2 : b.end_ + 1 = size) : ∃ b', b.reset = some b' ∧ Rep size b' [] := by
  unfold Buf.reset store
  rw [if_pos (by omega)]
  refine ⟨_, rfl, ⟨by simp [h1], h2, by simp, ?_⟩, Or.inl ⟨hs, rfl, rfl, rfl⟩⟩
  show (b.mem.set 0 nul)[0]? = some nul
  rw [List.getElem?_set_self (by omega)]

theorem text_cons {t : List Char} {o : Op} {os : List Op} (h : o ≠ .reset) :
    Spec.text t (o :: os) = Spec.text (t ++ added o) os := by
  cases o <;> first | exact absurd rfl h | rfl

theorem run_rep {size : Nat} (hs : 0 < size) (ops : List Op) : ∀ {b : Buf} {t : List Char},
    Rep size b t → (∀ o ∈ ops, Ok o) →
    ∃ b', b.run ops = some b' ∧ Rep size b' (Spec.text t ops) := by
  induction ops with
  | nil => intro b t h _; exact ⟨b, rfl, h⟩
  | cons o os ih =>
    intro b t h ho
    have hos : ∀ o ∈ os, Ok o := fun x hx => ho x (List.mem_cons_of_mem _ hx)
    by_cases hr : o = .reset
    · subst hr
      obtain ⟨b1, e1, r1⟩ := reset_rep hs h.1.1 h.1.2.1
      obtain ⟨b2, e2, r2⟩ := ih r1 hos
      refine ⟨b2, ?_, r2⟩
      show (match b.reset with | none => none | some b => b.run os) = _
      rw [e1]; exact e2
    · obtain ⟨b1, e1, r1⟩ := step_rep h hs o (ho o (List.mem_cons_self ..)) hr
      obtain ⟨b2, e2, r2⟩ := ih r1 hos
      refine ⟨b2, ?_, by rw [text_cons hr]; exact r2⟩
      show (match b.step o with | none => none | some b => b.run os) = _
      rw [e1]; exact e2

/-- C23: any sequence of operations on a buffer over an array of any size of at least 1, whatever
the array holds at first: no access outside the array (the result is `some`), the array keeps its
size, the text is terminated inside it; if the text of the operations fits together with its
terminator the buffer holds exactly that text and no error is flagged, and otherwise
BUFFER_OVERFLOW is flagged. -/
theorem C23_bounded (mem : List Char) (hs : 1 ≤ mem.length) (ops : List Op)
    (ho : ∀ o ∈ ops, Ok o) :
    ∃ b0 b, Buf.new mem = some b0 ∧ b0.run ops = some b ∧
      b.mem.length = mem.length ∧ b.out < mem.length ∧ b.mem[b.out]? = some '\x00' ∧
      ((Spec.text [] ops).length < mem.length →
        b.error = .OK ∧ b.mem.take b.out = Spec.text [] ops) ∧
      (mem.length ≤ (Spec.text [] ops).length → b.error = .BUFFER_OVERFLOW) := by
  have hnew : ∃ b0, Buf.new mem = some b0 ∧ Rep mem.length b0 [] := by
    unfold Buf.new store
    rw [if_pos (by omega)]
    refine ⟨_, rfl, ⟨by simp, by simp only; omega, by simp, ?_⟩, Or.inl ⟨hs, rfl, rfl, rfl⟩⟩
    show (mem.set 0 nul)[0]? = some nul
    rw [List.getElem?_set_self (by omega)]
  obtain ⟨b0, e0, r0⟩ := hnew
  obtain ⟨b, e, ⟨h1, h2, h3, h4⟩, r⟩ := run_rep hs ops r0 ho
  refine ⟨b0, b, e0, e, h1, by omega, h4, ?_, ?_⟩
  · intro hlt
    rcases r with ⟨a1, a2, a3, a4⟩ | ⟨a1, a2, a3⟩
    · exact ⟨a2, a3⟩
    · omega
  · intro hge
    rcases r with ⟨a1, a2, a3, a4⟩ | ⟨a1, a2, a3⟩
    · omega
    · exact a2

/-- Hypotheses met, with room and without. -/
example : ((Buf.new (List.replicate 16 'x')).bind (·.run [.text .upper ['a', 'd', 'c'], .letter .raw ' ',
      .hex .lower 1 0xA5 0, .comma, .sdec .raw 16 (-42) 3])).map
      (fun b => (b.mem.take b.out, b.error)) =
    some ("ADC a5, -042".toList, .OK) := by decide +kernel
example : ((Buf.new (List.replicate 6 'x')).bind (·.run [.text .upper ['a', 'd', 'c'], .letter .raw ' ',
      .hex .lower 2 0x1234 0])).map (fun b => (b.mem, b.out, b.error)) =
    some (['A', 'D', 'C', ' ', '4', '\x00'], 5, .BUFFER_OVERFLOW) := by decide +kernel

/-- The least number of a 32 bit type cannot be printed: its negation is undefined. -/
theorem C23_violated_least : (Buf.new (List.replicate 16 'x')).bind
    (·.run [.sdec .raw 32 (-2147483648) 0]) = none := by decide +kernel

/-- An array of size 0 is written outside of. -/
theorem C23_violated_empty : Buf.new [] = none := by decide

/-- The formatters of numbers write through the same operations: what they leave in the buffer is
the text C11 is about. -/
theorem C23_formatters (up : Bool) (v w : Nat) :
    Spec.added (.format (if up then .upper else .lower) (Number.outHex v w)) = Number.fmtHex up v w ∧
    Spec.added (.format (if up then .upper else .lower) (Number.outOct v w)) = Number.fmtOct up v w ∧
    Spec.added (.format (if up then .upper else .lower) (Number.outBin v w)) = Number.fmtBin up v w ∧
    Spec.added (.format (if up then .upper else .lower) (Number.outDec v)) = Number.fmtDec up v := by
  have h : (if up then Conv.upper else Conv.lower).apply = Number.letter up := by
    funext c
    cases up <;> rfl
  simp only [Spec.added, h]
  exact ⟨rfl, rfl, rfl, rfl⟩

end Libasm.StrBuffer
