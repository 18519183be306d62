import Verif.StrBuffer.Spec
namespace Libasm.StrBuffer
open Spec

/-! ### Reversal in place -/

theorem revLoop_eq (n : Nat) : ∀ (pre mid post : List Char), mid.length = n →
    revLoop (pre ++ mid ++ post) pre.length (pre.length + mid.length) =
      some (pre ++ mid.reverse ++ post) := by
  induction n using Nat.strongRecOn with
  | _ n ih =>
    intro pre mid post hn
    unfold revLoop
    by_cases h : pre.length + 1 < pre.length + mid.length
    · rw [if_pos h]
      cases mid with
      | nil => simp at h; omega
      | cons a mid =>
        have hne : mid ≠ [] := by intro h'; subst h'; simp at h
        obtain ⟨m, b, rfl⟩ : ∃ m b, mid = m ++ [b] := ⟨_, _, (List.dropLast_concat_getLast hne).symm⟩
        have h1 : (pre ++ a :: (m ++ [b]) ++ post)[pre.length]? = some a := by simp
        have hidx : pre.length + (a :: (m ++ [b])).length - 1 = pre.length + (m.length + 1) := by
          simp only [List.length_cons, List.length_append, List.length_nil]; omega
        have h2 : (pre ++ a :: (m ++ [b]) ++ post)[pre.length + (m.length + 1)]? = some b := by
          rw [show pre ++ a :: (m ++ [b]) ++ post = (pre ++ a :: m) ++ (b :: post) from by simp]
          rw [show pre.length + (m.length + 1) = (pre ++ a :: m).length from by simp]
          simp
        rw [hidx, h1, h2]
        simp only
        have h3 : ((pre ++ a :: (m ++ [b]) ++ post).set pre.length b).set (pre.length + (m.length + 1)) a =
            (pre ++ [b]) ++ m ++ ([a] ++ post) := by
          rw [show pre ++ a :: (m ++ [b]) ++ post = pre ++ a :: (m ++ [b] ++ post) from by simp]
          rw [List.set_append_right _ _ (Nat.le_refl _), Nat.sub_self, List.set_cons_zero]
          rw [show pre ++ b :: (m ++ [b] ++ post) = (pre ++ b :: m) ++ (b :: post) from by simp]
          rw [show pre.length + (m.length + 1) = (pre ++ b :: m).length from by simp]
          rw [List.set_append_right _ _ (Nat.le_refl _), Nat.sub_self, List.set_cons_zero]
          simp
        rw [h3]
        have hl : m.length < n := by
          rw [← hn]; simp only [List.length_cons, List.length_append, List.length_nil]; omega
        have := ih m.length hl (pre ++ [b]) m ([a] ++ post) rfl
        rw [show (pre ++ [b]).length = pre.length + 1 from by simp] at this
        rw [show pre.length + (m.length + 1) = pre.length + 1 + m.length from by omega, this]
        simp
    · rw [if_neg h]
      cases mid with
      | nil => rfl
      | cons a mid =>
        cases mid with
        | nil => rfl
        | cons b mid => simp at h

/-! ### The buffer holds the text, or overflowed -/

/-- The array is intact and the text in it is terminated. -/
def Inv (size : Nat) (b : Buf) : Prop :=
  b.mem.length = size ∧ b.end_ + 1 = size ∧ b.out ≤ b.end_ ∧ b.mem[b.out]? = some nul

/-- The buffer stands for the text `t`. -/
def Rep (size : Nat) (b : Buf) (t : List Char) : Prop :=
  Inv size b ∧
    ((t.length < size ∧ b.error = .OK ∧ b.mem.take b.out = t ∧ b.out = t.length) ∨
      (size ≤ t.length ∧ b.error = .BUFFER_OVERFLOW ∧ b.out = b.end_))

theorem rletter_rep {size : Nat} {b : Buf} {t : List Char} (h : Rep size b t) (c : Char) :
    ∃ b', b.rletter c = some b' ∧ Rep size b' (t ++ [c]) ∧ b.out ≤ b'.out := by
  obtain ⟨⟨h1, h2, h3, h4⟩, h⟩ := h
  unfold Buf.rletter
  by_cases hlt : b.out < b.end_
  · rw [if_pos hlt]
    have hs : store b.mem b.out c = some (b.mem.set b.out c) := by
      unfold store; rw [if_pos (by omega)]
    have hs2 : store (b.mem.set b.out c) (b.out + 1) nul = some ((b.mem.set b.out c).set (b.out + 1) nul) := by
      unfold store; rw [if_pos (by rw [List.length_set]; omega)]
    rw [hs]; simp only
    rw [hs2]; simp only
    refine ⟨_, rfl, ⟨⟨by simp [h1], h2, by simp only; omega, ?_⟩, ?_⟩, by simp⟩
    · simp only
      rw [List.getElem?_set_self (by rw [List.length_set]; omega)]
    · rcases h with ⟨a1, a2, a3, a4⟩ | ⟨a1, a2, a3⟩
      · left
        refine ⟨by simp; omega, a2, ?_, by simp [a4]⟩
        simp only
        rw [List.take_set_of_le (by omega), List.take_succ_eq_append_getElem (by rw [List.length_set]; omega),
          List.getElem_set_self, List.take_set_of_le (by omega), a3]
      · omega
  · rw [if_neg hlt]
    refine ⟨_, rfl, ⟨⟨h1, h2, h3, h4⟩, ?_⟩, by simp⟩
    right
    refine ⟨?_, rfl, by simp only; omega⟩
    rcases h with ⟨a1, a2, a3, a4⟩ | ⟨a1, a2, a3⟩
    · simp; omega
    · simp; omega

theorem letters_rep {size : Nat} (cv : Conv) (cs : List Char) : ∀ {b : Buf} {t : List Char},
    Rep size b t →
    ∃ b', b.letters cv cs = some b' ∧ Rep size b' (t ++ cs.map cv.apply) ∧ b.out ≤ b'.out := by
  induction cs with
  | nil => intro b t h; exact ⟨b, rfl, by simpa using h, Nat.le_refl _⟩
  | cons c cs ih =>
    intro b t h
    obtain ⟨b1, e1, r1, l1⟩ := rletter_rep h (cv.apply c)
    obtain ⟨b2, e2, r2, l2⟩ := ih r1
    refine ⟨b2, ?_, by simpa using r2, by omega⟩
    show (match b.rletter (cv.apply c) with | none => none | some b => b.letters cv cs) = _
    rw [e1]; exact e2

theorem text_rep {size : Nat} (cv : Conv) (cs : List Char) : ∀ {b : Buf} {t : List Char},
    Rep size b t →
    ∃ b', b.text cv cs = some b' ∧ Rep size b' (t ++ (cs.takeWhile (· ≠ '\x00')).map cv.apply) := by
  induction cs with
  | nil => intro b t h; exact ⟨b, rfl, by simpa using h⟩
  | cons c cs ih =>
    intro b t h
    unfold Buf.text
    by_cases hc : c = nul
    · rw [if_pos hc]
      refine ⟨b, rfl, ?_⟩
      subst hc
      simpa [nul] using h
    · rw [if_neg hc]
      obtain ⟨b1, e1, r1, l1⟩ := rletter_rep h (cv.apply c)
      obtain ⟨b2, e2, r2⟩ := ih r1
      refine ⟨b2, ?_, ?_⟩
      · show (match b.rletter (cv.apply c) with | none => none | some b => b.text cv cs) = _
        rw [e1]; exact e2
      · have : ¬ c = '\x00' := hc
        simpa [this] using r2

theorem reversed_rep {size : Nat} (cv : Conv) (cs : List Char) {b : Buf} {t : List Char}
    (h : Rep size b t) :
    ∃ b', b.reversed cv cs = some b' ∧ Rep size b' (t ++ (cs.map cv.apply).reverse) ∧
      b.out ≤ b'.out := by
  obtain ⟨b1, e1, r1, l1⟩ := letters_rep cv cs h
  unfold Buf.reversed
  rw [e1]; simp only
  unfold Buf.reverse
  rw [if_neg (by omega)]
  obtain ⟨⟨h1, h2, h3, h4⟩, hr⟩ := r1
  -- split the array at both marks
  have hsplit : b1.mem = b1.mem.take b.out ++ (b1.mem.take b1.out).drop b.out ++ b1.mem.drop b1.out := by
    rw [← List.take_append_drop b1.out b1.mem]
    rw [List.take_append_drop]
    have : b1.mem.take b.out = (b1.mem.take b1.out).take b.out := by
      rw [List.take_take, Nat.min_eq_left l1]
    rw [this, List.take_append_drop, List.take_append_drop]
  have hl1 : (b1.mem.take b.out).length = b.out := by rw [List.length_take]; omega
  have hl2 : ((b1.mem.take b1.out).drop b.out).length = b1.out - b.out := by
    rw [List.length_drop, List.length_take]; omega
  have hrev := revLoop_eq _ (b1.mem.take b.out) ((b1.mem.take b1.out).drop b.out) (b1.mem.drop b1.out) rfl
  rw [← hsplit, hl1, hl2, show b.out + (b1.out - b.out) = b1.out from by omega] at hrev
  rw [hrev]
  simp only
  have hlen : (b1.mem.take b.out ++ ((b1.mem.take b1.out).drop b.out).reverse).length = b1.out := by
    rw [List.length_append, List.length_reverse, hl1, hl2]; omega
  refine ⟨_, rfl, ⟨⟨?_, h2, h3, ?_⟩, ?_⟩, l1⟩
  · show (_ ++ _ ++ _ : List Char).length = size
    rw [List.length_append, hlen, List.length_drop]; omega
  · show (_ ++ _ ++ _ : List Char)[b1.out]? = _
    rw [List.getElem?_append_right (by omega), hlen, Nat.sub_self, List.getElem?_drop]
    exact h4
  · rcases hr with ⟨a1, a2, a3, a4⟩ | ⟨a1, a2, a3⟩
    · left
      refine ⟨by simpa using a1, a2, ?_, by simpa using a4⟩
      show (_ ++ _ ++ _ : List Char).take b1.out = _
      rw [List.take_left' hlen]
      -- the part before the mark is the old text
      have hb : b.out = t.length ∧ t.length < size := by
        rcases h.2 with ⟨c1, c2, c3, c4⟩ | ⟨c1, c2, c3⟩
        · exact ⟨c4, c1⟩
        · exfalso
          simp at a1; omega
      have htake : b1.mem.take b.out = t := by
        have : b1.mem.take b.out = (b1.mem.take b1.out).take b.out := by
          rw [List.take_take, Nat.min_eq_left l1]
        rw [this, a3, hb.1]; simp
      rw [htake, a3, hb.1]; simp
    · right
      exact ⟨by simpa using a1, a2, a3⟩

/-! ### The letters of the number operations -/

theorem digitChar_eq {d : Nat} : digitChar d = digit d := by
  unfold digitChar digit
  by_cases h : d < 10
  · rw [if_pos h, if_pos h, Nat.add_comm]
  · rw [if_neg h, if_neg h, show 65 + (d - 10) = d + 55 from by omega]

/-- Digits least significant first. -/
def digitsLow (base : Nat) : Nat → Nat → List Char
  | 0, _ => []
  | n + 1, v => digit (v % base) :: digitsLow base n (v / base)

theorem digitsLow_eq (base n : Nat) : ∀ v, digitsLow base n v =
    (List.range n).map fun i => digit (v / base ^ i % base) := by
  induction n with
  | zero => intro v; rfl
  | succ n ih =>
    intro v
    rw [digitsLow, ih, List.range_succ_eq_map, List.map_cons, List.map_map]
    simp only [Nat.pow_zero, Nat.div_one]
    congr 1
    apply List.map_congr_left
    intro i _
    simp only [Function.comp, Nat.pow_succ']
    rw [Nat.div_div_eq_div_mul]

theorem digitsLow_zero (base n : Nat) : digitsLow base n 0 = List.replicate n '0' := by
  induction n with
  | zero => rfl
  | succ n ih =>
    rw [digitsLow, Nat.zero_mod, Nat.zero_div, ih, List.replicate_succ]; rfl

theorem digitLoop_eq (base i : Nat) (hb : 0 < base) : ∀ u prec, u < base ^ i →
    digitLoop base i u prec = digitsLow base (width i prec) u := by
  induction i with
  | zero =>
    intro u prec hu
    have : u = 0 := by simpa using hu
    subst this
    rw [digitsLow_zero]
    unfold digitLoop width
    by_cases h : prec = 0
    · rw [if_pos h, h]
    · rw [if_neg h]
  | succ i ih =>
    intro u prec hu
    unfold digitLoop width
    have hu' : u / base < base ^ i := by
      rw [Nat.div_lt_iff_lt_mul hb, ← Nat.pow_succ]; exact hu
    by_cases h : prec = 0
    · subst h
      simp only [ne_eq, not_true_eq_false, if_false, if_true, digitsLow]
      rw [ih _ _ hu', digitChar_eq]
      rfl
    · rw [if_pos h, if_neg h]
      obtain ⟨p, rfl⟩ : ∃ p, prec = p + 1 := ⟨prec - 1, by omega⟩
      rw [Nat.add_sub_cancel, digitsLow, digitChar_eq]
      by_cases h' : p = 0
      · subst h'; rfl
      · rw [if_neg h', ih _ _ hu']
        unfold width
        rw [if_neg h']

theorem digitLoop_numeral (base i u prec : Nat) (hb : 0 < base) (hu : u < base ^ i) :
    (digitLoop base i u prec).reverse = numeral base (width i prec) u := by
  rw [digitLoop_eq base i hb u prec hu, digitsLow_eq, numeral, ← List.map_reverse]

theorem digit_digitChar : ∀ d, d < 10 → digit d = Nat.digitChar d := by
  intro d hd
  have : ∀ d : Fin 10, digit d.1 = Nat.digitChar d.1 := by decide
  exact this ⟨d, hd⟩

theorem decLoop_eq (u : Nat) : ∀ prec, (decLoop u prec).reverse = decimal u prec := by
  induction u using Nat.strongRecOn with
  | _ u ih =>
    intro prec
    rw [decLoop, digitChar_eq, digit_digitChar _ (Nat.mod_lt _ (by decide))]
    by_cases h : u / 10 = 0
    · have hu : u < 10 := by omega
      simp only [h, dif_pos]
      rw [decimal, Nat.toDigits_of_lt_base hu, Nat.mod_eq_of_lt hu]
      simp [List.leftpad]
    · simp only [h, dif_neg, not_false_eq_true]
      have hu : 10 ≤ u := by omega
      rw [List.reverse_cons, ih _ (by omega), decimal, decimal,
        Nat.toDigits_of_base_le (b := 10) (by decide) hu]
      rw [List.leftpad, List.leftpad, List.length_append, List.append_assoc]
      congr 2
      simp only [List.length_cons, List.length_nil]
      omega

theorem digits_stay (cv : Conv) {c : Char} (h : c = '-' ∨ (48 ≤ c.toNat ∧ c.toNat ≤ 57)) :
    cv.apply c = c := by
  cases cv
  · rfl
  · show Ctype.toUpper c = c
    unfold Ctype.toUpper Ctype.isLower
    rw [if_neg]
    rcases h with rfl | h
    · decide
    · simp; omega
  · show Ctype.toLower c = c
    unfold Ctype.toLower Ctype.isUpper
    rw [if_neg]
    rcases h with rfl | h
    · decide
    · simp; omega

theorem decimal_stays (cv : Conv) (v prec : Nat) : (decimal v prec).map cv.apply = decimal v prec := by
  conv => rhs; rw [← List.map_id (decimal v prec)]
  apply List.map_congr_left
  intro c hc
  apply digits_stay
  right
  unfold decimal List.leftpad at hc
  rw [List.mem_append] at hc
  rcases hc with h | h
  · rw [(List.mem_replicate.1 h).2]; decide
  · have := Nat.isDigit_of_mem_toDigits (b := 10) (by decide) (by decide) h
    unfold Char.isDigit at this
    simp only [ge_iff_le, Bool.and_eq_true, decide_eq_true_eq] at this
    exact ⟨this.1, this.2⟩

end Libasm.StrBuffer
