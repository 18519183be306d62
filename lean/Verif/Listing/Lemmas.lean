import Verif.Number.Lemmas
import Verif.Listing.Spec
/-
The formatters of the listing.
-/
namespace Libasm.Listing
open Number Number.Spec Spec

theorem revDigits_length (b n : Nat) (hb : 2 ≤ b) (fuel v : Nat) (h : v < b ^ n) :
    (revDigits b fuel v).length ≤ n := by
  induction fuel generalizing n v with
  | zero => simp [revDigits]
  | succ fuel ih =>
    unfold revDigits
    split
    · simp
    · cases n with
      | zero => simp at h; omega
      | succ n =>
        have : v / b < b ^ n := by
          rw [Nat.div_lt_iff_lt_mul (by omega)]
          rwa [← Nat.pow_succ]
        have := ih n (v / b) this
        simp only [List.length_cons]
        omega

theorem filled_shows (b : Nat) (hb : 2 ≤ b) (hb' : b ≤ 16) (up : Bool) (v n : Nat)
    (hv : v < 2 ^ 32) (hn : 1 ≤ n) :
    Shows b n v ((zeroFill n (revDigits b 32 v)).map (letter up)).reverse := by
  obtain ⟨_, h1, h2⟩ := filled_numeral b hb hb' up v n hv (Or.inl hn)
  have hl : ((zeroFill n (revDigits b 32 v)).map (letter up)).reverse.length =
      max n (revDigits b 32 v).length := by
    simp only [List.length_reverse, List.length_map, zeroFill, List.length_append,
      List.length_replicate]
    omega
  refine ⟨h1, h2, by omega, fun h => ?_⟩
  have := revDigits_length b n hb 32 v h
  omega

theorem number_shows (s : Style) (v bits : Nat) (hv : v < 2 ^ 32) (hb : 1 ≤ bits) :
    Shows s.base (digitsOf s.hex bits) v
      (if s.hex then fmtHex s.upper v bits else fmtOct false v bits) := by
  unfold Style.base digitsOf
  cases s.hex
  · have h : bits / 3 + (if bits % 3 ≠ 0 then 1 else 0) = (bits + 2) / 3 := by split <;> omega
    have := filled_shows 8 (by decide) (by decide) false v ((bits + 2) / 3) hv (by omega)
    simp only [fmtOct, outOct, h]
    exact this
  · have h : bits / 4 + (if bits % 4 ≠ 0 then 1 else 0) = (bits + 3) / 4 := by split <;> omega
    have := filled_shows 16 (by decide) (by decide) s.upper v ((bits + 3) / 4) hv (by omega)
    simp only [fmtHex, outHex, h]
    exact this

theorem radixBits_eq (s : Style) : s.radixBits = if s.hex then 4 else 3 := by
  unfold Style.radixBits Style.base
  cases s.hex <;> decide

theorem digits_eq (s : Style) : calcDigits 0xFFFF s.base = digitsOf s.hex 16 := by
  unfold Style.base
  cases s.hex <;> decide

theorem value_plain (s : Style) (v bits : Nat) (hv : v < 2 ^ 32) (hb : 1 ≤ bits) :
    Shows s.base (digitsOf s.hex bits) v (formatValue s v bits 0 false) := by
  have := number_shows s v bits hv hb
  have h0 : ¬ bits = 0 := by omega
  simp only [formatValue, h0, if_false, show ¬ ((0 : Int) > 0) by omega, show ¬ ((0 : Int) < 0) by omega,
    List.nil_append]
  exact this

theorem value_right (s : Style) (b : Nat) (hb : b < 256) :
    ∃ t, Shows s.base (digitsOf s.hex 8) b t ∧
      formatValue s b 8 (calcDigits 0xFFFF s.base : Int) false =
        List.replicate (digitsOf s.hex 16 - digitsOf s.hex 8) ' ' ++ t := by
  refine ⟨_, number_shows s b 8 (by omega) (by omega), ?_⟩
  have hp : (digitsOf s.hex 16 : Int) > 0 := by unfold digitsOf; cases s.hex <;> decide
  have hn : ¬ ((digitsOf s.hex 16 : Int) < 0) := by omega
  simp only [formatValue, digits_eq, radixBits_eq, if_pos hp, if_neg hn, show ¬ (8 = 0) by omega, if_false]
  congr 1
  unfold spaces digitsOf
  cases s.hex <;> rfl

theorem value_left (s : Style) (b : Nat) (hb : b < 256) :
    ∃ t, Shows s.base (digitsOf s.hex 8) b t ∧
      formatValue s b 8 (-(calcDigits 0xFFFF s.base : Int)) false =
        t ++ List.replicate (digitsOf s.hex 16 - digitsOf s.hex 8) ' ' := by
  have h := number_shows s b 8 (by omega) (by omega)
  refine ⟨_, h, ?_⟩
  have hl := h.2.2.2 (by
    unfold Style.base digitsOf
    cases s.hex <;> simp <;> omega)
  have hn : (-(digitsOf s.hex 16 : Int) < 0) := by unfold digitsOf; cases s.hex <;> decide
  simp only [formatValue, digits_eq, if_pos hn, show ¬ (8 = 0) by omega, if_false]
  rw [if_neg (by simp), hl]
  unfold spaces digitsOf
  cases s.hex <;> simp

theorem calcBits_pos (v : Nat) : 1 ≤ calcBits v := by
  have : ∀ n, 1 ≤ bitsLoop v (n + 1) := by
    intro n
    induction n with
    | zero => simp [bitsLoop]
    | succ n ih =>
      rw [bitsLoop]
      split
      · exact ih
      · omega
  exact this 31

theorem bitsLoop_spec (v n : Nat) (h : v < 2 ^ (n + 1)) :
    v < 2 ^ bitsLoop v (n + 1) ∧ (1 < bitsLoop v (n + 1) → 2 ^ (bitsLoop v (n + 1) - 1) ≤ v) := by
  induction n with
  | zero => exact ⟨h, by simp [bitsLoop]⟩
  | succ n ih =>
    rw [bitsLoop]
    split
    · rename_i h0
      refine ih ?_
      have h1 : v / 2 ^ (n + 1) < 2 := by
        rw [Nat.div_lt_iff_lt_mul (Nat.two_pow_pos _)]
        rwa [Nat.mul_comm, ← Nat.pow_succ]
      have h2 : v / 2 ^ (n + 1) = 0 := by
        generalize v / 2 ^ (n + 1) = q at h0 h1
        omega
      exact Nat.lt_of_div_eq_zero (Nat.two_pow_pos _) h2
    · rename_i h0
      refine ⟨h, fun _ => ?_⟩
      show 2 ^ (n + 1) ≤ v
      refine Nat.le_of_not_lt fun hlt => h0 ?_
      rw [Nat.div_eq_of_lt hlt]

theorem calcBits_spec (v : Nat) (h : v < 2 ^ 32) :
    v < 2 ^ calcBits v ∧ (1 < calcBits v → 2 ^ (calcBits v - 1) ≤ v) := bitsLoop_spec v 31 h

theorem base_pow (s : Style) (n : Nat) : s.base ^ n = 2 ^ ((if s.hex then 4 else 3) * n) := by
  unfold Style.base
  cases s.hex
  · simp only [Bool.false_eq_true, if_false]; rw [Nat.pow_mul]
  · simp only [if_true]; rw [Nat.pow_mul]

theorem address_shows (s : Style) (addr : Nat) (h : addr < 2 ^ 32) :
    Address s addr (formatAddress s addr) := by
  have hb := calcBits_pos addr
  obtain ⟨hc, hd⟩ := calcBits_spec addr h
  have hn := number_shows s addr (calcBits addr) h hb
  have hm : addr % 4294967296 = addr := Nat.mod_eq_of_lt h
  refine ⟨((8 : Int) - ((calcBits addr / s.radixBits +
      (if calcBits addr % s.radixBits = 0 then 0 else 1) : Nat) : Int)).toNat,
    if s.hex then fmtHex s.upper addr (calcBits addr) else fmtOct false addr (calcBits addr),
    ?_, ?_, ?_, ?_⟩
  · simp only [formatAddress, formatValue, hm, if_true, show ((8 : Int) > 0) by omega,
      show ¬ ((8 : Int) < 0) by omega, if_false, spaces]
  all_goals
    generalize (if s.hex then fmtHex s.upper addr (calcBits addr)
      else fmtOct false addr (calcBits addr)) = t at hn
    obtain ⟨h1, h2, h3, h4⟩ := hn
    have h5 : t.length = digitsOf s.hex (calcBits addr) := by
      refine h4 (Nat.lt_of_lt_of_le hc ?_)
      rw [base_pow]
      refine Nat.pow_le_pow_right (by decide) ?_
      unfold digitsOf
      cases s.hex <;> simp <;> omega
    have h6 : 1 ≤ t.length := by rw [h5]; unfold digitsOf; cases s.hex <;> simp <;> omega
  · intro h0; rw [h0] at h6; simp at h6
  · exact ⟨h1, h2, Nat.le_refl _, fun _ => rfl⟩
  · intro h7
    rw [base_pow]
    have h8 : 1 < calcBits addr := by
      rw [h5] at h7
      unfold digitsOf at h7
      revert h7
      cases s.hex <;> simp <;> omega
    refine Nat.le_trans (Nat.pow_le_pow_right (by decide) ?_) (hd h8)
    rw [h5]
    unfold digitsOf
    cases s.hex <;> simp <;> omega

/-- The configurations in which the bytes come out right: 8 bit codes, 16 bit codes at byte
addresses, or an even number of bytes. -/
def Even (s : Style) (size at_ : Nat) : Prop :=
  s.width = .w8 ∨ (s.width = .w16 ∧ s.unit = 1) ∨
    (¬ (s.width = .w16 ∧ s.unit = 1) ∧ size % 2 = 0 ∧ at_ % 2 = 0)

theorem drop_take (l : List Nat) (a n : Nat) (h : a < l.length) :
    (l.drop a).take (n + 1) = l.getD a 0 :: (l.drop (a + 1)).take n := by
  rw [List.drop_eq_getElem_cons h, List.take_succ_cons]
  simp [List.getD, List.getElem?_eq_getElem h]

theorem getD_lt {l : List Nat} (hl : ∀ x ∈ l, x < 256) (a : Nat) : l.getD a 0 < 256 := by
  unfold List.getD
  cases h : l[a]? with
  | none => simp
  | some x => exact hl x (List.mem_of_getElem? h)

theorem word_value {a b : Nat} (hb : b < 256) : a <<< 8 ||| b = a * 256 + b := by
  rw [Nat.shiftLeft_eq, Nat.mul_comm, ← Nat.two_pow_add_eq_or_of_lt (i := 8) hb a, Nat.mul_comm]

theorem bytesLoop_spec (s : Style) (addr : Nat) (bytes : List Nat) (hby : ∀ x ∈ bytes, x < 256)
    (offset : Nat) (fuel pos len : Nat) (hf : 6 ≤ fuel + pos) (hle : offset + len ≤ bytes.length)
    (he : Even s bytes.length (offset + len)) :
    ∃ cells n, Column s cells (bytesLoop s addr bytes offset fuel pos len).1 ∧
      (bytesLoop s addr bytes offset fuel pos len).2 = len + n ∧
      cells.flatMap Cell.bytes = (bytes.drop (offset + len)).take n ∧
      offset + len + n ≤ bytes.length ∧
      (offset + len < bytes.length → pos < 6 → 1 ≤ n) ∧ Even s bytes.length (offset + len + n) := by
  induction fuel generalizing pos len with
  | zero => exact ⟨[], 0, .nil, rfl, by simp, by omega, by omega, he⟩
  | succ fuel ih =>
    rw [bytesLoop]
    by_cases hc : offset + len < bytes.length ∧ pos < 6
    · rw [if_pos hc]
      dsimp only
      have hb := getD_lt hby (offset + len)
      have single : ∀ (c : Cell) (cell : List Char), c.bytes = [bytes.getD (offset + len) 0] →
          Shown s (' ' :: cell) c → Even s bytes.length (offset + (len + 1)) →
          ∃ cells n, Column s cells
              (' ' :: cell ++ (bytesLoop s addr bytes offset fuel (pos + 1) (len + 1)).1) ∧
            (bytesLoop s addr bytes offset fuel (pos + 1) (len + 1)).2 = len + n ∧
            cells.flatMap Cell.bytes = (bytes.drop (offset + len)).take n ∧
            offset + len + n ≤ bytes.length ∧
            (offset + len < bytes.length → pos < 6 → 1 ≤ n) ∧
            Even s bytes.length (offset + len + n) := by
        intro c cell h1 h2 h3
        obtain ⟨cells, n, g1, g2, g3, g4, g5, g6⟩ :=
          ih (pos + 1) (len + 1) (by omega) (by omega) h3
        refine ⟨c :: cells, n + 1, .cons h2 g1, by rw [g2]; omega, ?_, by omega, by omega, ?_⟩
        · rw [List.flatMap_cons, h1, g3, drop_take _ _ _ hc.1]
          rfl
        · rw [show offset + len + (n + 1) = offset + (len + 1) + n by omega]; exact g6
      by_cases h1 : s.width = .w16 ∧ s.unit = 1 ∧ pos = 0 ∧ addr % 2 ≠ 0
      · rw [if_pos h1]
        have h16 : s.width = .w16 ∧ s.unit = 1 := ⟨h1.1, h1.2.1⟩
        refine single (.first (bytes.getD (offset + len) 0)) _ rfl ?_ (.inr (.inl h16))
        cases hbig : s.big
        · obtain ⟨t, g1, g2⟩ := value_left s _ hb
          refine ⟨t, g1, ?_⟩
          simp only [hbig, Bool.false_eq_true, if_false, g2, List.cons_append]
        · obtain ⟨t, g1, g2⟩ := value_right s _ hb
          refine ⟨t, g1, ?_⟩
          simp only [hbig, if_true, g2, List.cons_append]
      · rw [if_neg h1]
        by_cases h2 : s.width = .w16 ∧ s.unit = 1 ∧ offset + (len + 1) = bytes.length
        · rw [if_pos h2]
          have h16 : s.width = .w16 ∧ s.unit = 1 := ⟨h2.1, h2.2.1⟩
          refine single (.last (bytes.getD (offset + len) 0)) _ rfl ?_ (.inr (.inl h16))
          cases hbig : s.big
          · obtain ⟨t, g1, g2⟩ := value_right s _ hb
            refine ⟨t, g1, ?_⟩
            simp only [hbig, Bool.false_eq_true, if_false, g2, List.cons_append]
          · refine ⟨_, value_plain s _ 8 (by omega) (by omega), ?_⟩
            simp only [hbig, if_true]
        · rw [if_neg h2]
          by_cases h3 : s.width = .w8
          · rw [if_pos h3]
            exact single (.byte (bytes.getD (offset + len) 0)) _ rfl
              ⟨_, rfl, value_plain s _ 8 (by omega) (by omega)⟩ (.inl h3)
          · rw [if_neg h3]
            have hnext : offset + len + 1 < bytes.length := by
              rcases he with he | he | he
              · exact absurd he h3
              · have : ¬ (offset + (len + 1) = bytes.length) := fun h => h2 ⟨he.1, he.2, h⟩
                omega
              · have := he.2.1; have := he.2.2; omega
            have hev : Even s bytes.length (offset + (len + 1 + 1)) := by
              rcases he with he | he | he
              · exact .inl he
              · exact .inr (.inl he)
              · exact .inr (.inr ⟨he.1, he.2.1, by have := he.2.2; omega⟩)
            obtain ⟨cells, n, g1, g2, g3, g4, g5, g6⟩ :=
              ih (pos + 2) (len + 1 + 1) (by omega) (by omega) hev
            have hb2 := getD_lt hby (offset + (len + 1))
            refine ⟨.word (bytes.getD (offset + len) 0) (bytes.getD (offset + (len + 1)) 0) :: cells,
              n + 2, .cons ⟨_, rfl, ?_⟩ g1, by rw [g2]; omega, ?_, by omega, by omega, ?_⟩
            · have e1 : (if s.big then bytes.getD (offset + len) 0 <<< 8 ||| bytes.getD (offset + (len + 1)) 0
                  else bytes.getD (offset + len) 0 ||| bytes.getD (offset + (len + 1)) 0 <<< 8) =
                  if s.big then bytes.getD (offset + len) 0 * 256 + bytes.getD (offset + (len + 1)) 0
                  else bytes.getD (offset + (len + 1)) 0 * 256 + bytes.getD (offset + len) 0 := by
                cases s.big
                · simp only [Bool.false_eq_true, if_false]
                  rw [Nat.or_comm, word_value hb]
                · simp only [if_true]
                  rw [word_value hb2]
              rw [e1]
              refine value_plain s _ _ ?_ ?_
              · split <;> omega
              · cases s.width <;> decide
            · rw [List.flatMap_cons, g3, drop_take _ _ _ hc.1, drop_take _ _ _ hnext]
              rfl
            · rw [show offset + len + (n + 2) = offset + (len + 1 + 1) + n by omega]; exact g6
    · rw [if_neg hc]
      exact ⟨[], 0, .nil, rfl, by simp, by omega, fun h1 h2 => absurd ⟨h1, h2⟩ hc, he⟩

theorem formatBytes_spec (s : Style) (start : Nat) (bytes : List Nat) (hby : ∀ x ∈ bytes, x < 256)
    (offset : Nat) (hle : offset ≤ bytes.length) (he : Even s bytes.length offset) :
    ∃ cells, Column s cells (formatBytes s start bytes offset).1 ∧
      cells.flatMap Cell.bytes = (bytes.drop offset).take (formatBytes s start bytes offset).2 ∧
      offset + (formatBytes s start bytes offset).2 ≤ bytes.length ∧
      (offset < bytes.length → 1 ≤ (formatBytes s start bytes offset).2) ∧
      Even s bytes.length (offset + (formatBytes s start bytes offset).2) := by
  obtain ⟨cells, n, h1, h2, h3, h4, h5, h6⟩ :=
    bytesLoop_spec s (offset + start) bytes hby offset 6 0 0 (by omega) hle he
  have hn : (formatBytes s start bytes offset).2 = n := by
    unfold formatBytes; rw [h2]; omega
  refine ⟨cells, h1, ?_, ?_, ?_, ?_⟩
  · rw [hn]; exact h3
  · rw [hn]; exact h4
  · rw [hn]; intro h; exact h5 h (by omega)
  · rw [hn]; exact h6

end Libasm.Listing
