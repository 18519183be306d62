import Verif.Number.Lemmas
/-
The parsers on text written by the formatters.
-/
namespace Libasm.Number
open Ctype Scan Spec

/-- The first character of `s`, if any, satisfies `P`. -/
def Head (P : Char → Prop) (s : List Char) : Prop := ∀ c, s.head? = some c → P c

theorem head_append {P : Char → Prop} {ds rest : List Char} (h1 : ∀ c ∈ ds, P c)
    (h2 : Head P rest) : Head P (ds ++ rest) := by
  cases ds with
  | nil => exact h2
  | cons c t => intro d hd; injection hd with hd; exact hd ▸ h1 c (List.mem_cons_self ..)

theorem trim_digits {q : Char → Bool} {ds rest : List Char} (h1 : ∀ c ∈ ds, q c = true)
    (h2 : Head (fun c => q c = false) rest) : trimStart q (ds ++ rest) = rest := by
  unfold trimStart
  induction ds with
  | nil =>
    cases rest with
    | nil => rfl
    | cons c t => simp [h2 c rfl]
  | cons c t ih =>
    rw [List.cons_append, List.dropWhile_cons, h1 c (List.mem_cons_self ..)]
    exact ih (fun d hd => h1 d (List.mem_cons_of_mem _ hd))

theorem trim_head {P : Char → Prop} {q : Char → Bool} {ds rest : List Char}
    (h1 : ∀ c ∈ ds, P c) (h2 : Head P rest) (h3 : Head (fun c => q c = false) rest) :
    Head P (trimStart q (ds ++ rest)) := by
  unfold trimStart
  induction ds with
  | nil =>
    cases rest with
    | nil => intro c hc; cases hc
    | cons c t => simp [h3 c rfl]; exact h2
  | cons c t ih =>
    rw [List.cons_append, List.dropWhile_cons]
    cases q c with
    | true => exact ih (fun d hd => h1 d (List.mem_cons_of_mem _ hd))
    | false =>
      intro d hd
      injection hd with hd
      exact hd ▸ h1 c (List.mem_cons_self ..)

theorem expectP_tail {q : Char → Bool} {c : Char} {t p : List Char}
    (h : expectP q (c :: t) = some p) : p = t := by
  simp only [expectP] at h
  split at h
  · injection h with h; exact h.symm
  · cases h

theorem iexpect_none {c : Char} {s : List Char}
    (h : Head (fun d => toUpper d ≠ toUpper c) s) : iexpect c s = none := by
  cases s with
  | nil => rfl
  | cons d t =>
    have := h d rfl
    simp [iexpect, expectP, this]

theorem iexpect_some {c d : Char} {t : List Char} (h : toUpper d = toUpper c) :
    iexpect c (d :: t) = some t := by
  simp [iexpect, expectP, h]

theorem expect_none {c : Char} {s : List Char} (h : Head (fun d => d ≠ c) s) :
    expect c s = none := by
  cases s with
  | nil => rfl
  | cons d t => have := h d rfl; simp [expect, expectP, this]

theorem expect_some {c : Char} {t : List Char} : expect c (c :: t) = some t := by
  simp [expect, expectP]

/-- The suffix and prefix letters of the number styles. -/
def marks : List Char := ['H', 'O', 'Q', 'B', 'D', 'X', '.', 'x', 'b']

theorem toUpper_of_not_lower {d : Char} (h : ¬ (97 ≤ d.toNat ∧ d.toNat ≤ 122)) : toUpper d = d := by
  have : isLower d = false := by
    cases h2 : isLower d with
    | false => rfl
    | true =>
      simp only [isLower, Bool.and_eq_true, decide_eq_true_eq] at h2
      exact absurd h2 h
  simp [toUpper, this]

theorem ends_mark {rest : List Char} (h : Ends rest) {m : Char} (hm : m ∈ marks) :
    Head (fun d => toUpper d ≠ toUpper m) rest := by
  intro d hd heq
  obtain ⟨h1, h2, h3, _, h5⟩ := h d hd
  rw [toUpper_of_not_lower h3] at heq
  have hm' : toUpper m = '.' ∨ (65 ≤ (toUpper m).toNat ∧ (toUpper m).toNat ≤ 90) := by
    have : ∀ m ∈ marks, toUpper m = '.' ∨ (65 ≤ (toUpper m).toNat ∧ (toUpper m).toNat ≤ 90) := by
      decide
    exact this m hm
  rw [← heq] at hm'
  cases hm' with
  | inl h => exact h5 h
  | inr h => exact h2 h

theorem digit10_mark {d : Char} (h : IsDigit 10 d) {m : Char} (hm : m ∈ marks) :
    toUpper d ≠ toUpper m := by
  exact Ctype.ascii (p := fun d => IsDigit 10 d → ∀ m ∈ marks, toUpper d ≠ toUpper m)
    (by decide +kernel) d (digit_ascii h) h m hm

theorem digit_mono {a b : Nat} (hab : a ≤ b) {c : Char} (h : IsDigit a c) : IsDigit b c := by
  obtain ⟨d, h1, h2⟩ := h
  exact ⟨d, h1, by omega⟩

theorem ends_digit {rest : List Char} (h : Ends rest) (r : Radix) :
    Head (fun c => ¬ IsDigit r.toNat c) rest := by
  intro c hc hd
  obtain ⟨h1, h2, h3, _, _⟩ := h c hc
  obtain ⟨d, hd, _⟩ := hd
  unfold digitVal at hd
  rw [if_neg h1, if_neg (by omega), if_neg (by omega)] at hd
  cases hd

theorem ends_digitOf {rest : List Char} (h : Ends rest) (r : Radix) :
    Head (fun c => isDigitOf r c = false) rest :=
  fun c hc => isDigitOf_false r c (ends_digit h r c hc)

/-- A run of decimal digits followed by neither a suffix nor a period has no suffix. -/
theorem no_suffix {ds rest : List Char} (h1 : ∀ c ∈ ds, IsDigit 10 c) (h2 : Ends rest)
    (r : Radix) {m : Char} (hm : m ∈ marks) : scanNumberEnd (ds ++ rest) r (some m) = none := by
  have key : iexpect m (trimStart (isDigitOf r) (ds ++ rest)) = none :=
    iexpect_none (trim_head (fun c hc => digit10_mark (h1 c hc) hm) (ends_mark h2 hm)
      (ends_digitOf h2 r))
  unfold scanNumberEnd
  simp only [key, ite_self]

theorem intel_plain {ds rest : List Char} (h1 : ∀ c ∈ ds, IsDigit 10 c) (h2 : Ends rest)
    (dflt : Radix) : intelParse (ds ++ rest) dflt = cstyleParse (ds ++ rest) dflt := by
  have hs : intelSuffix (ds ++ rest) = none := by
    unfold intelSuffix
    rw [no_suffix h1 h2 .r16 (m := 'H') (by decide), no_suffix h1 h2 .r8 (m := 'O') (by decide),
      no_suffix h1 h2 .r8 (m := 'Q') (by decide), no_suffix h1 h2 .r2 (m := 'B') (by decide),
      no_suffix h1 h2 .r10 (m := 'D') (by decide)]
  unfold intelParse
  rw [hs]

theorem wide {v : Nat} (h : v < 2 ^ 32) : v < 2 ^ 64 := Nat.lt_trans h (by decide)

/-- Reading the digits of a numeral that fits in 64 bits. -/
theorem read_numeral {r : Radix} {v : Nat} {ds rest : List Char} (h : Numeral r.toNat v ds)
    (hv : v < 2 ^ 64) (hrest : Head (fun c => ¬ IsDigit r.toNat c) rest) :
    read r (ds ++ rest) = (.OK, ⟨v, .unsigned⟩, rest) := by
  rw [read_digits r ds rest h.ne h.digits hrest, h.value,
    if_pos hv]

theorem advance_ok (s : Scan) (v : Value) (rest : Scan) :
    advance s (.OK, v, rest) = (.OK, v, rest) := rfl

/-! ### C-style numbers -/

theorem cstyle_hex' {x : Char} (hx : toUpper x = 'X') {v : Nat} {ds rest : List Char}
    (h : Numeral 16 v ds) (hv : v < 2 ^ 64) (h2 : Ends rest) (dflt : Radix) :
    cstyleParse ('0' :: x :: (ds ++ rest)) dflt = (.OK, ⟨v, .unsigned⟩, rest) := by
  have hp : cstylePrefix ('0' :: x :: (ds ++ rest)) dflt = some (.r16, ds ++ rest) := by
    have e1 : iexpectText ['0', 'x'] ('0' :: x :: (ds ++ rest)) = some (ds ++ rest) := by
      show (iexpect 'x' (x :: (ds ++ rest))).bind (iexpectText []) = _
      rw [iexpect_some (by rw [hx]; decide)]; rfl
    unfold cstylePrefix
    rw [e1]
  unfold cstyleParse
  rw [hp]
  show advance _ (read .r16 (ds ++ rest)) = _
  rw [read_numeral (r := .r16) h hv (ends_digit h2 .r16), advance_ok]

theorem cstyle_hex {v : Nat} {ds rest : List Char} (h : Numeral 16 v ds) (hv : v < 2 ^ 64)
    (h2 : Ends rest) (dflt : Radix) :
    cstyleParse ('0' :: 'x' :: (ds ++ rest)) dflt = (.OK, ⟨v, .unsigned⟩, rest) :=
  cstyle_hex' (by decide) h hv h2 dflt

theorem digit_ne_x {d : Char} {b : Nat} (h : IsDigit b d) : toUpper d ≠ toUpper 'x' := by
  obtain ⟨e, he, _⟩ := h
  have hlt : e < 16 := by
    unfold digitVal at he
    split at he
    · cases he; omega
    split at he
    · cases he; omega
    split at he
    · cases he; omega
    · cases he
  exact Ctype.ascii (p := fun d => IsDigit 16 d → toUpper d ≠ toUpper 'x')
    (by decide +kernel) d (digit_ascii ⟨e, he, hlt⟩) ⟨e, he, hlt⟩

theorem cstyle_bin' {x : Char} (hx : toUpper x = 'B') {v : Nat} {ds rest : List Char}
    (h : Numeral 2 v ds) (hv : v < 2 ^ 64) (h2 : Ends rest) (dflt : Radix) :
    cstyleParse ('0' :: x :: (ds ++ rest)) dflt = (.OK, ⟨v, .unsigned⟩, rest) := by
  have hp : cstylePrefix ('0' :: x :: (ds ++ rest)) dflt = some (.r2, ds ++ rest) := by
    have e1 : iexpectText ['0', 'x'] ('0' :: x :: (ds ++ rest)) = none := by
      show (iexpect 'x' (x :: (ds ++ rest))).bind (iexpectText []) = none
      rw [iexpect_none (by intro d hd; injection hd with hd; subst hd; rw [hx]; decide)]; rfl
    have e2 : iexpectText ['0', 'b'] ('0' :: x :: (ds ++ rest)) = some (ds ++ rest) := by
      show (iexpect 'b' (x :: (ds ++ rest))).bind (iexpectText []) = _
      rw [iexpect_some (by rw [hx]; decide)]; rfl
    unfold cstylePrefix
    rw [e1, e2]
  unfold cstyleParse
  rw [hp]
  show advance _ (read .r2 (ds ++ rest)) = _
  rw [read_numeral (r := .r2) h hv (ends_digit h2 .r2), advance_ok]

theorem cstyle_bin {v : Nat} {ds rest : List Char} (h : Numeral 2 v ds) (hv : v < 2 ^ 64)
    (h2 : Ends rest) (dflt : Radix) :
    cstyleParse ('0' :: 'b' :: (ds ++ rest)) dflt = (.OK, ⟨v, .unsigned⟩, rest) :=
  cstyle_bin' (by decide) h hv h2 dflt

/-- A run of decimal digits has neither of the prefixes 0x and 0b. -/
theorem cstyle_noprefix {ds rest : List Char} (h1 : ∀ c ∈ ds, IsDigit 10 c) (h2 : Ends rest)
    {m : Char} (hm : m ∈ marks) : iexpectText ['0', m] (ds ++ rest) = none := by
  unfold iexpectText
  cases h0 : iexpect '0' (ds ++ rest) with
  | none => rfl
  | some p =>
    show iexpectText [m] p = none
    have hp : Head (fun d => toUpper d ≠ toUpper m) p := by
      cases ds with
      | nil =>
        exfalso
        have : iexpect '0' rest = none := by
          apply iexpect_none
          intro d hd heq
          obtain ⟨n1, n2, n3, _, _⟩ := h2 d hd
          rw [toUpper_of_not_lower n3] at heq
          have : d.toNat = 48 := by rw [heq]; decide
          omega
        rw [List.nil_append, this] at h0
        cases h0
      | cons c t =>
        have : p = t ++ rest := by
          rw [List.cons_append] at h0
          exact expectP_tail h0
        rw [this]
        exact head_append (fun d hd => digit10_mark (h1 d (List.mem_cons_of_mem _ hd)) hm)
          (ends_mark h2 hm)
    unfold iexpectText
    rw [iexpect_none hp]
    rfl

theorem isOctal_digit {c : Char} (h : IsDigit 8 c) : isOctal c = true := (isDigitOf_iff .r8 c).2 h

theorem not_octal {c : Char} (h : ¬ IsDigit 8 c) : isOctal c = false := isDigitOf_false .r8 c h

theorem cstyle_oct {v : Nat} {ds rest : List Char} (h : Numeral 8 v ds) (hv : v < 2 ^ 64)
    (h2 : Ends rest) (dflt : Radix) :
    cstyleParse ('0' :: (ds ++ rest)) dflt = (.OK, ⟨v, .unsigned⟩, rest) := by
  have h10 : ∀ c ∈ '0' :: ds, IsDigit 10 c := by
    intro c hc
    cases hc with
    | head => exact isDigit_zero 10 (by decide)
    | tail _ hc => exact digit_mono (by decide) (h.digits c hc)
  have hp : cstylePrefix ('0' :: (ds ++ rest)) dflt = some (.r8, '0' :: (ds ++ rest)) := by
    unfold cstylePrefix
    have e1 := cstyle_noprefix h10 h2 (m := 'x') (by decide)
    have e2 := cstyle_noprefix h10 h2 (m := 'b') (by decide)
    rw [List.cons_append] at e1 e2
    rw [e1, e2]
    have : isOctal (at' ('0' :: (ds ++ rest)) 1) = true := by
      obtain ⟨c, t, ht⟩ := List.exists_cons_of_ne_nil h.ne
      rw [ht]
      exact isOctal_digit (h.digits c (by rw [ht]; exact List.mem_cons_self ..))
    simp only [this]
    rfl
  have hn : Numeral 8 v ('0' :: ds) := by
    refine ⟨List.cons_ne_nil _ _, ?_, ?_⟩
    · intro c hc
      cases hc with
      | head => exact isDigit_zero 8 (by decide)
      | tail _ hc => exact h.digits c hc
    · rw [← h.value]; rfl
  unfold cstyleParse
  rw [hp]
  show advance _ (read .r8 ('0' :: (ds ++ rest))) = _
  rw [← List.cons_append, read_numeral (r := .r8) hn hv (ends_digit h2 .r8), advance_ok]

/-- Digits of the default radix, not an octal number with a leading zero. -/
theorem cstyle_default {dflt : Radix} {v : Nat} {ds rest : List Char}
    (h : Numeral dflt.toNat v ds) (h10 : dflt.toNat ≤ 10)
    (hz : ds = ['0'] ∨ (∃ c l, ds = c :: l ∧ c ≠ '0') ∨ dflt = .r8)
    (hv : v < 2 ^ 64) (h2 : Ends rest) :
    cstyleParse (ds ++ rest) dflt = (.OK, ⟨v, .unsigned⟩, rest) := by
  have hd10 : ∀ c ∈ ds, IsDigit 10 c := fun c hc => digit_mono h10 (h.digits c hc)
  have hp : cstylePrefix (ds ++ rest) dflt = some (dflt, ds ++ rest) := by
    unfold cstylePrefix
    rw [cstyle_noprefix hd10 h2 (m := 'x') (by decide),
      cstyle_noprefix hd10 h2 (m := 'b') (by decide)]
    obtain ⟨c, t, ht⟩ := List.exists_cons_of_ne_nil h.ne
    have hdef : isDigitOf dflt (deref (ds ++ rest)) = true := by
      rw [ht]
      exact (isDigitOf_iff dflt c).2 (h.digits c (by rw [ht]; exact List.mem_cons_self ..))
    by_cases ho : deref (ds ++ rest) = '0' ∧ isOctal (at' (ds ++ rest) 1) = true
    · cases hz with
      | inl hz =>
        exfalso
        rw [hz] at ho
        have h1 : at' (['0'] ++ rest) 1 = deref rest := by cases rest <;> rfl
        rw [h1] at ho
        cases rest with
        | nil => exact absurd ho.2 (by decide)
        | cons d u =>
          have := ends_digit h2 .r8 d rfl
          have h3 := not_octal this
          have h4 : isOctal d = true := ho.2
          rw [h3] at h4
          cases h4
      | inr hz =>
        cases hz with
        | inl hz =>
          obtain ⟨c, l, hc, hne⟩ := hz
          rw [hc] at ho
          exact absurd ho.1 hne
        | inr hz => simp only [if_pos ho, hz]
    · simp only [if_neg ho, if_pos hdef]
  unfold cstyleParse
  rw [hp]
  show advance _ (read dflt (ds ++ rest)) = _
  rw [read_numeral h hv (ends_digit h2 dflt), advance_ok]

/-! ### Intel numbers -/

theorem intel_cstyle_hex {ds rest : List Char} (dflt : Radix) :
    intelParse ('0' :: 'x' :: (ds ++ rest)) dflt = cstyleParse ('0' :: 'x' :: (ds ++ rest)) dflt := by
  have key : ∀ r m, m ≠ 'X' → m ∈ marks → m ≠ 'x' →
      scanNumberEnd ('0' :: 'x' :: (ds ++ rest)) r (some m) = none := by
    intro r m h1 h2 h3
    have ht : trimStart (isDigitOf r) ('0' :: 'x' :: (ds ++ rest)) = 'x' :: (ds ++ rest) := by
      unfold trimStart
      rw [List.dropWhile_cons, List.dropWhile_cons]
      cases r <;> rfl
    have : iexpect m ('x' :: (ds ++ rest)) = none := by
      apply iexpect_none
      intro d hd
      injection hd with hd
      subst hd
      revert h1 h3
      revert h2 m
      decide
    unfold scanNumberEnd
    rw [ht]
    simp only [this, ite_self]
  have hs : intelSuffix ('0' :: 'x' :: (ds ++ rest)) = none := by
    unfold intelSuffix
    rw [key .r16 'H' (by decide) (by decide) (by decide),
      key .r8 'O' (by decide) (by decide) (by decide),
      key .r8 'Q' (by decide) (by decide) (by decide),
      key .r2 'B' (by decide) (by decide) (by decide),
      key .r10 'D' (by decide) (by decide) (by decide)]
  unfold intelParse
  rw [hs]

theorem binary_digit {c : Char} (h : IsDigit 2 c) : c = '0' ∨ c = '1' :=
  Ctype.ascii (p := fun c => IsDigit 2 c → c = '0' ∨ c = '1')
    (by decide +kernel) c (digit_ascii h) h

theorem cBinary_true {ds rest : List Char} {v : Nat} (h : Numeral 2 v ds) :
    cBinary ('0' :: 'b' :: (ds ++ rest)) = true := by
  unfold cBinary
  rw [expect_some]
  show (match iexpect 'B' ('b' :: (ds ++ rest)) with
    | none => false | some p => isBinary (deref p)) = true
  rw [iexpect_some (by decide)]
  obtain ⟨c, t, ht⟩ := List.exists_cons_of_ne_nil h.ne
  rw [ht]
  show isBinary c = true
  have := binary_digit (h.digits c (by rw [ht]; exact List.mem_cons_self ..))
  cases this with
  | inl h => rw [h]; decide
  | inr h => rw [h]; decide

theorem intel_cstyle_bin {v : Nat} {ds rest : List Char} (h : Numeral 2 v ds) (h2 : Ends rest)
    (dflt : Radix) :
    intelParse ('0' :: 'b' :: (ds ++ rest)) dflt = cstyleParse ('0' :: 'b' :: (ds ++ rest)) dflt := by
  have khex : scanNumberEnd ('0' :: 'b' :: (ds ++ rest)) .r16 (some 'H') = none := by
    have hall : ∀ c ∈ '0' :: 'b' :: ds, isDigitOf .r16 c = true := by
      intro c hc
      cases hc with
      | head => decide
      | tail _ hc =>
        cases hc with
        | head => decide
        | tail _ hc =>
          exact (isDigitOf_iff .r16 c).2 (digit_mono (by decide) (h.digits c hc))
    have ht := trim_digits (rest := rest) hall (ends_digitOf h2 .r16)
    rw [List.cons_append, List.cons_append] at ht
    unfold scanNumberEnd
    rw [ht]
    simp only [iexpect_none (ends_mark h2 (m := 'H') (by decide)), ite_self]
  have key : ∀ r m, (r = .r8 ∨ r = .r10) → (m = 'O' ∨ m = 'Q' ∨ m = 'D') →
      scanNumberEnd ('0' :: 'b' :: (ds ++ rest)) r (some m) = none := by
    intro r m hr hm
    have ht : trimStart (isDigitOf r) ('0' :: 'b' :: (ds ++ rest)) = 'b' :: (ds ++ rest) := by
      unfold trimStart
      rw [List.dropWhile_cons, List.dropWhile_cons]
      cases hr with
      | inl hr => subst hr; rfl
      | inr hr => subst hr; rfl
    have : iexpect m ('b' :: (ds ++ rest)) = none := by
      apply iexpect_none
      intro d hd
      injection hd with hd
      subst hd
      rcases hm with hm | hm | hm <;> subst hm <;> decide
    unfold scanNumberEnd
    rw [ht]
    simp only [this, ite_self]
  have kbin : scanNumberEnd ('0' :: 'b' :: (ds ++ rest)) .r2 (some 'B') = none := by
    unfold scanNumberEnd
    rw [if_pos ⟨rfl, rfl, cBinary_true h⟩]
  have hs : intelSuffix ('0' :: 'b' :: (ds ++ rest)) = none := by
    unfold intelSuffix
    rw [khex, key .r8 'O' (Or.inl rfl) (Or.inl rfl), key .r8 'Q' (Or.inl rfl) (Or.inr (Or.inl rfl)),
      kbin, key .r10 'D' (Or.inr rfl) (Or.inr (Or.inr rfl))]
  unfold intelParse
  rw [hs]

/-- A suffix that the digits run up to. -/
theorem suffix_hit {r : Radix} {v : Nat} {ds rest : List Char} {c m : Char}
    (h : Numeral r.toNat v ds) (hc : toUpper c = toUpper m) (hnd : isDigitOf r c = false)
    (hb : cBinary (ds ++ c :: rest) = false ∨ r ≠ .r2)
    (hd : r = .r16 → isDigitOf .r10 (ds.headD '0') = true) :
    scanNumberEnd (ds ++ c :: rest) r (some m) = some rest := by
  have ht : trimStart (isDigitOf r) (ds ++ c :: rest) = c :: rest :=
    trim_digits (fun d hd => (isDigitOf_iff r d).2 (h.digits d hd))
      (by intro d hd; injection hd with hd; exact hd ▸ hnd)
  obtain ⟨e, t, he⟩ := List.exists_cons_of_ne_nil h.ne
  have hdig : isDigitOf r (deref (ds ++ c :: rest)) = true := by
    rw [he]; exact (isDigitOf_iff r e).2 (h.digits e (by rw [he]; exact List.mem_cons_self ..))
  have hdec : ¬ (r = .r16 ∧ isDigitOf .r10 (deref (ds ++ c :: rest)) = false) := by
    rintro ⟨h1, h2⟩
    have := hd h1
    rw [he] at this h2
    have h3 : isDigitOf .r10 e = true := this
    have h4 : isDigitOf .r10 e = false := h2
    rw [h3] at h4
    cases h4
  unfold scanNumberEnd
  rw [ht, if_neg (by rintro ⟨h1, _, h3⟩; cases hb with
    | inl hb => rw [hb] at h3; cases h3
    | inr hb => exact hb h1), if_pos hdig, if_neg hdec]
  exact iexpect_some hc

/-- Another suffix letter than the one that is there. -/
theorem suffix_miss {r : Radix} {ds rest : List Char} {c m : Char}
    (h : ∀ d ∈ ds, isDigitOf r d = true) (hc : toUpper c ≠ toUpper m)
    (hnd : isDigitOf r c = false) : scanNumberEnd (ds ++ c :: rest) r (some m) = none := by
  have ht : trimStart (isDigitOf r) (ds ++ c :: rest) = c :: rest :=
    trim_digits h (by intro d hd; injection hd with hd; exact hd ▸ hnd)
  have : iexpect m (c :: rest) = none :=
    iexpect_none (by intro d hd; injection hd with hd; exact hd ▸ hc)
  unfold scanNumberEnd
  rw [ht]
  simp only [this, ite_self]

theorem intelRead_ok {r : Radix} {v : Nat} {ds rest : List Char} {c : Char}
    (h : Numeral r.toNat v ds) (hv : v < 2 ^ 64) (hnd : ¬ IsDigit r.toNat c) :
    intelRead (ds ++ c :: rest) r rest = (.OK, ⟨v, .unsigned⟩, rest) := by
  unfold intelRead
  rw [read_numeral h hv (by intro d hd; injection hd with hd; exact hd ▸ hnd)]
  rfl

theorem intel_hex {v : Nat} {ds rest : List Char} {c : Char} (h : Numeral 16 v ds)
    (hd : isDigitOf .r10 (ds.headD '0') = true) (hc : c = 'H' ∨ c = 'h') (hv : v < 2 ^ 64)
    (dflt : Radix) : intelParse (ds ++ c :: rest) dflt = (.OK, ⟨v, .unsigned⟩, rest) := by
  have hs : intelSuffix (ds ++ c :: rest) = some (.r16, rest) := by
    unfold intelSuffix
    rw [suffix_hit (r := .r16) h (by rcases hc with hc | hc <;> subst hc <;> decide)
      (by rcases hc with hc | hc <;> subst hc <;> decide) (Or.inr (by decide)) (fun _ => hd)]
  unfold intelParse
  rw [hs]
  exact intelRead_ok (r := .r16) h hv (by rcases hc with hc | hc <;> subst hc <;> decide)

theorem digit_to16 {r : Radix} {ds : List Char} (h : ∀ c ∈ ds, IsDigit r.toNat c) :
    ∀ c ∈ ds, isDigitOf .r16 c = true := fun c hc =>
  (isDigitOf_iff .r16 c).2 (digit_mono (by have := radix_pos r; exact this.2) (h c hc))

theorem intel_oct {v : Nat} {ds rest : List Char} {c : Char} (h : Numeral 8 v ds)
    (hc : c = 'Q' ∨ c = 'q') (hv : v < 2 ^ 64)
    (dflt : Radix) : intelParse (ds ++ c :: rest) dflt = (.OK, ⟨v, .unsigned⟩, rest) := by
  have hd : ∀ d ∈ ds, isDigitOf .r8 d = true := fun d hd => (isDigitOf_iff .r8 d).2 (h.digits d hd)
  have hs : intelSuffix (ds ++ c :: rest) = some (.r8, rest) := by
    unfold intelSuffix
    rw [suffix_miss (r := .r16) (digit_to16 (r := .r8) h.digits)
        (by rcases hc with hc | hc <;> subst hc <;> decide)
        (by rcases hc with hc | hc <;> subst hc <;> decide),
      suffix_miss (r := .r8) (m := 'O') hd (by rcases hc with hc | hc <;> subst hc <;> decide)
        (by rcases hc with hc | hc <;> subst hc <;> decide),
      suffix_hit (r := .r8) (m := 'Q') h (by rcases hc with hc | hc <;> subst hc <;> decide)
        (by rcases hc with hc | hc <;> subst hc <;> decide) (Or.inr (by decide))
        (fun h => by cases h)]
  unfold intelParse
  rw [hs]
  exact intelRead_ok (r := .r8) h hv (by rcases hc with hc | hc <;> subst hc <;> decide)

theorem cBinary_false {ds rest : List Char} {c : Char} (h : ∀ d ∈ ds, IsDigit 2 d)
    (hc : c = 'B' ∨ c = 'b') (h2 : Ends rest) : cBinary (ds ++ c :: rest) = false := by
  unfold cBinary
  cases h0 : expect '0' (ds ++ c :: rest) with
  | none => rfl
  | some p =>
    show (match iexpect 'B' p with | none => false | some p => isBinary (deref p)) = false
    cases ds with
    | nil =>
      have : expect '0' (c :: rest) = none := by
        apply expect_none
        intro d hd
        injection hd with hd
        subst hd
        rcases hc with hc | hc <;> subst hc <;> decide
      rw [List.nil_append, this] at h0
      cases h0
    | cons d t =>
      have hp : p = t ++ c :: rest := by
        rw [List.cons_append] at h0
        exact expectP_tail h0
      subst hp
      cases t with
      | nil =>
        rw [List.nil_append, iexpect_some (by rcases hc with hc | hc <;> subst hc <;> decide)]
        show isBinary (deref rest) = false
        cases rest with
        | nil => decide
        | cons e u =>
          have := ends_digit h2 .r2 e rfl
          show isBinary e = false
          cases hb : isBinary e with
          | false => rfl
          | true =>
            exfalso
            simp only [isBinary, Bool.or_eq_true, beq_iff_eq] at hb
            rcases hb with hb | hb <;> subst hb <;> exact this (by decide)
      | cons e u =>
        have he := digit10_mark (digit_mono (a := 2) (b := 10) (by decide)
          (h e (List.mem_cons_of_mem _ (List.mem_cons_self ..)))) (m := 'B') (by decide)
        rw [List.cons_append, iexpect_none (by intro d hd; injection hd with hd; exact hd ▸ he)]

theorem intel_bin {v : Nat} {ds rest : List Char} {c : Char} (h : Numeral 2 v ds)
    (hc : c = 'B' ∨ c = 'b') (hv : v < 2 ^ 64) (h2 : Ends rest)
    (dflt : Radix) : intelParse (ds ++ c :: rest) dflt = (.OK, ⟨v, .unsigned⟩, rest) := by
  have hd8 : ∀ d ∈ ds, isDigitOf .r8 d = true :=
    fun d hd => (isDigitOf_iff .r8 d).2 (digit_mono (by decide) (h.digits d hd))
  have khex : scanNumberEnd (ds ++ c :: rest) .r16 (some 'H') = none := by
    have hall : ∀ d ∈ ds ++ [c], isDigitOf .r16 d = true := by
      intro d hd
      rw [List.mem_append] at hd
      cases hd with
      | inl hd => exact digit_to16 (r := .r2) h.digits d hd
      | inr hd =>
        rw [List.mem_singleton] at hd
        subst hd
        rcases hc with hc | hc <;> subst hc <;> decide
    have ht := trim_digits (rest := rest) hall (ends_digitOf h2 .r16)
    rw [List.append_assoc, List.singleton_append] at ht
    unfold scanNumberEnd
    rw [ht]
    simp only [iexpect_none (ends_mark h2 (m := 'H') (by decide)), ite_self]
  have hs : intelSuffix (ds ++ c :: rest) = some (.r2, rest) := by
    unfold intelSuffix
    rw [khex,
      suffix_miss (r := .r8) (m := 'O') hd8 (by rcases hc with hc | hc <;> subst hc <;> decide)
        (by rcases hc with hc | hc <;> subst hc <;> decide),
      suffix_miss (r := .r8) (m := 'Q') hd8 (by rcases hc with hc | hc <;> subst hc <;> decide)
        (by rcases hc with hc | hc <;> subst hc <;> decide),
      suffix_hit (r := .r2) (m := 'B') h (by rcases hc with hc | hc <;> subst hc <;> decide)
        (by rcases hc with hc | hc <;> subst hc <;> decide)
        (Or.inl (cBinary_false h.digits hc h2)) (fun h => by cases h)]
  unfold intelParse
  rw [hs]
  exact intelRead_ok (r := .r2) h hv (by rcases hc with hc | hc <;> subst hc <;> decide)

/-- What SuffixHexFormatter writes before the suffix: a numeral starting with a decimal digit. -/
theorem suffixHex_numeral (suffix : Char) (up : Bool) (v w : Nat) (hv : v < 2 ^ 32) (hw : 1 ≤ w) :
    ∃ ds, fmtSuffixHex suffix up v w = ds ++ [letter up suffix] ∧ Numeral 16 v ds ∧
      isDigitOf .r10 (ds.headD '0') = true := by
  have hn := fmtHex_numeral up v w hv hw
  unfold fmtHex at hn
  unfold fmtSuffixHex
  generalize (outHex v w).map (letter up) = l at *
  obtain ⟨l0, e, rfl⟩ : ∃ l0 e, l = l0 ++ [e] := by
    cases hl : l.reverse with
    | nil => exact absurd hl hn.ne
    | cons e t => exact ⟨t.reverse, e, by rw [← List.reverse_reverse l, hl, List.reverse_cons]⟩
  have hlast : (l0 ++ [e]).getLastD '0' = e := by simp [List.getLastD_eq_getLast?]
  have he : IsDigit 16 e := hn.digits e (by simp)
  show ∃ ds, (if 57 < ((l0 ++ [e]).getLastD '0').toNat then (l0 ++ [e]) ++ [letter up '0']
    else l0 ++ [e]).reverse ++ [letter up suffix] = ds ++ [letter up suffix] ∧ _ ∧ _
  rw [hlast, letter_zero]
  by_cases h57 : 57 < e.toNat
  · refine ⟨'0' :: (l0 ++ [e]).reverse, ?_, ⟨List.cons_ne_nil _ _, ?_, ?_⟩, rfl⟩
    · rw [if_pos h57]; simp
    · intro c hc
      cases hc with
      | head => exact isDigit_zero 16 (by decide)
      | tail _ hc => exact hn.digits c hc
    · rw [← hn.value]; rfl
  · refine ⟨(l0 ++ [e]).reverse, ?_, hn, ?_⟩
    · rw [if_neg h57]
    · have h0 : ((l0 ++ [e]).reverse).headD '0' = e := by simp
      rw [h0]
      exact Ctype.ascii (p := fun e => IsDigit 16 e → ¬ 57 < e.toNat → isDigitOf .r10 e = true)
        (by decide +kernel) e (digit_ascii he) he h57

end Libasm.Number
