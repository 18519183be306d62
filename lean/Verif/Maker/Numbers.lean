import Verif.Maker.Run
import Verif.Number.Styles
/-
The number parsers of the library read the numbers of the notations.
-/
namespace Libasm.Maker
open Scan Number Number.Spec Ctype Eval
open Eval.Spec (Literal IsLetter IsDecimal)

/-! ### Numbers of C under every parser -/

theorem nat_toUpper {x : Char} {n : Nat} (h : toUpper x = Char.ofNat n) (hn : 65 ≤ n ∧ n ≤ 90) :
    x = Char.ofNat n ∨ x = Char.ofNat (n + 32) := by
  unfold toUpper isLower at h
  by_cases hx : 97 ≤ x.toNat ∧ x.toNat ≤ 122
  · rw [if_pos (by simp [hx.1, hx.2])] at h
    have h' := congrArg Char.toNat h
    have e1 : (Char.ofNat (x.toNat - 32)).toNat = x.toNat - 32 := by
      rw [Char.ofNat, dif_pos (by unfold Nat.isValidChar; omega)]; rfl
    have e2 : (Char.ofNat n).toNat = n := by
      rw [Char.ofNat, dif_pos (by unfold Nat.isValidChar; omega)]; rfl
    rw [e1, e2] at h'
    right
    rw [show n + 32 = x.toNat by omega, Char.ofNat_toNat]
  · rw [if_neg (by simpa using hx)] at h
    exact Or.inl h

/-- No suffix after `0x` or `0X`. -/
theorem intel_chex {x : Char} (hx : x = 'x' ∨ x = 'X') (t : Scan) (dflt : Radix) :
    intelParse ('0' :: x :: t) dflt = cstyleParse ('0' :: x :: t) dflt := by
  have key : ∀ r m, m ∈ ['H', 'O', 'Q', 'B', 'D'] →
      scanNumberEnd ('0' :: x :: t) r (some m) = none := by
    intro r m h2
    have ht : trimStart (isDigitOf r) ('0' :: x :: t) = x :: t := by
      unfold trimStart
      rw [List.dropWhile_cons, List.dropWhile_cons]
      rcases hx with rfl | rfl <;> cases r <;> rfl
    have : iexpect m (x :: t) = none := by
      apply iexpect_none
      intro d hd
      injection hd with hd
      subst hd
      rcases hx with rfl | rfl <;> revert m <;> decide
    unfold scanNumberEnd
    rw [ht]
    simp only [this, ite_self]
  have hs : intelSuffix ('0' :: x :: t) = none := by
    unfold intelSuffix
    rw [key .r16 'H' (by decide), key .r8 'O' (by decide), key .r8 'Q' (by decide),
      key .r2 'B' (by decide), key .r10 'D' (by decide)]
  unfold intelParse
  rw [hs]

theorem intel_cbin {x : Char} (hx : x = 'b' ∨ x = 'B') {v : Nat} {ds rest : List Char}
    (h : Numeral 2 v ds) (h2 : Number.Spec.Ends rest) (dflt : Radix) :
    intelParse ('0' :: x :: (ds ++ rest)) dflt = cstyleParse ('0' :: x :: (ds ++ rest)) dflt := by
  rcases hx with rfl | rfl
  · exact intel_cstyle_bin h h2 dflt
  have khex : scanNumberEnd ('0' :: 'B' :: (ds ++ rest)) .r16 (some 'H') = none := by
    have hall : ∀ c ∈ '0' :: 'B' :: ds, isDigitOf .r16 c = true := by
      intro c hc
      cases hc with
      | head => decide
      | tail _ hc =>
        cases hc with
        | head => decide
        | tail _ hc =>
          exact (isDigitOf_iff .r16 c).2 (digit_mono (by decide) (h.digits c hc))
    have ht := trim_digits (rest := rest) hall (ends_digitOf h2 .r16)
    rw [List.cons_append, List.cons_append] at ht
    unfold scanNumberEnd
    rw [ht]
    simp only [iexpect_none (ends_mark h2 (m := 'H') (by decide)), ite_self]
  have key : ∀ r m, (r = .r8 ∨ r = .r10) → (m = 'O' ∨ m = 'Q' ∨ m = 'D') →
      scanNumberEnd ('0' :: 'B' :: (ds ++ rest)) r (some m) = none := by
    intro r m hr hm
    have ht : trimStart (isDigitOf r) ('0' :: 'B' :: (ds ++ rest)) = 'B' :: (ds ++ rest) := by
      unfold trimStart
      rw [List.dropWhile_cons, List.dropWhile_cons]
      cases hr with
      | inl hr => subst hr; rfl
      | inr hr => subst hr; rfl
    have : iexpect m ('B' :: (ds ++ rest)) = none := by
      apply iexpect_none
      intro d hd
      injection hd with hd
      subst hd
      rcases hm with hm | hm | hm <;> subst hm <;> decide
    unfold scanNumberEnd
    rw [ht]
    simp only [this, ite_self]
  have hcb : cBinary ('0' :: 'B' :: (ds ++ rest)) = true := by
    have := cBinary_true (rest := rest) h
    exact this
  have kbin : scanNumberEnd ('0' :: 'B' :: (ds ++ rest)) .r2 (some 'B') = none := by
    unfold scanNumberEnd
    rw [if_pos ⟨rfl, rfl, hcb⟩]
  have hs : intelSuffix ('0' :: 'B' :: (ds ++ rest)) = none := by
    unfold intelSuffix
    rw [khex, key .r8 'O' (Or.inl rfl) (Or.inl rfl), key .r8 'Q' (Or.inl rfl) (Or.inr (Or.inl rfl)),
      kbin, key .r10 'D' (Or.inr rfl) (Or.inr (Or.inr rfl))]
  unfold intelParse
  rw [hs]

theorem nodot {x : Char} (hx : x ∈ ['x', 'X', 'b', 'B']) (t : Scan) :
    scanNumberEnd ('0' :: x :: t) .r10 (some '.') = none := by
  have ht : trimStart (isDigitOf .r10) ('0' :: x :: t) = x :: t := by
    unfold trimStart; rw [List.dropWhile_cons, List.dropWhile_cons]
    simp only [List.mem_cons, List.not_mem_nil, or_false] at hx
    rcases hx with rfl | rfl | rfl | rfl <;> rfl
  have : iexpect '.' (x :: t) = none := iexpect_none (by
    intro d hd; injection hd with hd; subst hd
    simp only [List.mem_cons, List.not_mem_nil, or_false] at hx
    rcases hx with rfl | rfl | rfl | rfl <;> decide)
  unfold scanNumberEnd
  rw [ht]
  simp only [this, ite_self]

/-- A number of C, under every number parser. -/
theorem literal_all (p : Parser) {n : Nat} {t rest : Scan} (h : Literal n t) (hn : n < 2 ^ 64)
    (hs : Eval.Sep rest) : p.parse (t ++ rest) .r10 = (.OK, ⟨n, .unsigned⟩, rest) := by
  refine Eq.trans ?_ (literal_parse h hn hs)
  by_cases hp : p = .cstyle
  · subst hp; rfl
  cases h with
  | zero => exact all_digits p (by simp) (by decide) hs.ends .r10
  | dec _ hd h0 =>
    exact all_digits p (by obtain ⟨c, u, hc, _⟩ := h0; rw [hc]; simp) hd hs.ends .r10
  | oct ds hd h0 =>
    refine all_digits p (by simp) ?_ hs.ends .r10
    intro c hc
    cases hc with
    | head => exact isDigit_zero 10 (by decide)
    | tail _ hc => exact digit_mono (by decide) (hd c hc)
  | hex x hx ds hd h0 =>
    show p.parse ('0' :: x :: (ds ++ rest)) .r10 = cstyleParse ('0' :: x :: (ds ++ rest)) .r10
    rw [parse_decimal_start p hp _ _ (isDigit_zero 10 (by decide)) .r10
      (nodot (by rcases hx with rfl | rfl <;> decide) _), intel_chex hx]
  | bin x hx ds hd h0 =>
    show p.parse ('0' :: x :: (ds ++ rest)) .r10 = cstyleParse ('0' :: x :: (ds ++ rest)) .r10
    rw [parse_decimal_start p hp _ _ (isDigit_zero 10 (by decide)) .r10
      (nodot (by rcases hx with rfl | rfl <;> decide) _), intel_cbin hx ⟨h0, hd, rfl⟩ hs.ends]

/-! ### Letters after the digits -/

theorem intel_o {v : Nat} {ds rest : List Char} {c : Char} (h : Numeral 8 v ds)
    (hc : c = 'O' ∨ c = 'o') (hv : v < 2 ^ 64)
    (dflt : Radix) : intelParse (ds ++ c :: rest) dflt = (.OK, ⟨v, .unsigned⟩, rest) := by
  have hs : intelSuffix (ds ++ c :: rest) = some (.r8, rest) := by
    unfold intelSuffix
    rw [suffix_miss (r := .r16) (digit_to16 (r := .r8) h.digits)
        (by rcases hc with hc | hc <;> subst hc <;> decide)
        (by rcases hc with hc | hc <;> subst hc <;> decide),
      suffix_hit (r := .r8) (m := 'O') h (by rcases hc with hc | hc <;> subst hc <;> decide)
        (by rcases hc with hc | hc <;> subst hc <;> decide) (Or.inr (by decide))
        (fun h => by cases h)]
  unfold intelParse
  rw [hs]
  exact intelRead_ok (r := .r8) h hv (by rcases hc with hc | hc <;> subst hc <;> decide)

/-- Decimal digits, then a letter that is none of the suffixes of the radix. -/
theorem decimal_miss {r : Radix} {ds rest : List Char} {c m : Char} (h : ∀ d ∈ ds, IsDigit 10 d)
    (hm : m ∈ marks) (hc : toUpper c ≠ toUpper m) (hnd : isDigitOf r c = false) :
    scanNumberEnd (ds ++ c :: rest) r (some m) = none := by
  have key : iexpect m (trimStart (isDigitOf r) (ds ++ c :: rest)) = none :=
    iexpect_none (trim_head (fun d hd => digit10_mark (h d hd) hm)
      (by intro d hd; injection hd with hd; exact hd ▸ hc)
      (by intro d hd; injection hd with hd; exact hd ▸ hnd))
  unfold scanNumberEnd
  simp only [key, ite_self]

theorem intel_d {v : Nat} {ds rest : List Char} {c : Char} (h : Numeral 10 v ds)
    (hc : c = 'D' ∨ c = 'd') (hv : v < 2 ^ 64) (h2 : Number.Spec.Ends rest)
    (dflt : Radix) : intelParse (ds ++ c :: rest) dflt = (.OK, ⟨v, .unsigned⟩, rest) := by
  have khex : scanNumberEnd (ds ++ c :: rest) .r16 (some 'H') = none := by
    have hall : ∀ d ∈ ds ++ [c], isDigitOf .r16 d = true := by
      intro d hd
      rw [List.mem_append] at hd
      cases hd with
      | inl hd => exact digit_to16 (r := .r10) h.digits d hd
      | inr hd =>
        rw [List.mem_singleton] at hd
        subst hd
        rcases hc with hc | hc <;> subst hc <;> decide
    have ht := trim_digits (rest := rest) hall (ends_digitOf h2 .r16)
    rw [List.append_assoc, List.singleton_append] at ht
    unfold scanNumberEnd
    rw [ht]
    simp only [iexpect_none (ends_mark h2 (m := 'H') (by decide)), ite_self]
  have hs : intelSuffix (ds ++ c :: rest) = some (.r10, rest) := by
    unfold intelSuffix
    rw [khex,
      decimal_miss (r := .r8) (m := 'O') h.digits (by decide)
        (by rcases hc with hc | hc <;> subst hc <;> decide)
        (by rcases hc with hc | hc <;> subst hc <;> decide),
      decimal_miss (r := .r8) (m := 'Q') h.digits (by decide)
        (by rcases hc with hc | hc <;> subst hc <;> decide)
        (by rcases hc with hc | hc <;> subst hc <;> decide),
      decimal_miss (r := .r2) (m := 'B') h.digits (by decide)
        (by rcases hc with hc | hc <;> subst hc <;> decide)
        (by rcases hc with hc | hc <;> subst hc <;> decide),
      suffix_hit (r := .r10) (m := 'D') h (by rcases hc with hc | hc <;> subst hc <;> decide)
        (by rcases hc with hc | hc <;> subst hc <;> decide) (Or.inr (by decide))
        (fun h => by cases h)]
  unfold intelParse
  rw [hs]
  exact intelRead_ok (r := .r10) h hv (by rcases hc with hc | hc <;> subst hc <;> decide)

/-- The suffixes of the Intel parser. -/
theorem intel_suffix {x : Char} {b : Nat} {ds rest : List Char} (hx : (x, b) ∈ suffixLetters)
    (h : ∀ c ∈ ds, IsDigit b c) (h0 : ∃ c t, ds = c :: t ∧ IsDigit 10 c)
    (hv : valueOf b ds < 2 ^ 64) (h2 : Number.Spec.Ends rest) :
    intelParse (ds ++ x :: rest) .r10 = (.OK, ⟨valueOf b ds, .unsigned⟩, rest) := by
  have hne : ds ≠ [] := by obtain ⟨c, t, hc, _⟩ := h0; rw [hc]; simp
  simp only [suffixLetters, List.mem_cons, List.not_mem_nil, or_false, Prod.mk.injEq] at hx
  have hhex : b = 16 → isDigitOf .r10 (ds.headD '0') = true := by
    intro _
    obtain ⟨c, t, hc, hd⟩ := h0
    rw [hc]
    exact (isDigitOf_iff .r10 c).2 hd
  rcases hx with ⟨rfl, rfl⟩ | ⟨rfl, rfl⟩ | ⟨rfl, rfl⟩ | ⟨rfl, rfl⟩ | ⟨rfl, rfl⟩ | ⟨rfl, rfl⟩ |
    ⟨rfl, rfl⟩ | ⟨rfl, rfl⟩ | ⟨rfl, rfl⟩ | ⟨rfl, rfl⟩
  · exact intel_hex ⟨hne, h, rfl⟩ (hhex rfl) (.inl rfl) hv .r10
  · exact intel_hex ⟨hne, h, rfl⟩ (hhex rfl) (.inr rfl) hv .r10
  · exact intel_o ⟨hne, h, rfl⟩ (.inl rfl) hv .r10
  · exact intel_o ⟨hne, h, rfl⟩ (.inr rfl) hv .r10
  · exact intel_oct ⟨hne, h, rfl⟩ (.inl rfl) hv .r10
  · exact intel_oct ⟨hne, h, rfl⟩ (.inr rfl) hv .r10
  · exact intel_bin ⟨hne, h, rfl⟩ (.inl rfl) hv h2 .r10
  · exact intel_bin ⟨hne, h, rfl⟩ (.inr rfl) hv h2 .r10
  · exact intel_d ⟨hne, h, rfl⟩ (.inl rfl) hv h2 .r10
  · exact intel_d ⟨hne, h, rfl⟩ (.inr rfl) hv h2 .r10

/-- After the decimal digits of a hexadecimal number and its suffix comes no period. -/
theorem suffix_nodot {x : Char} {b : Nat} {ds rest : List Char} (hx : (x, b) ∈ suffixLetters)
    (h : ∀ c ∈ ds, IsDigit b c) : scanNumberEnd (ds ++ x :: rest) .r10 (some '.') = none := by
  have hb : b ≤ 16 ∧ toUpper x ≠ toUpper '.' ∧ isDigitOf .r10 x = false := by
    have : ∀ y ∈ suffixLetters, y.2 ≤ 16 ∧ toUpper y.1 ≠ toUpper '.' ∧ isDigitOf .r10 y.1 = false := by
      decide
    exact this (x, b) hx
  have hd : ∀ c ∈ ds, toUpper c ≠ toUpper '.' := by
    intro c hc
    exact Ctype.ascii (p := fun c => IsDigit 16 c → toUpper c ≠ toUpper '.') (by decide +kernel) c
      (digit_ascii (digit_mono hb.1 (h c hc))) (digit_mono hb.1 (h c hc))
  have key : iexpect '.' (trimStart (isDigitOf .r10) (ds ++ x :: rest)) = none :=
    iexpect_none (trim_head hd
      (by intro d hd; injection hd with hd; exact hd ▸ hb.2.1)
      (by intro d hd; injection hd with hd; exact hd ▸ hb.2.2))
  unfold scanNumberEnd
  simp only [key, ite_self]

/-! ### The notations -/

/-- The parser reads the marked and quoted numbers of the notation, and the suffixes if there are
any. -/
structure Accepts (p : Parser) (K : Numbers) : Prop where
  suffix : K.suffixes = true → p ≠ .cstyle
  mark : ∀ m b ds v rest, (m, b) ∈ K.marks → Numeral b v ds → v < 2 ^ 64 → Number.Spec.Ends rest →
    p.parse (m ++ (ds ++ rest)) .r10 = (.OK, ⟨v, .unsigned⟩, rest)
  quoted : ∀ x b ds v rest, (toUpper x, b) ∈ K.quoted → Numeral b v ds → v < 2 ^ 64 →
    p.parse (x :: '\'' :: (ds ++ '\'' :: rest)) .r10 = (.OK, ⟨v, .unsigned⟩, rest)
  unclosed : K.unclosed = true → ∀ x b ds v rest, (toUpper x, b) ∈ K.quoted → Numeral b v ds →
    v < 2 ^ 64 → Number.Spec.Ends rest →
    p.parse (x :: '\'' :: (ds ++ rest)) .r10 = (.OK, ⟨v, .unsigned⟩, rest)

theorem lit_parse {p : Parser} {K : Numbers} (hK : Accepts p K) {n : Nat} {t rest : Scan}
    (h : K.Lit n t) (hn : n < 2 ^ 64) (hs : Sep rest) :
    p.parse (t ++ rest) .r10 = (.OK, ⟨n, .unsigned⟩, rest) := by
  have hE : Number.Spec.Ends rest := hs.toEval.ends
  cases h with
  | c _ _ h => exact literal_all p h hn hs.toEval
  | suffix x b ds hk hx h h0 =>
    obtain ⟨c, u, hc, hd⟩ := h0
    have hi := intel_suffix (rest := rest) hx h ⟨c, u, hc, hd⟩ hn hE
    have hdot := suffix_nodot (rest := rest) hx h
    rw [List.append_assoc]
    show p.parse (ds ++ x :: rest) .r10 = _
    rw [hc, List.cons_append] at hi hdot ⊢
    rw [parse_decimal_start p (hK.suffix hk) c _ hd .r10 hdot]
    exact hi
  | mark m b ds hp h h0 =>
    rw [List.append_assoc]
    exact hK.mark m b ds _ rest hp ⟨h0, h, rfl⟩ hn hE
  | quoted x b ds hx h h0 =>
    rw [List.append_assoc]
    exact hK.quoted x b ds _ rest hx ⟨h0, h, rfl⟩ hn
  | unclosed x b ds hk hx h h0 => exact hK.unclosed hk x b ds _ rest hx ⟨h0, h, rfl⟩ hn hE

theorem intel_accepts : Accepts .intel intelNumbers where
  suffix := fun _ => by decide
  mark := fun m b ds v rest h => nomatch h
  quoted := fun x b ds v rest h => nomatch h
  unclosed := fun h => nomatch h

theorem motorola_accepts : Accepts .motorola motorolaNumbers where
  suffix := fun _ => by decide
  mark := by
    intro m b ds v rest h hn hv hE
    simp only [motorolaNumbers, List.mem_cons, List.not_mem_nil, or_false, Prod.mk.injEq] at h
    rcases h with ⟨rfl, rfl⟩ | ⟨rfl, rfl⟩ | ⟨rfl, rfl⟩ | ⟨rfl, rfl⟩
    · rw [show Parser.motorola.parse = prefixParse ⟨some '$', some '%', some '@', some '&'⟩ from rfl]
      refine prefix_hit (r := .r16) (ds := ds) ?_ hn hv hE .r10; rfl
    · rw [show Parser.motorola.parse = prefixParse ⟨some '$', some '%', some '@', some '&'⟩ from rfl]
      refine prefix_hit (r := .r2) (ds := ds) ?_ hn hv hE .r10; rfl
    · rw [show Parser.motorola.parse = prefixParse ⟨some '$', some '%', some '@', some '&'⟩ from rfl]
      refine prefix_hit (r := .r8) (ds := ds) ?_ hn hv hE .r10; rfl
    · rw [show Parser.motorola.parse = prefixParse ⟨some '$', some '%', some '@', some '&'⟩ from rfl]
      refine prefix_hit (r := .r10) (ds := ds) ?_ hn hv hE .r10; rfl
  quoted := fun x b ds v rest h => nomatch h
  unclosed := fun h => nomatch h

theorem texas_accepts : Accepts .texas texasNumbers where
  suffix := fun _ => by decide
  mark := by
    intro m b ds v rest h hn hv hE
    simp only [texasNumbers, List.mem_cons, List.not_mem_nil, or_false, Prod.mk.injEq] at h
    rcases h with ⟨rfl, rfl⟩ | ⟨rfl, rfl⟩
    · rw [show Parser.texas.parse = prefixParse ⟨some '>', some '?', none, none⟩ from rfl]
      refine prefix_hit (r := .r16) (ds := ds) ?_ hn hv hE .r10; rfl
    · rw [show Parser.texas.parse = prefixParse ⟨some '>', some '?', none, none⟩ from rfl]
      refine prefix_hit (r := .r2) (ds := ds) ?_ hn hv hE .r10; rfl
  quoted := fun x b ds v rest h => nomatch h
  unclosed := fun h => nomatch h

theorem zilog_accepts : Accepts .zilog zilogNumbers where
  suffix := fun _ => by decide
  mark := by
    intro m b ds v rest h hn hv hE
    simp only [zilogNumbers, List.mem_cons, List.not_mem_nil, or_false, Prod.mk.injEq] at h
    rcases h with ⟨rfl, rfl⟩ | ⟨rfl, rfl⟩ | ⟨rfl, rfl⟩
    · refine zilog_hit (r := .r16) (ds := ds) ?_ hn hv hE .r10
      have hd := head_digit (r := .r16) (rest := rest) hn
      obtain ⟨c, t, hc⟩ := List.exists_cons_of_ne_nil hn.ne
      have hcp : toUpper c ≠ '(' := by
        have := hn.digits c (by rw [hc]; exact List.mem_cons_self ..)
        exact Ctype.ascii (p := fun c => IsDigit 16 c → toUpper c ≠ '(') (by decide +kernel) c
          (digit_ascii this) this
      have hx : ∀ m, iexpectText ('%' :: '(' :: m) (['%'] ++ (ds ++ rest)) = none := by
        intro m
        rw [hc]
        show (if (toUpper c == toUpper '(') = true then some (t ++ rest) else none).bind
          (iexpectText m) = none
        rw [if_neg (by rw [show toUpper '(' = '(' by decide]; simpa using hcp)]
        rfl
      unfold Number.zilogPrefix
      rw [hx, hx]
      show (if isXdigit (deref (ds ++ rest)) = true then some (Radix.r16, ds ++ rest) else none) = _
      rw [if_pos (show isXdigit (deref (ds ++ rest)) = true from hd)]
    · rw [show Parser.zilog.parse = zilogParse from rfl]
      refine zilog_hit (r := .r8) (ds := ds) ?_ hn hv hE .r10; rfl
    · rw [show Parser.zilog.parse = zilogParse from rfl]
      refine zilog_hit (r := .r2) (ds := ds) ?_ hn hv hE .r10; rfl
  quoted := fun x b ds v rest h => nomatch h
  unclosed := fun h => nomatch h

theorem quoted_radix {k : Prefixes} {x : Char} (t : Scan) (d : Char) (hd : toUpper x = d)
    (hu : ∀ m ∈ ['H', 'B', 'O', 'D', 'X'], toUpper m = m) (hk : k = ⟨some 'H', some 'B', some 'O', some 'D'⟩) :
    prefixRadix k (x :: t) = if d = 'H' then some (.r16, t) else if d = 'B' then some (.r2, t)
      else if d = 'O' then some (.r8, t) else if d = 'D' then some (.r10, t) else none := by
  have key : ∀ m ∈ ['H', 'B', 'O', 'D', 'X'], iexpect m (x :: t) = if d = m then some t else none := by
    intro m hm
    show (if (toUpper x == toUpper m) = true then some t else none) = _
    rw [hd, hu m hm]
    by_cases h : d = m
    · rw [if_pos (by simpa using h), if_pos h]
    · rw [if_neg (by simpa using h), if_neg h]
  subst hk
  unfold prefixRadix optExpect
  simp only [Option.bind_some]
  rw [key 'H' (by decide), key 'B' (by decide), key 'O' (by decide), key 'D' (by decide)]
  by_cases h1 : d = 'H'
  · simp only [h1, if_true]
  by_cases h2 : d = 'B'
  · simp only [h1, h2, if_true, if_false]; rfl
  by_cases h3 : d = 'O'
  · simp only [h1, h2, h3, if_true, if_false]; rfl
  by_cases h4 : d = 'D'
  · simp only [h1, h2, h3, h4, if_true, if_false]; rfl
  · simp only [h1, h2, h3, h4, if_false]

theorem signetics_accepts : Accepts .signetics signeticsNumbers where
  suffix := fun _ => by decide
  mark := fun m b ds v rest h => nomatch h
  quoted := by
    intro x b ds v rest h hn hv
    simp only [signeticsNumbers, List.mem_cons, List.not_mem_nil, or_false, Prod.mk.injEq] at h
    have key := fun d hd => quoted_radix (x := x) ('\'' :: (ds ++ '\'' :: rest)) d hd (by decide) rfl
    rcases h with ⟨h, rfl⟩ | ⟨h, rfl⟩ | ⟨h, rfl⟩ | ⟨h, rfl⟩
    · exact ibm_hit (r := .r16) (key 'H' h) hn hv .r10
    · exact ibm_hit (r := .r2) (key 'B' h) hn hv .r10
    · exact ibm_hit (r := .r8) (key 'O' h) hn hv .r10
    · exact ibm_hit (r := .r10) (key 'D' h) hn hv .r10
  unclosed := fun h => nomatch h

/-- A parser that has only the prefix letters `k`, in the order of the code. -/
theorem radix_of {k : Prefixes} {x d : Char} {r : Radix} (t : Scan) (hd : toUpper x = d)
    (hk : ∀ m, m ∈ [k.hex, k.bin, k.oct, k.dec] → ∀ c, m = some c → toUpper c = c)
    (h : (k.hex = some d ∧ r = .r16) ∨ (k.hex ≠ some d ∧ k.bin = some d ∧ r = .r2) ∨
      (k.hex ≠ some d ∧ k.bin ≠ some d ∧ k.oct = some d ∧ r = .r8) ∨
      (k.hex ≠ some d ∧ k.bin ≠ some d ∧ k.oct ≠ some d ∧ k.dec = some d ∧ r = .r10)) :
    prefixRadix k (x :: t) = some (r, t) := by
  have key : ∀ m, m ∈ [k.hex, k.bin, k.oct, k.dec] →
      optExpect m (x :: t) = if m = some d then some t else none := by
    intro m hm
    cases m with
    | none => rfl
    | some c =>
      have hc := hk (some c) hm c rfl
      show (if (toUpper x == toUpper c) = true then some t else none) = _
      rw [hd, hc]
      by_cases h : c = d
      · subst h; simp
      · rw [if_neg (by simpa using fun h' => h h'.symm), if_neg (by simpa using h)]
  unfold prefixRadix
  rw [key k.hex (by simp), key k.bin (by simp), key k.oct (by simp), key k.dec (by simp)]
  rcases h with ⟨h, rfl⟩ | ⟨h1, h, rfl⟩ | ⟨h1, h2, h, rfl⟩ | ⟨h1, h2, h3, h, rfl⟩
  · rw [if_pos h]
  · rw [if_neg h1, if_pos h]
  · rw [if_neg h1, if_neg h2, if_pos h]
  · rw [if_neg h1, if_neg h2, if_neg h3, if_pos h]

theorem panasonic_accepts : Accepts .panasonic panasonicNumbers where
  suffix := fun _ => by decide
  mark := fun m b ds v rest h => nomatch h
  quoted := by
    intro x b ds v rest h hn hv
    simp only [panasonicNumbers, List.mem_cons, List.not_mem_nil, or_false, Prod.mk.injEq] at h
    obtain ⟨h, rfl⟩ := h
    exact ibm_hit (k := ⟨some 'X', none, none, none⟩) (r := .r16)
      (radix_of _ h (by decide) (by decide)) hn hv .r10
  unclosed := fun h => nomatch h

theorem rca_quoted {x : Char} {b : Nat} {ds rest : List Char} {v : Nat}
    (h : (toUpper x, b) ∈ rcaNumbers.quoted) (hn : Numeral b v ds) (hv : v < 2 ^ 64) :
    ibmParse ⟨some 'X', some 'B', none, some 'D'⟩ (x :: '\'' :: (ds ++ '\'' :: rest)) .r10 =
      (.OK, ⟨v, .unsigned⟩, rest) := by
  simp only [rcaNumbers, List.mem_cons, List.not_mem_nil, or_false, Prod.mk.injEq] at h
  rcases h with ⟨h, rfl⟩ | ⟨h, rfl⟩ | ⟨h, rfl⟩
  · exact ibm_hit (r := .r16) (radix_of _ h (by decide) (by decide)) hn hv .r10
  · exact ibm_hit (r := .r2) (radix_of _ h (by decide) (by decide)) hn hv .r10
  · exact ibm_hit (r := .r10) (radix_of _ h (by decide) (by decide)) hn hv .r10

theorem rca_accepts : Accepts .rca rcaNumbers where
  suffix := fun _ => by decide
  mark := by
    intro m b ds v rest h hn hv hE
    simp only [rcaNumbers, List.mem_cons, List.not_mem_nil, or_false, Prod.mk.injEq] at h
    obtain ⟨rfl, rfl⟩ := h
    show rcaParse ('#' :: (ds ++ rest)) .r10 = _
    unfold rcaParse
    have hd := head_digit (r := .r16) (rest := rest) hn
    rw [if_pos ⟨rfl, by cases hds : ds ++ rest <;> (rw [hds] at hd; exact hd)⟩]
    show (if (read .r16 (ds ++ rest)).1 = .OK then read .r16 (ds ++ rest) else _) = _
    rw [read_numeral (r := .r16) hn hv (ends_digit hE .r16)]
    rfl
  quoted := by
    intro x b ds v rest h hn hv
    show rcaParse (x :: '\'' :: (ds ++ '\'' :: rest)) .r10 = _
    unfold rcaParse
    rw [if_neg (fun hx => by
      have hx : x = '#' := hx.1
      subst hx
      revert h
      simp [rcaNumbers, show toUpper '#' = '#' by decide])]
    exact rca_quoted h hn hv
  unclosed := fun h => nomatch h

theorem fairchild_accepts : Accepts .fairchild fairchildNumbers where
  suffix := fun _ => by decide
  mark := by
    intro m b ds v rest h hn hv hE
    simp only [fairchildNumbers, List.mem_cons, List.not_mem_nil, or_false, Prod.mk.injEq] at h
    obtain ⟨rfl, rfl⟩ := h
    show fairchildParse ('$' :: (ds ++ rest)) .r10 = _
    unfold fairchildParse
    have hd := head_digit (r := .r16) (rest := rest) hn
    rw [if_pos ⟨rfl, by cases hds : ds ++ rest <;> (rw [hds] at hd; exact hd)⟩]
    show advance _ (read .r16 (ds ++ rest)) = _
    rw [read_numeral (r := .r16) hn hv (ends_digit hE .r16), advance_ok]
  quoted := by
    intro x b ds v rest h hn hv
    show fairchildParse (x :: '\'' :: (ds ++ '\'' :: rest)) .r10 = _
    unfold fairchildParse
    rw [if_neg (fun hx => by
      have hx : x = '$' := hx.1
      subst hx
      revert h
      simp [fairchildNumbers, show toUpper '$' = '$' by decide])]
    exact signetics_accepts.quoted x b ds v rest h hn hv
  unclosed := fun h => nomatch h

theorem ins80xx_prefix {x : Char} (t : Scan) (h : toUpper x = 'X') :
    nationalPrefix ⟨some 'X', none, none, none⟩ (x :: t) = some (.r16, t) := by
  unfold nationalPrefix
  rw [if_neg (by decide), if_neg (by decide)]
  exact radix_of _ h (by decide) (by decide)

theorem ins80xx_accepts : Accepts .ins80xx nationalNumbers where
  suffix := fun _ => by decide
  mark := fun m b ds v rest h => nomatch h
  quoted := by
    intro x b ds v rest h hn hv
    simp only [nationalNumbers, List.mem_cons, List.not_mem_nil, or_false, Prod.mk.injEq] at h
    obtain ⟨h, rfl⟩ := h
    show nationalParse ⟨some 'X', none, none, none⟩ (x :: '\'' :: (ds ++ '\'' :: rest)) .r10 = _
    unfold nationalParse
    rw [ins80xx_prefix _ h]
    dsimp only
    rw [expect_some]
    dsimp only
    rw [if_pos (head_digit (r := .r16) hn),
      read_numeral (r := .r16) hn hv (fun c hc => by injection hc with hc; subst hc; decide)]
    dsimp only
    rw [expect_some]
    exact advance_ok ..
  unclosed := by
    intro _ x b ds v rest h hn hv hE
    simp only [nationalNumbers, List.mem_cons, List.not_mem_nil, or_false, Prod.mk.injEq] at h
    obtain ⟨h, rfl⟩ := h
    exact national_hit (r := .r16) (ins80xx_prefix _ h) hn hv hE .r10

theorem lit_head {K : Numbers} {n : Nat} {t : Scan} (h : K.Lit n t) :
    ∃ c u, t = c :: u ∧ (IsDigit 10 c ∨ (∃ m b, (m, b) ∈ K.marks ∧ (m.head? = some c ∨ m = [])) ∨
      (∃ b v, (toUpper c, b) ∈ K.quoted ∧ u = '\'' :: v)) := by
  cases h with
  | c _ _ h =>
    obtain ⟨c, u, hc, hd⟩ := literal_head h
    exact ⟨c, u, hc, .inl hd⟩
  | suffix x b ds hk hx h h0 =>
    obtain ⟨c, u, hc, hd⟩ := h0
    exact ⟨c, u ++ [x], by rw [hc]; rfl, .inl hd⟩
  | mark m b ds hp h h0 =>
    cases hm : m with
    | nil =>
      obtain ⟨c, u, hc⟩ := List.exists_cons_of_ne_nil h0
      exact ⟨c, u, by rw [hc]; rfl, .inr (.inl ⟨m, b, hp, .inr hm⟩)⟩
    | cons c u => exact ⟨c, u ++ ds, rfl, .inr (.inl ⟨m, b, hp, .inl (by rw [hm]; rfl)⟩)⟩
  | quoted x b ds hx h h0 => exact ⟨x, '\'' :: ds ++ ['\''], rfl, .inr (.inr ⟨b, _, hx, rfl⟩)⟩
  | unclosed x b ds hk hx h h0 => exact ⟨x, '\'' :: ds, rfl, .inr (.inr ⟨b, _, hx, rfl⟩)⟩

/-! ### No number -/

/-- No parser takes a letter that no quote follows for the start of a number. -/
theorem parse_letter (p : Parser) (hp : p ≠ .pdp11) {c : Char} {t : Scan} (hc : IsLetter c)
    (ht : t.head? ≠ some '\'') : p.parse (c :: t) .r10 = notNumber (c :: t) := by
  have hd : ¬ IsDecimal c := letter_not_decimal hc
  have hdig : isDigitOf .r10 c = false := by
    rw [Bool.eq_false_iff]
    intro h
    exact hd (digit10_decimal ((isDigitOf_iff .r10 c).1 h))
  have hcs : cstyleParse (c :: t) .r10 = notNumber (c :: t) := cstyle_no hd
  have hnd : ∀ r, r ≠ .r16 → isDigitOf r c = false := by
    intro r hr
    rw [Bool.eq_false_iff]
    intro h
    refine hd (digit10_decimal (digit_mono ?_ ((isDigitOf_iff r c).1 h)))
    cases r <;> first | exact absurd rfl hr | decide
  have hsuf : ∀ r m, scanNumberEnd (c :: t) r (some m) = none := by
    intro r m
    unfold scanNumberEnd
    by_cases h1 : r = .r2 ∧ some m = some 'B' ∧ cBinary (c :: t) = true
    · rw [if_pos h1]
    · rw [if_neg h1]
      by_cases hr : r = .r16
      · subst hr
        by_cases h2 : isDigitOf .r16 (deref (c :: t)) = true
        · rw [if_pos h2, if_pos ⟨rfl, hdig⟩]
        · rw [if_neg h2]
      · rw [if_neg (show ¬ isDigitOf r (deref (c :: t)) = true by
          show ¬ isDigitOf r c = true
          rw [hnd r hr]; decide)]
  have hi : intelParse (c :: t) .r10 = notNumber (c :: t) := by
    unfold intelParse intelSuffix
    rw [hsuf, hsuf, hsuf, hsuf, hsuf]
    exact hcs
  have hq : expect '\'' t = none := expect_none (by
    intro d hd h
    exact ht (h ▸ hd))
  have hne : ∀ m, ¬ IsLetter m → ¬ (97 ≤ m.toNat ∧ m.toNat ≤ 122) → iexpect m (c :: t) = none := by
    intro m hm hm'
    apply iexpect_none
    intro d hd
    injection hd with hd
    subst hd
    intro h
    rw [toUpper_of_not_lower hm'] at h
    have hc' := hc
    unfold IsLetter at hm hc
    rcases hc with hc | hc | hc
    · rw [toUpper_of_not_lower (by omega)] at h
      subst h; exact hm (.inl hc)
    · have : toUpper c = Char.ofNat (c.toNat - 32) := by
        unfold toUpper isLower; rw [if_pos (by simp [hc.1, hc.2])]
      rw [this] at h
      have h' := congrArg Char.toNat h
      have e1 : (Char.ofNat (c.toNat - 32)).toNat = c.toNat - 32 := by
        rw [Char.ofNat, dif_pos (by unfold Nat.isValidChar; omega)]; rfl
      rw [e1] at h'
      exact hm (.inl (by omega))
    · subst hc
      rw [show toUpper '_' = '_' by decide] at h
      subst h
      exact hm (.inr (.inr rfl))
  have hibm : ∀ k, ibmParse k (c :: t) .r10 = notNumber (c :: t) := by
    intro k
    unfold ibmParse
    cases hk : prefixRadix k (c :: t) with
    | none => exact hi
    | some x =>
      obtain ⟨r, q⟩ := x
      have : q = t := by
        unfold prefixRadix optExpect at hk
        have tail : ∀ {o : Option Char} {q : Scan}, o.bind (iexpect · (c :: t)) = some q → q = t := by
          intro o q h
          cases o with
          | none => cases h
          | some m => exact expectP_tail h
        split at hk
        · rename_i h; injection hk with hk; injection hk with _ hk; exact hk ▸ tail h
        · split at hk
          · rename_i h; injection hk with hk; injection hk with _ hk; exact hk ▸ tail h
          · split at hk
            · rename_i h; injection hk with hk; injection hk with _ hk; exact hk ▸ tail h
            · split at hk
              · rename_i h; injection hk with hk; injection hk with _ hk; exact hk ▸ tail h
              · cases hk
      subst this
      dsimp only
      rw [hq]
  have hnat : ∀ k, nationalParse k (c :: t) .r10 = notNumber (c :: t) := by
    intro k
    unfold nationalParse
    cases hk : nationalPrefix k (c :: t) with
    | none => exact hi
    | some x =>
      obtain ⟨r, q⟩ := x
      have : q = t := by
        unfold nationalPrefix at hk
        have tail : ∀ {m : Char} {q : Scan}, iexpect m (c :: t) = some q → q = t :=
          fun h => expectP_tail h
        split at hk
        · rename_i h
          injection hk with hk; injection hk with _ hk; subst hk
          split at h
          · cases h1 : iexpect 'X' (c :: t) with
            | some q' => rw [h1] at h; injection h with h; subst h; exact tail h1
            | none => rw [h1] at h; exact tail h
          · cases h
        · split at hk
          · rename_i h
            injection hk with hk; injection hk with _ hk; subst hk
            split at h
            · exact tail h
            · cases h
          · have tail' : ∀ {o : Option Char} {q : Scan}, o.bind (iexpect · (c :: t)) = some q → q = t := by
              intro o q h
              cases o with
              | none => cases h
              | some m => exact expectP_tail h
            unfold prefixRadix optExpect at hk
            split at hk
            · rename_i h; injection hk with hk; injection hk with _ hk; exact hk ▸ tail' h
            · split at hk
              · rename_i h; injection hk with hk; injection hk with _ hk; exact hk ▸ tail' h
              · split at hk
                · rename_i h; injection hk with hk; injection hk with _ hk; exact hk ▸ tail' h
                · split at hk
                  · rename_i h; injection hk with hk; injection hk with _ hk; exact hk ▸ tail' h
                  · cases hk
      subst this
      dsimp only
      rw [hq]
  have hce : c ≠ '#' ∧ c ≠ '$' ∧ c ≠ '%' := by
    refine ⟨?_, ?_, ?_⟩ <;> (rintro rfl; exact absurd hc (by decide))
  cases p with
  | pdp11 => exact absurd rfl hp
  | cstyle => exact hcs
  | intel => exact hi
  | motorola =>
    show prefixParse _ _ _ = _
    unfold prefixParse prefixRadix optExpect
    simp only [Option.bind_some]
    rw [hne '$' (by decide) (by decide), hne '%' (by decide) (by decide),
      hne '@' (by decide) (by decide), hne '&' (by decide) (by decide)]
    exact hi
  | zilog =>
    show zilogParse _ _ = _
    unfold zilogParse Number.zilogPrefix
    have hx : ∀ m, iexpectText ('%' :: m) (c :: t) = none := by
      intro m
      unfold iexpectText
      rw [hne '%' (by decide) (by decide)]
      rfl
    rw [hx, hx, expect_none (by intro d hd; injection hd with hd; exact hd ▸ hce.2.2)]
    exact hi
  | texas =>
    show prefixParse _ _ _ = _
    unfold prefixParse prefixRadix optExpect
    simp only [Option.bind_some, Option.bind_none]
    rw [hne '>' (by decide) (by decide), hne '?' (by decide) (by decide)]
    exact hi
  | rca =>
    show rcaParse _ _ = _
    unfold rcaParse
    rw [if_neg (fun h => hce.1 h.1)]
    exact hibm _
  | fairchild =>
    show fairchildParse _ _ = _
    unfold fairchildParse
    rw [if_neg (fun h => hce.2.1 h.1)]
    exact hibm _
  | panasonic => exact hibm _
  | signetics => exact hibm _
  | ins80xx => exact hnat _
  | ns32000 => exact hnat _

theorem parse_paren (p : Parser) (t : Scan) : p.parse ('(' :: t) .r10 = notNumber ('(' :: t) := by
  cases p <;> rfl

end Libasm.Maker
