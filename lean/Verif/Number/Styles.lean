import Verif.Number.Parse
/-
Each number parser on the text of the formatter it belongs to.
-/
namespace Libasm.Number
open Ctype Scan Spec

theorem prefix_hit {k : Prefixes} {r : Radix} {v : Nat} {s ds rest : List Char}
    (hp : prefixRadix k s = some (r, ds ++ rest)) (h : Numeral r.toNat v ds) (hv : v < 2 ^ 64)
    (h2 : Ends rest) (dflt : Radix) : prefixParse k s dflt = (.OK, ⟨v, .unsigned⟩, rest) := by
  unfold prefixParse
  rw [hp]
  show advance _ (read r (ds ++ rest)) = _
  rw [read_numeral h hv (ends_digit h2 r), advance_ok]

theorem zilog_hit {r : Radix} {v : Nat} {s ds rest : List Char}
    (hp : zilogPrefix s = some (r, ds ++ rest)) (h : Numeral r.toNat v ds) (hv : v < 2 ^ 64)
    (h2 : Ends rest) (dflt : Radix) : zilogParse s dflt = (.OK, ⟨v, .unsigned⟩, rest) := by
  unfold zilogParse
  rw [hp]
  show advance _ (read r (ds ++ rest)) = _
  rw [read_numeral h hv (ends_digit h2 r), advance_ok]

theorem quote_not_digit (r : Radix) : ¬ IsDigit r.toNat '\'' := by cases r <;> decide

theorem head_digit {r : Radix} {v : Nat} {ds rest : List Char} (h : Numeral r.toNat v ds) :
    isDigitOf r (deref (ds ++ rest)) = true := by
  obtain ⟨c, t, ht⟩ := List.exists_cons_of_ne_nil h.ne
  rw [ht]
  exact (isDigitOf_iff r c).2 (h.digits c (by rw [ht]; exact List.mem_cons_self ..))

theorem ibm_hit {k : Prefixes} {r : Radix} {v : Nat} {s ds rest : List Char}
    (hp : prefixRadix k s = some (r, '\'' :: (ds ++ '\'' :: rest))) (h : Numeral r.toNat v ds)
    (hv : v < 2 ^ 64) (dflt : Radix) : ibmParse k s dflt = (.OK, ⟨v, .unsigned⟩, rest) := by
  unfold ibmParse
  rw [hp]
  show (match expect '\'' ('\'' :: (ds ++ '\'' :: rest)) with
    | none => notNumber s
    | some p =>
      if isDigitOf r (deref p) then
        (match expect '\'' (read r p).2.2 with
        | some q => ((read r p).1, (read r p).2.1, q)
        | none => (.MISSING_CLOSING_QUOTE, (read r p).2.1, s))
      else notNumber s) = _
  rw [expect_some]
  show (if isDigitOf r (deref (ds ++ '\'' :: rest)) then
        (match expect '\'' (read r (ds ++ '\'' :: rest)).2.2 with
        | some q => ((read r (ds ++ '\'' :: rest)).1, (read r (ds ++ '\'' :: rest)).2.1, q)
        | none => (.MISSING_CLOSING_QUOTE, (read r (ds ++ '\'' :: rest)).2.1, s))
      else notNumber s) = _
  rw [head_digit h, read_numeral h hv
    (by intro c hc; injection hc with hc; exact hc ▸ quote_not_digit r)]
  show (match expect '\'' ('\'' :: rest) with
        | some q => (Err.OK, (⟨v, .unsigned⟩ : Value), q)
        | none => (.MISSING_CLOSING_QUOTE, (⟨v, .unsigned⟩ : Value), s)) = _
  rw [expect_some]

theorem national_hit {k : Prefixes} {r : Radix} {v : Nat} {s ds rest : List Char}
    (hp : nationalPrefix k s = some (r, '\'' :: (ds ++ rest))) (h : Numeral r.toNat v ds)
    (hv : v < 2 ^ 64) (h2 : Ends rest) (dflt : Radix) :
    nationalParse k s dflt = (.OK, ⟨v, .unsigned⟩, rest) := by
  unfold nationalParse
  rw [hp]
  show (match expect '\'' ('\'' :: (ds ++ rest)) with
    | none => notNumber s
    | some p =>
      if isDigitOf r (deref p) then
        advance s ((read r p).1, (read r p).2.1, (expect '\'' (read r p).2.2).getD (read r p).2.2)
      else notNumber s) = _
  rw [expect_some]
  show (if isDigitOf r (deref (ds ++ rest)) then
        advance s ((read r (ds ++ rest)).1, (read r (ds ++ rest)).2.1,
          (expect '\'' (read r (ds ++ rest)).2.2).getD (read r (ds ++ rest)).2.2)
      else notNumber s) = _
  rw [head_digit h, read_numeral h hv (ends_digit h2 r)]
  show advance s (.OK, ⟨v, .unsigned⟩, (expect '\'' rest).getD rest) = _
  rw [expect_none (fun c hc => (h2 c hc).2.2.2.1), advance_ok]
  rfl

/-- Text starting with a decimal digit is read by every parser as the Intel parser reads it,
unless it goes on with a period. -/
theorem parse_decimal_start (p : Parser) (hp : p ≠ .cstyle) (c : Char) (t : List Char)
    (hc : IsDigit 10 c) (dflt : Radix)
    (hdot : scanNumberEnd (c :: t) .r10 (some '.') = none) :
    p.parse (c :: t) dflt = intelParse (c :: t) dflt := by
  have hne : ∀ m, m ∈ ['$', '%', '@', '&', '>', '?', 'X', 'H', 'B', 'O', 'D', 'Q'] →
      iexpect m (c :: t) = none := by
    intro m hm
    apply iexpect_none
    intro d hd
    injection hd with hd
    subst hd
    exact Ctype.ascii (p := fun d => IsDigit 10 d →
      ∀ m ∈ ['$', '%', '@', '&', '>', '?', 'X', 'H', 'B', 'O', 'D', 'Q'], toUpper d ≠ toUpper m)
      (by decide +kernel) _ (digit_ascii hc) hc m hm
  have hsp : c ≠ '%' ∧ c ≠ '#' ∧ c ≠ '$' ∧ c ≠ '"' :=
    Ctype.ascii (p := fun d => IsDigit 10 d → d ≠ '%' ∧ d ≠ '#' ∧ d ≠ '$' ∧ d ≠ '"')
      (by decide +kernel) c (digit_ascii hc) hc
  have hx : ∀ m : List Char, iexpectText ('%' :: m) (c :: t) = none := by
    intro m
    unfold iexpectText
    rw [hne '%' (by decide)]
    rfl
  cases p with
  | cstyle => exact absurd rfl hp
  | intel => rfl
  | motorola =>
    have : prefixRadix ⟨some '$', some '%', some '@', some '&'⟩ (c :: t) = none := by
      simp only [prefixRadix, optExpect, Option.bind_some, hne '$' (by decide),
        hne '%' (by decide), hne '@' (by decide), hne '&' (by decide)]
    simp only [Parser.parse, prefixParse, this]
  | zilog =>
    have h2 : zilogPrefix (c :: t) = none := by
      unfold zilogPrefix
      rw [hx, hx, expect_none (by intro d hd; injection hd with hd; exact hd ▸ hsp.1)]
    simp only [Parser.parse, zilogParse, h2]
  | texas =>
    have : prefixRadix ⟨some '>', some '?', none, none⟩ (c :: t) = none := by
      simp only [prefixRadix, optExpect, Option.bind_some, Option.bind_none, hne '>' (by decide),
        hne '?' (by decide)]
    simp only [Parser.parse, prefixParse, this]
  | rca =>
    have : prefixRadix ⟨some 'X', some 'B', none, some 'D'⟩ (c :: t) = none := by
      simp only [prefixRadix, optExpect, Option.bind_some, Option.bind_none, hne 'X' (by decide),
        hne 'B' (by decide), hne 'D' (by decide)]
    show rcaParse (c :: t) dflt = _
    unfold rcaParse
    rw [if_neg (fun h => hsp.2.1 h.1)]
    simp only [ibmParse, this]
  | fairchild =>
    have : prefixRadix ⟨some 'H', some 'B', some 'O', some 'D'⟩ (c :: t) = none := by
      simp only [prefixRadix, optExpect, Option.bind_some, hne 'H' (by decide),
        hne 'B' (by decide), hne 'O' (by decide), hne 'D' (by decide)]
    show fairchildParse (c :: t) dflt = _
    unfold fairchildParse
    rw [if_neg (fun h => hsp.2.2.1 h.1)]
    simp only [ibmParse, this]
  | panasonic =>
    have : prefixRadix ⟨some 'X', none, none, none⟩ (c :: t) = none := by
      simp only [prefixRadix, optExpect, Option.bind_some, Option.bind_none, hne 'X' (by decide)]
    simp only [Parser.parse, ibmParse, this]
  | signetics =>
    have : prefixRadix ⟨some 'H', some 'B', some 'O', some 'D'⟩ (c :: t) = none := by
      simp only [prefixRadix, optExpect, Option.bind_some, hne 'H' (by decide),
        hne 'B' (by decide), hne 'O' (by decide), hne 'D' (by decide)]
    simp only [Parser.parse, ibmParse, this]
  | ins80xx =>
    have : nationalPrefix ⟨some 'X', none, none, none⟩ (c :: t) = none := by
      unfold nationalPrefix
      rw [if_neg (by simp), if_neg (by simp)]
      simp only [prefixRadix, optExpect, Option.bind_some, Option.bind_none, hne 'X' (by decide)]
    simp only [Parser.parse, nationalParse, this]
  | ns32000 =>
    have : nationalPrefix ⟨none, some 'B', some 'Q', some 'D'⟩ (c :: t) = none := by
      unfold nationalPrefix
      rw [if_pos rfl, if_pos rfl, hne 'X' (by decide), hne 'H' (by decide), hne 'O' (by decide)]
      simp only [Option.or, prefixRadix, optExpect, Option.bind_some, Option.bind_none,
        hne 'B' (by decide), hne 'Q' (by decide), hne 'D' (by decide)]
    simp only [Parser.parse, nationalParse, this]
  | pdp11 =>
    show pdp11Parse (c :: t) dflt = _
    unfold pdp11Parse
    split
    · rename_i h; injection h with h _; exact absurd h hsp.2.2.2
    · rw [hdot]

theorem nodot_hex (ds : List Char) : scanNumberEnd ('0' :: 'x' :: ds) .r10 (some '.') = none := by
  have ht : trimStart (isDigitOf .r10) ('0' :: 'x' :: ds) = 'x' :: ds := by
    unfold trimStart; rw [List.dropWhile_cons, List.dropWhile_cons]; rfl
  unfold scanNumberEnd
  rw [ht]
  simp only [iexpect_none (c := '.') (s := 'x' :: ds)
    (by intro d hd; injection hd with hd; subst hd; decide), ite_self]

theorem nodot_bin (ds : List Char) : scanNumberEnd ('0' :: 'b' :: ds) .r10 (some '.') = none := by
  have ht : trimStart (isDigitOf .r10) ('0' :: 'b' :: ds) = 'b' :: ds := by
    unfold trimStart; rw [List.dropWhile_cons, List.dropWhile_cons]; rfl
  unfold scanNumberEnd
  rw [ht]
  simp only [iexpect_none (c := '.') (s := 'b' :: ds)
    (by intro d hd; injection hd with hd; subst hd; decide), ite_self]

theorem all_cstyle_hex (p : Parser) {v : Nat} {ds rest : List Char} (h : Numeral 16 v ds)
    (hv : v < 2 ^ 64) (h2 : Ends rest) (dflt : Radix) :
    p.parse ('0' :: 'x' :: (ds ++ rest)) dflt = (.OK, ⟨v, .unsigned⟩, rest) := by
  by_cases hp : p = .cstyle
  · subst hp; exact cstyle_hex h hv h2 dflt
  · rw [parse_decimal_start p hp _ _ (isDigit_zero 10 (by decide)) dflt (nodot_hex _),
      intel_cstyle_hex, cstyle_hex h hv h2]

theorem all_cstyle_bin (p : Parser) {v : Nat} {ds rest : List Char} (h : Numeral 2 v ds)
    (hv : v < 2 ^ 64) (h2 : Ends rest) (dflt : Radix) :
    p.parse ('0' :: 'b' :: (ds ++ rest)) dflt = (.OK, ⟨v, .unsigned⟩, rest) := by
  by_cases hp : p = .cstyle
  · subst hp; exact cstyle_bin h hv h2 dflt
  · rw [parse_decimal_start p hp _ _ (isDigit_zero 10 (by decide)) dflt (nodot_bin _),
      intel_cstyle_bin h h2, cstyle_bin h hv h2]

theorem all_digits (p : Parser) {ds rest : List Char} (hne : ds ≠ [])
    (hd : ∀ c ∈ ds, IsDigit 10 c) (h2 : Ends rest) (dflt : Radix) :
    p.parse (ds ++ rest) dflt = cstyleParse (ds ++ rest) dflt := by
  by_cases hp : p = .cstyle
  · subst hp; rfl
  · obtain ⟨c, t, ht⟩ := List.exists_cons_of_ne_nil hne
    have h0 := no_suffix hd h2 .r10 (m := '.') (by decide)
    have hi := intel_plain hd h2 dflt
    subst ht
    rw [List.cons_append] at *
    rw [parse_decimal_start p hp _ _ (hd c (List.mem_cons_self ..)) dflt h0, hi]

theorem all_cstyle_oct (p : Parser) {v : Nat} {ds rest : List Char} (h : Numeral 8 v ds)
    (hv : v < 2 ^ 64) (h2 : Ends rest) (dflt : Radix) :
    p.parse ('0' :: (ds ++ rest)) dflt = (.OK, ⟨v, .unsigned⟩, rest) := by
  have hd : ∀ c ∈ '0' :: ds, IsDigit 10 c := by
    intro c hc
    cases hc with
    | head => exact isDigit_zero 10 (by decide)
    | tail _ hc => exact digit_mono (by decide) (h.digits c hc)
  rw [← List.cons_append, all_digits p (List.cons_ne_nil _ _) hd h2, List.cons_append,
    cstyle_oct h hv h2]

end Libasm.Number
