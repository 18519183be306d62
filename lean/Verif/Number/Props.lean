import Verif.Number.Styles
/-
C10: numeric literals denote their mathematical value.
C11: formatted numbers read back.
-/
namespace Libasm.Number
open Spec

/-! ### C10 -/

/-- C10: reading a maximal run of digits gives its positional value when that is below 2^64, and
OVERFLOW_RANGE with the undefined value (0) otherwise; in both cases the text after the digits is
left. -/
theorem C10_value (r : Radix) (ds rest : List Char) (hne : ds ≠ [])
    (hds : ∀ c ∈ ds, IsDigit r.toNat c)
    (hrest : ∀ c, rest.head? = some c → ¬ IsDigit r.toNat c) :
    read r (ds ++ rest) =
      if valueOf r.toNat ds < 2 ^ 64 then (.OK, ⟨valueOf r.toNat ds, .unsigned⟩, rest)
      else (.OVERFLOW_RANGE, ⟨0, .undef⟩, rest) :=
  read_digits r ds rest hne hds hrest

/-- C10: text that does not start with a digit is not a number and is left alone. -/
theorem C10_no_digit (r : Radix) (s : List Char)
    (h : ∀ c, s.head? = some c → ¬ IsDigit r.toNat c) :
    read r s = (.NOT_AN_EXPECTED, ⟨0, .undef⟩, s) :=
  read_none r s h

/-- Every text is of one of the two forms above: the theorems leave no case out. -/
theorem C10_cases (r : Radix) (s : List Char) :
    (∀ c, s.head? = some c → ¬ IsDigit r.toNat c) ∨
    ∃ ds rest, s = ds ++ rest ∧ ds ≠ [] ∧ (∀ c ∈ ds, IsDigit r.toNat c) ∧
      (∀ c, rest.head? = some c → ¬ IsDigit r.toNat c) := by
  induction s with
  | nil => left; intro c hc; cases hc
  | cons c t ih =>
    by_cases hc : IsDigit r.toNat c
    · right
      cases ih with
      | inl h =>
        refine ⟨[c], t, rfl, List.cons_ne_nil _ _, ?_, h⟩
        intro d hd; rw [List.mem_singleton] at hd; exact hd ▸ hc
      | inr h =>
        obtain ⟨ds, rest, h1, _, h3, h4⟩ := h
        refine ⟨c :: ds, rest, by rw [h1]; rfl, List.cons_ne_nil _ _, ?_, h4⟩
        intro d hd
        cases hd with
        | head => exact hc
        | tail _ hd => exact h3 d hd
    · left; intro d hd; injection hd with hd; exact hd ▸ hc

example : read .r16 "fFfFfFfFfFfFfFfF+1".toList =
    (.OK, ⟨2 ^ 64 - 1, .unsigned⟩, "+1".toList) := by decide +kernel
example : read .r10 "18446744073709551616,".toList = (.OVERFLOW_RANGE, ⟨0, .undef⟩, ",".toList) := by
  decide +kernel
example : ∀ c ∈ "777".toList, IsDigit Radix.r8.toNat c := by decide +kernel

/-! ### C11 -/

/-- Which parser reads the hexadecimal numbers of which style: the pairing of the assembler and
the disassembler of each CPU, and of the syntaxes. -/
def hexPairs : List (Style × Parser) :=
  [(.intel, .intel), (.suffixh, .intel), (.motorola, .motorola), (.prefixDollar, .motorola),
   (.fairchild, .fairchild), (.surroundH, .signetics), (.surroundX, .rca),
   (.surroundX, .panasonic), (.national, .ns32000), (.national, .ins80xx), (.texas, .texas),
   (.zilog, .zilog)]

/-- Which parser reads the binary numbers of which style. -/
def binPairs : List (Style × Parser) :=
  [(.intel, .intel), (.motorola, .motorola), (.fairchild, .fairchild), (.national, .ns32000),
   (.texas, .texas), (.zilog, .zilog)]

/-- Which parser reads the octal numbers of which style. -/
def octPairs : List (Style × Parser) :=
  [(.intel, .intel), (.motorola, .motorola), (.fairchild, .fairchild), (.national, .ns32000),
   (.zilog, .zilog)]

theorem head_of_ne {P : Char → Prop} {ds rest : List Char} (hne : ds ≠ []) (h : ∀ c ∈ ds, P c) :
    Head P (ds ++ rest) := by
  cases ds with
  | nil => exact absurd rfl hne
  | cons c t => intro d hd; injection hd with hd; exact hd ▸ h c (List.mem_cons_self ..)

theorem apos (up : Bool) : letter up '\'' = '\'' := by cases up <;> decide

/-- C11: a hexadecimal number of any style is read back by the style's parser, in upper or lower
case, with any width, whatever the default radix. -/
theorem C11_hex (style : Style) (parser : Parser) (hp : (style, parser) ∈ hexPairs)
    (up : Bool) (v w : Nat) (hv : v < 2 ^ 32) (hw : 1 ≤ w) (rest : List Char) (hrest : Ends rest)
    (dflt : Radix) :
    parser.parse (style.hex up v w ++ rest) dflt = (.OK, ⟨v, .unsigned⟩, rest) := by
  have hn := fmtHex_numeral up v w hv hw
  simp only [hexPairs, List.mem_cons, Prod.mk.injEq, List.not_mem_nil, or_false] at hp
  rcases hp with hp | hp | hp | hp | hp | hp | hp | hp | hp | hp | hp | hp <;>
    obtain ⟨rfl, rfl⟩ := hp
  · obtain ⟨ds, h1, h2, h3⟩ := suffixHex_numeral 'H' up v w hv hw
    show intelParse (fmtSuffixHex 'H' up v w ++ rest) dflt = _
    rw [h1, List.append_assoc, List.singleton_append]
    exact intel_hex h2 h3 (by cases up <;> decide) (wide hv) dflt
  · obtain ⟨ds, h1, h2, h3⟩ := suffixHex_numeral 'h' up v w hv hw
    show intelParse (fmtSuffixHex 'h' up v w ++ rest) dflt = _
    rw [h1, List.append_assoc, List.singleton_append]
    exact intel_hex h2 h3 (by cases up <;> decide) (wide hv) dflt
  · exact prefix_hit (r := .r16) (ds := fmtHex up v w) (by cases up <;> rfl) hn (wide hv) hrest dflt
  · exact prefix_hit (r := .r16) (ds := fmtHex up v w) (by cases up <;> rfl) hn (wide hv) hrest dflt
  · show fairchildParse (pre up ['h', '\''] ++ fmtHex up v w ++ [letter up '\''] ++ rest) dflt = _
    rw [apos, List.append_assoc, List.append_assoc, List.singleton_append]
    unfold fairchildParse
    rw [if_neg (fun h => absurd (show letter up 'h' = '$' from h.1) (by cases up <;> decide))]
    exact ibm_hit (r := .r16) (ds := fmtHex up v w) (by cases up <;> rfl) hn (wide hv) dflt
  · show ibmParse _ (pre up ['h', '\''] ++ fmtHex up v w ++ [letter up '\''] ++ rest) dflt = _
    rw [apos, List.append_assoc, List.append_assoc, List.singleton_append]
    exact ibm_hit (r := .r16) (ds := fmtHex up v w) (by cases up <;> rfl) hn (wide hv) dflt
  · show rcaParse (pre up ['x', '\''] ++ fmtHex up v w ++ [letter up '\''] ++ rest) dflt = _
    rw [apos, List.append_assoc, List.append_assoc, List.singleton_append]
    unfold rcaParse
    rw [if_neg (fun h => absurd (show letter up 'x' = '#' from h.1) (by cases up <;> decide))]
    exact ibm_hit (r := .r16) (ds := fmtHex up v w) (by cases up <;> rfl) hn (wide hv) dflt
  · show ibmParse _ (pre up ['x', '\''] ++ fmtHex up v w ++ [letter up '\''] ++ rest) dflt = _
    rw [apos, List.append_assoc, List.append_assoc, List.singleton_append]
    exact ibm_hit (r := .r16) (ds := fmtHex up v w) (by cases up <;> rfl) hn (wide hv) dflt
  · exact national_hit (r := .r16) (ds := fmtHex up v w) (by cases up <;> rfl) hn (wide hv) hrest dflt
  · exact national_hit (r := .r16) (ds := fmtHex up v w) (by cases up <;> rfl) hn (wide hv) hrest dflt
  · exact prefix_hit (r := .r16) (ds := fmtHex up v w) (by cases up <;> rfl) hn (wide hv) hrest dflt
  · refine zilog_hit (r := .r16) (ds := fmtHex up v w) ?_ hn (wide hv) hrest dflt
    show zilogPrefix (pre up ['%'] ++ fmtHex up v w ++ rest) = _
    have e : pre up ['%'] = ['%'] := by cases up <;> decide
    have hd := head_digit (r := .r16) (rest := rest) hn
    rw [e, List.append_assoc, List.singleton_append]
    have hno : ∀ m, Scan.iexpectText ('%' :: '(' :: m) ('%' :: (fmtHex up v w ++ rest)) = none := by
      intro m
      show (Scan.iexpect '(' (fmtHex up v w ++ rest)).bind (Scan.iexpectText m) = none
      rw [iexpect_none (head_of_ne hn.ne (fun d hd => Ctype.ascii
        (p := fun d => IsDigit 16 d → Ctype.toUpper d ≠ Ctype.toUpper '(')
        (by decide +kernel) d (digit_ascii (hn.digits d hd)) (hn.digits d hd)))]
      rfl
    unfold zilogPrefix
    rw [hno, hno, expect_some]
    exact if_pos hd

example : hexPairs.length = 12 ∧ Ends ",1".toList ∧
    Style.intel.hex true 0xBEEF 16 = "0BEEFH".toList ∧
    Style.zilog.hex false 0xBEEF 16 = "%beef".toList ∧
    Style.surroundX.hex true 10 8 = "X'0A'".toList := by
  refine ⟨rfl, ?_, by decide +kernel, by decide +kernel, by decide +kernel⟩
  intro c hc; injection hc with hc; subst hc; decide

/-- C11: a binary number of any style is read back by the style's parser. -/
theorem C11_bin (style : Style) (parser : Parser) (hp : (style, parser) ∈ binPairs)
    (up : Bool) (v w : Nat) (hv : v < 2 ^ 32) (hw : 1 ≤ w) (rest : List Char) (hrest : Ends rest)
    (dflt : Radix) :
    parser.parse (style.bin up v w ++ rest) dflt = (.OK, ⟨v, .unsigned⟩, rest) := by
  have hn := fmtBin_numeral up v w hv hw
  simp only [binPairs, List.mem_cons, Prod.mk.injEq, List.not_mem_nil, or_false] at hp
  rcases hp with hp | hp | hp | hp | hp | hp <;> obtain ⟨rfl, rfl⟩ := hp
  · show intelParse (fmtBin up v w ++ [letter up 'B'] ++ rest) dflt = _
    rw [List.append_assoc, List.singleton_append]
    exact intel_bin hn (by cases up <;> decide) (wide hv) hrest dflt
  · exact prefix_hit (r := .r2) (ds := fmtBin up v w) (by cases up <;> rfl) hn (wide hv) hrest dflt
  · show fairchildParse (pre up ['b', '\''] ++ fmtBin up v w ++ [letter up '\''] ++ rest) dflt = _
    rw [apos, List.append_assoc, List.append_assoc, List.singleton_append]
    unfold fairchildParse
    rw [if_neg (fun h => absurd (show letter up 'b' = '$' from h.1) (by cases up <;> decide))]
    exact ibm_hit (r := .r2) (ds := fmtBin up v w) (by cases up <;> rfl) hn (wide hv) dflt
  · exact national_hit (r := .r2) (ds := fmtBin up v w) (by cases up <;> rfl) hn (wide hv) hrest dflt
  · exact prefix_hit (r := .r2) (ds := fmtBin up v w) (by cases up <;> rfl) hn (wide hv) hrest dflt
  · exact zilog_hit (r := .r2) (ds := fmtBin up v w) (by cases up <;> rfl) hn (wide hv) hrest dflt

example : Style.fairchild.bin true 5 8 = "B'00000101'".toList ∧
    Style.intel.bin false 0 1 = "0b".toList := by decide +kernel

/-- C11: an octal number of any style that has octal numbers is read back by the style's parser. -/
theorem C11_oct (style : Style) (parser : Parser) (hp : (style, parser) ∈ octPairs)
    (up : Bool) (v w : Nat) (hv : v < 2 ^ 32) (hw : 1 ≤ w) (rest : List Char) (hrest : Ends rest)
    (dflt : Radix) :
    parser.parse (style.oct up v w ++ rest) dflt = (.OK, ⟨v, .unsigned⟩, rest) := by
  have hn := fmtOct_numeral up v w hv hw
  simp only [octPairs, List.mem_cons, Prod.mk.injEq, List.not_mem_nil, or_false] at hp
  rcases hp with hp | hp | hp | hp | hp <;> obtain ⟨rfl, rfl⟩ := hp
  · show intelParse (fmtOct up v w ++ [letter up 'Q'] ++ rest) dflt = _
    rw [List.append_assoc, List.singleton_append]
    exact intel_oct hn (by cases up <;> decide) (wide hv) dflt
  · exact prefix_hit (r := .r8) (ds := fmtOct up v w) (by cases up <;> rfl) hn (wide hv) hrest dflt
  · show fairchildParse (pre up ['o', '\''] ++ fmtOct up v w ++ [letter up '\''] ++ rest) dflt = _
    rw [apos, List.append_assoc, List.append_assoc, List.singleton_append]
    unfold fairchildParse
    rw [if_neg (fun h => absurd (show letter up 'o' = '$' from h.1) (by cases up <;> decide))]
    exact ibm_hit (r := .r8) (ds := fmtOct up v w) (by cases up <;> rfl) hn (wide hv) dflt
  · exact national_hit (r := .r8) (ds := fmtOct up v w) (by cases up <;> rfl) hn (wide hv) hrest dflt
  · exact zilog_hit (r := .r8) (ds := fmtOct up v w) (by cases up <;> rfl) hn (wide hv) hrest dflt

example : Style.national.oct true 0o17 6 = "O'17".toList ∧
    Style.zilog.oct false 8 8 = "%(8)010".toList := by decide +kernel

/-- C11: a decimal number is read back by every parser when the default radix is 10. -/
theorem C11_dec (style : Style) (parser : Parser) (up : Bool) (v : Nat) (hv : v < 2 ^ 32)
    (rest : List Char) (hrest : Ends rest) :
    parser.parse (style.dec up v ++ rest) .r10 = (.OK, ⟨v, .unsigned⟩, rest) := by
  have hn := fmtDec_numeral up v hv
  show parser.parse (fmtDec up v ++ rest) .r10 = _
  rw [all_digits parser hn.ne hn.digits hrest,
    cstyle_default (dflt := .r10) hn (by decide) ?_ (wide hv) hrest]
  rcases fmtDec_head up v hv with h | h
  · exact Or.inl h
  · exact Or.inr (Or.inl h)

example : Style.intel.dec true 4294967295 = "4294967295".toList := by decide +kernel

/-- C11: the C-style hexadecimal, binary and octal numbers (selected by an option of the
disassembler) are read back by the parser of every CPU. -/
theorem C11_cstyle (parser : Parser) (up : Bool) (v w : Nat) (hv : v < 2 ^ 32) (hw : 1 ≤ w)
    (rest : List Char) (hrest : Ends rest) (dflt : Radix) :
    parser.parse (Style.cstyle.hex up v w ++ rest) dflt = (.OK, ⟨v, .unsigned⟩, rest) ∧
    parser.parse (Style.cstyle.bin up v w ++ rest) dflt = (.OK, ⟨v, .unsigned⟩, rest) ∧
    parser.parse (Style.cstyle.oct up v w ++ rest) dflt = (.OK, ⟨v, .unsigned⟩, rest) := by
  refine ⟨all_cstyle_hex parser (fmtHex_numeral up v w hv hw) (wide hv) hrest dflt,
    all_cstyle_bin parser (fmtBin_numeral up v w hv hw) (wide hv) hrest dflt, ?_⟩
  have : Style.cstyle.oct up v w ++ rest = '0' :: (fmtOct up v w ++ rest) := by
    cases up <;> rfl
  rw [this]
  exact all_cstyle_oct parser (fmtOct_numeral up v w hv hw) (wide hv) hrest dflt

example : Style.cstyle.hex true 0xAB 8 = "0xAB".toList ∧ Style.cstyle.bin true 2 2 = "0b10".toList ∧
    Style.cstyle.oct true 8 6 = "010".toList := by decide +kernel

/-- C11: the plain octal numbers of the PDP-8 are read back when the default radix is 8. -/
theorem C11_plain_oct (parser : Parser) (up : Bool) (v w : Nat) (hv : v < 2 ^ 32) (hw : 1 ≤ w)
    (rest : List Char) (hrest : Ends rest) :
    parser.parse (Style.plain.oct up v w ++ rest) .r8 = (.OK, ⟨v, .unsigned⟩, rest) := by
  have hn := fmtOct_numeral up v w hv hw
  show parser.parse (fmtOct up v w ++ rest) .r8 = _
  rw [all_digits parser hn.ne (fun c hc => digit_mono (by decide) (hn.digits c hc)) hrest,
    cstyle_default (dflt := .r8) hn (by decide) (Or.inr (Or.inr rfl)) (wide hv) hrest]

/-- C11 is false of the octal numbers of the Texas style: that style overrides only the binary and
the hexadecimal formatter, and "17", octal fifteen, is read back as seventeen. -/
theorem C11_violated_texas_octal :
    Style.texas.oct true 15 6 = "17".toList ∧
    Parser.texas.parse "17".toList .r10 = (.OK, ⟨17, .unsigned⟩, []) := by decide +kernel

/-- The low `n` bits as a number, signed when `bits` is negative. -/
def meant (v : Nat) (bits : Int) : Int :=
  if bits < 0 then signedOf bits.natAbs v else ((v % 2 ^ bits.natAbs : Nat) : Int)

theorem and_sign (k v : Nat) : ((v &&& (1 <<< k)) != 0) = decide (2 ^ k ≤ v % 2 ^ (k + 1)) := by
  have h2 : v % 2 ^ (k + 1) = v % 2 ^ k + 2 ^ k * (v / 2 ^ k % 2) := Nat.mod_pow_succ
  have hlt : v % 2 ^ k < 2 ^ k := Nat.mod_lt _ (Nat.pow_pos (by decide))
  have hb : v.testBit k = decide (v / 2 ^ k % 2 = 1) := Nat.testBit_eq_decide_div_mod_eq
  have ha : v &&& (1 <<< k) = if v.testBit k then 2 ^ k else 0 := by
    apply Nat.eq_of_testBit_eq
    intro i
    rw [Nat.testBit_and, Nat.one_shiftLeft, Nat.testBit_two_pow]
    by_cases hi : k = i
    · subst hi
      cases v.testBit k <;> simp
    · cases v.testBit k <;> simp [hi]
  rw [ha, hb, h2]
  have hm : v / 2 ^ k % 2 < 2 := Nat.mod_lt _ (by decide)
  have hp : 0 < 2 ^ k := Nat.pow_pos (by decide)
  by_cases h1 : v / 2 ^ k % 2 = 1
  · rw [h1]
    simp
    try omega
  · have h0 : v / 2 ^ k % 2 = 0 := by omega
    rw [h0]
    simp
    try omega

/-- C11: with a sign (a negative number of bits) the text is that of the signed number in the low
`-bits` bits of the value: a minus sign when it is negative, then its magnitude; without a sign it
is the text of the low bits. -/
theorem C11_sign (fmt : Nat → Nat → List Char) (up : Bool) (v : Nat) (bits : Int)
    (hv : v < 2 ^ 32) (h32 : bits.natAbs ≤ 32) :
    formatSigned fmt up v bits =
      (if meant v bits < 0 then ['-'] else []) ++ fmt (meant v bits).natAbs bits.natAbs := by
  have hmask : ∀ x, x &&& (1 <<< bits.natAbs - 1) = x % 2 ^ bits.natAbs := by
    intro x
    rw [Nat.one_shiftLeft, Nat.and_two_pow_sub_one_eq_mod]
  have hminus : letter up '-' = '-' := by cases up <;> decide
  unfold formatSigned absolute
  simp only [hmask, hminus]
  by_cases hb : bits < 0
  · obtain ⟨k, hk⟩ : ∃ k, bits.natAbs = k + 1 := ⟨bits.natAbs - 1, by omega⟩
    unfold meant signedOf
    rw [if_pos hb, hk, Nat.add_sub_cancel, and_sign]
    have hpow : 2 ^ (k + 1) = 2 * 2 ^ k := by rw [Nat.pow_succ]; omega
    have hpos : 0 < 2 ^ k := Nat.pow_pos (by decide)
    have hlt : v % 2 ^ (k + 1) < 2 ^ (k + 1) := Nat.mod_lt _ (by omega)
    have hcast : ((2 : Int) ^ (k + 1)) = ((2 ^ (k + 1) : Nat) : Int) := by
      rw [Int.natCast_pow]; rfl
    rw [hcast]
    by_cases hs : 2 ^ k ≤ v % 2 ^ (k + 1)
    · rw [if_neg (show ¬ v % 2 ^ (k + 1) < 2 ^ k by omega)]
      simp only [hb, hs, decide_true, Bool.and_true, if_true]
      rw [if_pos (show (((v % 2 ^ (k + 1) : Nat) : Int)) - ((2 ^ (k + 1) : Nat) : Int) < 0 by omega)]
      have hmag : (4294967296 - v) % 4294967296 % 2 ^ (k + 1) =
          ((((v % 2 ^ (k + 1) : Nat) : Int)) - ((2 ^ (k + 1) : Nat) : Int)).natAbs := by
        have hd : 2 ^ (k + 1) ∣ 4294967296 := by
          show 2 ^ (k + 1) ∣ 2 ^ 32
          exact Nat.pow_dvd_pow 2 (by omega)
        rw [Nat.mod_mod_of_dvd _ hd]
        obtain ⟨q, hq⟩ := hd
        have hv' : v < 4294967296 := hv
        have hdm := Nat.div_add_mod v (2 ^ (k + 1))
        generalize hr : v % 2 ^ (k + 1) = r at *
        generalize hqv : v / 2 ^ (k + 1) = u at *
        generalize hP : 2 ^ (k + 1) = P at *
        have hu : u < q := by
          apply Nat.lt_of_mul_lt_mul_left (a := P)
          omega
        obtain ⟨t, rfl⟩ : ∃ t, q = u + 1 + t := ⟨q - (u + 1), by omega⟩
        have h1 : 4294967296 - v = (P - r) + P * t := by
          rw [hq, ← hdm, Nat.mul_add, Nat.mul_add, Nat.mul_one]
          omega
        rw [h1, Nat.add_mul_mod_self_left, Nat.mod_eq_of_lt (by omega)]
        omega
      rw [hmag]
    · rw [if_pos (show v % 2 ^ (k + 1) < 2 ^ k by omega)]
      simp only [hs, decide_false, Bool.and_false, Bool.false_eq_true, if_false]
      rw [if_neg (by omega)]
      rfl
  · unfold meant
    rw [if_neg hb]
    simp only [hb, decide_false, Bool.false_and, Bool.false_eq_true, if_false]
    rw [if_neg (by omega)]
    rfl

example : formatSigned (Style.hex .motorola true) true 0xFFFE (-16) = "-$0002".toList ∧
    meant 0xFFFE (-16) = -2 := by decide +kernel

end Libasm.Number
