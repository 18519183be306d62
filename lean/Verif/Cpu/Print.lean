import Verif.Cpu.Lemmas
/-
The numbers in printed operands: each is a text the number parser of the CPU reads.
-/
namespace Libasm.Cpu
open Scan Number Number.Spec Eval

/-- What the numbers of a style start with, if not with a digit. -/
def leads : Style → List (List Char)
  | .motorola => [['$'], ['@']]
  | .prefixDollar => [['$']]
  | .fairchild => [['h', '\''], ['H', '\''], ['o', '\''], ['O', '\'']]
  | .surroundH => [['h', '\''], ['H', '\'']]
  | .surroundX => [['x', '\''], ['X', '\'']]
  | .national => [['x', '\''], ['X', '\''], ['o', '\''], ['O', '\'']]
  | .texas => [['>']]
  | .zilog => [['%']]
  | _ => []

/-- `t` starts like a number of the style. -/
def Lead (own : Style) (t : List Char) : Prop :=
  (∃ c s, IsDigit 10 c ∧ t = c :: s) ∨ ∃ p ∈ leads own, ∃ s, t = p ++ s

theorem Lead.append {own : Style} {t : List Char} (h : Lead own t) (rest : List Char) :
    Lead own (t ++ rest) := by
  rcases h with ⟨c, s, h1, rfl⟩ | ⟨p, h1, s, rfl⟩
  · exact Or.inl ⟨c, s ++ rest, h1, rfl⟩
  · exact Or.inr ⟨p, h1, s ++ rest, by rw [List.append_assoc]⟩

/-- `t` is a text the parser reads as `v`. -/
structure NumText (own : Style) (p : Parser) (t : List Char) (v : Nat) : Prop where
  reads : ∀ rest, Ends rest → p.parse (t ++ rest) .r10 = (.OK, ⟨v, .unsigned⟩, rest)
  lead : Lead own t
  small : v < 2 ^ 32

theorem numeral_lead {own : Style} {v : Nat} {ds : List Char} (h : Number.Numeral 10 v ds) (rest : List Char) :
    Lead own (ds ++ rest) := by
  obtain ⟨c, t, ht⟩ := List.exists_cons_of_ne_nil h.ne
  exact Or.inl ⟨c, t ++ rest, h.digits c (by rw [ht]; exact List.mem_cons_self ..), by rw [ht]; rfl⟩

theorem numText_dec (own : Style) (p : Parser) (s : Style) (up : Bool) (v : Nat)
    (hv : v < 2 ^ 32) : NumText own p (s.dec up v) v := by
  refine ⟨fun rest hr => C11_dec s p up v hv rest hr, ?_, hv⟩
  have := numeral_lead (own := own) (fmtDec_numeral up v hv) []
  rw [List.append_nil] at this
  exact this

theorem lead_head {own : Style} {c : Char} (h : IsDigit 10 c) (s : List Char) : Lead own (c :: s) :=
  Or.inl ⟨c, s, h, rfl⟩

theorem zero_digit : IsDigit 10 '0' := isDigit_zero 10 (by decide)

theorem numText_cstyle (own : Style) (p : Parser) (up : Bool) (v w : Nat) (hv : v < 2 ^ 32)
    (hw : 1 ≤ w) : NumText own p (Style.cstyle.hex up v w) v ∧
      NumText own p (Style.cstyle.oct up v w) v :=
  ⟨⟨fun rest hr => (C11_cstyle p up v w hv hw rest hr .r10).1, lead_head zero_digit _, hv⟩,
   ⟨fun rest hr => (C11_cstyle p up v w hv hw rest hr .r10).2.2,
    by cases up <;> exact lead_head zero_digit _, hv⟩⟩

theorem nodot {ds rest : List Char} {c : Char} (h : ∀ d ∈ ds, IsDigit 16 d)
    (hc : c ∈ ['H', 'h', 'Q', 'q']) :
    scanNumberEnd (ds ++ c :: rest) .r10 (some '.') = none := by
  have hx : ∀ d : Char, IsDigit 16 d ∨ d ∈ ['H', 'h', 'Q', 'q'] →
      Ctype.toUpper d ≠ Ctype.toUpper '.' := by
    intro d hd
    rcases hd with hd | hd
    · exact Ctype.ascii (p := fun d => IsDigit 16 d → Ctype.toUpper d ≠ Ctype.toUpper '.')
        (by decide +kernel) d (digit_ascii hd) hd
    · revert d; decide
  have key : iexpect '.' (trimStart (isDigitOf .r10) (ds ++ c :: rest)) = none :=
    iexpect_none (trim_head (fun d hd => hx d (Or.inl (h d hd)))
      (by intro d hd; injection hd with hd; subst hd; exact hx _ (Or.inr hc))
      (by
        intro d hd
        injection hd with hd
        subst hd
        simp only [List.mem_cons, List.not_mem_nil, or_false] at hc
        rcases hc with rfl | rfl | rfl | rfl <;> decide))
  unfold scanNumberEnd
  simp only [key, ite_self]

theorem numText_intel (own : Style) (p : Parser) (hp : p ≠ .cstyle) (up : Bool) (v w : Nat)
    (hv : v < 2 ^ 32) (hw : 1 ≤ w) : NumText own p (Style.intel.hex up v w) v ∧
      NumText own p (Style.intel.oct up v w) v := by
  constructor
  · obtain ⟨ds, h1, h2, h3⟩ := suffixHex_numeral 'H' up v w hv hw
    obtain ⟨c, t, ht⟩ := List.exists_cons_of_ne_nil h2.ne
    have hc : IsDigit 10 c := by
      rw [ht] at h3
      exact (isDigitOf_iff .r10 c).1 h3
    have e : Style.intel.hex up v w = ds ++ [letter up 'H'] := h1
    rw [e]
    refine ⟨fun rest hr => ?_, by rw [ht]; exact lead_head hc _, hv⟩
    rw [List.append_assoc, List.singleton_append]
    have hd : scanNumberEnd (ds ++ letter up 'H' :: rest) .r10 (some '.') = none :=
      nodot h2.digits (by cases up <;> decide)
    have := intel_hex (rest := rest) h2 h3 (c := letter up 'H') (by cases up <;> decide) (wide hv) .r10
    rw [ht, List.cons_append] at *
    rw [parse_decimal_start p hp c _ hc .r10 hd]
    exact this
  · have h2 := fmtOct_numeral up v w hv hw
    obtain ⟨c, t, ht⟩ := List.exists_cons_of_ne_nil h2.ne
    have hc : IsDigit 10 c :=
      digit_mono (by decide) (h2.digits c (by rw [ht]; exact List.mem_cons_self ..))
    have e : Style.intel.oct up v w = fmtOct up v w ++ [letter up 'Q'] := rfl
    rw [e]
    refine ⟨fun rest hr => ?_, by rw [ht]; exact lead_head hc _, hv⟩
    rw [List.append_assoc, List.singleton_append]
    have hd : scanNumberEnd (fmtOct up v w ++ letter up 'Q' :: rest) .r10 (some '.') = none :=
      nodot (fun d hd => digit_mono (by decide) (h2.digits d hd)) (by cases up <;> decide)
    have := intel_oct (rest := rest) h2 (c := letter up 'Q') (by cases up <;> decide) (wide hv) .r10
    rw [ht, List.cons_append] at *
    rw [parse_decimal_start p hp c _ hc .r10 hd]
    exact this

theorem lead_pre {own : Style} {up : Bool} (p : List Char) (hp : pre up p ∈ leads own)
    (s : List Char) : Lead own (pre up p ++ s) := Or.inr ⟨_, hp, s, rfl⟩

theorem lead_pre3 {own : Style} {up : Bool} (p : List Char) (hp : pre up p ∈ leads own)
    (s u : List Char) : Lead own (pre up p ++ s ++ u) := by
  rw [List.append_assoc]; exact lead_pre p hp _

theorem hex_lead (own : Style) (p : Parser) (h : (own, p) ∈ hexPairs) (up : Bool) (v w : Nat)
    (hv : v < 2 ^ 32) (hw : 1 ≤ w) : Lead own (own.hex up v w) := by
  have suf : ∀ suffix, Lead own (fmtSuffixHex suffix up v w) := by
    intro suffix
    obtain ⟨ds, h1, h2, h3⟩ := suffixHex_numeral suffix up v w hv hw
    obtain ⟨c, t, ht⟩ := List.exists_cons_of_ne_nil h2.ne
    rw [ht] at h3
    rw [h1, ht]
    exact lead_head ((isDigitOf_iff .r10 c).1 h3) _
  simp only [hexPairs, List.mem_cons, Prod.mk.injEq, List.not_mem_nil, or_false] at h
  rcases h with h | h | h | h | h | h | h | h | h | h | h | h <;> obtain ⟨rfl, rfl⟩ := h
  · exact suf 'H'
  · exact suf 'h'
  · exact lead_pre ['$'] (by cases up <;> decide) _
  · exact lead_pre ['$'] (by cases up <;> decide) _
  · exact lead_pre3 ['h', '\''] (by cases up <;> decide) _ _
  · exact lead_pre3 ['h', '\''] (by cases up <;> decide) _ _
  · exact lead_pre3 ['x', '\''] (by cases up <;> decide) _ _
  · exact lead_pre3 ['x', '\''] (by cases up <;> decide) _ _
  · exact lead_pre ['x', '\''] (by cases up <;> decide) _
  · exact lead_pre ['x', '\''] (by cases up <;> decide) _
  · exact lead_pre ['>'] (by cases up <;> decide) _
  · exact lead_pre ['%'] (by cases up <;> decide) _

theorem oct_lead (own : Style) (p : Parser) (h : (own, p) ∈ octPairs) (up : Bool) (v w : Nat)
    (hv : v < 2 ^ 32) (hw : 1 ≤ w) : Lead own (own.oct up v w) := by
  simp only [octPairs, List.mem_cons, Prod.mk.injEq, List.not_mem_nil, or_false] at h
  rcases h with h | h | h | h | h <;> obtain ⟨rfl, rfl⟩ := h
  · exact (numText_intel .intel .intel (by decide) up v w hv hw).2.lead
  · exact lead_pre ['@'] (by cases up <;> decide) _
  · exact lead_pre3 ['o', '\''] (by cases up <;> decide) _ _
  · exact lead_pre ['o', '\''] (by cases up <;> decide) _
  · refine Or.inr ⟨pre up ['%'], by cases up <;> decide, pre up ['(', '8', ')'] ++ fmtOct up v w, ?_⟩
    show pre up ['%', '(', '8', ')'] ++ _ = _
    cases up <;> rfl

/-- The assembler of the CPU reads the numbers its disassembler writes with these options. -/
structure Pairs (own : Style) (p : Parser) (o : Opts) : Prop where
  notC : p ≠ .cstyle
  hex : (own, p) ∈ hexPairs
  oct : o.octal = true → o.cstyle = true ∨ o.intelHex = true ∨ (own, p) ∈ octPairs

theorem formatter_hex {own : Style} {p : Parser} {o : Opts} (h : Pairs own p o) (v w : Nat)
    (hv : v < 2 ^ 32) (hw : 1 ≤ w) : NumText own p ((formatter own o).hex o.upperHex v w) v := by
  unfold formatter
  split
  · exact (numText_cstyle own p _ v w hv hw).1
  · split
    · exact (numText_intel own p h.notC _ v w hv hw).1
    · exact ⟨fun rest hr => C11_hex own p h.hex _ v w hv hw rest hr .r10,
        hex_lead own p h.hex _ v w hv hw, hv⟩

theorem formatter_oct {own : Style} {p : Parser} {o : Opts} (h : Pairs own p o)
    (ho : o.octal = true) (v w : Nat)
    (hv : v < 2 ^ 32) (hw : 1 ≤ w) : NumText own p ((formatter own o).oct o.upperHex v w) v := by
  unfold formatter
  split
  · exact (numText_cstyle own p _ v w hv hw).2
  · split
    · exact (numText_intel own p h.notC _ v w hv hw).2
    · rename_i h1 h2
      have h3 : (own, p) ∈ octPairs := by
        rcases h.oct ho with h3 | h3 | h3
        · exact absurd h3 h1
        · exact absurd h3 h2
        · exact h3
      exact ⟨fun rest hr => C11_oct own p h3 _ v w hv hw rest hr .r10,
        oct_lead own p h3 _ v w hv hw, hv⟩

/-- A number with its sign: `x` is what it means. -/
structure SignedText (own : Style) (p : Parser) (text : List Char) (x : Int) : Prop where
  ex : ∃ t, text = (if x < 0 then ['-'] else []) ++ t ∧ NumText own p t x.natAbs

theorem meant_small (v : Nat) (bits : Int) (hb : bits.natAbs ≤ 32) (hv : v < 2 ^ 32) :
    (meant v bits).natAbs < 2 ^ 32 := by
  have h1 : v % 2 ^ bits.natAbs ≤ v := Nat.mod_le _ _
  have h2 : 2 ^ bits.natAbs ≤ 2 ^ 32 := Nat.pow_le_pow_right (by decide) hb
  have h3 : v % 2 ^ bits.natAbs < 2 ^ bits.natAbs := Nat.mod_lt _ (Nat.pow_pos (by decide))
  unfold meant signedOf
  split
  · have hcast : ((2 : Int) ^ bits.natAbs) = ((2 ^ bits.natAbs : Nat) : Int) := by
      rw [Int.natCast_pow]; rfl
    rw [hcast]
    split
    · omega
    · rename_i h4
      have hk : 0 < 2 ^ (bits.natAbs - 1) := Nat.pow_pos (by decide)
      omega
  · omega

theorem signed_text {own : Style} {p : Parser} {fmt : Nat → Nat → List Char} (up : Bool) (v : Nat)
    (bits : Int) (hv : v < 2 ^ 32) (hb : bits.natAbs ≤ 32)
    (hf : ∀ x, x < 2 ^ 32 → NumText own p (fmt x bits.natAbs) x) :
    SignedText own p (formatSigned fmt up v bits) (meant v bits) :=
  ⟨_, C11_sign fmt up v bits hv hb, hf _ (meant_small v bits hb hv)⟩

theorem outDec_text {own : Style} {p : Parser} {o : Opts} (h : Pairs own p o) (v : Nat) (bits : Int)
    (hv : v < 2 ^ 32) (hb : bits.natAbs ≤ 32) (hb0 : bits ≠ 0) :
    SignedText own p (outDec own o v bits) (meant v bits) := by
  unfold outDec
  split
  · exact signed_text _ _ _ hv hb (fun x hx => formatter_oct h (by assumption) x _ hx (by omega))
  · exact signed_text _ _ _ hv hb (fun x hx => numText_dec own p _ _ x hx)

theorem outHex_text {own : Style} {p : Parser} {o : Opts} (h : Pairs own p o) (v : Nat) (bits : Int)
    (relax : Bool) (hv : v < 2 ^ 32) (hb : bits.natAbs ≤ 32) (hb0 : bits ≠ 0) :
    SignedText own p (outHex own o v bits relax) (meant v bits) := by
  unfold outHex
  split
  · exact signed_text _ _ _ hv hb (fun x hx => formatter_oct h (by assumption) x _ hx (by omega))
  · split
    · exact signed_text _ _ _ hv hb (fun x hx => numText_dec own p _ _ x hx)
    · exact signed_text _ _ _ hv hb (fun x hx => formatter_hex h x _ hx (by omega))

theorem unsigned_text {own : Style} {p : Parser} {t : List Char} {v : Nat}
    (h : SignedText own p t (v : Int)) : NumText own p t v := by
  obtain ⟨s, h1, h2⟩ := h.ex
  rw [if_neg (by omega)] at h1
  rw [h1]
  exact h2

theorem meant_unsigned {v w : Nat} (h : v < 2 ^ w) : meant v (w : Int) = (v : Int) := by
  unfold meant
  rw [if_neg (by omega)]
  have : (w : Int).natAbs = w := rfl
  rw [this, Nat.mod_eq_of_lt h]

theorem outDec_num {own : Style} {p : Parser} {o : Opts} (h : Pairs own p o) (v w : Nat)
    (hv : v < 2 ^ w) (hw : w ≤ 32) (hw0 : 1 ≤ w) : NumText own p (outDec own o v (w : Int)) v := by
  have := outDec_text h v (w : Int) (Nat.lt_of_lt_of_le hv (Nat.pow_le_pow_right (by decide) hw))
    (by omega) (by omega)
  rw [meant_unsigned hv] at this
  exact unsigned_text this

theorem outHex_num {own : Style} {p : Parser} {o : Opts} (h : Pairs own p o) (v w : Nat)
    (relax : Bool) (hv : v < 2 ^ w) (hw : w ≤ 32) (hw0 : 1 ≤ w) :
    NumText own p (outHex own o v (w : Int) relax) v := by
  have := outHex_text h v (w : Int) relax
    (Nat.lt_of_lt_of_le hv (Nat.pow_le_pow_right (by decide) hw)) (by omega) (by omega)
  rw [meant_unsigned hv] at this
  exact unsigned_text this

theorem outAbsAddr_num {own : Style} {p : Parser} {o : Opts} (h : Pairs own p o) (v w : Nat)
    (hv : v < 2 ^ w) (hw : w ≤ 32) (hw0 : 1 ≤ w) : NumText own p (outAbsAddr own o w v) v := by
  have hv' : v < 2 ^ 32 := Nat.lt_of_lt_of_le hv (Nat.pow_le_pow_right (by decide) hw)
  have : SignedText own p (outAbsAddr own o w v) (meant v (w : Int)) := by
    unfold outAbsAddr
    split
    · exact signed_text _ _ _ hv' (by omega)
        (fun x hx => formatter_oct h (by assumption) x _ hx (by omega))
    · exact signed_text _ _ _ hv' (by omega) (fun x hx => formatter_hex h x _ hx (by omega))
  rw [meant_unsigned hv] at this
  exact unsigned_text this

theorem delta_eq {a b : Nat} (ha : a < 2147483648) (hb : b < 2147483648) :
    Config.int32 (Config.sub32 a b) = (a : Int) - b := by
  unfold Config.int32 Config.sub32 Config.W
  split <;> omega

/-- What `outRelAddr` prints: an address, the location symbol, or the location symbol with a
displacement. -/
theorem outRelAddr_text {own : Style} {p : Parser} {o : Opts} (h : Pairs own p o)
    (width target origin bits : Nat) (ht : target < 2 ^ width) (hw : width ≤ 31) (hw0 : 1 ≤ width)
    (ho : origin < 2 ^ width) (hb : bits ≤ 32) (hb0 : 1 ≤ bits)
    (hd : ((target : Int) - origin).natAbs < 2 ^ bits) :
    (o.relative = false ∧ NumText own p (outRelAddr own o width target origin bits) target) ∨
    (o.relative = true ∧ target = origin ∧
      outRelAddr own o width target origin bits = [letter o.upper o.curSym]) ∨
    (o.relative = true ∧ ∃ t, NumText own p t ((target : Int) - origin).natAbs ∧
      outRelAddr own o width target origin bits = letter o.upper o.curSym ::
        (if (target : Int) - origin < 0 then '-' else '+') :: t) := by
  unfold outRelAddr
  cases hr : o.relative with
  | false =>
    left
    refine ⟨rfl, ?_⟩
    rw [if_pos (by simp)]
    exact outAbsAddr_num h target width ht (by omega) hw0
  | true =>
    right
    have h31 : 2 ^ width ≤ 2 ^ 31 := Nat.pow_le_pow_right (by decide) hw
    have hdel : Config.int32 (Config.sub32 target origin) = (target : Int) - origin :=
      delta_eq (Nat.lt_of_lt_of_le ht h31) (Nat.lt_of_lt_of_le ho h31)
    simp only [Bool.not_true, Bool.false_eq_true, if_false, hdel]
    by_cases h0 : (target : Int) - origin = 0
    · left
      rw [if_pos h0]
      exact ⟨trivial, by omega, rfl⟩
    · right
      rw [if_neg h0]
      have hs : letter o.upper (if (target : Int) - origin < 0 then '-' else '+') =
          (if (target : Int) - origin < 0 then '-' else '+') := by
        split <;> cases o.upper <;> decide
      have hlt : ((target : Int) - origin).natAbs < 2 ^ 32 :=
        Nat.lt_of_lt_of_le hd (Nat.pow_le_pow_right (by decide) hb)
      refine ⟨trivial, _, ?_, by rw [hs]⟩
      split
      · have := signed_text (own := own) (p := p) o.upperHex _ (bits : Int) hlt (by omega)
          (fun x hx => formatter_oct h (by assumption) x _ hx (by omega))
        rw [meant_unsigned hd] at this
        exact unsigned_text this
      · split
        · have := signed_text (own := own) (p := p)
            (fmt := fun v _ => (formatter own o).dec o.upperHex v) o.upperHex _ (bits : Int) hlt
            (by omega) (fun x hx => numText_dec own p (formatter own o) o.upperHex x hx)
          rw [meant_unsigned hd] at this
          exact unsigned_text this
        · exact outHex_num h _ bits true hd hb hb0

end Libasm.Cpu
