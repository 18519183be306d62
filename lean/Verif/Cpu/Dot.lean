import Verif.Cpu.Kit
/-
Addresses before a dot, as in the bit addresses of the i8051: the dot is the delimiter of the
expression there.
-/
namespace Libasm.Cpu
open Scan Number Number.Spec Eval

theorem dot_digit (r : Radix) (s : List Char) : Head (fun c => ¬ IsDigit r.toNat c) ('.' :: s) := by
  intro c hc
  injection hc with hc
  subst hc
  cases r <;> decide

theorem dot_digitOf (r : Radix) (s : List Char) :
    Head (fun c => isDigitOf r c = false) ('.' :: s) := by
  intro c hc
  injection hc with hc
  subst hc
  cases r <;> decide

theorem dot_mark {m : Char} (hm : m ∈ marks) (h0 : m ≠ '.') (s : List Char) :
    Head (fun d => Ctype.toUpper d ≠ Ctype.toUpper m) ('.' :: s) := by
  intro c hc
  injection hc with hc
  subst hc
  revert h0
  revert hm m
  decide

theorem dot_no_suffix {ds : List Char} (h1 : ∀ c ∈ ds, IsDigit 10 c) (r : Radix) {m : Char}
    (hm : m ∈ marks) (h0 : m ≠ '.') (s : List Char) :
    scanNumberEnd (ds ++ '.' :: s) r (some m) = none := by
  have key : iexpect m (trimStart (isDigitOf r) (ds ++ '.' :: s)) = none :=
    iexpect_none (trim_head (fun c hc => digit10_mark (h1 c hc) hm) (dot_mark hm h0 s)
      (dot_digitOf r s))
  unfold scanNumberEnd
  simp only [key, ite_self]

theorem dot_plain {ds : List Char} (h1 : ∀ c ∈ ds, IsDigit 10 c) (s : List Char) (dflt : Radix) :
    intelParse (ds ++ '.' :: s) dflt = cstyleParse (ds ++ '.' :: s) dflt := by
  have hs : intelSuffix (ds ++ '.' :: s) = none := by
    unfold intelSuffix
    rw [dot_no_suffix h1 .r16 (m := 'H') (by decide) (by decide),
      dot_no_suffix h1 .r8 (m := 'O') (by decide) (by decide),
      dot_no_suffix h1 .r8 (m := 'Q') (by decide) (by decide),
      dot_no_suffix h1 .r2 (m := 'B') (by decide) (by decide),
      dot_no_suffix h1 .r10 (m := 'D') (by decide) (by decide)]
  unfold intelParse
  rw [hs]

theorem dot_cstyle_hex {v : Nat} {ds : List Char} (h : Numeral 16 v ds) (hv : v < 2 ^ 64)
    (s : List Char) (dflt : Radix) :
    intelParse ('0' :: 'x' :: (ds ++ '.' :: s)) dflt = (.OK, ⟨v, .unsigned⟩, '.' :: s) := by
  rw [intel_cstyle_hex]
  have hp : cstylePrefix ('0' :: 'x' :: (ds ++ '.' :: s)) dflt = some (.r16, ds ++ '.' :: s) := rfl
  unfold cstyleParse
  rw [hp]
  show advance _ (read .r16 (ds ++ '.' :: s)) = _
  rw [read_numeral (r := .r16) h hv (dot_digit .r16 s), advance_ok]

theorem dot_cstyle_oct {v : Nat} {ds : List Char} (h : Numeral 8 v ds) (hv : v < 2 ^ 64)
    (s : List Char) (dflt : Radix) :
    intelParse ('0' :: (ds ++ '.' :: s)) dflt = (.OK, ⟨v, .unsigned⟩, '.' :: s) := by
  have h10 : ∀ c ∈ '0' :: ds, IsDigit 10 c := by
    intro c hc
    cases hc with
    | head => exact isDigit_zero 10 (by decide)
    | tail _ hc => exact digit_mono (by decide) (h.digits c hc)
  have hpl := dot_plain h10 s dflt
  rw [List.cons_append] at hpl
  rw [hpl]
  have noprefix : ∀ m, m ∈ marks → m ≠ '.' → iexpectText ['0', m] ('0' :: (ds ++ '.' :: s)) = none := by
    intro m hm h0
    show (iexpect m (ds ++ '.' :: s)).bind (iexpectText []) = none
    rw [iexpect_none (head_append (fun d hd => digit10_mark (h10 d (List.mem_cons_of_mem _ hd)) hm)
      (dot_mark hm h0 s))]
    rfl
  have hp : cstylePrefix ('0' :: (ds ++ '.' :: s)) dflt = some (.r8, '0' :: (ds ++ '.' :: s)) := by
    unfold cstylePrefix
    rw [noprefix 'x' (by decide) (by decide), noprefix 'b' (by decide) (by decide)]
    have : isOctal (at' ('0' :: (ds ++ '.' :: s)) 1) = true := by
      obtain ⟨c, t, ht⟩ := List.exists_cons_of_ne_nil h.ne
      rw [ht]
      exact isOctal_digit (h.digits c (by rw [ht]; exact List.mem_cons_self ..))
    simp only [this]
    rfl
  have hn : Numeral 8 v ('0' :: ds) := by
    refine ⟨List.cons_ne_nil _ _, ?_, ?_⟩
    · intro c hc
      cases hc with
      | head => exact isDigit_zero 8 (by decide)
      | tail _ hc => exact h.digits c hc
    · rw [← h.value]; rfl
  unfold cstyleParse
  rw [hp]
  show advance _ (read .r8 (('0' :: ds) ++ '.' :: s)) = _
  rw [read_numeral (r := .r8) hn hv (dot_digit .r8 s), advance_ok]

/-- An address before a dot. -/
theorem dot_reads (o : Opts) (v w : Nat) (hv : v < 2 ^ w) (hw : w ≤ 32) (hw0 : 1 ≤ w) (s : List Char) :
    intelParse (outAbsAddr .intel o w v ++ '.' :: s) .r10 = (.OK, ⟨v, .unsigned⟩, '.' :: s) := by
  have hv' : v < 2 ^ 32 := Nat.lt_of_lt_of_le hv (Nat.pow_le_pow_right (by decide) hw)
  have key : ∀ fmt : Nat → Nat → List Char,
      intelParse (fmt v w ++ '.' :: s) .r10 = (.OK, ⟨v, .unsigned⟩, '.' :: s) →
      intelParse (formatSigned fmt o.upperHex v w ++ '.' :: s) .r10 = (.OK, ⟨v, .unsigned⟩, '.' :: s) := by
    intro fmt h
    rw [C11_sign fmt o.upperHex v w hv' (by omega), meant_unsigned hv, if_neg (by omega)]
    exact h
  have hoct := fmtOct_numeral o.upperHex v w hv' hw0
  have hhex := fmtHex_numeral o.upperHex v w hv' hw0
  have intelHex : intelParse (Style.intel.hex o.upperHex v w ++ '.' :: s) .r10 = (.OK, ⟨v, .unsigned⟩, '.' :: s) := by
    obtain ⟨ds, h1, h2, h3⟩ := suffixHex_numeral 'H' o.upperHex v w hv' hw0
    have e : Style.intel.hex o.upperHex v w = ds ++ [letter o.upperHex 'H'] := h1
    rw [e, List.append_assoc, List.singleton_append]
    exact intel_hex h2 h3 (by cases o.upperHex <;> decide) (wide hv') .r10
  have intelOct : intelParse (Style.intel.oct o.upperHex v w ++ '.' :: s) .r10 = (.OK, ⟨v, .unsigned⟩, '.' :: s) := by
    have e : Style.intel.oct o.upperHex v w = fmtOct o.upperHex v w ++ [letter o.upperHex 'Q'] := rfl
    rw [e, List.append_assoc, List.singleton_append]
    exact intel_oct hoct (by cases o.upperHex <;> decide) (wide hv') .r10
  unfold outAbsAddr formatter
  split
  · apply key
    split
    · have : Style.cstyle.oct o.upperHex v w ++ '.' :: s = '0' :: (fmtOct o.upperHex v w ++ '.' :: s) := by
        cases o.upperHex <;> rfl
      rw [this]
      exact dot_cstyle_oct hoct (wide hv') s .r10
    · rw [ite_self]; exact intelOct
  · apply key
    split
    · exact dot_cstyle_hex hhex (wide hv') s .r10
    · rw [ite_self]; exact intelHex

/-- An address before a dot is a constant when the dot is the delimiter. -/
theorem dot_const {L : Lexer} (hL : LexOk L .intel) (hn : L.number = .intel) (o : Opts) {v w : Nat}
    (hv : v < 2 ^ w) (hw : w ≤ 32) (hw0 : 1 ≤ w) (E : Env) (loc : Nat) (s : List Char) :
    ConstAt (L.plugins E '.' loc) (outAbsAddr .intel o w v) ('.' :: s) ⟨v, .unsigned⟩ := by
  have h := outAbsAddr_num (own := .intel) (p := .intel) (o := o)
    ⟨by decide, by decide, fun _ => Or.inr (Or.inr (by decide))⟩ v w hv hw hw0
  refine ⟨lead_ne h.lead, lead_space (h.lead.append _), hL.eol _ (h.lead.append _),
    fun st r => hL.pre _ (h.lead.append _) st r, ?_⟩
  show constant L.letter L.number.parse L.location E.float '.' loc (outAbsAddr .intel o w v ++ '.' :: s) .r10 = _
  unfold constant
  have h1 := hL.letter _ (h.lead.append ('.' :: s))
  split
  · rename_i he; rw [he] at h1; cases h1
  · rw [hn, show Parser.intel.parse = intelParse from rfl, dot_reads o v w hv hw hw0]
    rfl
  · rename_i e _ _ hne heq
    rw [heq] at h1
    exact absurd h1 hne

/-- An address before a dot. -/
theorem dot_eval {L : Lexer} (hL : LexOk L .intel) (hn : L.number = .intel) (o : Opts) {v w : Nat}
    (hv : v < 2 ^ w) (hw : w ≤ 32) (hw0 : 1 ≤ w) (E : Env) (loc : Nat) (s : List Char) :
    parseInteger (L.plugins E '.' loc) (outAbsAddr .intel o w v ++ '.' :: s) .OK =
      .ok (⟨v, .unsigned⟩, .OK, '.' :: s) :=
  eval_const_at (dot_const hL hn o hv hw hw0 E loc s) ⟨rfl, Or.inr (Or.inl rfl)⟩

end Libasm.Cpu
