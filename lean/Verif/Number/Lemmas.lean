import Verif.Number.Model
import Verif.Number.Spec
/-
Lemmas for the number parsers and formatters.
-/
namespace Libasm.Number
open Ctype Scan Spec

theorem digit_ascii {b : Nat} {c : Char} (h : IsDigit b c) : c.toNat < 128 := by
  obtain ⟨d, hd, _⟩ := h
  unfold digitVal at hd
  split at hd
  · omega
  split at hd
  · omega
  split at hd
  · omega
  · cases hd

theorem isDigitOf_ascii (r : Radix) (c : Char) (h : isDigitOf r c = true) : c.toNat < 128 := by
  cases r with
  | r2 =>
    change (decide (48 ≤ c.toNat) && decide (c.toNat < 48 + 2)) = true at h
    rw [Bool.and_eq_true, decide_eq_true_eq, decide_eq_true_eq] at h; omega
  | r8 =>
    change (decide (48 ≤ c.toNat) && decide (c.toNat < 48 + 8)) = true at h
    rw [Bool.and_eq_true, decide_eq_true_eq, decide_eq_true_eq] at h; omega
  | r10 =>
    change (decide (48 ≤ c.toNat) && decide (c.toNat < 48 + 10)) = true at h
    rw [Bool.and_eq_true, decide_eq_true_eq, decide_eq_true_eq] at h; omega
  | r16 =>
    simp only [isDigitOf, isXdigit, isDigit, Bool.and_eq_true, Bool.or_eq_true,
      decide_eq_true_eq] at h
    omega

theorem isDigitOf_iff (r : Radix) (c : Char) : isDigitOf r c = true ↔ IsDigit r.toNat c := by
  by_cases hc : c.toNat < 128
  · exact Ctype.ascii (p := fun c => isDigitOf r c = true ↔ IsDigit r.toNat c)
      (by cases r <;> decide +kernel) c hc
  · exact ⟨fun h => absurd (isDigitOf_ascii r c h) hc, fun h => absurd (digit_ascii h) hc⟩

theorem isDigitOf_false (r : Radix) (c : Char) (h : ¬ IsDigit r.toNat c) : isDigitOf r c = false := by
  cases hb : isDigitOf r c with
  | false => rfl
  | true => exact absurd ((isDigitOf_iff r c).1 hb) h

theorem toNumber_eq (r : Radix) (c : Char) (h : IsDigit r.toNat c) :
    digitVal c = some (toNumber r c) :=
  Ctype.ascii (p := fun c => IsDigit r.toNat c → digitVal c = some (toNumber r c))
    (by cases r <;> decide +kernel) c (digit_ascii h) h

theorem toNumber_lt (r : Radix) (c : Char) (h : IsDigit r.toNat c) : toNumber r c < r.toNat := by
  obtain ⟨d, hd, hlt⟩ := h
  rw [toNumber_eq r c ⟨d, hd, hlt⟩] at hd
  cases hd
  exact hlt

/-- The numeric value with a start value. -/
def valFrom (b : Nat) (a : Nat) (ds : List Char) : Nat :=
  ds.foldl (fun a c => a * b + (digitVal c).getD 0) a

theorem radix_pos (r : Radix) : 2 ≤ r.toNat ∧ r.toNat ≤ 16 := by cases r <;> decide

theorem valFrom_ge (b a : Nat) (hb : 1 ≤ b) (ds : List Char) : a ≤ valFrom b a ds := by
  induction ds generalizing a with
  | nil => exact Nat.le_refl _
  | cons c t ih =>
    have h := ih (a * b + (digitVal c).getD 0)
    have : a ≤ a * b := Nat.le_mul_of_pos_right a hb
    show a ≤ valFrom b (a * b + (digitVal c).getD 0) t
    omega

theorem limit_iff (r : Radix) (v n : Nat) (hn : n < r.toNat) :
    (v > (Value.M - 1) / r.toNat ∨ (v = (Value.M - 1) / r.toNat ∧ n > (Value.M - 1) % r.toNat)) ↔
      2 ^ 64 ≤ v * r.toNat + n := by
  have hM : Value.M = 18446744073709551616 := rfl
  rw [hM]
  cases r <;> simp only [Radix.toNat] at hn ⊢ <;> omega

/-- Once the flag is set it stays, and the text after the digits is left. -/
theorem strLoop_sticky (r : Radix) (ds rest : List Char) (hds : ∀ c ∈ ds, IsDigit r.toNat c)
    (hrest : ∀ c, rest.head? = some c → ¬ IsDigit r.toNat c) (v : Nat) :
    ∃ v', strLoop r (ds ++ rest) v true = (v', true, rest) := by
  induction ds generalizing v with
  | nil =>
    cases rest with
    | nil => exact ⟨v, rfl⟩
    | cons c t =>
      refine ⟨v, ?_⟩
      show strLoop r (c :: t) v true = _
      unfold strLoop
      rw [isDigitOf_false r c (hrest c rfl)]
      rfl
  | cons c t ih =>
    obtain ⟨v', h⟩ := ih (fun d hd => hds d (List.mem_cons_of_mem _ hd))
      ((v * r.toNat % Value.M + toNumber r c) % Value.M)
    refine ⟨v', ?_⟩
    show strLoop r (c :: (t ++ rest)) v true = _
    rw [strLoop, (isDigitOf_iff r c).2 (hds c (List.mem_cons_self ..))]
    simp only [ite_self, if_true]
    exact h

theorem strLoop_value (r : Radix) (ds rest : List Char) (hds : ∀ c ∈ ds, IsDigit r.toNat c)
    (hrest : ∀ c, rest.head? = some c → ¬ IsDigit r.toNat c) (v : Nat) (hv : v < 2 ^ 64) :
    (valFrom r.toNat v ds < 2 ^ 64 →
      strLoop r (ds ++ rest) v false = (valFrom r.toNat v ds, false, rest)) ∧
    (¬ valFrom r.toNat v ds < 2 ^ 64 →
      ∃ v', strLoop r (ds ++ rest) v false = (v', true, rest)) := by
  induction ds generalizing v with
  | nil =>
    refine ⟨fun _ => ?_, fun h => absurd hv h⟩
    cases rest with
    | nil => rfl
    | cons c t =>
      show strLoop r (c :: t) v false = _
      unfold strLoop
      rw [isDigitOf_false r c (hrest c rfl)]
      rfl
  | cons c t ih =>
    have hc := hds c (List.mem_cons_self ..)
    have ht := fun d hd => hds d (List.mem_cons_of_mem c hd)
    have hn := toNumber_lt r c hc
    have hval : valFrom r.toNat v (c :: t) =
        valFrom r.toNat (v * r.toNat + toNumber r c) t := by
      show valFrom r.toNat (v * r.toNat + (digitVal c).getD 0) t = _
      rw [toNumber_eq r c hc]; rfl
    have hstep : strLoop r (c :: t ++ rest) v false =
        strLoop r (t ++ rest) ((v * r.toNat % Value.M + toNumber r c) % Value.M)
          (if v > (Value.M - 1) / r.toNat ∨
            (v = (Value.M - 1) / r.toNat ∧ toNumber r c > (Value.M - 1) % r.toNat)
           then true else false) := by
      show strLoop r (c :: (t ++ rest)) v false = _
      rw [strLoop, (isDigitOf_iff r c).2 hc]
      rfl
    have hM : Value.M = 2 ^ 64 := by decide
    by_cases hov : 2 ^ 64 ≤ v * r.toNat + toNumber r c
    · have hge := valFrom_ge r.toNat (v * r.toNat + toNumber r c) (by have := radix_pos r; omega) t
      rw [hval]
      refine ⟨fun h => absurd h (by omega), fun _ => ?_⟩
      rw [hstep, if_pos ((limit_iff r v _ hn).2 hov)]
      exact strLoop_sticky r t rest ht hrest _
    · rw [hval, hstep, if_neg (fun h => hov ((limit_iff r v _ hn).1 h))]
      have h1 : (v * r.toNat % Value.M + toNumber r c) % Value.M =
          v * r.toNat + toNumber r c := by
        rw [hM, Nat.mod_eq_of_lt (a := v * r.toNat) (by omega), Nat.mod_eq_of_lt (by omega)]
      rw [h1]
      exact ih ht _ (by omega)

theorem read_digits (r : Radix) (ds rest : List Char) (hne : ds ≠ [])
    (hds : ∀ c ∈ ds, IsDigit r.toNat c)
    (hrest : ∀ c, rest.head? = some c → ¬ IsDigit r.toNat c) :
    read r (ds ++ rest) =
      if valueOf r.toNat ds < 2 ^ 64 then (.OK, ⟨valueOf r.toNat ds, .unsigned⟩, rest)
      else (.OVERFLOW_RANGE, Value.undefined, rest) := by
  obtain ⟨h1, h2⟩ := strLoop_value r ds rest hds hrest 0 (by decide)
  have hv : valFrom r.toNat 0 ds = valueOf r.toNat ds := rfl
  rw [hv] at h1 h2
  have hhead : isDigitOf r (deref (ds ++ rest)) = true := by
    cases ds with
    | nil => exact absurd rfl hne
    | cons c t => exact (isDigitOf_iff r c).2 (hds c (List.mem_cons_self ..))
  unfold read
  rw [hhead]
  by_cases h : valueOf r.toNat ds < 2 ^ 64
  · rw [h1 h, if_pos h]; rfl
  · obtain ⟨v', h2⟩ := h2 h
    rw [h2, if_neg h]; rfl

theorem isDigitOf_nul (r : Radix) : isDigitOf r '\x00' = false := by cases r <;> decide

theorem read_none (r : Radix) (s : Scan) (h : ∀ c, s.head? = some c → ¬ IsDigit r.toNat c) :
    read r s = (.NOT_AN_EXPECTED, Value.undefined, s) := by
  have : isDigitOf r (deref s) = false := by
    cases s with
    | nil => exact isDigitOf_nul r
    | cons c t => exact isDigitOf_false r c (h c rfl)
  unfold read
  rw [this]
  rfl

/-! ### Digits written by the formatters -/

theorem letter_digit (up : Bool) (d : Nat) (hd : d < 16) :
    digitVal (letter up (digitChar d)) = some d := by
  revert d; cases up <;> decide +kernel

/-- Value of a digit list, least significant first. -/
def valRev (b : Nat) (ds : List Char) : Nat :=
  ds.foldr (fun c a => a * b + (digitVal c).getD 0) 0

theorem valueOf_reverse (b : Nat) (ds : List Char) : valueOf b ds.reverse = valRev b ds := by
  simp [valueOf, valRev, List.foldl_reverse]

theorem revDigits_val (b : Nat) (hb : 2 ≤ b) (hb' : b ≤ 16) (up : Bool) (fuel v : Nat)
    (hv : v < b ^ fuel) : valRev b ((revDigits b fuel v).map (letter up)) = v := by
  induction fuel generalizing v with
  | zero => simp at hv; subst hv; rfl
  | succ n ih =>
    unfold revDigits
    by_cases h0 : v = 0
    · rw [if_pos h0, h0]; rfl
    · rw [if_neg h0]
      have hlt : v / b < b ^ n := by
        rw [Nat.div_lt_iff_lt_mul (by omega), ← Nat.pow_succ]; exact hv
      have hm : v % b < b := Nat.mod_lt _ (by omega)
      show valRev b ((revDigits b n (v / b)).map (letter up)) * b +
        (digitVal (letter up (digitChar (v % b)))).getD 0 = v
      rw [ih _ hlt, letter_digit up _ (by omega), Nat.mul_comm]
      exact Nat.div_add_mod v b

theorem revDigits_digit (b : Nat) (hb : 2 ≤ b) (hb' : b ≤ 16) (up : Bool) (fuel v : Nat) :
    ∀ c ∈ (revDigits b fuel v).map (letter up), IsDigit b c := by
  induction fuel generalizing v with
  | zero => intro c hc; cases hc
  | succ n ih =>
    unfold revDigits
    by_cases h0 : v = 0
    · rw [if_pos h0]; intro c hc; cases hc
    · rw [if_neg h0]
      have hm : v % b < b := Nat.mod_lt _ (by omega)
      intro c hc
      cases hc with
      | head => exact ⟨v % b, letter_digit up _ (by omega), hm⟩
      | tail _ h => exact ih _ c h

theorem revDigits_ne (b : Nat) (fuel v : Nat) (h : v ≠ 0) : revDigits b (fuel + 1) v ≠ [] := by
  unfold revDigits; rw [if_neg h]; exact List.cons_ne_nil _ _

theorem letter_zero (up : Bool) : letter up '0' = '0' := by cases up <;> decide

theorem zeroFill_map (n : Nat) (ds : List Char) (up : Bool) :
    (zeroFill n ds).map (letter up) =
      ds.map (letter up) ++ List.replicate (n - ds.length) '0' := by
  simp [zeroFill, letter_zero]

theorem valRev_zeros (b k : Nat) (ds : List Char) :
    valRev b (ds ++ List.replicate k '0') = valRev b ds := by
  have h0 : valRev b (List.replicate k '0') = 0 := by
    induction k with
    | zero => rfl
    | succ k ih =>
      show valRev b (List.replicate k '0') * b + (digitVal '0').getD 0 = 0
      rw [ih]; simp [digitVal]
  unfold valRev at h0 ⊢
  rw [List.foldr_append, h0]

/-- What every formatter writes between prefix and suffix. -/
structure Numeral (b v : Nat) (ds : List Char) : Prop where
  ne : ds ≠ []
  digits : ∀ c ∈ ds, IsDigit b c
  value : valueOf b ds = v

theorem isDigit_zero (b : Nat) (hb : 2 ≤ b) : IsDigit b '0' := ⟨0, rfl, by omega⟩

theorem pow32 (b : Nat) (hb : 2 ≤ b) (v : Nat) (hv : v < 2 ^ 32) : v < b ^ 32 :=
  Nat.lt_of_lt_of_le hv (Nat.pow_le_pow_left hb 32)

theorem filled_numeral (b : Nat) (hb : 2 ≤ b) (hb' : b ≤ 16) (up : Bool) (v n : Nat)
    (hv : v < 2 ^ 32) (hn : 1 ≤ n ∨ v ≠ 0) :
    Numeral b v ((zeroFill n (revDigits b 32 v)).map (letter up)).reverse := by
  rw [zeroFill_map]
  refine ⟨?_, ?_, ?_⟩
  · intro h
    rw [List.reverse_eq_nil_iff, List.append_eq_nil_iff] at h
    have h1 : revDigits b 32 v = [] := List.map_eq_nil_iff.1 h.1
    by_cases h0 : v = 0
    · have h2 := h.2
      rw [h1] at h2
      simp at h2
      omega
    · exact revDigits_ne b 31 v h0 h1
  · intro c hc
    rw [List.mem_reverse, List.mem_append] at hc
    cases hc with
    | inl h => exact revDigits_digit b hb hb' up 32 v c h
    | inr h => rw [(List.mem_replicate.1 h).2]; exact isDigit_zero b hb
  · rw [valueOf_reverse, valRev_zeros, revDigits_val b hb hb' up 32 v (pow32 b hb v hv)]

theorem fmtBin_numeral (up : Bool) (v w : Nat) (hv : v < 2 ^ 32) (hw : 1 ≤ w) :
    Numeral 2 v (fmtBin up v w) :=
  filled_numeral 2 (by decide) (by decide) up v w hv (Or.inl hw)

theorem fmtOct_numeral (up : Bool) (v w : Nat) (hv : v < 2 ^ 32) (hw : 1 ≤ w) :
    Numeral 8 v (fmtOct up v w) :=
  filled_numeral 8 (by decide) (by decide) up v _ hv (Or.inl (by
    by_cases h : w % 3 ≠ 0
    · rw [if_pos h]; omega
    · rw [if_neg h]; omega))

theorem fmtHex_numeral (up : Bool) (v w : Nat) (hv : v < 2 ^ 32) (hw : 1 ≤ w) :
    Numeral 16 v (fmtHex up v w) :=
  filled_numeral 16 (by decide) (by decide) up v _ hv (Or.inl (by
    by_cases h : w % 4 ≠ 0
    · rw [if_pos h]; omega
    · rw [if_neg h]; omega))

/-- The last digit written, the leading one, is not zero. -/
theorem revDigits_lead (b : Nat) (hb : 2 ≤ b) (hb' : b ≤ 16) (up : Bool) (fuel v : Nat)
    (hv : v < b ^ fuel) (h0 : v ≠ 0) :
    ∃ l c, (revDigits b fuel v).map (letter up) = l ++ [c] ∧ c ≠ '0' := by
  induction fuel generalizing v with
  | zero => simp at hv; exact absurd hv h0
  | succ n ih =>
    have hlt : v / b < b ^ n := by
      rw [Nat.div_lt_iff_lt_mul (by omega), ← Nat.pow_succ]; exact hv
    unfold revDigits
    rw [if_neg h0]
    by_cases hq : v / b = 0
    · refine ⟨[], letter up (digitChar (v % b)), ?_, ?_⟩
      · rw [hq]
        cases n <;> simp [revDigits]
      · intro h
        have hm : v % b < b := Nat.mod_lt _ (by omega)
        have h2 := letter_digit up (v % b) (by omega)
        rw [h] at h2
        have : v % b = 0 := by
          have : digitVal '0' = some 0 := rfl
          rw [this] at h2
          injection h2 with h2; omega
        have := Nat.div_add_mod v b
        rw [hq] at this
        omega
    · obtain ⟨l, c, h1, h2⟩ := ih _ hlt hq
      exact ⟨letter up (digitChar (v % b)) :: l, c, by rw [List.map_cons, h1]; rfl, h2⟩

theorem fmtDec_numeral (up : Bool) (v : Nat) (hv : v < 2 ^ 32) : Numeral 10 v (fmtDec up v) := by
  unfold fmtDec outDec
  by_cases h : v = 0
  · rw [if_pos h, h]
    refine ⟨by simp, ?_, ?_⟩
    · cases up <;> decide
    · cases up <;> decide
  · rw [if_neg h]
    have := filled_numeral 10 (by decide) (by decide) up v 0 hv (Or.inr h)
    simpa [zeroFill] using this

/-- A decimal number is "0" or does not start with '0'. -/
theorem fmtDec_head (up : Bool) (v : Nat) (hv : v < 2 ^ 32) :
    fmtDec up v = ['0'] ∨ ∃ c l, fmtDec up v = c :: l ∧ c ≠ '0' := by
  unfold fmtDec outDec
  by_cases h : v = 0
  · rw [if_pos h]; left; cases up <;> decide
  · rw [if_neg h]
    right
    obtain ⟨l, c, h1, h2⟩ := revDigits_lead 10 (by decide) (by decide) up 32 v
      (pow32 10 (by decide) v hv) h
    exact ⟨c, l.reverse, by rw [h1]; simp, h2⟩

end Libasm.Number
