import Verif.Eval.TreeEval
import Verif.Value.Props
/-
The value of a tree from the operators of the code denotes the integer of the specification.
-/
namespace Libasm.Eval
open Scan Number Ctype Spec Value Value.Spec

/-- A value that stands for the integer `x`. -/
structure Holds (v : Value) (x : Int) : Prop where
  valid : Valid v
  typed : v.type ≠ .undef
  eq : denote v = x
  lo : -2 ^ 63 < x
  hi : x < 2 ^ 63

theorem setU_typed (n : Nat) : (setU n).type ≠ .undef := by intro h; cases h
theorem setS_typed (s : Int) : (setS s).type ≠ .undef := by
  unfold setS; split <;> intro h <;> cases h

theorem setNegated_typed {n : Nat} {r : Value} (h : setNegated n = some r) : r.type ≠ .undef := by
  unfold setNegated at h
  rw [Option.map_eq_some_iff] at h
  obtain ⟨s, _, rfl⟩ := h
  exact setS_typed s

theorem add_typed {a b r : Value} (h : a.add b = some r) : r.type ≠ .undef := by
  unfold Value.add at h
  split at h
  · dsimp only at h
    split at h <;> split at h <;> (try split at h) <;>
      first
        | exact setNegated_typed h
        | (injection h with h; rw [← h]; exact setU_typed _)
  · cases h

theorem sub_typed {a b r : Value} (h : a.sub b = some r) : r.type ≠ .undef := by
  unfold Value.sub at h
  cases hb : b.negate with
  | none => rw [hb] at h; cases h
  | some n => rw [hb] at h; exact add_typed h

theorem mul_typed {a b r : Value} (h : a.mul b = some r) : r.type ≠ .undef := by
  unfold Value.mul at h
  split at h
  · dsimp only at h
    split at h
    · injection h with h; rw [← h]; exact setU_typed _
    · exact setNegated_typed h
  · cases h

theorem negate_typed {a r : Value} (h : a.negate = some r) : r.type ≠ .undef := by
  unfold Value.negate at h
  split at h <;> rw [Option.map_eq_some_iff] at h <;> obtain ⟨s, _, rfl⟩ := h
  · exact setU_typed _
  · exact setS_typed _

theorem div_typed {a b r : Value} (hb : (b.isZero || b.isUndefined) = false)
    (h : a.div b = some r) : r.type ≠ .undef := by
  unfold Value.div at h
  rw [hb, if_neg (by decide)] at h
  split at h
  · dsimp only at h
    split at h
    · injection h with h; rw [← h]; exact setU_typed _
    · exact setNegated_typed h
  · cases h

theorem mod_typed {a b r : Value} (hb : (b.isZero || b.isUndefined) = false)
    (h : a.mod b = some r) : r.type ≠ .undef := by
  unfold Value.mod at h
  rw [hb, if_neg (by decide)] at h
  split at h
  · dsimp only at h
    split at h
    · exact setNegated_typed h
    · injection h with h; rw [← h]; exact setU_typed _
  · cases h

theorem shr_typed (a b : Value) : (a.shr b).type ≠ .undef := by
  unfold Value.shr
  dsimp only
  split
  · split
    · exact setS_typed _
    · exact setU_typed _
  · split
    · exact setS_typed _
    · exact setU_typed _

theorem Holds.range {v : Value} {x : Int} (h : Holds v x) : InRange (denote v) := by
  rw [h.eq]; have := h.lo; have := h.hi; unfold InRange; omega

theorem inWord_ok {x y : Int} (h : inWord x = .ok y) : y = x ∧ -2 ^ 63 < x ∧ x < 2 ^ 63 := by
  unfold inWord at h
  split at h
  · injection h with h; exact ⟨h.symm, by assumption⟩
  · cases h

theorem bool_good (b : Bool) : ∃ v, bool b = .ok (.ok v) ∧ Holds v (if b then 1 else 0) := by
  cases b
  · exact ⟨⟨0, .unsigned⟩, rfl, by decide, by decide, by decide, by decide, by decide⟩
  · exact ⟨⟨1, .unsigned⟩, rfl, by decide, by decide, by decide, by decide, by decide⟩

theorem truth_good {b : Bool} {p : Bool} {x : Int} (hb : b = p) (h : Spec.truth p = .ok x) :
    ∃ v, bool b = .ok (.ok v) ∧ Holds v x := by
  subst hb
  unfold Spec.truth at h
  injection h with h
  rw [← h]
  exact bool_good b

theorem isZero_good {v : Value} {x : Int} (h : Holds v x) : v.isZero = decide (x = 0) := by
  have h1 := zero_or_undef h.valid
  have h2 : v.isUndefined = false := by
    unfold isUndefined; exact decide_eq_false h.typed
  rw [h2, Bool.or_false, h.eq] at h1
  exact h1

theorem zero_undef {v : Value} {x : Int} (h : Holds v x) (h0 : x ≠ 0) :
    (v.isZero || v.isUndefined) = false := by
  rw [zero_or_undef h.valid, h.eq]
  exact decide_eq_false h0

theorem bits_eq (x : Int) : Spec.bits x = (x % 2 ^ 64).toNat := rfl

theorem ofBits_eq {x : Int} {n : Nat} (h1 : -2 ^ 63 ≤ x) (h2 : x < 2 ^ 63)
    (h : (x % 2 ^ 64).toNat = n) : ofBits n = x := by
  unfold ofBits
  split <;> omega

theorem un_ok {o : UnOp} {v : Value} {x y z : Int} (hv : Holds v x) (h : Spec.un o x = .ok y)
    (hz : inWord y = .ok z) : ∃ w, fn1 o v = .ok (.ok w) ∧ Holds w z := by
  obtain ⟨rfl, l1, l2⟩ := inWord_ok hz
  cases o with
  | plus =>
    injection h with h; subst h
    exact ⟨v, rfl, hv⟩
  | minus =>
    injection h with h; subst h
    obtain ⟨r, h1, h2, h3⟩ := C12_negate_partial v hv.valid hv.range (by
      rw [hv.eq]; unfold InRange; omega)
    exact ⟨r, by show lift v.negate = _; rw [h1]; rfl, h2, negate_typed h1, by rw [h3, hv.eq], l1,
      l2⟩
  | compl =>
    injection h with h; subst h
    have h1 := C12_complement v hv.valid (by rw [hv.eq]; exact hv.hi)
    obtain ⟨-, -, -, h2, -⟩ := C12_bitwise v v hv.valid hv.valid
    exact ⟨v.bitNot, rfl, h2, setS_typed _, by rw [h1, hv.eq], l1, l2⟩
  | not =>
    have hb := bits_denote hv.valid
    have hlow : v.getUnsigned = (x % 2 ^ 32).toNat := by
      unfold getUnsigned
      rw [← hb, hv.eq, show (M : Int) = 18446744073709551616 from rfl]
      omega
    unfold Spec.un at h
    dsimp only at h
    split at h
    next h0 =>
      injection h with h; subst h
      refine truth_good (p := true) ?_ rfl
      rw [hlow, h0]; rfl
    next h0 =>
      split at h
      · cases h
      · injection h with h; subst h
        refine truth_good (p := false) ?_ rfl
        rw [hlow, beq_eq_false_iff_ne]
        omega

theorem un_err {o : UnOp} {x : Int} {e : Fail} (h : Spec.un o x = .error e) : e = .unspecified := by
  cases o with
  | not =>
    unfold Spec.un at h
    dsimp only at h
    split at h
    · cases h
    · split at h
      · injection h with h; exact h.symm
      · cases h
  | _ => cases h

theorem inWord_err {x : Int} {e : Fail} (h : inWord x = .error e) : e = .unspecified := by
  unfold inWord at h
  split at h
  · cases h
  · injection h with h; exact h.symm

theorem mem2 {a b : Value} {x y : Int} (ha : Holds a x) (hb : Holds b y) :
    (denote a < 2 ^ 63 ∨ 0 ≤ denote b) ∧ (denote b < 2 ^ 63 ∨ 0 ≤ denote a) := by
  have := ha.hi; have := hb.hi; rw [ha.eq, hb.eq]; omega

theorem eq_good {a b : Value} {x y : Int} (ha : Holds a x) (hb : Holds b y) :
    a.eq b = decide (x = y) := by
  have := C13_equal_partial a b (mem2 ha hb) ha.valid hb.valid
  rw [ha.eq, hb.eq] at this
  rw [Bool.eq_iff_iff, this, decide_eq_true_eq]

theorem lt_good {a b : Value} {x y : Int} (ha : Holds a x) (hb : Holds b y) :
    a.lt b = decide (x < y) := by
  have := C13_less_than a b ha.valid hb.valid
  rw [ha.eq, hb.eq] at this
  rw [Bool.eq_iff_iff, this, decide_eq_true_eq]

theorem truth_bits {a : Value} {x : Int} (ha : Holds a x) : a.truth = decide (x ≠ 0) := by
  unfold Value.truth
  have hb := bits_denote ha.valid
  rw [ha.eq, show (M : Int) = 18446744073709551616 from rfl] at hb
  have := ha.lo; have := ha.hi
  rw [Bool.eq_iff_iff, bne_iff_ne, decide_eq_true_eq]
  omega

theorem bin_ok {o : BinOp} {a b : Value} {x y z w : Int} (ha : Holds a x) (hb : Holds b y)
    (h : Spec.bin o x y = .ok z) (hw : inWord z = .ok w) :
    ∃ r, fn2 o a b = .ok (.ok r) ∧ Holds r w := by
  obtain ⟨rfl, l1, l2⟩ := inWord_ok hw
  have hlift : ∀ (t : Option Value) (r : Value), t = some r → Valid r → r.type ≠ .undef →
      denote r = w → ∃ r, lift t = .ok (.ok r) ∧ Holds r w := by
    rintro t r rfl h1 h2 h3
    exact ⟨r, rfl, h1, h2, h3, l1, l2⟩
  have hin : InRange w := by unfold InRange; omega
  cases o with
  | mul =>
    injection h with h
    obtain ⟨r, h1, h2, h3⟩ := C12_mul_partial a b ha.valid hb.valid ha.range hb.range
      (by rw [ha.eq, hb.eq, h]; exact hin)
    exact hlift _ r h1 h2 (mul_typed h1) (by rw [h3, ha.eq, hb.eq, h])
  | div =>
    unfold Spec.bin at h
    dsimp only at h
    split at h
    · cases h
    next h0 =>
    injection h with h
    obtain ⟨r, h1, h2, h3⟩ := C12_div_partial a b ha.valid hb.valid ha.range hb.range
      (by rw [hb.eq]; exact h0) (by rw [ha.eq, hb.eq, h]; exact hin)
    show ∃ r, divide a b = _ ∧ _
    unfold divide
    rw [isZero_good hb, decide_eq_false h0, if_neg (by decide)]
    exact hlift _ r h1 h2 (div_typed (zero_undef hb h0) h1) (by rw [h3, ha.eq, hb.eq, h])
  | mod =>
    unfold Spec.bin at h
    dsimp only at h
    split at h
    · cases h
    next h0 =>
    injection h with h
    obtain ⟨r, h1, h2, h3⟩ := C12_mod_partial a b ha.valid hb.valid ha.range hb.range
      (by rw [hb.eq]; exact h0)
    show ∃ r, modulo a b = _ ∧ _
    unfold modulo
    rw [isZero_good hb, decide_eq_false h0, if_neg (by decide)]
    exact hlift _ r h1 h2 (mod_typed (zero_undef hb h0) h1) (by rw [h3, ha.eq, hb.eq, h])
  | add =>
    injection h with h
    obtain ⟨r, h1, h2, h3⟩ := C12_add_partial a b ha.valid hb.valid ha.range hb.range
      (by rw [ha.eq, hb.eq, h]; exact hin)
    exact hlift _ r h1 h2 (add_typed h1) (by rw [h3, ha.eq, hb.eq, h])
  | sub =>
    injection h with h
    obtain ⟨r, h1, h2, h3⟩ := C12_sub_partial a b ha.valid hb.valid ha.range hb.range
      (by rw [hb.eq]; exact hb.hi) (by rw [ha.eq, hb.eq, h]; exact hin)
    exact hlift _ r h1 h2 (sub_typed h1) (by rw [h3, ha.eq, hb.eq, h])
  | shl =>
    unfold Spec.bin at h
    dsimp only at h
    split at h
    next hc =>
      obtain ⟨c1, c2, c3, c4⟩ := hc
      injection h with h
      have ea := bits_denote ha.valid
      have eb := bits_denote hb.valid
      rw [ha.eq, show (M : Int) = 18446744073709551616 from rfl] at ea
      rw [hb.eq, show (M : Int) = 18446744073709551616 from rfl] at eb
      have e3 : b.getUnsigned = y.toNat := by unfold getUnsigned; omega
      have hpow : (1 : Int) ≤ 2 ^ y.toNat := by
        have := Nat.one_le_two_pow (n := y.toNat)
        exact_mod_cast this
      have hxle : x ≤ x * 2 ^ y.toNat := by
        have := Int.mul_le_mul_of_nonneg_left hpow c1
        omega
      have e4 : a.getUnsigned = x.toNat := by unfold getUnsigned; omega
      have hxn : ((x.toNat * 2 ^ y.toNat : Nat) : Int) = x * 2 ^ y.toNat := by
        rw [Int.natCast_mul, Int.toNat_of_nonneg c1, Int.natCast_pow]
        rfl
      show ∃ r, logicalShiftLeft a b = _ ∧ _
      unfold logicalShiftLeft
      rw [e3, e4]
      have hn : (if y.toNat < 32 then x.toNat * 2 ^ y.toNat % 4294967296 else 0) =
          x.toNat * 2 ^ y.toNat := by
        split
        · apply Nat.mod_eq_of_lt; omega
        next h32 =>
          by_cases hx0 : x.toNat = 0
          · rw [hx0, Nat.zero_mul]
          · exfalso
            have h1 : 2 ^ 32 ≤ 2 ^ y.toNat := Nat.pow_le_pow_right (by decide) (by omega)
            have h2 : 1 * 2 ^ 32 ≤ x.toNat * 2 ^ y.toNat := Nat.mul_le_mul (by omega) h1
            omega
      rw [hn]
      clear hn
      generalize x.toNat * 2 ^ y.toNat = q at *
      refine ⟨⟨q % 4294967296 % M, .unsigned⟩, rfl, ?_, setU_typed _, ?_, l1, l2⟩
      · show _ % M < 2 ^ 64
        exact Nat.mod_lt _ (by decide)
      · show ((q % 4294967296 % M : Nat) : Int) = w
        rw [show M = 18446744073709551616 from rfl]
        omega
    · cases h
  | shr =>
    unfold Spec.bin at h
    dsimp only at h
    split at h
    next hc =>
      injection h with h
      obtain ⟨h1, h2⟩ := C12_shift_right_partial a b ha.valid hb.valid
        (by rw [hb.eq]; exact hc.1) (by rw [hb.eq]; exact hc.2)
      exact hlift _ _ rfl h1 (shr_typed a b) (by rw [h2, ha.eq, hb.eq, h])
    · cases h
  | lt => exact truth_good (lt_good ha hb) h
  | le =>
    refine truth_good ?_ h
    rw [lt_good ha hb, eq_good ha hb, Bool.eq_iff_iff]
    simp only [Bool.or_eq_true, decide_eq_true_eq]
    omega
  | ge =>
    refine truth_good ?_ h
    rw [lt_good ha hb, Bool.eq_iff_iff]
    simp only [Bool.not_eq_true', decide_eq_false_iff_not, decide_eq_true_eq]
    omega
  | gt =>
    refine truth_good ?_ h
    rw [lt_good ha hb, eq_good ha hb, Bool.eq_iff_iff]
    simp only [Bool.and_eq_true, Bool.not_eq_true', decide_eq_false_iff_not, decide_eq_true_eq]
    omega
  | eq => exact truth_good (eq_good ha hb) h
  | ne =>
    refine truth_good ?_ h
    rw [eq_good ha hb, Bool.eq_iff_iff]
    simp only [Bool.not_eq_true', decide_eq_false_iff_not, decide_eq_true_eq]
  | and =>
    injection h with h
    obtain ⟨⟨g1, g2, g3, g4⟩, -, -, -⟩ := C12_bitwise a b ha.valid hb.valid
    have e := ofBits_eq g2 g3 g4
    exact hlift _ _ rfl g1 (setS_typed _) (by rw [← h, bits_eq, bits_eq, ← e, ha.eq, hb.eq])
  | xor =>
    injection h with h
    obtain ⟨-, -, ⟨g1, g2, g3, g4⟩, -⟩ := C12_bitwise a b ha.valid hb.valid
    have e := ofBits_eq g2 g3 g4
    exact hlift _ _ rfl g1 (setS_typed _) (by rw [← h, bits_eq, bits_eq, ← e, ha.eq, hb.eq])
  | or =>
    injection h with h
    obtain ⟨-, ⟨g1, g2, g3, g4⟩, -, -⟩ := C12_bitwise a b ha.valid hb.valid
    have e := ofBits_eq g2 g3 g4
    exact hlift _ _ rfl g1 (setS_typed _) (by rw [← h, bits_eq, bits_eq, ← e, ha.eq, hb.eq])
  | land =>
    refine truth_good ?_ h
    unfold Value.logAnd
    rw [truth_bits ha, truth_bits hb, Bool.eq_iff_iff]
    simp only [Bool.and_eq_true, decide_eq_true_eq]
  | lor =>
    refine truth_good ?_ h
    unfold Value.logOr
    rw [truth_bits ha, truth_bits hb, Bool.eq_iff_iff]
    simp only [Bool.or_eq_true, decide_eq_true_eq]

theorem bin_err {o : BinOp} {x y : Int} {e : Fail} (h : Spec.bin o x y = .error e) :
    e = .unspecified ∨ (e = .zeroDivide ∧ y = 0 ∧ (o = .div ∨ o = .mod)) := by
  cases o <;> unfold Spec.bin at h <;> dsimp only at h <;>
    first
      | (cases h; done)
      | (split at h
         · first
             | (injection h with h; exact .inr ⟨h.symm, by assumption, .inl rfl⟩)
             | (injection h with h; exact .inr ⟨h.symm, by assumption, .inr rfl⟩)
             | cases h
         · first
             | (injection h with h; exact .inl h.symm)
             | cases h)

end Libasm.Eval
