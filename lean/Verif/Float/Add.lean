import Verif.Float.Convert
/-
Addition and comparison of 80-bit numbers: lemmas for C56 and C58.
-/
namespace Libasm.Float
open Spec

/-! ### Two's complement -/

/-- The six words hold `X` in two's complement. -/
structure Two (v : Words) (X : Int) : Prop where
  ok : Ok v
  lo : -2 ^ 95 ≤ X
  hi : X < 2 ^ 95
  eq : (val v : Int) = X % 2 ^ 96

theorem Two.of_val {v : Words} (h : Ok v) (h95 : val v < 2 ^ 95) : Two v (val v) :=
  ⟨h, by omega, by omega, by omega⟩

theorem Two.negative {v : Words} {X : Int} (h : Two v X) : Float.negative v = decide (X < 0) := by
  obtain ⟨ok, lo, hi, eq⟩ := h
  have := ok.lt
  unfold Float.negative
  rw [high_eq ok, decide_eq_decide]
  omega

theorem Two.negate {v : Words} {X : Int} (h : Two v X) (hx : X ≠ -2 ^ 95) : Two (negate v) (-X) := by
  obtain ⟨ok, lo, hi, eq⟩ := h
  have h1 := val_negate ok
  have := ok.lt
  refine ⟨negate_ok ok, by omega, by omega, ?_⟩
  rw [h1]
  omega

theorem Two.add {v w : Words} {X Y : Int} (h : Two v X) (h' : Two w Y) (lo : -2 ^ 95 ≤ X + Y)
    (hi : X + Y < 2 ^ 95) : Two (add v w) (X + Y) := by
  refine ⟨add_ok h.ok h'.ok, lo, hi, ?_⟩
  rw [val_add h.ok h'.ok]
  have := h.eq
  have := h'.eq
  omega

theorem jam_bound {X : Int} {n : Nat} {p : Int} (hp : 0 ≤ p) (h1 : -p ≤ X) (h2 : X ≤ p) :
    -p ≤ jam X n ∧ jam X n ≤ p + 1 := by
  have hq : (0 : Int) < 2 ^ n := Int.pow_pos (by decide)
  have e := Int.mul_ediv_add_emod X (2 ^ n)
  have r1 := Int.emod_nonneg X (Int.ne_of_gt hq)
  have r2 := Int.emod_lt_of_pos X hq
  have a1 : -p ≤ X / 2 ^ n := by
    apply Int.le_ediv_of_mul_le hq
    have : p * 1 ≤ p * 2 ^ n := Int.mul_le_mul_of_nonneg_left (by omega) hp
    rw [Int.neg_mul]
    omega
  have a2 : X / 2 ^ n ≤ p := by
    apply Int.ediv_le_of_le_mul hq
    have : p * 1 ≤ p * 2 ^ n := Int.mul_le_mul_of_nonneg_left (by omega) hp
    omega
  unfold jam
  split <;> omega

theorem Two.shiftRight {v : Words} {X : Int} (h : Two v X) (n : Nat) (h1 : -2 ^ 94 ≤ X)
    (h2 : X ≤ 2 ^ 94) : Two (shiftRight n true v) (jam X n) := by
  have hneg := h.negative
  obtain ⟨ok, lo, hi, eq⟩ := h
  obtain ⟨s1, s2⟩ := shiftRight_spec n true ok
  have hb := jam_bound (X := X) (n := n) (p := 2 ^ 94) (by decide) h1 h2
  have hlt := ok.lt
  have e : sval (if (true && Float.negative v) = true then 65535 else 0) v = X := by
    rw [hneg]
    unfold sval
    by_cases hc : X < 0
    · simp only [hc, decide_true, Bool.and_self, if_true]
      rw [if_neg (by decide)]
      omega
    · simp only [hc, decide_false, Bool.and_false, Bool.false_eq_true, if_false, if_true]
      omega
  rw [e] at s2
  have slt := s1.lt
  refine ⟨s1, by omega, by omega, ?_⟩
  rw [← s2]
  unfold sval
  split <;> split <;> omega

/-! ### Sticky shifts of signed numbers -/

theorem jam_neg (x : Int) (n : Nat) : jam (-x) n = -jam x n := by
  unfold jam
  have hp : (0 : Int) < 2 ^ n := Int.pow_pos (by decide)
  generalize (2 : Int) ^ n = p at hp
  have e := Int.mul_ediv_add_emod x p
  have r1 := Int.emod_nonneg x (Int.ne_of_gt hp)
  have r2 := Int.emod_lt_of_pos x hp
  by_cases h0 : x % p = 0
  · have q : (-x) / p = -(x / p) := by
      apply Int.ediv_eq_of_eq_mul_left (Int.ne_of_gt hp)
      rw [Int.neg_mul, Int.mul_comm]
      omega
    have m : (-x) % p = 0 := by
      have := Int.mul_ediv_add_emod (-x) p
      rw [q, Int.mul_neg] at this
      omega
    rw [q, m, h0]
    simp
  · have key : -x = (p - x % p) + p * (-(x / p) - 1) := by
      rw [Int.mul_sub, Int.mul_neg, Int.mul_one]
      omega
    have q : (-x) / p = -(x / p) - 1 := by
      rw [key, Int.add_mul_ediv_left _ _ (Int.ne_of_gt hp), Int.ediv_eq_zero_of_lt (by omega) (by omega)]
      omega
    have m : (-x) % p = p - x % p := by
      rw [key, Int.add_mul_emod_self_left, Int.emod_eq_of_lt (by omega) (by omega)]
    rw [q, m]
    generalize x / p = t at *
    generalize x % p = r at *
    by_cases h2 : t % 2 = 0
    · rw [if_neg (by omega), if_pos ⟨h0, h2⟩]
      omega
    · rw [if_pos (by omega), if_neg (by omega)]
      omega

theorem jam_add (A B : Int) (n : Nat) (hA : A % 2 = 0) : A + jam B n = jam (A * 2 ^ n + B) n := by
  unfold jam
  have hp : (0 : Int) < 2 ^ n := Int.pow_pos (by decide)
  generalize (2 : Int) ^ n = p at hp
  have q : (A * p + B) / p = A + B / p := by
    rw [Int.add_comm, Int.add_mul_ediv_right _ _ (Int.ne_of_gt hp)]
    omega
  have m : (A * p + B) % p = B % p := by
    rw [Int.add_comm, Int.add_mul_emod_self_right]
  rw [q, m]
  generalize B / p = t
  split <;> split <;> omega

theorem jam_sign (x : Int) (n : Nat) : (jam x n < 0 ↔ x < 0) ∧ (jam x n = 0 ↔ x = 0) := by
  unfold jam
  have hp : (0 : Int) < 2 ^ n := Int.pow_pos (by decide)
  generalize (2 : Int) ^ n = p at hp
  have e := Int.mul_ediv_add_emod x p
  have r1 := Int.emod_nonneg x (Int.ne_of_gt hp)
  have r2 := Int.emod_lt_of_pos x hp
  have a1 : x < 0 → x / p < 0 := fun h => Int.ediv_neg_of_neg_of_pos h hp
  have a2 : 0 ≤ x → 0 ≤ x / p := fun h => Int.ediv_nonneg h (by omega)
  have a3 : x / p = 0 → p * (x / p) = 0 := fun h => by rw [h, Int.mul_zero]
  have a4 : x = 0 → x / p = 0 := fun h => by rw [h, Int.zero_ediv]
  generalize p * (x / p) = u at *
  generalize x / p = t at *
  generalize x % p = r at *
  split <;> omega

theorem jam_natAbs (x : Int) (n : Nat) : (jam x n).natAbs = jamN x.natAbs n := by
  have pos : ∀ m : Nat, (jam (m : Int) n).natAbs = jamN m n := by
    intro m
    rw [jam_nat]
    unfold jamN
    omega
  rcases Int.natAbs_eq x with h | h
  · rw [h, pos, Int.natAbs_natCast]
  · rw [h, jam_neg, Int.natAbs_neg, pos, Int.natAbs_neg, Int.natAbs_natCast]

/-! ### The sum of two numbers -/

/-- The sum of `X` and the shifted `Y`, where `X` belongs to the number with the larger exponent. -/
theorem sum_spec {mA mB : Nat} {eA eB : Int} {vA vB : Words} {X Y SA SB : Int}
    (hA : Stands f80 mA eA vA) (hB : Stands f80 mB eB vB) (hle : eB ≤ eA)
    (xA : (X = val vA ∧ SA = mA) ∨ (X = -(val vA : Int) ∧ SA = -(mA : Int)))
    (xB : (Y = val vB ∧ SB = mB) ∨ (Y = -(val vB : Int) ∧ SB = -(mB : Int)))
    (evA : val vA % 65536 = 0) (evB : val vB % 65536 = 0) :
    (X + jam Y (eA - eB).toNat < 0 ↔ SA + SB < 0) ∧
    (X + jam Y (eA - eB).toNat = 0 ↔ SA + SB = 0) ∧
    (SA + SB ≠ 0 → ∀ w, Ok w → val w = (X + jam Y (eA - eB).toNat).natAbs →
      ∃ y, IsNearest 64 (SA + SB).natAbs 1 y ∧ PartsAre f80 y (composeParts f80 eA w)) := by
  have hbm : f80.expBase = 16383 ∧ f80.mant = 64 := ⟨rfl, rfl⟩
  obtain ⟨okA, hiA, loA, exA⟩ := hA
  obtain ⟨okB, hiB, loB, exB⟩ := hB
  rw [hbm.1, hbm.2] at exA exB
  generalize hn : (eA - eB).toNat = n
  generalize ha : (eB + 16383 + 64 - 81).toNat = a
  generalize hb : (-(eB + 16383 + 64 - 81)).toNat = b
  have eA' := exA (n + a) b (by omega)
  have eB' := exB a b (by omega)
  have cast2 : ∀ k : Nat, (2 : Int) ^ k = ((2 ^ k : Nat) : Int) := fun k => by simp
  have abs2 : ∀ k : Nat, ((2 : Int) ^ k).natAbs = 2 ^ k := fun k => by
    rw [cast2, Int.natAbs_natCast]
  have hW : (X * 2 ^ n + Y) * 2 ^ a = (SA + SB) * 2 ^ b := by
    rw [Int.add_mul, Int.add_mul, Int.mul_assoc, ← Int.pow_add]
    have h1 : (val vA : Int) * 2 ^ (n + a) = mA * 2 ^ b := by rw [cast2, cast2]; exact_mod_cast eA'
    have h2 : (val vB : Int) * 2 ^ a = mB * 2 ^ b := by rw [cast2, cast2]; exact_mod_cast eB'
    rcases xA with ⟨rfl, rfl⟩ | ⟨rfl, rfl⟩ <;> rcases xB with ⟨rfl, rfl⟩ | ⟨rfl, rfl⟩ <;>
      simp only [Int.neg_mul, h1, h2]
  have hT : X + jam Y n = jam (X * 2 ^ n + Y) n := by
    apply jam_add
    rcases xA with ⟨rfl, _⟩ | ⟨rfl, _⟩ <;> omega
  have hpa : (0 : Int) < 2 ^ a := Int.pow_pos (by decide)
  have hpb : (0 : Int) < 2 ^ b := Int.pow_pos (by decide)
  obtain ⟨s1, s2⟩ := jam_sign (X * 2 ^ n + Y) n
  have sgn : (X * 2 ^ n + Y < 0 ↔ SA + SB < 0) := by
    constructor
    · intro h
      have := Int.mul_neg_of_neg_of_pos h hpa
      rw [hW] at this
      apply Int.lt_of_not_ge
      intro hc
      have := Int.mul_nonneg hc (Int.le_of_lt hpb)
      omega
    · intro h
      have := Int.mul_neg_of_neg_of_pos h hpb
      rw [← hW] at this
      apply Int.lt_of_not_ge
      intro hc
      have := Int.mul_nonneg hc (Int.le_of_lt hpa)
      omega
  have zer : (X * 2 ^ n + Y = 0 ↔ SA + SB = 0) := by
    constructor
    · intro h
      rw [h, Int.zero_mul] at hW
      rcases Int.mul_eq_zero.1 hW.symm with h | h <;> omega
    · intro h
      rw [h, Int.zero_mul] at hW
      rcases Int.mul_eq_zero.1 hW with h | h <;> omega
  rw [hT]
  refine ⟨s1.trans sgn, s2.trans zer, ?_⟩
  intro hne w okw hw
  have hWn : (X * 2 ^ n + Y).natAbs * 2 ^ a = (SA + SB).natAbs * 2 ^ b := by
    have := congrArg Int.natAbs hW
    rw [Int.natAbs_mul, Int.natAbs_mul, abs2, abs2] at this
    exact this
  have hbound : (X + jam Y n).natAbs < 2 ^ 95 := by
    have := jam_bound (X := Y) (n := n) (p := 2 ^ 80) (by decide)
      (by rcases xB with ⟨rfl, _⟩ | ⟨rfl, _⟩ <;> omega) (by rcases xB with ⟨rfl, _⟩ | ⟨rfl, _⟩ <;> omega)
    rcases xA with ⟨rfl, _⟩ | ⟨rfl, _⟩ <;> omega
  rw [hT] at hbound
  have hw0 : val w ≠ 0 := by
    intro h
    rw [h] at hw
    exact hne (zer.1 (s2.1 (by omega)))
  by_cases hn1 : n ≤ 1
  · -- the shift loses nothing
    have hY : jam Y n * 2 ^ n = Y := by
      have : n = 0 ∨ n = 1 := by omega
      rcases this with rfl | rfl
      · rw [jam_zero]; omega
      · unfold jam
        rw [Int.pow_succ, Int.pow_zero, Int.one_mul]
        rw [if_neg (by rcases xB with ⟨rfl, _⟩ | ⟨rfl, _⟩ <;> omega)]
        rcases xB with ⟨rfl, _⟩ | ⟨rfl, _⟩ <;> omega
    obtain ⟨y, y1, y2⟩ := composeParts_spec good80 okw hw0 (by rw [hw]; exact hbound)
      (w := val w) (n := 0) (jamN_zero _).symm (Or.inl rfl) eA (a := n + a) (b := b)
      (by rw [hbm.1, hbm.2]; omega)
    refine ⟨y, IsNearest.ratio (Nat.pow_pos (by decide)) (by decide) ?_ y1, y2⟩
    rw [Nat.mul_one, hw, ← hWn, Nat.pow_add, ← Nat.mul_assoc]
    congr 1
    have : jam (X * 2 ^ n + Y) n * 2 ^ n = X * 2 ^ n + Y := by
      rw [← hT, Int.add_mul, hY]
    have := congrArg Int.natAbs this
    rw [Int.natAbs_mul, abs2] at this
    exact this
  · have hbig : 2 ^ 70 ≤ val w := by
      rw [hw, ← hT]
      have hj : (jam Y n).natAbs ≤ 2 ^ 78 + 1 := by
        rw [jam_natAbs]
        have hY : Y.natAbs < 2 ^ 80 := by rcases xB with ⟨rfl, _⟩ | ⟨rfl, _⟩ <;> omega
        have h1 : Y.natAbs / 2 ^ n ≤ Y.natAbs / 2 ^ 2 :=
          Nat.div_le_div_left (Nat.pow_le_pow_right (by decide) (by omega)) (by decide)
        unfold jamN
        split <;> omega
      rcases xA with ⟨rfl, _⟩ | ⟨rfl, _⟩ <;> omega
    obtain ⟨y, y1, y2⟩ := composeParts_spec good80 okw hw0 (by rw [hw]; exact hbound)
      (w := (X * 2 ^ n + Y).natAbs) (n := n) (hw.trans (jam_natAbs _ _)) (Or.inr hbig) eA (a := a) (b := b)
      (by rw [hbm.1, hbm.2]; omega)
    refine ⟨y, IsNearest.ratio (Nat.pow_pos (by decide)) (by decide) ?_ y1, y2⟩
    rw [Nat.mul_one, hWn]

theorem decompose80_even {x : F80} (hx : Finite80 x) : val x.decompose.2 % 65536 = 0 := by
  have hok := set_ok x.sig 0
  have hval := val_set hx.2.1 (show 0 < 65536 by decide)
  rw [Nat.add_zero] at hval
  unfold F80.decompose
  dsimp only
  split
  · rw [hval]; omega
  · split
    · rw [hval]; omega
    · by_cases h0 : val (set x.sig 0) = 0
      · rw [normalize_zero hok h0]
        dsimp only
        rw [hval]
        omega
      · have hs := hx.2.1
        obtain ⟨k, k80, nok, ne, nval, nlo, nhi⟩ := normalize_low hok h0 (by rw [hval]; omega)
        dsimp only
        rw [nval, hval, Nat.mul_right_comm]
        omega

theorem mag80_lt {x : F80} (hx : Finite80 x) : mag80 x < limit f80 := by
  obtain ⟨h1, h2, h3, h4⟩ := hx
  have he : expField80 x < 0x8000 := Nat.mod_lt _ (by decide)
  unfold mag80 limit
  calc x.sig * 2 ^ (expField80 x - 1) < 2 ^ 64 * 2 ^ (expField80 x - 1) :=
        Nat.mul_lt_mul_of_pos_right h2 (Nat.pow_pos (by decide))
    _ = 2 ^ (64 + (expField80 x - 1)) := by rw [Nat.pow_add]
    _ ≤ 2 ^ (f80.mant - 1 + (f80.expMask - 1)) := by
      apply Nat.pow_le_pow_right (by decide)
      have : f80.mant - 1 + (f80.expMask - 1) = 32829 := by decide
      omega
    _ = _ := Nat.pow_add ..

theorem mag80_rep {x : F80} (hx : Finite80 x) : Rep 64 (mag80 x) := ⟨_, _, hx.2.1, rfl⟩

theorem stands_exp {m : Nat} {e : Int} {v : Words} (h : Stands f80 m e v) (hm : m < limit f80) :
    e ≤ 16383 := by
  apply Int.not_lt.1
  intro hc
  have hbm : f80.expBase = 16383 ∧ f80.mant = 64 := ⟨rfl, rfl⟩
  have h1 := h.exact (e + 16366).toNat 0 (by rw [hbm.1, hbm.2]; omega)
  have h2 : 2 ^ 79 * 2 ^ (e + 16366).toNat ≤ val v * 2 ^ (e + 16366).toNat := Nat.mul_le_mul_right _ h.lo
  rw [h1, Nat.pow_zero, Nat.mul_one, ← Nat.pow_add] at h2
  have h3 : 2 ^ (79 + (e + 16366).toNat) < 2 ^ (f80.mant - 1 + (f80.expMask - 1)) := by
    rw [Nat.pow_add 2 (f80.mant - 1)]
    exact Nat.lt_of_le_of_lt h2 hm
  have h4 := (Nat.pow_lt_pow_iff_right (by decide)).1 h3
  have : f80.mant - 1 + (f80.expMask - 1) = 32829 := by decide
  omega

theorem num80_cases (x : F80) (v : Words) :
    ((if sign80 x then -(val v : Int) else val v) = val v ∧ num80 x = mag80 x) ∨
    ((if sign80 x then -(val v : Int) else val v) = -(val v : Int) ∧ num80 x = -(mag80 x : Int)) := by
  unfold num80
  cases sign80 x
  · exact Or.inl ⟨rfl, rfl⟩
  · exact Or.inr ⟨rfl, rfl⟩

theorem two_signed {x : F80} {v : Words} (h : Ok v) (hv : val v < 2 ^ 80) :
    Two (if sign80 x then negate v else v) (if sign80 x then -(val v : Int) else val v) := by
  have t := Two.of_val h (by omega)
  cases sign80 x
  · exact t
  · exact t.negate (by omega)

/-- The last steps of `add`. -/
theorem addFinite_end {v : Words} {T S : Int} {e : Int} (ht : Two v T) (hb : T.natAbs < 2 ^ 94)
    (s1 : T < 0 ↔ S < 0) (s2 : T = 0 ↔ S = 0) (he : e ≤ 16383)
    (s3 : S ≠ 0 → ∀ w, Ok w → val w = T.natAbs →
      ∃ y, IsNearest 64 S.natAbs 1 y ∧ PartsAre f80 y (composeParts f80 e w)) :
    (S ≠ 0 → Rounded80 (decide (S < 0)) S.natAbs 1
      (F80.compose (negative v) e (if negative v then negate v else v))) ∧
    (S = 0 → F80.compose (negative v) e (if negative v then negate v else v) = F80.zero false) := by
  have hneg := ht.negative
  have hw : Ok (if negative v then negate v else v) ∧
      val (if negative v then negate v else v) = T.natAbs := by
    rw [hneg]
    by_cases hc : T < 0
    · simp only [hc, decide_true, if_true]
      have t := ht.negate (by omega)
      refine ⟨t.ok, ?_⟩
      have := t.eq
      omega
    · simp only [hc, decide_false, Bool.false_eq_true, if_false]
      have := ht.eq
      refine ⟨ht.ok, ?_⟩
      omega
  generalize (if negative v then negate v else v) = w at hw ⊢
  have hs : negative v = decide (S < 0) := by rw [hneg, decide_eq_decide]; exact s1
  rw [hs]
  constructor
  · intro h0
    obtain ⟨y, y1, y2⟩ := s3 h0 w hw.1 hw.2
    exact ⟨y, y1, compose80_spec _ y2⟩
  · intro h0
    unfold F80.compose
    rw [composeParts_zero good80 hw.1 (by rw [hw.2, s2.2 h0]; rfl) (by exact he), h0]
    rfl

theorem addFinite_spec {a b : F80} (ha : Finite80 a) (hb : Finite80 b) (a0 : mag80 a ≠ 0)
    (b0 : mag80 b ≠ 0) :
    (num80 a + num80 b ≠ 0 → Rounded80 (decide (num80 a + num80 b < 0)) (num80 a + num80 b).natAbs 1
      (F80.addFinite a b)) ∧
    (num80 a + num80 b = 0 → F80.addFinite a b = F80.zero false) := by
  obtain ⟨_, sa⟩ := (decompose80_spec ha).2 a0
  obtain ⟨_, sb⟩ := (decompose80_spec hb).2 b0
  have eva := decompose80_even ha
  have evb := decompose80_even hb
  have ea := stands_exp sa (mag80_lt ha)
  have eb := stands_exp sb (mag80_lt hb)
  have ta := two_signed (x := a) sa.ok sa.hi
  have tb := two_signed (x := b) sb.ok sb.hi
  have hba : -2 ^ 80 ≤ (if sign80 a then -(val a.decompose.2 : Int) else val a.decompose.2) ∧
      (if sign80 a then -(val a.decompose.2 : Int) else val a.decompose.2) ≤ 2 ^ 80 := by
    have := sa.hi
    split <;> omega
  have hbb : -2 ^ 80 ≤ (if sign80 b then -(val b.decompose.2 : Int) else val b.decompose.2) ∧
      (if sign80 b then -(val b.decompose.2 : Int) else val b.decompose.2) ≤ 2 ^ 80 := by
    have := sb.hi
    split <;> omega
  have ca := num80_cases a a.decompose.2
  have cb := num80_cases b b.decompose.2
  unfold F80.addFinite
  dsimp only
  rw [isNegative_eq ha.1, isNegative_eq hb.1]
  generalize (if sign80 a then -(val a.decompose.2 : Int) else val a.decompose.2) = X at *
  generalize (if sign80 b then -(val b.decompose.2 : Int) else val b.decompose.2) = Y at *
  generalize (if sign80 a then negate a.decompose.2 else a.decompose.2) = va at *
  generalize (if sign80 b then negate b.decompose.2 else b.decompose.2) = vb at *
  by_cases hlt : a.decompose.1 - b.decompose.1 < 0
  · rw [if_pos hlt]
    obtain ⟨s1, s2, s3⟩ := sum_spec sb sa (by omega) cb ca evb eva
    rw [Int.add_comm (num80 b)] at s1 s2 s3
    have en : (-(a.decompose.1 - b.decompose.1)).toNat = (b.decompose.1 - a.decompose.1).toNat := by omega
    rw [en]
    have tj := ta.shiftRight (b.decompose.1 - a.decompose.1).toNat (by omega) (by omega)
    have hj := jam_bound (n := (b.decompose.1 - a.decompose.1).toNat) (p := 2 ^ 80) (by decide) hba.1 hba.2
    exact addFinite_end (tb.add tj (by omega) (by omega)) (by omega) s1 s2 eb s3
  · rw [if_neg hlt]
    obtain ⟨s1, s2, s3⟩ := sum_spec sa sb (by omega) ca cb eva evb
    have tj := tb.shiftRight (a.decompose.1 - b.decompose.1).toNat (by omega) (by omega)
    have hj := jam_bound (n := (a.decompose.1 - b.decompose.1).toNat) (p := 2 ^ 80) (by decide) hbb.1 hbb.2
    exact addFinite_end (ta.add tj (by omega) (by omega)) (by omega) s1 s2 ea s3

theorem num80_abs (x : F80) : (num80 x).natAbs = mag80 x := by
  unfold num80
  split <;> omega

theorem isZero_eq {x : F80} (hx : Finite80 x) : x.isZero = decide (mag80 x = 0) := by
  by_cases h : mag80 x = 0
  · rw [((decompose80_spec hx).1 h).1, decide_eq_true h]
  · rw [((decompose80_spec hx).2 h).1, decide_eq_false h]

theorem zero_fields (s : Bool) : Finite80 (F80.zero s) ∧ mag80 (F80.zero s) = 0 ∧ sign80 (F80.zero s) = s := by
  obtain ⟨h1, h2, h3, h4⟩ := bits_fields s (e := 0) (s := 0) (by decide)
  unfold F80.zero
  refine ⟨⟨h1, by rw [h3]; decide, by rw [h2]; decide, by rw [h2, h3]; simp⟩, ?_, h4⟩
  unfold mag80
  rw [h3, Nat.zero_mul]

/-- The sum of two finite numbers. -/
theorem add_finite {a b : F80} (ha : Finite80 a) (hb : Finite80 b) :
    (num80 a + num80 b ≠ 0 → Rounded80 (decide (num80 a + num80 b < 0)) (num80 a + num80 b).natAbs 1
      (F80.add a b)) ∧
    (num80 a + num80 b = 0 → F80.add a b = F80.zero (sign80 a && sign80 b)) := by
  have self : ∀ {x : F80}, Finite80 x → num80 x ≠ 0 → Rounded80 (decide (num80 x < 0)) (num80 x).natAbs 1 x := by
    intro x hx h0
    refine ⟨mag80 x, ?_, ?_, ?_⟩
    · rw [num80_abs]
      exact nearest_self (mag80_rep hx)
    · unfold num80 at h0 ⊢
      cases h : sign80 x <;> rw [h] at h0 <;> simp at h0 ⊢ <;> omega
    · rw [if_pos (mag80_lt hx)]
      exact ⟨hx, rfl⟩
  have num0 : ∀ {x : F80}, mag80 x = 0 → num80 x = 0 := by
    intro x h
    have := num80_abs x
    omega
  unfold F80.add
  rw [(finite_not ha).1, (finite_not ha).2, (finite_not hb).1, (finite_not hb).2, isZero_eq ha, isZero_eq hb,
    isNegative_eq ha.1, isNegative_eq hb.1]
  simp only [Bool.false_eq_true, if_false, Bool.and_self]
  by_cases a0 : mag80 a = 0
  · by_cases b0 : mag80 b = 0
    · simp only [a0, b0, decide_true, Bool.and_self, if_true]
      rw [num0 a0, num0 b0]
      exact ⟨fun h => absurd rfl h, fun _ => trivial⟩
    · have : num80 b ≠ 0 := by
        have := num80_abs b
        omega
      simp only [a0, b0, decide_true, decide_false, Bool.and_false, Bool.false_eq_true, if_false, if_true]
      rw [num0 a0, Int.zero_add]
      exact ⟨self hb, fun h => absurd h this⟩
  · by_cases b0 : mag80 b = 0
    · have : num80 a ≠ 0 := by
        have := num80_abs a
        omega
      simp only [a0, b0, decide_true, decide_false, Bool.false_and, Bool.false_eq_true, if_false, if_true]
      rw [num0 b0, Int.add_zero]
      exact ⟨self ha, fun h => absurd h this⟩
    · simp only [a0, b0, decide_false, Bool.and_false, Bool.false_eq_true, if_false]
      obtain ⟨h1, h2⟩ := addFinite_spec ha hb a0 b0
      refine ⟨h1, fun h => ?_⟩
      rw [h2 h]
      congr 1
      unfold num80 at h
      cases hs : sign80 a <;> cases ht : sign80 b <;> rw [hs, ht] at h <;> simp at h ⊢
      omega

/-! ### Comparison -/

theorem neg_fields {x : F80} (h : x.tag < 0x10000) : (F80.neg x).tag < 0x10000 ∧
    expField80 (F80.neg x) = expField80 x ∧ (F80.neg x).sig = x.sig ∧ sign80 (F80.neg x) = !sign80 x := by
  have e : F80.neg x = F80.bits (!x.isNegative) (x.tag % 0x8000) x.sig := by
    unfold F80.neg F80.bits
    rw [Nat.mod_mod]
  obtain ⟨h1, h2, h3, h4⟩ := bits_fields (!x.isNegative) (e := x.tag % 0x8000) (s := x.sig) (by omega)
  rw [e]
  exact ⟨h1, h2, h3, by rw [h4, isNegative_eq h]⟩

theorem neg_finite {x : F80} (hx : Finite80 x) : Finite80 (F80.neg x) ∧ num80 (F80.neg x) = -num80 x ∧
    mag80 (F80.neg x) = mag80 x := by
  obtain ⟨h1, h2, h3, h4⟩ := neg_fields hx.1
  refine ⟨⟨h1, by rw [h3]; exact hx.2.1, by rw [h2]; exact hx.2.2.1, by rw [h2, h3]; exact hx.2.2.2⟩, ?_, ?_⟩
  · unfold num80 mag80
    rw [h4, h3, h2]
    cases sign80 x <;> simp
  · unfold mag80
    rw [h3, h2]

set_option linter.constructorNameAsVariable false in
/-- The difference of two finite numbers has the sign of the exact difference, and is zero only if
that is. -/
theorem sub_sign {a b : F80} (ha : Finite80 a) (hb : Finite80 b) :
    (F80.sub a b).isZero = decide (num80 a = num80 b) ∧
    (mag80 a ≠ 0 ∨ mag80 b ≠ 0 → (F80.sub a b).isNegative = decide (num80 a < num80 b)) := by
  obtain ⟨nf, nn, nm⟩ := neg_finite hb
  obtain ⟨h1, h2⟩ := add_finite ha nf
  rw [nn] at h1 h2
  unfold F80.sub
  by_cases h0 : num80 a + -num80 b = 0
  · rw [h2 h0]
    have e : num80 a = num80 b := by omega
    obtain ⟨z1, z2, z3⟩ := zero_fields (sign80 a && sign80 (F80.neg b))
    refine ⟨?_, fun hm => ?_⟩
    · rw [isZero_eq z1, z2, e]
      simp
    · rw [isNegative_eq z1.1, z3, (neg_fields hb.1).2.2.2, e]
      have m : mag80 a = mag80 b := by rw [← num80_abs, ← num80_abs, e]
      unfold num80 at e
      cases ht : sign80 a <;> cases hs : sign80 b <;> rw [ht, hs] at e <;> simp at e ⊢
      omega
  · obtain ⟨y, y1, y2, y3⟩ := h1 h0
    have hy : y ≠ 0 := by
      intro hy
      subst hy
      have r1 : Rep 64 1 := ⟨1, 0, by decide, rfl⟩
      have := y1.2 1 r1 (by decide)
      unfold dist at this
      omega
    have tagok : (F80.add a (F80.neg b)).tag < 0x10000 := by
      split at y3
      · exact y3.1.1
      · exact y3.1
    refine ⟨?_, fun _ => ?_⟩
    · rw [decide_eq_false (by omega)]
      split at y3
      · rw [isZero_eq y3.1, y3.2, decide_eq_false hy]
      · obtain ⟨_, i2, i3⟩ := y3
        unfold F80.isZero
        have : (F80.add a (F80.neg b)).tag % 0x8000 = 0x7fff := i2
        rw [this]
        rfl
    · rw [isNegative_eq tagok, y2, decide_eq_decide]
      omega

end Libasm.Float
