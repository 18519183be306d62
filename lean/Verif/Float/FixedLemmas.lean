import Verif.Float.Fixed
/-
What the operations on words compute, in terms of the number the words stand for.
-/
namespace Libasm.Float

/-- The number that words stand for, the least significant word first. -/
def val : Words → Nat
  | [] => 0
  | w :: ws => w + 65536 * val ws

/-- Every word is a `uint16_t`. -/
def Small (v : Words) : Prop := ∀ w ∈ v, w < 65536

/-- A state of the object: six words. -/
def Ok (v : Words) : Prop := v.length = 6 ∧ Small v

theorem Small.cons {w : Nat} {ws : Words} (h : Small (w :: ws)) : w < 65536 ∧ Small ws :=
  ⟨h w (List.mem_cons_self ..), fun x hx => h x (List.mem_cons_of_mem _ hx)⟩

theorem small_cons {w : Nat} {ws : Words} (h : w < 65536) (h' : Small ws) : Small (w :: ws) := by
  intro x hx
  rcases List.mem_cons.1 hx with rfl | hx
  · exact h
  · exact h' x hx

theorem val_lt : ∀ {v : Words}, Small v → val v < 65536 ^ v.length
  | [], _ => by simp [val]
  | w :: ws, h => by
    have h1 := val_lt h.cons.2
    have h2 := h.cons.1
    simp only [val, List.length_cons, Nat.pow_succ]
    omega

theorem Ok.lt {v : Words} (h : Ok v) : val v < 2 ^ 96 := by
  have := val_lt h.2
  rw [h.1] at this
  exact this

theorem val_append : ∀ (a b : Words), val (a ++ b) = val a + 65536 ^ a.length * val b
  | [], b => by simp [val]
  | w :: ws, b => by
    have := val_append ws b
    simp only [List.cons_append, val, this, List.length_cons, Nat.pow_succ]
    rw [Nat.mul_add, Nat.mul_comm (65536 ^ ws.length) 65536, Nat.mul_assoc, Nat.add_assoc]

theorem word_eq : ∀ {v : Words} (_ : Small v) (i : Nat), word v i = val v / 65536 ^ i % 65536
  | [], _, i => by simp [word, val]
  | w :: ws, h, 0 => by
    have := h.cons.1
    simp only [word, List.getD_cons_zero, val, Nat.pow_zero, Nat.div_one]
    omega
  | w :: ws, h, i + 1 => by
    have h1 := h.cons.1
    have := word_eq h.cons.2 i
    simp only [word, List.getD_cons_succ] at this ⊢
    rw [this, val, Nat.pow_succ, Nat.mul_comm _ 65536, ← Nat.div_div_eq_div_mul]
    congr 2
    omega

theorem small_take {v : Words} (h : Small v) (i : Nat) : Small (v.take i) :=
  fun x hx => h x (List.mem_of_mem_take hx)

theorem small_drop {v : Words} (h : Small v) (i : Nat) : Small (v.drop i) :=
  fun x hx => h x (List.mem_of_mem_drop hx)

theorem small_append {a b : Words} (h : Small a) (h' : Small b) : Small (a ++ b) := by
  intro x hx
  rcases List.mem_append.1 hx with hx | hx
  · exact h x hx
  · exact h' x hx

theorem val_drop : ∀ {v : Words} (_ : Small v) (i : Nat), val (v.drop i) = val v / 65536 ^ i
  | v, _, 0 => by simp
  | [], _, i + 1 => by simp [val]
  | w :: ws, h, i + 1 => by
    have h1 := h.cons.1
    rw [List.drop_succ_cons, val_drop h.cons.2 i, val, Nat.pow_succ, Nat.mul_comm _ 65536,
      ← Nat.div_div_eq_div_mul]
    congr 1
    omega

theorem val_take : ∀ {v : Words} (_ : Small v) (i : Nat), val (v.take i) = val v % 65536 ^ i
  | v, _, 0 => by simp [val, Nat.mod_one]
  | [], _, i + 1 => by simp [val]
  | w :: ws, h, i + 1 => by
    have h1 := h.cons.1
    rw [List.take_succ_cons, val, val_take h.cons.2 i, val, Nat.pow_succ, Nat.mul_comm _ 65536,
      Nat.mod_mul]
    congr 1
    · omega
    · congr 2
      omega

theorem val_zeros (n : Nat) : val (List.replicate n 0) = 0 := by
  induction n with
  | zero => rfl
  | succ n ih => rw [List.replicate_succ, val, ih]

theorem val_eq_zero : ∀ {v : Words}, val v = 0 ↔ v.all (· == 0) = true
  | [] => by simp [val]
  | w :: ws => by
    have := @val_eq_zero ws
    simp only [val, List.all_cons, Bool.and_eq_true, beq_iff_eq]
    rw [← this]
    omega

/-! ### `set`, `value` -/

theorem set_ok (u low : Nat) : Ok (set u low) := by
  refine ⟨rfl, ?_⟩
  intro x hx
  simp only [set, List.mem_cons, List.not_mem_nil, or_false] at hx
  omega

theorem val_set {u low : Nat} (hu : u < 2 ^ 64) (hl : low < 65536) :
    val (set u low) = u * 65536 + low := by
  simp only [set, val]
  omega

theorem val_six {v : Words} (h : Ok v) : val v = word v 0 + 65536 * (word v 1 + 65536 * (word v 2 +
    65536 * (word v 3 + 65536 * (word v 4 + 65536 * word v 5)))) ∧ word v 0 < 65536 ∧
    word v 1 < 65536 ∧ word v 2 < 65536 ∧ word v 3 < 65536 ∧ word v 4 < 65536 ∧
    word v 5 < 65536 := by
  obtain ⟨hl, hs⟩ := h
  match v, hl with
  | [a, b, c, d, e, f], _ =>
    have : ∀ x ∈ [a, b, c, d, e, f], x < 65536 := hs
    simp only [List.mem_cons, List.not_mem_nil, or_false, forall_eq_or_imp, forall_eq] at this
    refine ⟨?_, ?_⟩
    · simp only [val, word, List.getD_cons_zero, List.getD_cons_succ]
      rfl
    · simp only [word, List.getD_cons_zero, List.getD_cons_succ]
      exact this

theorem value_eq {v : Words} (h : Ok v) (bits : Nat) (hb : bits ≤ 64) :
    value v bits = val v % 2 ^ 80 / 2 ^ (80 - bits) := by
  obtain ⟨h1, h2⟩ := val_six h
  have e : 80 - bits = 16 + (64 - bits) := by omega
  rw [e, Nat.pow_add, ← Nat.div_div_eq_div_mul]
  unfold value
  congr 1
  rw [h1]
  omega

theorem high_eq {v : Words} (h : Ok v) : getHigh v = val v / 2 ^ 80 := by
  obtain ⟨h1, h2⟩ := val_six h
  unfold getHigh
  omega

theorem normal_iff {v : Words} (h : Ok v) : normal v = true ↔ 2 ^ 79 ≤ val v ∧ val v < 2 ^ 80 := by
  obtain ⟨h1, h2⟩ := val_six h
  unfold normal getHigh
  simp only [Bool.and_eq_true, beq_iff_eq]
  omega

theorem isZero_iff {v : Words} (h : Ok v) : isZero v = true ↔ val v % 2 ^ 80 = 0 := by
  unfold isZero
  rw [value_eq h 64 (Nat.le_refl _), word_eq h.2]
  simp only [Bool.and_eq_true, beq_iff_eq]
  omega

/-! ### Addition of a carry, negation, addition -/

theorem addCarry_spec : ∀ (c : Nat) (v : Words), c ≤ 65536 → Small v → Small (addCarry c v) ∧
    (addCarry c v).length = v.length ∧ val (addCarry c v) = (val v + c) % 65536 ^ v.length
  | c, [], _, h => ⟨h, rfl, by simp [addCarry, val, Nat.mod_one]⟩
  | c, w :: ws, hc, h => by
    have hw := h.cons.1
    obtain ⟨i1, i2, i3⟩ := addCarry_spec ((w + c) / 65536) ws (by omega) h.cons.2
    refine ⟨small_cons (by omega) i1, by simp [addCarry, i2], ?_⟩
    rw [addCarry, val, i3, val, List.length_cons, Nat.pow_succ, Nat.mul_comm _ 65536, Nat.mod_mul]
    congr 1
    · omega
    · congr 2
      omega

theorem negateLoop_spec : ∀ (c : Nat) (v : Words), c ≤ 1 → Small v → Small (negateLoop c v) ∧
    (negateLoop c v).length = v.length ∧
    val (negateLoop c v) = (65536 ^ v.length - 1 - val v + c) % 65536 ^ v.length
  | c, [], _, h => ⟨h, rfl, by simp [negateLoop, val, Nat.mod_one]⟩
  | c, w :: ws, hc, h => by
    have hw := h.cons.1
    have hv := val_lt h.cons.2
    obtain ⟨i1, i2, i3⟩ := negateLoop_spec ((65535 - w + c) / 65536) ws (by omega) h.cons.2
    refine ⟨small_cons (by omega) i1, by simp [negateLoop, i2], ?_⟩
    rw [negateLoop, val, i3, val, List.length_cons, Nat.pow_succ, Nat.mul_comm _ 65536, Nat.mod_mul]
    generalize 65536 ^ ws.length = P at hv ⊢
    congr 1
    · omega
    · congr 2
      omega

theorem negate_ok {v : Words} (h : Ok v) : Ok (negate v) := by
  obtain ⟨i1, i2, _⟩ := negateLoop_spec 1 v (Nat.le_refl _) h.2
  exact ⟨i2.trans h.1, i1⟩

theorem val_negate {v : Words} (h : Ok v) : val (negate v) = (2 ^ 96 - val v) % 2 ^ 96 := by
  obtain ⟨_, _, i3⟩ := negateLoop_spec 1 v (Nat.le_refl _) h.2
  have := h.lt
  unfold negate
  rw [i3, h.1]
  omega

theorem addLoop_spec : ∀ (c : Nat) (v w : Words), c ≤ 1 → Small v → Small w →
    v.length = w.length → Small (addLoop c v w) ∧ (addLoop c v w).length = v.length ∧
    val (addLoop c v w) = (val v + val w + c) % 65536 ^ v.length
  | c, [], w, _, h, _, _ => ⟨by cases w <;> exact h, by cases w <;> rfl, by
      cases w <;> simp [addLoop, val, Nat.mod_one]⟩
  | c, a :: as, [], _, _, _, e => by simp at e
  | c, a :: as, b :: bs, hc, h, h', e => by
    have ha := h.cons.1
    have hb := h'.cons.1
    obtain ⟨i1, i2, i3⟩ := addLoop_spec ((a + b + c) / 65536) as bs (by omega) h.cons.2 h'.cons.2
      (by simpa using e)
    refine ⟨small_cons (by omega) i1, by simp [addLoop, i2], ?_⟩
    rw [addLoop, val, i3, val, val, List.length_cons, Nat.pow_succ, Nat.mul_comm _ 65536, Nat.mod_mul]
    congr 1
    · omega
    · congr 2
      omega

theorem add_ok {v w : Words} (h : Ok v) (h' : Ok w) : Ok (add v w) := by
  obtain ⟨i1, i2, _⟩ := addLoop_spec 0 v w (by omega) h.2 h'.2 (h.1.trans h'.1.symm)
  exact ⟨i2.trans h.1, i1⟩

theorem val_add {v w : Words} (h : Ok v) (h' : Ok w) :
    val (add v w) = (val v + val w) % 2 ^ 96 := by
  obtain ⟨_, _, i3⟩ := addLoop_spec 0 v w (by omega) h.2 h'.2 (h.1.trans h'.1.symm)
  unfold add
  rw [i3, h.1]
  rfl

/-! ### Shift right -/

/-- Division by `2^n` where the bits shifted out, if any is set, set the lowest bit. -/
def jam (x : Int) (n : Nat) : Int :=
  if x % 2 ^ n ≠ 0 ∧ x / 2 ^ n % 2 = 0 then x / 2 ^ n + 1 else x / 2 ^ n

theorem jam_zero (x : Int) : jam x 0 = x := by
  unfold jam
  simp only [Int.pow_zero, Int.emod_one, Int.ediv_one]
  simp

theorem jam_jam (x : Int) (a b : Nat) (hb : 1 ≤ b) : jam (jam x a) b = jam x (a + b) := by
  obtain ⟨c, rfl⟩ : ∃ c, b = c + 1 := ⟨b - 1, by omega⟩
  have hA : (0 : Int) < 2 ^ a := Int.pow_pos (by decide)
  have hC : (0 : Int) < 2 ^ c := Int.pow_pos (by decide)
  have e1 : (2 : Int) ^ (a + (c + 1)) = 2 ^ a * (2 * 2 ^ c) := by
    rw [Int.pow_add, Int.pow_succ, Int.mul_comm (2 ^ c) 2]
  have e2 : (2 : Int) ^ (c + 1) = 2 * 2 ^ c := by rw [Int.pow_succ, Int.mul_comm]
  unfold jam
  rw [e1, e2]
  generalize (2 : Int) ^ a = A at *
  generalize (2 : Int) ^ c = C at *
  have d1 : x / (A * (2 * C)) = x / A / (2 * C) := (Int.ediv_ediv_of_nonneg (Int.le_of_lt hA)).symm
  have m1 : x % (A * (2 * C)) = x % A + A * (x / A % (2 * C)) := by
    rw [Int.emod_def x (A * (2 * C)), d1, Int.emod_def x A, Int.emod_def (x / A), Int.mul_sub]
    rw [Int.mul_assoc]
    omega
  rw [d1, m1]
  have hr := Int.emod_nonneg x (show A ≠ 0 by omega)
  generalize x % A = r at *
  generalize x / A = q at *
  have k1 : ∀ y : Int, y / (2 * C) = y / 2 / C := fun y =>
    (Int.ediv_ediv_of_nonneg (by decide)).symm
  have k2 : ∀ y : Int, y % (2 * C) = y % 2 + 2 * (y / 2 % C) := by
    intro y
    rw [Int.emod_def y (2 * C), k1, Int.emod_def y 2, Int.emod_def (y / 2), Int.mul_sub, Int.mul_assoc]
    omega
  have key : ∀ y : Int, y / 2 = q / 2 → (y % (2 * C) = 0 ↔ r + A * (q % (2 * C)) = 0) →
      (if y % (2 * C) ≠ 0 ∧ y / (2 * C) % 2 = 0 then y / (2 * C) + 1 else y / (2 * C)) =
      (if r + A * (q % (2 * C)) ≠ 0 ∧ q / (2 * C) % 2 = 0 then q / (2 * C) + 1
        else q / (2 * C)) := by
    intro y hy hz
    rw [k1 y, hy, ← k1 q]
    simp only [ne_eq, hz]
  have hm := Int.emod_nonneg q (show 2 * C ≠ 0 by omega)
  have hAm : 0 ≤ A * (q % (2 * C)) := Int.mul_nonneg (Int.le_of_lt hA) hm
  have zero_iff : r + A * (q % (2 * C)) = 0 ↔ r = 0 ∧ q % (2 * C) = 0 := by
    constructor
    · intro h
      have h1 : r = 0 := by omega
      have h2 : A * (q % (2 * C)) = 0 := by omega
      refine ⟨h1, ?_⟩
      rcases Int.mul_eq_zero.1 h2 with h3 | h3
      · omega
      · exact h3
    · rintro ⟨h1, h2⟩
      rw [h1, h2]
      simp
  split
  · rename_i h
    apply key
    · omega
    · rw [zero_iff, k2 (q + 1)]
      have := Int.emod_nonneg ((q + 1) / 2) (show C ≠ 0 by omega)
      constructor
      · intro h'; omega
      · intro h'; omega
  · rename_i h
    apply key
    · rfl
    · rw [zero_iff]
      constructor
      · intro h'
        refine ⟨?_, h'⟩
        by_cases hr0 : r = 0
        · exact hr0
        · rw [k2 q] at h'
          have := Int.emod_nonneg (q / 2) (show C ≠ 0 by omega)
          omega
      · exact fun h' => h'.2

theorem orLow_spec (s : Bool) : ∀ {v : Words} (_ : Small v) (_ : v ≠ []), Small (orLow s v) ∧
    (orLow s v).length = v.length ∧
    val (orLow s v) = if s = true ∧ val v % 2 = 0 then val v + 1 else val v
  | [], _, h => absurd rfl h
  | w :: ws, h, _ => by
    have hw := h.cons.1
    unfold orLow
    refine ⟨small_cons (by split <;> simp_all <;> omega) h.cons.2, rfl, ?_⟩
    cases s
    · simp [val]
    · simp only [Bool.true_and, beq_iff_eq, val, true_and]
      have e : (w + 65536 * val ws) % 2 = w % 2 := by omega
      rw [e]
      split <;> omega

theorem shiftRightLoop_spec {n : Nat} (hn : 1 ≤ n ∧ n ≤ 15) {sign : Nat} :
    ∀ (w : Nat) (ws : Words), Small (w :: ws) →
    Small (shiftRightLoop n sign (w :: ws)) ∧
    (shiftRightLoop n sign (w :: ws)).length = (w :: ws).length ∧
    val (shiftRightLoop n sign (w :: ws)) =
      val (w :: ws) / 2 ^ n + 65536 ^ ws.length * (sign * 2 ^ (16 - n) % 65536) := by
  have cases15 : n = 1 ∨ n = 2 ∨ n = 3 ∨ n = 4 ∨ n = 5 ∨ n = 6 ∨ n = 7 ∨ n = 8 ∨ n = 9 ∨ n = 10 ∨
    n = 11 ∨ n = 12 ∨ n = 13 ∨ n = 14 ∨ n = 15 := by omega
  have bound : ∀ w x : Nat, w < 65536 → w / 2 ^ n + x * 2 ^ (16 - n) % 65536 < 65536 := by
    intro w x hw
    rcases cases15 with rfl | rfl | rfl | rfl | rfl | rfl | rfl | rfl | rfl | rfl | rfl | rfl | rfl | rfl | rfl <;>
      simp only [Nat.reducePow, Nat.reduceSub] <;> omega
  have step : ∀ w R : Nat, (w + 65536 * R) / 2 ^ n =
      w / 2 ^ n + (R % 65536) * 2 ^ (16 - n) % 65536 + 65536 * (R / 2 ^ n) := by
    intro w R
    rcases cases15 with rfl | rfl | rfl | rfl | rfl | rfl | rfl | rfl | rfl | rfl | rfl | rfl | rfl | rfl | rfl <;>
      simp only [Nat.reducePow, Nat.reduceSub] <;> omega
  intro w ws
  induction ws generalizing w with
  | nil =>
    intro h
    have hw := h.cons.1
    refine ⟨small_cons (bound w sign hw) (by intro x hx; cases hx), rfl, ?_⟩
    simp [shiftRightLoop, val]
  | cons w' ws ih =>
    intro h
    have hw := h.cons.1
    have hw' := h.cons.2.cons.1
    obtain ⟨i1, i2, i3⟩ := ih w' h.cons.2
    refine ⟨small_cons (bound w w' hw) i1, by
      rw [shiftRightLoop, List.length_cons, i2, List.length_cons (a := w)], ?_⟩
    rw [shiftRightLoop, val, i3]
    have e : val (w :: w' :: ws) = w + 65536 * val (w' :: ws) := rfl
    rw [e, step, List.length_cons, Nat.pow_succ]
    have e2 : val (w' :: ws) % 65536 = w' := by simp only [val]; omega
    rw [e2]
    generalize sign * 2 ^ (16 - n) % 65536 = s
    rw [Nat.mul_add, Nat.mul_comm (65536 ^ ws.length) 65536, Nat.mul_assoc]
    omega

/-- The signed number: `sign` is the word that is shifted in, 0 or 65535. -/
def sval (sign : Nat) (v : Words) : Int := (val v : Int) - (if sign = 0 then 0 else 2 ^ 96)

theorem shiftRightWord_spec {sign : Nat} (hs : sign = 0 ∨ sign = 65535) {v : Words} (h : Ok v) :
    Ok (shiftRightWord sign v) ∧ sval sign (shiftRightWord sign v) = jam (sval sign v) 16 := by
  have hsm : Small [sign] := small_cons (by omega) (by intro x hx; cases hx)
  have hd : Small (v.drop 1 ++ [sign]) := small_append (small_drop h.2 1) hsm
  have hl : (v.drop 1).length = 5 := by simp [h.1]
  obtain ⟨o1, o2, o3⟩ := orLow_spec (word v 0 != 0) hd (by simp)
  have hv : val (v.drop 1 ++ [sign]) = val v / 65536 + 65536 ^ 5 * sign := by
    rw [val_append, val_drop h.2, hl]
    simp [val]
  have hlt := h.lt
  refine ⟨⟨o2.trans (by simp [h.1]), o1⟩, ?_⟩
  have w0 : word v 0 = val v % 65536 := by rw [word_eq h.2]; simp
  unfold shiftRightWord sval
  rw [o3, hv, w0]
  simp only [bne_iff_ne, ne_eq]
  unfold jam
  rcases hs with rfl | rfl
  · simp only [if_true, Int.reducePow, Nat.reducePow, Nat.mul_zero, Nat.add_zero, ne_eq] at hlt ⊢
    split <;> split <;> omega
  · simp only [Nat.reduceEqDiff, if_false, Int.reducePow, Nat.reducePow, Nat.reduceMul, ne_eq] at hlt ⊢
    split <;> split <;> omega

theorem shiftRightWords_spec {sign : Nat} (hs : sign = 0 ∨ sign = 65535) : ∀ (fuel : Nat)
    (v : Words) (n : Nat), n ≤ fuel → Ok v →
    Ok (shiftRightWords sign fuel v n).1 ∧ (shiftRightWords sign fuel v n).2 = n % 16 ∧
    sval sign (shiftRightWords sign fuel v n).1 = jam (sval sign v) (n / 16 * 16)
  | 0, v, n, hn, h => by
    have : n = 0 := by omega
    subst this
    exact ⟨h, rfl, by simp [shiftRightWords, jam_zero]⟩
  | fuel + 1, v, n, hn, h => by
    unfold shiftRightWords
    by_cases hc : n ≥ 16
    · rw [if_pos hc]
      obtain ⟨s1, s2⟩ := shiftRightWord_spec hs h
      obtain ⟨i1, i2, i3⟩ := shiftRightWords_spec hs fuel _ (n - 16) (by omega) s1
      refine ⟨i1, by rw [i2]; omega, ?_⟩
      rw [i3, s2]
      by_cases hz : (n - 16) / 16 * 16 = 0
      · rw [hz, jam_zero]
        congr 1
        omega
      · rw [jam_jam _ _ _ (by omega)]
        congr 1
        omega
    · rw [if_neg hc]
      refine ⟨h, by simp only; omega, ?_⟩
      have : n / 16 * 16 = 0 := by omega
      rw [this, jam_zero]

theorem shiftRightBits_spec {sign : Nat} (hs : sign = 0 ∨ sign = 65535) {n : Nat}
    (hn : 1 ≤ n ∧ n ≤ 15) {v : Words} (h : Ok v) :
    Ok (orLow (word v 0 % 2 ^ n != 0) (shiftRightLoop n sign v)) ∧
    sval sign (orLow (word v 0 % 2 ^ n != 0) (shiftRightLoop n sign v)) = jam (sval sign v) n := by
  have hlt := h.lt
  have w0 : word v 0 = val v % 65536 := by rw [word_eq h.2]; simp
  obtain ⟨hl, hsm⟩ := h
  obtain ⟨w, ws, rfl⟩ := List.exists_cons_of_length_eq_add_one hl
  have hl' : ws.length = 5 := by simpa using hl
  obtain ⟨i1, i2, i3⟩ := @shiftRightLoop_spec n hn sign w ws hsm
  have hne : shiftRightLoop n sign (w :: ws) ≠ [] := by
    intro e
    rw [e] at i2
    simp at i2
  obtain ⟨o1, o2, o3⟩ := orLow_spec (word (w :: ws) 0 % 2 ^ n != 0) i1 hne
  refine ⟨⟨o2.trans (i2.trans hl), o1⟩, ?_⟩
  have cases15 : n = 1 ∨ n = 2 ∨ n = 3 ∨ n = 4 ∨ n = 5 ∨ n = 6 ∨ n = 7 ∨ n = 8 ∨ n = 9 ∨ n = 10 ∨
    n = 11 ∨ n = 12 ∨ n = 13 ∨ n = 14 ∨ n = 15 := by omega
  unfold sval
  rw [o3, i3, hl', w0]
  generalize val (w :: ws) = x at *
  clear i1 i2 i3 o1 o2 o3 hne hsm hl hl' w0
  simp only [bne_iff_ne, ne_eq]
  unfold jam
  rcases hs with rfl | rfl
  · rcases cases15 with rfl | rfl | rfl | rfl | rfl | rfl | rfl | rfl | rfl | rfl | rfl | rfl | rfl | rfl | rfl <;>
    · simp only [if_true, Int.reducePow, Nat.reducePow, Nat.reduceSub, Nat.zero_mul, Nat.zero_mod, Nat.mul_zero, Nat.add_zero, ne_eq] at hlt ⊢
      split <;> split <;> omega
  · rcases cases15 with rfl | rfl | rfl | rfl | rfl | rfl | rfl | rfl | rfl | rfl | rfl | rfl | rfl | rfl | rfl <;>
    · simp only [Nat.reduceEqDiff, if_false, Int.reducePow, Nat.reducePow, Nat.reduceSub, Nat.reduceMul, Nat.reduceMod, ne_eq] at hlt ⊢
      split <;> split <;> omega

/-- `shift_right` of a number that is not negative, or not arithmetic. -/
theorem shiftRight_spec (n : Nat) (arith : Bool) {v : Words} (h : Ok v) :
    Ok (shiftRight n arith v) ∧
    sval (if arith && negative v then 65535 else 0) (shiftRight n arith v) =
      jam (sval (if arith && negative v then 65535 else 0) v) n := by
  unfold shiftRight
  have hs : (if arith && negative v then 65535 else 0) = 0 ∨
      (if arith && negative v then 65535 else 0) = 65535 := by split <;> simp
  generalize (if arith && negative v then 65535 else 0) = sign at hs ⊢
  obtain ⟨i1, i2, i3⟩ := shiftRightWords_spec hs n v n (Nat.le_refl _) h
  dsimp only
  rw [i2]
  split
  · rename_i hz
    obtain ⟨b1, b2⟩ := shiftRightBits_spec hs (n := n % 16) (by omega) i1
    refine ⟨b1, ?_⟩
    rw [b2, i3]
    rw [jam_jam _ _ _ (by omega)]
    congr 1
    omega
  · rename_i hz
    refine ⟨i1, ?_⟩
    rw [i3]
    congr 1
    omega

/-- `jam` on natural numbers. -/
theorem jam_nat (x n : Nat) : jam (x : Int) n =
    ((if x % 2 ^ n ≠ 0 ∧ x / 2 ^ n % 2 = 0 then x / 2 ^ n + 1 else x / 2 ^ n : Nat) : Int) := by
  unfold jam
  have e : ((2 : Int) ^ n) = ((2 ^ n : Nat) : Int) := by simp
  rw [e]
  generalize 2 ^ n = p
  norm_cast
  split <;> rfl

/-- `shift_right` of a number that is not negative. -/
theorem shiftRight_nat (n : Nat) (arith : Bool) {v : Words} (h : Ok v) (hp : val v < 2 ^ 95) :
    Ok (shiftRight n arith v) ∧ val (shiftRight n arith v) =
      if val v % 2 ^ n ≠ 0 ∧ val v / 2 ^ n % 2 = 0 then val v / 2 ^ n + 1 else val v / 2 ^ n := by
  obtain ⟨h1, h2⟩ := shiftRight_spec n arith h
  refine ⟨h1, ?_⟩
  have hneg : negative v = false := by
    unfold negative
    rw [high_eq h, decide_eq_false_iff_not]
    omega
  rw [hneg] at h2
  simp only [Bool.and_false, Bool.false_eq_true, if_false, sval, if_true, Int.sub_zero] at h2
  rw [jam_nat] at h2
  exact_mod_cast h2

/-! ### Shift left -/

theorem shiftLeftLoop_spec {n : Nat} (hn : 1 ≤ n ∧ n ≤ 15) : ∀ (low : Nat) (v : Words),
    low < 65536 → Small v → Small (shiftLeftLoop n low v) ∧
    (shiftLeftLoop n low v).length = v.length ∧
    val (shiftLeftLoop n low v) = (val v * 2 ^ n + low / 2 ^ (16 - n)) % 65536 ^ v.length
  | low, [], _, h => ⟨h, rfl, by simp [shiftLeftLoop, val, Nat.mod_one]⟩
  | low, w :: ws, hlow, h => by
    have cases15 : n = 1 ∨ n = 2 ∨ n = 3 ∨ n = 4 ∨ n = 5 ∨ n = 6 ∨ n = 7 ∨ n = 8 ∨ n = 9 ∨ n = 10 ∨
      n = 11 ∨ n = 12 ∨ n = 13 ∨ n = 14 ∨ n = 15 := by omega
    have hw := h.cons.1
    obtain ⟨i1, i2, i3⟩ := shiftLeftLoop_spec hn w ws hw h.cons.2
    have step : w * 2 ^ n % 65536 + low / 2 ^ (16 - n) < 65536 ∧ ∀ x : Nat,
        ((w + 65536 * x) * 2 ^ n + low / 2 ^ (16 - n)) % 65536 =
          w * 2 ^ n % 65536 + low / 2 ^ (16 - n) ∧
        ((w + 65536 * x) * 2 ^ n + low / 2 ^ (16 - n)) / 65536 = x * 2 ^ n + w / 2 ^ (16 - n) := by
      rcases cases15 with rfl | rfl | rfl | rfl | rfl | rfl | rfl | rfl | rfl | rfl | rfl | rfl | rfl | rfl | rfl <;>
      · simp only [Nat.reducePow, Nat.reduceSub]
        refine ⟨by omega, fun x => ⟨by omega, by omega⟩⟩
    refine ⟨small_cons step.1 i1, by simp [shiftLeftLoop, i2], ?_⟩
    rw [shiftLeftLoop, val, i3, val, List.length_cons, Nat.pow_succ, Nat.mul_comm _ 65536, Nat.mod_mul,
      (step.2 (val ws)).1, (step.2 (val ws)).2]

theorem shiftLeftWords_spec : ∀ (fuel : Nat) (v : Words) (n : Nat), n ≤ fuel → Ok v →
    Ok (shiftLeftWords fuel v n).1 ∧ (shiftLeftWords fuel v n).2 = n % 16 ∧
    val (shiftLeftWords fuel v n).1 = val v * 2 ^ (n / 16 * 16) % 2 ^ 96
  | 0, v, n, hn, h => by
    have : n = 0 := by omega
    subst this
    have := h.lt
    exact ⟨h, rfl, by simp only [shiftLeftWords]; omega⟩
  | fuel + 1, v, n, hn, h => by
    unfold shiftLeftWords
    by_cases hc : n ≥ 16
    · rw [if_pos hc]
      have hok : Ok (0 :: v.dropLast) := by
        refine ⟨by simp [h.1], small_cons (by decide) ?_⟩
        intro x hx
        exact h.2 x (List.dropLast_subset _ hx)
      have hval : val (0 :: v.dropLast) = val v * 2 ^ 16 % 2 ^ 96 := by
        have e : v.dropLast = v.take 5 := by rw [List.dropLast_eq_take, h.1]
        rw [e, val, val_take h.2]
        omega
      obtain ⟨i1, i2, i3⟩ := shiftLeftWords_spec fuel _ (n - 16) (by omega) hok
      refine ⟨i1, by rw [i2]; omega, ?_⟩
      rw [i3, hval]
      have e : n / 16 * 16 = 16 + (n - 16) / 16 * 16 := by omega
      rw [e, Nat.pow_add, ← Nat.mul_assoc, Nat.mod_mul_mod]
    · rw [if_neg hc]
      have := h.lt
      refine ⟨h, by simp only; omega, ?_⟩
      have e : n / 16 * 16 = 0 := by omega
      rw [e]
      simp only
      omega

theorem shiftLeft_spec (n : Nat) {v : Words} (h : Ok v) :
    Ok (shiftLeft n v) ∧ val (shiftLeft n v) = val v * 2 ^ n % 2 ^ 96 := by
  unfold shiftLeft
  obtain ⟨i1, i2, i3⟩ := shiftLeftWords_spec n v n (Nat.le_refl _) h
  dsimp only
  rw [i2]
  have e : n = n / 16 * 16 + n % 16 := by omega
  split
  · rename_i hz
    obtain ⟨b1, b2, b3⟩ := @shiftLeftLoop_spec (n % 16) (by omega) 0 _ (by decide) i1.2
    refine ⟨⟨b2.trans i1.1, b1⟩, ?_⟩
    rw [b3, i3, i1.1, Nat.zero_div, Nat.add_zero]
    show _ % 2 ^ 96 = _
    rw [Nat.mod_mul_mod, Nat.mul_assoc, ← Nat.pow_add, ← e]
  · rename_i hz
    refine ⟨i1, ?_⟩
    rw [i3]
    congr 3
    omega

end Libasm.Float
