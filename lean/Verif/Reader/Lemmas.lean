import Verif.Reader.Model
namespace Libasm.Reader
open Eval (Out)

theorem take_short : ∀ (k : Nat) (line rest : List Char), '\n' ∉ line → line.length < k →
    take k (line ++ '\n' :: rest) = (line ++ ['\n'], rest) := by
  intro k line
  induction line generalizing k with
  | nil =>
    intro rest _ hk
    cases k with
    | zero => cases hk
    | succ k => simp [take]
  | cons c line ih =>
    intro rest hn hk
    cases k with
    | zero => cases hk
    | succ k =>
      have hc : c ≠ '\n' := fun h => hn (by simp [h])
      have := ih k rest (fun h => hn (List.mem_cons_of_mem _ h)) (by simpa using hk)
      simp [take, hc, this]

theorem take_long : ∀ (k : Nat) (f : List Char), '\n' ∉ f.take k → k ≤ f.length →
    take k f = (f.take k, f.drop k) := by
  intro k
  induction k with
  | zero => intro f _ _; simp [take]
  | succ k ih =>
    intro f hn hk
    cases f with
    | nil => cases hk
    | cons c f =>
      have hc : c ≠ '\n' := fun h => hn (by simp [h])
      have := ih f (fun h => hn (by simp [h])) (by simpa using hk)
      simp [take, hc, this]

theorem take_end : ∀ (k : Nat) (f : List Char), '\n' ∉ f → f.length ≤ k → take k f = (f, []) := by
  intro k f
  induction f generalizing k with
  | nil => intro _ _; cases k <;> rfl
  | cons c f ih =>
    intro hn hk
    cases k with
    | zero => cases hk
    | succ k =>
      have hc : c ≠ '\n' := fun h => hn (by simp [h])
      have := ih k (fun h => hn (List.mem_cons_of_mem _ h)) (by simpa using hk)
      simp [take, hc, this]

theorem take_facts : ∀ (k : Nat) (f : List Char), (take k f).1.length ≤ k ∧
    (take k f).1.length + (take k f).2.length = f.length ∧
    (0 < k → f ≠ [] → 0 < (take k f).1.length) := by
  intro k
  induction k with
  | zero => intro f; simp [take]
  | succ k ih =>
    intro f
    cases f with
    | nil => simp [take]
    | cons c f =>
      unfold take
      split
      · simp; omega
      · have := ih f
        simp; omega

theorem takeWhile_nul {l : List Char} (h : nul ∉ l) : l.takeWhile (· ≠ nul) = l := by
  induction l with
  | nil => rfl
  | cons c l ih =>
    rw [List.takeWhile_cons]
    have hc : c ≠ nul := fun hc => h (by simp [hc])
    simp only [decide_not, hc, decide_false, Bool.not_false, if_true]
    have := ih (fun hm => h (List.mem_cons_of_mem _ hm))
    simp only [decide_not] at this
    rw [this]

theorem getLast_ne {l : List Char} (h : '\n' ∉ l) : l.getLast? ≠ some '\n' :=
  fun hl => h (List.mem_of_getLast? hl)

/-- The loop on a line. -/
theorem getLoop_line : ∀ (m : Nat) (line : List Char), line.length ≤ m → ∀ (fuel max n : Nat)
    (pre rest : List Char), 2 ≤ max → pre.length + max ≤ n → '\n' ∉ pre → '\n' ∉ line → nul ∉ line →
    (line ++ '\n' :: rest).length < fuel → 
    ∃ n', getLoop fuel pre max n (line ++ '\n' :: rest) = .ok (some (pre ++ line, n', rest)) ∧
      n ≤ n' := by
  intro m
  induction m with
  | zero =>
    intro line hm fuel max n pre rest h2 hn hp hl h0 hfuel
    have : line = [] := List.eq_nil_of_length_eq_zero (by omega)
    subst this
    cases fuel with
    | zero => cases hfuel
    | succ fuel =>
      have ht := take_short (max - 1) [] rest (by simp) (by simp; omega)
      simp only [List.nil_append] at ht
      unfold getLoop
      simp only [List.nil_append, fgets, ht]
      rw [if_neg (by simp; omega)]
      have hw : ['\n'].takeWhile (· ≠ nul) = ['\n'] := rfl
      rw [hw]
      simp
  | succ m ih =>
    intro line hm fuel max n pre rest h2 hn hp hl h0 hfuel
    cases fuel with
    | zero => cases hfuel
    | succ fuel =>
      have hf : ∀ x, fgets max (line ++ '\n' :: rest) = some x ↔ x = take (max - 1) (line ++ '\n' :: rest) := by
        intro x
        cases line <;> simp [fgets, eq_comm]
      by_cases hlen : line.length < max - 1
      · have ht := take_short (max - 1) line rest hl hlen
        unfold getLoop
        rw [(hf _).mpr rfl, ht]
        simp only
        rw [if_neg (by simp; omega)]
        have hw : (line ++ ['\n']).takeWhile (· ≠ nul) = line ++ ['\n'] := by
          refine takeWhile_nul ?_
          simp only [List.mem_append, List.mem_singleton, not_or]
          exact ⟨h0, by decide⟩
        rw [hw, ← List.append_assoc]
        simp
      · have hk : (line ++ '\n' :: rest).take (max - 1) = line.take (max - 1) :=
          List.take_append_of_le_length (by omega)
        have hd : (line ++ '\n' :: rest).drop (max - 1) = line.drop (max - 1) ++ '\n' :: rest :=
          List.drop_append_of_le_length (by omega)
        have hsub : ∀ c, c ∈ line.take (max - 1) → c ∈ line := fun c h => List.mem_of_mem_take h
        have hsub' : ∀ c, c ∈ line.drop (max - 1) → c ∈ line := fun c h => List.mem_of_mem_drop h
        have ht := take_long (max - 1) (line ++ '\n' :: rest) (by rw [hk]; exact fun h => hl (hsub _ h))
          (by simp; omega)
        rw [hk, hd] at ht
        unfold getLoop
        rw [(hf _).mpr rfl, ht]
        simp only
        have hll : (line.take (max - 1)).length = max - 1 := by simp; omega
        rw [if_neg (by rw [hll]; omega), takeWhile_nul (fun h => h0 (hsub _ h))]
        have hpre : '\n' ∉ pre ++ line.take (max - 1) := by
          simp only [List.mem_append, not_or]
          exact ⟨hp, fun h => hl (hsub _ h)⟩
        rw [if_neg (getLast_ne hpre)]
        obtain ⟨n', h1, h3⟩ := ih (line.drop (max - 1)) (by simp; omega) fuel 128 (n + 128)
          (pre ++ line.take (max - 1)) rest (by omega)
          (by rw [List.length_append, hll]; omega) hpre (fun h => hl (hsub' _ h))
          (fun h => h0 (hsub' _ h)) (by simp at hfuel ⊢; omega)
        refine ⟨n', ?_, by omega⟩
        rw [h1, List.append_assoc, List.take_append_drop]

/-- The loop without a newline ahead finds no line. -/
theorem getLoop_none : ∀ (m : Nat) (f : List Char), f.length ≤ m → ∀ (fuel max n : Nat)
    (pre : List Char), 2 ≤ max → pre.length + max ≤ n → '\n' ∉ pre → '\n' ∉ f →
    f.length < fuel → getLoop fuel pre max n f = .ok none := by
  intro m
  induction m with
  | zero =>
    intro f hm fuel max n pre _ _ _ _ hfuel
    have : f = [] := List.eq_nil_of_length_eq_zero (by omega)
    subst this
    cases fuel with
    | zero => cases hfuel
    | succ fuel => rfl
  | succ m ih =>
    intro f hm fuel max n pre h2 hn hp hf hfuel
    cases fuel with
    | zero => cases hfuel
    | succ fuel =>
      cases f with
      | nil => rfl
      | cons c f =>
        have ht := take_facts (max - 1) (c :: f)
        have hno : ∀ x ∈ (take (max - 1) (c :: f)).1, x ≠ '\n' := by
          intro x hx
          by_cases hl : (c :: f).length ≤ max - 1
          · rw [take_end _ _ hf hl] at hx
            exact fun h => hf (h ▸ hx)
          · rw [take_long _ _ (fun h => hf (List.mem_of_mem_take h)) (by omega)] at hx
            exact fun h => hf (List.mem_of_mem_take (h ▸ hx))
        have hno' : '\n' ∉ (take (max - 1) (c :: f)).2 := by
          intro hx
          by_cases hl : (c :: f).length ≤ max - 1
          · rw [take_end _ _ hf hl] at hx
            cases hx
          · rw [take_long _ _ (fun h => hf (List.mem_of_mem_take h)) (by omega)] at hx
            exact hf (List.mem_of_mem_drop hx)
        have hsub : ∀ x, x ∈ (take (max - 1) (c :: f)).1.takeWhile (· ≠ nul) →
            x ∈ (take (max - 1) (c :: f)).1 := fun x h => (List.takeWhile_prefix _).subset h
        have hlen : ((take (max - 1) (c :: f)).1.takeWhile (· ≠ nul)).length ≤
            (take (max - 1) (c :: f)).1.length := (List.takeWhile_prefix _).length_le
        have hpos := ht.2.2 (by omega) (by simp)
        have hpre : '\n' ∉ pre ++ (take (max - 1) (c :: f)).1.takeWhile (· ≠ nul) := by
          simp only [List.mem_append, not_or]
          exact ⟨hp, fun h => hno _ (hsub _ h) rfl⟩
        unfold getLoop
        simp only [fgets]
        rw [if_neg (by omega), if_neg (getLast_ne hpre)]
        refine ih _ (by simp at hm ht; omega) fuel 128 _ _ (by omega) ?_ hpre hno'
          (by simp at hfuel ht; omega)
        rw [List.length_append]
        omega

/-- The loop stays in its buffer and ends, on every file. -/
theorem getLoop_safe : ∀ (m : Nat) (f : List Char), f.length ≤ m → ∀ (fuel max n : Nat)
    (pre : List Char), 2 ≤ max → pre.length + max ≤ n → f.length < fuel →
    getLoop fuel pre max n f = .ok none ∨
    ∃ line n' rest, getLoop fuel pre max n f = .ok (some (line, n', rest)) ∧ n ≤ n' ∧
      rest.length < f.length := by
  intro m
  induction m with
  | zero =>
    intro f hm fuel max n pre _ _ hfuel
    have : f = [] := List.eq_nil_of_length_eq_zero (by omega)
    subst this
    cases fuel with
    | zero => cases hfuel
    | succ fuel => exact .inl rfl
  | succ m ih =>
    intro f hm fuel max n pre h2 hn hfuel
    cases fuel with
    | zero => cases hfuel
    | succ fuel =>
      cases f with
      | nil => exact .inl rfl
      | cons c f =>
        have ht := take_facts (max - 1) (c :: f)
        have hlen : ((take (max - 1) (c :: f)).1.takeWhile (· ≠ nul)).length ≤
            (take (max - 1) (c :: f)).1.length := (List.takeWhile_prefix _).length_le
        have hpos := ht.2.2 (by omega) (by simp)
        unfold getLoop
        simp only [fgets]
        rw [if_neg (by omega)]
        by_cases hl : (pre ++ (take (max - 1) (c :: f)).1.takeWhile (· ≠ nul)).getLast? = some '\n'
        · rw [if_pos hl]
          exact .inr ⟨_, _, _, rfl, Nat.le_refl _, by omega⟩
        · rw [if_neg hl]
          rcases ih (take (max - 1) (c :: f)).2 (by simp at hm ht; omega) fuel 128 (n + 128)
            (pre ++ (take (max - 1) (c :: f)).1.takeWhile (· ≠ nul)) (by omega)
            (by rw [List.length_append]; omega) (by simp at hfuel ht; omega) with h | ⟨l, n', r, h1, h2, h3⟩
          · exact .inl h
          · exact .inr ⟨l, n', r, h1, by omega, by omega⟩

theorem readLines_file (tail : List Char) (ht : '\n' ∉ tail) : ∀ (ls : List (List Char)),
    (∀ l ∈ ls, '\n' ∉ l ∧ nul ∉ l) → ∀ (fuel n : Nat), 3 ≤ n →
    ((ls.map (· ++ ['\n'])).flatten ++ tail).length < fuel →
    readLines fuel n ((ls.map (· ++ ['\n'])).flatten ++ tail) = .ok ls := by
  intro ls
  induction ls with
  | nil =>
    intro _ fuel n hn hfuel
    cases fuel with
    | zero => cases hfuel
    | succ fuel =>
      unfold readLines getLine
      simp only [List.map_nil, List.flatten_nil, List.nil_append]
      rw [getLoop_none tail.length tail (Nat.le_refl _) _ _ _ _ (by omega) (by simp <;> omega) (by simp) ht
        (by omega)]
      rfl
  | cons l ls ih =>
    intro hl fuel n hn hfuel
    cases fuel with
    | zero => cases hfuel
    | succ fuel =>
      have h1 := hl l (by simp)
      have hf : ((l :: ls).map (· ++ ['\n'])).flatten ++ tail =
          l ++ '\n' :: ((ls.map (· ++ ['\n'])).flatten ++ tail) := by simp
      unfold readLines getLine
      rw [hf] at hfuel ⊢
      obtain ⟨n', h3, h4⟩ := getLoop_line l.length l (Nat.le_refl _)
        ((l ++ '\n' :: ((ls.map (· ++ ['\n'])).flatten ++ tail)).length + 1) (n - 1) n []
        ((ls.map (· ++ ['\n'])).flatten ++ tail) (by omega) (by simp <;> omega) (by simp) h1.1 h1.2
        (by omega)
      rw [h3]
      simp only [Out.bind, List.nil_append]
      rw [ih (fun x hx => hl x (List.mem_cons_of_mem _ hx)) fuel n' (by omega)
        (by simp at hfuel ⊢; omega)]

end Libasm.Reader

