import Verif.Store.Model
import Verif.Store.Spec
namespace Libasm.Store
open Spec

/-- One operation on the store. -/
def Symbols.step (s : Symbols) : Op → Symbols
  | .define d => (s.intern d.value d.name d.isVar).1
  | .function n ps b => (s.internFunction n ps b).1
  | .clearFunctions => s.clearFunctions
  | .clear => .empty

/-- A sequence of operations on an empty store. -/
def run (ops : List Op) : Symbols := ops.foldl Symbols.step .empty

theorem fits_iff (v : Value) : Fits v ↔ v.overflowUint32 = false := by
  obtain ⟨b, t⟩ := v
  have hH : Value.H = 9223372036854775808 := rfl
  have hM : Value.M = 18446744073709551616 := rfl
  unfold Fits Value.overflowUint32 Value.asSigned Value.isUnsigned
  cases t <;> simp only [reduceCtorEq, if_false, if_true, Bool.or_eq_false_iff, decide_eq_false_iff_not,
    decide_false, decide_true, Bool.or_self, Bool.true_or, Bool.or_true, Bool.false_eq_true] <;>
    first | omega | (split <;> split <;> omega)

theorem about_append (n : Name) (h : List Def) (d : Def) :
    about n (h ++ [d]) = about n h ++ (if d.name = n ∧ Fits d.value then [d] else []) := by
  unfold about
  rw [List.filter_append]
  congr 1
  by_cases hc : d.name = n ∧ Fits d.value <;> simp [hc]

theorem kind_append (n : Name) (h : List Def) (d : Def) :
    kind (h ++ [d]) n =
      (kind h n).or (if d.name = n ∧ Fits d.value then some d.isVar else none) := by
  unfold kind
  rw [about_append]
  cases about n h with
  | nil => by_cases hc : d.name = n ∧ Fits d.value <;> simp [hc]
  | cons a l => simp

theorem value_append (n : Name) (h : List Def) (d : Def) :
    value (h ++ [d]) n =
      if d.name = n ∧ Fits d.value ∧ kind h n ≠ some (!d.isVar) then some d.value
      else value h n := by
  unfold value
  rw [kind_append, about_append]
  by_cases hc : d.name = n ∧ Fits d.value
  · rw [if_pos hc, if_pos hc]
    cases hk : kind h n with
    | none =>
      rw [if_pos ⟨hc.1, hc.2, nofun⟩]
      simp
    | some b =>
      rw [List.filter_append]
      by_cases hb : b = !d.isVar
      · rw [if_neg (by rw [hb]; simp)]
        subst hb
        simp
      · have hb' : b = d.isVar := by cases b <;> cases hv : d.isVar <;> simp_all
        subst hb'
        rw [if_pos ⟨hc.1, hc.2, by simp⟩]
        simp
  · rw [if_neg hc, if_neg hc, if_neg (fun h => hc ⟨h.1, h.2.1⟩)]
    simp

theorem value_none (n : Name) (h : List Def) (hk : kind h n = none) : value h n = none := by
  unfold value
  have : about n h = [] := by
    unfold kind at hk
    simpa using hk
  rw [this]
  rfl

theorem value_some (n : Name) (h : List Def) (b : Bool) (hk : kind h n = some b) :
    ∃ v, value h n = some v := by
  unfold value
  rw [hk]
  unfold kind at hk
  cases ha : about n h with
  | nil => rw [ha] at hk; cases hk
  | cons a l =>
    rw [ha] at hk
    simp only [List.head?_cons, Option.map_some, Option.some.injEq] at hk
    have : (List.filter (fun d => decide (some d.isVar = some b)) (a :: l)) ≠ [] := by
      rw [List.filter_cons_of_pos (by simp [hk])]
      simp
    rw [List.getLast?_eq_some_getLast this]
    exact ⟨_, rfl⟩

/-- The store holds what the history says. -/
def Holds (s : Symbols) (h : List Def) : Prop :=
  ∀ n, s.constants.find n = (if kind h n = some false then value h n else none) ∧
    s.variables.find n = (if kind h n = some true then value h n else none)

theorem find_put {α : Type} (m : Map α) (k n : Name) (v : α) :
    (m.put k v).find n = if k = n then some v else m.find n := rfl

theorem holds_hasValue {s : Symbols} {h : List Def} (hs : Holds s h) (n : Name) (b : Bool) :
    s.hasValue n b = decide (kind h n = some b) := by
  unfold Symbols.hasValue
  have := hs n
  cases b
  · rw [if_neg (by simp), this.1]
    by_cases hk : kind h n = some false
    · obtain ⟨v, hv⟩ := value_some n h _ hk
      simp [hk, hv]
    · simp [hk]
  · rw [if_pos rfl, this.2]
    by_cases hk : kind h n = some true
    · obtain ⟨v, hv⟩ := value_some n h _ hk
      simp [hk, hv]
    · simp [hk]

theorem append_skip {h : List Def} {d : Def} {n : Name}
    (hn : ¬ (d.name = n ∧ Fits d.value ∧ kind h n ≠ some (!d.isVar))) :
    value (h ++ [d]) n = value h n ∧ kind (h ++ [d]) n = kind h n := by
  refine ⟨by rw [value_append, if_neg hn], ?_⟩
  rw [kind_append]
  cases hk : kind h n with
  | some b => rfl
  | none =>
    rw [if_neg (fun h => hn ⟨h.1, h.2, by rw [hk]; nofun⟩)]
    rfl

theorem append_take {h : List Def} {d : Def} (hf : Fits d.value)
    (hc : kind h d.name ≠ some (!d.isVar)) :
    value (h ++ [d]) d.name = some d.value ∧ kind (h ++ [d]) d.name = some d.isVar := by
  refine ⟨by rw [value_append, if_pos ⟨rfl, hf, hc⟩], ?_⟩
  rw [kind_append, if_pos ⟨rfl, hf⟩]
  cases hk : kind h d.name with
  | none => rfl
  | some b =>
    rw [hk] at hc
    cases b <;> cases hv : d.isVar <;> simp_all

theorem holds_intern {s : Symbols} {h : List Def} (hs : Holds s h) (d : Def) :
    Holds (s.intern d.value d.name d.isVar).1 (h ++ [d]) ∧
    (s.intern d.value d.name d.isVar).2 =
      (match verdict h d with
        | .accepted => .OK | .conflict => .DUPLICATE_LABEL | .tooLarge => .OVERFLOW_RANGE) ∧
    (verdict h d ≠ .accepted → (s.intern d.value d.name d.isVar).1 = s) := by
  unfold Symbols.intern
  rw [holds_hasValue hs]
  by_cases hc : kind h d.name = some (!d.isVar)
  · have hv : verdict h d = .conflict := by unfold verdict; rw [if_pos hc]
    rw [if_pos (decide_eq_true hc), hv]
    refine ⟨fun n => ?_, rfl, fun _ => rfl⟩
    have := append_skip (h := h) (d := d) (n := n) (fun h => h.2.2 (by rw [← h.1]; exact hc))
    rw [this.1, this.2]
    exact hs n
  · rw [if_neg (by simpa using hc)]
    by_cases hf : Fits d.value
    · have hv : verdict h d = .accepted := by unfold verdict; rw [if_neg hc, if_pos hf]
      rw [if_neg (by rw [(fits_iff _).mp hf]; simp), hv]
      refine ⟨fun n => ?_, by split <;> rfl, fun h => absurd rfl h⟩
      have hsn := hs n
      by_cases hn : d.name = n
      · subst hn
        have := append_take hf hc
        rw [this.1, this.2]
        cases hb : d.isVar
        · rw [if_neg (by simp)]
          simp only [find_put]
          rw [hsn.2]
          simp_all
        · rw [if_pos rfl]
          simp only [find_put]
          rw [hsn.1]
          simp_all
      · have := append_skip (h := h) (d := d) (n := n) (fun h => hn h.1)
        rw [this.1, this.2]
        split <;> simp only [find_put] <;> simpa [hn] using hsn
    · have hv : verdict h d = .tooLarge := by unfold verdict; rw [if_neg hc, if_neg hf]
      have hf' : d.value.overflowUint32 = true := by
        cases ho : d.value.overflowUint32
        · exact absurd ((fits_iff _).mpr ho) hf
        · rfl
      rw [if_pos hf', hv]
      refine ⟨fun n => ?_, rfl, fun _ => rfl⟩
      have := append_skip (h := h) (d := d) (n := n) (fun h => hf h.2.1)
      rw [this.1, this.2]
      exact hs n

theorem holds_empty : Holds .empty [] := fun _ => ⟨rfl, rfl⟩

theorem holds_run (ops : List Op) : Holds (run ops) (history ops) := by
  unfold run history
  suffices ∀ (s : Symbols) (h : List Def), Holds s h →
      Holds (ops.foldl Symbols.step s) (ops.foldl (fun h o => match o with
      | .define d => h ++ [d]
      | .clear => []
      | _ => h) h) from this _ _ holds_empty
  induction ops with
  | nil => intro s h hs; exact hs
  | cons o os ih =>
    intro s h hs
    rw [List.foldl_cons, List.foldl_cons]
    apply ih
    cases o with
    | define d => exact (holds_intern hs d).1
    | function n ps b =>
      show Holds (s.internFunction n ps b).1 h
      unfold Symbols.internFunction
      split <;> exact hs
    | clearFunctions => exact hs
    | clear => exact holds_empty

end Libasm.Store
