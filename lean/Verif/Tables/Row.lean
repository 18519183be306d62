import Verif.Table.Model
import Verif.Table.Spec
/-
Rows of the instruction tables and the check that an index is usable.
-/
namespace Libasm.Tables
open Table

/-- A row of an instruction table: the code, the name and the operands (the macro and its other
arguments, as written in the table). -/
structure Row where
  opcode : Nat
  name : List Char
  operands : List String
deriving DecidableEq, Repr

/-- What lookup by name needs of a page: its index has row numbers of the page, each at most once,
in the order of the names, and leaves out only rows whose name and operands are those of a row it
has. -/
structure PageOk (p : Page Row) : Prop where
  names : ∀ r ∈ p.entries, Spec.Name r.name ∧ r.name ≠ []
  bounds : ∀ i ∈ p.index, i < p.entries.length
  once : p.index.Nodup
  sorted : Spec.Sorted (p.index.filterMap fun i => (p.entries[i]?).map Row.name)
  complete : ∀ k a, p.entries[k]? = some a → k ∈ p.index ∨
    ∃ i ∈ p.index, ∃ b, p.entries[i]? = some b ∧ b.name = a.name ∧ b.operands = a.operands

/-- A processor: its name and the pages its instructions are looked up in. -/
structure Cpu where
  name : List Char
  pages : List (Page Row)

/-! ### The check -/

def lowNat (c : Char) : Nat :=
  if Nat.ble 65 c.toNat && Nat.ble c.toNat 90 then c.toNat + 32 else c.toNat

/-- `a` does not come after `b`. -/
def leB : List Char → List Char → Bool
  | [], _ => true
  | _ :: _, [] => false
  | a :: as, b :: bs =>
    if Nat.beq (lowNat a) (lowNat b) then leB as bs else Nat.ble (lowNat a) (lowNat b)

def sortedB : List (List Char) → Bool
  | [] => true
  | a :: l => (match l with | [] => true | b :: _ => leB a b) && sortedB l

def nameB : List Char → Bool
  | [] => true
  | c :: cs => !Nat.beq c.toNat 0 && nameB cs

def nodupB : List Nat → Bool
  | [] => true
  | i :: is => is.all (fun j => !Nat.beq i j) && nodupB is

def completeB (entries : List Row) (index : List Nat) : List Row → Nat → Bool
  | [], _ => true
  | a :: rest, k =>
    (index.any (fun i => Nat.beq i k) ||
      index.any (fun i => match entries[i]? with
        | none => false
        | some b => decide (b.name = a.name) && decide (b.operands = a.operands))) &&
    completeB entries index rest (k + 1)

def pageB (p : Page Row) : Bool :=
  p.entries.all (fun r => nameB r.name && !r.name.isEmpty) &&
  p.index.all (fun i => Nat.blt i p.entries.length) &&
  nodupB p.index &&
  sortedB (p.index.filterMap fun i => (p.entries[i]?).map Row.name) &&
  completeB p.entries p.index p.entries 0

/-! ### It is right -/

theorem lowNat_eq (c : Char) :
    lowNat c = if 65 ≤ c.toNat ∧ c.toNat ≤ 90 then c.toNat + 32 else c.toNat := by
  unfold lowNat
  simp only [Bool.and_eq_true, Nat.ble_eq]

theorem key_cons (c : Char) (s : List Char) : Spec.key (c :: s) = lowNat c :: Spec.key s := by
  rw [lowNat_eq]; rfl

theorem leB_sound : ∀ a b : List Char, leB a b = true → ¬ Spec.Before b a
  | [], b, _ => by
    unfold Spec.Before
    simp [Spec.key]
  | a :: as, [], h => by simp [leB] at h
  | a :: as, b :: bs, h => by
    have ih := leB_sound as bs
    unfold leB at h
    unfold Spec.Before at *
    rw [key_cons, key_cons, List.cons_lt_cons_iff]
    split at h
    · rename_i e
      have e := Nat.eq_of_beq_eq_true e
      rw [e]
      rintro (h' | h')
      · omega
      · exact ih h h'.2
    · rename_i e
      have e : lowNat a ≠ lowNat b := fun x => e (by rw [x]; exact Nat.beq_refl _)
      have h := Nat.le_of_ble_eq_true h
      rintro (h' | h')
      · omega
      · omega

theorem sortedB_sound : ∀ l : List (List Char), sortedB l = true → Spec.Sorted l
  | [], _ => List.Pairwise.nil
  | a :: l, h => by
    unfold sortedB at h
    rw [Bool.and_eq_true] at h
    have ih := sortedB_sound l h.2
    refine List.Pairwise.cons ?_ ih
    cases l with
    | nil => exact nofun
    | cons b l =>
      have hab := leB_sound a b h.1
      intro c hc
      rcases List.mem_cons.mp hc with rfl | hc
      · exact hab
      · have hbc := (List.pairwise_cons.mp ih).1 c hc
        unfold Spec.Before at *
        exact List.not_lt.mpr (List.le_trans (List.not_lt.mp hab) (List.not_lt.mp hbc))

theorem nameB_sound : ∀ l : List Char, nameB l = true → Spec.Name l
  | [], _ => nofun
  | c :: cs, h => by
    unfold nameB at h
    rw [Bool.and_eq_true] at h
    have ih := nameB_sound cs h.2
    intro hm
    rcases List.mem_cons.mp hm with e | hm
    · rw [← e] at h
      exact absurd h.1 (by decide)
    · exact ih hm

theorem nodupB_sound : ∀ l : List Nat, nodupB l = true → l.Nodup
  | [], _ => List.nodup_nil
  | i :: is, h => by
    unfold nodupB at h
    rw [Bool.and_eq_true] at h
    refine List.nodup_cons.mpr ⟨?_, nodupB_sound is h.2⟩
    intro hm
    have := List.all_eq_true.mp h.1 i hm
    simp at this

theorem completeB_sound (entries : List Row) (index : List Nat) : ∀ (rest : List Row) (k : Nat),
    completeB entries index rest k = true → ∀ j a, rest[j]? = some a → (k + j) ∈ index ∨
      ∃ i ∈ index, ∃ b, entries[i]? = some b ∧ b.name = a.name ∧ b.operands = a.operands
  | [], _, _, j, a, ha => by simp at ha
  | r :: rest, k, h, j, a, ha => by
    unfold completeB at h
    rw [Bool.and_eq_true, Bool.or_eq_true] at h
    cases j with
    | zero =>
      have : r = a := by simpa using ha
      subst this
      rcases h.1 with h1 | h1
      · obtain ⟨i, hi, e⟩ := List.any_eq_true.mp h1
        have := Nat.eq_of_beq_eq_true e
        subst this
        exact .inl hi
      · obtain ⟨i, hi, e⟩ := List.any_eq_true.mp h1
        right
        cases hb : entries[i]? with
        | none => rw [hb] at e; exact absurd e (by simp)
        | some b =>
          rw [hb] at e
          simp only [Bool.and_eq_true, decide_eq_true_eq] at e
          exact ⟨i, hi, b, hb, e⟩
    | succ j =>
      have := completeB_sound entries index rest (k + 1) h.2 j a (by simpa using ha)
      rwa [show k + 1 + j = k + (j + 1) by omega] at this

theorem pageB_sound (p : Page Row) (h : pageB p = true) : PageOk p := by
  unfold pageB at h
  simp only [Bool.and_eq_true] at h
  obtain ⟨⟨⟨⟨h1, h2⟩, h3⟩, h4⟩, h5⟩ := h
  refine ⟨?_, ?_, nodupB_sound _ h3, sortedB_sound _ h4, ?_⟩
  · intro r hr
    have := List.all_eq_true.mp h1 r hr
    rw [Bool.and_eq_true] at this
    refine ⟨nameB_sound _ this.1, ?_⟩
    intro e
    rw [e] at this
    exact absurd this.2 (by decide)
  · intro i hi
    have := List.all_eq_true.mp h2 i hi
    exact Nat.le_of_ble_eq_true this
  · intro k a ha
    have := completeB_sound p.entries p.index p.entries 0 h5 k a ha
    rwa [Nat.zero_add] at this

theorem pages_sound {l : List (Page Row)} (h : l.all pageB = true) : ∀ p ∈ l, PageOk p :=
  fun p hp => pageB_sound p (List.all_eq_true.mp h p hp)

/-- A table searched by name directly: directives, registers, condition codes, flags. -/
structure NameTable where
  where_ : String
  names : List (List Char)

/-- What lookup by name needs of it: the names are in order, each of them once. -/
structure NameTableOk (t : NameTable) : Prop where
  names : ∀ n ∈ t.names, Spec.Name n ∧ n ≠ []
  sorted : Spec.Sorted t.names
  unique : t.names.Pairwise fun a b => ¬ Spec.Same a b

def sameB : List Char → List Char → Bool
  | [], [] => true
  | a :: as, b :: bs => Nat.beq (lowNat a) (lowNat b) && sameB as bs
  | _, _ => false

theorem sameB_sound : ∀ a b : List Char, Spec.Same a b → sameB a b = true
  | [], [], _ => rfl
  | [], b :: bs, h => by
    have := congrArg List.length h
    simp [Spec.key] at this
  | a :: as, [], h => by
    have := congrArg List.length h
    simp [Spec.key] at this
  | a :: as, b :: bs, h => by
    unfold Spec.Same at h
    rw [key_cons, key_cons, List.cons.injEq] at h
    unfold sameB
    rw [h.1, sameB_sound as bs h.2, Nat.beq_refl]
    rfl

def uniqueB : List (List Char) → Bool
  | [] => true
  | a :: l => l.all (fun b => !sameB a b) && uniqueB l

theorem uniqueB_sound : ∀ l, uniqueB l = true → l.Pairwise fun a b => ¬ Spec.Same a b
  | [], _ => List.Pairwise.nil
  | a :: l, h => by
    unfold uniqueB at h
    rw [Bool.and_eq_true] at h
    refine List.Pairwise.cons ?_ (uniqueB_sound l h.2)
    intro b hb hs
    have := List.all_eq_true.mp h.1 b hb
    rw [sameB_sound a b hs] at this
    exact absurd this (by decide)

def tableB (t : NameTable) : Bool :=
  t.names.all (fun n => nameB n && !n.isEmpty) && sortedB t.names && uniqueB t.names

theorem tableB_sound (t : NameTable) (h : tableB t = true) : NameTableOk t := by
  unfold tableB at h
  simp only [Bool.and_eq_true] at h
  refine ⟨?_, sortedB_sound _ h.1.2, uniqueB_sound _ h.2⟩
  intro n hn
  have := List.all_eq_true.mp h.1.1 n hn
  rw [Bool.and_eq_true] at this
  refine ⟨nameB_sound _ this.1, ?_⟩
  intro e
  rw [e] at this
  exact absurd this.2 (by decide)

end Libasm.Tables
