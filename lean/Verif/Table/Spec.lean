import Verif.Base.Ctype
/-
What name lookup must do, without any search: names are compared letter by letter after turning
capital letters into small ones, and a lookup looks at every row of the table.
-/
namespace Libasm.Table.Spec

/-- The codes of the letters of a name, capital letters counted as the small ones. -/
def key (s : List Char) : List Nat :=
  s.map fun c => if 65 ≤ c.toNat ∧ c.toNat ≤ 90 then c.toNat + 32 else c.toNat

/-- Two names are the same up to case. -/
def Same (a b : List Char) : Prop := key a = key b

/-- `a` is before `b` in the dictionary, ignoring case: lexicographic order of the keys. -/
def Before (a b : List Char) : Prop := key a < key b

/-- A name of the dictionary: no NUL inside. -/
def Name (s : List Char) : Prop := '\x00' ∉ s

instance (a b : List Char) : Decidable (Same a b) := inferInstanceAs (Decidable (_ = _))
instance (a b : List Char) : Decidable (Before a b) := inferInstanceAs (Decidable (_ < _))
instance (a : List Char) : Decidable (Name a) := inferInstanceAs (Decidable (¬ _))

/-- The texts are in dictionary order: none comes before an earlier one. -/
def Sorted (l : List (List Char)) : Prop := l.Pairwise fun a b => ¬ Before b a

/-- The value of a string of decimal digits. -/
def decimal (ds : List Char) : Nat := ds.foldl (fun v c => v * 10 + (c.toNat - 48)) 0

/-- Decimal digits, at least one, the first of them a zero only when it is the only one. -/
def Canonical (ds : List Char) : Prop :=
  ds ≠ [] ∧ (∀ c ∈ ds, '0' ≤ c ∧ c ≤ '9') ∧ (ds.head? = some '0' → ds = ['0'])

/-- A letter, a digit or an underscore. -/
def Ident (c : Char) : Prop :=
  ('0' ≤ c ∧ c ≤ '9') ∨ ('A' ≤ c ∧ c ≤ 'Z') ∨ ('a' ≤ c ∧ c ≤ 'z') ∨ c = '_'

instance (c : Char) : Decidable (Ident c) := inferInstanceAs (Decidable (_ ∨ _))
instance (ds : List Char) : Decidable (Canonical ds) := inferInstanceAs (Decidable (_ ∧ _))

end Libasm.Table.Spec
