/-
Specification vocabulary for numerals, independent of the model.
-/
namespace Libasm.Number.Spec

/-- The digit a character stands for: 0-9, a-f, A-F. -/
def digitVal (c : Char) : Option Nat :=
  if 48 ≤ c.toNat ∧ c.toNat ≤ 57 then some (c.toNat - 48)
  else if 97 ≤ c.toNat ∧ c.toNat ≤ 102 then some (c.toNat - 97 + 10)
  else if 65 ≤ c.toNat ∧ c.toNat ≤ 70 then some (c.toNat - 65 + 10)
  else none

/-- `c` is a digit in base `b`. -/
def IsDigit (b : Nat) (c : Char) : Prop := ∃ d, digitVal c = some d ∧ d < b

instance (b c) : Decidable (IsDigit b c) :=
  match h : digitVal c with
  | none => isFalse (by rintro ⟨d, hd, _⟩; rw [h] at hd; cases hd)
  | some d =>
    if hb : d < b then isTrue ⟨d, h, hb⟩
    else isFalse (by rintro ⟨e, he, hlt⟩; rw [h] at he; cases he; exact hb hlt)

/-- The number a list of digits denotes in base `b`, most significant digit first. -/
def valueOf (b : Nat) : List Char → Nat
  | ds => ds.foldl (fun a c => a * b + (digitVal c).getD 0) 0

/-- The text after a number does not go on with something that belongs to a number: it does not
start with a letter, a digit, a quote or a period. -/
def Ends (rest : List Char) : Prop :=
  ∀ c, rest.head? = some c →
    ¬ (48 ≤ c.toNat ∧ c.toNat ≤ 57) ∧ ¬ (65 ≤ c.toNat ∧ c.toNat ≤ 90) ∧
    ¬ (97 ≤ c.toNat ∧ c.toNat ≤ 122) ∧ c ≠ '\'' ∧ c ≠ '.'

/-- The signed number in the low `n` bits of `v`. -/
def signedOf (n v : Nat) : Int :=
  if v % 2 ^ n < 2 ^ (n - 1) then ((v % 2 ^ n : Nat) : Int) else ((v % 2 ^ n : Nat) : Int) - 2 ^ n

end Libasm.Number.Spec
