/-
The `ctype.h` predicates in the "C" locale, as used by /repo/src/str_scanner.h and others.
A C `char` is a Lean `Char`; characters above 127 belong to no class, as in the "C" locale.
-/
namespace Libasm.Ctype

/-- `isdigit` -/
def isDigit (c : Char) : Bool := decide (48 ≤ c.toNat) && decide (c.toNat ≤ 57)
/-- `isupper` -/
def isUpper (c : Char) : Bool := decide (65 ≤ c.toNat) && decide (c.toNat ≤ 90)
/-- `islower` -/
def isLower (c : Char) : Bool := decide (97 ≤ c.toNat) && decide (c.toNat ≤ 122)
/-- `isalpha` -/
def isAlpha (c : Char) : Bool := isUpper c || isLower c
/-- `isalnum` -/
def isAlnum (c : Char) : Bool := isAlpha c || isDigit c
/-- `isspace` -/
def isSpace (c : Char) : Bool := c.toNat == 32 || (decide (9 ≤ c.toNat) && decide (c.toNat ≤ 13))
/-- `toupper` -/
def toUpper (c : Char) : Char := if isLower c then Char.ofNat (c.toNat - 32) else c
/-- `tolower` -/
def toLower (c : Char) : Char := if isUpper c then Char.ofNat (c.toNat + 32) else c
/-- `isxdigit` -/
def isXdigit (c : Char) : Bool :=
  isDigit c || (decide (65 ≤ c.toNat) && decide (c.toNat ≤ 70)) ||
    (decide (97 ≤ c.toNat) && decide (c.toNat ≤ 102))

/-- A property of the 128 ASCII characters, from checking all of them. -/
theorem ascii {p : Char → Prop} (h : ∀ n < 128, p (Char.ofNat n)) (c : Char) (hc : c.toNat < 128) :
    p c := by
  have := h c.toNat hc
  rwa [Char.ofNat_toNat] at this

end Libasm.Ctype
