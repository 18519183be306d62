import Verif.Cpu.Model
import Verif.Table.Spec
/-
What setting an option by name must do. The settings of a disassembler are seen through `look`; the
texts of values are described by their form, without any reader.
-/
namespace Libasm.Options.Spec
open Table.Spec (Same)

/-- `ds` is the decimal numeral of `n`: digits, leading zeros allowed. -/
inductive Numeral : List Char → Nat → Prop
  | one (d : Nat) (h : d < 10) : Numeral [Char.ofNat (48 + d)] d
  | more (ds : List Char) (n d : Nat) (h : d < 10) (hn : Numeral ds n) :
      Numeral (ds ++ [Char.ofNat (48 + d)]) (10 * n + d)

/-- `t` is a decimal number, perhaps with a sign, of less than 31 bits. -/
def IntText (t : List Char) (i : Int) : Prop :=
  ∃ ds n, Numeral ds n ∧ n < 2 ^ 31 ∧
    ((t = ds ∧ i = n) ∨ (t = '+' :: ds ∧ i = n) ∨ (t = '-' :: ds ∧ i = -n))

/-- `t` is one of the words for true or for false, in any case. -/
def WordText (t : List Char) (b : Bool) : Prop :=
  ∃ w ∈ (if b then ["enable", "true", "yes", "on"] else ["disable", "false", "no", "off"]),
    Same t w.toList

/-- `t` is a truth value: a word, or a number which is zero for false. -/
def BoolText (t : List Char) (b : Bool) : Prop :=
  WordText t b ∨ ∃ i, IntText t i ∧ b = decide (i ≠ 0)

/-- The value may be written in double quotes. -/
def Quoted (t u : List Char) : Prop := u = t ∨ u = '"' :: (t ++ ['"'])

/-- The common settings of every disassembler. -/
inductive Setting
  | upperHex | upperCase | listRadix | relative | cStyle | intelHex | originChar
deriving DecidableEq

/-- The names of the options. -/
def Setting.name : Setting → String
  | .upperHex => "upper-hex"
  | .upperCase => "upper-case"
  | .listRadix => "list-radix"
  | .relative => "relative"
  | .cStyle => "c-style"
  | .intelHex => "intel-hex"
  | .originChar => "origin-char"

/-- The value of a setting: on or off (octal or not, for the radix of the listing), or a letter. -/
inductive Content
  | flag (b : Bool)
  | letter (c : Char)
deriving DecidableEq

/-- The current value of a setting. -/
def look (o : Cpu.Opts) : Setting → Content
  | .upperHex => .flag o.upperHex
  | .upperCase => .flag o.upper
  | .listRadix => .flag o.octal
  | .relative => .flag o.relative
  | .cStyle => .flag o.cstyle
  | .intelHex => .flag o.intelHex
  | .originChar => .letter o.curSym

/-- `u` is a text for the value `v` of the setting. `sym` is the location symbol of the CPU, meant
by the empty text. -/
def ValueText (sym : Char) (k : Setting) (u : List Char) (v : Content) : Prop :=
  match k with
  | .listRadix => ∃ t i, IntText t i ∧ Quoted t u ∧ v = .flag (decide (i = 8))
  | .originChar => (u = [] ∧ v = .letter sym) ∨
      ∃ c, u = [c] ∧ c ≠ '"' ∧ c ≠ '\'' ∧ c ≠ '\x00' ∧ v = .letter c
  | _ => ∃ t b, BoolText t b ∧ Quoted t u ∧ v = .flag b

/-- Two styles of numbers, of which at most one is on. -/
def Rivals (j k : Setting) : Prop := (j = .cStyle ∧ k = .intelHex) ∨ (j = .intelHex ∧ k = .cStyle)

instance (j k : Setting) : Decidable (Rivals j k) := inferInstanceAs (Decidable (_ ∨ _))

/-- `o'` is `o` with the setting `k` at the value `v`: turning a style of numbers on turns the other
off, and no other setting changes. -/
def Set (o : Cpu.Opts) (k : Setting) (v : Content) (o' : Cpu.Opts) : Prop :=
  look o' k = v ∧
  ∀ j, j ≠ k → look o' j = if Rivals j k ∧ v = .flag true then .flag false else look o j

end Libasm.Options.Spec
