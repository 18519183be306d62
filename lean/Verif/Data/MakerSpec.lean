import Verif.Data.Spec
import Verif.Maker.Spec
/-
What a data directive means in the notations of the CPU makers: the bytes of its operands.
-/
namespace Libasm.Data.Maker
open Number.Spec Eval.Spec Libasm.Maker Data.Spec

/-- How strings are written: a letter that may stand before the opening quote, in either case, the
quotes, and whether characters can be written with a percent sign. -/
structure Strings where
  mark : Option Char
  quotes : List Char
  percent : Bool

/-- How a byte of a string between quotes `q` is written: as a character, the quote itself twice; or
the quote and others after a percent sign. -/
inductive Letter (percent : Bool) (q : Char) : Nat → List Char → Prop
  | plain (c : Char) (h0 : c ≠ '\x00') (hq : c ≠ q) (hp : percent = true → c ≠ '%')
      (hb : c.toNat < 256) : Letter percent q c.toNat [c]
  | twice (hp : percent = false) : Letter percent q q.toNat [q, q]
  | hex (a b : Char) (hp : percent = true) (ha : IsDigit 16 a) (hb : IsDigit 16 b) :
      Letter percent q (valueOf 16 [a, b]) ['%', a, b]
  | escape (a c : Char) (hp : percent = true) (h : (Ctype.toUpper a, c) ∈ zilogEscapes) :
      Letter percent q c.toNat ['%', a]

/-- How the bytes of a string are written between the quotes. -/
inductive Content (percent : Bool) (q : Char) : List Nat → List Char → Prop
  | nil : Content percent q [] []
  | cons (n : Nat) (t : List Char) (s : List Nat) (u : List Char) (h : Letter percent q n t)
      (hs : Content percent q s u) : Content percent q (n :: s) (t ++ u)

/-- What stands before the opening quote: nothing, or the mark. -/
def Strings.Mark (S : Strings) (m : List Char) : Prop :=
  m = [] ∨ ∃ x, m = [x] ∧ S.mark = some (Ctype.toUpper x)

/-- An operand: an expression, or a string of bytes. -/
inductive Item
  | value (e : Libasm.Maker.Expr)
  | string (s : List Nat)

/-- How an operand is written: blanks, and an expression or a string.  Where strings are possible, an
expression does not start with the quote of a string. -/
inductive ItemText (N : Notation) (S : Strings) (type : DataType) : Item → List Char → Prop
  | value (e : Libasm.Maker.Expr) (t : List Char) (h : Writes N e t)
      (hq : DataType.strings type = true → ∀ sp m q u, t = sp ++ m ++ q :: u → (∀ x ∈ sp, Blank x) →
        S.Mark m → q ∉ S.quotes) :
      ItemText N S type (.value e) t
  | string (s : List Nat) (u sp m : List Char) (q : Char) (hs : DataType.strings type = true)
      (hq : q ∈ S.quotes) (hm : S.Mark m) (hsp : ∀ c ∈ sp, Blank c) (hc : Content S.percent q s u) :
      ItemText N S type (.string s) (sp ++ m ++ q :: u ++ [q])

/-- How a list of operands is written: with commas in between. -/
inductive ListText (N : Notation) (S : Strings) (type : DataType) : List Item → List Char → Prop
  | last (i : Item) (t : List Char) (h : ItemText N S type i t) : ListText N S type [i] t
  | more (i : Item) (t sp : List Char) (is : List Item) (u : List Char)
      (h : ItemText N S type i t) (hsp : ∀ c ∈ sp, Blank c) (hu : ListText N S type is u) :
      ListText N S type (i :: is) (t ++ sp ++ ',' :: u)

/-- The bytes of an operand. -/
def bytes (type : DataType) (big wordUnit : Bool) (names : List Char → Option Int)
    (funs : List Char → Option (List Int → Option Int)) (loc : Nat) :
    Item → Except Fail (List Nat)
  | .value e =>
    match e.value names funs loc with
    | .ok x => .ok (valueBytes type big x)
    | .error f => .error f
  | .string s => .ok (s ++ fill (unit type wordUnit) s.length)

/-- The bytes of a list of operands. -/
def allBytes (type : DataType) (big wordUnit : Bool) (names : List Char → Option Int)
    (funs : List Char → Option (List Int → Option Int)) (loc : Nat) :
    List Item → Except Fail (List Nat)
  | [] => .ok []
  | i :: is =>
    match bytes type big wordUnit names funs loc i, allBytes type big wordUnit names funs loc is with
    | .ok x, .ok y => .ok (x ++ y)
    | .error f, _ => .error f
    | _, .error f => .error f

/-- Limits of the evaluator: see C15. -/
def Fits (taken : List Char → Prop) : Item → Prop
  | .value e => e.Grouped ∧ e.Fits taken ∧ e.values ≤ 8 ∧ e.operators ≤ 8
  | .string _ => True

end Libasm.Data.Maker
