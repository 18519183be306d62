import Verif.Base.Ctype
import Verif.Number.Spec
/-
What an expression in C notation means, without reference to the evaluator: syntax trees, the
texts that denote them, and the integer they stand for.
-/
namespace Libasm.Eval.Spec
open Number.Spec

inductive UnOp | plus | minus | compl | not
deriving DecidableEq, Repr

inductive BinOp
  | mul | div | mod | add | sub | shl | shr | lt | le | ge | gt | eq | ne | and | xor | or
  | land | lor
deriving DecidableEq, Repr

/-- How an operator is written. -/
def UnOp.text : UnOp → List Char
  | .plus => ['+'] | .minus => ['-'] | .compl => ['~'] | .not => ['!']

/-- How an operator is written. -/
def BinOp.text : BinOp → List Char
  | .mul => ['*'] | .div => ['/'] | .mod => ['%'] | .add => ['+'] | .sub => ['-']
  | .shl => ['<', '<'] | .shr => ['>', '>']
  | .lt => ['<'] | .le => ['<', '='] | .ge => ['>', '='] | .gt => ['>']
  | .eq => ['=', '='] | .ne => ['!', '=']
  | .and => ['&'] | .xor => ['^'] | .or => ['|'] | .land => ['&', '&'] | .lor => ['|', '|']

/-- The level of an infix operator in the precedence table of C: a smaller level binds tighter.
Level 0 is an operand, level 1 a prefix operator. -/
def BinOp.level : BinOp → Nat
  | .mul | .div | .mod => 2
  | .add | .sub => 3
  | .shl | .shr => 4
  | .lt | .le | .ge | .gt => 5
  | .eq | .ne => 6
  | .and => 7 | .xor => 8 | .or => 9 | .land => 10 | .lor => 11

/-- Comparisons cannot be chained; the other operators associate to the left. -/
def BinOp.chains : BinOp → Bool
  | .lt | .le | .ge | .gt | .eq | .ne => false
  | _ => true

/-- Syntax trees.  `paren` is a pair of parentheses. -/
inductive Expr
  | num (n : Nat)
  | char (c : Char)
  | here
  | sym (name : List Char)
  | paren (e : Expr)
  | un (o : UnOp) (e : Expr)
  | bin (o : BinOp) (l r : Expr)
deriving Repr

/-- The level of the outermost operator. -/
def Expr.level : Expr → Nat
  | .un _ _ => 1
  | .bin o _ _ => o.level
  | _ => 0

/-- The tree needs no parentheses beyond those it has: it groups as precedence and associativity
say. -/
def Expr.Grouped : Expr → Prop
  | .paren e => e.Grouped
  | .un _ e => e.level ≤ 1 ∧ e.Grouped
  | .bin o l r =>
    (if o.chains then l.level ≤ o.level else l.level < o.level) ∧ r.level < o.level ∧
    l.Grouped ∧ r.Grouped
  | _ => True

/-- The values waiting while an operand of the expression is read, plus one. -/
def Expr.values : Expr → Nat
  | .paren e | .un _ e => e.values
  | .bin _ l r => max l.values (1 + r.values)
  | _ => 1

/-- The operators and parentheses open while an operand of the expression is read. -/
def Expr.operators : Expr → Nat
  | .paren e | .un _ e => 1 + e.operators
  | .bin _ l r => max l.operators (1 + r.operators)
  | _ => 0

/-- A number: decimal without a leading zero, octal with one, or with a prefix 0x or 0b. -/
inductive Literal : Nat → List Char → Prop
  | zero : Literal 0 ['0']
  | dec (ds : List Char) (h : ∀ c ∈ ds, IsDigit 10 c) (h0 : ∃ c t, ds = c :: t ∧ c ≠ '0') :
      Literal (valueOf 10 ds) ds
  | oct (ds : List Char) (h : ∀ c ∈ ds, IsDigit 8 c) (h0 : ds ≠ []) :
      Literal (valueOf 8 ds) ('0' :: ds)
  | hex (x : Char) (hx : x = 'x' ∨ x = 'X') (ds : List Char) (h : ∀ c ∈ ds, IsDigit 16 c)
      (h0 : ds ≠ []) : Literal (valueOf 16 ds) ('0' :: x :: ds)
  | bin (x : Char) (hx : x = 'b' ∨ x = 'B') (ds : List Char) (h : ∀ c ∈ ds, IsDigit 2 c)
      (h0 : ds ≠ []) : Literal (valueOf 2 ds) ('0' :: x :: ds)

def IsLetter (c : Char) : Prop :=
  (65 ≤ c.toNat ∧ c.toNat ≤ 90) ∨ (97 ≤ c.toNat ∧ c.toNat ≤ 122) ∨ c = '_'

def IsDecimal (c : Char) : Prop := 48 ≤ c.toNat ∧ c.toNat ≤ 57

instance (c : Char) : Decidable (IsLetter c) := by unfold IsLetter; infer_instance
instance (c : Char) : Decidable (IsDecimal c) := by unfold IsDecimal; infer_instance

/-- A blank: space, tab, line feed, vertical tab, form feed, carriage return. -/
def Blank (c : Char) : Prop := c.toNat = 32 ∨ (9 ≤ c.toNat ∧ c.toNat ≤ 13)

instance (c : Char) : Decidable (Blank c) := by unfold Blank; infer_instance

/-- Words that are read as floating point numbers, in any mix of cases. -/
def FloatWord (name : List Char) : Prop :=
  name.map Ctype.toUpper = ['I', 'N', 'F'] ∨
  name.map Ctype.toUpper = ['I', 'N', 'F', 'I', 'N', 'I', 'T', 'Y'] ∨
  name.map Ctype.toUpper = ['N', 'A', 'N']

/-- A name: a letter or underscore, then letters, underscores and digits. -/
def IsName (name : List Char) : Prop :=
  (∃ c t, name = c :: t ∧ IsLetter c ∧ ∀ d ∈ t, IsLetter d ∨ IsDecimal d) ∧ ¬ FloatWord name

/-- The texts that denote a tree: its tokens in order, with any number of blanks between them. -/
inductive Writes : Expr → List Char → Prop
  | num (n : Nat) (t : List Char) (h : Literal n t) : Writes (.num n) t
  | char (c : Char) (h : c ≠ '\'') : Writes (.char c) ['\'', c, '\'']
  | quote : Writes (.char '\'') ['\'', '\'', '\'', '\'']
  | here : Writes .here ['$']
  | sym (name : List Char) (h : IsName name) : Writes (.sym name) name
  | paren (e : Expr) (t sp : List Char) (h : Writes e t) (hsp : ∀ c ∈ sp, Blank c) :
      Writes (.paren e) ('(' :: t ++ sp ++ [')'])
  | un (o : UnOp) (e : Expr) (t : List Char) (h : Writes e t) : Writes (.un o e) (o.text ++ t)
  | bin (o : BinOp) (l r : Expr) (tl sp tr : List Char) (hl : Writes l tl)
      (hsp : ∀ c ∈ sp, Blank c) (hr : Writes r tr) :
      Writes (.bin o l r) (tl ++ sp ++ o.text ++ tr)
  | blank (e : Expr) (c : Char) (t : List Char) (hc : Blank c) (h : Writes e t) :
      Writes e (c :: t)

/-- Every number in the tree fits in 64 bits, and no name in it is one of `taken`. -/
def Expr.Fits (taken : List Char → Prop) : Expr → Prop
  | .num n => n < 2 ^ 64
  | .sym name => ¬ taken name
  | .paren e | .un _ e => e.Fits taken
  | .bin _ l r => l.Fits taken ∧ r.Fits taken
  | .char _ | .here => True

/-- Characters a token of an expression can start with, and the period. -/
def TokenStart (c : Char) : Prop :=
  IsLetter c ∨ IsDecimal c ∨
  c ∈ ['\'', '$', '(', '+', '-', '~', '!', '*', '/', '%', '<', '>', '=', '&', '^', '|', '.']

/-- Where an expression ends, after any blanks: at the end of the text, at a comment, at the
delimiter, or at a character such as `,` `]` `#` that no token of an expression starts with, other
than a closing parenthesis. -/
def Stops (delim : Char) (rest : List Char) : Prop :=
  ∃ sp t, rest = sp ++ t ∧ (∀ c ∈ sp, Blank c) ∧
    (t = [] ∨ (∃ u, t = ';' :: u) ∨ (∃ u, t = delim :: u) ∨
      ∃ c u, t = c :: u ∧ ¬ TokenStart c ∧ ¬ Blank c ∧ c ≠ ')' ∧ c ≠ '\x00')

/-- Why an expression has no value. -/
inductive Fail
  /-- a division by zero -/
  | zeroDivide
  /-- a name without a value -/
  | unknown
  /-- something whose meaning is not fixed here: see `un`, `bin`, `inWord` -/
  | unspecified
deriving DecidableEq, Repr

/-- Integers of 64 bits, signed, but the most negative one. -/
def inWord (x : Int) : Except Fail Int :=
  if -2 ^ 63 < x ∧ x < 2 ^ 63 then .ok x else .error .unspecified

def truth (b : Bool) : Except Fail Int := .ok (if b then 1 else 0)

/-- The 64 bits of an integer in two's complement, and back. -/
def bits (x : Int) : Nat := (x % 2 ^ 64).toNat
def ofBits (n : Nat) : Int := if n < 2 ^ 63 then n else (n : Int) - 2 ^ 64

/-- Unspecified: `!x` of a multiple of 2^32 that is not 0 (see `C15_violated_not`). -/
def un : UnOp → Int → Except Fail Int
  | .plus, x => .ok x
  | .minus, x => .ok (-x)
  | .compl, x => .ok (-x - 1)
  | .not, x => if x = 0 then .ok 1 else if x % 2 ^ 32 = 0 then .error .unspecified else .ok 0

/-- Unspecified: shifting left a negative number or past 32 bits (see `C15_violated_shl`), shifting
by a negative number or by 2^32 or more. -/
def bin : BinOp → Int → Int → Except Fail Int
  | .mul, x, y => .ok (x * y)
  | .div, x, y => if y = 0 then .error .zeroDivide else .ok (x.tdiv y)
  | .mod, x, y => if y = 0 then .error .zeroDivide else .ok (x.tmod y)
  | .add, x, y => .ok (x + y)
  | .sub, x, y => .ok (x - y)
  | .shl, x, y =>
    if 0 ≤ x ∧ 0 ≤ y ∧ y < 2 ^ 32 ∧ x * 2 ^ y.toNat < 2 ^ 32 then .ok (x * 2 ^ y.toNat)
    else .error .unspecified
  | .shr, x, y => if 0 ≤ y ∧ y < 2 ^ 32 then .ok (x / 2 ^ y.toNat) else .error .unspecified
  | .lt, x, y => truth (decide (x < y))
  | .le, x, y => truth (decide (x ≤ y))
  | .ge, x, y => truth (decide (x ≥ y))
  | .gt, x, y => truth (decide (x > y))
  | .eq, x, y => truth (decide (x = y))
  | .ne, x, y => truth (decide (x ≠ y))
  | .and, x, y => .ok (ofBits (bits x &&& bits y))
  | .xor, x, y => .ok (ofBits (bits x ^^^ bits y))
  | .or, x, y => .ok (ofBits (bits x ||| bits y))
  | .land, x, y => truth (decide (x ≠ 0 ∧ y ≠ 0))
  | .lor, x, y => truth (decide (x ≠ 0 ∨ y ≠ 0))

/-- The integer a tree stands for, with the values of the names and of `$`: operands from left to
right, then the operator, each result within a word. -/
def Expr.value (names : List Char → Option Int) (here : Nat) : Expr → Except Fail Int
  | .num n => inWord n
  | .char c => inWord c.toNat
  | .here => inWord here
  | .sym name => match names name with
    | some x => inWord x
    | none => .error .unknown
  | .paren e => e.value names here
  | .un o e => do inWord (← Spec.un o (← e.value names here))
  | .bin o l r => do
    let x ← l.value names here
    let y ← r.value names here
    inWord (← Spec.bin o x y)

end Libasm.Eval.Spec
