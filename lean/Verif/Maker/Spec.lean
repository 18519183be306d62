import Verif.Eval.Spec
/-
What an expression means in the notations of the CPU makers, without reference to the evaluator:
tables of operators, syntax trees over them, the texts that denote a tree, and its integer.
-/
namespace Libasm.Maker
open Number.Spec Eval Eval.Spec

/-- What a prefix operator does: an operator of C, or it takes a byte or a 16 bit word out. -/
inductive Un
  | basic (o : UnOp)
  | highByte | lowByte | highWord | lowWord
deriving DecidableEq, Repr

/-- What an infix operator does: an operator of C, a power, or a shift or rotation of 16 bits. -/
inductive Bin
  | basic (o : BinOp)
  | power | shl16 | shr16 | rol16 | ror16
deriving DecidableEq, Repr

/-- How operators of the same level group. -/
inductive Side | left | right | none
deriving DecidableEq, Repr

/-- A prefix operator.  A smaller level binds tighter. -/
structure Prefix where
  text : List Char
  does : Un
  level : Nat
deriving DecidableEq, Repr

/-- An infix operator. -/
structure Infix where
  text : List Char
  does : Bin
  level : Nat
  side : Side
deriving DecidableEq, Repr

/-- A notation: its operators, whether words may be in any mix of cases, how numbers and characters
are written, and the symbols of the current location. -/
structure Notation where
  prefixes : List Prefix
  infixes : List Infix
  anyCase : Bool
  number : Nat → List Char → Prop
  letter : Char → List Char → Prop
  here : List Char

/-- Syntax trees.  `paren` is a pair of parentheses, `call` a function with `n + 1` arguments. -/
inductive Expr
  | num (n : Nat)
  | char (c : Char)
  | here
  | sym (name : List Char)
  | paren (e : Expr)
  | un (o : Prefix) (e : Expr)
  | bin (o : Infix) (l r : Expr)
  | call (name : List Char) (n : Nat) (args : Fin (n + 1) → Expr)

/-- The level of the outermost operator, 0 for an operand. -/
def Expr.level : Expr → Nat
  | .un o _ => o.level
  | .bin o _ _ => o.level
  | _ => 0

/-- How the outermost operator groups: a prefix operator to the right. -/
def Expr.side : Expr → Side
  | .bin o _ _ => o.side
  | _ => .right

/-- The tree `e` can stand without parentheses after an operator of the given level and side: it
binds tighter, or it has the same level and neither does it group to the left nor is the operator
one that cannot be chained. -/
def Expr.After (level : Nat) (side : Side) (e : Expr) : Prop :=
  e.level < level ∨ (e.level = level ∧ e.side ≠ .left ∧ side ≠ .none)

/-- The tree `e` can stand without parentheses before an infix operator: it binds tighter, or it
has the same level and the operator groups to the left. -/
def Expr.Before (o : Infix) (e : Expr) : Prop :=
  e.level < o.level ∨ (e.level = o.level ∧ o.side = .left)

/-- The tree needs no parentheses beyond those it has: it groups as the levels and sides say. -/
def Expr.Grouped : Expr → Prop
  | .paren e => e.Grouped
  | .un o e => e.After o.level .right ∧ e.Grouped
  | .bin o l r => l.Before o ∧ r.After o.level o.side ∧ l.Grouped ∧ r.Grouped
  | .call _ _ args => ∀ i, (args i).Grouped
  | _ => True

/-- The values waiting while a list of arguments is read, from those of the arguments: the arguments
before wait. -/
def pending : List Nat → Nat
  | [] => 0
  | v :: vs => max v (1 + pending vs)

/-- The values waiting while an operand of the expression is read, plus one. -/
def Expr.values : Expr → Nat
  | .paren e | .un _ e => e.values
  | .bin _ l r => max l.values (1 + r.values)
  | .call _ _ args => pending (List.ofFn fun i => (args i).values)
  | _ => 1

/-- The operators and parentheses open while an operand of the expression is read. -/
def Expr.operators : Expr → Nat
  | .paren e | .un _ e => 1 + e.operators
  | .bin _ l r => max l.operators (1 + r.operators)
  | .call _ _ args => 2 + (List.ofFn fun i => (args i).operators).foldr max 0
  | _ => 0

/-- A letter, digit or underscore. -/
def IsWord (c : Char) : Prop := IsLetter c ∨ IsDecimal c

instance (c : Char) : Decidable (IsWord c) := by unfold IsWord; infer_instance

/-- `w` is a way to write the operator `text`. -/
def Notation.Spells (N : Notation) (text w : List Char) : Prop :=
  if N.anyCase then w.map Ctype.toUpper = text else w = text

/-- What follows an operator, written `w`, does not change where it ends: no longer operator among
`ops` starts there, and if it ends in a letter, no letter or digit follows. -/
def Ends (ops : List (List Char)) (w t : List Char) : Prop :=
  (∀ o ∈ ops, w.length < o.length → ¬ o <+: w ++ t) ∧
  (∀ c d, w.getLast? = some c → t.head? = some d → IsWord c → ¬ IsWord d)

/-- A name: as in C, and not one that starts like a prefix operator that is a word (see
`C15_violated_low_name`). -/
def Notation.IsName (N : Notation) (name : List Char) : Prop :=
  Eval.Spec.IsName name ∧ ∀ o ∈ N.prefixes, name.map Ctype.toUpper ≠ o.text ∧
    ∀ u, name.map Ctype.toUpper ≠ o.text ++ '_' :: u

/-- The arguments of a function, with commas in between, and the closing parenthesis. -/
def argsText : List (List Char) → List Char
  | [] => [')']
  | [t] => t ++ [')']
  | t :: u :: ts => t ++ ',' :: argsText (u :: ts)

/-- The texts that denote a tree: its tokens in order, with any number of blanks between them, at
least one before an infix operator that is a word. -/
inductive Writes (N : Notation) : Expr → List Char → Prop
  | num (n : Nat) (t : List Char) (h : N.number n t) : Writes N (.num n) t
  | char (c : Char) (t : List Char) (h : N.letter c t) : Writes N (.char c) t
  | here (c : Char) (h : c ∈ N.here) : Writes N .here [c]
  | sym (name : List Char) (h : N.IsName name) : Writes N (.sym name) name
  | paren (e : Expr) (t sp : List Char) (h : Writes N e t) (hsp : ∀ c ∈ sp, Blank c) :
      Writes N (.paren e) ('(' :: t ++ sp ++ [')'])
  | un (o : Prefix) (e : Expr) (w t : List Char) (ho : o ∈ N.prefixes) (hw : N.Spells o.text w)
      (h : Writes N e t) (he : Ends (N.prefixes.map Prefix.text) w t) : Writes N (.un o e) (w ++ t)
  | bin (o : Infix) (l r : Expr) (tl sp w tr : List Char) (ho : o ∈ N.infixes)
      (hw : N.Spells o.text w) (hl : Writes N l tl) (hsp : ∀ c ∈ sp, Blank c)
      (hs : sp = [] → ∀ c, o.text.head? = some c → ¬ IsWord c) (hr : Writes N r tr)
      (he : Ends (N.infixes.map Infix.text) w tr) : Writes N (.bin o l r) (tl ++ sp ++ w ++ tr)
  | call (name : List Char) (n : Nat) (args : Fin (n + 1) → Expr) (sp : List Char)
      (texts blanks : Fin (n + 1) → List Char) (hn : N.IsName name) (hsp : ∀ c ∈ sp, Blank c)
      (hb : ∀ i, ∀ c ∈ blanks i, Blank c) (h : ∀ i, Writes N (args i) (texts i)) :
      Writes N (.call name n args) (name ++ sp ++ '(' :: argsText (List.ofFn fun i => texts i ++ blanks i))
  | blank (e : Expr) (c : Char) (t : List Char) (hc : Blank c) (h : Writes N e t) :
      Writes N e (c :: t)

/-- Every number in the tree fits in 64 bits, and the names that are functions are those of `taken`. -/
def Expr.Fits (taken : List Char → Prop) : Expr → Prop
  | .num n => n < 2 ^ 64
  | .sym name => ¬ taken name
  | .paren e | .un _ e => e.Fits taken
  | .bin _ l r => l.Fits taken ∧ r.Fits taken
  | .call name _ args => taken name ∧ ∀ i, (args i).Fits taken
  | .char _ | .here => True

/-- Characters a token of an expression can start with in some notation, and the period. -/
def TokenStart (c : Char) : Prop :=
  IsLetter c ∨ IsDecimal c ∨
  c ∈ ['\'', '"', '$', '(', '+', '-', '~', '!', '*', '/', '%', '<', '>', '=', '&', '^', '|', '.',
    '#', '@', '?']

/-- Where an expression ends, after any blanks: at the end of the text, at a comment, at the
delimiter, or at a character such as `,` `]` that no token of an expression starts with, other than
a closing parenthesis. -/
def Stops (delim : Char) (rest : List Char) : Prop :=
  ∃ sp t, rest = sp ++ t ∧ (∀ c ∈ sp, Blank c) ∧
    (t = [] ∨ (∃ u, t = ';' :: u) ∨ (∃ u, t = delim :: u) ∨
      ∃ c u, t = c :: u ∧ ¬ TokenStart c ∧ ¬ Blank c ∧ c ≠ ')' ∧ c ≠ '\x00')

/-- What a prefix operator makes of an integer; bytes and words are those of its two's complement. -/
def un : Un → Int → Except Fail Int
  | .basic o, x => Eval.Spec.un o x
  | .highByte, x => .ok (x / 2 ^ 8 % 2 ^ 8)
  | .lowByte, x => .ok (x % 2 ^ 8)
  | .highWord, x => .ok (x / 2 ^ 16 % 2 ^ 16)
  | .lowWord, x => .ok (x % 2 ^ 16)

/-- What an infix operator makes of two integers.  Unspecified: a shift by a negative number or by
2^32 or more, a negative exponent. -/
def bin : Bin → Int → Int → Except Fail Int
  | .basic o, x, y => Eval.Spec.bin o x y
  | .power, x, y => if 0 ≤ y then .ok (x ^ y.toNat) else .error .unspecified
  | .shl16, x, y =>
    if 0 ≤ y ∧ y < 2 ^ 32 then .ok (x * 2 ^ y.toNat % 2 ^ 16) else .error .unspecified
  | .shr16, x, y =>
    if 0 ≤ y ∧ y < 2 ^ 32 then .ok (x % 2 ^ 16 / 2 ^ y.toNat) else .error .unspecified
  | .rol16, x, y =>
    .ok (x * 2 ^ (y % 16).toNat % 2 ^ 16 + x % 2 ^ 16 / 2 ^ (16 - (y % 16).toNat))
  | .ror16, x, y =>
    .ok (x % 2 ^ 16 / 2 ^ (y % 16).toNat + x * 2 ^ (16 - (y % 16).toNat) % 2 ^ 16)

/-- What a list of arguments stands for: the first failure, or all the integers. -/
def allOf : List (Except Fail Int) → Except Fail (List Int)
  | [] => .ok []
  | .error f :: _ => .error f
  | .ok x :: rest => match allOf rest with
    | .error f => .error f
    | .ok xs => .ok (x :: xs)

/-- The integer a tree stands for, with the values of the names, the functions and the location:
operands from left to right, then the operator, each result within a word.  Unspecified: a function
that is not defined, or not for its arguments. -/
def Expr.value (names : List Char → Option Int) (funs : List Char → Option (List Int → Option Int))
    (here : Nat) : Expr → Except Fail Int
  | .num n => inWord n
  | .char c => inWord c.toNat
  | .here => inWord here
  | .sym name => match names name with
    | some x => inWord x
    | none => .error .unknown
  | .paren e => e.value names funs here
  | .un o e => do inWord (← Maker.un o.does (← e.value names funs here))
  | .bin o l r => do
    let x ← l.value names funs here
    let y ← r.value names funs here
    inWord (← Maker.bin o.does x y)
  | .call name _ args =>
    match funs name with
    | none => .error .unspecified
    | some g => match allOf (List.ofFn fun i => (args i).value names funs here) with
      | .error f => .error f
      | .ok xs => match g xs with
        | some z => inWord z
        | none => .error .unspecified

/-! ### Numbers -/

/-- How a maker writes numbers besides as in C: with a letter after the digits, with a mark before
the digits, or with a letter before the quoted digits, where the closing quote may be optional. -/
structure Numbers where
  suffixes : Bool
  marks : List (List Char × Nat)
  quoted : List (Char × Nat)
  unclosed : Bool := false

/-- The letters after the digits, and the base each stands for. -/
def suffixLetters : List (Char × Nat) :=
  [('H', 16), ('h', 16), ('O', 8), ('o', 8), ('Q', 8), ('q', 8), ('B', 2), ('b', 2), ('D', 10),
   ('d', 10)]

/-- The text `t` is the number `n`. -/
inductive Numbers.Lit (K : Numbers) : Nat → List Char → Prop
  | c (n : Nat) (t : List Char) (h : Literal n t) : Lit K n t
  /-- hexadecimal numbers start with a decimal digit -/
  | suffix (x : Char) (b : Nat) (ds : List Char) (hk : K.suffixes = true)
      (hx : (x, b) ∈ suffixLetters) (h : ∀ c ∈ ds, IsDigit b c)
      (h0 : ∃ c t, ds = c :: t ∧ IsDigit 10 c) : Lit K (valueOf b ds) (ds ++ [x])
  | mark (p : List Char) (b : Nat) (ds : List Char) (hp : (p, b) ∈ K.marks)
      (h : ∀ c ∈ ds, IsDigit b c) (h0 : ds ≠ []) : Lit K (valueOf b ds) (p ++ ds)
  | quoted (x : Char) (b : Nat) (ds : List Char) (hx : (Ctype.toUpper x, b) ∈ K.quoted)
      (h : ∀ c ∈ ds, IsDigit b c) (h0 : ds ≠ []) :
      Lit K (valueOf b ds) (x :: '\'' :: ds ++ ['\''])
  | unclosed (x : Char) (b : Nat) (ds : List Char) (hk : K.unclosed = true)
      (hx : (Ctype.toUpper x, b) ∈ K.quoted) (h : ∀ c ∈ ds, IsDigit b c) (h0 : ds ≠ []) :
      Lit K (valueOf b ds) (x :: '\'' :: ds)

/-! ### Operators -/

/-- Prefix operators of C. -/
def cPrefixes : List Prefix :=
  [⟨['~'], .basic .compl, 3⟩, ⟨['!'], .basic .not, 3⟩, ⟨['-'], .basic .minus, 3⟩,
   ⟨['+'], .basic .plus, 3⟩]

/-- Infix operators of C. -/
def cInfixes : List Infix :=
  [⟨['*'], .basic .mul, 5, .left⟩, ⟨['/'], .basic .div, 5, .left⟩, ⟨['%'], .basic .mod, 5, .left⟩,
   ⟨['+'], .basic .add, 6, .left⟩, ⟨['-'], .basic .sub, 6, .left⟩,
   ⟨['<', '<'], .basic .shl, 7, .left⟩, ⟨['>', '>'], .basic .shr, 7, .left⟩,
   ⟨['<'], .basic .lt, 9, .none⟩, ⟨['<', '='], .basic .le, 9, .none⟩,
   ⟨['>', '='], .basic .ge, 9, .none⟩, ⟨['>'], .basic .gt, 9, .none⟩,
   ⟨['=', '='], .basic .eq, 10, .none⟩, ⟨['!', '='], .basic .ne, 10, .none⟩,
   ⟨['&'], .basic .and, 11, .left⟩, ⟨['^'], .basic .xor, 12, .left⟩,
   ⟨['|'], .basic .or, 13, .left⟩, ⟨['&', '&'], .basic .land, 14, .left⟩,
   ⟨['|', '|'], .basic .lor, 15, .left⟩]

/-- Motorola adds operators that start with an exclamation mark, all as tight as `*`. -/
def motorolaInfixes : List Infix :=
  [⟨['!', '.'], .basic .and, 5, .left⟩, ⟨['!', '+'], .basic .or, 5, .left⟩,
   ⟨['!', 'X'], .basic .xor, 5, .left⟩, ⟨['!', '^'], .power, 5, .right⟩,
   ⟨['!', '<'], .shl16, 5, .left⟩, ⟨['!', '>'], .shr16, 5, .left⟩,
   ⟨['!', 'L'], .rol16, 5, .left⟩, ⟨['!', 'R'], .ror16, 5, .left⟩] ++ cInfixes

/-- Intel: a sign is as loose as `+`, NOT looser than comparisons. -/
def intelPrefixes : List Prefix :=
  [⟨['-'], .basic .minus, 6⟩, ⟨['+'], .basic .plus, 6⟩, ⟨['N', 'O', 'T'], .basic .compl, 10⟩,
   ⟨['H', 'I', 'G', 'H'], .highByte, 3⟩, ⟨['L', 'O', 'W'], .lowByte, 3⟩,
   ⟨['M', 'S', 'W'], .highWord, 3⟩, ⟨['L', 'S', 'W'], .lowWord, 3⟩, ⟨['~'], .basic .compl, 3⟩,
   ⟨['!'], .basic .not, 3⟩]

def intelInfixes : List Infix :=
  [⟨['M', 'O', 'D'], .basic .mod, 5, .left⟩, ⟨['S', 'H', 'R'], .shr16, 5, .left⟩,
   ⟨['S', 'H', 'L'], .shl16, 5, .left⟩, ⟨['E', 'Q'], .basic .eq, 9, .none⟩,
   ⟨['N', 'E'], .basic .ne, 9, .none⟩, ⟨['L', 'T'], .basic .lt, 9, .none⟩,
   ⟨['L', 'E'], .basic .le, 9, .none⟩, ⟨['G', 'E'], .basic .ge, 9, .none⟩,
   ⟨['G', 'T'], .basic .gt, 9, .none⟩, ⟨['A', 'N', 'D'], .basic .and, 11, .left⟩,
   ⟨['O', 'R'], .basic .or, 12, .left⟩, ⟨['X', 'O', 'R'], .basic .xor, 12, .left⟩] ++ cInfixes

def zilogPrefixes : List Prefix :=
  [⟨['L', 'N', 'O', 'T'], .basic .compl, 3⟩, ⟨['H', 'I', 'G', 'H'], .highByte, 3⟩,
   ⟨['L', 'O', 'W'], .lowByte, 3⟩, ⟨['H', 'I', 'G', 'H', '1', '6'], .highWord, 3⟩,
   ⟨['L', 'O', 'W', '1', '6'], .lowWord, 3⟩] ++ cPrefixes

def zilogInfixes : List Infix :=
  [⟨['M', 'O', 'D'], .basic .mod, 5, .left⟩, ⟨['S', 'H', 'R'], .shr16, 5, .left⟩,
   ⟨['S', 'H', 'L'], .shl16, 5, .left⟩, ⟨['L', 'A', 'N', 'D'], .basic .and, 5, .left⟩,
   ⟨['L', 'O', 'R'], .basic .or, 6, .left⟩, ⟨['L', 'X', 'O', 'R'], .basic .xor, 6, .left⟩] ++
  cInfixes

/-- Signetics: `<` and `>` before an operand take its low and high byte. -/
def signeticsPrefixes : List Prefix :=
  [⟨['<'], .lowByte, 3⟩, ⟨['>'], .highByte, 3⟩] ++ cPrefixes

def texasPrefixes : List Prefix := ⟨['#'], .basic .compl, 3⟩ :: cPrefixes

/-- Texas Instruments: `=` is equality, `++` or, `&&` exclusive or. -/
def texasInfixes : List Infix :=
  [⟨['+', '+'], .basic .or, 13, .left⟩, ⟨['&', '&'], .basic .xor, 12, .left⟩,
   ⟨['/', '/'], .shr16, 5, .left⟩, ⟨['='], .basic .eq, 10, .none⟩,
   ⟨['#', '='], .basic .ne, 10, .none⟩] ++
  cInfixes.filter (fun o => o.text ≠ ['=', '='] ∧ o.text ≠ ['&', '&'])

/-! ### Characters -/

/-- A character in single quotes, a quote doubled. -/
inductive Quoted : Char → List Char → Prop
  | char (c : Char) (h : c ≠ '\'') : Quoted c ['\'', c, '\'']
  | quote : Quoted '\'' ['\'', '\'', '\'', '\'']

/-- A character in single quotes, a quote like any other. -/
inductive QuotedAny : Char → List Char → Prop
  | char (c : Char) (h : c ≠ '\x00') : QuotedAny c ['\'', c, '\'']

/-- Signetics: an `A` in either case before the quoted character. -/
inductive QuotedA : Char → List Char → Prop
  | char (a c : Char) (t : List Char) (ha : a = 'A' ∨ a = 'a') (h : Quoted c t) : QuotedA c (a :: t)

/-- A character in single quotes, after an optional letter in either case. -/
inductive QuotedOpt (p : Char) : Char → List Char → Prop
  | plain (c : Char) (t : List Char) (h : Quoted c t) : QuotedOpt p c t
  | letter (x c : Char) (t : List Char) (hx : Ctype.toUpper x = p) (h : Quoted c t) :
      QuotedOpt p c (x :: t)

/-- Fairchild: a character in single quotes, where the closing quote is optional unless a `C` stands
before it, or a character after a number sign. -/
inductive QuotedFairchild : Char → List Char → Prop
  | closed (c : Char) (t : List Char) (h : Quoted c t) (h0 : c ≠ '\x00') : QuotedFairchild c t
  | unclosed (c : Char) (t : List Char) (h : Quoted c (t ++ ['\''])) (h0 : c ≠ '\x00') :
      QuotedFairchild c t
  | letter (x c : Char) (t : List Char) (hx : x = 'C' ∨ x = 'c') (h : Quoted c t) :
      QuotedFairchild c (x :: t)
  | sharp (c : Char) (h : c ≠ '\x00') : QuotedFairchild c ['#', c]

/-- Zilog: letters that stand for a character after a percent sign, in either case. -/
def zilogEscapes : List (Char × Char) :=
  [('L', '\x0a'), ('T', '\x09'), ('R', '\x0d'), ('P', '\x0c'), ('%', '%'), ('Q', '\'')]

/-- Zilog: a character in single quotes, or a percent sign and two hexadecimal digits or one of the
letters above. -/
inductive QuotedPercent : Char → List Char → Prop
  | char (c : Char) (h : c ≠ '\'') (h' : c ≠ '%') : QuotedPercent c ['\'', c, '\'']
  | hex (a b : Char) (ha : IsDigit 16 a) (hb : IsDigit 16 b) :
      QuotedPercent (Char.ofNat (valueOf 16 [a, b])) ['\'', '%', a, b, '\'']
  | escape (a c : Char) (h : (Ctype.toUpper a, c) ∈ zilogEscapes) :
      QuotedPercent c ['\'', '%', a, '\'']

/-! ### Notations -/

/-- Numbers of Intel: a letter after the digits. -/
def intelNumbers : Numbers := ⟨true, [], [], false⟩
/-- Numbers of Motorola. -/
def motorolaNumbers : Numbers := ⟨true, [(['$'], 16), (['%'], 2), (['@'], 8), (['&'], 10)], [], false⟩
/-- Numbers of Texas Instruments. -/
def texasNumbers : Numbers := ⟨true, [(['>'], 16), (['?'], 2)], [], false⟩
/-- Numbers of Zilog. -/
def zilogNumbers : Numbers :=
  ⟨true, [(['%'], 16), (['%', '(', '8', ')'], 8), (['%', '(', '2', ')'], 2)], [], false⟩
/-- Numbers of Signetics. -/
def signeticsNumbers : Numbers := ⟨true, [], [('H', 16), ('B', 2), ('O', 8), ('D', 10)], false⟩

/-- Numbers of RCA. -/
def rcaNumbers : Numbers := ⟨true, [(['#'], 16)], [('X', 16), ('B', 2), ('D', 10)], false⟩
/-- Numbers of Fairchild. -/
def fairchildNumbers : Numbers :=
  ⟨true, [(['$'], 16)], [('H', 16), ('B', 2), ('O', 8), ('D', 10)], false⟩
/-- Numbers of Panasonic. -/
def panasonicNumbers : Numbers := ⟨true, [], [('X', 16)], false⟩
/-- Numbers of National Semiconductor. -/
def nationalNumbers : Numbers := ⟨true, [], [('X', 16)], true⟩

def cNotation (number : Nat → List Char → Prop) (letter : Char → List Char → Prop) (here : List Char) :
    Notation := ⟨cPrefixes, cInfixes, false, number, letter, here⟩
def motorolaNotation (number : Nat → List Char → Prop) (letter : Char → List Char → Prop)
    (here : List Char) : Notation := ⟨cPrefixes, motorolaInfixes, false, number, letter, here⟩
def signeticsNotation (number : Nat → List Char → Prop) (letter : Char → List Char → Prop)
    (here : List Char) : Notation := ⟨signeticsPrefixes, cInfixes, false, number, letter, here⟩
def texasNotation (number : Nat → List Char → Prop) (letter : Char → List Char → Prop)
    (here : List Char) : Notation := ⟨texasPrefixes, texasInfixes, false, number, letter, here⟩
def intelNotation (number : Nat → List Char → Prop) (letter : Char → List Char → Prop)
    (here : List Char) : Notation := ⟨intelPrefixes, intelInfixes, true, number, letter, here⟩
def zilogNotation (number : Nat → List Char → Prop) (letter : Char → List Char → Prop)
    (here : List Char) : Notation := ⟨zilogPrefixes, zilogInfixes, true, number, letter, here⟩

/-- Numbers with a letter after the digits, characters in single quotes, `$`: Intel. -/
def intelN : Notation := intelNotation intelNumbers.Lit Quoted ['$']

/-- Z80: as Intel, with the operators of Zilog. -/
def z80N : Notation := zilogNotation intelNumbers.Lit Quoted ['$']

/-- Texas Instruments. -/
def texasN : Notation := texasNotation texasNumbers.Lit Quoted ['$']

/-- MC68000: numbers of Motorola, operators of C, `*` the location. -/
def mc68000N : Notation := cNotation motorolaNumbers.Lit Quoted ['*']

/-- Motorola. -/
def motorolaN : Notation := motorolaNotation motorolaNumbers.Lit QuotedAny ['*']

/-- MOS Technology: as Motorola, with the operators of C. -/
def mostekN : Notation := cNotation motorolaNumbers.Lit QuotedAny ['*']

/-- Zilog. -/
def zilogN : Notation := zilogNotation zilogNumbers.Lit QuotedPercent ['$']

/-- Signetics. -/
def signeticsN : Notation := signeticsNotation signeticsNumbers.Lit QuotedA ['$']

/-- RCA: the operators of C, `*` the location. -/
def rcaN : Notation := cNotation rcaNumbers.Lit (QuotedOpt 'T') ['*']

/-- Fairchild: the operators of C, three symbols of the location. -/
def fairchildN : Notation := cNotation fairchildNumbers.Lit QuotedFairchild ['*', '$', '.']

/-- National Semiconductor INS8060 and INS8070: the operators of C. -/
def nationalN : Notation := cNotation nationalNumbers.Lit Quoted ['.', '$']

/-- Panasonic MN1610: the operators of C. -/
def panasonicN : Notation := cNotation panasonicNumbers.Lit (QuotedOpt 'C') ['*']

/-- Numbers of C only. -/
def cNumbers : Numbers := ⟨false, [], [], false⟩

/-- The notation of C. -/
def plainN : Notation := cNotation cNumbers.Lit Quoted ['$']

/-- TMS32010: numbers of Intel, the operators of C. -/
def tms32010N : Notation := cNotation intelNumbers.Lit Quoted ['$']

end Libasm.Maker
