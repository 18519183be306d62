import Verif.Eval.Kinds
/-
C16: evaluation stays within its stacks.
C17: evaluation terminates and reports incomplete input.
C18: undefined symbols never vanish.

In all theorems the text is any list of characters.  `functions` is any function table, `symbols`
any symbol table, `float` whatever the reader of floating point numbers does.
-/
namespace Libasm.Eval
open Scan Number

/-- A table with one function of two arguments, for the examples: `f(a, b)` is `b`. -/
def oneFunction : List Char → Option (Int × (List Value → Out (Except Err Value)))
  | ['f'] => some (2, fun st => .ok (.ok (pop Value.undefined st).1))
  | _ => none

/-- No symbols, no functions. -/
def noSymbols : List Char → Option Value := fun _ => none
def noFunctions : List Char → Option (Int × (List Value → Out (Except Err Value))) := fun _ => none
def noFloat : Scan → Option (Err × Value × Scan) := fun _ => none

/-! ### C16 -/

/-- C16 for every operator style but PDP-11, with any way of reading constants, symbols, function
names and ends of line, any symbol table and any function table whose functions themselves stay
within their stacks: no text makes the evaluation leave its stacks, however far it runs. -/
theorem C16_stacks_partial (style : OpStyle) (hst : style ≠ .pdp11) (P : Plugins Value)
    (hops : P.ops = style.parser)
    (hf : ∀ name nargs f, P.lookupFunction name = some (nargs, f) → ∀ st, f st ≠ .stackUB)
    (fuel : Nat) (text : Scan) (err : Err) (radix : Radix) :
    evalFuel P fuel text err radix ≠ .stackUB := by
  have hG : GoodParser P.ops := by rw [hops]; exact style_good style hst
  exact evalFuel_safe hG hf (by rw [hops]; exact style_close style hst) fuel text err radix

/-- Not vacuous: a text with a nested function call, and the result of evaluating it. -/
example : ∃ r, eval (stylePlugins .motorola .motorola noFloat noSymbols oneFunction ',' 0)
    ['f', '(', '1', ',', 'f', '(', '2', ',', '3', ')', '*', '2', ')', '+', '$', 'F'] .OK .r10 =
    .ok r ∧ r.err = .OK ∧ r.value = ⟨21, .unsigned⟩ := by
  refine ⟨_, rfl, ?_, ?_⟩ <;> decide +kernel

/-- C16 fails for PDP-11: `^D` pushes the radix on the value stack without a check, so nine of
them write past its end. -/
theorem C16_violated_radix : evalFuel (stylePlugins .pdp11 .pdp11 noFloat noSymbols noFunctions ',' 0)
    20 (List.flatten (List.replicate 9 ['^', 'D'])) .OK .r8 = .stackUB := by
  rfl

/-- C16 fails for PDP-11: `<` opens the argument list of a function but is read as the infix
operator "less than" after a function name.  That calls a function without parameters before its
list is read, and the comma of the list then reads `top()` of the empty operator stack. -/
theorem C16_violated_comma :
    evalFuel (stylePlugins .pdp11 .pdp11 noFloat noSymbols
        (fun n => if n = ['f'] then some (0, fun _ => .ok (.ok ⟨7, .unsigned⟩)) else none) ' ' 0)
      20 ['f', '<', '1', ',', '2', '>'] .OK .r8 = .stackUB := by
  rfl

/-! ### C17 -/

/-- C17: with every number syntax and operator style (PDP-11 included) evaluation ends on every
text, and the number of iterations the model allows does not matter once it exceeds the length of
the text.  Assumed of the parts not modelled: a floating point number that is read consumes
characters, and the functions terminate. -/
theorem C17_terminates (number : Parser) (style : OpStyle)
    (float : Scan → Option (Err × Value × Scan))
    (hfloat : ∀ s v rest, float s = some (.OK, v, rest) → rest.length < s.length)
    (symbols : List Char → Option Value)
    (functions : List Char → Option (Int × (List Value → Out (Except Err Value))))
    (hf : ∀ name nargs f, functions name = some (nargs, f) → ∀ st, f st ≠ .diverge)
    (delim : Char) (loc : Nat) (text : Scan) (err : Err) (radix : Radix) (fuel : Nat)
    (hfuel : text.length < fuel) :
    evalFuel (stylePlugins number style float symbols functions delim loc) fuel text err radix ≠
      .diverge ∧
    evalFuel (stylePlugins number style float symbols functions delim loc) fuel text err radix =
      eval (stylePlugins number style float symbols functions delim loc) text err radix := by
  have hC := stylePlugins_consumes number style float hfloat symbols functions delim loc
  have h := evalFuel_enough hC fuel text err radix hfuel
  refine ⟨?_, h⟩
  rw [h]
  exact eval_ends (style_terminates style _ rfl hf) hC text err radix

/-- The hypotheses are met by the tables of the examples. -/
example : (∀ s v rest, noFloat s = some (.OK, v, rest) → rest.length < s.length) ∧
    (∀ name nargs f, oneFunction name = some (nargs, f) → ∀ st, f st ≠ .diverge) := by
  refine ⟨(by intro s v rest h; cases h), ?_⟩
  intro name nargs f h
  unfold oneFunction at h
  split at h
  · simp only [Option.some.injEq, Prod.mk.injEq] at h
    obtain ⟨_, rfl⟩ := h
    intro st h; cases h
  · cases h

/-- C17: a text that starts with `n` opening parentheses and goes on with fewer than `n` closing
ones is reported, whatever else is in it. -/
theorem C17_unclosed (number : Parser) (style : OpStyle) (hst : style ≠ .pdp11)
    (float : Scan → Option (Err × Value × Scan))
    (hfloat : ∀ s v rest, float s = some (.OK, v, rest) → rest <:+ s)
    (symbols : List Char → Option Value)
    (functions : List Char → Option (Int × (List Value → Out (Except Err Value))))
    (hf : ∀ name nargs f, functions name = some (nargs, f) → ∀ st, f st ≠ .ok (.error .OK))
    (delim : Char) (loc : Nat) (n : Nat) (t : Scan) (hc : t.count ')' < n) (err : Err)
    (radix : Radix) (r : Result Value)
    (h : eval (stylePlugins number style float symbols functions delim loc)
      (List.replicate n '(' ++ t) err radix = .ok r) : r.err ≠ .OK :=
  unclosed_error number style hst float hfloat symbols functions delim loc
    (style_honest style hst _ rfl hf) n t hc _ err radix r h

example : ∃ r, eval (stylePlugins .cstyle .c noFloat noSymbols noFunctions ',' 0)
    (List.replicate 2 '(' ++ ['1', '+', '2', ')', '*', '3']) .OK .r10 = .ok r ∧
    r.err = .MISSING_CLOSING_PAREN := ⟨_, rfl, by decide +kernel⟩

/-- C17: nine opening parentheses are reported as too complex, whatever follows. -/
theorem C17_too_deep (number : Parser) (style : OpStyle) (hst : style ≠ .pdp11)
    (float : Scan → Option (Err × Value × Scan)) (symbols : List Char → Option Value)
    (functions : List Char → Option (Int × (List Value → Out (Except Err Value))))
    (delim : Char) (loc : Nat) (t : Scan) (radix : Radix) :
    eval (stylePlugins number style float symbols functions delim loc)
      (List.replicate 9 '(' ++ t) .OK radix =
      .ok ⟨Value.undefined, .TOO_COMPLEX_EXPRESSION, t, List.replicate 8 .opening⟩ :=
  nine_parens number style hst float symbols functions delim loc t radix

/-- C17 for the styles whose prefix operators are all unary and whose infix operators are all
declared with two operands (all but Intel, Zilog and PDP-11), without functions: if no error is
reported, the evaluation has read one operand more than infix operators, or no operand and no
operator at all, and as many closing as opening parentheses.  (`tokens` is what the iterations of
the loop have read.)  So a missing operand and a missing parenthesis are reported. -/
theorem C17_operands_partial (style : OpStyle)
    (hst : style ≠ .intel ∧ style ≠ .zilog ∧ style ≠ .pdp11) (P : Plugins Value)
    (hops : P.ops = style.parser) (hn : ∀ name, P.lookupFunction name = none) (fuel : Nat)
    (text : Scan) (err : Err) (radix : Radix) (r : Result Value)
    (h : evalFuel P fuel text err radix = .ok r) (hr : r.err = .OK) :
    (r.tokens.count .operand = r.tokens.count .infix + 1 ∨
      (r.tokens.count .operand = 0 ∧ r.tokens.count .infix = 0 ∧ r.tokens.count .prefix = 0)) ∧
    r.tokens.count .opening = r.tokens.count .closing := by
  refine eval_tokens (style := style) ?_ hops hn h hr
  cases style with
  | intel => exact absurd rfl hst.1
  | zilog => exact absurd rfl hst.2.1
  | pdp11 => exact absurd rfl hst.2.2
  | _ => trivial

example : ∃ r, eval (stylePlugins .cstyle .c noFloat noSymbols noFunctions ',' 0)
    ['-', '(', '1', '+', '2', ')', '*', '3'] .OK .r10 = .ok r ∧ r.err = .OK ∧
    r.tokens = [.prefix, .opening, .operand, .infix, .operand, .closing, .infix, .operand] :=
  ⟨_, rfl, by decide +kernel⟩

example : ∃ r, eval (stylePlugins .cstyle .c noFloat noSymbols noFunctions ',' 0)
    ['1', '+', '2', '*'] .OK .r10 = .ok r ∧ r.err = .MISSING_OPERAND :=
  ⟨_, rfl, by decide +kernel⟩

/-- C17 fails: a closing parenthesis without an opening one is consumed without an error. -/
theorem C17_violated_close : ∃ r, eval (stylePlugins .cstyle .c noFloat noSymbols noFunctions ',' 0)
    ['5', ')'] .OK .r10 = .ok r ∧ r.err = .OK ∧ r.value = ⟨5, .unsigned⟩ ∧ r.scan = [] :=
  ⟨_, rfl, by decide +kernel⟩

/-- C17 fails: a pair of parentheses without an operand is an undefined value without an error. -/
theorem C17_violated_empty : ∃ r, eval (stylePlugins .cstyle .c noFloat noSymbols noFunctions ',' 0)
    ['(', ')'] .OK .r10 = .ok r ∧ r.err = .OK ∧ r.value = Value.undefined :=
  ⟨_, rfl, by decide +kernel⟩

/-- C17 fails for Intel and Zilog: `SHL` and `SHR` are declared with one operand, so that a missing
one is taken to be the left one, and 0. -/
theorem C17_violated_shift :
    (∃ r, eval (stylePlugins .intel .intel noFloat noSymbols noFunctions ',' 0)
      ['1', ' ', 'S', 'H', 'L'] .OK .r10 = .ok r ∧ r.err = .OK ∧ r.value = ⟨0, .unsigned⟩) ∧
    (∃ r, eval (stylePlugins .zilog .zilog noFloat noSymbols noFunctions ',' 0)
      ['1', ' ', 'S', 'H', 'R'] .OK .r10 = .ok r ∧ r.err = .OK ∧ r.value = ⟨0, .unsigned⟩) :=
  ⟨⟨_, rfl, by decide +kernel⟩, ⟨_, rfl, by decide +kernel⟩⟩

/-- C17 fails with functions: a missing operand is taken from the previous argument, and the list
then counts as one argument. -/
theorem C17_violated_argument : ∃ r,
    eval (stylePlugins .cstyle .c noFloat noSymbols
        (fun n => if n = ['L'] then some (1, fun st => .ok (.ok (pop Value.undefined st).1)) else none)
        ',' 0)
      ['L', '(', '1', ',', ' ', '2', '+', ')'] .OK .r10 = .ok r ∧ r.err = .OK ∧
      r.value = ⟨3, .unsigned⟩ :=
  ⟨_, rfl, by decide +kernel⟩

/-! ### C18 -/

/-- C18: an evaluation that reports no error has not used any symbol missing from the table:
whatever values the missing symbols are given, the outcome is the same value, with no error, at the
same place of the text.  For every operator style, every way of reading constants and symbols,
every function table, every text. -/
theorem C18_undefined (P : Plugins Value) (symbols : List Char → Option Value)
    (hext : ∀ name v, P.lookupSymbol name = some v → symbols name = some v)
    (text : Scan) (err : Err) (radix : Radix) (r : Result Value)
    (h : eval P text err radix = .ok r) (hr : r.err = .OK) :
    eval { P with lookupSymbol := symbols } text err radix = .ok r :=
  evalFuel_symbols P symbols hext _ text err radix r h hr

/-- C18, read the other way: if giving a value to the missing symbols makes a difference, the
evaluation without them reports an error. -/
theorem C18_reported (P : Plugins Value) (symbols : List Char → Option Value)
    (hext : ∀ name v, P.lookupSymbol name = some v → symbols name = some v)
    (text : Scan) (err : Err) (radix : Radix) (r : Result Value)
    (h : eval P text err radix = .ok r)
    (hne : eval { P with lookupSymbol := symbols } text err radix ≠ .ok r) : r.err ≠ .OK :=
  fun hr => hne (C18_undefined P symbols hext text err radix r h hr)

/-- A table with `A` = 4 extends the empty one, and makes a difference to `2*A`. -/
example : ∃ r r', eval (stylePlugins .cstyle .c noFloat noSymbols noFunctions ',' 0)
      ['2', '*', 'A'] .OK .r10 = .ok r ∧ r.err = .UNDEFINED_SYMBOL ∧
    eval (stylePlugins .cstyle .c noFloat
        (fun n => if n = ['A'] then some ⟨4, .unsigned⟩ else none) noFunctions ',' 0)
      ['2', '*', 'A'] .OK .r10 = .ok r' ∧ r'.err = .OK ∧ r'.value = ⟨8, .unsigned⟩ :=
  ⟨_, _, rfl, by decide +kernel, rfl, by decide +kernel⟩

end Libasm.Eval
