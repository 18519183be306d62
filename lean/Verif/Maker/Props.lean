import Verif.Maker.Meaning
import Verif.Maker.More
/-
C15 for the notations of the CPU makers: the text of an expression evaluates to the integer it
stands for.

Verif/Maker/Spec.lean says what a tree is, which texts denote it in a notation (`Writes`), when it
needs no more parentheses than it has (`Grouped`) and what integer it stands for (`value`).
-/
namespace Libasm.Maker
open Scan Number Ctype Eval Value Value.Spec Cpu
open Eval.Spec (Fail Blank UnOp BinOp IsLetter IsDecimal Literal)

/-- Assemblers, by how they read expressions. -/
inductive Asm
  | i8048 | i8051 | i8080 | i8096 | mc6800 | mc6805 | mc6809 | mc68000 | mos6502 | scn2650 | tlcs90
  | tms7000 | tms9900 | z8 | z80 | z8000 | cdp1802 | f3850 | i8086 | ins8060 | ins8070 | mn1610
  | tms32010
  /-- an assembler with the default plugins of the library -/
  | plain
deriving DecidableEq, Repr

/-- How the assembler takes a line apart.  src/asm_i8048.cpp:42-44, src/asm_i8051.cpp:42-44,
src/asm_i8080.cpp:50-55, src/asm_i8096.cpp:46-48, src/asm_mc6800.cpp:44-46,
src/asm_mc6805.cpp:47-49, src/asm_mc6809.cpp:45-47, src/asm_mc68000.cpp:70-76,
src/asm_mos6502.cpp:51-60, src/asm_scn2650.cpp:47-60, src/asm_tlcs90.cpp:48-50,
src/asm_tms7000.cpp:46-48, src/asm_tms9900.cpp:46-48, src/asm_z8.cpp:51-56,
src/asm_z80.cpp:47-56, src/asm_z8000.cpp:50-55, src/asm_cdp1802.cpp, src/asm_f3850.cpp:45-53,
src/asm_i8086.cpp:60-65, src/asm_ins8060.cpp, src/asm_ins8070.cpp, src/asm_mn1610.cpp:43-51,
src/asm_tms32010.cpp:46-54, src/value_parser.cpp:26-51: the default plugins. -/
def Asm.lexer : Asm → Lexer
  | .i8048 => I8048.lexer | .i8051 => I8051.lexer | .i8080 => I8080.lexer
  | .i8096 | .tlcs90 => intel
  | .mc6800 | .mc6805 | .mc6809 => Mc6800.lexer | .mc68000 => Maker.mc68000 | .mos6502 => Mos6502.lexer
  | .scn2650 => signetics | .tms7000 | .tms9900 => texas | .z8 => Maker.z8 | .z80 => Maker.z80
  | .z8000 => Maker.z8000 | .cdp1802 => Cdp1802.lexer | .f3850 => Maker.f3850
  | .i8086 => Maker.i8086 | .ins8060 | .ins8070 => Ins8060.lexer | .mn1610 => Maker.mn1610
  | .tms32010 => Maker.tms32010
  | .plain => Maker.plain .cstyle .c

/-- The notation of its manual. -/
def Asm.notation : Asm → Notation
  | .i8048 | .i8051 | .i8080 | .i8086 | .i8096 | .tlcs90 => intelN
  | .mc6800 | .mc6805 | .mc6809 => motorolaN | .mc68000 => mc68000N | .mos6502 => mostekN
  | .scn2650 => signeticsN | .tms7000 | .tms9900 => texasN | .z8 | .z8000 => zilogN | .z80 => z80N
  | .cdp1802 => rcaN | .f3850 => fairchildN | .ins8060 | .ins8070 => nationalN
  | .mn1610 => panasonicN | .tms32010 => tms32010N
  | .plain => plainN

def saneB (N : Notation) : Bool :=
  N.prefixes.all (fun p => decide (0 < p.level) && decide (p.level ≤ 15)) &&
  N.infixes.all (fun q => decide (0 < q.level) && decide (q.level ≤ 15)) &&
  N.infixes.all (fun q => q.side != .left ||
    N.infixes.all fun r => r.level != q.level || r.side != .none)

theorem sane_of {N : Notation} (h : saneB N = true) : Sane N := by
  unfold saneB at h
  simp only [Bool.and_eq_true, List.all_eq_true, decide_eq_true_eq, Bool.or_eq_true, bne_iff_ne] at h
  obtain ⟨⟨h1, h2⟩, h3⟩ := h
  refine ⟨h1, h2, fun q hq hl r hr he => ?_⟩
  rcases h3 q hq with h | h
  · exact absurd hl h
  · rcases h r hr with h | h
    · exact absurd he h
    · exact h

theorem asm_sane (a : Asm) : Sane a.notation := by
  cases a <;> exact sane_of rfl

theorem asm_lex (a : Asm) (E : Env)
    (hfloat : ∀ s v rest, E.float s = some (.OK, v, rest) → rest.length < s.length)
    (delim : Char) (loc : Nat) :
    ∃ pre inf, Lex (a.lexer.plugins E delim loc) a.notation loc pre inf := by
  cases a
  · exact ⟨_, _, i8048_parts.lex E hfloat delim loc⟩
  · exact ⟨_, _, i8051_parts.lex E hfloat delim loc⟩
  · exact ⟨_, _, i8080_parts.lex E hfloat delim loc⟩
  · exact ⟨_, _, maker_intel.lex E hfloat delim loc⟩
  · exact ⟨_, _, mc6800_parts.lex E hfloat delim loc⟩
  · exact ⟨_, _, mc6800_parts.lex E hfloat delim loc⟩
  · exact ⟨_, _, mc6800_parts.lex E hfloat delim loc⟩
  · exact ⟨_, _, mc68000_parts.lex E hfloat delim loc⟩
  · exact ⟨_, _, mos6502_parts.lex E hfloat delim loc⟩
  · exact ⟨_, _, signetics_parts.lex E hfloat delim loc⟩
  · exact ⟨_, _, maker_intel.lex E hfloat delim loc⟩
  · exact ⟨_, _, texas_parts.lex E hfloat delim loc⟩
  · exact ⟨_, _, texas_parts.lex E hfloat delim loc⟩
  · exact ⟨_, _, z8_parts.lex E hfloat delim loc⟩
  · exact ⟨_, _, z80_parts.lex E hfloat delim loc⟩
  · exact ⟨_, _, z8000_parts.lex E hfloat delim loc⟩
  · exact ⟨_, _, rca_parts.lex E hfloat delim loc⟩
  · exact ⟨_, _, fairchild_parts.lex E hfloat delim loc⟩
  · exact ⟨_, _, i8086_parts.lex E hfloat delim loc⟩
  · exact ⟨_, _, national_parts.lex E hfloat delim loc⟩
  · exact ⟨_, _, national_parts.lex E hfloat delim loc⟩
  · exact ⟨_, _, panasonic_parts.lex E hfloat delim loc⟩
  · exact ⟨_, _, tms32010_parts.lex E hfloat delim loc⟩
  · exact ⟨_, _, plain_parts.lex E hfloat delim loc⟩

theorem lit_ne {K : Numbers} {n : Nat} {t : List Char} (h : K.Lit n t) : t ≠ [] := by
  obtain ⟨c, u, rfl, _⟩ := lit_head h
  simp

theorem asm_number (a : Asm) : ∀ n t, a.notation.number n t → t ≠ [] := by
  intro n t h
  cases a <;> exact lit_ne h

theorem computes_local {functions : List Char → Option (Int × (List Value → Out (Except Err Value)))}
    {funs : List Char → Option (List Int → Option Int)} (hF : Computes functions funs) :
    ∀ name nargs f, functions name = some (nargs, f) → Local nargs f := by
  intro name nargs f h
  have := hF name
  rw [h] at this
  exact ⟨this.1, this.2.1⟩

section
variable (a : Asm) (E : Env)
  (hfloat : ∀ s v rest, E.float s = some (.OK, v, rest) → rest.length < s.length)
  (delim : Char) (hd : ¬ TokenStart delim ∧ ¬ Blank delim) (loc : Nat) (hloc : loc < 2 ^ 32)
  (names : List Char → Option Int) (hn : Named E.symbols names)
  (funs : List Char → Option (List Int → Option Int)) (hF : Computes E.functions funs)
  (e : Expr) (text rest : List Char) (hw : Writes a.notation e text) (hg : e.Grouped)
  (hf : e.Fits (fun n => E.functions n ≠ none)) (hv : e.values ≤ 8) (ho : e.operators ≤ 8)
  (hstop : Stops delim rest)
include hfloat hd hloc hn hF hw hg hf hv ho hstop

theorem agrees : Agrees rest (mean E.symbols E.functions loc e .OK)
    (eval (a.lexer.plugins E delim loc) (text ++ rest) .OK .r10) := by
  obtain ⟨pre, inf, L⟩ := asm_lex a E hfloat delim loc
  exact eval_writes L (asm_sane a) (asm_number a) hd.1 hd.2 (computes_local hF) hw hg hf hv ho hstop

/-- C15, notations of the makers: for every assembler of the table, every expression tree over the
operators of its notation, every way of writing it with the parentheses that the precedence table of
the notation requires (at most 8 operands and 8 operators pending), every symbol table, all functions
of one or more arguments and every text that follows: evaluation stops at the end of the expression without an error, with a value that
denotes the integer the tree stands for. -/
theorem C15_makers_partial (x : Int) (hx : e.value names funs loc = .ok x) :
    ∃ r, parseInteger (a.lexer.plugins E delim loc) (text ++ rest) .OK = .ok r ∧
      r.2.1 = .OK ∧ denote r.1 = x ∧ Valid r.1 ∧
      ∃ sp, (∀ c ∈ sp, Eval.Spec.Blank c) ∧ rest = sp ++ r.2.2 := by
  obtain ⟨v, hm, hh⟩ := mean_ok hn hF hloc .OK hx
  have h := agrees a E hfloat delim hd loc hloc names hn funs hF e text rest hw hg hf hv ho hstop
  rw [hm] at h
  unfold parseInteger
  rcases h with ⟨err, v', tr, h1, h2⟩ | ⟨r, err, h1, h2, _⟩ | ⟨_, h⟩ | ⟨_, h⟩ | ⟨_, h⟩
  · injection h1 with h1
    injection h1 with h1 h1'
    injection h1' with h1'
    subst h1; subst h1'
    rcases h2 with h2 | h2
    · rw [h2]; exact ⟨_, rfl, rfl, hh.eq, hh.valid, skip_split rest⟩
    · rw [h2]; exact ⟨_, rfl, rfl, hh.eq, hh.valid, [], by simp, rfl⟩
  · injection h1 with h1; injection h1 with _ h1; cases h1
  all_goals cases h

/-- C15: a division by zero anywhere in the expression is reported, whatever else is computed. -/
theorem C15_makers_divide_by_zero (hx : e.value names funs loc = .error .zeroDivide) :
    ∃ r, parseInteger (a.lexer.plugins E delim loc) (text ++ rest) .OK = .ok r ∧
      r.2.1 = .DIVIDE_BY_ZERO := by
  have hm := mean_zero hn hF hloc hx
  have h := agrees a E hfloat delim hd loc hloc names hn funs hF e text rest hw hg hf hv ho hstop
  rw [hm] at h
  unfold parseInteger
  rcases h with ⟨err, v', tr, h1, h2⟩ | ⟨r, err, h1, h2, h3⟩ | ⟨_, h⟩ | ⟨_, h⟩ | ⟨_, h⟩
  · injection h1 with h1
    injection h1 with _ h1
    cases h1
  · injection h1 with h1; injection h1 with h1 _
    subst h1
    rw [h2]
    refine ⟨_, rfl, ?_⟩
    show r.err = _
    rcases h3 with h3 | h3 <;> rw [h3] <;> rfl
  all_goals cases h

/-- C15: an undefined symbol in the expression is reported, unless an arithmetic overflow after it
makes the behaviour undefined. -/
theorem C15_makers_undefined_symbol (hx : e.value names funs loc = .error .unknown)
    (r : Value × Err × Scan)
    (hr : parseInteger (a.lexer.plugins E delim loc) (text ++ rest) .OK = .ok r) :
    r.2.1 = .UNDEFINED_SYMBOL := by
  have h := agrees a E hfloat delim hd loc hloc names hn funs hF e text rest hw hg hf hv ho hstop
  unfold parseInteger at hr
  obtain ⟨r0, hr0, hr1⟩ := Out.bind_ok hr
  injection hr1 with hr1
  subst hr1
  show r0.err = _
  rw [hr0] at h
  rcases h with ⟨err, v', tr, h1, h2⟩ | ⟨r', err, h1, h2, h3⟩ | ⟨h, _⟩ | ⟨h, _⟩ | ⟨h, _⟩
  · have := mean_unknown hn hF hloc hx h1
    subst this
    rcases h2 with h2 | h2 <;> injection h2 with h2 <;> rw [h2]
  · injection h2 with h2
    have := mean_unknown hn hF hloc hx h1
    subst this
    subst h2
    rcases h3 with h3 | h3 <;> rw [h3] <;> rfl
  all_goals cases h

end

/-! The hypotheses are met by `not N shl 2+0FH` in the notation of Intel and by
`$F0!.(N !^3)--%110` in that of Motorola, with `N` = 5. -/

section
open Eval.Spec

def oneEnv : Env := ⟨noFloat, oneSymbol, noFunctions⟩

def noFuns : List Char → Option (List Int → Option Int) := fun _ => none

example : Computes oneEnv.functions noFuns := fun _ => rfl

def intelSample : Expr :=
  .un ⟨['N', 'O', 'T'], .basic .compl, 10⟩
    (.bin ⟨['+'], .basic .add, 6, .left⟩
      (.bin ⟨['S', 'H', 'L'], .shl16, 5, .left⟩ (.sym ['N']) (.num 2)) (.num 15))

def intelText : List Char :=
  ['n', 'o', 't', ' ', 'N', ' ', 's', 'h', 'l', ' ', '2', '+', '0', 'F', 'H']

def motorolaSample : Expr :=
  .bin ⟨['-'], .basic .sub, 6, .left⟩
    (.bin ⟨['!', '.'], .basic .and, 5, .left⟩ (.num 240)
      (.paren (.bin ⟨['!', '^'], .power, 5, .right⟩ (.sym ['N']) (.num 3))))
    (.un ⟨['-'], .basic .minus, 3⟩ (.num 6))

def motorolaText : List Char :=
  ['$', 'F', '0', '!', '.', '(', 'N', ' ', '!', '^', '3', ')', '-', '-', '%', '1', '1', '0']

/-- An operator that is not a word, with no longer operator at its place. -/
theorem ends_mark {ops : List (List Char)} {w t : List Char}
    (h : ops.all (fun o => !(decide (w.length < o.length) && o.isPrefixOf (w ++ t))) = true)
    (hw : ∀ c, w.getLast? = some c → ¬ IsWord c) : Ends ops w t := by
  refine ⟨fun o ho hl hp => ?_, fun c d hc _ hx => absurd hx (hw c hc)⟩
  have := List.all_eq_true.mp h o ho
  rw [decide_eq_true hl, List.isPrefixOf_iff_prefix.mpr hp] at this
  exact absurd this (by decide)

/-- A word followed by a blank. -/
theorem ends_blank {ops : List (List Char)} {w t : List Char}
    (h : ops.all (fun o => !(decide (w.length < o.length) && o.isPrefixOf (w ++ ' ' :: t))) = true) :
    Ends ops w (' ' :: t) := by
  refine ⟨fun o ho hl hp => ?_, fun c d _ hd _ => ?_⟩
  · have := List.all_eq_true.mp h o ho
    rw [decide_eq_true hl, List.isPrefixOf_iff_prefix.mpr hp] at this
    exact absurd this (by decide)
  · simp only [List.head?_cons, Option.some.injEq] at hd
    subst hd
    decide

theorem name_N (N : Notation) (h : ∀ o ∈ N.prefixes, o.text.head? ≠ some 'N' ∨ 2 < o.text.length) :
    N.IsName ['N'] := by
  refine ⟨⟨⟨'N', [], rfl, by decide, by decide⟩, by unfold Eval.Spec.FloatWord; decide⟩,
    fun o ho => ?_⟩
  have h0 := h o ho
  have h1 : ['N'].map Ctype.toUpper = ['N'] := by decide
  rw [h1]
  cases hx : o.text with
  | nil => exact ⟨by simp, fun u h => by simp at h⟩
  | cons a t =>
    rw [hx] at h0
    simp only [List.head?_cons, ne_eq, Option.some.injEq, List.length_cons] at h0
    refine ⟨fun h => ?_, fun u h => ?_⟩
    · injection h with h2 h3
      subst h2; subst h3
      simp at h0
    · injection h with h2 h3
      cases t <;> simp at h3

example : Named oneEnv.symbols oneName := by
  intro n
  unfold oneEnv oneSymbol oneName
  dsimp only
  by_cases h : n = ['N']
  · rw [if_pos h, if_pos h]
    exact ⟨by decide, by decide, rfl⟩
  · rw [if_neg h, if_neg h]

example : Writes (Asm.notation .i8051) intelSample intelText := by
  have n2 : Writes intelN (.num 2) [' ', '2'] :=
    .blank _ _ _ (by decide)
      (.num _ _ (.c _ _ (Literal.dec ['2'] (by decide) ⟨'2', [], rfl, by decide⟩)))
  have n15 : Writes intelN (.num 15) ['0', 'F', 'H'] :=
    .num _ _ (.suffix 'H' 16 ['0', 'F'] rfl (by decide) (by decide) ⟨'0', ['F'], rfl, by decide⟩)
  have nN : Writes intelN (.sym ['N']) [' ', 'N'] :=
    .blank _ _ _ (by decide) (.sym _ (name_N _ (by decide)))
  have h1 := Writes.bin (N := intelN) ⟨['S', 'H', 'L'], .shl16, 5, .left⟩ _ _ _ [' ']
    ['s', 'h', 'l'] _ (by decide) (by unfold Notation.Spells; decide) nN (by decide)
    (fun h => nomatch h) n2 (ends_blank (by decide))
  have h2 := Writes.bin (N := intelN) ⟨['+'], .basic .add, 6, .left⟩ _ _ _ [] ['+'] _ (by decide)
    (by unfold Notation.Spells; decide) h1 (by decide)
    (fun _ c hc => by simp only [List.head?_cons, Option.some.injEq] at hc; subst hc; decide) n15
    (ends_mark (by decide)
      (fun c hc => by simp only [List.getLast?_singleton, Option.some.injEq] at hc; subst hc; decide))
  exact Writes.un (N := intelN) ⟨['N', 'O', 'T'], .basic .compl, 10⟩ _ ['n', 'o', 't'] _ (by decide)
    (by unfold Notation.Spells; decide) h2 (ends_blank (by decide))

example : Writes (Asm.notation .mc6800) motorolaSample motorolaText := by
  have n240 : Writes motorolaN (.num 240) ['$', 'F', '0'] :=
    .num _ _ (.mark ['$'] 16 ['F', '0'] (by decide) (by decide) (by decide))
  have n6 : Writes motorolaN (.num 6) ['%', '1', '1', '0'] :=
    .num _ _ (.mark ['%'] 2 ['1', '1', '0'] (by decide) (by decide) (by decide))
  have n3 : Writes motorolaN (.num 3) ['3'] :=
    .num _ _ (.c _ _ (Literal.dec ['3'] (by decide) ⟨'3', [], rfl, by decide⟩))
  have nN : Writes motorolaN (.sym ['N']) ['N'] := .sym _ (name_N _ (by decide))
  have h1 := Writes.bin (N := motorolaN) ⟨['!', '^'], .power, 5, .right⟩ _ _ _ [' '] ['!', '^'] _
    (by decide) (by unfold Notation.Spells; decide) nN (by decide) (fun h => nomatch h) n3
    (ends_mark (by decide) (fun c hc => by simp at hc; subst hc; decide))
  have h2 := Writes.bin (N := motorolaN) ⟨['!', '.'], .basic .and, 5, .left⟩ _ _ _ [] ['!', '.'] _
    (by decide) (by unfold Notation.Spells; decide) n240 (by decide)
    (fun _ c hc => by simp only [List.head?_cons, Option.some.injEq] at hc; subst hc; decide)
    (.paren _ _ [] h1 (by decide))
    (ends_mark (by decide) (fun c hc => by simp at hc; subst hc; decide))
  have h3 := Writes.un (N := motorolaN) ⟨['-'], .basic .minus, 3⟩ _ ['-'] _ (by decide)
    (by unfold Notation.Spells; decide) n6
    (ends_mark (by decide) (fun c hc => by simp at hc; subst hc; decide))
  exact Writes.bin (N := motorolaN) ⟨['-'], .basic .sub, 6, .left⟩ _ _ _ [] ['-'] _
    (by decide) (by unfold Notation.Spells; decide) h2 (by decide)
    (fun _ c hc => by simp only [List.head?_cons, Option.some.injEq] at hc; subst hc; decide) h3
    (ends_mark (by decide) (fun c hc => by simp at hc; subst hc; decide))

example : intelSample.Grouped ∧ motorolaSample.Grouped := by
  constructor
  · simp [intelSample, Expr.Grouped, Expr.After, Expr.Before, Expr.level, Expr.side]
  · simp [motorolaSample, Expr.Grouped, Expr.After, Expr.Before, Expr.level, Expr.side]

example : intelSample.Fits (fun n => oneEnv.functions n ≠ none) ∧
    motorolaSample.Fits (fun n => oneEnv.functions n ≠ none) ∧ intelSample.values ≤ 8 ∧
    intelSample.operators ≤ 8 ∧ motorolaSample.values ≤ 8 ∧ motorolaSample.operators ≤ 8 ∧
    ¬ TokenStart ',' ∧ ¬ Eval.Spec.Blank ',' ∧ Stops ',' [' ', ',', 'x'] := by
  refine ⟨?_, ?_, by decide, by decide, by decide, by decide, ?_, by decide, [' '], [',', 'x'], rfl,
    by decide, .inr (.inr (.inl ⟨_, rfl⟩))⟩
  · simp [intelSample, Expr.Fits, oneEnv, noFunctions]
  · simp [motorolaSample, Expr.Fits, oneEnv, noFunctions]
  · unfold TokenStart; decide

/-- `*+#A-H'1f'` in the notation of Fairchild. -/
example : Writes (Asm.notation .f3850)
    (.bin ⟨['-'], .basic .sub, 6, .left⟩ (.bin ⟨['+'], .basic .add, 6, .left⟩ .here (.char 'A')) (.num 31))
    ['*', '+', '#', 'A', '-', 'H', '\'', '1', 'f', '\''] := by
  have h1 := Writes.bin (N := fairchildN) ⟨['+'], .basic .add, 6, .left⟩ _ _ _ [] ['+'] _
    (by decide) (by unfold Notation.Spells; decide) (.here '*' (by decide)) (by decide)
    (fun _ c hc => by simp only [List.head?_cons, Option.some.injEq] at hc; subst hc; decide)
    (.char 'A' _ (.sharp 'A' (by decide)))
    (ends_mark (by decide) (fun c hc => by simp at hc; subst hc; decide))
  exact Writes.bin (N := fairchildN) ⟨['-'], .basic .sub, 6, .left⟩ _ _ _ [] ['-'] _
    (by decide) (by unfold Notation.Spells; decide) h1 (by decide)
    (fun _ c hc => by simp only [List.head?_cons, Option.some.injEq] at hc; subst hc; decide)
    (.num 31 _ (.quoted 'H' 16 ['1', 'f'] (by decide) (by decide) (by decide)))
    (ends_mark (by decide) (fun c hc => by simp at hc; subst hc; decide))

/-- NOT is applied last: -36; `!.` comes before `-`: 240 & 125 - -6 is 118. -/
example : intelSample.value oneName noFuns 0 = .ok (-36) ∧ motorolaSample.value oneName noFuns 0 = .ok 118 := by
  constructor <;> decide +kernel

end

/-! `N(3, M)*2` with `M` = 5 and `N` the sum of two small numbers. -/

section
open Eval.Spec

def sumEnv : Env :=
  ⟨noFloat, fun n => if n = ['M'] then some ⟨5, .unsigned⟩ else none,
    fun n => if n = ['N'] then some (2, fun
      | b :: a :: _ => .ok (.ok (Value.setU (a.bits + b.bits)))
      | _ => .ok (.error .MISSING_OPERAND)) else none⟩

def sumNames : List Char → Option Int := fun n => if n = ['M'] then some 5 else none

def sumFuns : List Char → Option (List Int → Option Int) := fun n =>
  if n = ['N'] then some fun
    | [x, y] => if 0 ≤ x ∧ 0 ≤ y ∧ x + y < 2 ^ 63 then some (x + y) else none
    | _ => none
  else none

example : Computes sumEnv.functions sumFuns := by
  intro name
  unfold sumEnv sumFuns
  dsimp only
  by_cases h : name = ['N']
  · rw [if_pos h, if_pos h]
    refine ⟨by decide, ?_, _, rfl, ?_⟩
    · intro vs st hl
      match vs, hl with
      | [b, a], _ => rfl
    · intro vs z hv hg
      match vs, hv, hg with
      | [], _, hg => cases hg
      | [_], _, hg => cases hg
      | [a, b], hv, hg =>
        refine ⟨rfl, ?_⟩
        dsimp only [List.map] at hg
        split at hg
        next hx =>
          injection hg with hg
          obtain ⟨ha, -, -, a2⟩ := hv a (by simp)
          obtain ⟨hb, -, -, b2⟩ := hv b (by simp)
          have h1 := bits_denote ha
          have h2 := bits_denote hb
          rw [show (M : Int) = 18446744073709551616 from rfl] at h1 h2
          obtain ⟨h3, h4⟩ := setU_ok (u := a.bits + b.bits) (by
            show _ < 18446744073709551616; omega)
          exact ⟨_, rfl, h3, setU_typed _, by rw [h4, ← hg]; omega⟩
        next => cases hg
      | _ :: _ :: _ :: _, _, hg => cases hg
  · rw [if_neg h, if_neg h]

theorem name_M (N : Notation) (h : ∀ o ∈ N.prefixes, o.text.head? ≠ some 'M' ∨ 2 < o.text.length) :
    N.IsName ['M'] := by
  refine ⟨⟨⟨'M', [], rfl, by decide, by decide⟩, by unfold Eval.Spec.FloatWord; decide⟩,
    fun o ho => ?_⟩
  have h0 := h o ho
  have h1 : ['M'].map Ctype.toUpper = ['M'] := by decide
  rw [h1]
  cases hx : o.text with
  | nil => exact ⟨by simp, fun u h => by simp at h⟩
  | cons a t =>
    rw [hx] at h0
    simp only [List.head?_cons, ne_eq, Option.some.injEq, List.length_cons] at h0
    refine ⟨fun h => ?_, fun u h => ?_⟩
    · injection h with h2 h3
      subst h2; subst h3
      simp at h0
    · injection h with h2 h3
      cases t <;> simp at h3

def sumArgs : Fin 2 → Expr := fun | 0 => .num 3 | 1 => .sym ['M']

def sumSample : Expr :=
  .bin ⟨['*'], .basic .mul, 5, .left⟩ (.call ['N'] 1 sumArgs) (.num 2)

example : Writes (Asm.notation .i8051) sumSample ['N', '(', '3', ',', ' ', 'M', ' ', ')', '*', '2'] := by
  have n3 : Writes intelN (.num 3) ['3'] :=
    .num _ _ (.c _ _ (Literal.dec ['3'] (by decide) ⟨'3', [], rfl, by decide⟩))
  have n2 : Writes intelN (.num 2) ['2'] :=
    .num _ _ (.c _ _ (Literal.dec ['2'] (by decide) ⟨'2', [], rfl, by decide⟩))
  have nM : Writes intelN (.sym ['M']) [' ', 'M'] :=
    .blank _ _ _ (by decide) (.sym _ (name_M _ (by decide)))
  have h1 := Writes.call (N := intelN) ['N'] 1 sumArgs []
    (fun | 0 => ['3'] | 1 => [' ', 'M']) (fun | 0 => [] | 1 => [' ']) (name_N _ (by decide))
    (by decide) (by decide) (fun | 0 => n3 | 1 => nM)
  exact Writes.bin (N := intelN) ⟨['*'], .basic .mul, 5, .left⟩ _ _ _ [] ['*'] _ (by decide)
    (by unfold Notation.Spells; decide) h1 (by decide)
    (fun _ c hc => by simp only [List.head?_cons, Option.some.injEq] at hc; subst hc; decide) n2
    (ends_mark (by decide)
      (fun c hc => by simp only [List.getLast?_singleton, Option.some.injEq] at hc; subst hc; decide))

example : sumSample.Grouped ∧ sumSample.Fits (fun n => sumEnv.functions n ≠ none) ∧
    sumSample.values ≤ 8 ∧ sumSample.operators ≤ 8 ∧
    sumSample.value sumNames sumFuns 0 = .ok 16 := by
  refine ⟨?_, ?_, by decide +kernel, by decide +kernel, by decide +kernel⟩
  · refine ⟨.inl (by decide), .inl (by decide), ?_, trivial⟩
    intro i
    match i with
    | 0 => trivial
    | 1 => trivial
  · refine ⟨⟨by decide, ?_⟩, (by decide : 2 < 2 ^ 64)⟩
    intro i
    match i with
    | 0 => show 3 < 2 ^ 64; decide
    | 1 => show ¬ _; decide

end

/-- C15 fails for functions without parameters: `1+N()` is refused, as if arguments were given. -/
theorem C15_violated_no_arguments :
    ∃ r, parseInteger ((Asm.lexer .i8051).plugins
        ⟨noFloat, fun _ => none,
          fun n => if n = ['N'] then some (0, fun _ => .ok (.ok ⟨7, .unsigned⟩)) else none⟩ ',' 0)
        ['1', '+', 'N', '(', ')'] .OK = .ok r ∧
      r.2.1 = .TOO_MANY_FUNC_ARGUMENT := by
  refine ⟨_, rfl, ?_⟩
  decide +kernel

/-- C15 fails in the notation of Intel for a name that starts like an operator: with the symbol
`LOW_X` defined, the expression `LOW_X` is read as `LOW` applied to `_X`. -/
theorem C15_violated_low_name :
    ∃ r, parseInteger ((Asm.lexer .i8051).plugins
        ⟨noFloat, fun n => if n = ['L', 'O', 'W', '_', 'X'] then some ⟨5, .unsigned⟩ else none,
          noFunctions⟩ ',' 0) ['L', 'O', 'W', '_', 'X'] .OK = .ok r ∧
      r.2.1 = .UNDEFINED_SYMBOL := by
  refine ⟨_, rfl, ?_⟩
  decide +kernel

/-- C15 fails in the notation of Intel for an operand that is a signed number after an operator that
binds tighter than the sign: `2*-3` is refused, as if the number were missing. -/
theorem C15_violated_intel_sign :
    ∃ r, parseInteger ((Asm.lexer .i8051).plugins oneEnv ',' 0) ['2', '*', '-', '3'] .OK = .ok r ∧
      r.2.1 = .MISSING_OPERAND := by
  refine ⟨_, rfl, ?_⟩
  decide +kernel

end Libasm.Maker
