import Verif.Eval.Meaning
import Verif.Eval.Props
/-
C15: the text of an expression in C notation evaluates to the integer it stands for.

Verif/Eval/Spec.lean says what a tree is, which texts denote it (`Writes`), when it needs no more
parentheses than it has (`Grouped`) and what integer it stands for (`value`).
-/
namespace Libasm.Eval
open Scan Number Ctype Spec Value Value.Spec

/-- The symbol table holds defined integers, and `names` gives them. -/
def Named (symbols : List Char → Option Value) (names : List Char → Option Int) : Prop :=
  ∀ n, match symbols n with
    | some v => Valid v ∧ v.type ≠ .undef ∧ names n = some (denote v)
    | none => names n = none

section
variable {symbols : List Char → Option Value} {names : List Char → Option Int} {loc : Nat}

theorem setUnsigned_holds {n : Nat} (h : n < 2 ^ 32) : Holds (setUnsigned n) n := by
  have e : setUnsigned n = ⟨n, .unsigned⟩ := by
    unfold setUnsigned setU
    rw [Nat.mod_eq_of_lt (show n < 4294967296 from h), Nat.mod_eq_of_lt (by
      rw [show M = 18446744073709551616 from rfl]; omega)]
  rw [e]
  exact ⟨by show n < 2 ^ 64; omega, nofun, rfl, by omega, by omega⟩

theorem char_lt (c : Char) : c.toNat < 2 ^ 32 := by
  have := c.val.toNat_lt
  exact this

theorem mean_ok (hn : Named symbols names) (hloc : loc < 2 ^ 32) {e : Expr} :
    ∀ {x : Int} (err : Err), e.value names loc = .ok x →
      ∃ v, mean symbols loc e err = .ok (err, some v) ∧ Holds v x := by
  induction e with
  | num n =>
    intro x err h
    obtain ⟨rfl, l1, l2⟩ := inWord_ok h
    exact ⟨_, rfl, by show n < 2 ^ 64; omega, nofun, rfl, l1, l2⟩
  | char c =>
    intro x err h
    obtain ⟨rfl, l1, l2⟩ := inWord_ok h
    exact ⟨_, rfl, setUnsigned_holds (char_lt c)⟩
  | here =>
    intro x err h
    obtain ⟨rfl, l1, l2⟩ := inWord_ok h
    exact ⟨_, rfl, setUnsigned_holds hloc⟩
  | sym name =>
    intro x err h
    have hs := hn name
    unfold Expr.value at h
    unfold mean
    cases hv : symbols name with
    | some v =>
      rw [hv] at hs
      obtain ⟨h1, h2, h3⟩ := hs
      rw [h3] at h
      obtain ⟨rfl, l1, l2⟩ := inWord_ok h
      exact ⟨v, rfl, h1, h2, rfl, l1, l2⟩
    | none =>
      rw [hv] at hs
      rw [show names name = none from hs] at h
      cases h
  | paren e ih => intro x err h; exact ih err h
  | un o e ih =>
    intro x err h
    have h' : (e.value names loc).bind (fun y => (Spec.un o y).bind inWord) = .ok x := h
    cases he : e.value names loc with
    | error f => rw [he] at h'; cases h'
    | ok y =>
      rw [he] at h'
      obtain ⟨v, hv, hh⟩ := ih err he
      have h2 : (Spec.un o y).bind inWord = .ok x := h'
      cases hu : Spec.un o y with
      | error f => rw [hu] at h2; cases h2
      | ok z =>
        rw [hu] at h2
        obtain ⟨w, hw, hh'⟩ := un_ok hh hu h2
        refine ⟨w, ?_, hh'⟩
        show (mean symbols loc e err).bind _ = _
        rw [hv]
        show mean.settle err (fn1 o v) = _
        rw [hw]
        rfl
  | bin o l r ihl ihr =>
    intro x err h
    have h' : (l.value names loc).bind (fun y => (r.value names loc).bind fun z =>
      (Spec.bin o y z).bind inWord) = .ok x := h
    cases hl : l.value names loc with
    | error f => rw [hl] at h'; cases h'
    | ok y =>
      rw [hl] at h'
      obtain ⟨a, ha, hha⟩ := ihl err hl
      have h1 : (r.value names loc).bind (fun z => (Spec.bin o y z).bind inWord) = .ok x := h'
      cases hr : r.value names loc with
      | error f => rw [hr] at h1; cases h1
      | ok z =>
        rw [hr] at h1
        obtain ⟨b, hb, hhb⟩ := ihr err hr
        have h2 : (Spec.bin o y z).bind inWord = .ok x := h1
        cases hu : Spec.bin o y z with
        | error f => rw [hu] at h2; cases h2
        | ok q =>
          rw [hu] at h2
          obtain ⟨w, hw, hh'⟩ := bin_ok hha hhb hu h2
          refine ⟨w, ?_, hh'⟩
          show (mean symbols loc l err).bind _ = _
          rw [ha]
          show (mean symbols loc r err).bind _ = _
          rw [hb]
          show mean.settle err (fn2 o a b) = _
          rw [hw]
          rfl

theorem bin_zero {o : BinOp} (ho : o = .div ∨ o = .mod) {a b : Value} (hb : Holds b 0) :
    fn2 o a b = .ok (.error .DIVIDE_BY_ZERO) := by
  rcases ho with rfl | rfl
  · show divide a b = _
    unfold divide
    rw [isZero_good hb]; rfl
  · show modulo a b = _
    unfold modulo
    rw [isZero_good hb]; rfl

theorem mean_zero (hn : Named symbols names) (hloc : loc < 2 ^ 32) {e : Expr}
    (h : e.value names loc = .error .zeroDivide) :
    mean symbols loc e .OK = .ok (.DIVIDE_BY_ZERO, none) := by
  induction e with
  | num n => exact absurd (inWord_err h) (by decide)
  | char c => exact absurd (inWord_err h) (by decide)
  | here => exact absurd (inWord_err h) (by decide)
  | sym name =>
    unfold Expr.value at h
    split at h
    · exact absurd (inWord_err h) (by decide)
    · cases h
  | paren e ih => exact ih h
  | un o e ih =>
    have h' : (e.value names loc).bind (fun y => (Spec.un o y).bind inWord) = .error .zeroDivide := h
    show (mean symbols loc e .OK).bind _ = _
    cases he : e.value names loc with
    | error f =>
      rw [he] at h'
      have : f = .zeroDivide := by injection h'
      subst this
      rw [ih he]
      rfl
    | ok y =>
      rw [he] at h'
      have h2 : (Spec.un o y).bind inWord = .error .zeroDivide := h'
      cases hu : Spec.un o y with
      | error f =>
        rw [hu] at h2
        have : f = .zeroDivide := by injection h2
        subst this
        exact absurd (un_err hu) (by decide)
      | ok z => rw [hu] at h2; exact absurd (inWord_err h2) (by decide)
  | bin o l r ihl ihr =>
    have h' : (l.value names loc).bind (fun y => (r.value names loc).bind fun z =>
      (Spec.bin o y z).bind inWord) = .error .zeroDivide := h
    show (mean symbols loc l .OK).bind _ = _
    cases hl : l.value names loc with
    | error f =>
      rw [hl] at h'
      have : f = .zeroDivide := by injection h'
      subst this
      rw [ihl hl]
      rfl
    | ok y =>
      rw [hl] at h'
      obtain ⟨a, ha, hha⟩ := mean_ok hn hloc .OK hl
      rw [ha]
      show (mean symbols loc r .OK).bind _ = _
      have h1 : (r.value names loc).bind (fun z => (Spec.bin o y z).bind inWord) =
        .error .zeroDivide := h'
      cases hr : r.value names loc with
      | error f =>
        rw [hr] at h1
        have : f = .zeroDivide := by injection h1
        subst this
        rw [ihr hr]
        rfl
      | ok z =>
        rw [hr] at h1
        obtain ⟨b, hb, hhb⟩ := mean_ok hn hloc .OK hr
        rw [hb]
        show mean.settle .OK (fn2 o a b) = _
        have h2 : (Spec.bin o y z).bind inWord = .error .zeroDivide := h1
        cases hu : Spec.bin o y z with
        | error f =>
          rw [hu] at h2
          have : f = .zeroDivide := by injection h2
          subst this
          rcases bin_err hu with h3 | ⟨_, rfl, ho⟩
          · cases h3
          · rw [bin_zero ho hhb]
            rfl
        | ok q => rw [hu] at h2; exact absurd (inWord_err h2) (by decide)

theorem settle_undef {x : Out (Except Err Value)} {e : Err} {v : Option Value}
    (h : mean.settle .UNDEFINED_SYMBOL x = .ok (e, v)) : e = .UNDEFINED_SYMBOL := by
  cases x with
  | ok a => cases a <;> (injection h with h; injection h with h _; exact h.symm)
  | _ => cases h

/-- Once a symbol is undefined that stays the error. -/
theorem mean_undef {e : Expr} : ∀ {er : Err} {v : Option Value},
    mean symbols loc e .UNDEFINED_SYMBOL = .ok (er, v) → er = .UNDEFINED_SYMBOL := by
  induction e with
  | num n => intro er v h; injection h with h; injection h with h _; exact h.symm
  | char c => intro er v h; injection h with h; injection h with h _; exact h.symm
  | here => intro er v h; injection h with h; injection h with h _; exact h.symm
  | sym name =>
    intro er v h
    unfold mean at h
    split at h <;> (injection h with h; injection h with h _; exact h.symm)
  | paren e ih => intro er v h; exact ih h
  | un o e ih =>
    intro er v h
    obtain ⟨⟨e1, v1⟩, h1, h2⟩ := Out.bind_ok (show (mean symbols loc e .UNDEFINED_SYMBOL).bind _ = _
      from h)
    have := ih h1
    subst this
    cases v1 with
    | none => injection h2 with h2; injection h2 with h2 _; exact h2.symm
    | some w => exact settle_undef h2
  | bin o l r ihl ihr =>
    intro er v h
    obtain ⟨⟨e1, v1⟩, h1, h2⟩ := Out.bind_ok (show (mean symbols loc l .UNDEFINED_SYMBOL).bind _ = _
      from h)
    have := ihl h1
    subst this
    cases v1 with
    | none => injection h2 with h2; injection h2 with h2 _; exact h2.symm
    | some w =>
      obtain ⟨⟨e2, v2⟩, h3, h4⟩ := Out.bind_ok (show (mean symbols loc r .UNDEFINED_SYMBOL).bind _ = _
        from h2)
      have := ihr h3
      subst this
      cases v2 with
      | none => injection h4 with h4; injection h4 with h4 _; exact h4.symm
      | some w => exact settle_undef h4

theorem mean_unknown (hn : Named symbols names) (hloc : loc < 2 ^ 32) {e : Expr} :
    ∀ {er : Err} {v : Option Value}, e.value names loc = .error .unknown →
    mean symbols loc e .OK = .ok (er, v) → er = .UNDEFINED_SYMBOL := by
  induction e with
  | num n => intro er v h; exact absurd (inWord_err h) (by decide)
  | char c => intro er v h; exact absurd (inWord_err h) (by decide)
  | here => intro er v h; exact absurd (inWord_err h) (by decide)
  | sym name =>
    intro er v h hm
    have hs := hn name
    unfold mean at hm
    unfold Expr.value at h
    cases hv : symbols name with
    | some w =>
      rw [hv] at hs
      rw [hs.2.2] at h
      exact absurd (inWord_err h) (by decide)
    | none =>
      rw [hv] at hm
      injection hm with hm; injection hm with hm _; exact hm.symm
  | paren e ih => intro er v h hm; exact ih h hm
  | un o e ih =>
    intro er v h hm
    have h' : (e.value names loc).bind (fun y => (Spec.un o y).bind inWord) = .error .unknown := h
    cases he : e.value names loc with
    | error f =>
      rw [he] at h'
      have : f = .unknown := by injection h'
      subst this
      obtain ⟨⟨e1, v1⟩, h1, h2⟩ := Out.bind_ok (show (mean symbols loc e .OK).bind _ = _ from hm)
      have := ih he h1
      subst this
      cases v1 with
      | none => injection h2 with h2; injection h2 with h2 _; exact h2.symm
      | some w => exact settle_undef h2
    | ok y =>
      rw [he] at h'
      have h2 : (Spec.un o y).bind inWord = .error .unknown := h'
      cases hu : Spec.un o y with
      | error f =>
        rw [hu] at h2
        have : f = .unknown := by injection h2
        subst this
        exact absurd (un_err hu) (by decide)
      | ok z => rw [hu] at h2; exact absurd (inWord_err h2) (by decide)
  | bin o l r ihl ihr =>
    intro er v h hm
    have h' : (l.value names loc).bind (fun y => (r.value names loc).bind fun z =>
      (Spec.bin o y z).bind inWord) = .error .unknown := h
    obtain ⟨⟨e1, v1⟩, h1, h2⟩ := Out.bind_ok (show (mean symbols loc l .OK).bind _ = _ from hm)
    cases hl : l.value names loc with
    | error f =>
      rw [hl] at h'
      have : f = .unknown := by injection h'
      subst this
      have := ihl hl h1
      subst this
      cases v1 with
      | none => injection h2 with h2; injection h2 with h2 _; exact h2.symm
      | some w =>
        obtain ⟨⟨e2, v2⟩, h3, h4⟩ := Out.bind_ok
          (show (mean symbols loc r .UNDEFINED_SYMBOL).bind _ = _ from h2)
        have := mean_undef h3
        subst this
        cases v2 with
        | none => injection h4 with h4; injection h4 with h4 _; exact h4.symm
        | some w => exact settle_undef h4
    | ok y =>
      rw [hl] at h'
      obtain ⟨a, ha, hha⟩ := mean_ok hn hloc .OK hl
      rw [ha] at h1
      injection h1 with h1; injection h1 with h1 h1'
      subst h1; subst h1'
      obtain ⟨⟨e2, v2⟩, h3, h4⟩ := Out.bind_ok
        (show (mean symbols loc r .OK).bind _ = _ from h2)
      have h5 : (r.value names loc).bind (fun z => (Spec.bin o y z).bind inWord) =
        .error .unknown := h'
      cases hr : r.value names loc with
      | error f =>
        rw [hr] at h5
        have : f = .unknown := by injection h5
        subst this
        have := ihr hr h3
        subst this
        cases v2 with
        | none => injection h4 with h4; injection h4 with h4 _; exact h4.symm
        | some w => exact settle_undef h4
      | ok z =>
        rw [hr] at h5
        have h6 : (Spec.bin o y z).bind inWord = .error .unknown := h5
        cases hu : Spec.bin o y z with
        | error f =>
          rw [hu] at h6
          have : f = .unknown := by injection h6
          subst this
          rcases bin_err hu with h7 | ⟨h7, _⟩ <;> cases h7
        | ok q => rw [hu] at h6; exact absurd (inWord_err h6) (by decide)

end

theorem skip_split (t : Scan) : ∃ sp, (∀ c ∈ sp, Blank c) ∧ t = sp ++ skipSpaces t := by
  induction t with
  | nil => exact ⟨[], by simp, rfl⟩
  | cons c u ih =>
    cases h : isSpace c with
    | false => exact ⟨[], by simp, by rw [skip_cons h]; rfl⟩
    | true =>
      obtain ⟨sp, h1, h2⟩ := ih
      refine ⟨c :: sp, ?_, by rw [skip_blank h, List.cons_append, ← h2]⟩
      intro d hd
      rcases List.mem_cons.mp hd with rfl | hd
      · exact blank_space.mpr h
      · exact h1 d hd

section
variable (float : Scan → Option (Err × Value × Scan))
  (hfloat : ∀ s v rest, float s = some (.OK, v, rest) → rest.length < s.length)
  (symbols : List Char → Option Value)
  (functions : List Char → Option (Int × (List Value → Out (Except Err Value))))
  (delim : Char) (hd : ¬ TokenStart delim ∧ ¬ Blank delim) (loc : Nat) (hloc : loc < 2 ^ 32)
  (names : List Char → Option Int) (hn : Named symbols names)
  (e : Expr) (text rest : List Char) (hw : Writes e text) (hg : e.Grouped)
  (hf : e.Fits (fun n => functions n ≠ none)) (hv : e.values ≤ 8) (ho : e.operators ≤ 8)
  (hstop : Stops delim rest)
include hfloat hd hloc hn hw hg hf hv ho hstop

/-- C15, C notation: for every expression tree, every way of writing it with the parentheses that
the C precedence table requires (at most 8 operands and 8 operators pending), every symbol table
and every text that follows: evaluation stops at the end of the expression without an error, with
a value that denotes the integer the tree stands for. -/
theorem C15_value_partial (x : Int) (hx : e.value names loc = .ok x) :
    ∃ r, eval (stylePlugins .cstyle .c float symbols functions delim loc) (text ++ rest) .OK .r10 =
        .ok r ∧
      r.err = .OK ∧ denote r.value = x ∧ Valid r.value ∧
      ∃ sp, (∀ c ∈ sp, Blank c) ∧ rest = sp ++ r.scan := by
  obtain ⟨v, hm, hh⟩ := mean_ok hn hloc .OK hx
  have h := eval_writes (symbols := symbols) (loc := loc) hd.1 hd.2 hfloat hw hg hf hv ho hstop
  rw [hm] at h
  rcases h with ⟨err, v', tr, h1, h2⟩ | ⟨r, err, h1, h2, _⟩ | ⟨_, h⟩ | ⟨_, h⟩ | ⟨_, h⟩
  · injection h1 with h1
    injection h1 with h1 h1'
    injection h1' with h1'
    subst h1; subst h1'
    rcases h2 with h2 | h2
    · exact ⟨_, h2, rfl, hh.eq, hh.valid, skip_split rest⟩
    · exact ⟨_, h2, rfl, hh.eq, hh.valid, [], by simp, rfl⟩
  · injection h1 with h1; injection h1 with _ h1; cases h1
  all_goals cases h

/-- C15: a division by zero anywhere in the expression is reported, whatever else is computed. -/
theorem C15_divide_by_zero (hx : e.value names loc = .error .zeroDivide) :
    ∃ r, eval (stylePlugins .cstyle .c float symbols functions delim loc) (text ++ rest) .OK .r10 =
        .ok r ∧ r.err = .DIVIDE_BY_ZERO := by
  have hm := mean_zero hn hloc hx
  have h := eval_writes (symbols := symbols) (loc := loc) hd.1 hd.2 hfloat hw hg hf hv ho hstop
  rw [hm] at h
  rcases h with ⟨err, v', tr, h1, h2⟩ | ⟨r, err, h1, h2, h3⟩ | ⟨_, h⟩ | ⟨_, h⟩ | ⟨_, h⟩
  · injection h1 with h1
    injection h1 with _ h1
    cases h1
  · injection h1 with h1; injection h1 with h1 _
    subst h1
    refine ⟨r, h2, ?_⟩
    rcases h3 with h3 | h3 <;> rw [h3] <;> rfl
  all_goals cases h

/-- C15: an undefined symbol in the expression is reported, unless an arithmetic overflow after it
makes the behaviour undefined. -/
theorem C15_undefined_symbol (hx : e.value names loc = .error .unknown) (r : Result Value)
    (hr : eval (stylePlugins .cstyle .c float symbols functions delim loc) (text ++ rest) .OK .r10 =
      .ok r) : r.err = .UNDEFINED_SYMBOL := by
  have h := eval_writes (float := float) (symbols := symbols) (functions := functions) (loc := loc)
    hd.1 hd.2 hfloat hw hg hf hv ho hstop
  have hr' : eval (cP float symbols functions delim loc) (text ++ rest) .OK .r10 = .ok r := hr
  rw [hr'] at h
  rcases h with ⟨err, v', tr, h1, h2⟩ | ⟨r', err, h1, h2, h3⟩ | ⟨h, _⟩ | ⟨h, _⟩ | ⟨h, _⟩
  · have := mean_unknown hn hloc hx h1
    subst this
    rcases h2 with h2 | h2 <;> injection h2 with h2 <;> rw [h2]
  · injection h2 with h2
    have := mean_unknown hn hloc hx h1
    subst this
    subst h2
    rcases h3 with h3 | h3 <;> rw [h3] <;> rfl
  all_goals cases h

end

/-! The hypotheses are met by `-(N + 3) * 0x10 >> 2 == ~7 & 'A'` followed by `, x`, with `N` = 5. -/

/-- A table with one symbol. -/
def oneSymbol (n : List Char) : Option Value := if n = ['N'] then some ⟨5, .unsigned⟩ else none

def oneName (n : List Char) : Option Int := if n = ['N'] then some 5 else none

def sample : Expr :=
  .bin .and
    (.bin .eq
      (.bin .shr (.bin .mul (.un .minus (.paren (.bin .add (.sym ['N']) (.num 3)))) (.num 16))
        (.num 2))
      (.un .compl (.num 31)))
    (.char 'A')

def sampleText : List Char :=
  ['-', '(', 'N', ' ', '+', ' ', '3', ')', '*', '0', 'x', '1', '0', ' ', '>', '>', '2', '=', '=',
    ' ', '~', '3', '1', '&', ' ', '\'', 'A', '\'']

example : Named oneSymbol oneName := by
  intro n
  unfold oneSymbol oneName
  by_cases h : n = ['N']
  · rw [if_pos h, if_pos h]
    exact ⟨by decide, by decide, rfl⟩
  · rw [if_neg h, if_neg h]

example : Writes sample sampleText := by
  have sp : ∀ c ∈ [' '], Blank c := by decide
  have n3 : Writes (.num 3) ['3'] :=
    .num _ _ (Literal.dec ['3'] (by decide) ⟨'3', [], rfl, by decide⟩)
  have n2 : Writes (.num 2) ['2'] :=
    .num _ _ (Literal.dec ['2'] (by decide) ⟨'2', [], rfl, by decide⟩)
  have n31 : Writes (.num 31) ['3', '1'] :=
    .num _ _ (Literal.dec ['3', '1'] (by decide) ⟨'3', ['1'], rfl, by decide⟩)
  have n16 : Writes (.num 16) ['0', 'x', '1', '0'] :=
    .num _ _ (Literal.hex 'x' (.inl rfl) ['1', '0'] (by decide) (by decide))
  have nN : Writes (.sym ['N']) ['N'] :=
    .sym _ ⟨⟨'N', [], rfl, by decide, by decide⟩, by unfold FloatWord; decide⟩
  have hA : Writes (.char 'A') [' ', '\'', 'A', '\''] :=
    .blank _ _ _ (by decide) (.char 'A' (by decide))
  have h1 := Writes.paren _ _ [] (Writes.bin .add _ _ _ _ _ nN sp (.blank _ ' ' _ (by decide) n3))
    (by decide)
  have h2 := Writes.bin .mul _ _ _ [] _ (Writes.un .minus _ _ h1) (by decide) n16
  have h3 := Writes.bin .shr _ _ _ [' '] _ h2 sp n2
  have h4 := Writes.bin .eq _ _ _ [] _ h3 (by decide)
    (.blank _ ' ' _ (by decide) (Writes.un .compl _ _ n31))
  exact Writes.bin .and _ _ _ [] _ h4 (by decide) hA

example : sample.Grouped ∧ sample.Fits (fun n => noFunctions n ≠ none) ∧ sample.values ≤ 8 ∧
    sample.operators ≤ 8 ∧ ¬ TokenStart ',' ∧ ¬ Blank ',' ∧ Stops ',' [' ', ',', 'x'] := by
  refine ⟨?_, ?_, by decide, by decide, ?_, by decide, [' '], [',', 'x'], rfl, by decide,
    .inr (.inr (.inl ⟨_, rfl⟩))⟩
  · simp [sample, Expr.Grouped, Expr.level, BinOp.level, BinOp.chains]
  · simp [sample, Expr.Fits, noFunctions]
  · simp [TokenStart, IsLetter, IsDecimal]

instance : DecidableEq (Except Fail Int)
  | .ok x, .ok y => if h : x = y then isTrue (by rw [h]) else isFalse (by simpa using h)
  | .error x, .error y => if h : x = y then isTrue (by rw [h]) else isFalse (by simpa using h)
  | .ok _, .error _ => isFalse nofun
  | .error _, .ok _ => isFalse nofun

/-- -(5 + 3) * 16 >> 2 is -32, which is ~31; 1 & 65 is 1. -/
example : sample.value oneName 0 = .ok 1 := by decide +kernel

/-- A division by zero behind a comparison, and an unknown name. -/
example : (Expr.bin .lt (.num 1) (.bin .div (.num 7) (.paren (.bin .sub (.sym ['N']) (.num 5))))).value
    oneName 0 = .error .zeroDivide ∧
    (Expr.bin .mul (.num 0) (.sym ['Q'])).value oneName 0 = .error .unknown := ⟨rfl, rfl⟩

/-- C15 fails for `!`: it looks at the low 32 bits only, so `!0x100000000` is 1. -/
theorem C15_violated_not :
    ∃ r, eval (stylePlugins .cstyle .c noFloat noSymbols noFunctions ',' 0)
      ['!', '0', 'x', '1', '0', '0', '0', '0', '0', '0', '0', '0'] .OK .r10 = .ok r ∧
      r.err = .OK ∧ denote r.value = 1 := by
  refine ⟨_, rfl, ?_, ?_⟩ <;> decide +kernel

/-- C15 fails for `<<`: it works on 32 bits, so `0x100000000 << 0` is 0. -/
theorem C15_violated_shl :
    ∃ r, eval (stylePlugins .cstyle .c noFloat noSymbols noFunctions ',' 0)
      ['0', 'x', '1', '0', '0', '0', '0', '0', '0', '0', '0', '<', '<', '0'] .OK .r10 = .ok r ∧
      r.err = .OK ∧ denote r.value = 0 := by
  refine ⟨_, rfl, ?_, ?_⟩ <;> decide +kernel

end Libasm.Eval
