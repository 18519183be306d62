import Verif.Maker.Tree
/-
Reading the text of a tree in a notation, by induction on how it is written.  What the plugins make
of the tokens is the structure `Lex`; Verif/Maker/Lexers.lean shows it for the plugins of the
library.
-/
namespace Libasm.Maker
open Scan Number Ctype Eval
open Eval.Spec (UnOp BinOp Blank IsLetter IsDecimal)

/-- The characters that may follow a number or name. -/
def Sep (rest : Scan) : Prop :=
  ∀ c, rest.head? = some c →
    ¬ IsLetter c ∧ ¬ IsDecimal c ∧ c ∉ ['\'', '.', '$', '?', '@']

theorem Sep.toEval {rest : Scan} (h : Sep rest) : Eval.Sep rest := by
  intro c hc
  obtain ⟨h1, h2, h3⟩ := h c hc
  refine ⟨h1, h2, ?_, ?_⟩ <;> (rintro rfl; exact h3 (by decide))

/-- A character that starts a token. -/
structure Start (c : Char) : Prop where
  token : TokenStart c
  space : isSpace c = false
  nul : c ≠ '\x00'
  semi : c ≠ ';'

/-- A state in which an operand may be read. -/
structure Ready (delim : Char) (s : St Value) : Prop where
  pre : s.maybePrefix = true
  noCall : s.expectFnArgs = false
  radix : s.radix = .r10
  err : hasError s.err = false
  fin : s.endOfExpr = if s.inParen = 0 then delim else '\x00'
  noFn : ∀ o, s.ost.head? = some o → o.isFunction = false

/-- A character that starts an operand. -/
def First (c : Char) : Prop := Start c ∧ c ≠ '='

/-- What the plugins make of the tokens of the notation. -/
structure Lex (P : Plugins Value) (N : Notation) (loc : Nat) (pre inf : Read) : Prop where
  consumes : Consumes P
  undef : P.undef = Value.undefined
  ops : P.ops = Eval.parser pre inf
  eolNil : P.endOfLine [] = true
  eolSemi : ∀ t, P.endOfLine (';' :: t) = true
  eol : ∀ c t, isSpace c = false → c ≠ '\x00' → c ≠ ';' → P.endOfLine (c :: t) = false
  preHead : ∀ p ∈ N.prefixes, ∀ w, N.Spells p.text w → ∃ c u, w = c :: u ∧ First c
  preText : ∀ p ∈ N.prefixes, ∀ w t, N.Spells p.text w → Ends (N.prefixes.map Prefix.text) w t →
    t ≠ [] → t.head? ≠ some '=' → ∀ rest, ∃ o, IsUn o p ∧ pre (w ++ (t ++ rest)) = some (o, t ++ rest)
  infHead : ∀ q ∈ N.infixes, ∀ w, N.Spells q.text w → ∃ c u, w = c :: u ∧ Start c ∧
    ((∀ d, q.text.head? = some d → ¬ IsWord d) → Sep [c])
  infText : ∀ q ∈ N.infixes, ∀ w t, N.Spells q.text w → Ends (N.infixes.map Infix.text) w t →
    t ≠ [] → ∀ rest, ∃ o, IsBin o q ∧ inf (w ++ (t ++ rest)) = some (o, t ++ rest)
  infClose : ∀ t, inf (')' :: t) = none
  infOpen : ∀ t, inf ('(' :: t) = none
  infStop : ∀ c t, ¬ TokenStart c → inf (c :: t) = none
  number : ∀ n t rest, N.number n t → n < 2 ^ 64 → Sep rest → ∃ c u, t = c :: u ∧ First c ∧
    pre (t ++ rest) = none ∧ P.parseConstant (t ++ rest) .r10 = (.OK, ⟨n, .unsigned⟩, rest)
  letter : ∀ x t rest, N.letter x t → Sep rest → ∃ c u, t = c :: u ∧ First c ∧
    pre (t ++ rest) = none ∧
    P.parseConstant (t ++ rest) .r10 = (.OK, Value.setUnsigned x.toNat, rest)
  here : ∀ c ∈ N.here, ∀ rest, Sep rest → First c ∧ pre (c :: rest) = none ∧
    P.parseConstant (c :: rest) .r10 = (.OK, Value.setUnsigned loc, rest)
  name : ∀ name rest, N.IsName name → Sep rest → pre (name ++ rest) = none ∧
    (∃ v, P.parseConstant (name ++ rest) .r10 = (.NOT_AN_EXPECTED, v, name ++ rest)) ∧
    P.readFunctionName (name ++ rest) = some (name, rest) ∧
    P.readSymbol (name ++ rest) = some (name, rest)
  paren : ∀ t, pre ('(' :: t) = none ∧
    (∃ v, P.parseConstant ('(' :: t) .r10 = (.NOT_AN_EXPECTED, v, '(' :: t)) ∧
    P.readFunctionName ('(' :: t) = none ∧ P.readSymbol ('(' :: t) = none

theorem writes_ne {N : Notation} {P : Plugins Value} {loc : Nat} {pre inf : Read}
    (L : Lex P N loc pre inf) (hnum : ∀ n t, N.number n t → t ≠ [])
    {e : Expr} {t : Scan} (h : Writes N e t) : t ≠ [] := by
  induction h with
  | num n t h => exact hnum n t h
  | char x t h =>
    obtain ⟨c, u, rfl, _⟩ := L.letter x t [] h (by intro c hc; cases hc)
    simp
  | here => simp
  | sym name h =>
    obtain ⟨c, t, rfl, _⟩ := h.1.1
    simp
  | paren => simp
  | un o e w t ho hw h he ih => exact fun h0 => ih (List.append_eq_nil_iff.mp h0).2
  | bin o l r tl sp w tr ho hw hl hsp hs hr he ihl ihr =>
    exact fun h0 => ihr (List.append_eq_nil_iff.mp h0).2
  | call => simp
  | blank => simp

theorem skip_head {s t : Scan} {c : Char} (h : skipSpaces s = c :: t) : isSpace c = false := by
  unfold skipSpaces trimStart at h
  have := List.head?_dropWhile_not isSpace s
  rw [h] at this
  simpa using this

section
variable {P : Plugins Value} {N : Notation} {loc : Nat} {pre inf : Read} (L : Lex P N loc pre inf)
include L

theorem step_pre {s : St Value} {c : Char} {t : Scan} (hsk : skipSpaces s.scan = c :: t)
    (hc0 : c ≠ '\x00') (hc1 : c ≠ ';') (hce : c ≠ s.endOfExpr) (hm : s.maybePrefix = true)
    (he : hasError s.err = false) :
    step P s = match pre (c :: t) with
      | some (o, p) => stepOperator P s o p
      | none => stepOperand P s s.scan (c :: t) := by
  unfold step
  dsimp only
  rw [hsk, if_neg (show ¬ P.endOfLine (c :: t) = true by rw [L.eol c t (skip_head hsk) hc0 hc1]; decide),
    if_neg (by intro h; exact hce h.1), if_pos hm]
  rw [L.ops]
  show Out.bind (Eval.pure pre (c :: t) s.vst s.radix) _ = _
  unfold Eval.pure
  cases pre (c :: t) with
  | none =>
    dsimp only [Out.bind]
    rw [if_neg (by rw [he]; decide)]
  | some x =>
    obtain ⟨o, p⟩ := x
    dsimp only [Out.bind]
    rw [if_neg (by rw [he]; decide)]

theorem step_inf {s : St Value} {c : Char} {t : Scan} (hsk : skipSpaces s.scan = c :: t)
    (hc0 : c ≠ '\x00') (hc1 : c ≠ ';') (hce : c ≠ s.endOfExpr) (hm : s.maybePrefix = false)
    (he : hasError s.err = false) :
    step P s = match inf (c :: t) with
      | some (o, p) => stepOperator P s o p
      | none => stepPunct P s s.scan (c :: t) := by
  unfold step
  dsimp only
  rw [hsk, if_neg (show ¬ P.endOfLine (c :: t) = true by rw [L.eol c t (skip_head hsk) hc0 hc1]; decide),
    if_neg (by intro h; exact hce h.1), if_neg (by rw [hm]; decide)]
  rw [L.ops, show (Eval.parser pre inf).readInfix = inf from rfl]
  cases inf (c :: t) with
  | none => dsimp only; rw [if_neg (by rw [he]; decide)]
  | some x =>
    obtain ⟨o, p⟩ := x
    dsimp only
    rw [if_neg (by rw [he]; decide)]

/-- A constant where an operand may stand. -/
theorem step_const {s : St Value} {c : Char} {t rest : Scan} {v : Value}
    (hsk : skipSpaces s.scan = c :: t)
    (hc0 : c ≠ '\x00') (hc1 : c ≠ ';') (hce : c ≠ s.endOfExpr) (hm : s.maybePrefix = true)
    (he : hasError s.err = false) (hp : pre (c :: t) = none)
    (hc : P.parseConstant (c :: t) s.radix = (.OK, v, rest))
    (hl : s.vst.length < 8) :
    step P s = .ok (.cont { s with
      scan := rest, vst := v :: s.vst, maybePrefix := false, trace := .operand :: s.trace }) := by
  rw [step_pre L hsk hc0 hc1 hce hm he, hp]
  dsimp only
  unfold stepOperand
  rw [hc]
  dsimp only
  rw [if_neg (show ¬ s.vst.length ≥ capacity by show ¬ s.vst.length ≥ 8; omega)]
  unfold push
  rw [if_pos (show s.vst.length < capacity from hl)]
  rfl

/-- An opening parenthesis where an operand may stand. -/
theorem step_open {s : St Value} {t : Scan} (hsk : skipSpaces s.scan = '(' :: t)
    (hce : '(' ≠ s.endOfExpr) (hm : s.maybePrefix = true) (he : hasError s.err = false)
    (hr : s.radix = .r10) (hl : s.ost.length < 8) :
    step P s = .ok (.cont { s with
      scan := t, ost := Operator.paren s.vst.length :: s.ost
      endOfExpr := '\x00', inParen := s.inParen + 1, maybePrefix := true, expectFnArgs := false
      trace := .opening :: s.trace }) := by
  obtain ⟨p1, ⟨v, p2⟩, p3, p4⟩ := L.paren t
  rw [step_pre L hsk (by decide) (by decide) hce hm he, p1]
  dsimp only
  unfold stepOperand
  rw [hr, p2]
  dsimp only
  rw [p3]
  dsimp only
  unfold stepSymbol
  rw [p4]
  dsimp only
  unfold stepPunct
  rw [show (if s.inFnArgs > 0 then expect ',' ('(' :: t) else none) = none by split <;> rfl]
  dsimp only
  rw [show P.ops.isOpen ('(' :: t) = some t by rw [L.ops]; rfl]
  dsimp only
  rw [if_neg (by rw [hm]; simp),
    if_neg (show ¬ s.ost.length ≥ capacity by show ¬ s.ost.length ≥ 8; omega), hr]

/-- A closing parenthesis after an operand. -/
theorem step_close {s : St Value} {rest : Scan} (hsk : skipSpaces s.scan = ')' :: rest)
    (hce : ')' ≠ s.endOfExpr) (hm : s.maybePrefix = false) (he : hasError s.err = false)
    {O ost : List Op} {V vst : List Value} {n : Nat}
    {x : Out (Except Err Value)} (hO : s.ost = O ++ Operator.paren n :: ost) (hV : s.vst = V ++ vst)
    (hp : Pend O V x) (hq : ∀ o ∈ O, o.isOpenParen = false) (hl : (V ++ vst).length ≤ 8)
    (hf : ∀ o, ost.head? = some o → o.isFunction = false) :
    step P s = x.bind fun
      | .error e => .ok (.ret { s with scan := rest, err := setErrorIf s.err e } P.undef)
      | .ok v => .ok (.cont { s with
        scan := rest, vst := v :: vst, ost := ost, inParen := s.inParen - 1, maybePrefix := false
        endOfExpr := if s.inParen - 1 = 0 then P.delimitor else s.endOfExpr
        trace := .closing :: s.trace }) := by
  rw [step_inf L hsk (by decide) (by decide) hce hm he]
  rw [L.infClose]
  dsimp only
  unfold stepPunct
  rw [show (if s.inFnArgs > 0 then expect ',' (')' :: rest) else none) = none by split <;> rfl]
  dsimp only
  rw [show P.ops.isOpen (')' :: rest) = none by rw [L.ops]; rfl]
  dsimp only
  rw [show P.ops.isClose (')' :: rest) = some rest by rw [L.ops]; rfl]
  dsimp only
  rw [hO, hV, pend_reduce P
    (reduceClose P) (fun o => o.isOpenParen = false)
    (fun t os st r ht => (reduceClose_step _ ht os st r).trans (by
      cases evalOp P t st r 0 with
      | ok a => cases a <;> rfl
      | _ => rfl)) hp hq _ _ _ hl]
  cases x with
  | ok a =>
    cases a with
    | error e => rfl
    | ok v =>
      dsimp only [Out.bind]
      have h1 : reduceClose P (Operator.paren n :: ost)
        (v :: vst) s.radix = .ok (.ok (Operator.paren n :: ost, v :: vst, s.radix)) := rfl
      rw [h1]
      dsimp only
      cases ost with
      | nil => rfl
      | cons f os =>
        dsimp only
        rw [hf f rfl, if_neg (by decide)]
  | _ => rfl

end

/-- The operators waiting do not take the operands of `e` for themselves. -/
def Blocks (ost : List Op) (e : Expr) : Prop :=
  ∀ t, ost.head? = some t →
    e.level < t.prec ∨ (e.level = t.prec ∧ e.side ≠ .left ∧ t.assoc ≠ .none)

theorem blocked_un {ost : List Op} {o : Op} {p : Prefix} (ho : IsUn o p) {e : Expr}
    (h : Blocks ost (.un p e)) :
    ∀ t, ost.head? = some t → t.isNoneAssoc o = false ∧ t.isHigher o = false := by
  intro t ht
  unfold Operator.isNoneAssoc Operator.isHigher
  rw [ho.prec, ho.assoc]
  simp only [Bool.and_eq_false_iff, decide_eq_false_iff_not, Bool.or_eq_false_iff]
  rcases h t ht with h | ⟨h1, h2, h3⟩
  · have h' : p.level < t.prec := h
    exact ⟨.inl (by omega), by omega, .inl (by omega)⟩
  · have h' : p.level = t.prec := h1
    exact ⟨.inr h3, by omega, .inr (by decide)⟩

theorem assocOf_left {s : Side} (h : s ≠ .left) : assocOf s ≠ .left := by
  cases s <;> first | exact absurd rfl h | (intro h; cases h)

theorem assocOf_none {s : Side} (h : s ≠ .none) : assocOf s ≠ .none := by
  cases s <;> first | exact absurd rfl h | (intro h; cases h)

theorem blocked_bin {ost : List Op} {o : Op} {q : Infix} (ho : IsBin o q) {l r : Expr}
    (h : Blocks ost (.bin q l r)) :
    ∀ t, ost.head? = some t → t.isNoneAssoc o = false ∧ t.isHigher o = false := by
  intro t ht
  unfold Operator.isNoneAssoc Operator.isHigher
  rw [ho.prec, ho.assoc]
  simp only [Bool.and_eq_false_iff, decide_eq_false_iff_not, Bool.or_eq_false_iff]
  rcases h t ht with h | ⟨h1, h2, h3⟩
  · have h' : q.level < t.prec := h
    exact ⟨.inl (by omega), by omega, .inl (by omega)⟩
  · have h' : q.level = t.prec := h1
    exact ⟨.inr h3, by omega, .inr (assocOf_left h2)⟩

theorem blocks_left {ost : List Op} {q : Infix} {l r : Expr} (h : Blocks ost (.bin q l r))
    (hl : l.Before q) : Blocks ost l := by
  intro t ht
  rcases h t ht with h | ⟨h1, h2, h3⟩
  · have h' : q.level < t.prec := h
    left
    rcases hl with hl | ⟨hl, _⟩ <;> omega
  · have h' : q.level = t.prec := h1
    left
    rcases hl with hl | ⟨_, hl⟩
    · omega
    · exact absurd hl h2

theorem blocks_right {ost : List Op} {o : Op} {q : Infix} (ho : IsBin o q) {r : Expr}
    (h : r.After q.level q.side) : Blocks (o :: ost) r := by
  intro t ht
  injection ht with ht
  subst ht
  rw [ho.prec, ho.assoc]
  rcases h with h | ⟨h1, h2, h3⟩
  · exact .inl h
  · exact .inr ⟨h1, h2, assocOf_none h3⟩

theorem blocks_un {ost : List Op} {o : Op} {p : Prefix} (ho : IsUn o p) {e : Expr}
    (h : e.After p.level .right) : Blocks (o :: ost) e := by
  intro t ht
  injection ht with ht
  subst ht
  rw [ho.prec, ho.assoc]
  rcases h with h | ⟨h1, h2, h3⟩
  · exact .inl h
  · exact .inr ⟨h1, h2, by decide⟩

theorem blocks_paren {ost : List Op} {n : Nat} (e : Expr) (h : e.level ≤ 15) :
    Blocks (Operator.paren n :: ost) e := by
  intro t ht
  injection ht with ht
  subst ht
  left
  show e.level < 254
  omega

/-- Which pending operators an infix operator reduces. -/
theorem reduced {N : Notation} (hS : Sane N) {o : Op} {q : Infix} (hq : q ∈ N.infixes)
    (ho : IsBin o q) {l : Expr} {t : Op} (hl : l.Before q) (ht : t.prec ≤ l.level)
    (hk : (∃ p ∈ N.prefixes, IsUn t p) ∨ ∃ q ∈ N.infixes, IsBin t q) :
    t.isNoneAssoc o = false ∧ t.isHigher o = true := by
  unfold Operator.isNoneAssoc Operator.isHigher
  rw [ho.prec, ho.assoc]
  simp only [Bool.and_eq_false_iff, decide_eq_false_iff_not, Bool.or_eq_true, decide_eq_true_eq,
    Bool.and_eq_true]
  have hlt : t.prec < q.level → _ ∧ _ := fun h =>
    (⟨.inl (by omega), .inl h⟩ : (¬ t.prec = q.level ∨ ¬ t.assoc = .none) ∧
      (t.prec < q.level ∨ t.prec = q.level ∧ assocOf q.side = .left))
  rcases hl with hl | ⟨hl, hside⟩
  · exact hlt (by omega)
  · rcases Nat.lt_or_ge t.prec q.level with h | h
    · exact hlt h
    · have heq : t.prec = q.level := by omega
      refine ⟨.inr ?_, .inr ⟨heq, by rw [hside]; rfl⟩⟩
      rcases hk with ⟨p, hp, hu⟩ | ⟨r, hr, hb⟩
      · rw [hu.assoc]; decide
      · rw [hb.assoc]
        exact assocOf_none (hS.left q hq hside r hr (by rw [← hb.prec, heq]))

theorem tokenStart_fin {delim : Char} (hd : ¬ TokenStart delim) {s : St Value}
    (hs : Ready delim s) {c : Char} (hc : TokenStart c) (h0 : c ≠ '\x00') : c ≠ s.endOfExpr := by
  rw [hs.fin]
  split
  · rintro rfl; exact hd hc
  · exact h0

theorem sep_blanks {sp t : Scan} (hsp : ∀ c ∈ sp, Blank c) (ht : sp = [] → Sep t) :
    Sep (sp ++ t) := by
  cases sp with
  | nil => exact ht rfl
  | cons c u =>
    intro d hd
    injection hd with hd
    subst hd
    have hb := hsp c (List.mem_cons_self ..)
    unfold Blank at hb
    refine ⟨?_, ?_, ?_⟩
    · intro h; have := letter_toNat h; omega
    · intro h; unfold IsDecimal at h; omega
    · intro h
      simp only [List.mem_cons, List.not_mem_nil, or_false] at h
      rcases h with rfl | rfl | rfl | rfl | rfl <;> revert hb <;> decide

theorem letter_start {c : Char} (hc : IsLetter c) : Start c := by
  have ha : Atom c := .inl hc
  exact ⟨.inl hc, atom_space ha, atom_ne ha _ (by decide), atom_ne ha _ (by decide)⟩

section
variable {P : Plugins Value} {N : Notation} {loc : Nat} {pre inf : Read} (L : Lex P N loc pre inf)
include L

/-- A constant. -/
theorem outcome_const (hd : ¬ TokenStart P.delimitor) {s : St Value} (hs : Ready P.delimitor s)
    {e : Expr} {c : Char} {t rest : Scan} {v : Value} (hc : Start c)
    (hsk : skipSpaces s.scan = c :: t) (hpre : pre (c :: t) = none)
    (hp : P.parseConstant (c :: t) .r10 = (.OK, v, rest))
    (hl : s.vst.length < 8) (h1 : 1 ≤ e.values) :
    Outcome N P e (.ok (s.err, some v)) s rest := by
  have hst := step_const L hsk hc.nul hc.semi (tokenStart_fin hd hs hc.token hc.nul) hs.pre hs.err
    hpre (by rw [hs.radix]; exact hp) hl
  refine .inl ⟨s.err, [], [v], .ok (.ok v), .operand :: s.trace, .step hst (.refl _), .nil v, h1,
    ?_, ?_, hs.err, rfl⟩
  · intro o ho; cases ho
  · intro o ho; cases ho

/-- A name. -/
theorem outcome_name (hd : ¬ TokenStart P.delimitor) {s : St Value} (hs : Ready P.delimitor s)
    {name rest : Scan} (hn : N.IsName name) (hf : P.lookupFunction name = none)
    (hsk : skipSpaces s.scan = name ++ rest) (hsep : Sep rest) (hl : s.vst.length < 8) :
    Outcome N P (.sym name) (mean P.lookupSymbol P.lookupFunction loc (.sym name) s.err) s rest := by
  obtain ⟨c, t, hname, hc⟩ := name_head hn.1
  have ha : Start c := letter_start hc
  have hsk' : skipSpaces s.scan = c :: (t ++ rest) := by rw [hsk, hname]; rfl
  obtain ⟨hpre, ⟨v, hv⟩, hrd, hrs⟩ := L.name name rest hn hsep
  have hst := step_pre L hsk' ha.nul ha.semi (tokenStart_fin hd hs ha.token ha.nul) hs.pre hs.err
  have hcat : c :: (t ++ rest) = name ++ rest := by rw [hname]; rfl
  rw [hcat, hpre] at hst
  dsimp only at hst
  unfold stepOperand at hst
  rw [hs.radix, hv] at hst
  dsimp only at hst
  rw [hrd] at hst
  dsimp only at hst
  rw [hf] at hst
  dsimp only at hst
  unfold stepSymbol at hst
  rw [hrs] at hst
  dsimp only at hst
  rw [if_neg (show ¬ s.vst.length ≥ capacity by show ¬ s.vst.length ≥ 8; omega)] at hst
  have hpush : ∀ v : Value, push v s.vst = .ok (v :: s.vst) := by
    intro v; unfold push; exact if_pos hl
  rw [hpush] at hst
  unfold mean
  cases hv : P.lookupSymbol name with
  | some v =>
    rw [hv] at hst
    dsimp only at hst
    rw [hpush] at hst
    refine .inl ⟨s.err, [], [v], .ok (.ok v), .operand :: s.trace, .step hst (.refl _), .nil v,
      Nat.le_refl _, ?_, ?_, hs.err, rfl⟩
    · intro o ho; cases ho
    · intro o ho; cases ho
  | none =>
    rw [hv] at hst
    rw [← L.undef]
    refine .inl ⟨setErrorIf s.err .UNDEFINED_SYMBOL, [], [P.undef],
      .ok (.ok P.undef), .operand :: s.trace, .step hst (.refl _), .nil _,
      Nat.le_refl _, ?_, ?_, ?_, rfl⟩
    · intro o ho; cases ho
    · intro o ho; cases ho
    · have := hs.err
      unfold setErrorIf
      split
      · rfl
      · exact this

theorem writes_eq (hne : ∀ {e t}, Writes N e t → t ≠ []) {taken : List Char → Prop} {e : Expr}
    {t : Scan} (h : Writes N e t) : e.Fits taken → t.head? ≠ some '=' := by
  have hnil : Sep [] := by intro c hc; cases hc
  induction h with
  | num n t h =>
    intro hf
    obtain ⟨c, u, rfl, hc, _⟩ := L.number n t [] h hf hnil
    simpa using hc.2
  | char x t h =>
    intro hf
    obtain ⟨c, u, rfl, hc, _⟩ := L.letter x t [] h hnil
    simpa using hc.2
  | here c hc => intro hf; simpa using (L.here c hc [] hnil).1.2
  | sym name h =>
    intro hf
    obtain ⟨c, u, rfl, hc⟩ := name_head h.1
    intro h0
    rw [List.head?_cons, Option.some.injEq] at h0
    subst h0
    exact absurd hc (by decide)
  | paren => intro hf; simp
  | un p e w t hp hw h hends ih =>
    intro hf
    obtain ⟨c, u, rfl, hc⟩ := L.preHead p hp w hw
    simpa using hc.2
  | bin q l r tl sp w tr hq hw hl hsp hs hr he ihl ihr =>
    intro hf
    have := ihl hf.1
    cases htl : tl with
    | nil => exact absurd htl (hne hl)
    | cons c u => rw [htl] at this; simpa using this
  | call name n args sp texts blanks hn =>
    intro hf
    obtain ⟨c, u, rfl, hc⟩ := name_head hn.1
    intro h0
    rw [List.cons_append, List.cons_append, List.head?_cons, Option.some.injEq] at h0
    subst h0
    exact absurd hc (by decide)
  | blank e c t hc h ih =>
    intro hf h0
    rw [List.head?_cons, Option.some.injEq] at h0
    subst h0
    exact absurd hc (by decide)

/-- The name of a function and its opening parenthesis. -/
theorem step_fn (hd : ¬ TokenStart P.delimitor) {s : St Value} (hs : Ready P.delimitor s)
    {name sp rest : Scan} (hn : N.IsName name) (hsp : ∀ c ∈ sp, Blank c) {nargs : Int}
    {f : List Value → Out (Except Err Value)} (hf : P.lookupFunction name = some (nargs, f))
    (hsk : skipSpaces s.scan = name ++ (sp ++ '(' :: rest)) (hl : s.ost.length + 2 ≤ 8) :
    Run P s { s with
      scan := rest, ost := Operator.paren s.vst.length :: Operator.function nargs f :: s.ost
      endOfExpr := '\x00', inParen := s.inParen + 1, inFnArgs := s.inFnArgs + 1
      trace := .opening :: .fn :: s.trace } := by
  obtain ⟨c, t, hname, hc⟩ := name_head hn.1
  have ha : Start c := letter_start hc
  have hsep : Sep (sp ++ '(' :: rest) := sep_blanks hsp (by
    intro _ d hd; injection hd with hd; subst hd; decide)
  have hsk' : skipSpaces s.scan = c :: (t ++ (sp ++ '(' :: rest)) := by rw [hsk, hname]; rfl
  obtain ⟨hpre, ⟨v, hv⟩, hrd, -⟩ := L.name name _ hn hsep
  have hst := step_pre L hsk' ha.nul ha.semi (tokenStart_fin hd hs ha.token ha.nul) hs.pre hs.err
  have hcat : c :: (t ++ (sp ++ '(' :: rest)) = name ++ (sp ++ '(' :: rest) := by rw [hname]; rfl
  rw [hcat, hpre] at hst
  dsimp only at hst
  unfold stepOperand at hst
  rw [hs.radix, hv] at hst
  dsimp only at hst
  rw [hrd] at hst
  dsimp only at hst
  rw [hf] at hst
  dsimp only at hst
  rw [skip_blanks hsp, skip_cons (by decide),
    show P.ops.isOpen ('(' :: rest) = some rest by rw [L.ops]; rfl] at hst
  dsimp only at hst
  rw [if_pos (show s.ost.length < capacity by show s.ost.length < 8; omega)] at hst
  refine .step hst ?_
  generalize hs1 : ({ s with
    scan := '(' :: rest, ost := Operator.function nargs f :: s.ost
    maybePrefix := false, expectFnArgs := true, inFnArgs := s.inFnArgs + 1
    radix := .r10, trace := .fn :: s.trace } : St Value) = s1
  have hst1 : step P s1 = .ok (.cont { s with
      scan := rest, ost := Operator.paren s.vst.length :: Operator.function nargs f :: s.ost
      endOfExpr := '\x00', inParen := s.inParen + 1, inFnArgs := s.inFnArgs + 1
      trace := .opening :: .fn :: s.trace }) := by
    rw [step_inf L (s := s1) (c := '(') (t := rest) (by subst hs1; exact skip_cons (by decide))
      (by decide) (by decide)
      (by subst hs1; exact tokenStart_fin hd hs (.inr (.inr (by decide))) (by decide))
      (by subst hs1; rfl) (by subst hs1; exact hs.err), L.infOpen]
    dsimp only
    unfold stepPunct
    rw [show (if s1.inFnArgs > 0 then expect ',' ('(' :: rest) else none) = none by split <;> rfl]
    dsimp only
    rw [show P.ops.isOpen ('(' :: rest) = some rest by rw [L.ops]; rfl]
    dsimp only
    rw [if_neg (by subst hs1; simp),
      if_neg (show ¬ s1.ost.length ≥ capacity by
        subst hs1; show ¬ s.ost.length + 1 ≥ 8; omega)]
    subst hs1
    have e1 := hs.pre
    have e2 := hs.noCall
    have e3 := hs.radix
    cases s
    dsimp only at e1 e2 e3
    rw [e1, e2, e3]
  exact .step hst1 (.refl _)

/-- A comma after an argument. -/
theorem step_comma {s : St Value} {rest : Scan} (hsk : skipSpaces s.scan = ',' :: rest)
    (hce : ',' ≠ s.endOfExpr) (hm : s.maybePrefix = false) (he : hasError s.err = false)
    (hfn : 0 < s.inFnArgs) (hinf : inf (',' :: rest) = none)
    {O ost : List Op} {V vst : List Value} {n : Nat}
    {x : Out (Except Err Value)} (hO : s.ost = O ++ Operator.paren n :: ost) (hV : s.vst = V ++ vst)
    (hp : Pend O V x) (hq : ∀ o ∈ O, o.isOpenParen = false) (hl : (V ++ vst).length ≤ 8) :
    step P s = x.bind fun
      | .error e => .ok (.ret { s with scan := rest, err := setErrorIf s.err e } P.undef)
      | .ok v => .ok (.cont { s with
        scan := rest, vst := v :: vst, ost := Operator.paren n :: ost, maybePrefix := true
        trace := .comma :: s.trace }) := by
  rw [step_inf L hsk (by decide) (by decide) hce hm he]
  rw [hinf]
  dsimp only
  unfold stepPunct
  rw [show (if s.inFnArgs > 0 then expect ',' (',' :: rest) else none) = some rest by
    rw [if_pos hfn]; rfl]
  dsimp only
  rw [hO, hV, pend_reduce P
    (reduceComma P) (fun o => o.isOpenParen = false)
    (fun t os st r ht => (show _ = _ by
      conv => lhs; unfold reduceComma
      rw [ht, if_neg (by decide)]
      cases evalOp P t st r 0 with
      | ok a => cases a <;> rfl
      | _ => rfl)) hp hq _ _ _ hl]
  cases x with
  | ok a =>
    cases a with
    | error e => rfl
    | ok v => rfl
  | _ => rfl

/-- A function looks at its arguments only. -/
def Local (nargs : Int) (f : List Value → Out (Except Err Value)) : Prop :=
  0 ≤ nargs ∧ ∀ vs st : List Value, (vs.length : Int) = nargs → f (vs ++ st) = f vs

omit L in
theorem evalOp_fn {nargs : Int} {f : List Value → Out (Except Err Value)} (hf : Local nargs f)
    {D vst : List Value} {r : Radix} (hD : D ≠ []) (hl : (D ++ vst).length ≤ 8) :
    evalOp P (Operator.function nargs f) (D ++ vst) r ((D ++ vst).length - vst.length) =
      (callFn nargs f D.reverse).bind fun
        | .error e => .ok (.error e)
        | .ok w => .ok (.ok (w :: vst, r)) := by
  have hpos : 0 < D.length := List.length_pos_iff.mpr hD
  rw [List.length_append] at hl
  have hargc : (((D ++ vst).length : Nat) : Int) - vst.length = D.length := by
    rw [List.length_append]; omega
  rw [hargc]
  unfold evalOp Operator.eval callFn
  dsimp only
  rw [if_neg (show ¬ (D.length : Int) = 0 by omega)]
  show (if nargs < 0 ∨ (D.length : Int) = nargs then _ else _) = _
  rw [List.length_reverse]
  by_cases h : nargs < 0 ∨ (D.length : Int) = nargs
  · rw [if_pos h, if_pos h, List.reverse_reverse]
    have h' : (D.length : Int) = nargs := by
      rcases h with h | h
      · have := hf.1; omega
      · exact h
    rw [hf.2 D vst h', show ((D.length : Int) % 256).toNat = D.length by omega,
      List.drop_left]
    cases f D with
    | ok a =>
      cases a with
      | error e => rfl
      | ok w =>
        show Out.bind (Out.bind (push w vst) _) _ = _
        rw [show push w vst = .ok (w :: vst) from if_pos (show vst.length < 8 by omega)]
        rfl
    | _ => rfl
  · rw [if_neg h, if_neg h]
    rfl

/-- The closing parenthesis of a function. -/
theorem step_close_fn {s : St Value} {rest : Scan} (hsk : skipSpaces s.scan = ')' :: rest)
    (hce : ')' ≠ s.endOfExpr) (hm : s.maybePrefix = false) (he : hasError s.err = false)
    {O ost : List Op} {V D vst : List Value} {nargs : Int}
    {f : List Value → Out (Except Err Value)} (hf : Local nargs f)
    {x : Out (Except Err Value)}
    (hO : s.ost = O ++ Operator.paren vst.length :: Operator.function nargs f :: ost)
    (hV : s.vst = V ++ (D ++ vst))
    (hp : Pend O V x) (hq : ∀ o ∈ O, o.isOpenParen = false) (hl : (V ++ (D ++ vst)).length ≤ 8) :
    step P s = x.bind fun
      | .error e => .ok (.ret { s with scan := rest, err := setErrorIf s.err e } P.undef)
      | .ok v => (callFn nargs f (D.reverse ++ [v])).bind fun
        | .error e => .ok (.ret { s with
          scan := rest, vst := v :: (D ++ vst), ost := Operator.function nargs f :: ost
          err := setErrorIf s.err e } P.undef)
        | .ok w => .ok (.cont { s with
          scan := rest, vst := w :: vst, ost := ost, inParen := s.inParen - 1, maybePrefix := false
          endOfExpr := if s.inParen - 1 = 0 then P.delimitor else s.endOfExpr
          inFnArgs := s.inFnArgs - 1
          trace := .closing :: s.trace }) := by
  rw [step_inf L hsk (by decide) (by decide) hce hm he]
  rw [L.infClose]
  dsimp only
  unfold stepPunct
  rw [show (if s.inFnArgs > 0 then expect ',' (')' :: rest) else none) = none by split <;> rfl]
  dsimp only
  rw [show P.ops.isOpen (')' :: rest) = none by rw [L.ops]; rfl]
  dsimp only
  rw [show P.ops.isClose (')' :: rest) = some rest by rw [L.ops]; rfl]
  dsimp only
  rw [hO, hV, pend_reduce P
    (reduceClose P) (fun o => o.isOpenParen = false)
    (fun t os st r ht => (reduceClose_step _ ht os st r).trans (by
      cases evalOp P t st r 0 with
      | ok a => cases a <;> rfl
      | _ => rfl)) hp hq _ _ _ hl]
  cases x with
  | ok a =>
    cases a with
    | error e => rfl
    | ok v =>
      dsimp only [Out.bind]
      have hpos := pend_pos hp
      have h1 : reduceClose P (Operator.paren vst.length :: Operator.function nargs f :: ost)
        (v :: (D ++ vst)) s.radix = .ok (.ok (Operator.paren vst.length ::
          Operator.function nargs f :: ost, v :: (D ++ vst), s.radix)) := rfl
      rw [h1]
      dsimp only
      rw [if_pos (show (Operator.function nargs f).isFunction = true from rfl)]
      have h2 := evalOp_fn (P := P) hf (D := v :: D) (vst := vst) (r := s.radix) (by simp) (by
        rw [List.length_append] at hl
        rw [List.cons_append, List.length_cons]; omega)
      rw [List.cons_append, List.reverse_cons] at h2
      show Out.bind (evalOp P (Operator.function nargs f) (v :: (D ++ vst)) s.radix
        ((v :: (D ++ vst)).length - vst.length)) _ = _
      rw [h2]
      cases callFn nargs f (D.reverse ++ [v]) with
      | ok a => cases a <;> rfl
      | _ => rfl
  | _ => rfl

/-- An argument of a function: what it means, its text, the blanks after it and what it takes of
the stacks. -/
structure Arg where
  m : Err → Out (Err × Option Value)
  t : Scan
  sp : Scan
  vals : Nat
  ops : Nat

/-- The argument is read where it stands. -/
structure ReadsArg (P : Plugins Value) (a : Arg) : Prop where
  blanks : ∀ c ∈ a.sp, Blank c
  reads : ∀ (s : St Value) (rest : Scan), Ready P.delimitor s →
    skipSpaces s.scan = skipSpaces (a.t ++ rest) → Sep rest →
    (∃ n os, s.ost = Operator.paren n :: os) →
    s.vst.length + a.vals ≤ 8 → s.ost.length + a.ops ≤ 8 →
    (∃ err O V x tr,
      Run P s { s with
        scan := rest, ost := O ++ s.ost, vst := V ++ s.vst, maybePrefix := false, err := err
        trace := tr } ∧
      Pend O V x ∧ V.length ≤ a.vals ∧ (∀ o ∈ O, o.isOpenParen = false) ∧
      hasError err = false ∧ a.m s.err = Eval.mean.settle err x) ∨
    Fails P s (a.m s.err)

theorem args_run (hcomma : ∀ t, inf (',' :: t) = none) {nargs : Int}
    {f : List Value → Out (Except Err Value)} (hf : Local nargs f) (ost : List Op)
    (vst : List Value) (p k : Nat) (rest : Scan) :
    ∀ (l : List Arg), l ≠ [] → (∀ a ∈ l, ReadsArg P a) → ∀ (s : St Value) (D : List Value),
    Ready P.delimitor s →
    skipSpaces s.scan = skipSpaces (argsText (l.map fun a => a.t ++ a.sp) ++ rest) →
    s.ost = Operator.paren vst.length :: Operator.function nargs f :: ost →
    s.vst = D ++ vst → s.inParen = p + 1 → s.inFnArgs = k + 1 →
    s.vst.length + pending (l.map Arg.vals) ≤ 8 →
    (∀ a ∈ l, s.ost.length + a.ops ≤ 8) →
    (∃ err v tr, Run P s { s with
        scan := rest, ost := ost, vst := v :: vst, maybePrefix := false, err := err
        inFnArgs := k, inParen := p, endOfExpr := if p = 0 then P.delimitor else '\x00'
        trace := tr } ∧ hasError err = false ∧
      meanArgs (l.map Arg.m) s.err (fun vs err =>
        Eval.mean.settle err (callFn nargs f (D.reverse ++ vs))) = .ok (err, some v)) ∨
    Fails P s (meanArgs (l.map Arg.m) s.err (fun vs err =>
        Eval.mean.settle err (callFn nargs f (D.reverse ++ vs)))) := by
  intro l
  induction l with
  | nil => intro h; exact absurd rfl h
  | cons a l ih =>
    intro _ hall s D hs hsk host hvst hpar hfn hv ho
    have ha := hall a (List.mem_cons_self ..)
    obtain ⟨d, r1, hd, htext⟩ : ∃ d r1, (d = ',' ∧ l ≠ [] ∧
        r1 = argsText (l.map fun a => a.t ++ a.sp) ++ rest ∨ d = ')' ∧ l = [] ∧ r1 = rest) ∧
        argsText ((a :: l).map fun a => a.t ++ a.sp) ++ rest = a.t ++ (a.sp ++ d :: r1) := by
      cases l with
      | nil => exact ⟨')', rest, .inr ⟨rfl, rfl, rfl⟩, by simp [argsText]⟩
      | cons b l => exact ⟨',', _, .inl ⟨rfl, by simp, rfl⟩, by simp [argsText]⟩
    rw [htext] at hsk
    have hsep : Sep (a.sp ++ d :: r1) := sep_blanks ha.blanks (by
      intro _ c hc; injection hc with hc; subst hc
      rcases hd with ⟨rfl, _⟩ | ⟨rfl, _⟩ <;> decide)
    have hpend : pending ((a :: l).map Arg.vals) = max a.vals (1 + pending (l.map Arg.vals)) := rfl
    rw [hpend] at hv
    have hR := ha.reads s _ hs hsk hsep ⟨_, _, host⟩ (by omega) (ho a (List.mem_cons_self ..))
    have hm : meanArgs ((a :: l).map Arg.m) s.err (fun vs err =>
        Eval.mean.settle err (callFn nargs f (D.reverse ++ vs))) = (a.m s.err).bind fun
      | (err, none) => .ok (err, none)
      | (err, some v) => meanArgs (l.map Arg.m) err (fun vs err =>
        Eval.mean.settle err (callFn nargs f ((v :: D).reverse ++ vs))) := by
      show Out.bind _ _ = _
      congr 1
      funext x
      rcases x with ⟨err, _ | v⟩
      · rfl
      · dsimp only
        congr 1
        funext vs err
        rw [List.reverse_cons, List.append_assoc]; rfl
    rw [hm]
    rcases hR with ⟨err, O, V, x, tr, hrun, hpd, hlen, hop, herr, hmean⟩ | hfail
    · rw [hmean]
      generalize hM : Out.bind (Eval.mean.settle err x) _ = M
      generalize hs2 : ({ s with
        scan := a.sp ++ d :: r1, ost := O ++ s.ost, vst := V ++ s.vst
        maybePrefix := false, err := err, trace := tr } : St Value) = s2 at hrun
      have hdsp : isSpace d = false := by rcases hd with ⟨rfl, _⟩ | ⟨rfl, _⟩ <;> decide
      have hsk2 : skipSpaces s2.scan = d :: r1 := by
        subst hs2
        show skipSpaces (a.sp ++ d :: r1) = _
        rw [skip_blanks ha.blanks, skip_cons hdsp]
      have hend : s.endOfExpr = '\x00' := by rw [hs.fin, hpar, if_neg (by omega)]
      have hll : (V ++ (D ++ vst)).length ≤ 8 := by
        rw [← hvst, List.length_append]; omega
      rcases hd with ⟨rfl, hl, hr1⟩ | ⟨rfl, hl, hr1⟩
      · have hst := step_comma L hsk2
          (by subst hs2; show ',' ≠ s.endOfExpr; rw [hend]; decide) (by subst hs2; rfl)
          (by subst hs2; exact herr) (by subst hs2; show 0 < s.inFnArgs; omega) (hcomma _)
          (O := O) (V := V) (vst := D ++ vst) (n := vst.length)
          (ost := Operator.function nargs f :: ost)
          (by subst hs2; show O ++ s.ost = _; rw [host])
          (by subst hs2; show V ++ s.vst = _; rw [hvst]) hpd hop hll
        rcases fails_reduce hst (by intro e; subst hs2; rfl) (h := fun err v =>
          meanArgs (l.map Arg.m) err (fun vs err =>
            Eval.mean.settle err (callFn nargs f ((v :: D).reverse ++ vs)))) (hM.symm.trans (by
            cases Eval.mean.settle err x with
            | ok a => rcases a with ⟨a, _ | b⟩ <;> rfl
            | _ => rfl)) with ⟨v, hx, hstep, hmm⟩ | hfail
        · rw [hmm]
          generalize hs3 : ({ s2 with
            scan := r1, vst := v :: (D ++ vst)
            ost := Operator.paren vst.length :: Operator.function nargs f :: ost
            maybePrefix := true, trace := .comma :: s2.trace } : St Value) = s3 at hstep
          have hlen3 : s3.ost.length = s.ost.length := by subst hs3; rw [host]
          have := ih hl (fun b hb => hall b (List.mem_cons_of_mem _ hb)) s3 (v :: D)
            (by
              subst hs3; subst hs2
              exact ⟨rfl, hs.noCall, hs.radix, herr, hs.fin, by
                intro o ho; injection ho with ho; subst ho; rfl⟩)
            (by subst hs3; rw [← hr1]) (by subst hs3; rfl) (by subst hs3; rfl)
            (by subst hs3; subst hs2; exact hpar) (by subst hs3; subst hs2; exact hfn)
            (by
              subst hs3
              show (D ++ vst).length + 1 + _ ≤ 8
              rw [← hvst]; omega)
            (fun b hb => by rw [hlen3]; exact ho b (List.mem_cons_of_mem _ hb))
          have he3 : s3.err = err := by subst hs3; subst hs2; rfl
          rw [he3] at this
          rcases this with ⟨err4, v4, tr4, hrun4, herr4, hm4⟩ | hfail
          · refine .inl ⟨err4, v4, tr4, hrun.trans (.step hstep ?_), herr4, hm4⟩
            subst hs3; subst hs2
            have e1 := hs.noCall
            exact hrun4
          · exact .inr (Fails.run (hrun.trans (.step hstep (.refl _))) hfail)
        · exact .inr (Fails.run hrun hfail)
      · subst hl
        subst hr1
        have hst := step_close_fn L hsk2
          (by subst hs2; show ')' ≠ s.endOfExpr; rw [hend]; decide) (by subst hs2; rfl)
          (by subst hs2; exact herr) hf
          (O := O) (V := V) (D := D) (vst := vst) (ost := ost)
          (by subst hs2; show O ++ s.ost = _; rw [host])
          (by subst hs2; show V ++ s.vst = _; rw [hvst]) hpd hop hll
        rcases fails_reduce hst (by intro e; subst hs2; rfl) (h := fun err v =>
            Eval.mean.settle err (callFn nargs f (D.reverse ++ [v]))) (hM.symm.trans (by
            cases Eval.mean.settle err x with
            | ok a =>
              rcases a with ⟨a, _ | b⟩
              · rfl
              · dsimp only [Out.bind]
                show Eval.mean.settle a (callFn nargs f ((b :: D).reverse ++ [])) = _
                rw [List.append_nil, List.reverse_cons]
            | _ => rfl)) with ⟨v, hx, hstep, hmm⟩ | hfail
        · rcases fails_reduce (g := fun e => { s2 with
              scan := r1, vst := v :: (D ++ vst), ost := Operator.function nargs f :: ost
              err := setErrorIf s2.err e }) (err := err) hstep (by intro e; subst hs2; rfl)
              (h := fun err w => .ok (err, some w)) (hmm.trans (by
                cases Eval.mean.settle err _ with
                | ok a => rcases a with ⟨a, _ | b⟩ <;> rfl
                | _ => rfl)) with ⟨w, hw, hstep2, hmw⟩ | hfail
          · refine .inl ⟨err, w, .closing :: s2.trace, hrun.trans (.step hstep2 ?_), herr, hmw⟩
            subst hs2
            dsimp only
            rw [hpar, hfn, hend]
            exact .refl _
          · exact .inr (Fails.run hrun hfail)
        · exact .inr (Fails.run hrun hfail)
    · right
      exact fails_bind hfail (fun err v => meanArgs (l.map Arg.m) err (fun vs err =>
        Eval.mean.settle err (callFn nargs f ((v :: D).reverse ++ vs))))

theorem reads (hS : Sane N) (hne : ∀ {e t}, Writes N e t → t ≠ []) (hd : ¬ TokenStart P.delimitor)
    (hlocal : ∀ name nargs f, P.lookupFunction name = some (nargs, f) → Local nargs f)
    {e : Expr} {t : Scan} (hw : Writes N e t) :
    ∀ (s : St Value) (rest : Scan), Ready P.delimitor s →
    skipSpaces s.scan = skipSpaces (t ++ rest) →
    Sep rest → e.Grouped → e.Fits (fun n => P.lookupFunction n ≠ none) → Blocks s.ost e →
    s.vst.length + e.values ≤ 8 → s.ost.length + e.operators ≤ 8 →
    Outcome N P e (mean P.lookupSymbol P.lookupFunction loc e s.err) s rest := by
  induction hw with
  | num n t h =>
    intro s rest hs hsk hsep hg hf hb hv ho
    obtain ⟨c, u, rfl, ⟨hc, _⟩, h1, h2⟩ := L.number n t rest h hf hsep
    rw [List.cons_append, skip_cons hc.space] at hsk
    exact outcome_const L hd hs hc hsk h1 h2 (by
      have : s.vst.length + 1 ≤ 8 := hv
      omega) (Nat.le_refl _)
  | char x t h =>
    intro s rest hs hsk hsep hg hf hb hv ho
    obtain ⟨c, u, rfl, ⟨hc, _⟩, h1, h2⟩ := L.letter x t rest h hsep
    rw [List.cons_append, skip_cons hc.space] at hsk
    exact outcome_const L hd hs hc hsk h1 h2 (by
      have : s.vst.length + 1 ≤ 8 := hv
      omega) (Nat.le_refl _)
  | here c hc =>
    intro s rest hs hsk hsep hg hf hb hv ho
    obtain ⟨⟨hc, _⟩, h1, h2⟩ := L.here c hc rest hsep
    rw [List.singleton_append, skip_cons hc.space] at hsk
    exact outcome_const L hd hs hc hsk h1 h2 (by
      have : s.vst.length + 1 ≤ 8 := hv
      omega) (Nat.le_refl _)
  | sym name h =>
    intro s rest hs hsk hsep hg hf hb hv ho
    obtain ⟨c, u, hname, hc⟩ := name_head h.1
    refine outcome_name L hd hs h (Decidable.not_not.mp hf) ?_ hsep (by
      have : s.vst.length + 1 ≤ 8 := hv
      omega)
    rw [hsk, hname, List.cons_append, skip_cons (letter_start hc).space]
  | blank e c t hc h ih =>
    intro s rest hs hsk hsep hg hf hb hv ho
    rw [List.cons_append, skip_blank (blank_space.mp hc)] at hsk
    exact ih s rest hs hsk hsep hg hf hb hv ho
  | un p e w t hp hw h hends ih =>
    intro s rest hs hsk hsep hg hf hb hv ho
    obtain ⟨c, u, hc, hstart, _⟩ := L.preHead p hp w hw
    obtain ⟨o, hop, hread⟩ := L.preText p hp w t hw hends (hne h) (writes_eq L hne h hf) rest
    have hsk' : skipSpaces s.scan = c :: (u ++ (t ++ rest)) := by
      rw [hsk, hc, List.append_assoc, List.cons_append, skip_cons hstart.space]
    have hst := step_pre L hsk' hstart.nul hstart.semi
      (tokenStart_fin hd hs hstart.token hstart.nul) hs.pre hs.err
    have hcat : c :: (u ++ (t ++ rest)) = w ++ (t ++ rest) := by rw [hc]; rfl
    rw [hcat, hread] at hst
    dsimp only at hst
    unfold stepOperator at hst
    rw [reduceInfix_blocked _ (blocked_un hop hb)] at hst
    dsimp only [Out.bind] at hst
    have ho' : s.ost.length + (1 + e.operators) ≤ 8 := ho
    rw [if_neg (show ¬ s.ost.length ≥ capacity by show ¬ s.ost.length ≥ 8; omega)] at hst
    have := ih { s with
        scan := t ++ rest, ost := o :: s.ost, maybePrefix := true
        trace := (if s.maybePrefix then Tok.prefix else .infix) :: s.trace } rest
      ⟨rfl, hs.noCall, hs.radix, hs.err, hs.fin, by
        intro x hx
        injection hx with hx
        subst hx
        unfold Operator.isFunction; rw [hop.kind]⟩ rfl hsep hg.2 hf (blocks_un hop hg.1) hv
      (by show s.ost.length + 1 + e.operators ≤ 8; omega)
    have hm : mean P.lookupSymbol P.lookupFunction loc (.un p e) s.err = (mean P.lookupSymbol P.lookupFunction loc e s.err).bind fun
      | (err, none) => .ok (err, none)
      | (err, some v) => Eval.mean.settle err (fnU p.does v) := rfl
    rw [hm]
    rcases this with ⟨err, O, V, x, tr, hrun, hpend, hlen, hprec, hkind, herr, hmean⟩ | hfail
    · refine .inl ⟨err, O ++ [o], V, thenE x (fnU p.does), tr, .step hst ?_, .un hop hpend, hlen, ?_,
        ?_, herr, ?_⟩
      · rw [List.append_assoc, List.singleton_append]
        exact hrun
      · intro y hy
        rcases List.mem_append.mp hy with hy | hy
        · have := hprec y hy
          show y.prec ≤ p.level
          rcases hg.1 with h | h <;> omega
        · rw [List.mem_singleton.mp hy, hop.prec]; exact Nat.le_refl _
      · intro y hy
        rcases List.mem_append.mp hy with hy | hy
        · exact hkind y hy
        · exact .inl ⟨p, hp, by rw [List.mem_singleton.mp hy]; exact hop⟩
      · rw [settle_then]
        show (mean P.lookupSymbol P.lookupFunction loc e s.err).bind _ = _
        have h2 : mean P.lookupSymbol P.lookupFunction loc e s.err = Eval.mean.settle err x := hmean
        rw [h2]
        cases Eval.mean.settle err x with
        | ok a => rcases a with ⟨a, _ | b⟩ <;> rfl
        | _ => rfl
    · right
      exact fails_bind (Fails.run (.step hst (.refl _)) hfail)
        (fun err v => Eval.mean.settle err (fnU p.does v))
  | paren e t sp h hsp ih =>
    intro s rest hs hsk hsep hg hf hb hv ho
    have hsk' : skipSpaces s.scan = '(' :: (t ++ (sp ++ ')' :: rest)) := by
      rw [hsk]
      show skipSpaces ('(' :: ((t ++ sp) ++ [')'] ++ rest)) = _
      rw [skip_cons (by decide), List.append_assoc, List.append_assoc]
      rfl
    have ho' : s.ost.length + (1 + e.operators) ≤ 8 := ho
    have hst := step_open L hsk'
      (tokenStart_fin hd hs (.inr (.inr (by decide))) (by decide)) hs.pre hs.err hs.radix
      (by omega)
    generalize hs1 : { s with
      scan := t ++ (sp ++ ')' :: rest), ost := Operator.paren s.vst.length :: s.ost
      endOfExpr := '\x00', inParen := s.inParen + 1, maybePrefix := true, expectFnArgs := false
      trace := .opening :: s.trace } = s1 at hst
    have hr1 : Ready P.delimitor s1 := by
      subst hs1
      refine ⟨rfl, rfl, hs.radix, hs.err, ?_, ?_⟩
      · show '\x00' = if s.inParen + 1 = 0 then P.delimitor else '\x00'
        rw [if_neg (by omega)]
      · intro x hx
        injection hx with hx
        subst hx
        rfl
    have hclose : Sep (sp ++ ')' :: rest) := sep_blanks hsp (by
      intro _ d hd; injection hd with hd; subst hd; decide)
    have := ih s1 (sp ++ ')' :: rest) hr1 (by subst hs1; rfl) hclose hg hf
      (by subst hs1; exact blocks_paren e (level_le hS (uses_writes h))) (by subst hs1; exact hv)
      (by subst hs1; show s.ost.length + 1 + e.operators ≤ 8; omega)
    have he1 : s1.err = s.err := by subst hs1; rfl
    rw [he1] at this
    show Outcome _ _ _ (mean P.lookupSymbol P.lookupFunction loc e s.err) s rest
    rcases this with ⟨err, O, V, x, tr, hrun, hpend, hlen, hprec, hkind, herr, hmean⟩ | hfail
    · generalize hs2 : { s1 with
        scan := sp ++ ')' :: rest, ost := O ++ s1.ost, vst := V ++ s1.vst, maybePrefix := false
        err := err, trace := tr } = s2 at hrun
      have hsk2 : skipSpaces s2.scan = ')' :: rest := by
        subst hs2
        show skipSpaces (sp ++ ')' :: rest) = _
        rw [skip_blanks hsp, skip_cons (by decide)]
      have hvv : V.length + s.vst.length ≤ 8 := by
        have : s.vst.length + e.values ≤ 8 := hv
        omega
      have hq : ∀ o ∈ O, o.isOpenParen = false := by
        intro o hoo
        have := hprec o hoo
        have := level_le hS (uses_writes h)
        exact not_paren (by omega)
      have hst2 := step_close L hsk2
        (by subst hs2; subst hs1; show ')' ≠ '\x00'; decide) (by subst hs2; rfl)
        (by subst hs2; exact herr)
        (O := O) (V := V) (vst := s.vst) (ost := s.ost) (n := s.vst.length)
        (by subst hs2; subst hs1; rfl) (by subst hs2; subst hs1; rfl) hpend hq
        (by rw [List.length_append]; exact hvv) hs.noFn
      have hm : mean P.lookupSymbol P.lookupFunction loc e s.err = (Eval.mean.settle err x).bind fun
          | (err, none) => .ok (err, none)
          | (err, some v) => .ok (err, some v) := by
        rw [hmean]
        cases x with
        | ok a => cases a <;> rfl
        | _ => rfl
      have hs3 : ∀ v, ({ s2 with
          scan := rest, vst := v :: s.vst, ost := s.ost, inParen := s2.inParen - 1
          maybePrefix := false
          endOfExpr := if s2.inParen - 1 = 0 then P.delimitor else s2.endOfExpr
          trace := .closing :: s2.trace } : St Value) = { s with
            scan := rest, ost := [] ++ s.ost, vst := [v] ++ s.vst, maybePrefix := false, err := err
            trace := .closing :: tr } := by
        intro v
        have e1 : s2.inParen - 1 = s.inParen := by
          subst hs2; subst hs1; show s.inParen + 1 - 1 = _; omega
        have e2 : s2.endOfExpr = '\x00' := by subst hs2; subst hs1; rfl
        rw [e1, e2, ← hs.fin]
        subst hs2; subst hs1
        have e3 := hs.noCall
        cases s
        dsimp only at e3
        rw [e3]
        rfl
      rcases fails_reduce hst2 (by intro e; subst hs2; rfl) hm with ⟨v, hx, hstep, hmm⟩ | hfail
      · refine .inl ⟨err, [], [v], .ok (.ok v), .closing :: tr,
          .step hst (hrun.trans (.step (hs3 v ▸ hstep) (.refl _))), .nil v, ?_, ?_, ?_, herr, hmm⟩
        · show 1 ≤ e.values
          have := pend_pos hpend
          omega
        · intro o ho; cases ho
        · intro o ho; cases ho
      · exact .inr (Fails.run (.step hst hrun) hfail)
    · exact .inr (Fails.run (.step hst (.refl _)) hfail)
  | call name n args sp texts blanks hn hsp hbl h ih =>
    intro s rest hs hsk hsep hg hf hb hv ho
    cases hfun : P.lookupFunction name with
    | none => exact absurd hfun hf.1
    | some nf =>
    obtain ⟨nargs, f⟩ := nf
    obtain ⟨c, u, hname, hc⟩ := name_head hn.1
    let A : Fin (n + 1) → Arg := fun i =>
      ⟨mean P.lookupSymbol P.lookupFunction loc (args i), texts i, blanks i, (args i).values,
        (args i).operators⟩
    have htext : (List.ofFn A).map (fun a => a.t ++ a.sp) =
        List.ofFn fun i => texts i ++ blanks i := by rw [List.map_ofFn]; rfl
    have hmean : (List.ofFn A).map Arg.m =
        List.ofFn fun i => mean P.lookupSymbol P.lookupFunction loc (args i) := by
      rw [List.map_ofFn]; rfl
    have hvals : (List.ofFn A).map Arg.vals = List.ofFn fun i => (args i).values := by
      rw [List.map_ofFn]; rfl
    have hops : ∀ a ∈ List.ofFn A, a.ops ≤ (List.ofFn fun i => (args i).operators).foldr max 0 := by
      have : ∀ (l : List Nat) x, x ∈ l → x ≤ l.foldr max 0 := by
        intro l
        induction l with
        | nil => intro x hx; cases hx
        | cons y l ih =>
          intro x hx
          show x ≤ max y (l.foldr max 0)
          rcases List.mem_cons.mp hx with rfl | hx
          · omega
          · have := ih x hx; omega
      intro a ha
      obtain ⟨i, rfl⟩ := List.mem_ofFn.mp ha
      exact this _ _ (List.mem_ofFn.mpr ⟨i, rfl⟩)
    have hv' : s.vst.length + pending (List.ofFn fun i => (args i).values) ≤ 8 := hv
    have ho' : s.ost.length + (2 + (List.ofFn fun i => (args i).operators).foldr max 0) ≤ 8 := ho
    have hrun := step_fn L hd hs hn hsp hfun
      (rest := argsText (List.ofFn fun i => texts i ++ blanks i) ++ rest) (by
        rw [hsk, hname]
        simp only [List.append_assoc, List.cons_append]
        rw [skip_cons (letter_start hc).space]) (by omega)
    generalize hs1 : ({ s with
      scan := argsText (List.ofFn fun i => texts i ++ blanks i) ++ rest
      ost := Operator.paren s.vst.length :: Operator.function nargs f :: s.ost
      endOfExpr := '\x00', inParen := s.inParen + 1, inFnArgs := s.inFnArgs + 1
      trace := .opening :: .fn :: s.trace } : St Value) = s1 at hrun
    have hm : mean P.lookupSymbol P.lookupFunction loc (.call name n args) s.err =
        meanArgs ((List.ofFn A).map Arg.m) s1.err (fun vs err =>
          Eval.mean.settle err (callFn nargs f ([].reverse ++ vs))) := by
      rw [hmean]
      subst hs1
      unfold mean
      rw [hfun]
      rfl
    rw [hm]
    have := args_run L (fun t => L.infStop ',' t (by unfold TokenStart; decide)) (hlocal _ _ _ hfun) s.ost s.vst s.inParen s.inFnArgs rest
      (List.ofFn A) (by
        intro h0
        have := congrArg List.length h0
        rw [List.length_ofFn] at this
        cases this) (by
        intro a ha
        obtain ⟨i, rfl⟩ := List.mem_ofFn.mp ha
        refine ⟨hbl i, ?_⟩
        intro s' rest' hs' hsk' hsep' ⟨k, os, hos⟩ hv2 ho2
        rcases ih i s' rest' hs' hsk' hsep' (hg i) (hf.2 i)
          (by rw [hos]; exact blocks_paren _ (level_le hS (uses_writes (h i)))) hv2 ho2 with
          ⟨err, O, V, x, tr, h1, h2, h3, h4, h5, h6, h7⟩ | h1
        · refine .inl ⟨err, O, V, x, tr, h1, h2, h3, ?_, h6, h7⟩
          intro o hoo
          have := h4 o hoo
          have := level_le hS (uses_writes (h i))
          exact not_paren (by omega)
        · exact .inr h1)
      s1 [] (by
        subst hs1
        refine ⟨hs.pre, hs.noCall, hs.radix, hs.err, ?_, ?_⟩
        · show '\x00' = if s.inParen + 1 = 0 then P.delimitor else '\x00'
          rw [if_neg (by omega)]
        · intro o ho; injection ho with ho; subst ho; rfl)
      (by subst hs1; rw [htext]) (by subst hs1; rfl) (by subst hs1; rfl) (by subst hs1; rfl)
      (by subst hs1; rfl) (by rw [hvals]; subst hs1; exact hv')
      (by
        intro a ha
        have := hops a ha
        subst hs1
        show s.ost.length + 1 + 1 + a.ops ≤ 8
        omega)
    rcases this with ⟨err, v, tr, hrun2, herr, hmm⟩ | hfail
    · refine .inl ⟨err, [], [v], .ok (.ok v), tr, hrun.trans ?_, .nil v, ?_, ?_, ?_, herr, hmm⟩
      · rw [← hs.fin] at hrun2
        subst hs1
        exact hrun2
      · show 1 ≤ pending (List.ofFn fun i => (args i).values)
        rw [List.ofFn_succ]
        show 1 ≤ max _ (1 + _)
        omega
      · intro o ho; cases ho
      · intro o ho; cases ho
    · exact .inr (Fails.run hrun hfail)
  | bin q l r tl sp w tr hq hw hl hsp hblank hr hends ihl ihr =>
    intro s rest hs hsk hsep hg hf hb hv ho
    obtain ⟨hgl, hgr, hgl', hgr'⟩ := hg
    obtain ⟨c, u, hc, hstart, hsepc⟩ := L.infHead q hq w hw
    obtain ⟨o, hop, hread⟩ := L.infText q hq w tr hw hends (hne hr) rest
    have hcat : tl ++ sp ++ w ++ tr ++ rest = tl ++ (sp ++ (w ++ (tr ++ rest))) := by
      simp [List.append_assoc]
    rw [hcat] at hsk
    have hsep1 : Sep (sp ++ (w ++ (tr ++ rest))) := sep_blanks hsp (by
      intro h0
      rw [hc]; intro d hd; injection hd with hd; subst hd; exact hsepc (hblank h0) _ rfl)
    have hv' : s.vst.length + max l.values (1 + r.values) ≤ 8 := hv
    have ho' : s.ost.length + max l.operators (1 + r.operators) ≤ 8 := ho
    have hL := ihl s _ hs hsk hsep1 hgl' hf.1 (blocks_left hb hgl) (by omega) (by omega)
    have hm : mean P.lookupSymbol P.lookupFunction loc (.bin q l r) s.err = (mean P.lookupSymbol P.lookupFunction loc l s.err).bind fun
      | (err, none) => .ok (err, none)
      | (err, some a) => (mean P.lookupSymbol P.lookupFunction loc r err).bind fun
        | (err, none) => .ok (err, none)
        | (err, some b) => Eval.mean.settle err (fnB q.does a b) := rfl
    rw [hm]
    rcases hL with ⟨err, O, V, x, tr1, hrun, hpend, hlen, hprec, hkind, herr, hmean⟩ | hfail
    · rw [hmean]
      generalize hM : Out.bind (Eval.mean.settle err x) _ = M
      generalize hs2 : ({ s with
        scan := sp ++ (w ++ (tr ++ rest)), ost := O ++ s.ost, vst := V ++ s.vst
        maybePrefix := false, err := err, trace := tr1 } : St Value) = s2 at hrun
      have hsk2 : skipSpaces s2.scan = c :: (u ++ (tr ++ rest)) := by
        subst hs2
        show skipSpaces (sp ++ (w ++ (tr ++ rest))) = _
        rw [skip_blanks hsp, hc, List.cons_append, skip_cons hstart.space]
      have hst2 := step_inf L hsk2 hstart.nul hstart.semi
        (by subst hs2; exact tokenStart_fin hd hs hstart.token hstart.nul) (by subst hs2; rfl)
        (by subst hs2; exact herr)
      have hcat2 : c :: (u ++ (tr ++ rest)) = w ++ (tr ++ rest) := by rw [hc]; rfl
      rw [hcat2, hread] at hst2
      dsimp only at hst2
      unfold stepOperator at hst2
      have hred : reduceInfix P o s2.ost s2.vst s2.radix =
          x.bind fun
            | .error e => .ok (.error e)
            | .ok v => reduceInfix P o s.ost
              (v :: s.vst) s.radix := by
        subst hs2
        exact pend_reduce P
          (reduceInfix P o)
          (fun t => t.isNoneAssoc o = false ∧ t.isHigher o = true)
          (fun t os st r ht => (reduceInfix_step _ ht.1 ht.2 os st r).trans (by
            cases evalOp P t st r 0 with
            | ok a => cases a <;> rfl
            | _ => rfl)) hpend
          (fun t ht => reduced hS hq hop hgl (hprec t ht) (hkind t ht)) s.ost s.vst s.radix
          (by rw [List.length_append]; omega)
      rw [hred] at hst2
      have hst3 : step P s2 = x.bind fun
          | .error e => .ok (.ret { s2 with
              scan := tr ++ rest, err := setErrorIf err e } P.undef)
          | .ok v => .ok (.cont { s with
              scan := tr ++ rest, vst := v :: s.vst, ost := o :: s.ost, maybePrefix := true
              err := err, trace := .infix :: tr1 }) := by
        rw [hst2]
        cases x with
        | ok a =>
          cases a with
          | error e => subst hs2; rfl
          | ok v =>
            dsimp only [Out.bind]
            rw [reduceInfix_blocked _ (blocked_bin hop hb)]
            dsimp only
            rw [if_neg (show ¬ s.ost.length ≥ capacity by show ¬ s.ost.length ≥ 8; omega)]
            subst hs2
            rfl
        | _ => rfl
      rcases fails_reduce hst3 (by intro e; rfl) (h := fun err a =>
          (mean P.lookupSymbol P.lookupFunction loc r err).bind fun
          | (err, none) => .ok (err, none)
          | (err, some b) => Eval.mean.settle err (fnB q.does a b)) (hM.symm.trans (by
            cases Eval.mean.settle err x with
            | ok a => rcases a with ⟨a, _ | b⟩ <;> rfl
            | _ => rfl)) with ⟨v, hx, hstep, hmm⟩ | hfail
      · rw [hmm]
        have hR := ihr { s with
              scan := tr ++ rest, vst := v :: s.vst, ost := o :: s.ost, maybePrefix := true
              err := err, trace := .infix :: tr1 } rest
          ⟨rfl, hs.noCall, hs.radix, herr, hs.fin, by
            intro y hy
            injection hy with hy
            subst hy
            unfold Operator.isFunction; rw [hop.kind]⟩ rfl hsep hgr' hf.2 (blocks_right hop hgr)
          (by show s.vst.length + 1 + r.values ≤ 8; omega)
          (by show s.ost.length + 1 + r.operators ≤ 8; omega)
        rcases hR with ⟨err2, O2, V2, x2, tr2, hrun2, hpend2, hlen2, hprec2, hkind2, herr2, hmean2⟩ |
          hfail2
        · refine .inl ⟨err2, O2 ++ [o], V2 ++ [v], thenE x2 (fnB q.does v), tr2,
            hrun.trans (.step hstep ?_), .bin hop v hpend2, ?_, ?_, ?_, herr2, ?_⟩
          · rw [List.append_assoc, List.append_assoc]
            exact hrun2
          · rw [List.length_append]
            show V2.length + 1 ≤ max l.values (1 + r.values)
            omega
          · intro y hy
            rcases List.mem_append.mp hy with hy | hy
            · have := hprec2 y hy
              show y.prec ≤ q.level
              rcases hgr with h | h <;> omega
            · rw [List.mem_singleton.mp hy, hop.prec]; exact Nat.le_refl _
          · intro y hy
            rcases List.mem_append.mp hy with hy | hy
            · exact hkind2 y hy
            · exact .inr ⟨q, hq, by rw [List.mem_singleton.mp hy]; exact hop⟩
          · rw [settle_then]
            have h2 : mean P.lookupSymbol P.lookupFunction loc r err = Eval.mean.settle err2 x2 := hmean2
            rw [h2]
            cases Eval.mean.settle err2 x2 with
            | ok a => rcases a with ⟨a, _ | b⟩ <;> rfl
            | _ => rfl
        · right
          exact fails_bind (Fails.run (hrun.trans (.step hstep (.refl _))) hfail2)
            (fun err b => Eval.mean.settle err (fnB q.does v b))
      · exact .inr (Fails.run hrun hfail)
    · right
      exact fails_bind hfail (fun err a => (mean P.lookupSymbol P.lookupFunction loc r err).bind fun
        | (err, none) => .ok (err, none)
        | (err, some b) => Eval.mean.settle err (fnB q.does a b))

end

section
variable {delim : Char}

theorem stops_skip {rest : Scan} (h : Stops delim rest) :
    skipSpaces rest = [] ∨ (∃ u, skipSpaces rest = ';' :: u) ∨
      (∃ u, skipSpaces rest = skipSpaces (delim :: u)) ∨
      ∃ c u, skipSpaces rest = c :: u ∧ ¬ TokenStart c ∧ c ≠ ')' ∧ c ≠ '\x00' := by
  obtain ⟨sp, t, rfl, hsp, h⟩ := h
  rw [skip_blanks hsp]
  rcases h with rfl | ⟨u, rfl⟩ | ⟨u, rfl⟩ | ⟨c, u, rfl, h1, h2, h3, h4⟩
  · exact .inl rfl
  · exact .inr (.inl ⟨u, rfl⟩)
  · exact .inr (.inr (.inl ⟨u, rfl⟩))
  · refine .inr (.inr (.inr ⟨c, u, skip_cons ?_, h1, h3, h4⟩))
    cases hx : isSpace c with
    | false => rfl
    | true => exact absurd (blank_space.mpr hx) h2

theorem stops_sep (hd : ¬ TokenStart delim) {rest : Scan} (h : Stops delim rest) : Sep rest := by
  obtain ⟨sp, t, rfl, hsp, h⟩ := h
  refine sep_blanks hsp fun _ c hc => ?_
  have key : ∀ c, ¬ TokenStart c → ¬ IsLetter c ∧ ¬ IsDecimal c ∧
      c ∉ ['\'', '.', '$', '?', '@'] := by
    intro c hd
    refine ⟨fun h => hd (.inl h), fun h => hd (.inr (.inl h)), fun h => ?_⟩
    simp only [List.mem_cons, List.not_mem_nil, or_false] at h
    rcases h with rfl | rfl | rfl | rfl | rfl <;> exact hd (.inr (.inr (by decide)))
  rcases h with rfl | ⟨u, rfl⟩ | ⟨u, rfl⟩ | ⟨d, u, rfl, h1, h2, h3, h4⟩
  · cases hc
  · injection hc with hc; subst hc; decide
  · injection hc with hc
    subst hc
    exact key _ hd
  · injection hc with hc
    subst hc
    exact key _ h1

end

end Libasm.Maker
