import Verif.Maker.Model
import Verif.Maker.Styles
import Verif.Maker.Numbers
import Verif.Cpu.Lex
import Verif.Eval.Consume
import Verif.Cpu.I8080.Model
import Verif.Cpu.I8051.Model
import Verif.Cpu.I8048.Model
import Verif.Cpu.Mos6502.Model
/-
The lexers of the assemblers read the tokens of the notations.
-/
namespace Libasm.Maker
open Scan Number Ctype Eval Cpu
open Eval.Spec (UnOp BinOp Blank IsLetter IsDecimal Literal)

/-! ### Progress -/

theorem readName_length {head letter : Char → Bool} {s rest : Scan} {name : List Char}
    (h : readName head letter s = some (name, rest)) : rest.length < s.length := by
  unfold readName at h
  split at h
  · cases h
  next c t =>
    split at h
    · injection h with h
      injection h with _ h
      rw [← h]
      exact Nat.lt_succ_of_le (dropWhile_length _ t)
    · cases h

theorem const_length {L : Lexer} {float : Scan → Option (Err × Value × Scan)}
    (hl : ∀ s c rest, L.letter s = (.OK, c, rest) → rest.length < s.length)
    (hloc : ∀ s rest, L.location s = some rest → rest.length < s.length)
    (hfloat : ∀ s v rest, float s = some (.OK, v, rest) → rest.length < s.length)
    (delim : Char) (loc : Nat) (s : Scan) (r : Radix) (v : Value) (rest : Scan)
    (h : constant L.letter L.number.parse L.location float delim loc s r = (.OK, v, rest)) :
    rest.length < s.length := by
  unfold constant at h
  split at h
  next c p hp =>
    simp only [Prod.mk.injEq] at h
    rw [← h.2.2]; exact hl _ _ _ hp
  next =>
    dsimp only at h
    split at h
    next x hx =>
      split at hx
      · subst h; exact hfloat s v rest hx
      · cases hx
    next =>
      split at h
      · have h1 : (L.number.parse s r).1 = .OK := by rw [Prod.mk.injEq] at h; exact h.1
        have h2 := parse_eats L.number s r h1
        have h3 : (L.number.parse s r).2.2 = rest := by
          rw [Prod.mk.injEq, Prod.mk.injEq] at h; exact h.2.2
        rw [h3] at h2; exact h2
      · split at h
        next p hp =>
          simp only [Prod.mk.injEq] at h
          rw [← h.2.2]; exact hloc _ _ hp
        · simp at h
  next e x y hne hne2 _ =>
    exfalso
    rw [Prod.mk.injEq] at h
    exact hne h.1

/-! ### From the parts of a lexer to `Lex` -/

/-- What the parts of a lexer make of the tokens. -/
structure Parts (L : Lexer) (N : Notation) (K : Numbers) (pre inf : Read) : Prop where
  ops : OpLex N pre inf
  parser : L.operators.parser = Eval.parser pre inf
  accepts : Accepts L.number K
  number : N.number = K.Lit
  pdp : L.number ≠ .pdp11
  eolNil : L.endOfLine [] = true
  eolSemi : ∀ t, L.endOfLine (';' :: t) = true
  eol : ∀ c t, isSpace c = false → c ≠ '\x00' → c ≠ ';' → L.endOfLine (c :: t) = false
  /-- marks and quoted numbers; decimal digits need no assumption -/
  mark : ∀ m b, (m, b) ∈ K.marks → ∃ c u, m = c :: u ∧ First c ∧ (∀ t, pre (c :: t) = none) ∧
    ∀ t, (L.letter (c :: t)).1 = .NOT_AN_EXPECTED
  quoted : ∀ c b, (toUpper c, b) ∈ K.quoted → IsLetter c ∧
    (∀ t, pre (c :: '\'' :: t) = none) ∧ ∀ t, (L.letter (c :: '\'' :: t)).1 = .NOT_AN_EXPECTED
  letter : ∀ x t rest, N.letter x t → Sep rest → ∃ c u, t = c :: u ∧ First c ∧
    pre (t ++ rest) = none ∧ L.letter (t ++ rest) = (.OK, x.toNat, rest)
  letterDigit : ∀ c t, IsDecimal c → (L.letter (c :: t)).1 = .NOT_AN_EXPECTED
  letterName : ∀ c t, IsLetter c → t.head? ≠ some '\'' → (L.letter (c :: t)).1 = .NOT_AN_EXPECTED
  letterParen : ∀ t, (L.letter ('(' :: t)).1 = .NOT_AN_EXPECTED
  letterHere : ∀ c ∈ N.here, ∀ t, (L.letter (c :: t)).1 = .NOT_AN_EXPECTED
  letterLen : ∀ s c rest, L.letter s = (.OK, c, rest) → rest.length < s.length
  hereFirst : ∀ c ∈ N.here, First c
  herePre : ∀ c ∈ N.here, ∀ t, pre (c :: t) = none
  hereNumber : ∀ c ∈ N.here, ∀ rest, Sep rest → L.number.parse (c :: rest) .r10 = notNumber (c :: rest)
  hereWord : ∀ c ∈ N.here, ¬ IsLetter c
  hereParen : '(' ∉ N.here
  location : ∀ s, L.location s = N.here.findSome? fun c => locationSymbol L.symbolLetter c s
  symHead : ∀ c, IsLetter c → L.symbolLetter true c = true
  symParen : L.symbolLetter true '(' = false
  symWord : ∀ c, IsLetter c ∨ IsDecimal c → L.symbolLetter false c = true
  symSep : ∀ c, ¬ IsLetter c → ¬ IsDecimal c → c ∉ ['\'', '.', '$', '?', '@'] →
    L.symbolLetter false c = false
  funWord : ∀ c, IsLetter c ∨ IsDecimal c → L.functionLetter c = true
  funSep : ∀ c, ¬ IsLetter c → ¬ IsDecimal c → c ∉ ['\'', '.', '$', '?', '@'] →
    L.functionLetter c = false

theorem location_none {letter : Bool → Char → Bool} {c d : Char} {t : Scan} (h : c ≠ d) :
    locationSymbol letter d (c :: t) = none := by
  unfold locationSymbol
  rw [expect_ne h]

theorem digit_decimal {c : Char} (h : Number.Spec.IsDigit 10 c) : IsDecimal c :=
  Ctype.ascii (p := fun c => Number.Spec.IsDigit 10 c → IsDecimal c)
    (by decide +kernel) c (digit_ascii h) h

theorem decimal_quiet {c : Char} (h : IsDecimal c) :
    isAlpha c = false ∧ c ∉ ['~', '!', '-', '+', '#', '<', '>'] ∧ First c := by
  have : c.toNat < 128 := by unfold IsDecimal at h; omega
  have h1 := Ctype.ascii (p := fun c => IsDecimal c → isAlpha c = false ∧
    c ∉ ['~', '!', '-', '+', '#', '<', '>'] ∧ isSpace c = false ∧ c ≠ '\x00' ∧ c ≠ ';' ∧ c ≠ '=')
    (by decide +kernel) c this h
  exact ⟨h1.1, h1.2.1, ⟨.inr (.inl h), h1.2.2.1, h1.2.2.2.1, h1.2.2.2.2.1⟩, h1.2.2.2.2.2⟩

theorem split_word {letter : Char → Bool} {t rest : Scan} (ht : ∀ d ∈ t, letter d = true)
    (hr : ∀ c, rest.head? = some c → letter c = false) :
    (t ++ rest).takeWhile letter = t ∧ (t ++ rest).dropWhile letter = rest := by
  induction t with
  | nil =>
    cases rest with
    | nil => exact ⟨rfl, rfl⟩
    | cons c u =>
      rw [List.nil_append, List.takeWhile_cons, List.dropWhile_cons, hr c rfl]
      exact ⟨rfl, rfl⟩
  | cons c u ih =>
    obtain ⟨i1, i2⟩ := ih fun d hd => ht d (List.mem_cons_of_mem _ hd)
    rw [List.cons_append, List.takeWhile_cons, List.dropWhile_cons, ht c (List.mem_cons_self ..)]
    exact ⟨by rw [if_pos rfl, i1], by rw [if_pos rfl, i2]⟩

section
variable {L : Lexer} {N : Notation} {K : Numbers} {pre inf : Read} (hP : Parts L N K pre inf)
include hP

theorem Parts.names {name rest : Scan} (h : N.IsName name) (hs : Sep rest) {f : Char → Bool}
    (hf : ∀ c, IsLetter c ∨ IsDecimal c → f c = true)
    (hf' : ∀ c, ¬ IsLetter c → ¬ IsDecimal c → c ∉ ['\'', '.', '$', '?', '@'] → f c = false) :
    readName (L.symbolLetter true) f (name ++ rest) = some (name, rest) := by
  obtain ⟨⟨⟨c, t, rfl, hc, ht⟩, _⟩, _⟩ := h
  obtain ⟨h1, h2⟩ := split_word (letter := f) (t := t) (rest := rest)
    (fun d hd => hf d (ht d hd)) (by
      intro c hc
      obtain ⟨a, b, d⟩ := hs c hc
      exact hf' c a b d)
  show (if L.symbolLetter true c = true then
    some (c :: (t ++ rest).takeWhile f, (t ++ rest).dropWhile f) else none) = _
  rw [if_pos (hP.symHead c hc), h1, h2]

theorem Parts.nameConst {name rest : Scan} (h : N.IsName name) (hs : Sep rest) (E : Env)
    (delim : Char) (loc : Nat) :
    ∃ v, (L.plugins E delim loc).parseConstant (name ++ rest) .r10 =
      (.NOT_AN_EXPECTED, v, name ++ rest) := by
  have h0 := h.1
  obtain ⟨c, t, hname, hc⟩ := name_head h0
  have hq : (t ++ rest).head? ≠ some '\'' := by
    cases ht : t with
    | nil =>
      intro hx
      exact (hs '\'' hx).2.2 (by decide)
    | cons d u =>
      intro hx
      injection hx with hx
      have := name_all h0 d (by rw [hname, ht]; simp)
      rw [hx] at this
      exact absurd this (by decide)
  have hw : ∀ w, (∀ c ∈ w, toUpper c = c ∧ 65 ≤ c.toNat ∧ c.toNat ≤ 90) → name.map toUpper ≠ w →
      iexpectWord w (name ++ rest) = none := fun w h1 h2 => word_none h1 (name_all h0) hs.toEval h2
  have hf : isFloatNumber delim (name ++ rest) .NOT_AN_EXPECTED = false := by
    unfold isFloatNumber
    dsimp only
    rw [hw _ (by decide) (fun hx => h0.2 (.inl hx)),
      hw _ (by decide) (fun hx => h0.2 (.inr (.inl hx))),
      hw _ (by decide) (fun hx => h0.2 (.inr (.inr hx)))]
    rfl
  have hl : (L.letter (name ++ rest)).1 = .NOT_AN_EXPECTED := by
    rw [hname]; exact hP.letterName c _ hc hq
  have hn : L.number.parse (name ++ rest) .r10 = notNumber (name ++ rest) := by
    rw [hname]; exact parse_letter _ hP.pdp hc hq
  have hloc : L.location (name ++ rest) = none := by
    rw [hP.location, hname, List.findSome?_eq_none_iff]
    exact fun d hd => location_none (by rintro rfl; exact hP.hereWord _ hd hc)
  refine ⟨Value.undefined, ?_⟩
  show constant L.letter L.number.parse L.location E.float delim loc (name ++ rest) .r10 = _
  unfold constant
  split
  · rename_i he; rw [he] at hl; cases hl
  · rw [hn]
    unfold notNumber
    dsimp only
    rw [hf, hloc]
    simp
  · rename_i e _ _ hne heq
    rw [heq] at hl
    exact absurd hl hne

theorem Parts.parenConst (t : Scan) (E : Env) (delim : Char) (loc : Nat) :
    ∃ v, (L.plugins E delim loc).parseConstant ('(' :: t) .r10 = (.NOT_AN_EXPECTED, v, '(' :: t) := by
  have hl := hP.letterParen t
  have hloc : L.location ('(' :: t) = none := by
    rw [hP.location, List.findSome?_eq_none_iff]
    exact fun d hd => location_none (by rintro rfl; exact hP.hereParen hd)
  refine ⟨Value.undefined, ?_⟩
  show constant L.letter L.number.parse L.location E.float delim loc ('(' :: t) .r10 = _
  unfold constant
  split
  · rename_i he; rw [he] at hl; cases hl
  · rw [parse_paren]
    unfold notNumber
    dsimp only
    rw [show isFloatNumber delim ('(' :: t) .NOT_AN_EXPECTED = false from rfl, hloc]
    simp
  · rename_i e _ _ hne heq
    rw [heq] at hl
    exact absurd hl hne

theorem Parts.hereConst {h : Char} (hh : h ∈ N.here) {rest : Scan} (hs : Sep rest) (E : Env) (delim : Char) (loc : Nat) :
    (L.plugins E delim loc).parseConstant (h :: rest) .r10 =
      (.OK, Value.setUnsigned loc, rest) := by
  have hl := hP.letterHere h hh rest
  have hf : isFloatNumber delim (h :: rest) .NOT_AN_EXPECTED = false := by
    unfold isFloatNumber
    have hw : ∀ d w, 65 ≤ d.toNat → d.toNat ≤ 90 →
        iexpectWord (d :: w) (h :: rest) = none := by
      intro d w h1 h2
      unfold iexpectWord iexpectText
      rw [iexpect_none (by
        intro x hx heq
        injection hx with hx
        apply hP.hereWord h hh
        have := congrArg Char.toNat heq
        rw [← hx, toUpper_nat, toUpper_nat] at this
        unfold IsLetter
        split at this <;> split at this <;> omega)]
      rfl
    dsimp only
    rw [hw _ _ (by decide) (by decide), hw _ _ (by decide) (by decide),
      hw _ _ (by decide) (by decide)]
    rfl
  have hloc : L.location (h :: rest) = some rest := by
    rw [hP.location]
    have hone : locationSymbol L.symbolLetter h (h :: rest) = some rest := by
      unfold locationSymbol
      rw [expect_some]
      dsimp only
      rw [if_neg]
      cases rest with
      | nil =>
        rw [show deref ([] : Scan) = '\x00' from rfl, hP.symSep '\x00' (by decide) (by decide) (by decide)]
        decide
      | cons c u =>
        obtain ⟨a, b, d⟩ := hs c rfl
        rw [show deref (c :: u) = c from rfl, hP.symSep c a b d]
        decide
    have hall : ∀ l : List Char, h ∈ l →
        (l.findSome? fun c => locationSymbol L.symbolLetter c (h :: rest)) = some rest := by
      intro l hl
      induction l with
      | nil => cases hl
      | cons d l ih =>
        rw [List.findSome?_cons]
        by_cases hd : d = h
        · subst hd; rw [hone]
        · rw [location_none (fun h' => hd h'.symm)]
          rcases List.mem_cons.1 hl with h' | h'
          · exact absurd h'.symm hd
          · exact ih h'
    exact hall _ hh
  show constant L.letter L.number.parse L.location E.float delim loc (h :: rest) .r10 = _
  unfold constant
  split
  · rename_i he; rw [he] at hl; cases hl
  · rw [hP.hereNumber h hh rest hs]
    unfold notNumber
    dsimp only
    rw [hf, hloc]
    simp
  · rename_i e _ _ hne heq
    rw [heq] at hl
    exact absurd hl hne

theorem Parts.numberConst {n : Nat} {t rest : Scan} (h : K.Lit n t) (hn : n < 2 ^ 64)
    (hs : Sep rest) (hl : (L.letter (t ++ rest)).1 = .NOT_AN_EXPECTED) (E : Env) (delim : Char)
    (loc : Nat) :
    (L.plugins E delim loc).parseConstant (t ++ rest) .r10 = (.OK, ⟨n, .unsigned⟩, rest) := by
  show constant L.letter L.number.parse L.location E.float delim loc (t ++ rest) .r10 = _
  unfold constant
  split
  · rename_i he; rw [he] at hl; cases hl
  · rw [lit_parse hP.accepts h hn hs]
    dsimp only
    rw [not_float hs.toEval.ends, if_neg (by decide)]
    rfl
  · rename_i e _ _ hne heq
    rw [heq] at hl
    exact absurd hl hne

/-- The head of a number. -/
theorem Parts.numberHead {n : Nat} {t : Scan} (h : K.Lit n t) (rest : Scan) :
    ∃ c u, t = c :: u ∧ First c ∧ pre (t ++ rest) = none ∧
      (L.letter (t ++ rest)).1 = .NOT_AN_EXPECTED := by
  obtain ⟨c, u, rfl, h1 | ⟨m, b, h1, h2⟩ | ⟨b, v, h1, rfl⟩⟩ := lit_head h
  · have hd := digit_decimal h1
    obtain ⟨a1, a2, a3⟩ := decimal_quiet hd
    exact ⟨c, u, rfl, a3, hP.ops.quiet c _ a1 a2, hP.letterDigit c _ hd⟩
  · obtain ⟨d, w, hm, a1, a2, a3⟩ := hP.mark m b h1
    rw [hm] at h2
    rcases h2 with h2 | h2
    · injection h2 with h2
      subst h2
      exact ⟨d, u, rfl, a1, a2 _, a3 _⟩
    · cases h2
  · obtain ⟨a1, a2, a3⟩ := hP.quoted c b h1
    refine ⟨c, _, rfl, ⟨letter_start a1, ?_⟩, a2 _, a3 _⟩
    rintro rfl
    exact absurd a1 (by decide)

theorem Parts.lex (E : Env)
    (hfloat : ∀ s v rest, E.float s = some (.OK, v, rest) → rest.length < s.length)
    (delim : Char) (loc : Nat) : Lex (L.plugins E delim loc) N loc pre inf where
  consumes := style_consumes L.operators _ rfl
    (const_length hP.letterLen (by
      intro s rest h
      rw [hP.location] at h
      obtain ⟨_, h⟩ := List.exists_of_findSome?_eq_some h
      have h := h.2
      unfold locationSymbol at h
      split at h
      next p hp =>
        split at h
        · cases h
        · injection h with h; exact h ▸ expect_length hp
      next => cases h) hfloat delim loc)
    (fun _ _ _ => readName_length) (fun _ _ _ => readName_length)
  undef := rfl
  ops := hP.parser
  eolNil := hP.eolNil
  eolSemi := hP.eolSemi
  eol := hP.eol
  preHead := hP.ops.preHead
  preText := hP.ops.preText
  infHead := hP.ops.infHead
  infText := hP.ops.infText
  infClose := hP.ops.infClose
  infOpen := hP.ops.infOpen
  infStop := hP.ops.infStop
  number := by
    intro n t rest h hn hs
    rw [hP.number] at h
    obtain ⟨c, u, h1, h2, h3, h4⟩ := hP.numberHead h rest
    exact ⟨c, u, h1, h2, h3, hP.numberConst h hn hs h4 E delim loc⟩
  letter := by
    intro x t rest h hs
    obtain ⟨c, u, h1, h2, h3, h4⟩ := hP.letter x t rest h hs
    refine ⟨c, u, h1, h2, h3, ?_⟩
    show constant L.letter L.number.parse L.location E.float delim loc (t ++ rest) .r10 = _
    unfold constant
    rw [h4]
  here := fun c hc rest hs => ⟨hP.hereFirst c hc, hP.herePre c hc rest, hP.hereConst hc hs E delim loc⟩
  name := fun name rest h hs => ⟨hP.ops.name name rest h hs, hP.nameConst h hs E delim loc,
    hP.names h hs hP.funWord hP.funSep, hP.names h hs hP.symWord hP.symSep⟩
  paren := fun t => ⟨hP.ops.quiet '(' t (by decide) (by decide), hP.parenConst t E delim loc, by
      show (if L.symbolLetter true '(' = true then _ else _) = _
      rw [hP.symParen]; rfl, by
      show (if L.symbolLetter true '(' = true then _ else _) = _
      rw [hP.symParen]; rfl⟩

end

/-! ### Letters -/

theorem defaultLetter_not {c : Char} (t : Scan) (h : c ≠ '\'') :
    (defaultLetter (c :: t)).1 = .NOT_AN_EXPECTED := by
  unfold defaultLetter
  rw [expect_ne h]

theorem motorolaLetter_not {c : Char} (t : Scan) (h : c ≠ '\'') :
    (Mc6800.motorolaLetter (c :: t)).1 = .NOT_AN_EXPECTED := by
  unfold Mc6800.motorolaLetter
  rw [expect_ne h]

theorem zilogLetter_not {c : Char} (t : Scan) (h : c ≠ '\'') :
    (zilogLetter (c :: t)).1 = .NOT_AN_EXPECTED := by
  unfold zilogLetter
  rw [expect_ne h]

theorem letter_ne {c : Char} (h : IsLetter c) : c ≠ '\'' := by
  rintro rfl; exact absurd h (by decide)

theorem decimal_ne {c : Char} (h : IsDecimal c) : c ≠ '\'' := by
  rintro rfl; exact absurd h (by decide)

theorem default_quoted {x : Char} {t : Scan} (rest : Scan) (h : Quoted x t) :
    defaultLetter (t ++ rest) = (.OK, x.toNat, rest) := by
  cases h with
  | char _ h =>
    show defaultLetter ('\'' :: x :: '\'' :: rest) = _
    unfold defaultLetter
    rw [expect_some]
    dsimp only
    rw [expect_ne h]
    dsimp only
    rw [expect_some]
  | quote => rfl

theorem quote_first : First '\'' := ⟨⟨by unfold TokenStart; decide, by decide, by decide, by decide⟩, by decide⟩

theorem quoted_head {x : Char} {t : Scan} (h : Quoted x t) : ∃ u, t = '\'' :: u := by
  cases h with
  | char h => exact ⟨_, rfl⟩
  | quote => exact ⟨_, rfl⟩

theorem motorola_quoted {x : Char} {t : Scan} (rest : Scan) (h : QuotedAny x t) :
    Mc6800.motorolaLetter (t ++ rest) = (.OK, x.toNat, rest) := by
  cases h with
  | char h =>
    show Mc6800.motorolaLetter ('\'' :: x :: '\'' :: rest) = _
    unfold Mc6800.motorolaLetter
    rw [expect_some]
    dsimp only
    rw [if_neg h, expect_some]
    rfl

theorem motorola_length {s rest : Scan} {c : Nat} (h : Mc6800.motorolaLetter s = (.OK, c, rest)) :
    rest.length < s.length := by
  unfold Mc6800.motorolaLetter at h
  split at h
  · simp at h
  · simp at h
  next d p hp =>
    have h1 := expect_length hp
    split at h
    · simp at h
    · simp only [Prod.mk.injEq] at h
      rw [← h.2.2]
      cases hq : expect '\'' p with
      | none => simp only [Option.getD_none, List.length_cons] at *; omega
      | some q =>
        have := expect_length hq
        simp only [Option.getD_some, List.length_cons] at *; omega

theorem zilogRead_length (s : Scan) : (zilogRead s).2.2.length ≤ s.length := by
  unfold zilogRead
  split
  · exact Nat.le_refl _
  · rename_i c p
    split
    · split
      · simp only [List.length_drop, List.length_cons]; omega
      · split <;> simp only [List.length_drop, List.length_cons] <;> omega
    · split <;> simp

theorem zilog_length {s rest : Scan} {c : Nat} (h : zilogLetter s = (.OK, c, rest)) :
    rest.length < s.length := by
  unfold zilogLetter at h
  split at h
  · simp at h
  next p hp =>
    have h1 := expect_length hp
    have h2 := zilogRead_length p
    split at h
    next c' q hq =>
      rw [hq] at h2
      split at h
      next r hr =>
        have h3 := expect_length hr
        simp only [Prod.mk.injEq] at h
        rw [← h.2.2]; dsimp only at h2; omega
      · simp at h
    next e _ _ hne _ => simp only [Prod.mk.injEq] at h; exact absurd h.1 hne

theorem signetics_length {s rest : Scan} {c : Nat} (h : signeticsLetter s = (.OK, c, rest)) :
    rest.length < s.length := by
  unfold signeticsLetter at h
  split at h
  · simp at h
  next p hp =>
    have h1 : p.length < s.length := by
      obtain ⟨d, hd, _⟩ := expectP_eq hp
      rw [hd]; simp
    split at h
    next c' q hq =>
      have := letter_length hq
      simp only [Prod.mk.injEq] at h
      rw [← h.2.2]; omega
    next e _ _ hne _ => simp only [Prod.mk.injEq] at h; exact absurd h.1 hne

theorem zilog_quoted {x : Char} {t : Scan} (rest : Scan) (h : QuotedPercent x t) :
    zilogLetter (t ++ rest) = (.OK, x.toNat, rest) := by
  cases h with
  | char _ h h' =>
    show zilogLetter ('\'' :: x :: '\'' :: rest) = _
    unfold zilogLetter
    rw [expect_some]
    dsimp only
    have : zilogRead (x :: '\'' :: rest) = (.OK, x.toNat, '\'' :: rest) := by
      show (if x = '%' then _ else if x = '\'' then _ else _) = _
      rw [if_neg h', if_neg h]
    rw [this]
    dsimp only
    rw [expect_some]
  | hex a b ha hb =>
    show zilogLetter ('\'' :: '%' :: a :: b :: '\'' :: rest) = _
    have key : ∀ c, Number.Spec.IsDigit 16 c → isXdigit c = true ∧
        Number.Spec.digitVal c = some (toDigit c) ∧ toDigit c < 16 := fun c hc =>
      Ctype.ascii (p := fun c => Number.Spec.IsDigit 16 c → isXdigit c = true ∧
        Number.Spec.digitVal c = some (toDigit c) ∧ toDigit c < 16)
        (by decide +kernel) c (digit_ascii hc) hc
    obtain ⟨a1, a2, a3⟩ := key a ha
    obtain ⟨b1, b2, b3⟩ := key b hb
    have hv : Number.Spec.valueOf 16 [a, b] = toDigit a * 16 + toDigit b := by
      simp [Number.Spec.valueOf, a2, b2]
    have hr : zilogRead ('%' :: a :: b :: '\'' :: rest) =
        (.OK, toDigit a * 16 + toDigit b, '\'' :: rest) := by
      show (if (isXdigit a && isXdigit b) = true then _ else _) = _
      rw [a1, b1, if_pos (by decide)]
      rfl
    unfold zilogLetter
    rw [expect_some]
    dsimp only
    rw [hr]
    dsimp only
    rw [expect_some, hv]
    dsimp only
    rw [Char.ofNat, dif_pos (by unfold Nat.isValidChar; omega)]
    rfl
  | escape a c h =>
    show zilogLetter ('\'' :: '%' :: a :: '\'' :: rest) = _
    have hr : zilogRead ('%' :: a :: '\'' :: rest) = (.OK, x.toNat, '\'' :: rest) := by
      show (if (isXdigit a && isXdigit '\'') = true then _ else _) = _
      rw [show isXdigit '\'' = false from rfl, Bool.and_false, if_neg (by decide)]
      rw [show deref (a :: '\'' :: rest) = a from rfl]
      simp only [zilogEscapes, List.mem_cons, List.not_mem_nil, or_false, Prod.mk.injEq] at h
      rcases h with ⟨h, rfl⟩ | ⟨h, rfl⟩ | ⟨h, rfl⟩ | ⟨h, rfl⟩ | ⟨h, rfl⟩ | ⟨h, rfl⟩ <;>
        (rw [h]; rfl)
    unfold zilogLetter
    rw [expect_some]
    dsimp only
    rw [hr]
    dsimp only
    rw [expect_some]

theorem percent_head {x : Char} {t : Scan} (h : QuotedPercent x t) : ∃ u, t = '\'' :: u := by
  cases h with
  | char h h' => exact ⟨_, rfl⟩
  | hex a b ha hb => exact ⟨_, rfl⟩
  | escape a c h => exact ⟨_, rfl⟩

/-! ### Names and comments -/

theorem semi_eol : semicolonEnd [] = true ∧ (∀ t, semicolonEnd (';' :: t) = true) ∧
    ∀ c t, isSpace c = false → c ≠ '\x00' → c ≠ ';' → semicolonEnd (c :: t) = false := by
  refine ⟨rfl, fun t => rfl, fun c t _ h1 h2 => ?_⟩
  show (c == '\x00' || c == ';') = false
  simp [h1, h2]

theorem star_eol : Mc6800.starEnd [] = true ∧ (∀ t, Mc6800.starEnd (';' :: t) = true) ∧
    ∀ c t, isSpace c = false → c ≠ '\x00' → c ≠ ';' → Mc6800.starEnd (c :: t) = false := by
  refine ⟨rfl, fun t => rfl, fun c t h0 h1 h2 => ?_⟩
  show (c == '\x00' || c == ' ' || c == ';') = false
  have : c ≠ ' ' := by rintro rfl; exact absurd h0 (by decide)
  simp [h1, h2, this]

/-- The letters of names: those of C, and perhaps some of the characters that may not follow a
name. -/
structure Letters (sym : Bool → Char → Bool) : Prop where
  head : ∀ c, IsLetter c → sym true c = true
  paren : sym true '(' = false
  word : ∀ c, IsLetter c ∨ IsDecimal c → sym false c = true
  sep : ∀ c, ¬ IsLetter c → ¬ IsDecimal c → c ∉ ['\'', '.', '$', '?', '@'] → sym false c = false

theorem plain_none {c : Char} (h1 : ¬ IsLetter c) (h2 : ¬ IsDecimal c) :
    Eval.symbolLetter false c = false := by
  cases hx : Eval.symbolLetter false c with
  | false => rfl
  | true => exact absurd (symbolLetter_tail.mp hx) (by rintro (h | h) <;> contradiction)

theorem plain_letters : Letters Eval.symbolLetter where
  head := fun c h => symbolLetter_head.mpr h
  paren := rfl
  word := fun c h => symbolLetter_tail.mpr h
  sep := fun c h1 h2 _ => plain_none h1 h2

theorem oneOf_none {c : Char} {l : List Char} (hl : ∀ d ∈ l, d ∈ ['\'', '.', '$', '?', '@'] ∨ IsLetter d)
    (h1 : ¬ IsLetter c) (h3 : c ∉ ['\'', '.', '$', '?', '@']) : oneOf l c = false := by
  unfold oneOf
  cases hc : l.contains c with
  | false => rw [Bool.and_false]
  | true =>
    rw [List.contains_iff_mem] at hc
    rcases hl c hc with h | h <;> contradiction

theorem prefix_letters {p e : Option (List Char)}
    (hp : ∀ l, p = some l → '(' ∉ l) (hne : p = none → ∀ l, e = some l → '(' ∉ l)
    (he : ∀ l, e = some l → ∀ d ∈ l, d ∈ ['\'', '.', '$', '?', '@'] ∨ IsLetter d) :
    Letters (prefixSymbol p e) where
  head := by
    intro c h
    unfold prefixSymbol
    rw [if_pos (symbolLetter_head.mpr h)]
  paren := by
    unfold prefixSymbol
    rw [if_neg (by decide)]
    cases p with
    | some l =>
      show oneOf l '(' = false
      unfold oneOf
      have := hp l rfl
      simp [this]
    | none =>
      cases e with
      | none => rfl
      | some l =>
        show oneOf l '(' = false
        unfold oneOf
        have := hne rfl l rfl
        simp [this]
  word := by
    intro c h
    unfold prefixSymbol
    rw [if_pos (symbolLetter_tail.mpr h)]
  sep := by
    intro c h1 h2 h3
    unfold prefixSymbol
    rw [if_neg (by rw [plain_none h1 h2]; decide)]
    cases e with
    | none => rfl
    | some l => exact oneOf_none (he l rfl) h1 h3

theorem simple_letters {e : List Char} (hp : '(' ∉ e)
    (he : ∀ d ∈ e, d ∈ ['\'', '.', '$', '?', '@'] ∨ IsLetter d) : Letters (simpleSymbol e) where
  head := by
    intro c h
    unfold simpleSymbol
    rw [symbolLetter_head.mpr h]; rfl
  paren := by
    unfold simpleSymbol oneOf
    simp only [show Eval.symbolLetter true '(' = false from rfl, Bool.false_or]
    simp [hp]
  word := by
    intro c h
    unfold simpleSymbol
    rw [symbolLetter_tail.mpr h]; rfl
  sep := by
    intro c h1 h2 h3
    unfold simpleSymbol
    rw [plain_none h1 h2, oneOf_none he h1 h3]
    rfl

/-! ### The assemblers -/

theorem here_dollar {p : Parser} (hp : p = .intel ∨ p = .texas ∨ p = .zilog ∨ p = .signetics)
    (rest : Scan) : p.parse ('$' :: rest) .r10 = notNumber ('$' :: rest) := by
  rcases hp with rfl | rfl | rfl | rfl <;> rfl

theorem dollar_first : First '$' := ⟨⟨by unfold TokenStart; decide, by decide, by decide, by decide⟩, by decide⟩
theorem star_first : First '*' := ⟨⟨by unfold TokenStart; decide, by decide, by decide, by decide⟩, by decide⟩

theorem find_one {α β : Type} (f : α → Option β) (a : α) : [a].findSome? f = f a := by
  rw [List.findSome?_cons]
  cases f a <;> rfl

/-- Lexers with default letters, `$` as location and no marks. -/
theorem parts_default {L : Lexer} {N : Notation} {K : Numbers} {pre inf : Read}
    (ops : OpLex N pre inf) (parser : L.operators.parser = Eval.parser pre inf)
    (accepts : Accepts L.number K) (number : N.number = K.Lit) (pdp : L.number ≠ .pdp11)
    (eol : L.endOfLine [] = true ∧ (∀ t, L.endOfLine (';' :: t) = true) ∧
      ∀ c t, isSpace c = false → c ≠ '\x00' → c ≠ ';' → L.endOfLine (c :: t) = false)
    (mark : ∀ m b, (m, b) ∈ K.marks → ∃ c u, m = c :: u ∧ First c ∧ c ≠ '\'' ∧
      ∀ t, pre (c :: t) = none)
    (quoted : K.quoted = []) (letter : N.letter = Quoted) (hl : L.letter = defaultLetter)
    {h : Char} (hh : N.here = [h])
    (hereFirst : First h) (herePre : ∀ t, pre (h :: t) = none)
    (hereNumber : ∀ rest, Sep rest → L.number.parse (h :: rest) .r10 = notNumber (h :: rest))
    (hereWord : ¬ IsLetter h ∧ '(' ≠ h ∧ h ≠ '\'')
    (location : ∀ s, L.location s = locationSymbol L.symbolLetter h s)
    (sym : Letters L.symbolLetter) (function : ∀ c, L.functionLetter c = L.symbolLetter false c) :
    Parts L N K pre inf where
  ops := ops
  parser := parser
  accepts := accepts
  number := number
  pdp := pdp
  eolNil := eol.1
  eolSemi := eol.2.1
  eol := eol.2.2
  mark := by
    intro m b h
    obtain ⟨c, u, h1, h2, h3, h4⟩ := mark m b h
    exact ⟨c, u, h1, h2, h4, fun t => by rw [hl]; exact defaultLetter_not t h3⟩
  quoted := by rw [quoted]; exact fun c b h => nomatch h
  letter := by
    intro x t rest h _
    rw [letter] at h
    obtain ⟨u, rfl⟩ := quoted_head h
    exact ⟨'\'', u, rfl, quote_first, ops.quiet '\'' _ (by decide) (by decide),
      by rw [hl]; exact default_quoted rest h⟩
  letterDigit := fun c t h => by rw [hl]; exact defaultLetter_not t (decimal_ne h)
  letterName := fun c t h _ => by rw [hl]; exact defaultLetter_not t (letter_ne h)
  letterParen := fun t => by rw [hl]; rfl
  letterHere := by rw [hh]; intro c hc t; rw [List.mem_singleton.1 hc, hl]; exact defaultLetter_not t hereWord.2.2
  letterLen := fun s c rest h => letter_length (by rw [hl] at h; exact h)
  hereFirst := by rw [hh]; intro c hc; rw [List.mem_singleton.1 hc]; exact hereFirst
  herePre := by rw [hh]; intro c hc; rw [List.mem_singleton.1 hc]; exact herePre
  hereNumber := by rw [hh]; intro c hc; rw [List.mem_singleton.1 hc]; exact hereNumber
  hereWord := by rw [hh]; intro c hc; rw [List.mem_singleton.1 hc]; exact hereWord.1
  hereParen := by rw [hh]; intro hc; exact hereWord.2.1 (List.mem_singleton.1 hc)
  location := fun s => by rw [hh, find_one]; exact location s
  symHead := sym.head
  symParen := sym.paren
  symWord := sym.word
  symSep := sym.sep
  funWord := fun c h => by rw [function]; exact sym.word c h
  funSep := fun c h1 h2 h3 => by rw [function]; exact sym.sep c h1 h2 h3

theorem intel_parts {L : Lexer} (hn : L.number = .intel) (ho : L.operators = .intel)
    (hl : L.letter = defaultLetter) (he : L.endOfLine = semicolonEnd)
    (location : ∀ s, L.location s = locationSymbol L.symbolLetter '$' s)
    (sym : Letters L.symbolLetter) (function : ∀ c, L.functionLetter c = L.symbolLetter false c) :
    Parts L intelN intelNumbers intelPrefix intelInfix :=
  parts_default (intel_ops _ _ _) (by rw [ho]; rfl) (by rw [hn]; exact intel_accepts) rfl
    (by rw [hn]; decide) (by rw [he]; exact semi_eol) (fun m b h => nomatch h) rfl rfl hl rfl
    dollar_first (fun t => (intel_ops intelNumbers.Lit Quoted ['$']).quiet _ t (by decide) (by decide))
    (fun rest _ => by rw [hn]; exact here_dollar (.inl rfl) rest)
    ⟨by decide, by decide, by decide⟩ location sym function

theorem under_letters : Letters (prefixSymbol none (some ['_', '?'])) :=
  prefix_letters (by decide) (by decide) (by decide)

theorem maker_intel : Parts intel intelN intelNumbers intelPrefix intelInfix :=
  intel_parts rfl rfl rfl rfl (fun _ => rfl) under_letters (fun _ => rfl)

theorem i8080_parts : Parts I8080.lexer intelN intelNumbers intelPrefix intelInfix :=
  intel_parts rfl rfl rfl rfl (fun _ => rfl)
    (prefix_letters (p := some ['@', '?']) (e := none) (by decide) (by decide) (by decide)) (fun _ => rfl)

theorem i8051_parts : Parts I8051.lexer intelN intelNumbers intelPrefix intelInfix :=
  intel_parts rfl rfl rfl rfl (fun _ => rfl) under_letters (fun _ => rfl)

theorem i8048_parts : Parts I8048.lexer intelN intelNumbers intelPrefix intelInfix :=
  intel_parts rfl rfl rfl rfl (fun _ => rfl) under_letters (fun _ => rfl)

theorem z80_parts : Parts z80 z80N intelNumbers Eval.zilogPrefix zilogInfix :=
  parts_default (zilog_ops _ _ _) rfl intel_accepts rfl (by decide) semi_eol
    (fun m b h => nomatch h) rfl rfl rfl rfl
    dollar_first (fun t => (zilog_ops intelNumbers.Lit Quoted ['$']).quiet _ t (by decide) (by decide))
    (fun rest _ => here_dollar (.inl rfl) rest)
    ⟨by decide, by decide, by decide⟩ (fun _ => rfl) under_letters (fun _ => rfl)

theorem texas_parts : Parts texas texasN texasNumbers texasPrefix texasInfix :=
  parts_default (texas_ops _ _ _) rfl texas_accepts rfl (by decide) star_eol
    (by
      intro m b h
      simp only [texasNumbers, List.mem_cons, List.not_mem_nil, or_false, Prod.mk.injEq] at h
      rcases h with ⟨rfl, rfl⟩ | ⟨rfl, rfl⟩
      · exact ⟨'>', [], rfl, ⟨⟨by unfold TokenStart; decide, by decide, by decide, by decide⟩, by decide⟩,
          by decide, fun t => rfl⟩
      · exact ⟨'?', [], rfl, ⟨⟨by unfold TokenStart; decide, by decide, by decide, by decide⟩, by decide⟩,
          by decide, fun t => rfl⟩) rfl rfl rfl rfl
    dollar_first (fun t => rfl) (fun rest _ => here_dollar (.inr (.inl rfl)) rest)
    ⟨by decide, by decide, by decide⟩ (fun _ => rfl) plain_letters (fun _ => rfl)

/-- The first characters of the marks of Motorola. -/
theorem motorola_marks {m : List Char} {b : Nat} (h : (m, b) ∈ motorolaNumbers.marks) :
    ∃ c u, m = c :: u ∧ First c ∧ c ≠ '\'' ∧ ∀ t, cPrefix (c :: t) = none := by
  simp only [motorolaNumbers, List.mem_cons, List.not_mem_nil, or_false, Prod.mk.injEq] at h
  rcases h with ⟨rfl, rfl⟩ | ⟨rfl, rfl⟩ | ⟨rfl, rfl⟩ | ⟨rfl, rfl⟩ <;>
  exact ⟨_, [], rfl, ⟨⟨by unfold TokenStart; decide, by decide, by decide, by decide⟩, by decide⟩,
          by decide, fun t => rfl⟩

theorem here_star (rest : Scan) :
    Parser.motorola.parse ('*' :: rest) .r10 = notNumber ('*' :: rest) := rfl

theorem motorola_letters : Letters Mc6800.symbol :=
  prefix_letters (by decide) (by decide) (by decide)

theorem mc68000_parts : Parts mc68000 mc68000N motorolaNumbers cPrefix cInfix :=
  parts_default (c_ops _ _ _) rfl motorola_accepts rfl (by decide) star_eol
    (fun m b h => motorola_marks h) rfl rfl rfl rfl
    star_first (fun t => rfl) (fun rest _ => here_star rest)
    ⟨by decide, by decide, by decide⟩ (fun _ => rfl) motorola_letters (fun _ => rfl)

theorem motorola_parts {L : Lexer} {N : Notation} {pre inf : Read} (ops : OpLex N pre inf)
    (hpre : pre = cPrefix)
    (parser : L.operators.parser = Eval.parser pre inf) (hn : L.number = .motorola)
    (hnum : N.number = motorolaNumbers.Lit) (hlet : N.letter = QuotedAny)
    (hhere : N.here = ['*']) (hl : L.letter = Mc6800.motorolaLetter)
    (he : L.endOfLine = Mc6800.starEnd)
    (location : ∀ s, L.location s = locationSymbol L.symbolLetter '*' s)
    (sym : Letters L.symbolLetter) (function : ∀ c, L.functionLetter c = L.symbolLetter false c) :
    Parts L N motorolaNumbers pre inf where
  ops := ops
  parser := parser
  accepts := by rw [hn]; exact motorola_accepts
  number := hnum
  pdp := by rw [hn]; decide
  eolNil := by rw [he]; rfl
  eolSemi := by rw [he]; exact star_eol.2.1
  eol := by rw [he]; exact star_eol.2.2
  mark := by
    intro m b h
    obtain ⟨c, u, h1, h2, h3, h4⟩ := motorola_marks h
    exact ⟨c, u, h1, h2, by rw [hpre]; exact h4, fun t => by rw [hl]; exact motorolaLetter_not t h3⟩
  quoted := fun c b h => nomatch h
  letter := by
    intro x t rest h _
    rw [hlet] at h
    have h' := h
    cases h' with
    | char h0 =>
      exact ⟨'\'', _, rfl, quote_first, ops.quiet '\'' _ (by decide) (by decide),
        by rw [hl]; exact motorola_quoted rest h⟩
  letterDigit := fun c t h => by rw [hl]; exact motorolaLetter_not t (decimal_ne h)
  letterName := fun c t h _ => by rw [hl]; exact motorolaLetter_not t (letter_ne h)
  letterParen := fun t => by rw [hl]; rfl
  letterHere := by rw [hhere]; intro c hc t; rw [List.mem_singleton.1 hc, hl]; rfl
  letterLen := fun s c rest h => motorola_length (by rw [hl] at h; exact h)
  hereFirst := by rw [hhere]; intro c hc; rw [List.mem_singleton.1 hc]; exact star_first
  herePre := by rw [hhere, hpre]; intro c hc; rw [List.mem_singleton.1 hc]; exact fun t => rfl
  hereNumber := by rw [hhere, hn]; intro c hc; rw [List.mem_singleton.1 hc]; exact fun rest _ => here_star rest
  hereWord := by rw [hhere]; decide
  hereParen := by rw [hhere]; decide
  location := fun s => by rw [hhere, find_one]; exact location s
  symHead := sym.head
  symParen := sym.paren
  symWord := sym.word
  symSep := sym.sep
  funWord := fun c h => by rw [function]; exact sym.word c h
  funSep := fun c h1 h2 h3 => by rw [function]; exact sym.sep c h1 h2 h3

theorem mc6800_parts : Parts Mc6800.lexer motorolaN motorolaNumbers cPrefix motorolaInfix :=
  motorola_parts (motorola_ops _ _ _) rfl rfl rfl rfl rfl rfl rfl rfl (fun _ => rfl) motorola_letters
    (fun _ => rfl)

theorem mos6502_parts : Parts Mos6502.lexer mostekN motorolaNumbers cPrefix cInfix :=
  motorola_parts (c_ops _ _ _) rfl rfl rfl rfl rfl rfl rfl rfl (fun _ => rfl)
    (simple_letters (by decide) (by decide)) (fun _ => rfl)

theorem zilog_parts {symbol : Bool → Char → Bool} (sym : Letters symbol) :
    Parts (zilog symbol) zilogN zilogNumbers Eval.zilogPrefix zilogInfix where
  ops := zilog_ops _ _ _
  parser := rfl
  accepts := zilog_accepts
  number := rfl
  pdp := fun h => nomatch h
  eolNil := rfl
  eolSemi := fun t => rfl
  eol := semi_eol.2.2
  mark := by
    intro m b h
    have hp : ∀ t, Eval.zilogPrefix ('%' :: t) = none :=
      fun t => (zilog_ops zilogNumbers.Lit QuotedPercent ['$']).quiet _ t (by decide) (by decide)
    simp only [zilogNumbers, List.mem_cons, List.not_mem_nil, or_false, Prod.mk.injEq] at h
    rcases h with ⟨rfl, rfl⟩ | ⟨rfl, rfl⟩ | ⟨rfl, rfl⟩ <;>
    exact ⟨'%', _, rfl, ⟨⟨by unfold TokenStart; decide, by decide, by decide, by decide⟩, by decide⟩,
      hp, fun t => rfl⟩
  quoted := fun c b h => nomatch h
  letter := by
    intro x t rest h _
    obtain ⟨u, rfl⟩ := percent_head h
    exact ⟨'\'', u, rfl, quote_first,
      (zilog_ops zilogNumbers.Lit QuotedPercent ['$']).quiet '\'' _ (by decide) (by decide),
      zilog_quoted rest h⟩
  letterDigit := fun c t h => zilogLetter_not t (decimal_ne h)
  letterName := fun c t h _ => zilogLetter_not t (letter_ne h)
  letterParen := fun t => rfl
  letterHere := fun c hc t => by rw [List.mem_singleton.1 hc]; rfl
  letterLen := fun s c rest h => zilog_length h
  hereFirst := fun c hc => by rw [List.mem_singleton.1 hc]; exact dollar_first
  herePre := fun c hc t => by
    rw [List.mem_singleton.1 hc]
    exact (zilog_ops zilogNumbers.Lit QuotedPercent ['$']).quiet _ t (by decide) (by decide)
  hereNumber := fun c hc rest _ => by
    rw [List.mem_singleton.1 hc]
    exact here_dollar (.inr (.inr (.inl rfl))) rest
  hereWord := fun c hc => by rw [List.mem_singleton.1 hc]; decide
  hereParen := fun hc => absurd (List.mem_singleton.1 hc) (by decide)
  location := fun s => by show _ = ['$'].findSome? _; rw [find_one]; rfl
  symHead := sym.head
  symParen := sym.paren
  symWord := sym.word
  symSep := sym.sep
  funWord := sym.word
  funSep := sym.sep

theorem z8_parts : Parts z8 zilogN zilogNumbers Eval.zilogPrefix zilogInfix :=
  zilog_parts (simple_letters (by decide) (by decide))

theorem z8000_parts : Parts z8000 zilogN zilogNumbers Eval.zilogPrefix zilogInfix :=
  zilog_parts (prefix_letters (by decide) (by decide) (by decide))

theorem iexpect_A {c : Char} (t : Scan) : iexpect 'A' (c :: t) =
    if c = 'A' ∨ c = 'a' then some t else none := by
  unfold iexpect expectP
  by_cases h : c = 'A' ∨ c = 'a'
  · rw [if_pos h]
    rcases h with rfl | rfl <;> rfl
  · rw [if_neg h]
    dsimp only
    rw [if_neg]
    intro h1
    apply h
    have := congrArg Char.toNat (eq_of_beq h1)
    rw [toUpper_nat, show (toUpper 'A').toNat = 65 from rfl] at this
    split at this
    · right; apply Char.toNat_inj.mp; show c.toNat = 97; omega
    · left; apply Char.toNat_inj.mp; exact this

theorem signeticsLetter_not {c : Char} (t : Scan) (h : ¬ (c = 'A' ∨ c = 'a')) :
    (signeticsLetter (c :: t)).1 = .NOT_AN_EXPECTED := by
  unfold signeticsLetter
  rw [iexpect_A, if_neg h]

theorem signeticsLetter_name {c : Char} (t : Scan) (h : t.head? ≠ some '\'') :
    (signeticsLetter (c :: t)).1 = .NOT_AN_EXPECTED := by
  by_cases hc : c = 'A' ∨ c = 'a'
  · unfold signeticsLetter
    rw [iexpect_A, if_pos hc]
    dsimp only
    have : defaultLetter t = (.NOT_AN_EXPECTED, 0, t) := by
      unfold defaultLetter
      rw [expect_none (by intro d hd heq; subst heq; exact h hd)]
    rw [this]
  · exact signeticsLetter_not t hc

theorem signetics_quoted {x : Char} {t : Scan} (rest : Scan) (h : QuotedA x t) :
    signeticsLetter (t ++ rest) = (.OK, x.toNat, rest) := by
  cases h with
  | char a c t ha h =>
    rw [List.cons_append]
    unfold signeticsLetter
    rw [iexpect_A, if_pos ha]
    dsimp only
    rw [default_quoted rest h]

theorem signeticsPrefix_letter {c : Char} (t : Scan) (h : IsLetter c) :
    signeticsPrefix (c :: t) = none := by
  have hq := letter_quiet h
  unfold signeticsPrefix
  rw [expect_ne (by rintro rfl; exact hq (by decide)), expect_ne (by rintro rfl; exact hq (by decide))]
  exact cPrefix_quiet t hq

theorem signetics_parts : Parts signetics signeticsN signeticsNumbers signeticsPrefix cInfix where
  ops := signetics_ops _ _ _
  parser := rfl
  accepts := signetics_accepts
  number := rfl
  pdp := by decide
  eolNil := rfl
  eolSemi := fun t => rfl
  eol := star_eol.2.2
  mark := fun m b h => nomatch h
  quoted := by
    intro c b h
    have hu : ∃ d ∈ ['H', 'B', 'O', 'D'], toUpper c = d := by
      simp only [signeticsNumbers, List.mem_cons, List.not_mem_nil, or_false, Prod.mk.injEq] at h
      rcases h with ⟨h, _⟩ | ⟨h, _⟩ | ⟨h, _⟩ | ⟨h, _⟩ <;> exact ⟨_, by simp, h⟩
    obtain ⟨d, hd, hu⟩ := hu
    have hr : 65 < d.toNat ∧ d.toNat ≤ 90 := by
      clear hu h
      revert d; decide
    have hn := congrArg Char.toNat hu
    rw [toUpper_nat] at hn
    have hc : IsLetter c := by
      unfold IsLetter
      split at hn <;> omega
    refine ⟨hc, fun t => signeticsPrefix_letter _ hc, fun t => signeticsLetter_not _ ?_⟩
    rintro (rfl | rfl)
    · exact absurd hn (by rw [if_neg (by decide)]; show ¬ (65 = d.toNat); omega)
    · exact absurd hn (by rw [if_pos (by decide)]; show ¬ (97 - 32 = d.toNat); omega)
  letter := by
    intro x t rest h _
    have h' := h
    cases h' with
    | char a c t ha h0 =>
      have hc : IsLetter a := by rcases ha with rfl | rfl <;> decide
      refine ⟨a, t, rfl, ⟨letter_start hc, ?_⟩, signeticsPrefix_letter _ hc, signetics_quoted rest h⟩
      rintro rfl
      exact absurd hc (by decide)
  letterDigit := fun c t h => signeticsLetter_not t (by rintro (rfl | rfl) <;> exact absurd h (by decide))
  letterName := fun c t _ h => signeticsLetter_name t h
  letterParen := fun t => rfl
  letterHere := fun c hc t => by rw [List.mem_singleton.1 hc]; rfl
  letterLen := fun s c rest h => signetics_length h
  hereFirst := fun c hc => by rw [List.mem_singleton.1 hc]; exact dollar_first
  herePre := fun c hc t => by rw [List.mem_singleton.1 hc]; rfl
  hereNumber := fun c hc rest _ => by
    rw [List.mem_singleton.1 hc]
    exact here_dollar (.inr (.inr (.inr rfl))) rest
  hereWord := fun c hc => by rw [List.mem_singleton.1 hc]; decide
  hereParen := fun hc => absurd (List.mem_singleton.1 hc) (by decide)
  location := fun s => by show _ = ['$'].findSome? _; rw [find_one]; rfl
  symHead := plain_letters.head
  symParen := plain_letters.paren
  symWord := plain_letters.word
  symSep := plain_letters.sep
  funWord := plain_letters.word
  funSep := plain_letters.sep

end Libasm.Maker
