import Verif.Maker.Lexers
import Verif.Cpu.Cdp1802.Model
import Verif.Cpu.Ins8060.Model
/-
The lexers of RCA, Fairchild, National Semiconductor and Panasonic, and of the i8086 and TMS32010,
read the tokens of their notations.
-/
namespace Libasm.Maker
open Scan Number Ctype Eval Cpu
open Eval.Spec (UnOp BinOp Blank IsLetter IsDecimal Literal)

theorem i8086_parts : Parts i8086 intelN intelNumbers intelPrefix intelInfix :=
  intel_parts rfl rfl rfl rfl (fun _ => rfl) (simple_letters (by decide) (by decide)) (fun _ => rfl)

theorem tms32010_parts : Parts tms32010 tms32010N intelNumbers cPrefix cInfix :=
  parts_default (c_ops _ _ _) rfl intel_accepts rfl (by decide) semi_eol
    (fun m b h => nomatch h) rfl rfl rfl rfl
    dollar_first (fun t => rfl) (fun rest _ => here_dollar (.inl rfl) rest)
    ⟨by decide, by decide, by decide⟩ (fun _ => rfl) (simple_letters (by decide) (by decide))
    (fun _ => rfl)

theorem c_accepts : Accepts .cstyle cNumbers where
  suffix := fun h => nomatch h
  mark := fun m b ds v rest h => nomatch h
  quoted := fun x b ds v rest h => nomatch h
  unclosed := fun h => nomatch h

/-- The default plugins of the library. -/
theorem plain_parts : Parts (plain .cstyle .c) plainN cNumbers cPrefix cInfix :=
  parts_default (c_ops _ _ _) rfl c_accepts rfl (by decide) semi_eol
    (fun m b h => nomatch h) rfl rfl rfl rfl
    dollar_first (fun t => rfl) (fun rest _ => rfl)
    ⟨by decide, by decide, by decide⟩ (fun _ => rfl) plain_letters
    (fun _ => rfl)

theorem national_letters : Letters (prefixSymbol (some ['$']) none) :=
  prefix_letters (by decide) (by decide) (by decide)

theorem dot_first : First '.' := ⟨⟨by unfold TokenStart; decide, by decide, by decide, by decide⟩, by decide⟩

theorem cPrefix_letter {c : Char} (t : Scan) (h : IsLetter c) : cPrefix (c :: t) = none :=
  cPrefix_quiet t (letter_quiet h)

theorem upper_letter {c d : Char} (h : toUpper c = d) (hd : 65 ≤ d.toNat ∧ d.toNat ≤ 90) : IsLetter c := by
  have := congrArg Char.toNat h
  rw [toUpper_nat] at this
  unfold IsLetter
  split at this <;> omega

theorem national_parts : Parts Ins8060.lexer nationalN nationalNumbers cPrefix cInfix where
  ops := c_ops _ _ _
  parser := rfl
  accepts := ins80xx_accepts
  number := rfl
  pdp := by decide
  eolNil := rfl
  eolSemi := fun t => rfl
  eol := semi_eol.2.2
  mark := fun m b h => nomatch h
  quoted := by
    intro c b h
    simp only [nationalNumbers, List.mem_cons, List.not_mem_nil, or_false, Prod.mk.injEq] at h
    have hc := upper_letter h.1 (by decide)
    exact ⟨hc, fun t => cPrefix_letter _ hc, fun t => defaultLetter_not _ (letter_ne hc)⟩
  letter := by
    intro x t rest h _
    obtain ⟨u, rfl⟩ := quoted_head h
    exact ⟨'\'', u, rfl, quote_first, rfl, default_quoted rest h⟩
  letterDigit := fun c t h => defaultLetter_not t (decimal_ne h)
  letterName := fun c t h _ => defaultLetter_not t (letter_ne h)
  letterParen := fun t => rfl
  letterHere := by
    intro c hc t
    rcases List.mem_cons.1 hc with rfl | hc
    · rfl
    · rw [List.mem_singleton.1 hc]; rfl
  letterLen := fun s c rest h => letter_length h
  hereFirst := by
    intro c hc
    rcases List.mem_cons.1 hc with rfl | hc
    · exact dot_first
    · rw [List.mem_singleton.1 hc]; exact dollar_first
  herePre := by
    intro c hc t
    rcases List.mem_cons.1 hc with rfl | hc
    · rfl
    · rw [List.mem_singleton.1 hc]; rfl
  hereNumber := by
    intro c hc rest _
    rcases List.mem_cons.1 hc with rfl | hc
    · rfl
    · rw [List.mem_singleton.1 hc]; rfl
  hereWord := by
    intro c hc
    rcases List.mem_cons.1 hc with rfl | hc
    · decide
    · rw [List.mem_singleton.1 hc]; decide
  hereParen := by show '(' ∉ ['.', '$']; decide
  location := by
    intro s
    show _ = ['.', '$'].findSome? _
    rw [List.findSome?_cons, find_one]
    show (match locationSymbol Ins8060.lexer.symbolLetter '.' s with
      | some p => some p
      | none => locationSymbol Ins8060.lexer.symbolLetter '$' s) = _
    cases locationSymbol Ins8060.lexer.symbolLetter '.' s <;> rfl
  symHead := national_letters.head
  symParen := national_letters.paren
  symWord := national_letters.word
  symSep := national_letters.sep
  funWord := national_letters.word
  funSep := national_letters.sep

/-! ### An optional letter before a quoted character -/

/-- `IbmLetterParser` and `RcaLetterParser` -/
def optLetter (p : Char) (s : Scan) : Err × Nat × Scan :=
  match iexpect p s with
  | some q =>
    match defaultLetter q with
    | (.OK, c, rest) => (.OK, c, rest)
    | (e, c, _) => (e, c, s)
  | none => defaultLetter s

theorem iexpect_cons (p c : Char) (t : Scan) :
    iexpect p (c :: t) = if toUpper c = toUpper p then some t else none := by
  show (if (toUpper c == toUpper p) = true then some t else none) = _
  by_cases h : toUpper c = toUpper p
  · rw [if_pos (by simpa using h), if_pos h]
  · rw [if_neg (by simpa using h), if_neg h]

theorem default_miss {t : Scan} (h : t.head? ≠ some '\'') : defaultLetter t = (.NOT_AN_EXPECTED, 0, t) := by
  unfold defaultLetter
  rw [expect_none (by intro d hd heq; subst heq; exact h hd)]

theorem optLetter_not {p c : Char} (t : Scan) (h : c ≠ '\'') (h' : toUpper c ≠ toUpper p ∨ t.head? ≠ some '\'') :
    (optLetter p (c :: t)).1 = .NOT_AN_EXPECTED := by
  unfold optLetter
  rw [iexpect_cons]
  by_cases hc : toUpper c = toUpper p
  · rw [if_pos hc]
    rcases h' with h' | h'
    · exact absurd hc h'
    · dsimp only
      rw [default_miss h']
  · rw [if_neg hc]
    exact defaultLetter_not t h

theorem optLetter_length {p : Char} {s rest : Scan} {c : Nat} (h : optLetter p s = (.OK, c, rest)) :
    rest.length < s.length := by
  unfold optLetter at h
  split at h
  next q hq =>
    have h1 : q.length < s.length := by
      obtain ⟨d, hd, _⟩ := expectP_eq hq
      rw [hd]; simp
    split at h
    next hc =>
      have := letter_length hc
      simp only [Prod.mk.injEq] at h
      rw [← h.2.2]; omega
    next e _ _ hne _ => simp only [Prod.mk.injEq] at h; exact absurd h.1 hne
  next => exact letter_length h

theorem optLetter_quoted {p x : Char} {t : Scan} (rest : Scan) (hp : toUpper p = p ∧ 65 ≤ p.toNat ∧ p.toNat ≤ 90)
    (h : QuotedOpt p x t) : optLetter p (t ++ rest) = (.OK, x.toNat, rest) := by
  cases h with
  | plain _ _ h =>
    have hd := default_quoted rest h
    obtain ⟨u, rfl⟩ := quoted_head h
    unfold optLetter
    rw [List.cons_append, iexpect_cons, if_neg (by
      intro hx
      rw [hp.1, show toUpper '\'' = '\'' by decide] at hx
      subst hx
      exact absurd hp.2 (by decide))]
    exact hd
  | letter y _ t hy h =>
    rw [List.cons_append]
    unfold optLetter
    rw [iexpect_cons, if_pos (by rw [hy, hp.1])]
    dsimp only
    rw [default_quoted rest h]

/-- Lexers with an optional letter before quoted characters, `*` as location, the operators of C. -/
theorem parts_opt {L : Lexer} {K : Numbers} {p : Char}
    (hp : toUpper p = p ∧ 65 ≤ p.toNat ∧ p.toNat ≤ 90)
    (parser : L.operators.parser = Eval.parser cPrefix cInfix)
    (accepts : Accepts L.number K) (pdp : L.number ≠ .pdp11)
    (eol : L.endOfLine [] = true ∧ (∀ t, L.endOfLine (';' :: t) = true) ∧
      ∀ c t, isSpace c = false → c ≠ '\x00' → c ≠ ';' → L.endOfLine (c :: t) = false)
    (mark : ∀ m b, (m, b) ∈ K.marks → ∃ c u, m = c :: u ∧ First c ∧ c ≠ '\'' ∧ toUpper c ≠ p ∧
      ∀ t, cPrefix (c :: t) = none)
    (quoted : ∀ d b, (d, b) ∈ K.quoted → d ≠ p ∧ 65 ≤ d.toNat ∧ d.toNat ≤ 90)
    (hl : L.letter = optLetter p)
    (hereNumber : ∀ rest, Sep rest → L.number.parse ('*' :: rest) .r10 = notNumber ('*' :: rest))
    (location : ∀ s, L.location s = locationSymbol L.symbolLetter '*' s)
    (sym : Letters L.symbolLetter)
    (funWord : ∀ c, IsLetter c ∨ IsDecimal c → L.functionLetter c = true)
    (funSep : ∀ c, ¬ IsLetter c → ¬ IsDecimal c → c ∉ ['\'', '.', '$', '?', '@'] →
      L.functionLetter c = false) :
    Parts L (cNotation K.Lit (QuotedOpt p) ['*']) K cPrefix cInfix where
  ops := c_ops _ _ _
  parser := parser
  accepts := accepts
  number := rfl
  pdp := pdp
  eolNil := eol.1
  eolSemi := eol.2.1
  eol := eol.2.2
  mark := by
    intro m b h
    obtain ⟨c, u, h1, h2, h3, h4, h5⟩ := mark m b h
    exact ⟨c, u, h1, h2, h5, fun t => by rw [hl]; exact optLetter_not t h3 (.inl (by rwa [hp.1]))⟩
  quoted := by
    intro c b h
    obtain ⟨h1, h2⟩ := quoted _ b h
    have hc := upper_letter rfl h2
    exact ⟨hc, fun t => cPrefix_letter _ hc, fun t => by
      rw [hl]; exact optLetter_not _ (letter_ne hc) (.inl (by rwa [hp.1]))⟩
  letter := by
    intro x t rest h _
    refine ?_
    have hq := optLetter_quoted rest hp h
    rw [hl]
    cases h with
    | plain _ _ h =>
      obtain ⟨u, rfl⟩ := quoted_head h
      exact ⟨'\'', u, rfl, quote_first, rfl, hq⟩
    | letter y _ t hy h =>
      have hc := upper_letter hy hp.2
      refine ⟨y, t, rfl, ⟨letter_start hc, ?_⟩, cPrefix_letter _ hc, hq⟩
      rintro rfl
      exact absurd hc (by decide)
  letterDigit := fun c t h => by
    rw [hl]
    refine optLetter_not t (decimal_ne h) (.inl ?_)
    rw [hp.1]
    intro hc
    have := upper_letter hc hp.2
    exact letter_not_decimal this h
  letterName := fun c t h ht => by rw [hl]; exact optLetter_not t (letter_ne h) (.inr ht)
  letterParen := fun t => by
    rw [hl]
    refine optLetter_not t (by decide) (.inl ?_)
    rw [hp.1]
    intro hc
    exact absurd (upper_letter hc hp.2) (by decide)
  letterHere := fun c hc t => by
    rw [List.mem_singleton.1 hc, hl]
    refine optLetter_not t (by decide) (.inl ?_)
    rw [hp.1]
    intro hc
    exact absurd (upper_letter hc hp.2) (by decide)
  letterLen := fun s c rest h => optLetter_length (by rw [hl] at h; exact h)
  hereFirst := fun c hc => by rw [List.mem_singleton.1 hc]; exact star_first
  herePre := fun c hc t => by rw [List.mem_singleton.1 hc]; rfl
  hereNumber := fun c hc => by rw [List.mem_singleton.1 hc]; exact hereNumber
  hereWord := fun c hc => by rw [List.mem_singleton.1 hc]; decide
  hereParen := fun hc => absurd (List.mem_singleton.1 hc) (by decide)
  location := fun s => by show _ = ['*'].findSome? _; rw [find_one]; exact location s
  symHead := sym.head
  symParen := sym.paren
  symWord := sym.word
  symSep := sym.sep
  funWord := funWord
  funSep := funSep

theorem panasonic_parts : Parts mn1610 panasonicN panasonicNumbers cPrefix cInfix :=
  parts_opt (p := 'C') (by decide) rfl panasonic_accepts (by decide) star_eol (fun m b h => nomatch h)
    (by
      intro d b h
      simp only [panasonicNumbers, List.mem_cons, List.not_mem_nil, or_false, Prod.mk.injEq] at h
      rw [h.1]; decide)
    rfl (fun rest _ => rfl) (fun _ => rfl) plain_letters plain_letters.word plain_letters.sep

theorem rca_parts : Parts Cdp1802.lexer rcaN rcaNumbers cPrefix cInfix :=
  parts_opt (p := 'T') (by decide) rfl rca_accepts (by decide) semi_eol
    (by
      intro m b h
      simp only [rcaNumbers, List.mem_cons, List.not_mem_nil, or_false, Prod.mk.injEq] at h
      exact ⟨'#', [], h.1, ⟨⟨by unfold TokenStart; decide, by decide, by decide, by decide⟩, by decide⟩,
          by decide, by decide, fun t => rfl⟩)
    (by
      intro d b h
      simp only [rcaNumbers, List.mem_cons, List.not_mem_nil, or_false, Prod.mk.injEq] at h
      rcases h with h | h | h <;> (rw [h.1]; decide))
    rfl (fun rest _ => rfl) (fun _ => rfl) plain_letters
    (by
      intro c h
      show (Eval.symbolLetter false c || c == '.') = true
      rw [plain_letters.word c h]; rfl)
    (by
      intro c h1 h2 h3
      show (Eval.symbolLetter false c || c == '.') = false
      rw [plain_letters.sep c h1 h2 h3]
      have : c ≠ '.' := by rintro rfl; exact h3 (by decide)
      simpa using this)

/-! ### Fairchild -/

theorem fairchild_start {c : Char} (t : Scan) (h1 : c ≠ '\'') (h2 : c ≠ '#')
    (h3 : toUpper c ≠ 'C' ∨ t.head? ≠ some '\'') : (fairchildLetter (c :: t)).1 = .NOT_AN_EXPECTED := by
  unfold fairchildLetter
  rw [iexpect_cons, show toUpper 'C' = 'C' by decide]
  by_cases hc : toUpper c = 'C'
  · rw [if_pos hc]
    rcases h3 with h3 | h3
    · exact absurd hc h3
    · dsimp only
      rw [default_miss h3]
  · rw [if_neg hc]
    dsimp only
    rw [expect_ne h2]
    dsimp only
    rw [expect_ne h1]

theorem readLetter_length {s rest : Scan} {c : Nat} (h : readLetter s = (.OK, c, rest)) :
    rest.length ≤ s.length := by
  unfold readLetter at h
  split at h
  next p hp =>
    have h1 := expect_length hp
    split at h
    next q hq =>
      have h2 := expect_length hq
      simp only [Prod.mk.injEq] at h
      rw [← h.2.2]; omega
    next => simp at h
  next =>
    split at h
    next => simp at h
    next d p _ =>
      split at h
      next => simp at h
      next =>
        simp only [Prod.mk.injEq] at h
        rw [← h.2.2]; simp

theorem fairchild_length {s rest : Scan} {c : Nat} (h : fairchildLetter s = (.OK, c, rest)) :
    rest.length < s.length := by
  unfold fairchildLetter at h
  split at h
  next q hq =>
    have h1 : q.length < s.length := by
      obtain ⟨d, hd, _⟩ := expectP_eq hq
      rw [hd]; simp
    split at h
    next hc =>
      have := letter_length hc
      simp only [Prod.mk.injEq] at h
      rw [← h.2.2]; omega
    next e _ _ hne _ => simp only [Prod.mk.injEq] at h; exact absurd h.1 hne
  next =>
    split at h
    next => simp at h
    next d p hp =>
      have h1 := expect_length hp
      split at h
      next => simp at h
      next =>
        simp only [Prod.mk.injEq] at h
        rw [← h.2.2]
        simp only [List.length_cons] at h1; omega
    next =>
      split at h
      next => simp at h
      next p hp =>
        have h1 := expect_length hp
        split at h
        next c' q hq =>
          have h2 := readLetter_length hq
          simp only [Prod.mk.injEq] at h
          rw [← h.2.2]
          cases hx : expect '\'' q with
          | none => simp only [Option.getD_none]; omega
          | some r =>
            have := expect_length hx
            simp only [Option.getD_some]; omega
        next e _ _ hne _ => simp only [Prod.mk.injEq] at h; exact absurd h.1 hne

theorem fairchild_quote (u : Scan) : fairchildLetter ('\'' :: u) = match readLetter u with
    | (.OK, c, q) => (.OK, c, (expect '\'' q).getD q)
    | (e, c, _) => (e, c, '\'' :: u) := rfl

theorem fairchild_quoted {x : Char} {t : Scan} {rest : Scan} (hs : Sep rest)
    (h : QuotedFairchild x t) : fairchildLetter (t ++ rest) = (.OK, x.toNat, rest) := by
  have hno : expect '\'' rest = none := expect_none (by
    intro c hc heq
    subst heq
    exact (hs _ hc).2.2 (by decide))
  cases h with
  | closed _ _ h h0 =>
    cases h with
    | char _ h =>
      show fairchildLetter ('\'' :: x :: '\'' :: rest) = _
      rw [fairchild_quote]
      have : readLetter (x :: '\'' :: rest) = (.OK, x.toNat, '\'' :: rest) := by
        unfold readLetter
        rw [expect_ne h]
        dsimp only
        rw [if_neg h0]
      rw [this]
      dsimp only
      rw [expect_some]; rfl
    | quote => rfl
  | unclosed _ _ h h0 =>
    generalize hu : t ++ ['\''] = u at h
    cases h with
    | char _ h =>
      have : t = ['\'', x] := List.append_cancel_right (show t ++ ['\''] = ['\'', x] ++ ['\''] from hu)
      subst this
      show fairchildLetter ('\'' :: x :: rest) = _
      rw [fairchild_quote]
      have : readLetter (x :: rest) = (.OK, x.toNat, rest) := by
        unfold readLetter
        rw [expect_ne h]
        dsimp only
        rw [if_neg h0]
      rw [this]
      dsimp only
      rw [hno]; rfl
    | quote =>
      have : t = ['\'', '\'', '\''] :=
        List.append_cancel_right (show t ++ ['\''] = ['\'', '\'', '\''] ++ ['\''] from hu)
      subst this
      show fairchildLetter ('\'' :: '\'' :: '\'' :: rest) = _
      rw [fairchild_quote]
      have : readLetter ('\'' :: '\'' :: rest) = (.OK, 39, rest) := rfl
      rw [this]
      dsimp only
      rw [hno]; rfl
  | letter y _ t hy h =>
    rw [List.cons_append]
    unfold fairchildLetter
    rw [iexpect_cons, if_pos (by rcases hy with rfl | rfl <;> decide)]
    dsimp only
    rw [default_quoted rest h]
  | sharp _ h =>
    show fairchildLetter ('#' :: x :: rest) = _
    unfold fairchildLetter
    rw [iexpect_cons, if_neg (by decide)]
    dsimp only
    rw [expect_some]
    dsimp only
    rw [if_neg h]

theorem here3 {P : Char → Prop} (h1 : P '*') (h2 : P '$') (h3 : P '.') : ∀ c ∈ ['*', '$', '.'], P c := by
  intro c hc
  simp only [List.mem_cons, List.not_mem_nil, or_false] at hc
  rcases hc with rfl | rfl | rfl <;> assumption

theorem fairchild_parts : Parts f3850 fairchildN fairchildNumbers cPrefix cInfix where
  ops := c_ops _ _ _
  parser := rfl
  accepts := fairchild_accepts
  number := rfl
  pdp := by decide
  eolNil := rfl
  eolSemi := fun t => rfl
  eol := star_eol.2.2
  mark := by
    intro m b h
    simp only [fairchildNumbers, List.mem_cons, List.not_mem_nil, or_false, Prod.mk.injEq] at h
    exact ⟨'$', [], h.1, dollar_first, fun t => rfl, fun t =>
      fairchild_start t (by decide) (by decide) (.inl (by decide))⟩
  quoted := by
    intro c b h
    have hu : ∃ d ∈ ['H', 'B', 'O', 'D'], toUpper c = d := by
      simp only [fairchildNumbers, List.mem_cons, List.not_mem_nil, or_false, Prod.mk.injEq] at h
      rcases h with ⟨h, _⟩ | ⟨h, _⟩ | ⟨h, _⟩ | ⟨h, _⟩ <;> exact ⟨_, by simp, h⟩
    obtain ⟨d, hd, hu⟩ := hu
    have hr : (65 ≤ d.toNat ∧ d.toNat ≤ 90) ∧ d ≠ 'C' := by
      clear hu h
      revert d; decide
    have hc := upper_letter hu hr.1
    refine ⟨hc, fun t => cPrefix_letter _ hc, fun t => fairchild_start _ (letter_ne hc) ?_ (.inl ?_)⟩
    · rintro rfl; exact absurd hc (by decide)
    · rw [hu]; exact hr.2
  letter := by
    intro x t rest h hs
    have hq := fairchild_quoted hs h
    cases h with
    | closed _ _ h h0 =>
      obtain ⟨u, rfl⟩ := quoted_head h
      exact ⟨'\'', u, rfl, quote_first, rfl, hq⟩
    | unclosed _ _ h h0 =>
      obtain ⟨u, hu⟩ := quoted_head h
      cases t with
      | nil =>
        exfalso
        generalize hv : ([] : Scan) ++ ['\''] = v at h
        cases h <;> cases hv
      | cons c t =>
        injection hu with hc _
        subst hc
        exact ⟨'\'', t, rfl, quote_first, rfl, hq⟩
    | letter y _ t hy h =>
      have hc : IsLetter y := by rcases hy with rfl | rfl <;> decide
      refine ⟨y, t, rfl, ⟨letter_start hc, ?_⟩, cPrefix_letter _ hc, hq⟩
      rintro rfl
      exact absurd hc (by decide)
    | sharp _ h =>
      exact ⟨'#', [x], rfl, ⟨⟨by unfold TokenStart; decide, by decide, by decide, by decide⟩, by decide⟩,
        rfl, hq⟩
  letterDigit := fun c t h => fairchild_start t (decimal_ne h) (by rintro rfl; exact absurd h (by decide))
    (.inl (fun hc => letter_not_decimal (upper_letter hc (by decide)) h))
  letterName := fun c t h ht => fairchild_start t (letter_ne h) (by rintro rfl; exact absurd h (by decide))
    (.inr ht)
  letterParen := fun t => fairchild_start t (by decide) (by decide) (.inl (by decide))
  letterHere := here3
    (fun t => fairchild_start t (by decide) (by decide) (.inl (by decide)))
    (fun t => fairchild_start t (by decide) (by decide) (.inl (by decide)))
    (fun t => fairchild_start t (by decide) (by decide) (.inl (by decide)))
  letterLen := fun s c rest h => fairchild_length h
  hereFirst := here3 star_first dollar_first dot_first
  herePre := here3 (fun _ => rfl) (fun _ => rfl) (fun _ => rfl)
  hereNumber := here3 (fun _ _ => rfl) (by
      intro rest hs
      show fairchildParse ('$' :: rest) .r10 = _
      unfold fairchildParse
      rw [if_neg]
      · rfl
      · rintro ⟨_, h⟩
        cases rest with
        | nil => exact absurd h (by decide)
        | cons c u =>
          obtain ⟨h1, h2, _⟩ := hs c rfl
          have h : isXdigit c = true := h
          have h3 := (isDigitOf_iff .r16 c).1 h
          exact Ctype.ascii (p := fun c => Number.Spec.IsDigit 16 c → ¬ IsLetter c → ¬ IsDecimal c → False)
            (by decide +kernel) c (digit_ascii h3) h3 h1 h2) (fun _ _ => rfl)
  hereWord := here3 (by decide) (by decide) (by decide)
  hereParen := by show '(' ∉ ['*', '$', '.']; decide
  location := by
    intro s
    show _ = ['*', '$', '.'].findSome? _
    rw [List.findSome?_cons, List.findSome?_cons, find_one]
    show (match locationSymbol f3850.symbolLetter '*' s with
      | some p => some p
      | none =>
        match locationSymbol f3850.symbolLetter '$' s with
        | some p => some p
        | none => locationSymbol f3850.symbolLetter '.' s) = _
    cases locationSymbol f3850.symbolLetter '*' s <;>
      cases locationSymbol f3850.symbolLetter '$' s <;> rfl
  symHead := plain_letters.head
  symParen := plain_letters.paren
  symWord := plain_letters.word
  symSep := plain_letters.sep
  funWord := plain_letters.word
  funSep := plain_letters.sep

end Libasm.Maker
