import Verif.Eval.Tree
/-
Reading the tokens of an expression in C notation.
-/
namespace Libasm.Eval
open Scan Number Ctype Spec
open Number.Spec (IsDigit valueOf Ends digitVal)

theorem blank_space {c : Char} : Blank c ↔ isSpace c = true := by
  simp [Blank, isSpace]

theorem skip_cons {c : Char} {t : Scan} (h : isSpace c = false) : skipSpaces (c :: t) = c :: t := by
  show List.dropWhile isSpace (c :: t) = c :: t
  rw [List.dropWhile_cons, h]; rfl

theorem skip_blank {c : Char} {t : Scan} (h : isSpace c = true) :
    skipSpaces (c :: t) = skipSpaces t := by
  show List.dropWhile isSpace (c :: t) = List.dropWhile isSpace t
  rw [List.dropWhile_cons, h]; rfl

theorem skip_blanks {sp t : Scan} (h : ∀ c ∈ sp, Blank c) : skipSpaces (sp ++ t) = skipSpaces t := by
  induction sp with
  | nil => rfl
  | cons c u ih =>
    rw [List.cons_append, skip_blank (blank_space.mp (h c (List.mem_cons_self ..)))]
    exact ih fun d hd => h d (List.mem_cons_of_mem _ hd)

/-- The characters that may follow a number or name. -/
def Sep (rest : Scan) : Prop :=
  ∀ c, rest.head? = some c → ¬ IsLetter c ∧ ¬ IsDecimal c ∧ c ≠ '\'' ∧ c ≠ '.'

theorem Sep.ends {rest : Scan} (h : Sep rest) : Ends rest := by
  intro c hc
  obtain ⟨h1, h2, h3, h4⟩ := h c hc
  refine ⟨h2, ?_, ?_, h3, h4⟩
  · intro h; exact h1 (.inl h)
  · intro h; exact h1 (.inr (.inl h))

section
variable (float : Scan → Option (Err × Value × Scan)) (symbols : List Char → Option Value)
  (functions : List Char → Option (Int × (List Value → Out (Except Err Value))))
  (delim : Char) (loc : Nat)

/-- The default plugins. -/
abbrev cP : Plugins Value := stylePlugins .cstyle .c float symbols functions delim loc

variable {float symbols functions delim loc}

theorem step_pre {s : St Value} {c : Char} {t : Scan} (hsk : skipSpaces s.scan = c :: t)
    (hc0 : c ≠ '\x00') (hc1 : c ≠ ';') (hce : c ≠ s.endOfExpr) (hm : s.maybePrefix = true)
    (he : hasError s.err = false) :
    step (cP float symbols functions delim loc) s = match cPrefix (c :: t) with
      | some (o, p) => stepOperator (cP float symbols functions delim loc) s o p
      | none => stepOperand (cP float symbols functions delim loc) s s.scan (c :: t) := by
  unfold step
  dsimp only
  rw [hsk, if_neg (show ¬ (cP float symbols functions delim loc).endOfLine (c :: t) = true by
    show ¬ semicolonEnd (c :: t) = true
    simp [semicolonEnd, deref, hc0, hc1]),
    if_neg (by intro h; exact hce h.1), if_pos hm]
  show Out.bind (Eval.pure cPrefix (c :: t) s.vst s.radix) _ = _
  unfold Eval.pure
  cases cPrefix (c :: t) with
  | none =>
    dsimp only [Out.bind]
    rw [if_neg (by rw [he]; decide)]
  | some x =>
    obtain ⟨o, p⟩ := x
    dsimp only [Out.bind]
    rw [if_neg (by rw [he]; decide)]

theorem step_inf {s : St Value} {c : Char} {t : Scan} (hsk : skipSpaces s.scan = c :: t)
    (hc0 : c ≠ '\x00') (hc1 : c ≠ ';') (hce : c ≠ s.endOfExpr) (hm : s.maybePrefix = false)
    (he : hasError s.err = false) :
    step (cP float symbols functions delim loc) s = match cInfix (c :: t) with
      | some (o, p) => stepOperator (cP float symbols functions delim loc) s o p
      | none => stepPunct (cP float symbols functions delim loc) s s.scan (c :: t) := by
  unfold step
  dsimp only
  rw [hsk, if_neg (show ¬ (cP float symbols functions delim loc).endOfLine (c :: t) = true by
    show ¬ semicolonEnd (c :: t) = true
    simp [semicolonEnd, deref, hc0, hc1]),
    if_neg (by intro h; exact hce h.1), if_neg (by rw [hm]; decide)]
  rw [show (cP float symbols functions delim loc).ops.readInfix = cInfix from rfl]
  cases cInfix (c :: t) with
  | none => dsimp only; rw [if_neg (by rw [he]; decide)]
  | some x =>
    obtain ⟨o, p⟩ := x
    dsimp only
    rw [if_neg (by rw [he]; decide)]

/-- A constant where an operand may stand. -/
theorem step_const {s : St Value} {c : Char} {t rest : Scan} {v : Value}
    (hsk : skipSpaces s.scan = c :: t)
    (hc0 : c ≠ '\x00') (hc1 : c ≠ ';') (hce : c ≠ s.endOfExpr) (hm : s.maybePrefix = true)
    (he : hasError s.err = false) (hp : cPrefix (c :: t) = none)
    (hc : (cP float symbols functions delim loc).parseConstant (c :: t) s.radix = (.OK, v, rest))
    (hl : s.vst.length < 8) :
    step (cP float symbols functions delim loc) s = .ok (.cont { s with
      scan := rest, vst := v :: s.vst, maybePrefix := false, trace := .operand :: s.trace }) := by
  rw [step_pre hsk hc0 hc1 hce hm he, hp]
  dsimp only
  unfold stepOperand
  rw [hc]
  dsimp only
  rw [if_neg (show ¬ s.vst.length ≥ capacity by show ¬ s.vst.length ≥ 8; omega)]
  unfold push
  rw [if_pos (show s.vst.length < capacity from hl)]
  rfl

theorem constant_number {c : Char} {t rest : Scan} {v : Value} (hc : c ≠ '\'')
    (hn : cstyleParse (c :: t) .r10 = (.OK, v, rest)) (hs : Sep rest) :
    (cP float symbols functions delim loc).parseConstant (c :: t) .r10 = (.OK, v, rest) := by
  show constant defaultLetter cstyleParse defaultLocation float delim loc (c :: t) .r10 = _
  unfold constant
  have hl : defaultLetter (c :: t) = (.NOT_AN_EXPECTED, 0, c :: t) := by
    unfold defaultLetter
    rw [expect_none (by intro d hd; injection hd with hd; exact hd ▸ hc)]
  rw [hl]
  dsimp only
  rw [hn]
  dsimp only
  have hf : isFloatNumber delim rest .OK = false := by
    unfold isFloatNumber
    dsimp only
    rw [expect_none (fun d hd => (hs d hd).2.2.2)]
    dsimp only [Option.bind]
    unfold exponent
    rw [iexpect_none (by
      intro d hd heq
      obtain ⟨h1, h2, _, _⟩ := hs d hd
      rw [toUpper_of_not_lower (fun h => h1 (.inr (.inl h)))] at heq
      apply h1; left; rw [heq]; decide)]
    rfl
  rw [hf]
  rfl

/-- Reading a number. -/
theorem literal_parse {n : Nat} {t rest : Scan} (h : Literal n t) (hn : n < 2 ^ 64)
    (hs : Sep rest) : cstyleParse (t ++ rest) .r10 = (.OK, ⟨n, .unsigned⟩, rest) := by
  cases h with
  | zero =>
    exact cstyle_default (dflt := .r10) (ds := ['0'])
      ⟨by simp, (by intro c hc; rw [List.mem_singleton.mp hc]; decide), rfl⟩ (by decide)
      (.inl rfl) hn hs.ends
  | dec _ hd h0 =>
    exact cstyle_default (dflt := .r10)
      ⟨(by obtain ⟨c, u, hc, _⟩ := h0; rw [hc]; simp), hd, rfl⟩ (by decide)
      (.inr (.inl h0)) hn hs.ends
  | oct ds hd h0 => exact cstyle_oct ⟨h0, hd, rfl⟩ hn hs.ends .r10
  | hex x hx ds hd h0 =>
    exact cstyle_hex' (by rcases hx with rfl | rfl <;> decide) ⟨h0, hd, rfl⟩ hn hs.ends .r10
  | bin x hx ds hd h0 =>
    exact cstyle_bin' (by rcases hx with rfl | rfl <;> decide) ⟨h0, hd, rfl⟩ hn hs.ends .r10

/-- A number starts with a digit. -/
theorem literal_head {n : Nat} {t : Scan} (h : Literal n t) :
    ∃ c u, t = c :: u ∧ IsDigit 10 c := by
  cases h with
  | zero => exact ⟨_, _, rfl, by decide⟩
  | dec _ hd h0 =>
    obtain ⟨c, u, hc, _⟩ := h0
    exact ⟨c, u, hc, hd c (by rw [hc]; exact List.mem_cons_self ..)⟩
  | oct ds hd h0 => exact ⟨_, _, rfl, by decide⟩
  | hex x hx ds hd h0 => exact ⟨_, _, rfl, by decide⟩
  | bin x hx ds hd h0 => exact ⟨_, _, rfl, by decide⟩

/-- Characters that start an operand other than an operator or a parenthesis. -/
def Atom (c : Char) : Prop := IsLetter c ∨ IsDecimal c ∨ c = '\'' ∨ c = '$'

theorem cPrefix_none {c : Char} {t : Scan} (h : c ≠ '~' ∧ c ≠ '!' ∧ c ≠ '-' ∧ c ≠ '+') :
    cPrefix (c :: t) = none := by
  unfold cPrefix
  obtain ⟨h1, h2, h3, h4⟩ := h
  rw [expect_none (by intro d hd; injection hd with hd; exact hd ▸ h1),
    expect_none (by intro d hd; injection hd with hd; exact hd ▸ h2),
    expect_none (by intro d hd; injection hd with hd; exact hd ▸ h3),
    expect_none (by intro d hd; injection hd with hd; exact hd ▸ h4)]
  rfl

theorem letter_toNat {c : Char} (h : IsLetter c) :
    (65 ≤ c.toNat ∧ c.toNat ≤ 90) ∨ (97 ≤ c.toNat ∧ c.toNat ≤ 122) ∨ c.toNat = 95 := by
  rcases h with h | h | h
  · exact .inl h
  · exact .inr (.inl h)
  · subst h; exact .inr (.inr rfl)

/-- Apart from single characters that are none of these. -/
theorem atom_ne {c : Char} (h : Atom c) (d : Char)
    (hd : ¬ ((65 ≤ d.toNat ∧ d.toNat ≤ 90) ∨ (97 ≤ d.toNat ∧ d.toNat ≤ 122) ∨ d.toNat = 95 ∨
      (48 ≤ d.toNat ∧ d.toNat ≤ 57) ∨ d.toNat = 39 ∨ d.toNat = 36)) : c ≠ d := by
  rintro rfl
  apply hd
  rcases h with h | h | h | h
  · rcases letter_toNat h with h | h | h
    · exact .inl h
    · exact .inr (.inl h)
    · exact .inr (.inr (.inl h))
  · exact .inr (.inr (.inr (.inl h)))
  · subst h; exact .inr (.inr (.inr (.inr (.inl rfl))))
  · subst h; exact .inr (.inr (.inr (.inr (.inr rfl))))

theorem atom_space {c : Char} (h : Atom c) : isSpace c = false := by
  cases hc : isSpace c with
  | false => rfl
  | true =>
    exfalso
    have hb := blank_space.mpr hc
    unfold Blank at hb
    refine atom_ne h c ?_ rfl
    omega

theorem digit10_decimal {c : Char} (h : IsDigit 10 c) : IsDecimal c := by
  obtain ⟨d, hd, hlt⟩ := h
  unfold digitVal at hd
  unfold IsDecimal
  split at hd
  · assumption
  split at hd
  · injection hd with hd; omega
  split at hd
  · injection hd with hd; omega
  · cases hd

theorem toUpper_letter {c : Char} (h : toUpper c = toUpper '\'' ∨ toUpper c = toUpper '$') :
    c = '\'' ∨ c = '$' := by
  by_cases hc : 97 ≤ c.toNat ∧ c.toNat ≤ 122
  · exfalso
    exact Ctype.ascii (p := fun c => 97 ≤ c.toNat ∧ c.toNat ≤ 122 →
      (toUpper c = toUpper '\'' ∨ toUpper c = toUpper '$') → False)
      (by decide +kernel) c (by omega) hc h
  · rw [toUpper_of_not_lower hc] at h
    exact h

/-- Letters and `$` do not start a number. -/
theorem cstyle_no {c : Char} {t : Scan} (h : ¬ IsDecimal c) :
    cstyleParse (c :: t) .r10 = (.NOT_AN_EXPECTED, Value.undefined, c :: t) := by
  have h0 : toUpper c ≠ toUpper '0' := by
    intro heq
    by_cases hc : 97 ≤ c.toNat ∧ c.toNat ≤ 122
    · exact Ctype.ascii (p := fun c => 97 ≤ c.toNat ∧ c.toNat ≤ 122 → toUpper c ≠ toUpper '0')
        (by decide +kernel) c (by omega) hc heq
    · rw [toUpper_of_not_lower hc] at heq
      apply h
      rw [heq]; decide
  have hp : cstylePrefix (c :: t) .r10 = none := by
    unfold cstylePrefix
    have hno : ∀ m, iexpectText ('0' :: m) (c :: t) = none := by
      intro m
      unfold iexpectText
      rw [iexpect_none (by intro d hd; injection hd with hd; exact hd ▸ h0)]
      rfl
    rw [hno, hno]
    dsimp only
    rw [if_neg (by
      intro hx
      have : c = '0' := hx.1
      exact h (by rw [this]; decide)), if_neg (by
      intro hx
      apply h
      have : (decide (48 ≤ c.toNat) && decide (c.toNat < 48 + 10)) = true := hx
      simp only [Bool.and_eq_true, decide_eq_true_eq] at this
      exact ⟨this.1, by omega⟩)]
  unfold cstyleParse
  rw [hp]
  rfl

/-- `symbolLetter` at the start of a name and inside. -/
theorem symbolLetter_head {c : Char} : symbolLetter true c = true ↔ IsLetter c := by
  unfold symbolLetter IsLetter isAlpha isUpper isLower
  simp [or_assoc]

theorem symbolLetter_tail {c : Char} : symbolLetter false c = true ↔ IsLetter c ∨ IsDecimal c := by
  unfold symbolLetter IsLetter IsDecimal isAlpha isUpper isLower isDigit
  simp only [Bool.or_eq_true, Bool.and_eq_true, decide_eq_true_eq, Bool.not_false, true_and,
    beq_iff_eq]
  constructor
  · rintro (((h | h) | h) | h)
    · exact .inl (.inl h)
    · exact .inl (.inr (.inl h))
    · exact .inr h
    · exact .inl (.inr (.inr h))
  · rintro ((h | h | h) | h)
    · exact .inl (.inl (.inl h))
    · exact .inl (.inl (.inr h))
    · exact .inr h
    · exact .inl (.inr h)

theorem takeWhile_name {t rest : Scan} (h : ∀ d ∈ t, symbolLetter false d = true)
    (hs : Sep rest) : (t ++ rest).takeWhile (symbolLetter false) = t ∧
      (t ++ rest).dropWhile (symbolLetter false) = rest := by
  induction t with
  | nil =>
    cases rest with
    | nil => exact ⟨rfl, rfl⟩
    | cons c u =>
      have hc : symbolLetter false c = false := by
        obtain ⟨h1, h2, _⟩ := hs c rfl
        cases hx : symbolLetter false c with
        | false => rfl
        | true => exact absurd (symbolLetter_tail.mp hx) (by rintro (h | h) <;> contradiction)
      rw [List.nil_append, List.takeWhile_cons, List.dropWhile_cons, hc]
      exact ⟨rfl, rfl⟩
  | cons c u ih =>
    obtain ⟨i1, i2⟩ := ih fun d hd => h d (List.mem_cons_of_mem _ hd)
    rw [List.cons_append, List.takeWhile_cons, List.dropWhile_cons, h c (List.mem_cons_self ..)]
    exact ⟨by rw [if_pos rfl, i1], by rw [if_pos rfl, i2]⟩

/-- Reading a name. -/
theorem name_read {name rest : Scan} (h : IsName name) (hs : Sep rest) :
    defaultSymbol (name ++ rest) = some (name, rest) := by
  obtain ⟨⟨c, t, rfl, hc, ht⟩, _⟩ := h
  obtain ⟨h1, h2⟩ := takeWhile_name (fun d hd => symbolLetter_tail.mpr (ht d hd)) hs
  rw [List.cons_append]
  unfold defaultSymbol
  dsimp only
  rw [if_pos (symbolLetter_head.mpr hc), h1, h2]

theorem not_tail {c : Char} (h1 : ¬ IsLetter c) (h2 : ¬ IsDecimal c) :
    (isAlnum c || c == '_') = false := by
  cases hx : (isAlnum c || c == '_') with
  | false => rfl
  | true =>
    exfalso
    simp only [isAlnum, isAlpha, isUpper, isLower, isDigit, Bool.or_eq_true, Bool.and_eq_true,
      decide_eq_true_eq, beq_iff_eq] at hx
    rcases hx with (((h | h) | h) | h)
    · exact h1 (.inl h)
    · exact h1 (.inr (.inl h))
    · exact h2 h
    · exact h1 (.inr (.inr h))

theorem is_tail {c : Char} (h : IsLetter c ∨ IsDecimal c) : (isAlnum c || c == '_') = true := by
  simp only [isAlnum, isAlpha, isUpper, isLower, isDigit, Bool.or_eq_true, Bool.and_eq_true,
    decide_eq_true_eq, beq_iff_eq]
  rcases h with ((h | h | h) | h)
  · exact .inl (.inl (.inl h))
  · exact .inl (.inl (.inr h))
  · exact .inr h
  · exact .inl (.inr h)

/-- A word at the start of a name matches only all of it. -/
theorem word_none {w name rest : Scan} (hw : ∀ c ∈ w, toUpper c = c ∧ 65 ≤ c.toNat ∧ c.toNat ≤ 90)
    (hn : ∀ d ∈ name, IsLetter d ∨ IsDecimal d) (hs : Sep rest)
    (hne : name.map toUpper ≠ w) : iexpectWord w (name ++ rest) = none := by
  have key : ∀ (w name : Scan), (∀ c ∈ w, toUpper c = c ∧ 65 ≤ c.toNat ∧ c.toNat ≤ 90) →
      (∀ d ∈ name, IsLetter d ∨ IsDecimal d) → ∀ p, iexpectText w (name ++ rest) = some p →
      name.map toUpper = w ∨ ∃ d u, p = d :: u ∧ (IsLetter d ∨ IsDecimal d) := by
    intro w
    induction w with
    | nil =>
      intro name _ hn p hp
      injection hp with hp
      cases name with
      | nil => exact .inl rfl
      | cons d u => exact .inr ⟨d, u ++ rest, hp.symm, hn d (List.mem_cons_self ..)⟩
    | cons c w ih =>
      intro name hw hn p hp
      cases name with
      | nil =>
        exfalso
        rw [List.nil_append] at hp
        unfold iexpectText at hp
        rw [iexpect_none (by
          intro d hd heq
          obtain ⟨h1, h2, _, _⟩ := hs d hd
          obtain ⟨e1, e2, e3⟩ := hw c (List.mem_cons_self ..)
          rw [toUpper_of_not_lower (fun h => h1 (.inr (.inl h))), e1] at heq
          exact h1 (.inl (by rw [heq]; exact ⟨e2, e3⟩)))] at hp
        cases hp
      | cons d u =>
        by_cases hd : toUpper d = toUpper c
        · rw [List.cons_append] at hp
          unfold iexpectText at hp
          rw [iexpect_some hd] at hp
          rcases ih u (fun x hx => hw x (List.mem_cons_of_mem _ hx))
            (fun x hx => hn x (List.mem_cons_of_mem _ hx)) p hp with h | h
          · left
            rw [List.map_cons, h, hd, (hw c (List.mem_cons_self ..)).1]
          · exact .inr h
        · exfalso
          rw [List.cons_append] at hp
          unfold iexpectText at hp
          rw [iexpect_none (by intro x hx; injection hx with hx; exact hx ▸ hd)] at hp
          cases hp
  unfold iexpectWord
  cases hp : iexpectText w (name ++ rest) with
  | none => rfl
  | some p =>
    rcases key w name hw hn p hp with h | ⟨d, u, h, hd⟩
    · exact absurd h hne
    · rw [h]
      dsimp only
      exact if_pos (is_tail hd)

theorem name_all {name : Scan} (h : IsName name) : ∀ d ∈ name, IsLetter d ∨ IsDecimal d := by
  obtain ⟨⟨c, t, rfl, hc, ht⟩, _⟩ := h
  intro d hd
  rcases List.mem_cons.mp hd with rfl | hd
  · exact .inl hc
  · exact ht d hd

theorem name_head {name : Scan} (h : IsName name) : ∃ c t, name = c :: t ∧ IsLetter c := by
  obtain ⟨⟨c, t, h1, hc, _⟩, _⟩ := h
  exact ⟨c, t, h1, hc⟩

theorem letter_not_decimal {c : Char} (h : IsLetter c) : ¬ IsDecimal c := by
  unfold IsDecimal
  rcases letter_toNat h with h | h | h <;> omega

/-- A name is not a constant. -/
theorem constant_name {name rest : Scan} (h : IsName name) (hs : Sep rest) :
    ∃ v, (cP float symbols functions delim loc).parseConstant (name ++ rest) .r10 =
      (.NOT_AN_EXPECTED, v, name ++ rest) := by
  show ∃ v, constant defaultLetter cstyleParse defaultLocation float delim loc (name ++ rest) .r10 = _
  obtain ⟨c, t, hname, hc⟩ := name_head h
  have hw : ∀ w, (∀ c ∈ w, toUpper c = c ∧ 65 ≤ c.toNat ∧ c.toNat ≤ 90) → name.map toUpper ≠ w →
      iexpectWord w (name ++ rest) = none := fun w h1 h2 => word_none h1 (name_all h) hs h2
  have hf : isFloatNumber delim (name ++ rest) .NOT_AN_EXPECTED = false := by
    unfold isFloatNumber
    dsimp only
    rw [hw _ (by decide) (fun hx => h.2 (.inl hx)),
      hw _ (by decide) (fun hx => h.2 (.inr (.inl hx))),
      hw _ (by decide) (fun hx => h.2 (.inr (.inr hx)))]
    rfl
  have hatom : Atom c := .inl hc
  have hl : defaultLetter (name ++ rest) = (.NOT_AN_EXPECTED, 0, name ++ rest) := by
    unfold defaultLetter
    rw [hname, List.cons_append, expect_none (by
      intro d hd; injection hd with hd; subst hd; rintro rfl
      rcases letter_toNat hc with h | h | h <;> revert h <;> decide)]
  have hn : cstyleParse (name ++ rest) .r10 = (.NOT_AN_EXPECTED, Value.undefined, name ++ rest) := by
    rw [hname, List.cons_append]
    exact cstyle_no (letter_not_decimal hc)
  have hloc : defaultLocation (name ++ rest) = none := by
    unfold defaultLocation
    rw [hname, List.cons_append, expect_none (by
      intro d hd; injection hd with hd; subst hd; rintro rfl
      rcases letter_toNat hc with h | h | h <;> revert h <;> decide)]
  refine ⟨Value.undefined, ?_⟩
  unfold constant
  rw [hl]
  dsimp only
  rw [hn]
  dsimp only
  rw [hf, hloc]
  simp

/-- `$` is the current location. -/
theorem constant_here {rest : Scan} (hs : Sep rest) :
    (cP float symbols functions delim loc).parseConstant ('$' :: rest) .r10 =
      (.OK, Value.setUnsigned loc, rest) := by
  show constant defaultLetter cstyleParse defaultLocation float delim loc ('$' :: rest) .r10 = _
  unfold constant
  rw [show defaultLetter ('$' :: rest) = (.NOT_AN_EXPECTED, 0, '$' :: rest) from rfl]
  dsimp only
  rw [cstyle_no (by decide)]
  dsimp only
  rw [show isFloatNumber delim ('$' :: rest) .NOT_AN_EXPECTED = false from rfl]
  have : defaultLocation ('$' :: rest) = some rest := by
    unfold defaultLocation
    rw [expect_some]
    dsimp only
    rw [if_neg]
    intro h
    cases rest with
    | nil => revert h; decide
    | cons c t =>
      obtain ⟨h1, h2, _⟩ := hs c rfl
      exact absurd (symbolLetter_tail.mp h) (by rintro (h | h) <;> contradiction)
  rw [this]
  simp

theorem constant_char {c : Char} (h : c ≠ '\'') {rest : Scan} :
    (cP float symbols functions delim loc).parseConstant ('\'' :: c :: '\'' :: rest) .r10 =
      (.OK, Value.setUnsigned c.toNat, rest) := by
  show constant defaultLetter cstyleParse defaultLocation float delim loc _ .r10 = _
  unfold constant
  have : defaultLetter ('\'' :: c :: '\'' :: rest) = (.OK, c.toNat, rest) := by
    unfold defaultLetter
    rw [expect_some]
    dsimp only
    rw [expect_none (by intro d hd; injection hd with hd; exact hd ▸ h)]
    dsimp only
    rw [expect_some]
  rw [this]

theorem constant_quote {rest : Scan} :
    (cP float symbols functions delim loc).parseConstant
      ('\'' :: '\'' :: '\'' :: '\'' :: rest) .r10 = (.OK, Value.setUnsigned 39, rest) := rfl

theorem constant_paren {t : Scan} :
    (cP float symbols functions delim loc).parseConstant ('(' :: t) .r10 =
      (.NOT_AN_EXPECTED, Value.undefined, '(' :: t) := by
  show constant defaultLetter cstyleParse defaultLocation float delim loc ('(' :: t) .r10 = _
  unfold constant
  rw [show defaultLetter ('(' :: t) = (.NOT_AN_EXPECTED, 0, '(' :: t) from rfl]
  dsimp only
  rw [cstyle_no (by decide)]
  rfl

/-- An opening parenthesis where an operand may stand. -/
theorem step_open {s : St Value} {t : Scan} (hsk : skipSpaces s.scan = '(' :: t)
    (hce : '(' ≠ s.endOfExpr) (hm : s.maybePrefix = true) (he : hasError s.err = false)
    (ha : s.inFnArgs = 0) (hr : s.radix = .r10) (hl : s.ost.length < 8) :
    step (cP float symbols functions delim loc) s = .ok (.cont { s with
      scan := t, ost := Operator.paren s.vst.length :: s.ost
      endOfExpr := '\x00', inParen := s.inParen + 1, maybePrefix := true, expectFnArgs := false
      trace := .opening :: s.trace }) := by
  rw [step_pre hsk (by decide) (by decide) hce hm he, cPrefix_none (by decide)]
  dsimp only
  unfold stepOperand
  rw [hr, constant_paren]
  dsimp only
  rw [show (cP float symbols functions delim loc).readFunctionName ('(' :: t) = none from rfl]
  dsimp only
  unfold stepSymbol
  rw [show (cP float symbols functions delim loc).readSymbol ('(' :: t) = none from rfl]
  dsimp only
  unfold stepPunct
  rw [if_neg (show ¬ s.inFnArgs > 0 by omega)]
  dsimp only
  rw [show (cP float symbols functions delim loc).ops.isOpen ('(' :: t) = some t from rfl]
  dsimp only
  rw [if_neg (by rw [hm]; simp),
    if_neg (show ¬ s.ost.length ≥ capacity by show ¬ s.ost.length ≥ 8; omega), hr]

theorem reduceClose_step (P : Plugins Value) {t : Op} (h : t.isOpenParen = false) (os : List Op)
    (st : List Value) (r : Radix) :
    reduceClose P (t :: os) st r = (evalOp P t st r 0).bind fun
      | .error e => .ok (.error e)
      | .ok (st, r) => reduceClose P os st r := by
  conv => lhs; unfold reduceClose
  rw [h, if_neg (by decide)]
  cases evalOp P t st r 0 with
  | ok a => cases a <;> rfl
  | _ => rfl

theorem reduceAll_step (P : Plugins Value) {t : Op} (h : t.isOpenParen = false) (os : List Op)
    (st : List Value) (r : Radix) :
    reduceAll P (t :: os) st r = (evalOp P t st r 0).bind fun
      | .error e => .ok (.error e)
      | .ok (st, r) => reduceAll P os st r := by
  conv => lhs; unfold reduceAll
  rw [h, if_neg (by decide)]
  cases evalOp P t st r 0 with
  | ok a => cases a <;> rfl
  | _ => rfl

theorem reduceInfix_step (P : Plugins Value) {opr t : Op} (h : t.isNoneAssoc opr = false)
    (h2 : t.isHigher opr = true) (os : List Op) (st : List Value) (r : Radix) :
    reduceInfix P opr (t :: os) st r = (evalOp P t st r 0).bind fun
      | .error e => .ok (.error e)
      | .ok (st, r) => reduceInfix P opr os st r := by
  conv => lhs; unfold reduceInfix
  rw [h, if_neg (by decide), h2, if_pos rfl]
  cases evalOp P t st r 0 with
  | ok a => cases a <;> rfl
  | _ => rfl

/-- A closing parenthesis after an operand. -/
theorem step_close {s : St Value} {rest : Scan} (hsk : skipSpaces s.scan = ')' :: rest)
    (hce : ')' ≠ s.endOfExpr) (hm : s.maybePrefix = false) (he : hasError s.err = false)
    (ha : s.inFnArgs = 0) {O ost : List Op} {V vst : List Value} {n : Nat}
    {x : Out (Except Err Value)} (hO : s.ost = O ++ Operator.paren n :: ost) (hV : s.vst = V ++ vst)
    (hp : Pend O V x) (hq : ∀ o ∈ O, o.isOpenParen = false) (hl : (V ++ vst).length ≤ 8)
    (hf : ∀ o ∈ ost, o.isFunction = false) :
    step (cP float symbols functions delim loc) s = x.bind fun
      | .error e => .ok (.ret { s with scan := rest, err := setErrorIf s.err e } Value.undefined)
      | .ok v => .ok (.cont { s with
        scan := rest, vst := v :: vst, ost := ost, inParen := s.inParen - 1, maybePrefix := false
        endOfExpr := if s.inParen - 1 = 0 then delim else s.endOfExpr
        trace := .closing :: s.trace }) := by
  rw [step_inf hsk (by decide) (by decide) hce hm he]
  rw [show cInfix (')' :: rest) = none from rfl]
  dsimp only
  unfold stepPunct
  rw [if_neg (show ¬ s.inFnArgs > 0 by omega)]
  dsimp only
  rw [show (cP float symbols functions delim loc).ops.isOpen (')' :: rest) = none from rfl]
  dsimp only
  rw [show (cP float symbols functions delim loc).ops.isClose (')' :: rest) = some rest from rfl]
  dsimp only
  rw [hO, hV, pend_reduce (cP float symbols functions delim loc)
    (reduceClose (cP float symbols functions delim loc)) (fun o => o.isOpenParen = false)
    (fun t os st r ht => reduceClose_step _ ht os st r) hp hq _ _ _ hl]
  cases x with
  | ok a =>
    cases a with
    | error e => rfl
    | ok v =>
      dsimp only [Out.bind]
      have h1 : reduceClose (cP float symbols functions delim loc) (Operator.paren n :: ost)
        (v :: vst) s.radix = .ok (.ok (Operator.paren n :: ost, v :: vst, s.radix)) := rfl
      rw [h1]
      dsimp only
      cases ost with
      | nil => rfl
      | cons f os =>
        dsimp only
        rw [hf f (List.mem_cons_self ..), if_neg (by decide)]
        rfl
  | _ => rfl

end

/-- Characters that do not continue an operator. -/
def NoOp (t : Scan) : Prop :=
  ∀ c, t.head? = some c → c ≠ '=' ∧ c ≠ '<' ∧ c ≠ '>' ∧ c ≠ '&' ∧ c ≠ '|'

theorem expect_noOp {t : Scan} (h : NoOp t) (c : Char)
    (hc : c = '=' ∨ c = '<' ∨ c = '>' ∨ c = '&' ∨ c = '|') : expect c t = none := by
  apply expect_none
  intro d hd
  obtain ⟨h1, h2, h3, h4, h5⟩ := h d hd
  rcases hc with rfl | rfl | rfl | rfl | rfl <;> assumption

theorem cInfix_text (o : BinOp) {t : Scan} (h : NoOp t) :
    cInfix (o.text ++ t) = some (opOf o, t) := by
  have e1 := expect_noOp h '=' (by simp)
  have e2 := expect_noOp h '<' (by simp)
  have e3 := expect_noOp h '>' (by simp)
  have e4 := expect_noOp h '&' (by simp)
  have e5 := expect_noOp h '|' (by simp)
  cases o with
  | lt =>
    show (match expect '<' t with
      | some q => some (opShiftLeft, q)
      | none => orElse '=' opLogicalLe opLogicalLt t) = _
    rw [e2]
    unfold orElse
    dsimp only
    rw [e1]
    rfl
  | gt =>
    show (match expect '>' t with
      | some q => some (opShiftRight, q)
      | none => orElse '=' opLogicalGe opLogicalGt t) = _
    rw [e3]
    unfold orElse
    dsimp only
    rw [e1]
    rfl
  | and =>
    show orElse '&' opLogicalAnd opBitwiseAnd t = _
    unfold orElse
    rw [e4]
    rfl
  | or =>
    show orElse '|' opLogicalOr opBitwiseOr t = _
    unfold orElse
    rw [e5]
    rfl
  | _ => rfl

theorem cPrefix_text (o : UnOp) {t : Scan} (h : NoOp t) :
    cPrefix (o.text ++ t) = some (opOf1 o, t) := by
  cases o with
  | not =>
    show (if deref t ≠ '=' then some (opLogicalNot, t) else none) = _
    rw [if_pos]
    · rfl
    · cases t with
      | nil => decide
      | cons c u => exact (h c rfl).1
  | _ => rfl

/-- The text of an operand starts with none of the characters that continue an operator. -/
theorem writes_head {e : Expr} {t : Scan} (h : Writes e t) (rest : Scan) : NoOp (t ++ rest) := by
  have hatom : ∀ c u, Atom c → NoOp (c :: u ++ rest) := by
    intro c u hc d hd
    injection hd with hd
    subst hd
    exact ⟨atom_ne hc _ (by decide), atom_ne hc _ (by decide), atom_ne hc _ (by decide),
      atom_ne hc _ (by decide), atom_ne hc _ (by decide)⟩
  induction h generalizing rest with
  | num n t h =>
    obtain ⟨c, u, rfl, hc⟩ := literal_head h
    exact hatom c u (.inr (.inl (digit10_decimal hc)))
  | char c h => exact hatom _ _ (.inr (.inr (.inl rfl)))
  | quote => exact hatom _ _ (.inr (.inr (.inl rfl)))
  | here => exact hatom _ _ (.inr (.inr (.inr rfl)))
  | sym name h =>
    obtain ⟨c, u, rfl, hc⟩ := name_head h
    exact hatom c u (.inl hc)
  | paren e t sp h hsp ih =>
    intro d hd; injection hd with hd; subst hd; decide
  | un o e t h ih =>
    intro d hd
    cases o <;> (injection hd with hd; subst hd; decide)
  | bin o l r tl sp tr hl hsp hr ihl ihr =>
    rw [List.append_assoc, List.append_assoc, List.append_assoc]
    exact ihl _ hatom
  | blank e c t hc h ih =>
    intro d hd
    injection hd with hd
    subst hd
    unfold Blank at hc
    refine ⟨?_, ?_, ?_, ?_, ?_⟩ <;> (rintro rfl; revert hc; decide)

end Libasm.Eval
