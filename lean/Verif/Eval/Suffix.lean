import Verif.Eval.Count
/-
What a reader leaves is the end of what it was given.
-/
namespace Libasm.Eval
open Scan Number Ctype

variable {V : Type}

/-- Whatever a plugin leaves is a suffix of its text; a closing parenthesis is the character `)`. -/
structure Suffixes (P : Plugins V) : Prop where
  pre : ∀ s st r o rest st' r', P.ops.readPrefix s st r = .ok (some o, rest, st', r') → rest <:+ s
  inf : ∀ s o rest, P.ops.readInfix s = some (o, rest) → rest <:+ s
  opening : ∀ s rest, P.ops.isOpen s = some rest → rest <:+ s
  closing : ∀ s rest, P.ops.isClose s = some rest → s = ')' :: rest
  const : ∀ s r v rest, P.parseConstant s r = (.OK, v, rest) → rest <:+ s
  fn : ∀ s name rest, P.readFunctionName s = some (name, rest) → rest <:+ s
  symbol : ∀ s name rest, P.readSymbol s = some (name, rest) → rest <:+ s

theorem expectP_suffix {p : Char → Bool} {s rest : Scan} (h : expectP p s = some rest) :
    rest <:+ s := by
  obtain ⟨c, rfl, _⟩ := expectP_eq h
  exact List.suffix_cons c rest

theorem expect_suffix {c : Char} {s rest : Scan} (h : expect c s = some rest) : rest <:+ s :=
  expectP_suffix h

theorem iexpect_suffix {c : Char} {s rest : Scan} (h : iexpect c s = some rest) : rest <:+ s :=
  expectP_suffix h

theorem iexpectText_suffix {w : List Char} {s rest : Scan} (h : iexpectText w s = some rest) :
    rest <:+ s := by
  induction w generalizing s with
  | nil => simp only [iexpectText, Option.some.injEq] at h; rw [h]; exact List.suffix_refl _
  | cons c w ih =>
    unfold iexpectText at h
    cases h1 : iexpect c s with
    | none => rw [h1] at h; cases h
    | some t => rw [h1] at h; exact (ih h).trans (iexpect_suffix h1)

theorem skipSpaces_suffix (s : Scan) : skipSpaces s <:+ s := List.dropWhile_suffix _

/-! ### Operators -/

/-- A reader leaves a suffix. -/
def Leaves (r : Read) : Prop := ∀ s o rest, r s = some (o, rest) → rest <:+ s

theorem cPrefix_leaves : Leaves cPrefix := by
  intro s o rest h
  unfold cPrefix at h
  split at h
  next p hp =>
    simp only [Option.some.injEq, Prod.mk.injEq] at h
    rw [← h.2]; exact expect_suffix hp
  next =>
    split at h
    next p hp =>
      split at h
      · simp only [Option.some.injEq, Prod.mk.injEq] at h
        rw [← h.2]; exact expect_suffix hp
      · cases h
    next =>
      split at h
      next p hp =>
        simp only [Option.some.injEq, Prod.mk.injEq] at h
        rw [← h.2]; exact expect_suffix hp
      next =>
        obtain ⟨rfl, hp⟩ := found_eq h
        exact expect_suffix hp

theorem cInfix_leaves : Leaves cInfix := by
  intro s o rest h
  have hsome : ∀ {o' : Op} {c : Char} {p : Scan}, some (o', p) = some (o, rest) →
      rest <:+ c :: p := by
    intro o' c p h
    simp only [Option.some.injEq, Prod.mk.injEq] at h
    rw [← h.2]; exact List.suffix_cons _ _
  have hor : ∀ {y n : Op} {c d : Char} {p : Scan},
      orElse d y n p = some (o, rest) → rest <:+ c :: p := by
    intro y n c d p h
    rcases orElse_eq h with ⟨rfl, hp⟩ | ⟨rfl, rfl⟩
    · exact (expect_suffix hp).trans (List.suffix_cons _ _)
    · exact List.suffix_cons _ _
  have hfound : ∀ {y : Op} {c d : Char} {p : Scan},
      found y (expect d p) = some (o, rest) → rest <:+ c :: p := by
    intro y c d p h
    obtain ⟨rfl, hp⟩ := found_eq h
    exact (expect_suffix hp).trans (List.suffix_cons _ _)
  have hmat : ∀ {x y n : Op} {c d : Char} {e : Char} {p : Scan},
      (match expect e p with
        | some q => some (x, q)
        | none => orElse d y n p) = some (o, rest) → rest <:+ c :: p := by
    intro x y n c d e p h
    split at h
    next q hq =>
      simp only [Option.some.injEq, Prod.mk.injEq] at h
      rw [← h.2]
      exact (expect_suffix hq).trans (List.suffix_cons _ _)
    · exact hor h
  unfold cInfix at h
  split at h
  · cases h
  next c p =>
    revert h
    refine ite_elim hsome ?_
    refine ite_elim hsome ?_
    refine ite_elim hsome ?_
    refine ite_elim hsome ?_
    refine ite_elim hsome ?_
    refine ite_elim hmat ?_
    refine ite_elim hmat ?_
    refine ite_elim hor ?_
    refine ite_elim hsome ?_
    refine ite_elim hor ?_
    refine ite_elim hfound ?_
    refine ite_elim hfound ?_
    intro h; cases h

theorem Leaves.orElse {a b c : Read} (ha : Leaves a) (hb : Leaves b)
    (hc : ∀ s, c s = match a s with | some r => some r | none => b s) : Leaves c := by
  intro s o rest h
  rw [hc] at h
  split at h
  next r hr =>
    injection h with h
    subst h
    exact ha s o rest hr
  next => exact hb s o rest h

theorem leaves_found {c : Char} {o : Op} : Leaves (fun s => found o (expect c s)) := by
  intro s o' rest h
  obtain ⟨rfl, hp⟩ := found_eq h
  exact expect_suffix hp

theorem leaves_foundText {w : List Char} {o : Op} :
    Leaves (fun s => found o (iexpectText w s)) := by
  intro s o' rest h
  obtain ⟨rfl, hp⟩ := found_eq h
  exact iexpectText_suffix hp

theorem leaves_word {table : List (List Char × Op)} : Leaves (word table) := by
  intro s o rest h
  unfold word at h
  split at h
  next e he =>
    simp only [Option.some.injEq, Prod.mk.injEq] at h
    rw [← h.2]; exact List.dropWhile_suffix _
  next => cases h

theorem intelPrefix_leaves : Leaves intelPrefix := by
  have h3 : Leaves (fun s => match word intelPrefixWords s with
    | some r => some r | none => cPrefix s) := leaves_word.orElse cPrefix_leaves (fun _ => rfl)
  have h4 : Leaves (fun s => match expect '+' s with
      | some p => some (intelUnaryPlus, p)
      | none => match word intelPrefixWords s with
        | some r => some r | none => cPrefix s) :=
    (leaves_found (c := '+') (o := intelUnaryPlus)).orElse h3
      (fun s => by cases expect '+' s <;> rfl)
  exact (leaves_found (c := '-') (o := intelUnaryMinus)).orElse h4
    (fun s => by unfold intelPrefix; cases expect '-' s <;> rfl)

theorem signeticsPrefix_leaves : Leaves signeticsPrefix := by
  have h : Leaves (fun s => match expect '>' s with
      | some p => some (intelHigh, p) | none => cPrefix s) :=
    (leaves_found (c := '>') (o := intelHigh)).orElse cPrefix_leaves
      (fun s => by cases expect '>' s <;> rfl)
  exact (leaves_found (c := '<') (o := intelLow)).orElse h
    (fun s => by unfold signeticsPrefix; cases expect '<' s <;> rfl)

theorem texasPrefix_leaves : Leaves texasPrefix :=
  (leaves_found (c := '#') (o := opBitwiseNot)).orElse cPrefix_leaves
    (fun s => by unfold texasPrefix; cases expect '#' s <;> rfl)

theorem texasInfix_leaves : Leaves texasInfix := by
  have h1 : Leaves (fun s => match iexpectText ['#', '='] s with
      | some p => some (opLogicalNe, p) | none => cInfix s) :=
    (leaves_foundText (w := ['#', '=']) (o := opLogicalNe)).orElse
      cInfix_leaves (fun s => by cases iexpectText ['#', '='] s <;> rfl)
  have h2 : Leaves (fun s => match expect '=' s with
      | some p => some (opLogicalEq, p)
      | none => match iexpectText ['#', '='] s with
        | some p => some (opLogicalNe, p) | none => cInfix s) :=
    (leaves_found (c := '=') (o := opLogicalEq)).orElse h1
      (fun s => by cases expect '=' s <;> rfl)
  have h3 := (leaves_foundText (w := ['/', '/']) (o := motorolaShiftRight)).orElse h2
    (c := fun s => match iexpectText ['/', '/'] s with
      | some p => some (motorolaShiftRight, p)
      | none => match expect '=' s with
        | some p => some (opLogicalEq, p)
        | none => match iexpectText ['#', '='] s with
          | some p => some (opLogicalNe, p) | none => cInfix s)
    (fun s => by cases iexpectText ['/', '/'] s <;> rfl)
  have h4 := (leaves_foundText (w := ['&', '&']) (o := opBitwiseXor)).orElse h3
    (c := fun s => match iexpectText ['&', '&'] s with
      | some p => some (opBitwiseXor, p)
      | none => match iexpectText ['/', '/'] s with
        | some p => some (motorolaShiftRight, p)
        | none => match expect '=' s with
          | some p => some (opLogicalEq, p)
          | none => match iexpectText ['#', '='] s with
            | some p => some (opLogicalNe, p) | none => cInfix s)
    (fun s => by cases iexpectText ['&', '&'] s <;> rfl)
  exact (leaves_foundText (w := ['+', '+']) (o := opBitwiseOr)).orElse h4
    (fun s => by unfold texasInfix; cases iexpectText ['+', '+'] s <;> rfl)

theorem pdp8Infix_leaves : Leaves pdp8Infix :=
  (leaves_found (c := '!') (o := opBitwiseOr)).orElse cInfix_leaves
    (fun s => by unfold pdp8Infix; cases expect '!' s <;> rfl)

theorem motorolaBang_leaves : Leaves motorolaBang := by
  have h2 : ∀ (a b : Char) (t : Scan), t <:+ a :: b :: t := fun a b t =>
    (List.suffix_cons b t).trans (List.suffix_cons a _)
  intro s o rest h
  unfold motorolaBang at h
  repeat' split at h
  all_goals first
    | (exfalso; cases h; done)
    | (simp only [Option.some.injEq, Prod.mk.injEq] at h
       rw [← h.2]
       first
         | exact List.suffix_cons _ _
         | exact h2 _ _ _
         | exact (h2 _ _ _).trans (List.suffix_cons _ _))

theorem motorolaInfix_leaves : Leaves motorolaInfix := by
  have h : Leaves (fun s => (expect '!' s).bind motorolaBang) := by
    intro s o rest h
    cases hp : expect '!' s with
    | none => simp only [hp, Option.bind_none] at h; cases h
    | some p =>
      simp only [hp, Option.bind_some] at h
      exact (motorolaBang_leaves p o rest h).trans (expect_suffix hp)
  exact h.orElse cInfix_leaves (fun _ => rfl)

theorem pure_suffix {r : Read} (hr : Leaves r) (s : Scan) (st : List Value) (radix : Radix)
    (o : Op) (rest : Scan) (st' : List Value) (radix' : Radix)
    (h : Eval.pure r s st radix = .ok (some o, rest, st', radix')) : rest <:+ s := by
  cases hs : r s with
  | none =>
    simp only [Eval.pure, hs, Out.ok.injEq, Prod.mk.injEq] at h
    exact absurd h.1 (by simp)
  | some y =>
    simp only [Eval.pure, hs, Out.ok.injEq, Prod.mk.injEq] at h
    rw [← h.2.1]
    exact hr s y.1 y.2 hs

theorem style_prefix_suffix (style : OpStyle) (hst : style ≠ .pdp11) (s : Scan) (st : List Value)
    (radix : Radix) (o : Op) (rest : Scan) (st' : List Value) (radix' : Radix)
    (h : style.parser.readPrefix s st radix = .ok (some o, rest, st', radix')) : rest <:+ s := by
  cases style with
  | c => exact pure_suffix cPrefix_leaves _ _ _ _ _ _ _ h
  | intel => exact pure_suffix intelPrefix_leaves _ _ _ _ _ _ _ h
  | motorola => exact pure_suffix cPrefix_leaves _ _ _ _ _ _ _ h
  | signetics => exact pure_suffix signeticsPrefix_leaves _ _ _ _ _ _ _ h
  | texas => exact pure_suffix texasPrefix_leaves _ _ _ _ _ _ _ h
  | zilog =>
    exact pure_suffix (r := zilogPrefix) (leaves_word.orElse cPrefix_leaves fun _ => rfl)
      _ _ _ _ _ _ _ h
  | pdp8 => exact pure_suffix cPrefix_leaves _ _ _ _ _ _ _ h
  | pdp11 => exact absurd rfl hst

theorem style_infix_suffix (style : OpStyle) (hst : style ≠ .pdp11) (s : Scan) (o : Op)
    (rest : Scan) (h : style.parser.readInfix s = some (o, rest)) : rest <:+ s := by
  cases style with
  | c => exact cInfix_leaves s o rest h
  | intel =>
    exact (leaves_word.orElse cInfix_leaves fun _ => rfl : Leaves intelInfix) s o rest h
  | motorola => exact motorolaInfix_leaves s o rest h
  | signetics => exact cInfix_leaves s o rest h
  | texas => exact texasInfix_leaves s o rest h
  | zilog =>
    exact (leaves_word.orElse cInfix_leaves fun _ => rfl : Leaves zilogInfix) s o rest h
  | pdp8 => exact pdp8Infix_leaves s o rest h
  | pdp11 => exact absurd rfl hst

/-! ### Numbers -/

theorem strLoop_suffix (r : Radix) (s : Scan) :
    ∀ v ovf, (strLoop r s v ovf).2.2 <:+ s := by
  induction s with
  | nil => intro v ovf; exact List.suffix_refl _
  | cons c t ih =>
    intro v ovf
    unfold strLoop
    split
    · exact (ih _ _).trans (List.suffix_cons _ _)
    · exact List.suffix_refl _

/-- The text left is a suffix. -/
def Keeps (s : Scan) (x : Err × Value × Scan) : Prop := x.2.2 <:+ s

theorem read_keeps (r : Radix) (s : Scan) : Keeps s (read r s) := by
  have hl := strLoop_suffix r s 0 false
  unfold Keeps Number.read
  split
  · revert hl
    generalize strLoop r s 0 false = x
    intro hl
    obtain ⟨v, ovf, rest⟩ := x
    cases ovf <;> exact hl
  · exact List.suffix_refl _

theorem keeps_advance {s p : Scan} {x : Err × Value × Scan} (hx : Keeps p x) (hp : p <:+ s) :
    Keeps s (advance s x) := by
  unfold advance
  split
  · exact List.suffix_refl _
  · exact List.IsSuffix.trans hx hp

theorem keeps_notNumber (s : Scan) : Keeps s (notNumber s) := List.suffix_refl _

theorem cstylePrefix_suffix {s p : Scan} {d r : Radix} (h : cstylePrefix s d = some (r, p)) :
    p <:+ s := by
  unfold cstylePrefix at h
  split at h
  next q hq =>
    simp only [Option.some.injEq, Prod.mk.injEq] at h
    rw [← h.2]; exact iexpectText_suffix hq
  next =>
    split at h
    next q hq =>
      simp only [Option.some.injEq, Prod.mk.injEq] at h
      rw [← h.2]; exact iexpectText_suffix hq
    next =>
      split at h
      · simp only [Option.some.injEq, Prod.mk.injEq] at h
        rw [← h.2]; exact List.suffix_refl _
      · split at h
        · simp only [Option.some.injEq, Prod.mk.injEq] at h
          rw [← h.2]; exact List.suffix_refl _
        · cases h

theorem cstyle_keeps (s : Scan) (d : Radix) : Keeps s (cstyleParse s d) := by
  unfold cstyleParse
  split
  · exact keeps_notNumber s
  next r p hp => exact keeps_advance (read_keeps r p) (cstylePrefix_suffix hp)

theorem scanNumberEnd_suffix {s e : Scan} {r : Radix} {c : Char}
    (h : scanNumberEnd s r (some c) = some e) : e <:+ s := by
  unfold scanNumberEnd at h
  split at h
  · cases h
  split at h
  · split at h
    · cases h
    · exact (iexpect_suffix h).trans (List.dropWhile_suffix _)
  · cases h

theorem intelSuffix_suffix {s e : Scan} {r : Radix} (h : intelSuffix s = some (r, e)) :
    e <:+ s := by
  unfold intelSuffix at h
  split at h
  next x hx => injection h with h; injection h with _ h; exact h ▸ scanNumberEnd_suffix hx
  split at h
  next x hx => injection h with h; injection h with _ h; exact h ▸ scanNumberEnd_suffix hx
  split at h
  next x hx => injection h with h; injection h with _ h; exact h ▸ scanNumberEnd_suffix hx
  split at h
  next x hx => injection h with h; injection h with _ h; exact h ▸ scanNumberEnd_suffix hx
  split at h
  next x hx => injection h with h; injection h with _ h; exact h ▸ scanNumberEnd_suffix hx
  cases h

theorem intelRead_keeps {s e : Scan} {r : Radix} (h : e <:+ s) : Keeps s (intelRead s r e) := by
  unfold intelRead
  dsimp only
  split
  · exact read_keeps r s
  · exact h

theorem intel_keeps (s : Scan) (d : Radix) : Keeps s (intelParse s d) := by
  unfold intelParse
  split
  · exact cstyle_keeps s d
  next r e he => exact intelRead_keeps (intelSuffix_suffix he)

theorem optExpect_suffix {c : Option Char} {s p : Scan} (h : optExpect c s = some p) :
    p <:+ s := by
  cases c with
  | none => cases h
  | some c => exact iexpect_suffix h

theorem prefixRadix_suffix {k : Prefixes} {s p : Scan} {r : Radix}
    (h : prefixRadix k s = some (r, p)) : p <:+ s := by
  unfold prefixRadix at h
  split at h
  next x hx => injection h with h; injection h with _ h; exact h ▸ optExpect_suffix hx
  split at h
  next x hx => injection h with h; injection h with _ h; exact h ▸ optExpect_suffix hx
  split at h
  next x hx => injection h with h; injection h with _ h; exact h ▸ optExpect_suffix hx
  split at h
  next x hx => injection h with h; injection h with _ h; exact h ▸ optExpect_suffix hx
  cases h

theorem prefix_keeps (k : Prefixes) (s : Scan) (d : Radix) : Keeps s (prefixParse k s d) := by
  unfold prefixParse
  split
  · exact intel_keeps s d
  next r p hp => exact keeps_advance (read_keeps r p) (prefixRadix_suffix hp)

theorem zilogPrefix_suffix {s p : Scan} {r : Radix} (h : Number.zilogPrefix s = some (r, p)) :
    p <:+ s := by
  unfold Number.zilogPrefix at h
  split at h
  next x hx => injection h with h; injection h with _ h; exact h ▸ iexpectText_suffix hx
  split at h
  next x hx => injection h with h; injection h with _ h; exact h ▸ iexpectText_suffix hx
  split at h
  next x hx =>
    split at h
    · injection h with h; injection h with _ h; exact h ▸ expect_suffix hx
    · cases h
  cases h

theorem zilog_keeps (s : Scan) (d : Radix) : Keeps s (zilogParse s d) := by
  unfold zilogParse
  split
  · exact intel_keeps s d
  next r p hp => exact keeps_advance (read_keeps r p) (zilogPrefix_suffix hp)

theorem ibm_keeps (k : Prefixes) (s : Scan) (d : Radix) : Keeps s (ibmParse k s d) := by
  unfold ibmParse
  split
  · exact intel_keeps s d
  next r p hp =>
    split
    · exact keeps_notNumber s
    next q hq =>
      split
      · dsimp only
        split
        next y hy =>
          exact (expect_suffix hy).trans (List.IsSuffix.trans (read_keeps r q)
            ((expect_suffix hq).trans (prefixRadix_suffix hp)))
        next => exact List.suffix_refl _
      · exact keeps_notNumber s

theorem rca_keeps (s : Scan) (d : Radix) : Keeps s (rcaParse s d) := by
  unfold rcaParse
  split
  · dsimp only
    split
    · exact List.IsSuffix.trans (read_keeps .r16 (s.drop 1)) (List.drop_suffix 1 s)
    · exact List.suffix_refl _
  · exact ibm_keeps _ _ _

theorem nationalPrefix_suffix {k : Prefixes} {s p : Scan} {r : Radix}
    (h : nationalPrefix k s = some (r, p)) : p <:+ s := by
  unfold nationalPrefix at h
  split at h
  next x hx =>
    injection h with h; injection h with _ h; subst h
    split at hx
    · cases h1 : iexpect 'X' s with
      | none => rw [h1] at hx; exact iexpect_suffix hx
      | some y => rw [h1] at hx; injection hx with hx; exact hx ▸ iexpect_suffix h1
    · cases hx
  split at h
  next x hx =>
    injection h with h; injection h with _ h; subst h
    split at hx
    · exact iexpect_suffix hx
    · cases hx
  exact prefixRadix_suffix h

theorem national_keeps (k : Prefixes) (s : Scan) (d : Radix) : Keeps s (nationalParse k s d) := by
  unfold nationalParse
  split
  · exact intel_keeps s d
  next r p hp =>
    split
    · exact keeps_notNumber s
    next q hq =>
      split
      · dsimp only
        refine keeps_advance (p := q) ?_ ((expect_suffix hq).trans (nationalPrefix_suffix hp))
        have h3 := read_keeps r q
        show (expect '\'' (read r q).2.2).getD (read r q).2.2 <:+ q
        cases h4 : expect '\'' (read r q).2.2 with
        | none => exact h3
        | some y => exact (expect_suffix h4).trans h3
      · exact keeps_notNumber s

theorem fairchild_keeps (s : Scan) (d : Radix) : Keeps s (fairchildParse s d) := by
  unfold fairchildParse
  split
  · exact keeps_advance (read_keeps _ _) (List.drop_suffix 1 s)
  · exact ibm_keeps _ _ _

theorem pdp11_keeps (s : Scan) (d : Radix) : Keeps s (pdp11Parse s d) := by
  unfold pdp11Parse
  split
  next a b t =>
    exact (List.suffix_cons b t).trans ((List.suffix_cons a _).trans (List.suffix_cons _ _))
  · split
    next e he =>
      split
      · exact intel_keeps _ _
      · exact intelRead_keeps (scanNumberEnd_suffix he)
    · exact intel_keeps _ _

theorem parse_keeps (p : Parser) (s : Scan) (d : Radix) : Keeps s (p.parse s d) := by
  cases p with
  | cstyle => exact cstyle_keeps s d
  | intel => exact intel_keeps s d
  | motorola => exact prefix_keeps _ s d
  | zilog => exact zilog_keeps s d
  | texas => exact prefix_keeps _ s d
  | rca => exact rca_keeps s d
  | fairchild => exact fairchild_keeps s d
  | panasonic => exact ibm_keeps _ s d
  | signetics => exact ibm_keeps _ s d
  | ins80xx => exact national_keeps _ s d
  | ns32000 => exact national_keeps _ s d
  | pdp11 => exact pdp11_keeps s d

theorem letter_suffix {s rest : Scan} {c : Nat} (h : defaultLetter s = (.OK, c, rest)) :
    rest <:+ s := by
  unfold defaultLetter at h
  split at h
  · simp at h
  next p hp =>
    split at h
    next q hq =>
      split at h
      next q2 hq2 =>
        split at h
        next q3 hq3 =>
          simp only [Prod.mk.injEq] at h
          rw [← h.2.2]
          exact (expect_suffix hq3).trans ((expect_suffix hq2).trans
            ((expect_suffix hq).trans (expect_suffix hp)))
        next => simp at h
      next => simp at h
    next =>
      split at h
      · simp at h
      next c q =>
        split at h
        next q3 hq3 =>
          simp only [Prod.mk.injEq] at h
          rw [← h.2.2]
          exact (expect_suffix hq3).trans ((List.suffix_cons _ _).trans (expect_suffix hp))
        next => simp at h

theorem location_suffix {s rest : Scan} (h : defaultLocation s = some rest) : rest <:+ s := by
  unfold defaultLocation at h
  split at h
  next p hp =>
    split at h
    · cases h
    · injection h with h; exact h ▸ expect_suffix hp
  next => cases h

theorem symbol_suffix {s rest : Scan} {name : List Char}
    (h : defaultSymbol s = some (name, rest)) : rest <:+ s := by
  unfold defaultSymbol at h
  split at h
  · cases h
  next c t =>
    split at h
    · injection h with h
      injection h with _ h
      rw [← h]
      exact (List.dropWhile_suffix _).trans (List.suffix_cons _ _)
    · cases h

theorem constant_suffix (number : Parser) (float : Scan → Option (Err × Value × Scan))
    (hfloat : ∀ s v rest, float s = some (.OK, v, rest) → rest <:+ s)
    (delim : Char) (loc : Nat) (s : Scan) (r : Radix) (v : Value) (rest : Scan)
    (h : constant defaultLetter number.parse defaultLocation float delim loc s r = (.OK, v, rest)) :
    rest <:+ s := by
  unfold constant at h
  split at h
  next c p hl =>
    simp only [Prod.mk.injEq] at h
    rw [← h.2.2]; exact letter_suffix hl
  next =>
    dsimp only at h
    split at h
    next x hx =>
      split at hx
      · subst h; exact hfloat s v rest hx
      · cases hx
    next =>
      split at h
      · have h2 := parse_keeps number s r
        have h3 : (number.parse s r).2.2 = rest := by
          rw [Prod.mk.injEq, Prod.mk.injEq] at h; exact h.2.2
        unfold Keeps at h2
        rw [h3] at h2; exact h2
      · split at h
        next p hp =>
          simp only [Prod.mk.injEq] at h
          rw [← h.2.2]; exact location_suffix hp
        · simp at h
  next e x y hne hne2 _ =>
    exfalso
    rw [Prod.mk.injEq] at h
    exact hne h.1

theorem expect_eq {c : Char} {s rest : Scan} (h : expect c s = some rest) : s = c :: rest := by
  obtain ⟨d, rfl, hd⟩ := expectP_eq h
  have : d = c := by simpa using hd
  rw [this]

theorem stylePlugins_suffixes (number : Parser) (style : OpStyle) (hst : style ≠ .pdp11)
    (float : Scan → Option (Err × Value × Scan))
    (hfloat : ∀ s v rest, float s = some (.OK, v, rest) → rest <:+ s)
    (symbols : List Char → Option Value)
    (functions : List Char → Option (Int × (List Value → Out (Except Err Value))))
    (delim : Char) (loc : Nat) :
    Suffixes (stylePlugins number style float symbols functions delim loc) := by
  refine ⟨style_prefix_suffix style hst, style_infix_suffix style hst, ?_, ?_,
    constant_suffix number float hfloat delim loc, fun _ _ _ => symbol_suffix,
    fun _ _ _ => symbol_suffix⟩
  · intro s rest h
    cases style with
    | pdp11 => exact absurd rfl hst
    | _ => exact expect_suffix h
  · intro s rest h
    cases style with
    | pdp11 => exact absurd rfl hst
    | _ => exact expect_eq h

/-! ### Open parentheses -/

/-- Functions are not taken for parentheses. -/
def FnOk (os : List (Operator V)) : Prop := ∀ o ∈ os, o.isFunction = true → o.isOpenParen = false

theorem suffix_count {a b : Scan} (h : a <:+ b) (c : Char) : a.count c ≤ b.count c :=
  List.Sublist.count_le c h.sublist

theorem evalOp_parens {P : Plugins V} (opr : Operator V) (hopr : opr.prec < 254) :
    ∀ (os : List (Operator V)) (st : List V) (r : Radix) os' st' r',
      reduceInfix P opr os st r = .ok (.ok (os', st', r')) → parens os' = parens os := by
  intro os
  induction os with
  | nil =>
    intro st r os' st' r' h
    simp only [reduceInfix, Out.ok.injEq, Except.ok.injEq, Prod.mk.injEq] at h
    rw [← h.1]
  | cons t os ih =>
    intro st r os' st' r' h
    unfold reduceInfix at h
    split at h
    · simp at h
    split at h
    next hh =>
      obtain ⟨a, ha, h⟩ := Out.bind_ok h
      rcases a with e | ⟨st1, r1⟩
      · simp at h
      · have hp : t.isOpenParen = false := by
          unfold Operator.isHigher at hh
          unfold Operator.isOpenParen
          simp only [Bool.or_eq_true, Bool.and_eq_true, decide_eq_true_eq] at hh
          simp only [decide_eq_false_iff_not]
          omega
        rw [parens_cons, hp, ih _ _ _ _ _ h]; simp
    next =>
      simp only [Out.ok.injEq, Except.ok.injEq, Prod.mk.injEq] at h
      rw [← h.1]

theorem reduceClose_parens {P : Plugins V} :
    ∀ (os : List (Operator V)) (st : List V) (r : Radix) os' st' r',
      reduceClose P os st r = .ok (.ok (os', st', r')) → parens os' = parens os := by
  intro os
  induction os with
  | nil =>
    intro st r os' st' r' h
    simp only [reduceClose, Out.ok.injEq, Except.ok.injEq, Prod.mk.injEq] at h
    rw [← h.1]
  | cons t os ih =>
    intro st r os' st' r' h
    unfold reduceClose at h
    split at h
    · simp only [Out.ok.injEq, Except.ok.injEq, Prod.mk.injEq] at h
      rw [← h.1]
    next hh =>
      obtain ⟨a, ha, h⟩ := Out.bind_ok h
      rcases a with e | ⟨st1, r1⟩
      · simp at h
      · have hp : t.isOpenParen = false := by simpa using hh
        rw [parens_cons, hp, ih _ _ _ _ _ h]; simp

theorem reduceComma_parens {P : Plugins V} :
    ∀ (os : List (Operator V)) (st : List V) (r : Radix) os' st' r',
      reduceComma P os st r = .ok (.ok (os', st', r')) → parens os' = parens os := by
  intro os
  induction os with
  | nil => intro st r os' st' r' h; cases h
  | cons t os ih =>
    intro st r os' st' r' h
    unfold reduceComma at h
    split at h
    · simp only [Out.ok.injEq, Except.ok.injEq, Prod.mk.injEq] at h
      rw [← h.1]
    next hh =>
      obtain ⟨a, ha, h⟩ := Out.bind_ok h
      rcases a with e | ⟨st1, r1⟩
      · simp at h
      · have hp : t.isOpenParen = false := by simpa using hh
        rw [parens_cons, hp, ih _ _ _ _ _ h]; simp

theorem reduceAll_parens {P : Plugins V} :
    ∀ (os : List (Operator V)) (st : List V) (r : Radix) st' r',
      reduceAll P os st r = .ok (.ok (st', r')) → parens os = 0 := by
  intro os
  induction os with
  | nil => intro st r st' r' _; rfl
  | cons t os ih =>
    intro st r st' r' h
    unfold reduceAll at h
    split at h
    · simp at h
    next hh =>
      obtain ⟨a, ha, h⟩ := Out.bind_ok h
      rcases a with e | ⟨st1, r1⟩
      · simp at h
      · have hp : t.isOpenParen = false := by simpa using hh
        rw [parens_cons, hp, ih _ _ _ _ h]; rfl

theorem fnOk_cons {o : Operator V} {os : List (Operator V)}
    (ho : o.isFunction = true → o.isOpenParen = false) (h : FnOk os) : FnOk (o :: os) := by
  intro x hx
  rcases List.mem_cons.mp hx with rfl | hx
  · exact ho
  · exact h x hx

theorem fnOk_cont {P : Plugins V} (hG : GoodParser P.ops) {s s' : St V} (h : Cont P s s')
    (hs : FnOk s.ost) : FnOk s'.ost := by
  cases h with
  | const => exact hs
  | symbol => exact hs
  | undef => exact hs
  | fn name nargs f rest hp hr hl ho =>
    show FnOk (if s.ost.length < capacity then Operator.function nargs f :: s.ost else s.ost)
    split
    · exact fnOk_cons (fun _ => rfl) hs
    · exact hs
  | operator o rest ost vst radix ho hr hf =>
    have hprec : o.prec < 254 := by
      rcases ho with ⟨_, ho⟩ | ⟨_, ho⟩
      · exact (hG.prefixGood _ _ _ _ _ ho).1
      · exact (hG.infixGood _ _ _ ho).1
    exact fnOk_cons (fun _ => not_paren hprec)
      fun x hx => hs x (reduceInfix_mem P _ _ _ _ _ _ _ hr x hx)
  | comma rest ost vst radix hin hc hr =>
    exact fun x hx => hs x (reduceComma_mem P _ _ _ _ _ _ hr x hx)
  | opening rest ho hp hf => exact fnOk_cons (by intro h; cases h) hs
  | closing rest p ost vst radix hc hr hf =>
    exact fun x hx => hs x (reduceClose_mem P _ _ _ _ _ _ hr x (List.mem_cons_of_mem _ hx))
  | call rest p f ost vst vst' radix radix' hc hr hf he =>
    exact fun x hx => hs x (reduceClose_mem P _ _ _ _ _ _ hr x
      (List.mem_cons_of_mem _ (List.mem_cons_of_mem _ hx)))

/-- How an iteration changes the number of open parentheses. -/
theorem parens_cont {P : Plugins V} (hG : GoodParser P.ops) {s s' : St V} (h : Cont P s s')
    (hs : FnOk s.ost) :
    s'.trace.count .opening + s.trace.count .closing + parens s.ost =
      s.trace.count .opening + s'.trace.count .closing + parens s'.ost := by
  have hfn : ∀ p f os st r, reduceClose P s.ost s.vst s.radix = .ok (.ok (p :: f :: os, st, r)) →
      f.isFunction = true → f.isOpenParen = false := fun p f os st r h hf =>
    hs f (reduceClose_mem P _ _ _ _ _ _ h f (by simp)) hf
  cases h with
  | const v rest hp hpre hc hf => show _ = _; simp [List.count_cons]
  | symbol name v rest hp hpre hr hl hf => simp [List.count_cons]
  | undef name rest hp hpre hr hl hf => simp [List.count_cons]
  | fn name nargs f rest hp hr hl ho =>
    have : parens (if s.ost.length < capacity then Operator.function nargs f :: s.ost else s.ost)
        = parens s.ost := by
      split
      · rw [parens_cons]; simp [Operator.function, Operator.isOpenParen]
      · rfl
    simp [List.count_cons, this]
  | operator o rest ost vst radix ho hr hf =>
    have hprec : o.prec < 254 := by
      rcases ho with ⟨_, ho⟩ | ⟨_, ho⟩
      · exact (hG.prefixGood _ _ _ _ _ ho).1
      · exact (hG.infixGood _ _ _ ho).1
    have h2 := evalOp_parens o hprec _ _ _ _ _ _ hr
    have h3 : parens (o :: ost) = parens ost := by rw [parens_cons, not_paren hprec]; simp
    cases hm : s.maybePrefix <;> simp [List.count_cons, h2, h3]
  | comma rest ost vst radix hin hc hr =>
    have h2 := reduceComma_parens _ _ _ _ _ _ hr
    simp [List.count_cons, h2]
  | opening rest ho hp hf =>
    have h3 : parens (Operator.paren s.vst.length :: s.ost) = parens s.ost + 1 := by
      rw [parens_cons]; simp [Operator.paren, Operator.isOpenParen]; omega
    simp [List.count_cons, h3]; omega
  | closing rest p ost vst radix hc hr hf =>
    have h2 := reduceClose_parens _ _ _ _ _ _ hr
    have h3 := reduceClose_top P _ _ _ _ _ _ _ hr
    rw [parens_cons, h3] at h2
    simp only [Bool.toNat_true] at h2
    simp [List.count_cons]; omega
  | call rest p f ost vst vst' radix radix' hc hr hf he =>
    have h2 := reduceClose_parens _ _ _ _ _ _ hr
    have h3 := reduceClose_top P _ _ _ _ _ _ _ hr
    rw [parens_cons, h3, parens_cons, hfn _ _ _ _ _ hr hf] at h2
    simp only [Bool.toNat_true, Bool.toNat_false] at h2
    simp [List.count_cons]; omega

/-- An iteration takes a closing parenthesis off the operator stack only with a character `)`. -/
theorem close_cont {P : Plugins V} (hS : Suffixes P) (hG : GoodParser P.ops) {s s' : St V}
    (h : Cont P s s') (hs : FnOk s.ost) :
    s'.scan.count ')' + parens s.ost ≤ s.scan.count ')' + parens s'.ost := by
  have hsk := suffix_count (skipSpaces_suffix s.scan) ')'
  have hfn : ∀ p f os st r, reduceClose P s.ost s.vst s.radix = .ok (.ok (p :: f :: os, st, r)) →
      f.isFunction = true → f.isOpenParen = false := fun p f os st r h hf =>
    hs f (reduceClose_mem P _ _ _ _ _ _ h f (by simp)) hf
  cases h with
  | const v rest hp hpre hc hf =>
    have := suffix_count (hS.const _ _ _ _ hc) ')'
    show rest.count ')' + parens s.ost ≤ s.scan.count ')' + parens s.ost; omega
  | symbol name v rest hp hpre hr hl hf =>
    have := suffix_count (hS.symbol _ _ _ hr) ')'
    show rest.count ')' + parens s.ost ≤ s.scan.count ')' + parens s.ost; omega
  | undef name rest hp hpre hr hl hf =>
    have := suffix_count (hS.symbol _ _ _ hr) ')'
    show rest.count ')' + parens s.ost ≤ s.scan.count ')' + parens s.ost; omega
  | fn name nargs f rest hp hr hl ho =>
    have h1 := suffix_count (hS.fn _ _ _ hr) ')'
    have h2 := suffix_count (skipSpaces_suffix rest) ')'
    show (skipSpaces rest).count ')' + parens s.ost ≤ s.scan.count ')' +
      parens (if s.ost.length < capacity then Operator.function nargs f :: s.ost else s.ost)
    split
    · rw [parens_cons]; omega
    · omega
  | operator o rest ost vst radix ho hr hf =>
    have hprec : o.prec < 254 := by
      rcases ho with ⟨_, ho⟩ | ⟨_, ho⟩
      · exact (hG.prefixGood _ _ _ _ _ ho).1
      · exact (hG.infixGood _ _ _ ho).1
    have h1 : rest.count ')' ≤ (skipSpaces s.scan).count ')' := by
      rcases ho with ⟨_, ho⟩ | ⟨_, ho⟩
      · exact suffix_count (hS.pre _ _ _ _ _ _ _ ho) ')'
      · exact suffix_count (hS.inf _ _ _ ho) ')'
    have h2 := evalOp_parens o hprec _ _ _ _ _ _ hr
    show rest.count ')' + parens s.ost ≤ s.scan.count ')' + parens (o :: ost)
    rw [parens_cons]; omega
  | comma rest ost vst radix hin hc hr =>
    have h1 := suffix_count (expect_suffix hc) ')'
    have h2 := reduceComma_parens _ _ _ _ _ _ hr
    show rest.count ')' + parens s.ost ≤ s.scan.count ')' + parens ost; omega
  | opening rest ho hp hf =>
    have h1 := suffix_count (hS.opening _ _ ho) ')'
    show rest.count ')' + parens s.ost ≤
      s.scan.count ')' + parens (Operator.paren s.vst.length :: s.ost)
    rw [parens_cons]; omega
  | closing rest p ost vst radix hc hr hf =>
    have h1 := hS.closing _ _ hc
    have h2 := reduceClose_parens _ _ _ _ _ _ hr
    have h3 := reduceClose_top P _ _ _ _ _ _ _ hr
    rw [parens_cons, h3] at h2
    rw [h1, List.count_cons_self] at hsk
    simp only [Bool.toNat_true] at h2
    show rest.count ')' + parens s.ost ≤ s.scan.count ')' + parens ost; omega
  | call rest p f ost vst vst' radix radix' hc hr hf he =>
    have h1 := hS.closing _ _ hc
    have h2 := reduceClose_parens _ _ _ _ _ _ hr
    have h3 := reduceClose_top P _ _ _ _ _ _ _ hr
    rw [parens_cons, h3, parens_cons, hfn _ _ _ _ _ hr hf] at h2
    rw [h1, List.count_cons_self] at hsk
    simp only [Bool.toNat_true, Bool.toNat_false] at h2
    show rest.count ')' + parens s.ost ≤ s.scan.count ')' + parens ost; omega

theorem fnOk_run {P : Plugins V} (hG : GoodParser P.ops) {s t : St V} (h : Run P s t)
    (hs : FnOk s.ost) : FnOk t.ost := by
  induction h with
  | refl => exact hs
  | step hst _ ih => exact ih (fnOk_cont hG (step_cont hG.quiet hst) hs)

theorem parens_run {P : Plugins V} (hG : GoodParser P.ops) {s t : St V} (h : Run P s t)
    (hs : FnOk s.ost) :
    t.trace.count .opening + s.trace.count .closing + parens s.ost =
      s.trace.count .opening + t.trace.count .closing + parens t.ost := by
  induction h with
  | refl => rfl
  | step hst _ ih =>
    have h1 := step_cont hG.quiet hst
    have h2 := parens_cont hG h1 hs
    have h3 := ih (fnOk_cont hG h1 hs)
    omega

theorem close_run {P : Plugins V} (hS : Suffixes P) (hG : GoodParser P.ops) {s t : St V}
    (h : Run P s t) (hs : FnOk s.ost) :
    t.scan.count ')' + parens s.ost ≤ s.scan.count ')' + parens t.ost := by
  induction h with
  | refl => omega
  | step hst _ ih =>
    have h1 := step_cont hG.quiet hst
    have h2 := close_cont hS hG h1 hs
    have h3 := ih (fnOk_cont hG h1 hs)
    omega

/-- A `break` with open parentheses is an error. -/
theorem brk_parens {P : Plugins V} (hq : Quiet P.ops) {t u : St V} {vst : List V} {radix : Radix}
    (h : step P t = .ok (.brk u))
    (hr : reduceAll P u.ost u.vst u.radix = .ok (.ok (vst, radix))) : parens t.ost = 0 := by
  have h0 := reduceAll_parens _ _ _ _ _ hr
  rcases step_brk hq h with ⟨h1, _⟩ | ⟨_, _, h1⟩
  · rw [← h1]; exact h0
  · exact (reduceClose_parens _ _ _ _ _ _ h1).symm

/-- `error` after an iteration. -/
def Next.err : Next V → Err
  | .cont s => s.err
  | .brk s => s.err
  | .ret s _ => s.err

/-- The iteration leaves the error `e`. -/
def KeepsErr (e : Err) (x : Out (Next V)) : Prop := ∀ n, x = .ok n → n.err = e

theorem keepsErr_bind {α : Type} {e : Err} {x : Out α} {f : α → Out (Next V)}
    (hf : ∀ a, KeepsErr e (f a)) : KeepsErr e (x.bind f) := by
  intro n h
  obtain ⟨a, _, h⟩ := Out.bind_ok h
  exact hf a n h

theorem keepsErr_ok {e : Err} {n : Next V} (h : n.err = e) : KeepsErr e (.ok n) := by
  intro m hm
  injection hm with hm
  rw [← hm]; exact h

theorem keepsErr_fail {P : Plugins V} {s : St V} {e : Err} (hs : s.err ≠ .OK) :
    KeepsErr s.err (fail P s e) := keepsErr_ok (setErrorIf_keep hs)

theorem stepOperator_err {P : Plugins V} {s : St V} {o : Operator V} {rest : Scan}
    (hs : s.err ≠ .OK) : KeepsErr s.err (stepOperator P s o rest) := by
  unfold stepOperator
  refine keepsErr_bind fun a => ?_
  rcases a with e | ⟨ost, vst, radix⟩
  · exact keepsErr_fail (s := { s with scan := rest }) hs
  · dsimp only
    split
    · exact keepsErr_ok (setErrorIf_keep hs)
    · exact keepsErr_ok rfl

theorem stepPunct_err {P : Plugins V} {s : St V} {expr scan : Scan}
    (hs : s.err ≠ .OK) : KeepsErr s.err (stepPunct P s expr scan) := by
  unfold stepPunct
  split
  · refine keepsErr_bind fun a => ?_
    rcases a with e | ⟨ost, vst, radix⟩
    · exact keepsErr_ok (setErrorIf_keep hs)
    · exact keepsErr_ok rfl
  · split
    · split
      · exact keepsErr_ok rfl
      · split
        · exact keepsErr_ok (setErrorIf_keep hs)
        · exact keepsErr_ok rfl
    · split
      · refine keepsErr_bind fun a => ?_
        rcases a with e | ⟨ost, vst, radix⟩
        · exact keepsErr_ok (setErrorIf_keep hs)
        · cases ost with
          | nil => exact keepsErr_ok rfl
          | cons p ost =>
            cases ost with
            | nil => exact keepsErr_ok rfl
            | cons f ost =>
              dsimp only
              split
              · refine keepsErr_bind fun a => ?_
                rcases a with e | ⟨vst, radix⟩
                · exact keepsErr_ok (setErrorIf_keep hs)
                · exact keepsErr_ok rfl
              · exact keepsErr_ok rfl
      · exact keepsErr_ok rfl

theorem stepSymbol_err {P : Plugins V} {s : St V} {expr scan : Scan}
    (hs : s.err ≠ .OK) : KeepsErr s.err (stepSymbol P s expr scan) := by
  unfold stepSymbol
  split
  · split
    · exact keepsErr_ok (setErrorIf_keep hs)
    · dsimp only
      split
      · exact keepsErr_bind fun a => keepsErr_ok rfl
      · exact keepsErr_bind fun a => keepsErr_ok (setErrorIf_keep hs)
  · exact stepPunct_err hs

theorem stepOperand_err {P : Plugins V} {s : St V} {expr scan : Scan}
    (hs : s.err ≠ .OK) : KeepsErr s.err (stepOperand P s expr scan) := by
  unfold stepOperand
  split
  · split
    · exact keepsErr_ok (setErrorIf_keep hs)
    · exact keepsErr_bind fun a => keepsErr_ok rfl
  · split
    · split
      · dsimp only
        split
        · exact keepsErr_ok (setErrorIf_keep hs)
        · exact keepsErr_ok rfl
      · exact stepSymbol_err hs
    · exact stepSymbol_err hs
  · exact keepsErr_ok (setErrorIf_keep hs)

theorem step_err {P : Plugins V} {s : St V} (hs : s.err ≠ .OK) : KeepsErr s.err (step P s) := by
  unfold step
  dsimp only
  split
  · exact keepsErr_ok rfl
  split
  · exact keepsErr_ok rfl
  split
  · refine keepsErr_bind fun a => ?_
    obtain ⟨o, rest, vst, radix⟩ := a
    dsimp only
    split
    · exact keepsErr_ok rfl
    · cases o with
      | some o => exact stepOperator_err (s := { s with vst := vst, radix := radix }) hs
      | none => exact stepOperand_err (s := { s with vst := vst, radix := radix }) hs
  · split
    · split
      · exact keepsErr_ok rfl
      · exact stepOperator_err hs
    · split
      · exact keepsErr_ok rfl
      · exact stepPunct_err hs

/-- Once an error has been reported, it is the one that is returned. -/
theorem loop_err {P : Plugins V} (fuel : Nat) :
    ∀ (s : St V) (r : Result V), s.err ≠ .OK → loop P fuel s = .ok r → r.err = s.err := by
  induction fuel with
  | zero => intro s r _ h; cases h
  | succ n ih =>
    intro s r hs h
    unfold loop at h
    obtain ⟨a, ha, h⟩ := Out.bind_ok h
    have he := step_err hs a ha
    cases a with
    | cont s' =>
      have he : s'.err = s.err := he
      rw [ih s' r (by rw [he]; exact hs) h, he]
    | brk u =>
      have he : u.err = s.err := he
      unfold finish at h
      obtain ⟨b, hb, h⟩ := Out.bind_ok h
      rcases b with e | ⟨vst, radix⟩
      · injection h with h
        rw [← h]
        show setErrorIf u.err e = s.err
        rw [he]; exact setErrorIf_keep hs
      · injection h with h
        rw [← h]; exact he
    | ret s' v =>
      injection h with h
      rw [← h]; exact he

theorem eval_err {P : Plugins V} {fuel : Nat} {text : Scan} {err : Err} {radix : Radix}
    {r : Result V} (he : err ≠ .OK) (h : evalFuel P fuel text err radix = .ok r) : r.err = err := by
  unfold evalFuel at h
  dsimp only at h
  obtain ⟨a, ha, h⟩ := Out.bind_ok h
  have h1 := loop_err fuel _ a he ha
  injection h with h
  rw [← h]
  split
  · show setErrorIf a.err _ = err
    rw [h1]; exact setErrorIf_keep he
  · exact h1

end Libasm.Eval
