import Verif.Options.Model
import Verif.Options.Spec
import Verif.Table.Lemmas
namespace Libasm.Options
open Ctype Scan Eval Spec
open Table.Spec (Same key)

theorem toUpper_toNat (c : Char) :
    (toUpper c).toNat = if 97 ≤ c.toNat ∧ c.toNat ≤ 122 then c.toNat - 32 else c.toNat := by
  unfold toUpper isLower
  by_cases h : 97 ≤ c.toNat ∧ c.toNat ≤ 122
  · simp only [h, decide_true, Bool.and_self, if_true, and_self]
    exact Table.ofNat_small (by omega)
  · rw [if_neg (by simpa using h), if_neg h]

theorem upper_iff (c d : Char) : toUpper c = toUpper d ↔
    (if 65 ≤ c.toNat ∧ c.toNat ≤ 90 then c.toNat + 32 else c.toNat) =
      (if 65 ≤ d.toNat ∧ d.toNat ≤ 90 then d.toNat + 32 else d.toNat) := by
  rw [← Char.toNat_inj, toUpper_toNat, toUpper_toNat]
  split <;> split <;> split <;> split <;> omega

theorem same_iff (a b : List Char) : Same a b ↔ a.map toUpper = b.map toUpper := by
  unfold Same
  induction a generalizing b with
  | nil => cases b <;> simp [key]
  | cons c a ih =>
    cases b with
    | nil => simp [key]
    | cons d b =>
      have := ih b
      simp only [key, List.map_cons, List.cons.injEq] at this ⊢
      rw [this, upper_iff]

theorem same_length {a b : List Char} (h : Same a b) : a.length = b.length := by
  have := congrArg List.length h
  simpa [key] using this

theorem same_symm {a b : List Char} (h : Same a b) : Same b a := Eq.symm h

theorem iequals_iff (a b : List Char) : iequals a b = true ↔ Same a b := by
  unfold iequals
  rw [beq_iff_eq, same_iff]

theorem iequals_same {a b : List Char} (h : Same a b) (c : List Char) : iequals a c = iequals b c := by
  unfold iequals
  rw [(same_iff a b).1 h]

theorem iexpectText_iff (u s r : List Char) :
    iexpectText u s = some r ↔ ∃ a, s = a ++ r ∧ Same a u := by
  induction u generalizing s with
  | nil =>
    simp only [iexpectText, Option.some.injEq]
    constructor
    · intro h
      exact ⟨[], by simp [h], rfl⟩
    · rintro ⟨a, rfl, h⟩
      have : a = [] := List.eq_nil_of_length_eq_zero (by simpa using same_length h)
      simp [this]
  | cons c u ih =>
    simp only [iexpectText, iexpect]
    cases s with
    | nil =>
      simp only [expectP, Option.bind_none, reduceCtorEq, false_iff]
      rintro ⟨a, h, h2⟩
      have h3 := same_length h2
      have h4 := congrArg List.length h
      simp at h3 h4
      omega
    | cons d s =>
      simp only [expectP, beq_iff_eq]
      by_cases hd : toUpper d = toUpper c
      · rw [if_pos hd, Option.bind_some, ih]
        constructor
        · rintro ⟨a, rfl, h⟩
          refine ⟨d :: a, rfl, ?_⟩
          rw [same_iff] at h ⊢
          simp [h, hd]
        · rintro ⟨a, h, h2⟩
          rw [same_iff] at h2
          cases a with
          | nil => simp at h2
          | cons e a =>
            simp only [List.cons_append, List.cons.injEq] at h
            simp only [List.map_cons, List.cons.injEq] at h2
            exact ⟨a, h.2, (same_iff _ _).2 h2.2⟩
      · rw [if_neg hd]
        simp only [Option.bind_none, reduceCtorEq, false_iff]
        rintro ⟨a, h, h2⟩
        rw [same_iff] at h2
        cases a with
        | nil => simp at h2
        | cons e a =>
          simp only [List.cons_append, List.cons.injEq] at h
          simp only [List.map_cons, List.cons.injEq] at h2
          exact hd (h.1 ▸ h2.1)

theorem alnum_upper (c : Char) : isAlnum (toUpper c) = isAlnum c := by
  have := toUpper_toNat c
  unfold isAlnum isAlpha isUpper isLower isDigit
  rw [this]
  split
  · rename_i h
    have h1 : 65 ≤ c.toNat - 32 := by omega
    have h2 : c.toNat - 32 ≤ 90 := by omega
    simp [h, h1, h2]
  · rfl

theorem same_alnum {a b : List Char} (h : Same a b) (hb : b.all isAlnum = true) : a.all isAlnum = true := by
  rw [same_iff] at h
  have : (a.map toUpper).all isAlnum = (b.map toUpper).all isAlnum := by rw [h]
  simp only [List.all_map, Function.comp_def, alnum_upper] at this
  rw [this, hb]

/-- What follows a word. -/
def Ends (r : Scan) : Prop := isAlnum (deref r) = false ∧ deref r ≠ '_'

/-- Two ways to divide a text into letters and the rest. -/
theorem split_unique {a w r p : List Char} (ha : a.all isAlnum = true) (hw : w.all isAlnum = true)
    (hr : isAlnum (deref r) = false) (hp : isAlnum (deref p) = false) (h : w ++ r = a ++ p) :
    w = a ∧ r = p := by
  induction w generalizing a with
  | nil =>
    cases a with
    | nil => exact ⟨rfl, by simpa using h⟩
    | cons c a =>
      simp only [List.nil_append, List.cons_append] at h
      subst h
      simp only [List.all_cons, Bool.and_eq_true] at ha
      simp only [deref, List.headD_cons] at hr
      rw [ha.1] at hr
      contradiction
  | cons c w ih =>
    cases a with
    | nil =>
      simp only [List.nil_append, List.cons_append] at h
      subst h
      simp only [List.all_cons, Bool.and_eq_true] at hw
      simp only [deref, List.headD_cons] at hp
      rw [hw.1] at hp
      contradiction
    | cons d a =>
      simp only [List.cons_append, List.cons.injEq] at h
      simp only [List.all_cons, Bool.and_eq_true] at ha hw
      have := ih ha.2 hw.2 h.2
      exact ⟨by rw [h.1, this.1], this.2⟩

theorem iexpectWord_word {u w r : List Char} (hu : u.all isAlnum = true) (hw : w.all isAlnum = true)
    (hr : Ends r) : iexpectWord u (w ++ r) = if iequals w u then some r else none := by
  unfold iexpectWord
  cases he : iexpectText u (w ++ r) with
  | some p =>
    obtain ⟨a, h1, h2⟩ := (iexpectText_iff _ _ _).1 he
    dsimp only
    by_cases hp : isAlnum (deref p) || deref p == '_'
    · rw [if_pos hp, if_neg]
      intro hi
      have hs := (iequals_iff _ _).1 hi
      have hl : w.length = a.length := by rw [same_length hs, same_length h2]
      have := (List.append_inj h1 hl).2
      subst this
      simp only [Bool.or_eq_true, beq_iff_eq] at hp
      rcases hp with hp | hp
      · rw [hr.1] at hp
        contradiction
      · exact hr.2 hp
    · rw [if_neg hp]
      have hp' : isAlnum (deref p) = false := by
        cases hx : isAlnum (deref p) <;> simp_all
      obtain ⟨e1, e2⟩ := split_unique (same_alnum h2 hu) hw hr.1 hp' h1
      rw [if_pos, e2]
      rw [iequals_iff, e1]
      exact h2
  | none =>
    dsimp only
    rw [if_neg]
    intro hi
    have : iexpectText u (w ++ r) = some r := (iexpectText_iff _ _ _).2 ⟨w, rfl, (iequals_iff _ _).1 hi⟩
    rw [he] at this
    contradiction

theorem ends_nil : Ends [] := ⟨rfl, by decide⟩
theorem ends_dquote (r : Scan) : Ends ('"' :: r) := ⟨rfl, (by decide : '"' ≠ '_')⟩

theorem expectTrue_word {w r : List Char} (hw : w.all isAlnum = true) (hr : Ends r) :
    expectTrue (w ++ r) = if iequals w "enable".toList || iequals w "true".toList ||
      iequals w "yes".toList || iequals w "on".toList then some r else none := by
  unfold expectTrue
  rw [iexpectWord_word (by decide) hw hr, iexpectWord_word (by decide) hw hr,
    iexpectWord_word (by decide) hw hr, iexpectWord_word (by decide) hw hr]
  cases iequals w "enable".toList <;> cases iequals w "true".toList <;> cases iequals w "yes".toList <;>
    cases iequals w "on".toList <;> rfl

theorem expectFalse_word {w r : List Char} (hw : w.all isAlnum = true) (hr : Ends r) :
    expectFalse (w ++ r) = if iequals w "disable".toList || iequals w "false".toList ||
      iequals w "no".toList || iequals w "off".toList then some r else none := by
  unfold expectFalse
  rw [iexpectWord_word (by decide) hw hr, iexpectWord_word (by decide) hw hr,
    iexpectWord_word (by decide) hw hr, iexpectWord_word (by decide) hw hr]
  cases iequals w "disable".toList <;> cases iequals w "false".toList <;> cases iequals w "no".toList <;>
    cases iequals w "off".toList <;> rfl

theorem wordText_alnum {t : List Char} {b : Bool} (h : WordText t b) : t.all isAlnum = true := by
  obtain ⟨w, hw, hs⟩ := h
  refine same_alnum hs ?_
  cases b <;> simp only [if_true, if_false, Bool.false_eq_true, List.mem_cons, List.not_mem_nil, or_false] at hw <;>
    rcases hw with rfl | rfl | rfl | rfl <;> decide

theorem wordText_ne {t : List Char} {b : Bool} (h : WordText t b) : t ≠ [] := by
  obtain ⟨w, hw, hs⟩ := h
  rintro rfl
  have := same_length hs
  cases b <;> simp only [if_true, if_false, Bool.false_eq_true, List.mem_cons, List.not_mem_nil, or_false] at hw <;>
    rcases hw with rfl | rfl | rfl | rfl <;> exact absurd this (by decide)

theorem wordText_read {t r : List Char} {b : Bool} (h : WordText t b) (hr : Ends r) :
    (b = true ∧ expectTrue (t ++ r) = some r) ∨
      (b = false ∧ expectTrue (t ++ r) = none ∧ expectFalse (t ++ r) = some r) := by
  have ha := wordText_alnum h
  obtain ⟨w, hw, hs⟩ := h
  rw [expectTrue_word ha hr, expectFalse_word ha hr]
  simp only [iequals_same hs]
  cases b <;> simp only [if_true, if_false, Bool.false_eq_true, List.mem_cons, List.not_mem_nil, or_false] at hw <;>
    rcases hw with rfl | rfl | rfl | rfl
  case false.inl => exact .inr ⟨rfl, if_neg (by decide), if_pos (by decide)⟩
  case false.inr.inl => exact .inr ⟨rfl, if_neg (by decide), if_pos (by decide)⟩
  case false.inr.inr.inl => exact .inr ⟨rfl, if_neg (by decide), if_pos (by decide)⟩
  case false.inr.inr.inr => exact .inr ⟨rfl, if_neg (by decide), if_pos (by decide)⟩
  case true.inl => exact .inl ⟨rfl, if_pos (by decide)⟩
  case true.inr.inl => exact .inl ⟨rfl, if_pos (by decide)⟩
  case true.inr.inr.inl => exact .inl ⟨rfl, if_pos (by decide)⟩
  case true.inr.inr.inr => exact .inl ⟨rfl, if_pos (by decide)⟩

theorem dquote_quoted (s : Scan) : dquote ('"' :: s) = (true, s) := rfl

theorem dquote_plain {c : Char} (h : c ≠ '"') (s : Scan) : dquote (c :: s) = (false, c :: s) := by
  unfold dquote expect expectP
  simp [h]

theorem closing_quoted (e : Err) (s : Scan) : closing true e ('"' :: s) = .ok s := rfl
theorem closing_plain (e : Err) (s : Scan) : closing false e s = .ok s := rfl

/-- How a value in quotes or not is read. -/
theorem quoted_cases {t u : List Char} {c : Char} {t' : List Char} (ht : t = c :: t') (hc : c ≠ '"')
    (h : Quoted t u) : ∃ q r, dquote u = (q, t ++ r) ∧ Ends r ∧ (r = [] ∨ r = ['"']) ∧
      ∀ e, closing q e r = .ok [] := by
  rcases h with rfl | rfl
  · exact ⟨false, [], by rw [ht, dquote_plain hc, List.append_nil], ends_nil, .inl rfl, fun _ => rfl⟩
  · exact ⟨true, ['"'], dquote_quoted _, ends_dquote _, .inr rfl, fun _ => rfl⟩

theorem parseBool_word {t u : List Char} {b : Bool} (h : WordText t b) (hq : Quoted t u) :
    parseBool u = .ok (b, []) := by
  have hne := wordText_ne h
  cases t with
  | nil => contradiction
  | cons c t' =>
    have hc : c ≠ '"' := by
      rintro rfl
      have := wordText_alnum h
      simp only [List.all_cons, Bool.and_eq_true] at this
      exact absurd this.1 (by decide)
    obtain ⟨q, r, h1, h2, _, h3⟩ := quoted_cases rfl hc hq
    unfold parseBool
    simp only [h1]
    rcases wordText_read h h2 with ⟨rfl, h4⟩ | ⟨rfl, h4, h5⟩
    · rw [h4]
      simp only [h3]
      rfl
    · rw [h4]
      simp only [h5, h3]
      rfl

/-! ### Numbers -/

theorem digit_toNat {d : Nat} (h : d < 10) : (Char.ofNat (48 + d)).toNat = 48 + d :=
  Table.ofNat_small (by omega)

theorem digit_isDigit {d : Nat} (h : d < 10) : isDigit (Char.ofNat (48 + d)) = true := by
  unfold isDigit
  rw [digit_toNat h]
  simp
  omega

theorem numeral_spec {ds : List Char} {n : Nat} (h : Numeral ds n) :
    ds ≠ [] ∧ ds.all isDigit = true ∧ decimal ds = n := by
  induction h with
  | one d h =>
    refine ⟨by simp, by simp [digit_isDigit h], ?_⟩
    simp only [decimal, List.foldl_cons, List.foldl_nil, digit_toNat h]
    omega
  | more ds n d h hn ih =>
    refine ⟨by simp, by simp [digit_isDigit h, ih.2.1] , ?_⟩
    have := ih.2.2
    simp only [decimal, List.foldl_append, List.foldl_cons, List.foldl_nil, digit_toNat h] at this ⊢
    rw [this]
    omega

theorem takeWhile_all {p : Char → Bool} {a r : List Char} (ha : a.all p = true) (hr : ∀ c ∈ r.head?, p c = false) :
    (a ++ r).takeWhile p = a ∧ (a ++ r).dropWhile p = r := by
  induction a with
  | nil =>
    cases r with
    | nil => exact ⟨rfl, rfl⟩
    | cons c r =>
      have := hr c (by simp)
      simp [this]
  | cons c a ih =>
    simp only [List.all_cons, Bool.and_eq_true] at ha
    simp [ha.1, ih ha.2]

theorem notDigit_end {r : Scan} (h : r = [] ∨ r = ['"']) : ∀ c ∈ r.head?, isDigit c = false := by
  rcases h with rfl | rfl
  · simp
  · intro c hc
    simp at hc
    subst hc
    decide

/-- The first character of a number. -/
theorem intText_head {t : List Char} {i : Int} (h : IntText t i) :
    ∃ c t', t = c :: t' ∧ (isDigit c = true ∨ c = '+' ∨ c = '-') := by
  obtain ⟨ds, n, hn, _, h⟩ := h
  obtain ⟨h1, h2, _⟩ := numeral_spec hn
  cases ds with
  | nil => contradiction
  | cons c ds =>
    simp only [List.all_cons, Bool.and_eq_true] at h2
    rcases h with ⟨h, _⟩ | ⟨h, _⟩ | ⟨h, _⟩
    · exact ⟨_, _, h, .inl h2.1⟩
    · exact ⟨_, _, h, .inr (.inl rfl)⟩
    · exact ⟨_, _, h, .inr (.inr rfl)⟩

theorem head_small {c : Char} (h : isDigit c = true ∨ c = '+' ∨ c = '-') :
    40 < c.toNat ∧ c.toNat < 58 := by
  rcases h with h | rfl | rfl
  · unfold isDigit at h
    simp at h
    omega
  · decide
  · decide

theorem strtol_digits {ds r : List Char} {n : Nat} (hn : Numeral ds n) (hb : n < 2 ^ 31)
    (hr : r = [] ∨ r = ['"']) : ds.dropWhile isSpace = ds ∧
      ∀ sg : Bool, (if (ds ++ r).takeWhile isDigit = [] then none
        else
          let n' : Int := if sg then -(decimal ((ds ++ r).takeWhile isDigit) : Int)
            else (decimal ((ds ++ r).takeWhile isDigit) : Int)
          some (max (-2 ^ 63) (min (2 ^ 63 - 1) n'), (ds ++ r).dropWhile isDigit)) =
        some ((if sg then -(n : Int) else n), r) := by
  obtain ⟨h1, h2, h3⟩ := numeral_spec hn
  refine ⟨?_, fun sg => ?_⟩
  · cases ds with
    | nil => rfl
    | cons c ds =>
      simp only [List.all_cons, Bool.and_eq_true] at h2
      rw [List.dropWhile_cons_of_neg]
      have := head_small (.inl h2.1)
      unfold isSpace
      simp
      omega
  · obtain ⟨e1, e2⟩ := takeWhile_all h2 (notDigit_end hr)
    rw [e1, e2, if_neg h1, h3]
    dsimp only
    congr 2
    cases sg <;> simp only [if_true, if_false, Bool.false_eq_true] <;> omega

theorem strtol_int {t r : List Char} {i : Int} (h : IntText t i) (hr : r = [] ∨ r = ['"']) :
    strtol (t ++ r) = some (i, r) ∧ -2 ^ 31 < i ∧ i < 2 ^ 31 := by
  obtain ⟨c, t', ht, hc⟩ := intText_head h
  have hs := head_small hc
  have hsp : (t ++ r).dropWhile isSpace = t ++ r := by
    rw [ht, List.cons_append, List.dropWhile_cons_of_neg]
    unfold isSpace
    simp
    omega
  obtain ⟨ds, n, hn, hb, h⟩ := h
  obtain ⟨h1, h2, h3⟩ := numeral_spec hn
  have key := (strtol_digits hn hb hr).2
  refine ⟨?_, by omega⟩
  unfold strtol
  simp only [hsp]
  rcases h with ⟨rfl, rfl⟩ | ⟨rfl, rfl⟩ | ⟨rfl, rfl⟩
  · cases t with
    | nil => contradiction
    | cons d t =>
      simp only [List.all_cons, Bool.and_eq_true] at h2
      have hm : d ≠ '-' := by
        rintro rfl
        exact absurd h2.1 (by decide)
      have hp : d ≠ '+' := by
        rintro rfl
        exact absurd h2.1 (by decide)
      have := key false
      simp only [List.cons_append] at this ⊢
      split
      · rename_i e
        exact absurd (List.cons.inj e).1 hm
      · rename_i e
        exact absurd (List.cons.inj e).1 hp
      · exact this
  · exact key false
  · exact key true

theorem toInt32_small {i : Int} (h1 : -2 ^ 31 < i) (h2 : i < 2 ^ 31) : toInt32 i = i := by
  unfold toInt32
  omega

theorem parseIntOption_int {t u : List Char} {i : Int} (h : IntText t i) (hq : Quoted t u) :
    parseIntOption u = .ok (i, []) := by
  obtain ⟨c, t', ht, hc⟩ := intText_head h
  have hs := head_small hc
  have hd : c ≠ '"' := by
    rintro rfl
    exact absurd hs.1 (by decide)
  obtain ⟨q, r, h1, _, h2, h3⟩ := quoted_cases ht hd hq
  obtain ⟨e, e1, e2⟩ := strtol_int h h2
  unfold parseIntOption parseInt
  simp only [h1, e, toInt32_small e1 e2, h3]
  rfl

/-- A number is not taken for a word. -/
theorem iexpectWord_number {c d : Char} {w s : List Char} (hc : c.toNat < 58) (hd : 97 ≤ d.toNat ∧ d.toNat ≤ 122) :
    iexpectWord (d :: w) (c :: s) = none := by
  unfold iexpectWord iexpectText iexpect expectP
  have : toUpper c ≠ toUpper d := by
    intro h
    have := congrArg Char.toNat h
    rw [toUpper_toNat, toUpper_toNat, if_pos hd] at this
    split at this <;> omega
  simp [this]

theorem parseBool_int {t u : List Char} {i : Int} (h : IntText t i) (hq : Quoted t u) :
    parseBool u = .error .NOT_AN_EXPECTED := by
  obtain ⟨c, t', ht, hc⟩ := intText_head h
  have hs := head_small hc
  have hd : c ≠ '"' := by
    rintro rfl
    exact absurd hs.1 (by decide)
  obtain ⟨q, r, h1, _, h2, h3⟩ := quoted_cases ht hd hq
  have e1 : expectTrue (t ++ r) = none := by
    rw [ht, List.cons_append]
    unfold expectTrue
    simp only [show "enable".toList = ['e', 'n', 'a', 'b', 'l', 'e'] from rfl,
      show "true".toList = ['t', 'r', 'u', 'e'] from rfl,
      show "yes".toList = ['y', 'e', 's'] from rfl, show "on".toList = ['o', 'n'] from rfl]
    rw [iexpectWord_number hs.2 (by decide), iexpectWord_number hs.2 (by decide),
      iexpectWord_number hs.2 (by decide), iexpectWord_number hs.2 (by decide)]
    rfl
  have e2 : expectFalse (t ++ r) = none := by
    rw [ht, List.cons_append]
    unfold expectFalse
    simp only [show "disable".toList = ['d', 'i', 's', 'a', 'b', 'l', 'e'] from rfl,
      show "false".toList = ['f', 'a', 'l', 's', 'e'] from rfl,
      show "no".toList = ['n', 'o'] from rfl, show "off".toList = ['o', 'f', 'f'] from rfl]
    rw [iexpectWord_number hs.2 (by decide), iexpectWord_number hs.2 (by decide),
      iexpectWord_number hs.2 (by decide), iexpectWord_number hs.2 (by decide)]
    rfl
  unfold parseBool
  simp only [h1, e1, e2]

theorem parseBoolOption_bool {t u : List Char} {b : Bool} (h : BoolText t b) (hq : Quoted t u) :
    parseBoolOption u = .ok (b, []) := by
  unfold parseBoolOption
  rcases h with h | ⟨i, h, rfl⟩
  · rw [parseBool_word h hq]
  · rw [parseBool_int h hq, parseIntOption_int h hq]

theorem parseChar_plain {c : Char} (h1 : c ≠ '"') (h2 : c ≠ '\'') (s : Scan) :
    parseCharOption (c :: s) = .ok (c, s) := by
  unfold parseCharOption
  simp only [deref, List.headD_cons, h1, h2, or_self, if_false]
  rfl

/-! ### Finding the option -/

theorem setIn_same {σ : Type} {r : Readers} {os : List (Entry σ)} {a b : List Char} (h : Same a b)
    (s : Scan) (st : σ) : setIn r os a s st = setIn r os b s st := by
  unfold setIn
  simp only [iequals_same h]

/-- An option that fails leaves the settings alone. -/
theorem set_error {σ : Type} (r : Readers) (o : Entry σ) (s : Scan) (st : σ)
    (h : (o.set r s st).1 ≠ .OK) : (o.set r s st).2 = st := by
  unfold Entry.set at h ⊢
  cases hk : o.kind with
  | bool f =>
    simp only [hk] at h ⊢
    cases hp : r.bool s with
    | error e => rfl
    | ok v =>
      simp only [hp] at h ⊢
      cases hf : f v.1 st with
      | error e => rfl
      | ok x =>
        simp only [hf] at h
        exact absurd rfl h
  | int f =>
    simp only [hk] at h ⊢
    cases hp : r.int s with
    | error e => rfl
    | ok v =>
      simp only [hp] at h ⊢
      cases hf : f v.1 st with
      | error e => rfl
      | ok x =>
        simp only [hf] at h
        exact absurd rfl h
  | char f =>
    simp only [hk] at h ⊢
    cases hp : parseCharOption s with
    | error e => rfl
    | ok v =>
      simp only [hp] at h ⊢
      cases hf : f v.1 st with
      | error e => rfl
      | ok x =>
        simp only [hf] at h
        exact absurd rfl h
  | text f =>
    simp only [hk] at h ⊢
    cases hp : parseTextOption s with
    | error e => rfl
    | ok v =>
      simp only [hp] at h ⊢
      cases hf : f v.1 st with
      | error e => rfl
      | ok x =>
        simp only [hf] at h
        exact absurd rfl h

theorem setIn_error {σ : Type} (r : Readers) (os : List (Entry σ)) (name : List Char) (s : Scan) (st : σ)
    (h : (setIn r os name s st).1 ≠ .OK) : (setIn r os name s st).2 = st := by
  unfold setIn at h ⊢
  split
  · rename_i e
    rw [e] at h
    exact set_error _ _ _ _ h
  · rfl

/-- The settings of the common options after `setOption` are those after their own search. -/
theorem setOption_common {σ τ : Type} (r : Readers) (common : List (Entry σ)) (own : List (Entry τ))
    (name : List Char) (s : Scan) (st : σ × τ) :
    (setOption r common own name s st).2.1 = (setIn r common name s st.1).2 := by
  unfold setOption
  split
  · rename_i e
    rw [e]
  · rename_i e
    rw [e]

/-- If the result of `setOption` is an error, so was that of the common options. -/
theorem setOption_error {σ τ : Type} (r : Readers) (common : List (Entry σ)) (own : List (Entry τ))
    (name : List Char) (s : Scan) (st : σ × τ) (h : (setOption r common own name s st).1 ≠ .OK) :
    (setIn r common name s st.1).1 ≠ .OK := by
  intro h2
  apply h
  unfold setOption
  cases hx : setIn r common name s st.1 with
  | mk e x =>
    rw [hx] at h2
    cases h2
    rfl

theorem setOption_ok {σ τ : Type} (r : Readers) (common : List (Entry σ)) (own : List (Entry τ))
    (name : List Char) (s : Scan) (st : σ × τ) {st' : σ} (h : setIn r common name s st.1 = (.OK, st')) :
    setOption r common own name s st = (.OK, (st', st.2)) := by
  unfold setOption
  rw [h]

/-- A search finds no option but one of that name. -/
theorem setIn_cases {σ : Type} (r : Readers) (os : List (Entry σ)) (name : List Char) (s : Scan) (st : σ) :
    (setIn r os name s st = (.UNKNOWN_OPTION, st) ∧ ∀ o ∈ os, ¬ Same name o.name.toList) ∨
    ∃ o ∈ os, Same name o.name.toList ∧ setIn r os name s st = o.set r s st := by
  unfold setIn
  cases h : os.find? (fun o => iequals name o.name.toList) with
  | none =>
    refine .inl ⟨rfl, fun o ho hs => ?_⟩
    have := List.find?_eq_none.1 h o ho
    exact this ((iequals_iff _ _).2 hs)
  | some o =>
    exact .inr ⟨o, List.mem_of_find?_eq_some h, (iequals_iff _ _).1 (by simpa using List.find?_some h), rfl⟩

/-! ### What the readers accept -/

theorem iexpectWord_inv {u s r : List Char} (h : iexpectWord u s = some r) : ∃ a, s = a ++ r ∧ Same a u := by
  unfold iexpectWord at h
  cases hx : iexpectText u s with
  | none =>
    rw [hx] at h
    contradiction
  | some p =>
    rw [hx] at h
    dsimp only at h
    split at h
    · contradiction
    · cases h
      exact (iexpectText_iff _ _ _).1 hx

theorem words_inv {a b c d s r : List Char} (h : (iexpectWord a s <|> iexpectWord b s <|> iexpectWord c s <|>
    iexpectWord d s) = some r) : ∃ w ∈ [a, b, c, d], ∃ t, s = t ++ r ∧ Same t w := by
  cases ha : iexpectWord a s with
  | some x =>
    rw [ha] at h
    cases h
    exact ⟨a, by simp, iexpectWord_inv ha⟩
  | none =>
    cases hb : iexpectWord b s with
    | some x =>
      rw [ha, hb] at h
      cases h
      exact ⟨b, by simp, iexpectWord_inv hb⟩
    | none =>
      cases hc : iexpectWord c s with
      | some x =>
        rw [ha, hb, hc] at h
        cases h
        exact ⟨c, by simp, iexpectWord_inv hc⟩
      | none =>
        rw [ha, hb, hc] at h
        exact ⟨d, by simp, iexpectWord_inv h⟩

theorem expectTrue_inv {s r : List Char} (h : expectTrue s = some r) : ∃ t, s = t ++ r ∧ WordText t true := by
  obtain ⟨w, hw, t, h1, h2⟩ := words_inv h
  refine ⟨t, h1, ?_⟩
  simp only [List.mem_cons, List.not_mem_nil, or_false] at hw
  rcases hw with rfl | rfl | rfl | rfl
  · exact ⟨"enable", by decide, h2⟩
  · exact ⟨"true", by decide, h2⟩
  · exact ⟨"yes", by decide, h2⟩
  · exact ⟨"on", by decide, h2⟩

theorem expectFalse_inv {s r : List Char} (h : expectFalse s = some r) : ∃ t, s = t ++ r ∧ WordText t false := by
  obtain ⟨w, hw, t, h1, h2⟩ := words_inv h
  refine ⟨t, h1, ?_⟩
  simp only [List.mem_cons, List.not_mem_nil, or_false] at hw
  rcases hw with rfl | rfl | rfl | rfl
  · exact ⟨"disable", by decide, h2⟩
  · exact ⟨"false", by decide, h2⟩
  · exact ⟨"no", by decide, h2⟩
  · exact ⟨"off", by decide, h2⟩

theorem dquote_inv (s : Scan) : ∃ q, s = q ++ (dquote s).2 ∧ (q = [] ∨ q = ['"']) := by
  cases s with
  | nil => exact ⟨[], rfl, .inl rfl⟩
  | cons c s =>
    by_cases h : c = '"'
    · subst h
      exact ⟨['"'], rfl, .inr rfl⟩
    · rw [dquote_plain h]
      exact ⟨[], rfl, .inl rfl⟩

theorem parseBool_inv {u r : List Char} {b : Bool} (h : parseBool u = .ok (b, r)) :
    ∃ q t rest, u = q ++ t ++ rest ∧ (q = [] ∨ q = ['"']) ∧ WordText t b := by
  obtain ⟨q, hq, hq2⟩ := dquote_inv u
  unfold parseBool at h
  dsimp only at h
  cases ht : expectTrue (dquote u).2 with
  | some p =>
    rw [ht] at h
    dsimp only at h
    obtain ⟨t, e1, e2⟩ := expectTrue_inv ht
    cases hx : closing (dquote u).1 .MISSING_CLOSING_DQUOTE p with
    | error e =>
      rw [hx] at h
      contradiction
    | ok x =>
      rw [hx] at h
      cases h
      exact ⟨q, t, p, by rw [List.append_assoc, ← e1]; exact hq, hq2, e2⟩
  | none =>
    rw [ht] at h
    dsimp only at h
    cases hf : expectFalse (dquote u).2 with
    | none =>
      rw [hf] at h
      contradiction
    | some p =>
      rw [hf] at h
      dsimp only at h
      obtain ⟨t, e1, e2⟩ := expectFalse_inv hf
      cases hx : closing (dquote u).1 .MISSING_CLOSING_DQUOTE p with
      | error e =>
        rw [hx] at h
        contradiction
      | ok x =>
        rw [hx] at h
        cases h
        exact ⟨q, t, p, by rw [List.append_assoc, ← e1]; exact hq, hq2, e2⟩

theorem isDigit_ofNat {c : Char} (h : isDigit c = true) : c = Char.ofNat (48 + (c.toNat - 48)) ∧ c.toNat - 48 < 10 := by
  unfold isDigit at h
  simp at h
  refine ⟨?_, by omega⟩
  rw [show 48 + (c.toNat - 48) = c.toNat by omega, Char.ofNat_toNat]

theorem numeral_decimal {ds : List Char} (hne : ds ≠ []) (hd : ds.all isDigit = true) : Numeral ds (decimal ds) := by
  obtain ⟨n, hl⟩ : ∃ n, ds.length = n + 1 := ⟨ds.length - 1, by
    have := List.length_pos_iff.2 hne
    omega⟩
  induction n generalizing ds with
  | zero =>
    match ds, hl with
    | [c], _ =>
      simp only [List.all_cons, List.all_nil, Bool.and_true] at hd
      obtain ⟨h1, h2⟩ := isDigit_ofNat hd
      have := Numeral.one _ h2
      rw [← h1] at this
      simpa [decimal] using this
  | succ n ih =>
    have hs := List.dropLast_concat_getLast hne
    rw [← hs] at hd ⊢
    simp only [List.all_append, List.all_cons, List.all_nil, Bool.and_true, Bool.and_eq_true] at hd
    obtain ⟨h1, h2⟩ := isDigit_ofNat hd.2
    have hlen : ds.dropLast.length = n + 1 := by
      rw [List.length_dropLast]
      omega
    have := Numeral.more _ _ _ h2 (ih (ds := ds.dropLast) (by
      intro he
      rw [he] at hlen
      simp at hlen) hd.1 hlen)
    rw [← h1] at this
    rw [show decimal (ds.dropLast ++ [ds.getLast hne]) = 10 * decimal ds.dropLast + ((ds.getLast hne).toNat - 48) by
      simp only [decimal, List.foldl_append, List.foldl_cons, List.foldl_nil]
      omega]
    exact this

theorem strtol_inv {s r : List Char} {i : Int} (h : strtol s = some (i, r)) :
    ∃ blanks sign t n, s = blanks ++ sign ++ t ++ r ∧ (∀ c ∈ blanks, isSpace c = true) ∧
      (sign = [] ∨ sign = ['+'] ∨ sign = ['-']) ∧ Numeral t n ∧ (n < 2 ^ 31 → i = n ∨ i = -(n : Int)) := by
  have hb : s = s.takeWhile isSpace ++ s.dropWhile isSpace := List.takeWhile_append_dropWhile.symm
  have hsp : ∀ c ∈ s.takeWhile isSpace, isSpace c = true := by
    intro c hc
    have := List.all_takeWhile (l := s) (p := isSpace)
    exact List.all_eq_true.1 this c hc
  have gen : ∀ (sg : Bool) (p : Scan), (if p.takeWhile isDigit = [] then none
        else
          some ((max (-2 ^ 63) (min (2 ^ 63 - 1) (if sg then -(decimal (p.takeWhile isDigit) : Int)
            else (decimal (p.takeWhile isDigit) : Int))) : Int), p.dropWhile isDigit)) = some (i, r) →
      ∃ t n, p = t ++ r ∧ Numeral t n ∧ (n < 2 ^ 31 → i = n ∨ i = -(n : Int)) := by
    intro sg p hp
    by_cases he : p.takeWhile isDigit = []
    · rw [if_pos he] at hp
      contradiction
    · rw [if_neg he] at hp
      simp only [Option.some.injEq, Prod.mk.injEq] at hp
      refine ⟨p.takeWhile isDigit, decimal (p.takeWhile isDigit), ?_, numeral_decimal he List.all_takeWhile, ?_⟩
      · rw [← hp.2]
        exact List.takeWhile_append_dropWhile.symm
      · intro hn
        have := hp.1
        generalize decimal (p.takeWhile isDigit) = m at *
        cases sg <;> simp only [if_true, if_false, Bool.false_eq_true] at this <;> omega
  unfold strtol at h
  dsimp only at h
  split at h
  · rename_i p hp
    obtain ⟨t, n, e1, e2, e3⟩ := gen true _ h
    refine ⟨_, ['-'], t, n, ?_, hsp, .inr (.inr rfl), e2, e3⟩
    dsimp only at e1
    rw [hp, e1] at hb
    rw [List.append_assoc, List.append_assoc]
    exact hb
  · rename_i p hp
    obtain ⟨t, n, e1, e2, e3⟩ := gen false _ h
    refine ⟨_, ['+'], t, n, ?_, hsp, .inr (.inl rfl), e2, e3⟩
    dsimp only at e1
    rw [hp, e1] at hb
    rw [List.append_assoc, List.append_assoc]
    exact hb
  · obtain ⟨t, n, e1, e2, e3⟩ := gen false _ h
    refine ⟨_, [], t, n, ?_, hsp, .inl rfl, e2, e3⟩
    dsimp only at e1
    have hb := hb.trans (congrArg _ e1)
    rw [List.append_nil, List.append_assoc]
    exact hb

theorem parseIntOption_inv {u r : List Char} {i : Int} (h : parseIntOption u = .ok (i, r)) :
    ∃ q blanks sign t rest n, u = q ++ blanks ++ sign ++ t ++ rest ∧ (q = [] ∨ q = ['"']) ∧
      (∀ c ∈ blanks, isSpace c = true) ∧ (sign = [] ∨ sign = ['+'] ∨ sign = ['-']) ∧ Numeral t n ∧
      (n < 2 ^ 31 → i = n ∨ i = -(n : Int)) := by
  obtain ⟨q, hq, hq2⟩ := dquote_inv u
  unfold parseIntOption parseInt at h
  dsimp only at h
  cases hs : strtol (dquote u).2 with
  | none =>
    rw [hs] at h
    contradiction
  | some x =>
    obtain ⟨m, p⟩ := x
    rw [hs] at h
    dsimp only at h
    obtain ⟨bl, sg, t, n, e1, e2, e3, e4, e5⟩ := strtol_inv hs
    cases hx : closing (dquote u).1 .ILLEGAL_CONSTANT p with
    | error e =>
      rw [hx] at h
      contradiction
    | ok y =>
      rw [hx] at h
      cases h
      refine ⟨q, bl, sg, t, p, n, ?_, hq2, e2, e3, e4, fun hn => ?_⟩
      · rw [e1] at hq
        simpa using hq
      · rcases e5 hn with rfl | rfl <;> rw [toInt32_small (by omega) (by omega)]
        · exact .inl rfl
        · exact .inr rfl

theorem parseBoolOption_inv {u r : List Char} {b : Bool} (h : parseBoolOption u = .ok (b, r)) :
    ∃ q blanks sign t rest, u = q ++ blanks ++ sign ++ t ++ rest ∧ (q = [] ∨ q = ['"']) ∧
      ((blanks = [] ∧ sign = [] ∧ WordText t b) ∨
        ((∀ c ∈ blanks, isSpace c = true) ∧ (sign = [] ∨ sign = ['+'] ∨ sign = ['-']) ∧
          ∃ n, Numeral t n ∧ (n < 2 ^ 31 → b = decide (n ≠ 0)))) := by
  unfold parseBoolOption at h
  cases hb : parseBool u with
  | ok x =>
    rw [hb] at h
    cases h
    obtain ⟨q, t, rest, e1, e2, e3⟩ := parseBool_inv hb
    exact ⟨q, [], [], t, rest, by simpa using e1, e2, .inl ⟨rfl, rfl, e3⟩⟩
  | error e =>
    rw [hb] at h
    dsimp only at h
    cases hi : parseIntOption u with
    | error e =>
      rw [hi] at h
      contradiction
    | ok x =>
      obtain ⟨i, p⟩ := x
      rw [hi] at h
      cases h
      obtain ⟨q, bl, sg, t, rest, n, e1, e2, e3, e4, e5, e6⟩ := parseIntOption_inv hi
      refine ⟨q, bl, sg, t, rest, e1, e2, .inr ⟨e3, e4, n, e5, fun hn => ?_⟩⟩
      rcases e6 hn with rfl | rfl
      · simp
      · simp

theorem closing_error {q : Bool} {e : Err} {s : Scan} {x : Err} (he : e ≠ .OK) (h : closing q e s = .error x) :
    x ≠ .OK := by
  unfold closing at h
  split at h
  · split at h
    · contradiction
    · cases h
      exact he
  · contradiction

theorem parseBoolOption_error (u : List Char) : parseBoolOption u ≠ .error .OK := by
  intro h
  unfold parseBoolOption at h
  cases hb : parseBool u with
  | ok x =>
    rw [hb] at h
    contradiction
  | error e =>
    rw [hb] at h
    dsimp only at h
    cases hi : parseIntOption u with
    | ok x =>
      rw [hi] at h
      contradiction
    | error e =>
      rw [hi] at h
      cases h
      unfold parseIntOption parseInt at hi
      dsimp only at hi
      cases hs : strtol (dquote u).2 with
      | none =>
        rw [hs] at hi
        cases hi
      | some x =>
        rw [hs] at hi
        dsimp only at hi
        cases hx : closing (dquote u).1 .ILLEGAL_CONSTANT x.2 with
        | error e =>
          rw [hx] at hi
          cases hi
          exact closing_error (by decide) hx rfl
        | ok y =>
          rw [hx] at hi
          cases hi

end Libasm.Options
