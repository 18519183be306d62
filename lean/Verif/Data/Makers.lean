import Verif.Data.Operands
import Verif.Data.MakerSpec
import Verif.Maker.Props
/-
C45 for the notations of the CPU makers: data directives emit the values of their operands in order.
-/
namespace Libasm.Data.Maker
open Scan Ctype Insn Insn.Spec Number Eval.Spec Data.Spec Value.Spec
open Libasm.Maker hiding Expr
open Eval hiding setErrorIf
open Config (setErrorIf)

/-! ### Model -/

/-- src/parsers.cpp:575-579 `StarCommentParser::endOfLine`, src/comment_parser.h:67-69
`MostekCommentParser::endOfLine`: a space ends the operands too, spaces are skipped. -/
def starEndOfLine (s : Scan) : Bool × Scan :=
  (deref s = '\x00' || deref s = ' ' || deref (skipSpaces s) = '\x00' || deref (skipSpaces s) = ';',
    skipSpaces s)

/-- src/comment_parser.h:35-82, src/value_parser.cpp:26-127, src/asm_cdp1802.cpp:47,
src/asm_f3850.cpp:49, src/asm_mn1610.cpp:47, src/asm_mos6502.cpp:54, src/asm_scn2650.cpp:50,
src/asm_tms32010.cpp:49: the end of the operands for an assembler. -/
def endOfLine : Asm → Scan → Bool × Scan
  | .mc6800 | .mc6805 | .mc6809 | .mc68000 | .mos6502 | .scn2650 | .tms7000 | .tms9900 | .f3850
  | .mn1610 => starEndOfLine
  | _ => semicolonEndOfLine

/-- src/letter_parser.h:95-125, 136-139, src/parsers.cpp:517-520: strings with an optional mark and the default
letters. The answer of `stringPrefix` is not used (src/asm_base.cpp:266). -/
def markedLetters (mark : Char) : Letters :=
  { stringPrefix := fun s => (iexpect mark s).getD s, stringDelimiter := oneOf ['\'']
    readLetter := defaultReadLetter }

/-- src/letter_parser.h:87-93 `ZilogLetterParser`; the delimiter is always `'`. -/
def zilogLetters : Letters :=
  { stringPrefix := id, stringDelimiter := oneOf ['\'']
    readLetter := fun s _ => ((zilogRead s).2.1, (zilogRead s).1, (zilogRead s).2.2) }

/-- src/value_parser.cpp:26-127, src/asm_cdp1802.cpp:49, src/asm_f3850.cpp:50, src/asm_mn1610.cpp:48,
src/asm_mos6502.cpp:56, src/asm_scn2650.cpp:51, src/asm_tms32010.cpp:51: the letters of an assembler. -/
def letters : Asm → Letters
  | .mos6502 => simpleLetters ['\'', '"']
  | .tms32010 => simpleLetters ['"']
  | .scn2650 => markedLetters 'A'
  | .cdp1802 => markedLetters 'T'
  | .f3850 | .mn1610 => markedLetters 'C'
  | .z8 | .z8000 => zilogLetters
  | _ => simpleLetters ['\'']

/-- What the directives use of an assembler; the byte order and the unit of addresses are parameters.
src/asm_base.cpp:121-124 `parseExpr`. -/
def env (a : Asm) (E : Cpu.Env) (loc : Nat) (big wordUnit : Bool) : Data.Env :=
  { endOfLine := endOfLine a
    parseExpr := fun s => Cpu.parseInteger (a.lexer.plugins E '\x00' loc) s .OK
    letters := letters a, big := big, wordUnit := wordUnit }

/-- How strings are written for an assembler. -/
def strings : Asm → Strings
  | .mos6502 => ⟨none, ['\'', '"'], false⟩
  | .tms32010 => ⟨none, ['"'], false⟩
  | .scn2650 => ⟨some 'A', ['\''], false⟩
  | .cdp1802 => ⟨some 'T', ['\''], false⟩
  | .f3850 | .mn1610 => ⟨some 'C', ['\''], false⟩
  | .z8 | .z8000 => ⟨none, ['\''], true⟩
  | _ => ⟨none, ['\''], false⟩

/-! ### Where operands end -/

/-- What the proofs use of `endOfLine`. -/
structure Eol (f : Scan → Bool × Scan) : Prop where
  text : ∀ s, (f s).2 = skipSpaces s
  ends : ∀ s, Follow s → (f s).1 = true ∨ deref (f s).2 = ','
  goes : ∀ d t, Delim d → (f (d :: t)).1 = false ∧ deref (f (d :: t)).2 ≠ ','

theorem semicolon_eol : Eol semicolonEndOfLine where
  text _ := rfl
  ends _ h := follow_ends h
  goes d t hd := by
    have := delim_not_end hd t
    rw [not_or] at this
    exact ⟨by simpa using this.1, this.2⟩

theorem star_eol' : Eol starEndOfLine where
  text _ := rfl
  ends s h := by
    unfold starEndOfLine
    rcases follow_skip h with h | ⟨u, h⟩ | ⟨u, h⟩
    · left; rw [h]; simp [deref]
    · left; rw [h]; simp [deref]
    · right; rw [h]; rfl
  goes d t hd := by
    unfold starEndOfLine
    rw [skip_cons (delim_space hd)]
    have hb : d ≠ ' ' := by
      rintro rfl
      exact hd.2.2.2 (by decide)
    simp [deref, hd.1, hd.2.1, hd.2.2.1, hb]

theorem eol (a : Asm) : Eol (endOfLine a) := by
  cases a <;> first | exact semicolon_eol | exact star_eol'

theorem follow_of_skip {p rest : Scan} (h : skipSpaces p = skipSpaces rest) (hf : Follow rest) : Follow p := by
  obtain ⟨sp, hsp, he⟩ := skip_split p
  refine ⟨sp, skipSpaces p, he, hsp, ?_⟩
  rw [h]
  exact follow_skip hf

theorem valueOperand_ok (E : Env) (hE : Eol E.endOfLine) (type : DataType)
    {scan p rest : Scan} (strErr : Err) {val : Value} {x : Int} (hx : denote val = x)
    (hv : Valid val) (hp : E.parseExpr scan = .ok (val, .OK, p))
    (hs : skipSpaces p = skipSpaces rest) (hf : Follow rest) {b0 b : Buf} {xs : List Nat}
    (h : Track b0 xs b .OK) :
    ∃ b' err, valueOperand E type scan strErr b .OK = .ok (if err = .NO_MEMORY then
        .stop (skipSpaces rest) b' err else .next (skipSpaces rest) b' err) ∧
      Track b0 (xs ++ valueBytes type E.big x) b' err := by
  obtain ⟨b', err, h1, h2⟩ := track_value E type hx hv h
  refine ⟨b', err, ?_, h2⟩
  unfold valueOperand
  rw [hp]
  dsimp only [Out.bind]
  have he := hE.ends p (follow_of_skip hs hf)
  rw [if_neg (by
    intro hc
    rcases he with he | he
    · rw [he] at hc; simp at hc
    · rw [he] at hc; simp at hc), if_neg (by simp [hard]), h1]
  dsimp only [Out.bind]
  rw [setErrorIf_ok, hE.text, hs]

/-! ### Strings -/

/-- What the proofs use of the letters of an assembler. -/
structure Strs (L : Letters) (S : Strings) : Prop where
  quote : ∀ q ∈ S.quotes, Delim q
  open' : ∀ m q t, S.Mark m → q ∈ S.quotes → L.stringDelimiter (L.stringPrefix (m ++ q :: t)) = some (q, t)
  close : ∀ q t, q ∈ S.quotes → L.stringDelimiter (q :: t) = some (q, t)
  none' : ∀ c t, isSpace c = false → (∀ m q u, c :: t = m ++ q :: u → S.Mark m → q ∉ S.quotes) →
    L.stringDelimiter (L.stringPrefix (c :: t)) = none
  read : ∀ q ∈ S.quotes, ∀ n t rest, Letter S.percent q n t →
    L.readLetter (t ++ rest) q = (n, .OK, rest)

theorem letter_head {p : Bool} {q : Char} {n : Nat} {t : List Char} (hd : Delim q) (hp : p = true → q = '\'')
    (h : Letter p q n t) :
    ∃ c u, t = c :: u ∧ c ≠ '\x00' ∧ (c = q → u = [q]) := by
  cases h with
  | plain c h0 hq hp hb => exact ⟨c, [], rfl, h0, fun h => absurd h hq⟩
  | twice hp => exact ⟨q, [q], rfl, hd.1, fun _ => rfl⟩
  | hex a b hpp ha hb => exact ⟨'%', _, rfl, by decide, fun h => by rw [hp hpp] at h; exact absurd h (by decide)⟩
  | escape a c hpp h => exact ⟨'%', _, rfl, by decide, fun h => by rw [hp hpp] at h; exact absurd h (by decide)⟩

theorem digit_val {c : Char} (h : Number.Spec.IsDigit 16 c) : isXdigit c = true ∧
    Number.Spec.digitVal c = some (toDigit c) ∧ toDigit c < 16 :=
  Ctype.ascii (p := fun c => Number.Spec.IsDigit 16 c → isXdigit c = true ∧
    Number.Spec.digitVal c = some (toDigit c) ∧ toDigit c < 16)
    (by decide +kernel) c (digit_ascii h) h

theorem letter_byte {p : Bool} {q : Char} {n : Nat} {t : List Char} (hq : q.toNat < 256)
    (h : Letter p q n t) : n < 256 := by
  cases h with
  | plain c h0 hq hp hb => exact hb
  | twice hp => exact hq
  | hex a b hpp ha hb =>
    have := (digit_val ha).2
    have := (digit_val hb).2
    simp_all [Number.Spec.valueOf]
    omega
  | escape a c hpp h =>
    simp only [zilogEscapes, List.mem_cons, List.not_mem_nil, or_false, Prod.mk.injEq] at h
    rcases h with ⟨h, rfl⟩ | ⟨h, rfl⟩ | ⟨h, rfl⟩ | ⟨h, rfl⟩ | ⟨h, rfl⟩ | ⟨h, rfl⟩ <;> decide

theorem read_default {q : Char} {n : Nat} {t : List Char} (rest : Scan) (h : Letter false q n t) :
    defaultReadLetter (t ++ rest) q = (n, .OK, rest) := by
  cases h with
  | plain c h0 hq hp hb => exact read_plain hq h0 rest
  | twice hp => exact read_double q rest
  | hex a b hpp => cases hpp
  | escape a c hpp => cases hpp

theorem read_zilog {n : Nat} {t : List Char} (rest : Scan) (h : Letter true '\'' n t) :
    zilogRead (t ++ rest) = (.OK, n, rest) := by
  cases h with
  | plain c h0 hq hp hb =>
    show (if c = '%' then _ else if c = '\'' then _ else _) = _
    rw [if_neg (hp rfl), if_neg hq]
    rfl
  | twice hp => cases hp
  | hex a b hpp ha hb =>
    obtain ⟨a1, a2, a3⟩ := digit_val ha
    obtain ⟨b1, b2, b3⟩ := digit_val hb
    have hv : Number.Spec.valueOf 16 [a, b] = toDigit a * 16 + toDigit b := by
      simp [Number.Spec.valueOf, a2, b2]
    rw [hv]
    show (if (isXdigit a && isXdigit b) = true then _ else _) = _
    rw [a1, b1, if_pos (by decide)]
    rfl
  | escape a c hpp h =>
    have hx : isXdigit a = false := by
      simp only [zilogEscapes, List.mem_cons, List.not_mem_nil, or_false, Prod.mk.injEq] at h
      cases hx : isXdigit a with
      | false => rfl
      | true =>
        have key : ∀ c : Char, isXdigit c = true → toUpper c ≠ 'L' ∧ toUpper c ≠ 'T' ∧ toUpper c ≠ 'R' ∧
            toUpper c ≠ 'P' ∧ toUpper c ≠ '%' ∧ toUpper c ≠ 'Q' := by
          intro c hc
          refine Ctype.ascii (p := fun c => isXdigit c = true → toUpper c ≠ 'L' ∧ toUpper c ≠ 'T' ∧ toUpper c ≠ 'R' ∧
            toUpper c ≠ 'P' ∧ toUpper c ≠ '%' ∧ toUpper c ≠ 'Q') (by decide +kernel) c ?_ hc
          unfold isXdigit at hc
          simp only [Bool.or_eq_true, Bool.and_eq_true, decide_eq_true_eq, isDigit] at hc
          omega
        obtain ⟨k1, k2, k3, k4, k5, k6⟩ := key a hx
        rcases h with ⟨h, _⟩ | ⟨h, _⟩ | ⟨h, _⟩ | ⟨h, _⟩ | ⟨h, _⟩ | ⟨h, _⟩ <;> contradiction
    show (if (isXdigit a && isXdigit (at' (a :: rest) 1)) = true then _ else _) = _
    rw [hx, Bool.false_and, if_neg (by decide)]
    rw [show deref ([a].append rest) = a from rfl]
    simp only [zilogEscapes, List.mem_cons, List.not_mem_nil, or_false, Prod.mk.injEq] at h
    rcases h with ⟨h, rfl⟩ | ⟨h, rfl⟩ | ⟨h, rfl⟩ | ⟨h, rfl⟩ | ⟨h, rfl⟩ | ⟨h, rfl⟩ <;>
      (rw [h]; rfl)

theorem oneOf_mem {l : List Char} {q : Char} (t : Scan) (h : q ∈ l) : oneOf l (q :: t) = some (q, t) :=
  if_pos h

theorem oneOf_not {l : List Char} {q : Char} (t : Scan) (h : q ∉ l) : oneOf l (q :: t) = none :=
  if_neg h

theorem quotes_delim {l : List Char} (hl : ∀ d ∈ l, d = '\'' ∨ d = '"') : ∀ q ∈ l, Delim q := by
  intro q hq
  rcases hl q hq with rfl | rfl <;> refine ⟨?_, ?_, ?_, ?_⟩ <;> decide

theorem simple_strs {l : List Char} (hl : ∀ d ∈ l, d = '\'' ∨ d = '"') :
    Strs (simpleLetters l) ⟨none, l, false⟩ where
  quote := quotes_delim hl
  open' := by
    intro m q t hm hq
    rcases hm with rfl | ⟨x, _, h⟩
    · exact oneOf_mem t hq
    · cases h
  close _ t hq := oneOf_mem t hq
  none' c t _ h := by
    exact oneOf_not t (h [] c t rfl (.inl rfl))
  read _ _ _ _ rest h := read_default rest h

theorem zilog_strs : Strs zilogLetters ⟨none, ['\''], true⟩ where
  quote := quotes_delim (by decide)
  open' := by
    intro m q t hm hq
    rcases hm with rfl | ⟨x, _, h⟩
    · exact oneOf_mem t hq
    · cases h
  close _ t hq := oneOf_mem t hq
  none' c t _ h := by
    exact oneOf_not t (h [] c t rfl (.inl rfl))
  read q hq _ _ rest h := by
    have : q = '\'' := List.mem_singleton.mp hq
    subst this
    show ((zilogRead _).2.1, (zilogRead _).1, (zilogRead _).2.2) = _
    rw [read_zilog rest h]

theorem marked_strs {p : Char} (hp : toUpper p = p) (hq : p ≠ '\'') :
    Strs (markedLetters p) ⟨some p, ['\''], false⟩ where
  quote := quotes_delim (l := ['\'']) (by decide)
  open' := by
    intro m q t hm hq'
    have : q = '\'' := List.mem_singleton.mp hq'
    subst this
    rcases hm with rfl | ⟨x, rfl, h⟩
    · show oneOf _ ((iexpect p ('\'' :: t)).getD ('\'' :: t)) = _
      rw [iexpect_cons, if_neg (by rw [hp]; exact fun h => hq (by rw [← h]; decide))]
      exact oneOf_mem t (by decide)
    · injection h with h
      show oneOf _ ((iexpect p (x :: '\'' :: t)).getD (x :: '\'' :: t)) = _
      rw [iexpect_cons, if_pos (by rw [hp, ← h])]
      exact oneOf_mem t (by decide)
  close _ t hq := oneOf_mem t hq
  none' c t _ h := by
    show oneOf _ ((iexpect p (c :: t)).getD (c :: t)) = none
    rw [iexpect_cons]
    split
    · rename_i hx
      show oneOf _ t = none
      cases t with
      | nil => rfl
      | cons d t =>
        exact oneOf_not t (h [c] d t rfl (.inr ⟨c, rfl, by rw [hx, hp]⟩))
    · exact oneOf_not t (h [] c t rfl (.inl rfl))
  read _ _ _ _ rest h := read_default rest h

theorem strs (a : Asm) : Strs (letters a) (strings a) := by
  cases a <;> first
    | exact simple_strs (by decide)
    | exact zilog_strs
    | exact marked_strs (by decide) (by decide)

theorem quote_percent (a : Asm) : (strings a).percent = true → ∀ q ∈ (strings a).quotes, q = '\'' := by
  cases a <;> decide

theorem quote_byte (a : Asm) : ∀ q ∈ (strings a).quotes, q.toNat < 256 := by
  cases a <;> decide

section
variable {E : Env} {S : Strings} (hE : Eol E.endOfLine) (hS : Strs E.letters S)
  (hpq : S.percent = true → ∀ q ∈ S.quotes, q = '\'') (hqb : ∀ q ∈ S.quotes, q.toNat < 256)
include hE hS hpq hqb

theorem stringEnd_content {q : Char} (hq : q ∈ S.quotes) {rest : Scan} (hf : Follow rest)
    {s : List Nat} {u : List Char} (h : Content S.percent q s u) :
    ∀ fuel, (u ++ q :: rest).length < fuel → stringEnd E q fuel (u ++ q :: rest) = .ok (.OK, q :: rest) := by
  have hd := hS.quote q hq
  induction h with
  | nil =>
    intro fuel hl
    cases fuel with
    | zero => omega
    | succ fuel =>
      show stringEnd E q (fuel + 1) (q :: rest) = _
      unfold stringEnd
      rw [if_neg (show ¬ deref (q :: rest) = '\x00' from hd.1), if_pos ⟨rfl, hE.ends rest hf⟩]
  | cons n t s u ht hs ih =>
    intro fuel hl
    obtain ⟨c, v, rfl, h0, hc⟩ := letter_head hd (fun h => hpq h q hq) ht
    cases fuel with
    | zero => omega
    | succ fuel =>
      have hr := hS.read q hq n _ (u ++ q :: rest) ht
      rw [List.append_assoc]
      unfold stringEnd
      rw [if_neg (show ¬ deref (c :: v ++ (u ++ q :: rest)) = '\x00' from h0), if_neg (by
        rintro ⟨h1, h2⟩
        have hcq : c = q := h1
        rw [hc hcq] at h2
        obtain ⟨g1, g2⟩ := hE.goes q (u ++ q :: rest) hd
        rcases h2 with h2 | h2
        · exact absurd (h2.symm.trans g1) (by decide)
        · exact g2 h2), hr]
      dsimp only
      rw [if_neg (by simp)]
      refine ih fuel ?_
      simp only [List.append_assoc, List.cons_append, List.length_cons, List.length_append] at hl ⊢
      omega

theorem letterLoop_content {q : Char} (hq : q ∈ S.quotes) {rest : Scan} {b0 : Buf}
    {s : List Nat} {u : List Char} (h : Content S.percent q s u) :
    ∀ fuel b xs err count, (u ++ q :: rest).length < fuel → Track b0 xs b err →
      ∃ b' err' n, letterLoop E q (q :: rest) fuel (u ++ q :: rest) b err count =
          .ok (b', err', n) ∧ n % 4 = (count + s.length) % 4 ∧ Track b0 (xs ++ s) b' err' := by
  have hd := hS.quote q hq
  induction h with
  | nil =>
    intro fuel b xs err count hl ht
    cases fuel with
    | zero => omega
    | succ fuel =>
      refine ⟨b, err, count, ?_, rfl, by simpa using ht⟩
      show letterLoop E q (q :: rest) (fuel + 1) (q :: rest) b err count = _
      unfold letterLoop
      rw [if_neg (by omega)]
  | cons n t s u ht hs ih =>
    intro fuel b xs err count hl htr
    cases fuel with
    | zero => omega
    | succ fuel =>
      obtain ⟨c, v, hcv, _, _⟩ := letter_head hd (fun h => hpq h q hq) ht
      obtain ⟨b1, e1, h1, h2⟩ := track_emit htr .byte n
      rw [encode_byte (letter_byte (hqb q hq) ht)] at h2
      have hlen : (u ++ q :: rest).length < fuel := by
        rw [hcv] at hl
        simp only [List.append_assoc, List.cons_append, List.length_cons, List.length_append] at hl ⊢
        omega
      obtain ⟨b2, e2, k, h3, hn, h4⟩ := ih fuel b1 _ e1 ((count + 1) % 256) hlen h2
      refine ⟨b2, e2, k, ?_, ?_, ?_⟩
      · rw [List.append_assoc]
        unfold letterLoop
        rw [if_pos (by rw [hcv]; simp; omega), hS.read q hq n t _ ht]
        dsimp only
        rw [h1]
        exact h3
      · rw [hn, List.length_cons]; omega
      · simpa using h4

theorem operand_string (type : DataType) {q : Char} (hq : q ∈ S.quotes) (hty : DataType.strings type = true)
    {sp m u rest : List Char} {s : List Nat} (hm : S.Mark m) (hms : ∀ c ∈ m, isSpace c = false)
    (hsp : ∀ c ∈ sp, Blank c) (hc : Content S.percent q s u) (hf : Follow rest)
    {b0 b : Buf} {xs : List Nat} (h : Track b0 xs b .OK) :
    ∃ b' err, operand E type (sp ++ m ++ q :: u ++ [q] ++ rest) b .OK = .ok (if err = .NO_MEMORY then
        .stop rest b' err else .next rest b' err) ∧
      Track b0 (xs ++ (s ++ fill (unit type E.wordUnit) s.length)) b' err := by
  have hd := hS.quote q hq
  have hq' : skipSpaces (sp ++ m ++ q :: u ++ [q] ++ rest) = m ++ q :: (u ++ q :: rest) := by
    simp only [List.append_assoc, List.cons_append, List.nil_append]
    rw [skip_blanks hsp]
    cases m with
    | nil => exact skip_cons (delim_space hd)
    | cons c m => exact skip_cons (hms c (List.mem_cons_self ..))
  have ho := hS.open' m q (u ++ q :: rest) hm hq
  have hstr : isString E (m ++ q :: (u ++ q :: rest)) = .ok (.OK, q :: rest) := by
    unfold isString
    rw [ho]
    exact stringEnd_content hE hS hpq hqb hq hf hc _ (by omega)
  obtain ⟨b1, e1, n, h1, hn, h2⟩ := letterLoop_content hE hS hpq hqb hq (rest := rest) hc
    ((u ++ q :: rest).length + 1) b xs .OK 0 (by omega) h
  obtain ⟨b2, e2, h3, h4⟩ := track_pad (padding E type n) h2
  refine ⟨b2, e2, ?_, ?_⟩
  · unfold operand
    dsimp only
    rw [if_neg (by rintro (rfl | rfl) <;> cases hty), hq', hstr]
    dsimp only [Out.bind]
    rw [if_pos rfl]
    unfold generateString
    dsimp only
    rw [ho, hS.close q rest hq]
    dsimp only
    rw [h1]
    dsimp only [Out.bind]
    rw [h3]
    dsimp only [Out.bind]
    rw [setErrorIf_ok]
  · have hpad : List.replicate (padding E type n) 0 = fill (unit type E.wordUnit) s.length := by
      unfold fill
      congr 1
      have hn' : n % 4 = s.length % 4 := by rw [hn, Nat.zero_add]
      have h2' : n % 2 = s.length % 2 := by omega
      have dflt : (if E.wordUnit = true ∧ n % 2 ≠ 0 then 1 else 0) =
          ((if E.wordUnit = true then 2 else 1) - s.length % (if E.wordUnit = true then 2 else 1)) %
            (if E.wordUnit = true then 2 else 1) := by
        cases E.wordUnit with
        | true =>
          simp only [true_and, if_true]
          split <;> omega
        | false => simp [Nat.mod_one]
      cases type with
      | word => unfold padding unit; dsimp only; split <;> omega
      | long => unfold padding unit; dsimp only; omega
      | _ => exact dflt
    rw [← hpad, ← List.append_assoc]
    exact h4

/-! ### Expressions -/

theorem operand_value (type : DataType) {t rest : List Char} {c : Char} {u : List Char}
    (hc : skipSpaces t = c :: u) (hcs : isSpace c = false)
    (hq : DataType.strings type = true → ∀ m q v, c :: u ++ rest = m ++ q :: v → S.Mark m → q ∉ S.quotes)
    {val : Value} {x : Int} {p : Scan} (hx : denote val = x) (hv : Valid val)
    (hp : E.parseExpr (skipSpaces t ++ rest) = .ok (val, .OK, p))
    (hs : skipSpaces p = skipSpaces rest) (hf : Follow rest) {b0 b : Buf} {xs : List Nat}
    (h : Track b0 xs b .OK) :
    ∃ b' err, operand E type (t ++ rest) b .OK = .ok (if err = .NO_MEMORY then
        .stop (skipSpaces rest) b' err else .next (skipSpaces rest) b' err) ∧
      Track b0 (xs ++ valueBytes type E.big x) b' err := by
  have hsk : skipSpaces (t ++ rest) = skipSpaces t ++ rest := skip_append hc hcs
  unfold operand
  dsimp only
  rw [hsk]
  by_cases hty : type = .byteNoString ∨ type = .wordNoString
  · rw [if_pos hty]
    exact valueOperand_ok E hE type .OK hx hv hp hs hf h
  · rw [if_neg hty]
    have hstr : DataType.strings type = true := by
      cases type <;> first | rfl | (exfalso; exact hty (by simp))
    have hi : isString E (skipSpaces t ++ rest) = .ok (.NOT_AN_EXPECTED, skipSpaces t ++ rest) := by
      rw [hc]
      unfold isString
      rw [List.cons_append, hS.none' c (u ++ rest) hcs (hq hstr)]
    rw [hi]
    dsimp only [Out.bind]
    rw [if_neg (by decide), if_pos rfl]
    exact valueOperand_ok E hE type .OK hx hv hp hs hf h

end

theorem writes_skip {N : Notation} {P : Plugins Value} {loc : Nat} {pre inf : Read}
    (L : Lex P N loc pre inf) {taken : List Char → Prop} {e : Libasm.Maker.Expr} {t : List Char}
    (h : Libasm.Maker.Writes N e t) (hf : e.Fits taken) :
    Libasm.Maker.Writes N e (skipSpaces t) ∧ ∃ c u, skipSpaces t = c :: u ∧ isSpace c = false := by
  have key : ∀ {e : Libasm.Maker.Expr} {t : List Char} (c : Char) (u : List Char),
      Libasm.Maker.Writes N e t → t = c :: u → isSpace c = false →
      Libasm.Maker.Writes N e (skipSpaces t) ∧ ∃ c u, skipSpaces t = c :: u ∧ isSpace c = false := by
    intro e t c u h ht hc
    subst ht
    rw [skip_cons hc]
    exact ⟨h, c, u, rfl, hc⟩
  have sep : Libasm.Maker.Sep [] := by intro c hc; cases hc
  induction h with
  | num n t h =>
    obtain ⟨c, u, ht, hc, _⟩ := L.number n t [] h hf sep
    exact key c u (.num n _ h) ht hc.1.space
  | char x t h =>
    obtain ⟨c, u, ht, hc, _⟩ := L.letter x t [] h sep
    exact key c u (.char x _ h) ht hc.1.space
  | here c h => exact key c [] (.here c h) rfl (L.here c h [] sep).1.1.space
  | sym name h =>
    obtain ⟨c, u, hcu, hc, hu⟩ := h.1.1
    exact key c u (.sym _ h) hcu (atom_space (.inl hc))
  | paren e t sp h hsp ih => exact key _ _ (.paren e t sp h hsp) rfl rfl
  | un o e w t ho hw h he ih =>
    obtain ⟨c, u, hcu, hc⟩ := L.preHead o ho w hw
    exact key c (u ++ t) (.un o e w t ho hw h he) (by rw [hcu]; rfl) hc.1.space
  | bin o l r tl sp w tr ho hw hl hsp hs hr he ihl ihr =>
    obtain ⟨hwl, c, u, hc, hcs⟩ := ihl hf.1
    have e : skipSpaces (tl ++ sp ++ w ++ tr) = skipSpaces tl ++ sp ++ w ++ tr := by
      obtain ⟨bl, hb1, hb2⟩ := skip_split tl
      conv => lhs; rw [hb2]
      simp only [List.append_assoc]
      rw [skip_blanks hb1, hc, List.cons_append, skip_cons hcs]
    rw [e]
    refine ⟨.bin o l r _ sp w tr ho hw hwl hsp hs hr he, c, u ++ sp ++ w ++ tr, ?_, hcs⟩
    rw [hc]; simp
  | call name n args sp texts blanks hn hsp hb h ih =>
    obtain ⟨c, u, hcu, hc, hu⟩ := hn.1.1
    exact key c (u ++ sp ++ _) (.call name n args sp texts blanks hn hsp hb h) (by rw [hcu]; rfl)
      (atom_space (.inl hc))
  | blank e c t hc h ih =>
    rw [skip_blank (blank_space.mp hc)]
    exact ih hf

theorem maker_stops {rest : Scan} (h : Follow rest) : Libasm.Maker.Stops '\x00' rest := by
  obtain ⟨sp, t, rfl, hsp, h⟩ := h
  refine ⟨sp, t, rfl, hsp, ?_⟩
  rcases h with rfl | ⟨u, rfl⟩ | ⟨u, rfl⟩
  · exact .inl rfl
  · exact .inr (.inl ⟨u, rfl⟩)
  · exact .inr (.inr (.inr ⟨',', u, rfl, by unfold Libasm.Maker.TokenStart; decide, by decide, by decide, by decide⟩))

theorem mark_space (a : Asm) {m : List Char} (h : (strings a).Mark m) : ∀ c ∈ m, isSpace c = false := by
  rcases h with rfl | ⟨x, rfl, h⟩
  · simp
  · intro c hc
    have := List.mem_singleton.mp hc
    subst this
    cases hx : isSpace c with
    | false => rfl
    | true =>
      have hlt : c.toNat < 128 := by
        simp only [isSpace, Bool.or_eq_true, Bool.and_eq_true, decide_eq_true_eq, beq_iff_eq] at hx
        omega
      have := Ctype.ascii (p := fun c => isSpace c = true → toUpper c ∉ ['A', 'T', 'C'])
        (by decide +kernel) c hlt hx
      exfalso
      cases a <;> first
        | cases h
        | (injection h with h; exact this (by rw [← h]; decide))

/-- The first character after an operand is no quote. -/
theorem follow_quote {rest : Scan} (hf : Follow rest) {q : Char} {v : Scan} (hd : Delim q)
    (h : rest = q :: v) : False := by
  obtain ⟨sp, t, rfl, hsp, ht⟩ := hf
  cases sp with
  | nil =>
    rw [List.nil_append] at h
    rcases ht with rfl | ⟨u, rfl⟩ | ⟨u, rfl⟩
    · cases h
    · injection h with h; exact hd.2.2.1 h.symm
    · injection h with h; exact hd.2.1 h.symm
  | cons c sp =>
    injection h with h
    subst h
    exact hd.2.2.2 (hsp c (List.mem_cons_self ..))

section
variable (a : Asm) (E : Cpu.Env)
  (hfloat : ∀ s v rest, E.float s = some (.OK, v, rest) → rest.length < s.length)
  (loc : Nat) (hloc : loc < 2 ^ 32) (names : List Char → Option Int) (hn : Named E.symbols names)
  (funs : List Char → Option (List Int → Option Int)) (hF : Libasm.Maker.Computes E.functions funs)
  (big wordUnit : Bool) (type : DataType)
include hfloat hloc hn hF

theorem loop_list (items : List Item) (text : List Char)
    (ht : ListText a.notation (strings a) type items text)
    (hfit : ∀ i ∈ items, Fits (fun n => E.functions n ≠ none) i) {rest : List Char}
    (hrest : Ending rest) {b0 : Buf} :
    ∀ (xs : List Nat), allBytes type big wordUnit names funs loc items = .ok xs →
    ∀ fuel b ys, (text ++ rest).length < fuel → Track b0 ys b .OK →
      ∃ sc b' err, operands (env a E loc big wordUnit) type fuel
          (text ++ rest) b .OK = .ok (sc, b', err) ∧ Track b0 (ys ++ xs) b' err ∧
        (err = .OK → sc = skipSpaces rest) := by
  have one : ∀ (i : Item) (t : List Char), ItemText a.notation (strings a) type i t →
      Fits (fun n => E.functions n ≠ none) i → ∀ xs, bytes type big wordUnit names funs loc i = .ok xs →
      ∀ rest, Follow rest → ∀ b ys, Track b0 ys b .OK →
      ∃ p b' err, operand (env a E loc big wordUnit) type
          (t ++ rest) b .OK = .ok (if err = .NO_MEMORY then .stop p b' err else .next p b' err) ∧
        Track b0 (ys ++ xs) b' err ∧ skipSpaces p = skipSpaces rest := by
    intro i t hi hfi xs hxs rest hf b ys htr
    cases hi with
    | value e t h hq =>
      obtain ⟨hg1, hg2, hg3, hg4⟩ := hfi
      unfold bytes at hxs
      dsimp only at hxs
      cases hx : e.value names funs loc with
      | error f => rw [hx] at hxs; cases hxs
      | ok x =>
        rw [hx] at hxs
        injection hxs with hxs
        subst hxs
        obtain ⟨pre, inf, L⟩ := asm_lex a E hfloat '\x00' loc
        obtain ⟨hw, c, u, hcu, hcs⟩ := writes_skip L h hg2
        obtain ⟨⟨val, er, p⟩, hp, her, hdn, hv, sp, hsp, hrs⟩ := C15_makers_partial a E hfloat '\x00'
          ⟨by unfold Libasm.Maker.TokenStart; decide, by decide⟩ loc hloc names hn funs hF e _ rest hw hg1 hg2 hg3 hg4
          (maker_stops hf) x hx
        have her' : er = .OK := her
        subst her'
        have hs : skipSpaces p = skipSpaces rest := by
          have hrs' : rest = sp ++ p := hrs
          rw [hrs', skip_blanks hsp]
        have hq' : DataType.strings type = true → ∀ m q v, c :: u ++ rest = m ++ q :: v →
            (strings a).Mark m → q ∉ (strings a).quotes := by
          intro hstr m q v hm hmk hqm
          obtain ⟨bl, hb1, hb2⟩ := skip_split t
          rw [hcu] at hb2
          rcases hmk with rfl | ⟨y, rfl, hy⟩
          · injection hm with hm1 hm2
            subst hm1
            exact hq hstr bl [] c u (by rw [hb2]; simp) hb1 (.inl rfl) hqm
          · injection hm with hm1 hm2
            subst hm1
            cases u with
            | nil => exact follow_quote hf ((strs a).quote q hqm) hm2
            | cons d u =>
              injection hm2 with hm2 hm3
              subst hm2
              exact hq hstr bl [c] d u (by rw [hb2]; simp) hb1 (.inr ⟨c, rfl, hy⟩) hqm
        obtain ⟨b', err, h1, h2⟩ := operand_value (E := env a E loc big wordUnit) (S := strings a) (eol a) (strs a)
          (quote_percent a) (quote_byte a) type hcu hcs hq' hdn hv hp hs hf htr
        exact ⟨skipSpaces rest, b', err, h1, h2, skip_skip rest⟩
    | string s u sp m q hs hdm hm hsp hc =>
      injection hxs with hxs
      subst hxs
      obtain ⟨b', err, h1, h2⟩ := operand_string (E := env a E loc big wordUnit) (S := strings a) (eol a) (strs a)
        (quote_percent a) (quote_byte a) type hdm hs hm (mark_space a hm) hsp hc hf htr
      exact ⟨rest, b', err, h1, h2, rfl⟩
  induction ht with
  | last i t h =>
    intro xs hxs fuel b ys hl htr
    have hx1 : bytes type big wordUnit names funs loc i = .ok xs := by
      unfold allBytes at hxs
      cases hb : bytes type big wordUnit names funs loc i with
      | error f => rw [hb] at hxs; cases hxs
      | ok x =>
        rw [hb] at hxs
        simp only [allBytes, List.append_nil] at hxs
        exact hxs
    obtain ⟨p, b', err, h1, h2, h3⟩ := one i t h (hfit i (List.mem_cons_self ..)) xs hx1 rest
      (ending_follow hrest) b ys htr
    cases fuel with
    | zero => omega
    | succ fuel =>
      by_cases he : err = .NO_MEMORY
      · refine ⟨p, b', err, ?_, h2, fun h => by rw [he] at h; cases h⟩
        unfold operands; rw [h1, if_pos he]; rfl
      · refine ⟨skipSpaces p, b', err, ?_, h2, fun _ => h3⟩
        unfold operands; rw [h1, if_neg he]
        dsimp only [Out.bind]
        rw [h3, ending_no_comma hrest]
  | more i t sp is u h hsp hu ih =>
    intro xs hxs fuel b ys hl htr
    unfold allBytes at hxs
    cases hb : bytes type big wordUnit names funs loc i with
    | error f => rw [hb] at hxs; cases hxs
    | ok x =>
      cases ha : allBytes type big wordUnit names funs loc is with
      | error f => rw [hb, ha] at hxs; cases hxs
      | ok y =>
        rw [hb, ha] at hxs
        injection hxs with hxs
        subst hxs
        have e : t ++ sp ++ ',' :: u ++ rest = t ++ (sp ++ ',' :: (u ++ rest)) := by simp
        rw [e] at hl ⊢
        obtain ⟨p, b', err, h1, h2, h3⟩ := one i t h (hfit i (List.mem_cons_self ..)) x hb
          (sp ++ ',' :: (u ++ rest)) ⟨sp, _, rfl, hsp, .inr (.inr ⟨_, rfl⟩)⟩ b ys htr
        cases fuel with
        | zero => omega
        | succ fuel =>
          by_cases he : err = .NO_MEMORY
          · subst he
            refine ⟨p, b', .NO_MEMORY, ?_, ?_, fun h => by cases h⟩
            · unfold operands; rw [h1, if_pos rfl]; rfl
            · rw [← List.append_assoc]; exact h2.more y
          · have heok : err = .OK := by
              have := h2.err
              split at this
              · exact absurd this he
              · exact this
            subst heok
            obtain ⟨sc, b2, err2, k1, k2, k3⟩ := ih
              (fun i hi => hfit i (List.mem_cons_of_mem _ hi)) y ha fuel b' _
              (by simp only [List.length_append, List.length_cons] at hl ⊢; omega) h2
            refine ⟨sc, b2, err2, ?_, by rw [← List.append_assoc]; exact k2, k3⟩
            unfold operands; rw [h1, if_neg he]
            dsimp only [Out.bind]
            rw [h3, skip_blanks hsp, skip_cons (by decide), expect_self]
            exact k1

/-- C45, notations of the makers: for each of the 23 assemblers of the table, a data directive with any
list of expressions and strings, written in any way the notation allows, puts exactly the bytes of its
operands, in order and in the byte order of the CPU, after the bytes that are there, as far as 64
bytes go.  It reports NO_MEMORY when they do not fit and no error otherwise, and then leaves the text
after the operands.  With alignment the address is first rounded up to an even one.

Not covered: floating point data, function calls, expressions that start with a quote of a string
(which are read as strings), and range checks, which the code does not make. -/
theorem C45_makers_partial (items : List Item) (text rest : List Char)
    (ht : ListText a.notation (strings a) type items text) (hrest : Ending rest)
    (hfit : ∀ i ∈ items, Fits (fun n => E.functions n ≠ none) i) (xs : List Nat)
    (hxs : allBytes type big wordUnit names funs loc items = .ok xs) (align2 : Bool) (b : Buf)
    (hb : Fine b) (hok : b.error = .OK) (ha : b.address < 2 ^ 32) :
    ∃ sc b', defineDataConstant (env a E loc big wordUnit) type
        align2 (text ++ rest) b = .ok (sc, b') ∧
      b'.bytes.take b'.length = (b.bytes.take b.length ++ xs).take 64 ∧
      b'.length = min 64 (b.length + xs.length) ∧
      b'.error = (if 64 < b.length + xs.length then .NO_MEMORY else .OK) ∧
      (b.length + xs.length ≤ 64 → ∃ sp, (∀ c ∈ sp, Blank c) ∧ rest = sp ++ sc) ∧
      b'.address = (if align2 then (b.address + b.address % 2) % 2 ^ 32 else b.address) ∧
      Fine b' := by
  have key : ∀ b : Buf, Fine b → b.error = .OK → ∃ sc b', (operands
        (env a E loc big wordUnit) type ((text ++ rest).length + 1)
        (text ++ rest) b .OK).bind (fun (scan, b, error) => .ok (scan, { b with error := error })) =
          .ok (sc, b') ∧
      b'.bytes.take b'.length = (b.bytes.take b.length ++ xs).take 64 ∧
      b'.length = min 64 (b.length + xs.length) ∧
      b'.error = (if 64 < b.length + xs.length then .NO_MEMORY else .OK) ∧
      (b.length + xs.length ≤ 64 → ∃ sp, (∀ c ∈ sp, Blank c) ∧ rest = sp ++ sc) ∧
      b'.address = b.address ∧ Fine b' := by
    intro b hb hok
    obtain ⟨sc, b', err, h1, h2, h3⟩ := loop_list a E hfloat loc hloc names hn funs hF big wordUnit type
      items text ht hfit hrest xs hxs ((text ++ rest).length + 1) b []
      (by omega) (track_start hb hok)
    rw [List.nil_append] at h2
    refine ⟨sc, { b' with error := err }, by rw [h1]; rfl, h2.bytes, h2.length, h2.err, ?_,
      h2.address, ⟨h2.fine.cells, h2.fine.used, h2.fine.bytes⟩⟩
    intro hl
    have : err = .OK := by rw [h2.err, if_neg (by omega)]
    rw [h3 this]
    exact skip_split rest
  unfold defineDataConstant
  cases align2 with
  | false =>
    exact key b hb hok
  | true =>
    have hal : b.align 2 = some { b with address := (b.address + b.address % 2) % 2 ^ 32 } := by
      unfold Buf.align
      dsimp only
      rw [show 2 % 256 = 2 from rfl, if_neg (by decide),
        show b.address % 2 % 256 = b.address % 2 by omega]
      by_cases h : b.address % 2 ≠ 0
      · rw [if_pos h, show 2 - b.address % 2 = b.address % 2 by omega]
      · rw [if_neg h, show (b.address + b.address % 2) % 2 ^ 32 = b.address by omega]
    dsimp only
    rw [if_pos rfl, hal]
    exact key { b with address := (b.address + b.address % 2) % 2 ^ 32 }
      ⟨hb.cells, hb.used, hb.bytes⟩ hok

end

/-! ### A case: ` N, a'it''s'` with `N` = 5, for the SCN2650. -/

/-- ` N, a'it''s'`. -/
def sampleItems : List Item := [.value (.sym ['N']), .string [0x69, 0x74, 0x27, 0x73]]

def sampleItemsText : List Char :=
  [' ', 'N', ',', ' ', 'a', '\'', 'i', 't', '\'', '\'', 's', '\'']

example : ListText (Asm.notation .scn2650) (strings .scn2650) .byte sampleItems sampleItemsText := by
  have i1 : ItemText (Asm.notation .scn2650) (strings .scn2650) .byte (.value (.sym ['N'])) [' ', 'N'] := by
    refine .value _ _ (.blank _ _ _ (by decide) (.sym _ (name_N _ (by decide)))) ?_
    intro _ sp m q u h hsp hm hq
    have hc : q = '\'' := List.mem_singleton.mp hq
    subst hc
    have : '\'' ∈ [' ', 'N'] := by rw [h]; simp
    revert this; decide
  have plain : ∀ c : Char, c ≠ '\x00' → c ≠ '\'' → c.toNat < 256 → Letter false '\'' c.toNat [c] :=
    fun c h0 hq hb => .plain c h0 hq (fun h => by cases h) hb
  have hc : Content false '\'' [0x69, 0x74, 0x27, 0x73] ['i', 't', '\'', '\'', 's'] :=
    .cons _ ['i'] _ _ (plain 'i' (by decide) (by decide) (by decide))
      (.cons _ ['t'] _ _ (plain 't' (by decide) (by decide) (by decide))
        (.cons _ ['\'', '\''] _ _ (.twice rfl)
          (.cons _ ['s'] _ _ (plain 's' (by decide) (by decide) (by decide)) .nil)))
  exact .more _ _ [] _ _ i1 (by simp) (.last _ _
    (.string (S := strings .scn2650) _ _ [' '] ['a'] '\'' rfl (by decide) (.inr ⟨'a', rfl, by decide⟩) (by decide) hc))

example : ∀ i ∈ sampleItems, Fits (fun n => oneEnv.functions n ≠ none) i := by
  intro i hi
  simp only [sampleItems, List.mem_cons, List.not_mem_nil, or_false] at hi
  rcases hi with rfl | rfl
  · simp [Fits, Libasm.Maker.Expr.Grouped, Libasm.Maker.Expr.Fits, Libasm.Maker.Expr.values,
      Libasm.Maker.Expr.operators, oneEnv, noFunctions]
  · trivial

example : allBytes .byte true false oneName Libasm.Maker.noFuns 0 sampleItems = .ok [5, 0x69, 0x74, 0x27, 0x73] := by rfl

/-- In the model: the directive on that text. -/
example : (match defineDataConstant (env .scn2650 oneEnv 0 true false) .byte false
      (sampleItemsText ++ [' ', ';', 'x']) (Buf.new 0x100) with
    | .ok (sc, b) => decide (sc = [';', 'x'] ∧ b.length = 5 ∧ b.error = .OK)
    | _ => false) = true := by decide +kernel

/-- In the notation of Zilog `A%Q%0d` between quotes is `A`, a quote and a carriage return. -/
example : Content (strings .z8).percent '\'' [0x41, 0x27, 0x0D] ['A', '%', 'Q', '%', '0', 'd'] :=
  .cons _ ['A'] _ _ (.plain 'A' (by decide) (by decide) (fun _ => by decide) (by decide))
    (.cons _ ['%', 'Q'] _ _ (.escape 'Q' '\'' rfl (by decide))
      (.cons _ ['%', '0', 'd'] _ _ (.hex '0' 'd' rfl (by decide) (by decide)) .nil))

end Libasm.Data.Maker
