import Verif.Cpu.Print
/-
How an assembler takes the printed operands apart: numbers, location symbols, register names, and
the name of the instruction.
-/
namespace Libasm.Cpu
open Scan Number Number.Spec Eval Table.Spec
open Table (isNameLetter)

/-! ### Numbers -/

/-- The other plugins of the assembler leave the numbers of the style alone. -/
structure LexOk (L : Lexer) (own : Style) : Prop where
  letter : ∀ t, Lead own t → (L.letter t).1 = .NOT_AN_EXPECTED
  eol : ∀ t, Lead own t → L.endOfLine t = false
  pre : ∀ t, Lead own t → ∀ st r, L.operators.parser.readPrefix t st r = .ok (none, t, st, r)

theorem not_float {rest : List Char} (h : Ends rest) (delim : Char) :
    isFloatNumber delim rest .OK = false := by
  have h1 : expect '.' rest = none := expect_none fun c hc => (h c hc).2.2.2.2
  have h2 : iexpect 'E' rest = none := by
    apply iexpect_none
    intro d hd heq
    obtain ⟨_, h2, h3, _, _⟩ := h d hd
    rw [toUpper_of_not_lower h3] at heq
    subst heq
    exact h2 (by decide)
  unfold isFloatNumber exponent
  simp [h1, h2]

theorem lead_space {own : Style} {t : List Char} (h : Lead own t) : skipSpaces t = t := by
  have key : ∀ c s, Ctype.isSpace c = false → skipSpaces (c :: s) = c :: s := by
    intro c s hc
    unfold skipSpaces trimStart
    rw [List.dropWhile_cons, hc]
    rfl
  rcases h with ⟨c, s, hc, rfl⟩ | ⟨p, hp, s, rfl⟩
  · exact key c s (Ctype.ascii (p := fun c => IsDigit 10 c → Ctype.isSpace c = false)
      (by decide +kernel) c (digit_ascii hc) hc)
  · have : ∀ p ∈ leads own, ∃ c s, p = c :: s ∧ Ctype.isSpace c = false := by
      intro p hp
      have hall : ∀ own, ∀ p ∈ leads own, p ≠ [] ∧ Ctype.isSpace (p.headD 'x') = false := by
        intro own; cases own <;> decide
      obtain ⟨h1, h2⟩ := hall own p hp
      obtain ⟨c, s, rfl⟩ := List.exists_cons_of_ne_nil h1
      exact ⟨c, s, rfl, h2⟩
    obtain ⟨c, u, rfl, hc⟩ := this p hp
    exact key c (u ++ s) hc

theorem lead_ne {own : Style} {t : List Char} (h : Lead own t) : t ≠ [] := by
  rcases h with ⟨c, s, hc, rfl⟩ | ⟨p, hp, s, rfl⟩
  · exact List.cons_ne_nil _ _
  · have hall : ∀ own, ∀ p ∈ leads own, p ≠ [] := by intro own; cases own <;> decide
    have := hall own p hp
    intro he
    exact this (List.append_eq_nil_iff.1 he).1

theorem const_of {L : Lexer} {own : Style} (hL : LexOk L own) {t : List Char} {v : Nat}
    (h : NumText own L.number t v) (E : Env) (delim : Char) (loc : Nat) :
    Const (L.plugins E delim loc) t ⟨v, .unsigned⟩ := by
  refine ⟨lead_ne h.lead, fun rest => lead_space (h.lead.append rest),
    fun rest => hL.eol _ (h.lead.append rest), fun rest st r => hL.pre _ (h.lead.append rest) st r,
    fun rest hr => ?_⟩
  show constant L.letter L.number.parse L.location E.float delim loc (t ++ rest) .r10 = _
  unfold constant
  have h1 := hL.letter _ (h.lead.append rest)
  split
  · rename_i he; rw [he] at h1; cases h1
  · rw [h.reads rest hr.ends]
    dsimp only
    rw [not_float hr.ends, if_neg (by decide)]
    rfl
  · rename_i e _ _ hne heq
    rw [heq] at h1
    exact absurd h1 hne

/-- What numbers of the style can start with. -/
def firsts (own : Style) : List Char :=
  ['0', '1', '2', '3', '4', '5', '6', '7', '8', '9'] ++ (leads own).map (·.headD '0')

theorem lead_first {own : Style} {t : List Char} (h : Lead own t) :
    ∃ c s, t = c :: s ∧ c ∈ firsts own := by
  rcases h with ⟨c, s, hc, rfl⟩ | ⟨p, hp, s, rfl⟩
  · refine ⟨c, s, rfl, List.mem_append_left _ ?_⟩
    exact Ctype.ascii (p := fun c => IsDigit 10 c →
      c ∈ ['0', '1', '2', '3', '4', '5', '6', '7', '8', '9']) (by decide +kernel) c
      (digit_ascii hc) hc
  · have hall : ∀ own, ∀ p ∈ leads own, p ≠ [] := by intro own; cases own <;> decide
    obtain ⟨c, u, rfl⟩ := List.exists_cons_of_ne_nil (hall own p hp)
    exact ⟨c, u ++ s, rfl, List.mem_append_right _ (List.mem_map.2 ⟨_, hp, rfl⟩)⟩

theorem lexOk_of {L : Lexer} {own : Style}
    (h : ∀ c ∈ firsts own, ∀ s, (L.letter (c :: s)).1 = .NOT_AN_EXPECTED ∧
      L.endOfLine (c :: s) = false ∧
      ∀ st r, L.operators.parser.readPrefix (c :: s) st r = .ok (none, c :: s, st, r)) :
    LexOk L own := by
  constructor
  · intro t ht
    obtain ⟨c, s, rfl, hc⟩ := lead_first ht
    exact (h c hc s).1
  · intro t ht
    obtain ⟨c, s, rfl, hc⟩ := lead_first ht
    exact (h c hc s).2.1
  · intro t ht st r
    obtain ⟨c, s, rfl, hc⟩ := lead_first ht
    exact (h c hc s).2.2 st r

/-- The location symbol is a constant. -/
theorem const_loc {L : Lexer} {c : Char} (hsp : Ctype.isSpace c = false)
    (h : ∀ s, Sep s → (L.letter (c :: s)).1 = .NOT_AN_EXPECTED ∧
      L.number.parse (c :: s) .r10 = notNumber (c :: s) ∧ L.location (c :: s) = some s)
    (hf : ∀ s, isFloatNumber '\x00' (c :: s) .NOT_AN_EXPECTED = false)
    (he : ∀ s, L.endOfLine (c :: s) = false)
    (hp : ∀ s st r, L.operators.parser.readPrefix (c :: s) st r = .ok (none, c :: s, st, r))
    (E : Env) (delim : Char) {loc : Nat} (hl : loc < 2 ^ 32) :
    Const (L.plugins E delim loc) [c] ⟨loc, .unsigned⟩ := by
  refine ⟨List.cons_ne_nil _ _, ?_, fun rest => he _, fun rest st r => hp _ st r, ?_⟩
  · intro rest
    unfold skipSpaces trimStart
    rw [List.cons_append, List.dropWhile_cons, hsp]
    rfl
  · intro rest hr
    obtain ⟨h1, h2, h3⟩ := h rest hr
    show constant L.letter L.number.parse L.location E.float delim loc (c :: rest) .r10 = _
    unfold constant
    split
    · rename_i he; rw [he] at h1; cases h1
    · rw [h2]
      unfold notNumber
      dsimp only
      have h4 : isFloatNumber delim (c :: rest) .NOT_AN_EXPECTED = false := hf rest
      rw [h4, h3]
      simp only [Bool.false_eq_true, if_false, ne_eq, not_true_eq_false]
      unfold Value.setUnsigned Value.setU Value.M
      have : loc % 4294967296 % 18446744073709551616 = loc := by omega
      rw [this]
    · rename_i e _ _ hne heq
      rw [heq] at h1
      exact absurd h1 hne

/-- Whether the number is written with a sign or not, the evaluator gives what it means. -/
theorem eval_signed {L : Lexer} {own : Style} (hL : LexOk L own) {t rest : List Char} {x : Int}
    {E : Env} {delim : Char} {loc : Nat} (hO : Ops (L.plugins E delim loc))
    (h : SignedText own L.number t x) (hr : Sep rest) (hs : Stop (L.plugins E delim loc) rest) :
    parseInteger (L.plugins E delim loc) (t ++ rest) .OK = .ok (Value.setS x, .OK, rest) := by
  obtain ⟨u, h1, h2⟩ := h.ex
  by_cases hx : x < 0
  · rw [if_pos hx] at h1
    rw [h1]
    have := eval_neg hO (const_of hL h2 E delim loc) h2.small hr hs
    rw [show (-(x.natAbs : Int)) = x by omega] at this
    exact this
  · rw [if_neg hx] at h1
    rw [h1]
    have := eval_const (const_of hL h2 E delim loc) hr hs
    rw [show (⟨x.natAbs, .unsigned⟩ : Value) = Value.setS x by
      unfold Value.setS
      rw [if_pos (by omega), show x.natAbs = x.toNat by omega]] at this
    exact this

/-! ### Registers -/

/-- A table of register names that can be searched. -/
def RegsOk {α : Type} (table : List (List Char × α)) : Prop :=
  (∀ e ∈ table, Name e.1) ∧ Sorted (table.map (·.1))

instance {α : Type} (table : List (List Char × α)) : Decidable (RegsOk table) :=
  inferInstanceAs (Decidable (_ ∧ List.Pairwise _ _))

theorem symbol_name (s : List Char) : Name (s.takeWhile isNameLetter) := by
  intro h
  have : ∀ c ∈ s.takeWhile isNameLetter, isNameLetter c = true := by
    intro c hc
    have h := List.all_takeWhile (p := isNameLetter) (l := s)
    exact List.all_eq_true.1 h c hc
  have := this _ h
  revert this
  decide

theorem searchText_eq {α : Type} {table : List (List Char × α)} (h : RegsOk table) (s : Scan) :
    searchText table s = .ok (if s.takeWhile isNameLetter = [] then none
      else (table.find? fun e => decide (Same e.1 (s.takeWhile isNameLetter))).map
        fun e => (e.2, s.dropWhile isNameLetter)) := by
  have hk := symbol_name s
  unfold searchText Table.searchSymbol
  by_cases h0 : s.takeWhile isNameLetter = []
  · simp [h0]
  · have h1 : ¬ (s.takeWhile isNameLetter).length = 0 := by
      intro h; exact h0 (List.eq_nil_of_length_eq_zero h)
    simp only
    rw [if_neg h1, if_neg h0, Table.binarySearch_eq (Table.desc_of_sorted hk h.1 h.2 (fun a ha =>
      ⟨(Table.textMatcher_eq _ _ hk (h.1 a ha)).1, (Table.textMatcher_eq _ _ hk (h.1 a ha)).2⟩))]
    have e : table.find?
        (fun a => decide (Table.textMatcher (s.takeWhile isNameLetter) a.1 = 0)) =
        table.find? (fun a => decide (Same a.1 (s.takeWhile isNameLetter))) := by
      apply Table.find?_congr'
      intro a ha
      apply decide_eq_decide.mpr
      rw [Table.same_comm, ← Table.strcasecmp_zero hk (h.1 a ha)]
      have := Table.textMatcher_eq _ _ hk (h.1 a ha)
      omega
    rw [e]
    cases table.find? (fun a => decide (Same a.1 (s.takeWhile isNameLetter))) <;> rfl

theorem takeWhile_sep {p : Char → Bool} {t rest : List Char} (ht : ∀ c ∈ t, p c = true)
    (hr : ∀ c, rest.head? = some c → p c = false) :
    (t ++ rest).takeWhile p = t ∧ (t ++ rest).dropWhile p = rest := by
  induction t with
  | nil =>
    cases rest with
    | nil => exact ⟨rfl, rfl⟩
    | cons c r =>
      have := hr c rfl
      exact ⟨by rw [List.nil_append, List.takeWhile_cons, this]; rfl,
        by rw [List.nil_append, List.dropWhile_cons, this]; rfl⟩
  | cons c t ih =>
    have h1 := ht c (List.mem_cons_self ..)
    have h2 := ih (fun d hd => ht d (List.mem_cons_of_mem _ hd))
    exact ⟨by rw [List.cons_append, List.takeWhile_cons, h1, if_pos rfl, h2.1],
      by rw [List.cons_append, List.dropWhile_cons, h1, if_pos rfl, h2.2]⟩

theorem sep_name {rest : List Char} (h : Sep rest) :
    ∀ c, rest.head? = some c → isNameLetter c = false := by
  intro c hc
  have : ∀ c ∈ seps, isNameLetter c = false := by decide
  exact this c (h c hc)

/-- A register name before a separator is found. -/
theorem reg_found {α : Type} {table : List (List Char × α)} (h : RegsOk table) {t rest : List Char}
    (ht : t ≠ [] ∧ ∀ c ∈ t, isNameLetter c = true) (hr : Sep rest) {a : α}
    (hf : (table.find? fun e => decide (Same e.1 t)).map (·.2) = some a) :
    searchText table (t ++ rest) = .ok (some (a, rest)) := by
  obtain ⟨h1, h2⟩ := takeWhile_sep ht.2 (sep_name hr)
  rw [searchText_eq h, h1, h2, if_neg ht.1]
  cases hx : table.find? fun e => decide (Same e.1 t) with
  | none => rw [hx] at hf; cases hf
  | some e =>
    rw [hx] at hf
    injection hf with hf
    simp [hf]

/-- Text that does not start with a name letter is no register. -/
theorem reg_none_head {α : Type} {table : List (List Char × α)} (h : RegsOk table) {s : List Char}
    (hs : ∀ c, s.head? = some c → isNameLetter c = false) : searchText table s = .ok none := by
  have : s.takeWhile isNameLetter = [] := by
    cases s with
    | nil => rfl
    | cons c t => rw [List.takeWhile_cons, hs c rfl]; rfl
  rw [searchText_eq h, this, if_pos rfl]

/-- No register of the table starts like a number of the style. -/
def NoNumbers {α : Type} (own : Style) (table : List (List Char × α)) : Prop :=
  ∀ e ∈ table, (∀ c, e.1.head? = some c → ¬ IsDigit 10 c) ∧
    ∀ p ∈ leads own, key (e.1.take p.length) ≠ key p

instance {α : Type} (own : Style) (table : List (List Char × α)) :
    Decidable (NoNumbers own table) :=
  have : ∀ e : List Char × α, Decidable (∀ c, e.1.head? = some c → ¬ IsDigit 10 c) := fun e =>
    match h : e.1.head? with
    | none => isTrue (by intro c hc; cases hc)
    | some d =>
      if hd : IsDigit 10 d then isFalse (fun hx => hx d rfl hd)
      else isTrue (by intro c hc; injection hc with hc; exact hc ▸ hd)
  inferInstanceAs (Decidable (∀ e ∈ table, _ ∧ _))

theorem key_take (s : List Char) (n : Nat) : key (s.take n) = (key s).take n := by
  unfold key; rw [List.map_take]

theorem takeWhile_append_prefix {p : Char → Bool} {a : List Char} (ha : ∀ c ∈ a, p c = true)
    (s : List Char) : (a ++ s).takeWhile p = a ++ s.takeWhile p := by
  induction a with
  | nil => rfl
  | cons c t ih =>
    rw [List.cons_append, List.takeWhile_cons, ha c (List.mem_cons_self ..), if_pos rfl,
      ih (fun d hd => ha d (List.mem_cons_of_mem _ hd)), List.cons_append]

/-- A number is no register. -/
theorem reg_none {α : Type} {own : Style} {table : List (List Char × α)} (h : RegsOk table)
    (hn : NoNumbers own table) {s : List Char} (hs : Lead own s) :
    searchText table s = .ok none := by
  have none_of : (∀ e ∈ table, s.takeWhile isNameLetter ≠ [] → ¬ Same e.1 (s.takeWhile isNameLetter)) →
      searchText table s = .ok none := by
    intro hx
    rw [searchText_eq h]
    by_cases h0 : s.takeWhile isNameLetter = []
    · rw [if_pos h0]
    · rw [if_neg h0]
      have : table.find? (fun e => decide (Same e.1 (s.takeWhile isNameLetter))) = none := by
        rw [List.find?_eq_none]
        intro e he
        simp only [decide_eq_true_eq]
        exact hx e he h0
      rw [this]
      rfl
  rcases hs with ⟨c, t, hc, rfl⟩ | ⟨p, hp, t, rfl⟩
  · apply none_of
    intro e he _ hsame
    have hcn : isNameLetter c = true :=
      Ctype.ascii (p := fun c => IsDigit 10 c → isNameLetter c = true) (by decide +kernel) c
        (digit_ascii hc) hc
    rw [List.takeWhile_cons, hcn, if_pos rfl] at hsame
    cases hd : e.1 with
    | nil => rw [hd] at hsame; cases hsame
    | cons d u =>
      rw [hd] at hsame
      have h1 := (List.cons.inj hsame).1
      have h2 := (hn e he).1 d (by rw [hd]; rfl)
      apply h2
      have hcr : 48 ≤ c.toNat ∧ c.toNat ≤ 57 :=
        Ctype.ascii (p := fun c => IsDigit 10 c → 48 ≤ c.toNat ∧ c.toNat ≤ 57)
          (by decide +kernel) c (digit_ascii hc) hc
      simp only at h1
      rw [if_neg (show ¬ (65 ≤ c.toNat ∧ c.toNat ≤ 90) by omega)] at h1
      have h3 : d.toNat = c.toNat := by
        split at h1 <;> omega
      have : d = c := by rw [← Char.ofNat_toNat d, ← Char.ofNat_toNat c, h3]
      rw [this]
      exact hc
  · have hall : ∀ own, ∀ p ∈ leads own, (∀ c ∈ p, isNameLetter c = true) ∨
        (p ≠ [] ∧ isNameLetter (p.headD 'x') = false) := by
      intro own; cases own <;> decide
    rcases hall own p hp with h1 | ⟨h1, h2⟩
    · apply none_of
      intro e he _ hsame
      rw [takeWhile_append_prefix h1] at hsame
      apply (hn e he).2 p hp
      rw [key_take]
      have : key e.1 = key p ++ key (t.takeWhile isNameLetter) := by
        rw [← Table.key_append]; exact hsame
      rw [this, ← Table.key_length p, List.take_left]
    · obtain ⟨c, u, rfl⟩ := List.exists_cons_of_ne_nil h1
      exact reg_none_head h (by intro d hd; injection hd with hd; exact hd ▸ h2)

/-! ### The name of the instruction -/

theorem readInstruction_name {letter term : Char → Bool} {t rest : List Char}
    (ht : ∀ c ∈ t, letter c = true ∧ term c = false)
    (hr : ∀ c, rest.head? = some c → letter c = false) :
    readInstruction letter term (t ++ rest) = (t, rest) := by
  induction t with
  | nil =>
    cases rest with
    | nil => rfl
    | cons c r => rw [List.nil_append]; unfold readInstruction; rw [hr c rfl]; rfl
  | cons c t ih =>
    rw [List.cons_append]
    unfold readInstruction
    rw [(ht c (List.mem_cons_self ..)).1, (ht c (List.mem_cons_self ..)).2,
      ih (fun d hd => ht d (List.mem_cons_of_mem _ hd))]
    rfl

/-- White space between the name and the operands. -/
def Blank (sep : List Char) : Prop := sep ≠ [] ∧ ∀ c ∈ sep, Ctype.isSpace c = true

theorem skip_blank {sep : List Char} (h : ∀ c ∈ sep, Ctype.isSpace c = true) (t : List Char) :
    skipSpaces (sep ++ t) = skipSpaces t := by
  unfold skipSpaces trimStart
  induction sep with
  | nil => rfl
  | cons c s ih =>
    rw [List.cons_append, List.dropWhile_cons, h c (List.mem_cons_self ..)]
    exact ih (fun d hd => h d (List.mem_cons_of_mem _ hd))

/-- A line of a name, blanks and operands. -/
theorem encode_line {S : Syntax} {width : Nat} {impl : List Char → Scan → Out Res} {addr : Nat}
    {name sep operands : List Char}
    (hn : name ≠ [] ∧ name.length ≤ 11 ∧
      ∀ c ∈ name, S.instructionLetter c = true ∧ S.instructionTerminator c = false ∧
        Ctype.isSpace c = false)
    (hsp : ∀ c, Ctype.isSpace c = true → S.instructionLetter c = false)
    (hc : ∀ rest, S.commentLine (name ++ rest) = false)
    (hp : isPseudo S name = false) (hsep : Blank sep) (ho : skipSpaces operands = operands)
    (ha : Config.checkAddr width addr false = .OK) :
    encode S width impl addr (name ++ sep ++ operands) =
      (impl name operands).bind fun r => .ok (.insn r) := by
  have h0 : skipSpaces (name ++ sep ++ operands) = name ++ (sep ++ operands) := by
    obtain ⟨c, t, ht⟩ := List.exists_cons_of_ne_nil hn.1
    have := (hn.2.2 c (by rw [ht]; exact List.mem_cons_self ..)).2.2
    rw [List.append_assoc, ht]
    unfold skipSpaces trimStart
    rw [List.cons_append, List.dropWhile_cons, this]
    rfl
  have h1 : readInstruction S.instructionLetter S.instructionTerminator (name ++ (sep ++ operands)) =
      (name, sep ++ operands) := by
    apply readInstruction_name (fun c hc => ⟨(hn.2.2 c hc).1, (hn.2.2 c hc).2.1⟩)
    intro c hcc
    obtain ⟨d, u, hu⟩ := List.exists_cons_of_ne_nil hsep.1
    rw [hu] at hcc
    injection hcc with hcc
    subst hcc
    exact hsp _ (hsep.2 _ (by rw [hu]; exact List.mem_cons_self ..))
  unfold encode
  rw [h0]
  dsimp only
  rw [hc, if_neg (by decide), h1]
  dsimp only
  rw [List.take_of_length_le hn.2.1, hp, skip_blank hsep.2, ho, ha]
  simp

end Libasm.Cpu
