import Verif.Cpu.Kit
import Verif.Table.Lemmas
import Verif.Config.Props
/-
For C29: what a line that was assembled looks like, and where its instruction was found. The
specification of C29 is `WrittenAs`.
-/
namespace Libasm.Cpu
open Scan Number Eval Ctype

/-- No symbols, no functions, no floating point numbers. -/
def noEnv : Env := ⟨fun _ => none, fun _ => none, fun _ => none⟩

/-- The first word of the line, after blanks, is `name`, but for the case of letters: what comes after it
is no letter or digit. -/
def WrittenAs (line name : List Char) : Prop :=
  ∃ blanks word rest, line = blanks ++ word ++ rest ∧ (∀ c ∈ blanks, Ctype.isSpace c = true) ∧
    (∀ c ∈ rest.head?, Ctype.isAlnum c = false) ∧ Table.Spec.Same word name

theorem WrittenAs.letters {line a b : List Char} (h : WrittenAs line a)
    (he : Table.Spec.Same a b) : WrittenAs line b := by
  obtain ⟨x, y, z, h1, h2, h4, h3⟩ := h
  exact ⟨x, y, z, h1, h2, h4, Eq.trans h3 he⟩

theorem skipSpaces_split : ∀ s : List Char,
    ∃ blanks, s = blanks ++ skipSpaces s ∧ ∀ c ∈ blanks, Ctype.isSpace c = true
  | [] => ⟨[], rfl, by simp⟩
  | c :: t => by
    by_cases h : Ctype.isSpace c = true
    · obtain ⟨b, h1, h2⟩ := skipSpaces_split t
      refine ⟨c :: b, ?_, ?_⟩
      · show c :: t = c :: b ++ List.dropWhile isSpace (c :: t)
        rw [List.dropWhile_cons_of_pos h]
        exact congrArg (c :: ·) h1
      · intro x hx
        rcases List.mem_cons.1 hx with rfl | hx
        · exact h
        · exact h2 x hx
    · refine ⟨[], ?_, by simp⟩
      show c :: t = List.dropWhile isSpace (c :: t)
      rw [List.dropWhile_cons_of_neg h]

theorem readInstruction_split (letter terminator : Char → Bool) : ∀ s : List Char,
    s = (readInstruction letter terminator s).1 ++ (readInstruction letter terminator s).2 ∧
    (∀ c ∈ (readInstruction letter terminator s).1, letter c = true) ∧
    ((∀ c ∈ (readInstruction letter terminator s).2.head?, letter c = false) ∨
      ∃ c ∈ (readInstruction letter terminator s).1, terminator c = true)
  | [] => ⟨rfl, by simp [readInstruction], Or.inl (by simp [readInstruction])⟩
  | c :: t => by
    obtain ⟨h1, h2, h3⟩ := readInstruction_split letter terminator t
    unfold readInstruction
    by_cases h : letter c = true
    · rw [if_pos h]
      by_cases h' : terminator c = true
      · rw [if_pos h']
        exact ⟨rfl, by simpa using h, Or.inr ⟨c, by simp, h'⟩⟩
      · rw [if_neg h']
        refine ⟨congrArg (c :: ·) h1, ?_, ?_⟩
        · intro x hx
          rcases List.mem_cons.1 hx with rfl | hx
          · exact h
          · exact h2 x hx
        · rcases h3 with h3 | ⟨x, h3, h4⟩
          · exact Or.inl h3
          · exact Or.inr ⟨x, List.mem_cons_of_mem _ h3, h4⟩
    · rw [if_neg h]
      exact ⟨rfl, by simp, Or.inl (by simpa using h)⟩

/-- A line that was assembled without error. -/
theorem encode_line_inv {S : Syntax} {width : Nat} {impl : List Char → Scan → Out Res} {addr : Nat}
    {line : List Char} {r : Res} (hnul : S.instructionLetter '\x00' = false) (hr : r.err = .OK)
    (h : encode S width impl addr line = .ok (.insn r)) :
    ∃ word scan, impl (word.take 11) scan = .ok r ∧ Config.checkAddr width addr false = .OK ∧
      '\x00' ∉ word ∧
      ∃ blanks rest, line = blanks ++ word ++ rest ∧ (∀ c ∈ blanks, Ctype.isSpace c = true) ∧
        ((∀ c ∈ rest.head?, S.instructionLetter c = false) ∨ ∃ c ∈ word, S.instructionTerminator c = true) := by
  unfold encode at h
  obtain ⟨b, hb1, hb2⟩ := skipSpaces_split line
  obtain ⟨s1, s2, s3⟩ := readInstruction_split S.instructionLetter S.instructionTerminator (skipSpaces line)
  dsimp only at h
  split at h
  · cases h
  · split at h
    · cases h
    · split at h
      · rename_i hc
        injection h with h
        injection h with h
        subst h
        exact absurd hr hc
      · rename_i hc
        cases hi : impl ((readInstruction S.instructionLetter S.instructionTerminator (skipSpaces line)).1.take 11)
            (skipSpaces (readInstruction S.instructionLetter S.instructionTerminator (skipSpaces line)).2) with
        | stackUB => rw [hi] at h; cases h
        | ub => rw [hi] at h; cases h
        | diverge => rw [hi] at h; cases h
        | ok r' =>
          rw [hi] at h
          injection h with h
          injection h with h
          subst h
          refine ⟨_, _, hi, Classical.not_not.1 hc, ?_, b,
            (readInstruction S.instructionLetter S.instructionTerminator (skipSpaces line)).2, ?_, hb2, s3⟩
          · intro hm
            have := s2 _ hm
            rw [hnul] at this
            cases this
          · rw [List.append_assoc, ← s1]
            exact hb1

theorem pick_mem {α : Type} {items : List α} {cmp : α → Int} {m : α → Bool} {a : α} :
    ∀ {is : List Nat} {f : Table.Found α}, f ≠ .item a → Table.pick items cmp m is f = some (.item a) →
      a ∈ items ∧ cmp a = 0 ∧ m a = true
  | [], f, hf, h => by
    simp only [Table.pick, Option.some.injEq] at h
    exact absurd h hf
  | i :: is, f, hf, h => by
    unfold Table.pick at h
    split at h
    · cases h
    · rename_i item hi
      split at h
      · injection h with h
        exact absurd h hf
      · rename_i hc
        split at h
        · rename_i hm
          injection h with h
          injection h with h
          subst h
          exact ⟨List.mem_of_getElem? hi, Classical.not_not.1 hc, hm⟩
        · exact pick_mem (fun hn => by cases hn) h

theorem searchName_mem {α : Type} {cmp : α → Int} {accept : Table.Page α → α → Bool} {pre : Nat} {e : α} :
    ∀ {pages : List (Table.Page α)} {f : Bool},
      Table.searchName cmp accept pages f = some (.ok (pre, e)) →
      ∃ p ∈ pages, p.prefix_ = pre ∧ e ∈ p.entries ∧ cmp e = 0 ∧ accept p e = true
  | [], f, h => by
    simp [Table.searchName] at h
  | p :: ps, f, h => by
    unfold Table.searchName at h
    have tl : ∀ {f}, Table.searchName cmp accept ps f = some (.ok (pre, e)) →
        ∃ q ∈ p :: ps, q.prefix_ = pre ∧ e ∈ q.entries ∧ cmp e = 0 ∧ accept q e = true := by
      intro f h
      obtain ⟨q, q1, q2⟩ := searchName_mem h
      exact ⟨q, List.mem_cons_of_mem _ q1, q2⟩
    split at h
    · cases h
    · exact tl h
    · rename_i entry hs
      simp only [Option.some.injEq, Except.ok.injEq, Prod.mk.injEq] at h
      obtain ⟨rfl, rfl⟩ := h
      unfold Table.indexedSearch at hs
      split at hs
      · cases hs
      · obtain ⟨h1, h2, h3⟩ := pick_mem (fun hn => by cases hn) hs
        exact ⟨p, List.mem_cons_self .., rfl, h1, h2, h3⟩
    · exact tl h

theorem searchName_err {α : Type} {cmp : α → Int} {accept : Table.Page α → α → Bool} {e : Err} :
    ∀ {pages : List (Table.Page α)} {f : Bool},
      Table.searchName cmp accept pages f = some (.error e) → e ≠ .OK
  | [], f, h => by
    simp only [Table.searchName, Option.some.injEq, Except.error.injEq] at h
    rw [← h]
    split <;> decide
  | p :: ps, f, h => by
    unfold Table.searchName at h
    split at h
    · cases h
    · exact searchName_err h
    · cases h
    · exact searchName_err h

theorem symbolLetter_alnum {c : Char} (h : Ctype.isAlnum c = true) : symbolLetter false c = true := by
  unfold Ctype.isAlnum at h
  unfold symbolLetter
  simp only [Bool.or_eq_true] at h
  rcases h with h | h <;> simp [h]

theorem prefixSymbol_alnum {pre extra : Option (List Char)} {c : Char} (h : Ctype.isAlnum c = true) :
    prefixSymbol pre extra false c = true := by
  unfold prefixSymbol
  rw [symbolLetter_alnum h]
  rfl

/-- The word of the line is the name found. -/
theorem written {S : Syntax} (hal : ∀ c, Ctype.isAlnum c = true → S.instructionLetter c = true)
    (hterm : ∀ c, S.instructionTerminator c = true → c = '=') {line blanks word rest name : List Char} (h0 : '\x00' ∉ word) (hn : '\x00' ∉ name)
    (hl : name.length < 11) (h : Table.strcasecmp (word.take 11) name = 0)
    (heq : '=' ∉ name) (he : line = blanks ++ word ++ rest)
    (hb : (∀ c ∈ blanks, Ctype.isSpace c = true) ∧
      ((∀ c ∈ rest.head?, S.instructionLetter c = false) ∨ ∃ c ∈ word, S.instructionTerminator c = true)) :
    WrittenAs line name := by
  have h1 : '\x00' ∉ word.take 11 := fun h => h0 (List.mem_of_mem_take h)
  have hk := (Table.strcasecmp_zero h1 hn).1 h
  have hlen : (word.take 11).length = name.length := by
    have := congrArg List.length hk
    rwa [Table.key_length, Table.key_length] at this
  have hw : word.take 11 = word := by
    rw [List.length_take] at hlen
    exact List.take_of_length_le (by omega)
  rw [hw] at hk
  refine ⟨blanks, word, rest, he, hb.1, ?_, hk⟩
  intro c hc
  rcases hb.2 with h | ⟨x, h1, h2⟩
  · cases ha : Ctype.isAlnum c with
    | false => rfl
    | true =>
      have := h c hc
      rw [hal c ha] at this
      cases this
  · exfalso
    rw [hterm x h2] at h1
    have hk' : Table.Spec.key word = Table.Spec.key name := hk
    have h3 : (Table.Spec.key ['=']).head! ∈ Table.Spec.key word := by
      unfold Table.Spec.key
      exact List.mem_map.2 ⟨'=', h1, rfl⟩
    rw [hk'] at h3
    unfold Table.Spec.key at h3
    obtain ⟨y, h4, h5⟩ := List.mem_map.1 h3
    apply heq
    have : y = '=' := by
      have h6 : (if 65 ≤ y.toNat ∧ y.toNat ≤ 90 then y.toNat + 32 else y.toNat) = 61 := h5
      split at h6
      · omega
      · rw [← Char.ofNat_toNat y, h6]
    rw [← this]
    exact h4

theorem bsearch_mem {α : Type} {items : List α} {cmp : α → Int} {a : α}
    (h : Table.binarySearch items cmp = some (some a)) : a ∈ items := by
  unfold Table.binarySearch at h
  split at h
  · cases h
  · cases h
  · split at h
    · cases h
    · rename_i hi
      simp only [Option.some.injEq] at h
      subst h
      exact List.mem_of_getElem? hi

theorem searchText_mem {α : Type} {table : List (List Char × α)} {s p : Scan} {r : α}
    (h : searchText table s = .ok (some (r, p))) : ∃ n, (n, r) ∈ table := by
  unfold searchText at h
  split at h
  · cases h
  · cases h
  · rename_i e rest hs
    injection h with h
    simp only [Option.some.injEq, Prod.mk.injEq] at h
    obtain ⟨rfl, rfl⟩ := h
    unfold Table.searchSymbol at hs
    dsimp only at hs
    split at hs
    · cases hs
    · split at hs
      · cases hs
      · cases hs
      · rename_i hb
        simp only [Option.some.injEq, Prod.mk.injEq] at hs
        obtain ⟨rfl, _⟩ := hs
        exact ⟨_, bsearch_mem hb⟩

theorem bind_ok {α β : Type} {x : Out α} {f : α → Out β} {b : β} (h : x.bind f = .ok b) :
    ∃ a, x = .ok a ∧ f a = .ok b := by
  cases x with
  | ok a => exact ⟨a, rfl, h⟩
  | stackUB => cases h
  | ub => cases h
  | diverge => cases h

theorem byte_some {b : Nat} {mem bytes : List Nat} (hb : b < 256) :
    (⟨b :: mem, bytes, .OK⟩ : Rd).byte = (b, ⟨mem, bytes ++ [b], .OK⟩) := by
  unfold Rd.byte
  dsimp only
  rw [Nat.mod_eq_of_lt hb]

theorem one_byte {bs mem bytes : List Nat} (hb : ∀ b ∈ bs, b < 256) (h : bs.length = 1) :
    (⟨bs ++ mem, bytes, .OK⟩ : Rd).byte.2 = ⟨mem, bytes ++ bs, .OK⟩ := by
  obtain ⟨b, rfl⟩ := List.length_eq_one_iff.1 h
  rw [List.singleton_append, byte_some (hb b (List.mem_cons_self ..))]

theorem two_bytes {bs mem bytes : List Nat} (hb : ∀ b ∈ bs, b < 256) (h : bs.length = 2) :
    (⟨bs ++ mem, bytes, .OK⟩ : Rd).be16.2 = ⟨mem, bytes ++ bs, .OK⟩ := by
  obtain ⟨b, c, rfl⟩ : ∃ b c, bs = [b, c] := by
    match bs, h with
    | [b, c], _ => exact ⟨b, c, rfl⟩
  unfold Rd.be16
  rw [List.cons_append, List.singleton_append, byte_some (hb b (List.mem_cons_self ..))]
  dsimp only
  rw [byte_some (hb c (by simp)), List.append_assoc]
  rfl

/-- What a displacement was computed from. -/
theorem branch_back {w base target : Nat} {e e' : Err} {d : Int} (h0 : 0 < w) (hw : w ≤ 32)
    (hb : base ≤ 2 ^ w) (hbW : base < Config.W) (ht : target < Config.W)
    (h : Config.branchDelta w base target e = some (d, e')) (he : e' = .OK) :
    e = .OK ∧ target < 2 ^ w ∧ d = (target : Int) - base := by
  have h1 : e = .OK := by
    by_cases hn : e = .OK
    · exact hn
    · exact absurd he (Config.branchDelta_err hn h)
  subst h1
  obtain ⟨d', e'', h2, h3, h4, _⟩ := Config.branchDelta_eq h0 hw hb hbW ht
  rw [h2] at h
  simp only [Option.some.injEq, Prod.mk.injEq] at h
  obtain ⟨rfl, rfl⟩ := h
  exact ⟨rfl, (h3.1 he).1, h4 he⟩

/-- Names that are the same compare the same. -/
theorem strcasecmp_same : ∀ {a b : List Char}, '\x00' ∉ a → '\x00' ∉ b → Table.strcasecmp a b = 0 →
    ∀ c, Table.strcasecmp a c = Table.strcasecmp b c
  | [], [], _, _, _, _ => rfl
  | [], y :: _, _, hb, h, _ => by
    have := Table.low_pos (c := y) (fun e => hb (by rw [e]; exact List.mem_cons_self ..))
    simp only [Table.strcasecmp] at h
    omega
  | x :: _, [], ha, _, h, _ => by
    have := Table.low_pos (c := x) (fun e => ha (by rw [e]; exact List.mem_cons_self ..))
    simp only [Table.strcasecmp] at h
    omega
  | x :: xs, y :: ys, ha, hb, h, c => by
    unfold Table.strcasecmp at h
    split at h
    · rename_i he
      have ih := strcasecmp_same (fun hm => ha (List.mem_cons_of_mem _ hm))
        (fun hm => hb (List.mem_cons_of_mem _ hm)) h
      cases c with
      | nil => simp only [Table.strcasecmp, he]
      | cons z zs => simp only [Table.strcasecmp, he, ih]
    · omega

/-- Printing in capital or small letters makes no other name. -/
theorem outText_same (o : Opts) (name : List Char) : Table.Spec.Same name (outText o name) := by
  unfold Table.Spec.Same Table.Spec.key outText
  rw [List.map_map]
  apply List.map_congr_left
  intro c _
  dsimp only [Function.comp]
  have hv : ∀ n : Nat, n < 256 → (Char.ofNat n).toNat = n := by
    intro n hn
    have : n.isValidChar := Or.inl (by omega)
    simp only [Char.ofNat, this, dif_pos]
    rfl
  unfold letter Ctype.toUpper Ctype.toLower Ctype.isLower Ctype.isUpper
  cases o.upper
  · simp only [Bool.false_eq_true, if_false, Bool.and_eq_true, decide_eq_true_eq]
    by_cases h : 65 ≤ c.toNat ∧ c.toNat ≤ 90
    · rw [if_pos h, if_pos h, hv _ (by omega), if_neg (by omega)]
    · rw [if_neg h, if_neg h, if_neg h]
  · simp only [if_true, Bool.and_eq_true, decide_eq_true_eq]
    by_cases h : 97 ≤ c.toNat ∧ c.toNat ≤ 122
    · rw [if_pos h, if_neg (by omega), hv _ (by omega), if_pos (by omega)]
      omega
    · rw [if_neg h]

/-- What is in range is at most the bound. -/
theorem overflow_le {v : Value} {max : Nat} (hm : max ≤ 2147483647) (h : v.overflow max 0 = false) :
    v.getUnsigned ≤ max := by
  unfold Value.overflow at h
  split at h
  · cases h
  · split at h
    · simpa using h
    · split at h
      · simpa using h
      · simp only [Bool.or_eq_false_iff, Bool.and_eq_false_iff, decide_eq_false_iff_not] at h
        unfold Value.getSigned at h
        unfold Value.getUnsigned
        dsimp only at h
        split at h <;> omega

end Libasm.Cpu
