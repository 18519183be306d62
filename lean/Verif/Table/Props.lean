import Verif.Table.Lemmas
/-
C24: table searches answer as a scan of every row would.  C41: register numbers.
C44: matching without regard to case.
-/
namespace Libasm.Table.Props
open Spec

/-! ### C44 -/

/-- **C44, comparison.** `strcasecmp` orders names by their letters with case removed: its sign
says which name comes first, and it is zero for the names that are equal up to case. -/
theorem C44_compare (a b : List Char) (ha : Name a) (hb : Name b) :
    (strcasecmp a b = 0 ↔ Same a b) ∧ (strcasecmp a b < 0 ↔ Before a b) ∧
      (strcasecmp a b > 0 ↔ Before b a) := strcasecmp_spec a b ha hb

example : Name "MOVx".toList ∧ Name "movY".toList ∧ Before "MOVx".toList "movY".toList ∧
    Same "Jmp".toList "jMP".toList ∧ strcasecmp "MOVx".toList "movY".toList < 0 := by decide

/-- **C44, total order.** The order is total, transitive and consistent with equality up to case,
which is an equivalence. -/
theorem C44_total_order :
    (∀ a b : List Char, Name a → Name b → (strcasecmp a b < 0 ↔ strcasecmp b a > 0)) ∧
    (∀ a b c : List Char, Name a → Name b → Name c → strcasecmp a b ≤ 0 → strcasecmp b c ≤ 0 →
      strcasecmp a c ≤ 0) ∧
    (∀ a : List Char, strcasecmp a a = 0) ∧
    (∀ a b c : List Char, Name a → Name b → Name c → strcasecmp a b = 0 → strcasecmp b c = 0 →
      strcasecmp a c = 0) ∧
    (∀ a b c : List Char, Name a → Name b → Name c → strcasecmp a b = 0 →
      (strcasecmp a c < 0 ↔ strcasecmp b c < 0)) := by
  refine ⟨?_, ?_, ?_, ?_, ?_⟩
  · intro a b ha hb
    rw [(C44_compare a b ha hb).2.1, (C44_compare b a hb ha).2.2]
  · intro a b c ha hb hc h1 h2
    have h1' : ¬ Before b a := fun h => by
      have := (C44_compare a b ha hb).2.2.mpr h
      omega
    have h2' : ¬ Before c b := fun h => by
      have := (C44_compare b c hb hc).2.2.mpr h
      omega
    have h3 : ¬ Before c a := by
      unfold Before at *
      exact List.not_lt.mpr (List.le_trans (List.not_lt.mp h1') (List.not_lt.mp h2'))
    exact Int.not_lt.mp fun h => h3 ((C44_compare a c ha hc).2.2.mp h)
  · intro a
    induction a with
    | nil => rfl
    | cons c a ih => unfold strcasecmp; rw [if_pos rfl]; exact ih
  · intro a b c ha hb hc h1 h2
    rw [(C44_compare _ _ ha hb).1] at h1
    rw [(C44_compare _ _ hb hc).1] at h2
    rw [(C44_compare _ _ ha hc).1]
    exact Eq.trans h1 h2
  · intro a b c ha hb hc h
    rw [(C44_compare _ _ ha hb).1] at h
    rw [(C44_compare _ _ ha hc).2.1, (C44_compare _ _ hb hc).2.1]
    unfold Before
    rw [show key a = key b from h]

/-- **C44, by upper-cased letters.** Being the same up to case is being the same in capitals, and
changing the case of a name does not change what it is. -/
theorem C44_upper (a b : List Char) : Same a b ↔
    (a.map fun c => if 97 ≤ c.toNat ∧ c.toNat ≤ 122 then c.toNat - 32 else c.toNat) =
      (b.map fun c => if 97 ≤ c.toNat ∧ c.toNat ≤ 122 then c.toNat - 32 else c.toNat) := by
  unfold Same
  induction a generalizing b with
  | nil => cases b <;> simp [key]
  | cons c a ih =>
    cases b with
    | nil => simp [key]
    | cons d b =>
      have := ih b
      simp only [key, List.map_cons, List.cons.injEq] at this ⊢
      rw [this]
      have hcd : ((if 65 ≤ c.toNat ∧ c.toNat ≤ 90 then c.toNat + 32 else c.toNat) =
          if 65 ≤ d.toNat ∧ d.toNat ≤ 90 then d.toNat + 32 else d.toNat) ↔
          ((if 97 ≤ c.toNat ∧ c.toNat ≤ 122 then c.toNat - 32 else c.toNat) =
          if 97 ≤ d.toNat ∧ d.toNat ≤ 122 then d.toNat - 32 else d.toNat) := by
        split <;> split <;> split <;> split <;> omega
      rw [hcd]

/-- **C44, equality.** `iequals` accepts exactly the names equal up to case. -/
theorem C44_iequals (s t : List Char) (hs : Name s) (ht : Name t) :
    iequals s t = true ↔ Same s t := by
  unfold iequals
  rw [Bool.and_eq_true, decide_eq_true_eq, decide_eq_true_eq, strncasecmp_zero s t hs ht]
  constructor
  · rintro ⟨hl, p, r, e, h⟩
    have h1 := congrArg List.length h
    rw [key_length, key_length] at h1
    have h2 := congrArg List.length e
    rw [List.length_append] at h2
    have : r = [] := List.eq_nil_of_length_eq_zero (by omega)
    rw [e, this, List.append_nil]
    exact h
  · intro h
    have h1 := congrArg List.length h
    rw [key_length, key_length] at h1
    exact ⟨h1, s, [], by simp, h⟩

example : iequals "Z80".toList "z80".toList = true ∧ iequals "Z8".toList "z80".toList = false := by
  decide

/-- **C44, expected text.** `iexpectText` succeeds exactly when the input begins with the text up to
case, and leaves what comes after it. -/
theorem C44_expectText (s t r : List Char) (hs : Name s) (ht : Name t) :
    iexpectText s t = some r ↔ ∃ p, s = p ++ r ∧ Same p t := by
  have hz := strncasecmp_zero s t hs ht
  unfold iexpectText
  constructor
  · intro h
    split at h
    · rename_i h0
      obtain ⟨p, q, e, hp⟩ := hz.mp h0
      have hl := congrArg List.length hp
      rw [key_length, key_length] at hl
      have h' := Option.some.inj h
      rw [e, ← hl, List.drop_left] at h'
      exact ⟨p, by rw [← h', e], hp⟩
    · exact absurd h (by simp)
  · rintro ⟨p, e, hp⟩
    have hl := congrArg List.length hp
    rw [key_length, key_length] at hl
    rw [if_pos (hz.mpr ⟨p, r, e, hp⟩), e, ← hl, List.drop_left]

/-- **C44, expected word.** The same for a whole word: what follows is not a letter, a digit or an
underscore. -/
theorem C44_expectWord (s t r : List Char) (hs : Name s) (ht : Name t) :
    iexpectWord s t = some r ↔
      (∃ p, s = p ++ r ∧ Same p t) ∧ ∀ c, r.head? = some c → ¬ Ident c := by
  unfold iexpectWord
  rw [← C44_expectText s t r hs ht]
  cases h : iexpectText s t with
  | none => simp
  | some q =>
    have hd : (Ctype.isAlnum (Scan.deref q) || Scan.deref q == '_') = true ↔
        ∃ c, q.head? = some c ∧ Ident c := by
      cases q with
      | nil => decide
      | cons c q =>
        show isIdLetter c = true ↔ _
        rw [ident_iff]
        simp
    simp only
    split
    · rename_i h1
      obtain ⟨c, hc, hi⟩ := hd.mp h1
      simp only [false_iff, not_and, Option.some.injEq, reduceCtorEq]
      rintro rfl hn
      exact hn c hc hi
    · rename_i h1
      constructor
      · intro e
        have e := Option.some.inj e
        subst e
        exact ⟨rfl, fun c hc hi => h1 (hd.mpr ⟨c, hc, hi⟩)⟩
      · intro e; exact e.1

example : iexpectWord "Enable x".toList "enable".toList = some " x".toList ∧
    iexpectWord "enabled".toList "enable".toList = none ∧
    iexpectText "enabled".toList "ENABLE".toList = some "d".toList := by decide

/-! ### C24 -/

/-- **C24, plain tables** (directives). In a table sorted by name, the binary search finds the first
row with the name, wherever it is, and nothing when there is none. -/
theorem C24_binary {α : Type} (rows : List α) (name : α → List Char) (k : List Char)
    (hk : Name k) (hn : ∀ a ∈ rows, Name (name a)) (hs : Sorted (rows.map name)) :
    binarySearch rows (fun a => strcasecmp k (name a)) =
      some (rows.find? fun a => decide (Same (name a) k)) := by
  rw [binarySearch_eq (desc_strcasecmp hk hn hs)]
  congr 1
  apply find?_congr'
  intro a ha
  apply decide_eq_decide.mpr
  rw [strcasecmp_zero hk (hn a ha), same_comm]

/-- **C24, register names.** The longest run of letters of the input is looked up; the entry found is
the first one of the sorted table with that name, and the input moves past the name. -/
theorem C24_register {α : Type} (rows : List α) (text : α → List Char) (letter : Char → Bool)
    (scan : List Char) (hscan : Name scan) (hn : ∀ a ∈ rows, Name (text a))
    (hs : Sorted (rows.map text)) :
    searchSymbol rows text letter scan = some
      (if scan.takeWhile letter = [] then none
       else (rows.find? fun a => decide (Same (text a) (scan.takeWhile letter))).map
         fun a => (a, scan.dropWhile letter)) := by
  have hk : Name (scan.takeWhile letter) := by
    intro h
    exact hscan (List.IsPrefix.subset (List.takeWhile_prefix letter) h)
  unfold searchSymbol
  by_cases h0 : scan.takeWhile letter = []
  · simp [h0]
  · have h1 : ¬ (scan.takeWhile letter).length = 0 := by
      intro h; exact h0 (List.eq_nil_of_length_eq_zero h)
    simp only
    rw [if_neg h1, if_neg h0, binarySearch_eq (desc_of_sorted hk hn hs (fun a ha =>
      ⟨(textMatcher_eq _ _ hk (hn a ha)).1, (textMatcher_eq _ _ hk (hn a ha)).2⟩))]
    have e : rows.find? (fun a => decide (textMatcher (scan.takeWhile letter) (text a) = 0)) =
        rows.find? (fun a => decide (Same (text a) (scan.takeWhile letter))) := by
      apply find?_congr'
      intro a ha
      apply decide_eq_decide.mpr
      rw [same_comm, ← strcasecmp_zero hk (hn a ha)]
      have := textMatcher_eq _ _ hk (hn a ha)
      omega
    rw [e]
    cases rows.find? (fun a => decide (Same (text a) (scan.takeWhile letter))) <;> rfl

/-- **C24, indexed tables.** In an instruction table whose index lists rows of the table in the order
of their names, and leaves out no row except for another one with the same name that accepts the
same operands: an entry is found if and only if some row of the table has the name and accepts the
operands, and it is the first such row in index order; when rows have the name but none accepts the
operands the answer says so; otherwise the name is unknown. -/
theorem C24_indexed {α : Type} (entries : List α) (index : List Nat) (name : α → List Char)
    (k : List Char) (accept : α → Bool) (hk : Name k) (hn : ∀ a ∈ entries, Name (name a))
    (hb : ∀ i ∈ index, i < entries.length)
    (hcov : ∀ a ∈ entries, ∃ i ∈ index, ∃ b, entries[i]? = some b ∧ Same (name b) (name a) ∧
      accept b = accept a)
    (hs : Sorted (index.filterMap fun i => (entries[i]?).map name)) :
    ∃ f, indexedSearch entries index (fun a => strcasecmp k (name a)) accept = some f ∧
      match f with
      | .item a => a ∈ entries ∧ Same (name a) k ∧ accept a = true ∧
          ∃ before after, index = before ++ after ∧ (after.head?.bind (entries[·]?)) = some a ∧
            ∀ i ∈ before, ∀ b, entries[i]? = some b → Same (name b) k → accept b = false
      | .nameOnly => (∃ a ∈ entries, Same (name a) k) ∧
          ∀ a ∈ entries, Same (name a) k → accept a = false
      | .none => ∀ a ∈ entries, ¬ Same (name a) k := by
  have hb := filterMap_of_bounded hb
  have hmem : ∀ a ∈ index.filterMap (entries[·]?), a ∈ entries := fun a => mem_of_row
  have hcov' : ∀ a ∈ entries, ∃ b ∈ index.filterMap (entries[·]?), Same (name b) (name a) ∧
      accept b = accept a := by
    intro a ha
    obtain ⟨i, hi, b, h1, h2⟩ := hcov a ha
    exact ⟨b, List.mem_filterMap.mpr ⟨i, hi, h1⟩, h2⟩
  have hn' : ∀ a ∈ index.filterMap (entries[·]?), Name (name a) :=
    fun a ha => hn a (hmem a ha)
  rw [← map_filterMap_name] at hs
  rw [indexedSearch_eq hb (desc_strcasecmp hk hn' hs)]
  refine ⟨_, rfl, ?_⟩
  have hz : ∀ a ∈ entries, (strcasecmp k (name a) = 0 ↔ Same (name a) k) := by
    intro a ha
    rw [strcasecmp_zero hk (hn a ha), same_comm]
  cases hf : (index.filterMap (entries[·]?)).find?
      (fun a => decide (strcasecmp k (name a) = 0) && accept a) with
  | some a =>
    have ha := hmem a (List.mem_of_find?_eq_some hf)
    have hpred := List.find?_some hf
    rw [Bool.and_eq_true, decide_eq_true_eq] at hpred
    refine ⟨ha, (hz a ha).mp hpred.1, hpred.2, ?_⟩
    obtain ⟨_, as, bs, e, hbefore⟩ := List.find?_eq_some_iff_append.mp hf
    refine ⟨index.take as.length, index.drop as.length, (List.take_append_drop _ _).symm, ?_, ?_⟩
    · have h1 : (index.map (entries[·]?))[as.length]? = some (some a) := by
        rw [hb, e, List.map_append, List.getElem?_append_right (by simp)]
        simp
      rw [List.getElem?_map] at h1
      rw [List.head?_drop]
      cases hi : index[as.length]? with
      | none => rw [hi] at h1; simp at h1
      | some i => rw [hi] at h1; simpa using h1
    · intro i hi b hbi hsame
      obtain ⟨n, hn1⟩ := List.getElem?_of_mem hi
      rw [List.getElem?_take] at hn1
      split at hn1
      · rename_i hlt
        have h1 : (index.map (entries[·]?))[n]? = some (some b) := by
          rw [List.getElem?_map, hn1]
          simp [hbi]
        rw [hb, e, List.map_append, List.getElem?_append_left (by simpa using hlt),
          List.getElem?_map] at h1
        obtain ⟨b', hb', hb''⟩ := Option.map_eq_some_iff.mp h1
        have : b' = b := Option.some.inj hb''
        subst this
        have hx := hbefore b' (List.mem_of_getElem? hb')
        have hbm : b' ∈ entries := List.mem_of_getElem? hbi
        rw [decide_eq_true ((hz b' hbm).mpr hsame)] at hx
        simpa using hx
      · exact absurd hn1 (by simp)
  | none =>
    have hnone := List.find?_eq_none.mp hf
    have hno : ∀ a ∈ entries, Same (name a) k → accept a = false := by
      intro a ha hsame
      obtain ⟨b, hbr, hbn, hba⟩ := hcov' a ha
      have := hnone b hbr
      rw [decide_eq_true ((hz b (hmem b hbr)).mpr (Eq.trans hbn hsame))] at this
      rw [← hba]
      simpa using this
    simp only
    split
    · rename_i f hf'
      split at hf'
      · exact absurd hf' nofun
      · exact absurd hf' nofun
    · rename_i hf'
      split at hf'
      · rename_i hany
        obtain ⟨a, ha, h0⟩ := List.any_eq_true.mp hany
        have ha' := hmem a ha
        exact ⟨⟨a, ha', (hz a ha').mp (of_decide_eq_true h0)⟩, hno⟩
      · exact absurd hf' nofun
    · rename_i hf'
      split at hf'
      · exact absurd hf' nofun
      · rename_i hany
        intro a ha hsame
        apply hany
        obtain ⟨b, hbr, hbn, _⟩ := hcov' a ha
        exact List.any_eq_true.mpr
          ⟨b, hbr, decide_eq_true ((hz b (hmem b hbr)).mpr (Eq.trans hbn hsame))⟩

/-- A small table: three names, four rows, in opcode order, and its index. -/
example : let entries : List (List Char × Nat) :=
      [("ST".toList, 1), ("LD".toList, 2), ("ld".toList, 3), ("ADD".toList, 4)]
    let index := [3, 1, 2, 0]
    (∀ a ∈ entries, Name a.1) ∧ (∀ i ∈ index, i < entries.length) ∧
      (∀ a ∈ entries, ∃ i ∈ index, entries[i]? = some a) ∧
      Sorted (index.filterMap fun i => (entries[i]?).map Prod.fst) ∧
      indexedSearch entries index (fun a => strcasecmp "Ld".toList a.1) (fun a => a.2 == 3) =
        some (.item ("ld".toList, 3)) ∧
      indexedSearch entries index (fun a => strcasecmp "Ld".toList a.1) (fun a => a.2 == 1) =
        some .nameOnly ∧
      indexedSearch entries index (fun a => strcasecmp "SUB".toList a.1) (fun _ => true) =
        some .none := by
  unfold Sorted; decide +kernel

/-- **C24, instruction lookup.** Over all the pages of a CPU: the entry chosen has the name, accepts
the operands and comes from the first page that has such an entry, whose prefix it gets; otherwise
the error is OPERAND_NOT_ALLOWED when some page knows the name, and UNKNOWN_INSTRUCTION when none
does. -/
theorem C24_searchName {α : Type} (pages : List (Page α)) (name : α → List Char) (k : List Char)
    (accept : Page α → α → Bool) (hk : Name k)
    (hn : ∀ p ∈ pages, ∀ a ∈ p.entries, Name (name a))
    (hb : ∀ p ∈ pages, ∀ i ∈ p.index, i < p.entries.length)
    (hcov : ∀ p ∈ pages, ∀ a ∈ p.entries, ∃ i ∈ p.index, ∃ b, p.entries[i]? = some b ∧
      Same (name b) (name a) ∧ accept p b = accept p a)
    (hs : ∀ p ∈ pages, Sorted (p.index.filterMap fun i => (p.entries[i]?).map name)) :
    ∃ r, searchName (fun a => strcasecmp k (name a)) accept pages false = some r ∧
      ((∃ before page after a, pages = before ++ page :: after ∧ r = .ok (page.prefix_, a) ∧
          a ∈ page.entries ∧ Same (name a) k ∧ accept page a = true ∧
          ∀ p ∈ before, ∀ b ∈ p.entries, Same (name b) k → accept p b = false) ∨
       (r = .error .OPERAND_NOT_ALLOWED ∧ (∃ p ∈ pages, ∃ a ∈ p.entries, Same (name a) k) ∧
          ∀ p ∈ pages, ∀ a ∈ p.entries, Same (name a) k → accept p a = false) ∨
       (r = .error .UNKNOWN_INSTRUCTION ∧ ∀ p ∈ pages, ∀ a ∈ p.entries, ¬ Same (name a) k)) := by
  suffices H : ∀ found : Bool,
      ∃ r, searchName (fun a => strcasecmp k (name a)) accept pages found = some r ∧
      ((∃ before page after a, pages = before ++ page :: after ∧ r = .ok (page.prefix_, a) ∧
          a ∈ page.entries ∧ Same (name a) k ∧ accept page a = true ∧
          ∀ p ∈ before, ∀ b ∈ p.entries, Same (name b) k → accept p b = false) ∨
       (r = .error .OPERAND_NOT_ALLOWED ∧
          (found = true ∨ ∃ p ∈ pages, ∃ a ∈ p.entries, Same (name a) k) ∧
          ∀ p ∈ pages, ∀ a ∈ p.entries, Same (name a) k → accept p a = false) ∨
       (r = .error .UNKNOWN_INSTRUCTION ∧ found = false ∧
          ∀ p ∈ pages, ∀ a ∈ p.entries, ¬ Same (name a) k)) by
    obtain ⟨r, hr, h⟩ := H false
    refine ⟨r, hr, ?_⟩
    rcases h with h | h | h
    · exact .inl h
    · exact .inr (.inl ⟨h.1, h.2.1.resolve_left (by simp), h.2.2⟩)
    · exact .inr (.inr ⟨h.1, h.2.2⟩)
  induction pages with
  | nil =>
    intro found
    cases found
    · exact ⟨_, rfl, .inr (.inr ⟨rfl, rfl, nofun⟩)⟩
    · exact ⟨_, rfl, .inr (.inl ⟨rfl, .inl rfl, nofun⟩)⟩
  | cons page pages ih =>
    intro found
    have ih := ih (fun p h => hn p (by simp [h])) (fun p h => hb p (by simp [h]))
      (fun p h => hcov p (by simp [h])) (fun p h => hs p (by simp [h]))
    obtain ⟨f, hf, hspec⟩ := C24_indexed page.entries page.index name k (accept page) hk
      (hn page (by simp)) (hb page (by simp)) (hcov page (by simp)) (hs page (by simp))
    unfold searchName
    rw [hf]
    cases f with
    | item a =>
      exact ⟨_, rfl, .inl ⟨[], page, pages, a, rfl, rfl, hspec.1, hspec.2.1, hspec.2.2.1, nofun⟩⟩
    | nameOnly =>
      obtain ⟨⟨a, ha, hsame⟩, hno⟩ := hspec
      obtain ⟨r, hr, h⟩ := ih true
      refine ⟨r, hr, ?_⟩
      rcases h with ⟨before, pg, after, b, e, h1, h2, h3, h4, h5⟩ | h | h
      · refine .inl ⟨page :: before, pg, after, b, by rw [e]; rfl, h1, h2, h3, h4, ?_⟩
        intro q hq
        rcases List.mem_cons.mp hq with rfl | hq
        · exact hno
        · exact h5 q hq
      · refine .inr (.inl ⟨h.1, .inr ⟨page, by simp, a, ha, hsame⟩, ?_⟩)
        intro q hq
        rcases List.mem_cons.mp hq with rfl | hq
        · exact hno
        · exact h.2.2 q hq
      · exact absurd h.2.1 (by simp)
    | none =>
      obtain ⟨r, hr, h⟩ := ih found
      refine ⟨r, hr, ?_⟩
      rcases h with ⟨before, pg, after, b, e, h1, h2, h3, h4, h5⟩ | h | h
      · refine .inl ⟨page :: before, pg, after, b, by rw [e]; rfl, h1, h2, h3, h4, ?_⟩
        intro q hq
        rcases List.mem_cons.mp hq with rfl | hq
        · exact fun c hc hsame => absurd hsame (hspec c hc)
        · exact h5 q hq
      · refine .inr (.inl ⟨h.1, h.2.1.imp_right ?_, ?_⟩)
        · rintro ⟨q, hq, c, hc, hsame⟩
          exact ⟨q, by simp [hq], c, hc, hsame⟩
        · intro q hq
          rcases List.mem_cons.mp hq with rfl | hq
          · exact fun c hc hsame => absurd hsame (hspec c hc)
          · exact h.2.2 q hq
      · refine .inr (.inr ⟨h.1, h.2.1, ?_⟩)
        intro q hq
        rcases List.mem_cons.mp hq with rfl | hq
        · exact hspec
        · exact h.2.2 q hq

example : let pages : List (Page (List Char × Nat)) :=
      [⟨0, [], [("ST".toList, 1), ("LD".toList, 2)], [1, 0]⟩, ⟨0x8f, [], [("ld".toList, 3)], [0]⟩]
    (∀ p ∈ pages, ∀ a ∈ p.entries, Name a.1) ∧
    (∀ p ∈ pages, ∀ i ∈ p.index, i < p.entries.length) ∧
    (∀ p ∈ pages, ∀ a ∈ p.entries, ∃ i ∈ p.index, p.entries[i]? = some a) ∧
    (∀ p ∈ pages, Sorted (p.index.filterMap fun i => (p.entries[i]?).map Prod.fst)) ∧
    (searchName (fun a => strcasecmp "Ld".toList a.1) (fun _ a => a.2 == 3) pages false).map
      Except.toOption = some (some (0x8f, ("ld".toList, 3))) := by
  unfold Sorted
  decide +kernel

/-- **C24, disassembly lookup.** The entry chosen is the first row, in table order, of the pages
selected, that matches the code. -/
theorem C24_searchOpCode {α : Type} (pages : List (Page α)) (matchCode : Page α → α → Bool)
    (pageMatcher : Page α → Bool) :
    searchOpCode matchCode pageMatcher pages =
      ((pages.filter pageMatcher).flatMap fun p => p.entries.map fun a => (p, a)).find?
        fun x => matchCode x.1 x.2 := by
  induction pages with
  | nil => rfl
  | cons page pages ih =>
    unfold searchOpCode
    rw [List.filter_cons, linearSearch_eq]
    cases hpm : pageMatcher page with
    | false => simpa using ih
    | true =>
      simp only [if_true, List.flatMap_cons, List.find?_append, List.find?_map]
      rw [ih]
      have : (fun x : Page α × α => matchCode x.1 x.2) ∘ (fun a => (page, a)) = matchCode page := rfl
      rw [this]
      cases page.entries.find? (matchCode page) <;> rfl

/-! ### C41 -/

/-- **C41, canonical numerals.** A canonical decimal numeral below 10000 that no identifier letter
follows is read, whatever comes after it, and its value is returned. -/
theorem C41_accepts (ds r : List Char) (hd : Canonical ds) (hv : decimal ds < 10000)
    (hr : ∀ c, r.head? = some c → ¬ Ident c) :
    parseRegNumber (ds ++ r) = some (decimal ds, r) := by
  obtain ⟨hne, hdig, hz⟩ := hd
  have hdig' : ∀ c ∈ ds, Ctype.isDigit c = true := fun c hc => (isDigit_iff c).mpr (hdig c hc)
  have hr' : ∀ c, r.head? = some c → Ctype.isDigit c = false := by
    intro c hc
    have := hr c hc
    cases h : Ctype.isDigit c with
    | false => rfl
    | true => exact absurd (Or.inl ((isDigit_iff c).mp h)) this
  have e := regLoop_bwd ds r 0 0 hdig' hv hr'
  have hid : isIdLetter (Scan.deref r) = false := by
    cases r with
    | nil => decide
    | cons c r =>
      have := hr c rfl
      cases h : isIdLetter (Scan.deref (c :: r)) with
      | false => rfl
      | true => exact absurd ((ident_iff c).mp h) this
  unfold parseRegNumber
  rw [e]
  simp only [hid, Bool.false_eq_true, if_false, if_true]
  cases ds with
  | nil => exact absurd rfl hne
  | cons c ds =>
    by_cases h0 : c = '0'
    · subst h0
      have := hz rfl
      rw [this]
      rfl
    · have hl : lead (c :: ds) = 0 := by simp [lead, h0]
      have hne0 : (c :: ds).foldl step 0 ≠ 0 := by
        rw [List.foldl_cons]
        have h1 := foldl_step_ge ds (step 0 c)
        have h2 : step 0 c ≠ 0 := by
          intro hs
          exact h0 (digit_zero (hdig' c (by simp)) (by unfold step at hs; omega))
        omega
      rw [hl]
      rw [if_neg]
      · rfl
      · simp only [incN]
        omega

example : Canonical "127".toList ∧ decimal "127".toList = 127 ∧
    parseRegNumber "127,".toList = some (127, ",".toList) ∧ Canonical "0".toList := by decide

/-- **C41, nothing else (partial).** Unless 128 zeros begin the text, only canonical decimal numerals
below 10000 that no identifier letter follows are accepted.  Missing: texts that begin with 128 or
more zeros, for which the claim is false (see below). -/
theorem C41_only_partial (s r : List Char) (n : Nat)
    (hz : ¬ List.replicate 128 '0' <+: s) (h : parseRegNumber s = some (n, r)) :
    ∃ ds, s = ds ++ r ∧ Canonical ds ∧ n = decimal ds ∧ n < 10000 ∧
      ∀ c, r.head? = some c → ¬ Ident c := by
  obtain ⟨ds, h1, h2, h3, h4, h5⟩ := regLoop_fwd s 0 0 (by omega)
  unfold parseRegNumber at h
  generalize regLoop s 0 0 = t at *
  obtain ⟨v, z, p⟩ := t
  simp only at h h1 h3 h4 h5
  split at h
  · exact absurd h nofun
  · rename_i hid
    split at h
    · exact absurd h nofun
    · rename_i hcond
      simp only [Option.some.injEq, Prod.mk.injEq] at h
      obtain ⟨rfl, rfl⟩ := h
      have hl : lead ds ≤ 127 := by
        apply Nat.le_of_not_lt
        intro hlt
        apply hz
        rw [h1]
        exact (replicate_prefix hlt '0').trans ((lead_prefix ds).trans (List.prefix_append ds p))
      rw [if_pos trivial, incN_small (lead ds) 0 (by omega)] at h5
      refine ⟨ds, h1, ⟨?_, fun c hc => (isDigit_iff c).mp (h2 c hc), ?_⟩, h3, h4, ?_⟩
      · rintro rfl
        simp [lead] at h5
        simp at h3
        omega
      · intro hhead
        cases ds with
        | nil => exact absurd hhead nofun
        | cons c ds =>
          have hc : c = '0' := by simpa using hhead
          subst hc
          have hl1 : lead ('0' :: ds) = lead ds + 1 := by simp [lead]
          by_cases hv0 : v = 0
          · have hrep := lead_zeros _ h2 (by rw [← h3, hv0])
            have : lead ('0' :: ds) = 1 := by omega
            rw [this] at hrep
            exact hrep
          · omega
      · intro c hc hi
        apply hid
        cases p with
        | nil => exact absurd hc nofun
        | cons d p =>
          have : d = c := by simpa using hc
          subst this
          exact (ident_iff d).mpr hi

example : ¬ List.replicate 128 '0' <+: "00".toList ∧ parseRegNumber "00".toList = none ∧
    parseRegNumber "12345".toList = none ∧ parseRegNumber "3x".toList = none ∧
    parseRegNumber "9999 ".toList = some (9999, " ".toList) := by decide

/-- The leading zeros are counted in eight bits: 257 zeros are taken for one, and 128 zeros before a
number for none. -/
theorem C41_violated_zeros :
    parseRegNumber (List.replicate 257 '0') = some (0, []) ∧
      ¬ Canonical (List.replicate 257 '0') ∧
    parseRegNumber (List.replicate 128 '0' ++ ['5']) = some (5, []) ∧
      ¬ Canonical (List.replicate 128 '0' ++ ['5']) := by decide +kernel

end Libasm.Table.Props
