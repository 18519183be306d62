import Verif.BinMemory.Lemmas
/-
`writeByte` keeps the invariant and updates exactly one address.
-/
namespace Libasm.BinMemory

theorem cell_write {e : Entry} {a : Nat} (v : UInt8) (hi : e.inside a = true) (x : Nat) :
    cell (e.write a v) x = if x = a then some v else cell e x := by
  simp only [Entry.inside, Bool.and_eq_true, decide_eq_true_eq] at hi
  simp only [cell, Entry.write]
  by_cases hx : x = a
  · subst hx
    have : x - e.base < e.data.length := by omega
    simp [hi.1, this]
  · simp only [hx, if_false]
    by_cases hb : e.base ≤ x
    · have : a - e.base ≠ x - e.base := by omega
      simp [hb, this]
    · simp [hb]

theorem cell_append {e : Entry} {a : Nat} (v : UInt8) (ha : e.atEnd a = true) (x : Nat) :
    cell (e.append v) x = if x = a then some v else cell e x := by
  simp only [Entry.atEnd, decide_eq_true_eq] at ha
  simp only [cell, Entry.append]
  by_cases hx : x = a
  · subst hx
    have : e.base ≤ x := by omega
    have h2 : x - e.base = e.data.length := by omega
    simp [this, h2]
  · simp only [hx, if_false]
    by_cases hb : e.base ≤ x
    · simp only [hb, if_true]
      by_cases hl : x - e.base < e.data.length
      · simp [List.getElem?_append, hl]
      · have h1 : e.data.length + 1 ≤ x - e.base := by omega
        rw [List.getElem?_eq_none (by simpa using h1), List.getElem?_eq_none (by omega)]
    · simp [hb]

/-- Replacing one block of a well-formed memory by one with the same extent. -/
theorem ch_replace {pre : Blocks} {e e' : Entry} {post : Blocks} {t : Option Nat}
    (h : Ch (pre ++ e :: post) t) (hk : e'.key = e.key) (hb : e'.base = e.base)
    (hl : e'.data.length = e.data.length) (hn : e'.next = e.next) :
    Ch (pre ++ e' :: post) t := by
  rw [ch_append] at h ⊢
  obtain ⟨h1, h2⟩ := h
  refine ⟨by simpa [hd, hk] using h1, ?_⟩
  obtain ⟨hok, h3, h4, h5⟩ := h2
  have hs : e'.stop = e.stop := by simp [Entry.stop, hb, hl]
  exact ⟨⟨by rw [hk, hb]; exact hok.key_eq, by rw [hl]; exact hok.ne, by rw [hs]; exact hok.top⟩,
    by rw [hn]; exact h3, by rw [hs]; exact h4, h5⟩

theorem contents_replace {pre : Blocks} {e : Entry} {post l : Blocks} {a : Nat} {v : UInt8}
    (hpre : contents pre a = none)
    (hl : ∀ x, contents l x = if x = a then some v else contents (e :: post) x) (x : Nat) :
    contents (pre ++ l) x = if x = a then some v else contents (pre ++ e :: post) x := by
  rw [contents_append, contents_append, hl]
  by_cases hx : x = a
  · simp [hx, hpre]
  · simp [hx]

theorem modify_split (pre : Blocks) (e : Entry) (post : Blocks) (f : Entry → Entry) :
    (pre ++ e :: post).modify pre.length f = pre ++ f e :: post := by
  induction pre with
  | nil => rfl
  | cons p r ih => simp [ih]

/-- The list `createBlock` builds before joining blocks. -/
def linkTo (pre : Blocks) (k : Nat) : Blocks :=
  match pre.getLast? with
  | none => pre
  | some p => pre.dropLast ++ [p.connect (some k)]

theorem linkTo_concat (pre : Blocks) (p : Entry) (k : Nat) :
    linkTo (pre ++ [p]) k = pre ++ [p.connect (some k)] := by
  simp [linkTo]

theorem linkTo_contents (pre : Blocks) (k : Nat) (x : Nat) :
    contents (linkTo pre k) x = contents pre x := by
  rcases List.eq_nil_or_concat pre with rfl | ⟨pre', p, hp⟩
  · rfl
  · have hp' : pre = pre' ++ [p] := by simpa using hp
    subst hp'
    rw [linkTo_concat, contents_append, contents_append]
    rfl

theorem linkTo_ch {pre : Blocks} {t : Option Nat} {k : Nat} (h : Ch pre t)
    (hlt : ∀ e ∈ pre, e.stop < k) : Ch (linkTo pre k) (some k) := by
  rcases List.eq_nil_or_concat pre with rfl | ⟨pre', p, hp⟩
  · trivial
  · have hp' : pre = pre' ++ [p] := by simpa using hp
    subst hp'
    rw [linkTo_concat]
    rw [ch_append] at h ⊢
    refine ⟨h.1, ?_⟩
    have h2 := h.2.1
    refine ⟨⟨h2.key_eq, h2.ne, h2.top⟩, rfl, ?_, trivial⟩
    intro b hb
    simp only [hd, Option.some.injEq] at hb
    have := hlt p (by simp)
    simp only [Entry.stop, Entry.connect] at *
    omega

theorem linkTo_mem {pre : Blocks} {k : Nat} {x : Entry} (h : x ∈ linkTo pre k) :
    ∃ y ∈ pre, x.key = y.key ∧ x.base = y.base ∧ x.data = y.data := by
  rcases List.eq_nil_or_concat pre with rfl | ⟨pre', p, hp⟩
  · simp [linkTo] at h
  · have hp' : pre = pre' ++ [p] := by simpa using hp
    subst hp'
    rw [linkTo_concat] at h
    rcases List.mem_append.1 h with h | h
    · exact ⟨x, by simp [h], rfl, rfl, rfl⟩
    · simp only [List.mem_singleton] at h
      exact ⟨p, by simp, by simp [h, Entry.connect]⟩

theorem linkTo_length (pre : Blocks) (k : Nat) : (linkTo pre k).length = pre.length := by
  rcases List.eq_nil_or_concat pre with rfl | ⟨pre', p, hp⟩
  · rfl
  · have hp' : pre = pre' ++ [p] := by simpa using hp
    subst hp'; simp [linkTo_concat]

/-- `createBlock` when no node has the key yet. -/
theorem createBlock_split {pre post : Blocks} {a : Nat} {v : UInt8}
    (hlb : lowerBound (pre ++ post) a = pre.length)
    (hpost : ∀ e ∈ post, a < e.key) (hpre : ∀ e ∈ pre, e.key < a)
    (hend : ∀ e ∈ pre, e.stop < a) :
    createBlock (pre ++ post) a v =
      linkTo pre a ++ joined ⟨a, a, [v], hd post none⟩ post := by
  have hem : emplace (pre ++ post) a = (pre ++ ⟨a, a, [], none⟩ :: post, pre.length) := by
    unfold emplace
    rw [hlb]
    cases post with
    | nil => simp
    | cons q r =>
      have := hpost q (by simp)
      have hne : ¬ q.key = a := by omega
      simp only [get_split, hne, if_false]
      congr 1
      have : ∀ (l1 l2 : Blocks) (x : Entry), (l1 ++ l2).insertIdx l1.length x = l1 ++ x :: l2 := by
        intro l1 l2 x
        induction l1 with
        | nil => simp
        | cons y l1 ih => simp [ih]
      exact this _ _ _
  unfold createBlock
  rw [hem]
  simp only
  have hnext : (pre ++ (⟨a, a, [], none⟩ : Entry) :: post)[pre.length + 1]? = post.head? := by
    cases post <;> simp
  have h1 : connectNext (pre ++ (⟨a, a, [], none⟩ : Entry) :: post) pre.length
      = pre ++ (⟨a, a, [], hd post none⟩ : Entry) :: post := by
    unfold connectNext
    rw [hnext]
    cases post with
    | nil => simp [hd]
    | cons q r => simp only [List.head?_cons, modify_split, hd, Entry.connect]
  rw [h1]
  have h2 : connectPrev (pre ++ (⟨a, a, [], hd post none⟩ : Entry) :: post) pre.length
      = linkTo pre a ++ (⟨a, a, [], hd post none⟩ : Entry) :: post := by
    unfold connectPrev
    rcases List.eq_nil_or_concat pre with rfl | ⟨pre', p, hp⟩
    · simp [linkTo]
    · have hp' : pre = pre' ++ [p] := by simpa using hp
      subst hp'
      rw [get_split]
      simp only [linkTo_concat]
      simp [modify_split]
  rw [h2]
  have hll := linkTo_length pre a
  have h3 : (linkTo pre a ++ (⟨a, a, [], hd post none⟩ : Entry) :: post).modify pre.length
      (fun x => x.append v) = linkTo pre a ++ (⟨a, a, [v], hd post none⟩ : Entry) :: post := by
    rw [← hll, modify_split]; rfl
  rw [h3]
  have h4 : (linkTo pre a ++ (⟨a, a, [v], hd post none⟩ : Entry) :: post)[pre.length]?
      = some ⟨a, a, [v], hd post none⟩ := by
    rw [← hll, get_split]
  rw [h4]
  simp only
  have := aggregate_split (linkTo pre a) (⟨a, a, [v], hd post none⟩ : Entry) post ?_ rfl ?_
  · exact this
  · intro x hx
    obtain ⟨y, hy, hk, _⟩ := linkTo_mem hx
    have := hpre y hy
    simp only
    omega
  · intro x hx
    obtain ⟨y, hy, hk, hb, hdata⟩ := linkTo_mem hx
    have := hend y hy
    simp only [Entry.stop] at this
    simp only [Entry.atEnd, decide_eq_false_iff_not, hb, hdata]
    omega

theorem createBlock_ok {pre post : Blocks} {a : Nat} {v : UInt8} (h : WF (pre ++ post))
    (ha : a < 2 ^ 32)
    (hlb : lowerBound (pre ++ post) a = pre.length)
    (hpost : ∀ e ∈ post, a < e.key) (hpre : ∀ e ∈ pre, e.key < a)
    (hend : ∀ e ∈ pre, e.stop < a) :
    WF (createBlock (pre ++ post) a v) ∧
    ∀ x, contents (createBlock (pre ++ post) a v) x =
      if x = a then some v else contents (pre ++ post) x := by
  rw [createBlock_split hlb hpost hpre hend]
  have hc := (ch_append pre post none).1 h
  have hj := joined_ch (e := ⟨a, a, [v], hd post none⟩) (post := post) (t := none)
    ⟨rfl, by simp, by simp [Entry.stop]; omega⟩ rfl
    (by
      intro b hb
      cases post with
      | nil => simp [hd] at hb
      | cons q r =>
        simp only [hd, Option.some.injEq] at hb
        have := hpost q (by simp)
        simp [Entry.stop]; omega)
    (by simp) hc.2
  constructor
  · show Ch _ none
    rw [ch_append, hj.2]
    exact ⟨linkTo_ch hc.1 hend, hj.1⟩
  · intro x
    have hkey : ∀ e ∈ post, e.key = e.base := fun e he => (ch_ok hc.2 e he).key_eq
    rw [contents_append, linkTo_contents, joined_contents, contents_append]
    by_cases hx : x = a
    · subst hx
      rw [contents_none (l := pre)]
      · simp [contents, cell]
      · intro e he; right; have := hend e he; omega
    · simp only [hx, if_false]
      have : cell (⟨a, a, [v], hd post none⟩ : Entry) x = none := by
        rcases Nat.lt_or_ge x a with h1 | h1
        · exact cell_none_of_lt h1
        · exact cell_none_of_ge (by simp [Entry.stop]; omega)
      simp [contents, this]

theorem writeByte_ok {m : Blocks} (h : WF m) {a : Nat} (ha : a < 2 ^ 32) (v : UInt8) :
    WF (writeByte m a v) ∧
    ∀ x, contents (writeByte m a v) x = if x = a then some v else contents m x := by
  obtain ⟨pre, post, hm, hlb, hpre, hpost⟩ := lowerBound_split m a (WF.toWR h)
  have hok := ch_ok h
  have hf := find_split hm hlb (fun e he => Nat.le_of_eq (hok e (by simp [hm, he])).key_eq) hpost
  unfold writeByte
  rw [hf]
  subst hm
  have hc := (ch_append pre post none).1 h
  have hpostk : ∀ e ∈ post, e.key = e.base := fun e he => (ch_ok hc.2 e he).key_eq
  -- the last block before `a`, or none
  have main : (∀ e ∈ post, a < e.key) →
      WF (match (if pre = [] then none else some (pre.length - 1) : Option Nat) with
        | none => createBlock (pre ++ post) a v
        | some it => match (pre ++ post)[it]? with
          | none => createBlock (pre ++ post) a v
          | some e =>
            if e.inside a then (pre ++ post).set it (e.write a v)
            else if e.atEnd a then aggregate ((pre ++ post).set it (e.append v)) e.base
            else createBlock (pre ++ post) a v) ∧
      ∀ x, contents (match (if pre = [] then none else some (pre.length - 1) : Option Nat) with
        | none => createBlock (pre ++ post) a v
        | some it => match (pre ++ post)[it]? with
          | none => createBlock (pre ++ post) a v
          | some e =>
            if e.inside a then (pre ++ post).set it (e.write a v)
            else if e.atEnd a then aggregate ((pre ++ post).set it (e.append v)) e.base
            else createBlock (pre ++ post) a v) x =
        if x = a then some v else contents (pre ++ post) x := by
    intro hgt
    rcases List.eq_nil_or_concat pre with hp | ⟨pre', p, hp⟩
    · subst hp
      simp only [if_true]
      exact createBlock_ok h ha hlb hgt (by simp) (by simp)
    · have hp' : pre = pre' ++ [p] := by simpa using hp
      subst hp'
      have hne : ¬ (pre' ++ [p] = []) := by simp
      have hlen : (pre' ++ [p]).length - 1 = pre'.length := by simp
      have hass : pre' ++ [p] ++ post = pre' ++ p :: post := by simp
      simp only [hne, if_false, hlen]
      rw [hass, get_split]
      simp only
      have hpch := (ch_append pre' [p] _).1 hc.1
      have hpre'lt := ch_lt (b := p.key) hpch.1
      have hpk := hpch.2.1.key_eq
      have hpa := hpre p (by simp)
      have hcon : contents pre' a = none := by
        apply contents_none
        intro e he; have := hpre'lt e he; right; omega
      have h' : Ch (pre' ++ p :: post) none := by rw [← hass]; exact h
      by_cases hin : p.inside a = true
      · simp only [hin, if_true, set_split]
        refine ⟨ch_replace h' rfl rfl (by simp [Entry.write]) rfl, ?_⟩
        apply contents_replace hcon
        intro x
        simp only [contents, cell_write v hin]
        by_cases hx : x = a <;> simp [hx]
      · by_cases hat : p.atEnd a = true
        · simp only [hin, hat, if_true, set_split]
          have hag := aggregate_split pre' (p.append v) post ?_ ?_ ?_
          · have hbase : (p.append v).base = p.base := rfl
            rw [hbase] at hag
            simp only [Bool.false_eq_true, if_false]
            rw [hag]
            have hpc := (ch_append pre' (p :: post) none).1 h'
            have hat' : a = p.base + p.data.length := by simpa [Entry.atEnd] using hat
            have hj := joined_ch (e := p.append v) (post := post) (t := none)
              ⟨hpk, by simp [Entry.append], by simp [Entry.stop, Entry.append]; omega⟩
              hpc.2.2.1
              (by
                intro b hb
                cases post with
                | nil => simp [hd] at hb
                | cons q r =>
                  simp only [hd, Option.some.injEq] at hb
                  have := hgt q (by simp)
                  simp [Entry.stop, Entry.append]; omega)
              (by simp) hc.2
            constructor
            · show Ch _ none
              rw [ch_append, hj.2]
              exact ⟨hpch.1, hj.1⟩
            · intro x
              apply contents_replace hcon
              intro x
              rw [joined_contents]
              simp only [contents, cell_append v hat]
              by_cases hx : x = a <;> simp [hx]
          · intro x hx
            have := hpre'lt x hx
            have := (ch_ok hpch.1 x hx).key_eq
            simp only [Entry.stop, Entry.append] at *
            omega
          · exact hpk
          · intro x hx
            have := hpre'lt x hx
            simp only [Entry.stop] at this
            show decide (p.base = x.base + x.data.length) = false
            exact decide_eq_false (by omega)
        · simp only [hin, hat, Bool.false_eq_true, if_false]
          rw [← hass]
          apply createBlock_ok h ha hlb hgt hpre
          intro e he
          rcases List.mem_append.1 he with he | he
          · have := hpre'lt e he; omega
          · simp only [List.mem_singleton] at he
            subst he
            simp only [Entry.inside, Entry.atEnd, Bool.and_eq_true, decide_eq_true_eq,
              Entry.stop] at *
            omega
  cases hpo : post with
  | nil =>
    subst hpo
    exact main (by simp)
  | cons q r =>
    subst hpo
    have hqk := hpostk q (by simp)
    have hqa := hpost q (by simp)
    simp only [List.head?_cons]
    by_cases hq : a = q.base
    · simp only [hq, if_true, get_split]
      have hqok := ch_ok hc.2 q (by simp)
      have hin : q.inside q.base = true := by
        have := hqok.ne
        simp [Entry.inside]; omega
      simp only [hin, if_true, set_split]
      refine ⟨ch_replace h rfl rfl (by simp [Entry.write]) rfl, ?_⟩
      apply contents_replace
      · apply contents_none
        intro e he
        have := ch_lt (b := q.key) hc.1 e he
        right; omega
      · intro x
        simp only [contents, cell_write v hin]
        by_cases hx : x = q.base <;> simp [hx]
    · simp only [hq, if_false]
      apply main
      intro e he
      rcases List.mem_cons.1 he with rfl | he
      · omega
      · have := ch_gt hc.2 e he
        have := hpostk e (by simp [he])
        simp only [Entry.stop] at *
        omega

end Libasm.BinMemory
