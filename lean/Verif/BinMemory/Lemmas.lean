import Verif.BinMemory.Model
import Verif.BinMemory.Spec
/-
Invariant and abstraction lemmas for the block memory.
-/
namespace Libasm.BinMemory

/-- One past the last address of a block. -/
def Entry.stop (e : Entry) : Nat := e.base + e.data.length

structure Ok (e : Entry) : Prop where
  key_eq : e.key = e.base
  ne : 0 < e.data.length
  top : e.stop ≤ 2 ^ 32

/-- Key of the node after the end of `l`. -/
def hd (l : Blocks) (t : Option Nat) : Option Nat :=
  match l with
  | [] => t
  | f :: _ => some f.key

/-- Blocks are in order, not adjacent, non-empty, and chained by `next`; `t` is the node
after the last one. -/
def Ch : Blocks → Option Nat → Prop
  | [], _ => True
  | e :: r, t => Ok e ∧ e.next = hd r t ∧ (∀ b, hd r t = some b → e.stop < b) ∧ Ch r t

def WF (m : Blocks) : Prop := Ch m none

def cell (e : Entry) (a : Nat) : Option UInt8 :=
  if e.base ≤ a then e.data[a - e.base]? else none

def contents : Blocks → Nat → Option UInt8
  | [], _ => none
  | e :: r, a => (cell e a).or (contents r a)

theorem ch_append (l1 l2 : Blocks) (t : Option Nat) :
    Ch (l1 ++ l2) t ↔ Ch l1 (hd l2 t) ∧ Ch l2 t := by
  induction l1 with
  | nil => simp [Ch]
  | cons e r ih =>
    have : hd (r ++ l2) t = hd r (hd l2 t) := by cases r <;> simp [hd]
    simp only [List.cons_append, Ch, ih, this, and_assoc]

theorem ch_lt {l : Blocks} {b : Nat} (h : Ch l (some b)) : ∀ e ∈ l, e.stop < b := by
  induction l with
  | nil => simp
  | cons e r ih =>
    obtain ⟨h1, h2, h3, h4⟩ := h
    have ihr := ih h4
    intro x hx
    rcases List.mem_cons.1 hx with rfl | hx
    · cases r with
      | nil => exact h3 b rfl
      | cons f r =>
        have hf := h3 f.key rfl
        have hok : Ok f := h4.1
        have := ihr f (by simp)
        have := hok.key_eq
        have : f.base ≤ f.stop := by simp [Entry.stop]
        omega
    · exact ihr x hx

theorem ch_ok {l : Blocks} {t : Option Nat} (h : Ch l t) : ∀ e ∈ l, Ok e := by
  induction l with
  | nil => simp
  | cons e r ih =>
    intro x hx
    rcases List.mem_cons.1 hx with rfl | hx
    · exact h.1
    · exact ih h.2.2.2 x hx

theorem ch_gt {e : Entry} {r : Blocks} {t : Option Nat} (h : Ch (e :: r) t) :
    ∀ f ∈ r, e.stop < f.base := by
  induction r generalizing e with
  | nil => simp
  | cons f r ih =>
    intro x hx
    have h3 := h.2.2.1 f.key rfl
    have hk := h.2.2.2.1.key_eq
    rcases List.mem_cons.1 hx with rfl | hx
    · omega
    · have := ih h.2.2.2 x hx
      have : f.base ≤ f.stop := by simp [Entry.stop]
      omega

theorem contents_append (l1 l2 : Blocks) (a : Nat) :
    contents (l1 ++ l2) a = (contents l1 a).or (contents l2 a) := by
  induction l1 with
  | nil => simp [contents]
  | cons e r ih => simp [contents, ih, Option.or_assoc]

theorem cell_none_of_lt {e : Entry} {a : Nat} (h : a < e.base) : cell e a = none := by
  simp [cell]; omega

theorem cell_none_of_ge {e : Entry} {a : Nat} (h : e.stop ≤ a) : cell e a = none := by
  simp only [Entry.stop] at h
  simp [cell]; omega

theorem cell_isSome {e : Entry} {a : Nat} : (cell e a).isSome = e.inside a := by
  unfold cell Entry.inside
  by_cases h : e.base ≤ a
  · by_cases h2 : a < e.base + e.data.length
    · have : a - e.base < e.data.length := by omega
      simp [h, h2, this]
    · have : ¬ a - e.base < e.data.length := by omega
      simp [h, h2, this]
  · simp [h]

theorem contents_none {l : Blocks} {a : Nat} (h : ∀ e ∈ l, a < e.base ∨ e.stop ≤ a) :
    contents l a = none := by
  induction l with
  | nil => rfl
  | cons e r ih =>
    have : cell e a = none := by
      rcases h e (by simp) with h | h
      · exact cell_none_of_lt h
      · exact cell_none_of_ge h
    simp [contents, this, ih (fun x hx => h x (by simp [hx]))]

/-- Order invariant that also holds after `setRange` (a key may be below its base). -/
structure WR (m : Blocks) : Prop where
  each : ∀ e ∈ m, e.key ≤ e.base ∧ 0 < e.data.length
  order : m.Pairwise (fun e f => e.stop < f.key)

theorem WF.toWR {m : Blocks} {t : Option Nat} (h : Ch m t) : WR m := by
  refine ⟨fun e he => ⟨Nat.le_of_eq (ch_ok h e he).key_eq, (ch_ok h e he).ne⟩, ?_⟩
  induction m with
  | nil => simp
  | cons e r ih =>
    refine List.pairwise_cons.2 ⟨fun f hf => ?_, ih h.2.2.2⟩
    have := ch_gt h f hf
    have := (ch_ok h.2.2.2 f hf).key_eq
    omega

/-- The list split at `lower_bound`. -/
theorem lowerBound_split (m : Blocks) (a : Nat) (h : WR m) :
    ∃ pre post, m = pre ++ post ∧ lowerBound m a = pre.length ∧
      (∀ e ∈ pre, e.key < a) ∧ (∀ e ∈ post, a ≤ e.key) := by
  induction m with
  | nil => exact ⟨[], [], rfl, rfl, by simp, by simp⟩
  | cons e r ih =>
    have hp := List.pairwise_cons.1 h.order
    by_cases hk : a ≤ e.key
    · refine ⟨[], e :: r, rfl, ?_, by simp, ?_⟩
      · simp [lowerBound, List.findIdx_cons, hk]
      · intro x hx
        rcases List.mem_cons.1 hx with rfl | hx
        · exact hk
        · have h1 := hp.1 x hx
          have h3 := (h.each e (by simp)).1
          simp only [Entry.stop] at h1
          omega
    · obtain ⟨pre, post, rfl, h2, h3, h4⟩ := ih ⟨fun x hx => h.each x (by simp [hx]), hp.2⟩
      refine ⟨e :: pre, post, rfl, ?_, ?_, h4⟩
      · have : decide (a ≤ e.key) = false := by simp [hk]
        simp only [lowerBound] at h2
        simp [lowerBound, List.findIdx_cons, this, h2]
      · intro x hx
        rcases List.mem_cons.1 hx with rfl | hx
        · omega
        · exact h3 x hx

/-- A block joined with its successor when they are adjacent. -/
def joined (e : Entry) : Blocks → Blocks
  | [] => [e]
  | q :: r => if e.atEnd q.base then e.aggregate q :: r else e :: q :: r

theorem joined_ch {e : Entry} {post : Blocks} {t : Option Nat} (hok : Ok e)
    (hn : e.next = hd post t) (hlt : ∀ b, hd post t = some b → e.stop ≤ b)
    (ht : post = [] → ∀ b, t = some b → e.stop < b)
    (hp : Ch post t) : Ch (joined e post) t ∧ (∀ t', hd (joined e post) t' = some e.key) := by
  cases post with
  | nil => exact ⟨⟨hok, hn, by simpa [hd] using ht, trivial⟩, fun _ => rfl⟩
  | cons q r =>
    simp only [joined]
    have hq := hp.1
    split
    · rename_i h
      simp only [Entry.atEnd, decide_eq_true_eq] at h
      have h2 := hp.2.1
      have h3 := hp.2.2.1
      refine ⟨⟨⟨hok.key_eq, ?_, ?_⟩, h2, ?_, hp.2.2.2⟩, fun _ => rfl⟩
      · have := hok.ne; simp [Entry.aggregate]; omega
      · have := hq.top; simp [Entry.stop, Entry.aggregate] at *; omega
      · intro b hb; have := h3 b hb; simp [Entry.stop, Entry.aggregate] at *; omega
    · rename_i h
      simp only [Entry.atEnd, decide_eq_true_eq] at h
      refine ⟨⟨hok, hn, ?_, hp⟩, fun _ => rfl⟩
      intro b hb
      have h1 := hlt b hb
      simp only [hd, Option.some.injEq] at hb
      have := hq.key_eq
      simp only [Entry.stop] at *
      omega

theorem joined_contents {e : Entry} {post : Blocks} (a : Nat) :
    contents (joined e post) a = contents (e :: post) a := by
  cases post with
  | nil => rfl
  | cons q r =>
    simp only [joined]
    split
    · rename_i h
      simp only [Entry.atEnd, decide_eq_true_eq] at h
      simp only [contents, ← Option.or_assoc]
      congr 1
      simp only [cell, Entry.aggregate]
      by_cases h1 : e.base ≤ a
      · simp only [h1, if_true, List.getElem?_append]
        by_cases h2 : a - e.base < e.data.length
        · simp [h2]
        · simp only [h2, if_false]
          have h3 : q.base ≤ a := by omega
          have h4 : a - e.base - e.data.length = a - q.base := by omega
          have : e.data[a - e.base]? = none := by simp; omega
          simp [h3, h4, this]
      · have h3 : ¬ q.base ≤ a := by omega
        simp [h1, h3]
    · rfl

theorem findIdx_key (pre : Blocks) (e : Entry) (post : Blocks) (k : Nat)
    (hpre : ∀ x ∈ pre, x.key ≠ k) (he : e.key = k) :
    (pre ++ e :: post).findIdx (fun x => decide (x.key = k)) = pre.length := by
  induction pre with
  | nil => simp [List.findIdx_cons, he]
  | cons p r ih =>
    have : decide (p.key = k) = false := by simp [hpre p (by simp)]
    simp [List.findIdx_cons, this, ih (fun x hx => hpre x (by simp [hx]))]

theorem set_split (pre : Blocks) (e f : Entry) (post : Blocks) :
    (pre ++ e :: post).set pre.length f = pre ++ f :: post := by
  simp

theorem get_split (pre : Blocks) (e : Entry) (post : Blocks) :
    (pre ++ e :: post)[pre.length]? = some e := by simp

theorem aggregate_split (pre : Blocks) (e : Entry) (post : Blocks)
    (hpre : ∀ x ∈ pre, x.key ≠ e.key) (hk : e.key = e.base)
    (hlast : ∀ x ∈ pre, x.atEnd e.base = false) :
    aggregate (pre ++ e :: post) e.base = pre ++ joined e post := by
  unfold aggregate
  rw [← hk, findIdx_key pre e post e.key hpre rfl]
  simp only [get_split]
  have hnext : (pre ++ e :: post)[pre.length + 1]? = post.head? := by
    cases post <;> simp
  have hprev : ∀ (f : Entry) (r : Blocks), pre.length ≠ 0 →
      (pre ++ f :: r)[pre.length - 1]? = some (pre[pre.length - 1]?.getD f) := by
    intro f r h
    have : pre.length - 1 < pre.length := by omega
    simp [List.getElem?_append, this]
  have hmem : pre.length ≠ 0 → ∀ f, (pre[pre.length - 1]?.getD f) ∈ pre := by
    intro h f
    have : pre.length - 1 < pre.length := by omega
    simp [List.getElem?_eq_getElem this]
  rw [hnext]
  cases post with
  | nil =>
    simp only [List.head?_nil, joined]
    by_cases h0 : pre.length = 0
    · simp [h0]
    · simp [h0, hprev e [] h0, hlast _ (hmem h0 e)]
  | cons q r =>
    simp only [List.head?_cons, joined]
    by_cases hq : e.atEnd q.base
    · simp only [hq, if_true, set_split]
      have : (pre ++ e.aggregate q :: q :: r).eraseIdx (pre.length + 1)
          = pre ++ e.aggregate q :: r := by
        rw [List.eraseIdx_append_of_length_le (by omega)]
        simp
      simp only [this]
      by_cases h0 : pre.length = 0
      · simp [h0]
      · simp only [h0, if_false, hprev _ r h0, Entry.aggregate, hlast _ (hmem h0 _)]
        simp
    · simp only [hq]
      by_cases h0 : pre.length = 0
      · simp [h0]
      · simp [h0, hprev e _ h0, hlast _ (hmem h0 e)]

/-- Split of the memory around an address, as `find` sees it. -/
theorem find_split {m pre post : Blocks} {a : Nat} (hm : m = pre ++ post)
    (hlb : lowerBound m a = pre.length) (hok : ∀ e ∈ post, e.key ≤ e.base)
    (hpost : ∀ e ∈ post, a ≤ e.key) :
    find m a = match post.head? with
      | some q => if a = q.base then some pre.length
                  else if pre = [] then none else some (pre.length - 1)
      | none => if pre = [] then none else some (pre.length - 1) := by
  subst hm
  unfold find
  rw [hlb]
  cases post with
  | nil =>
    cases pre with
    | nil => simp
    | cons p r => simp
  | cons q r =>
    have h1 := hpost q (by simp)
    have h2 := hok q (by simp)
    simp only [List.head?_cons, get_split]
    have hne : (pre ++ q :: r) ≠ [] := by simp
    simp only [hne, if_false]
    by_cases hq : a = q.base
    · simp [hq]
    · have : a < q.base := by omega
      simp [this, hq]

theorem find_get {m pre post : Blocks} {a : Nat} (hm : m = pre ++ post)
    (hlb : lowerBound m a = pre.length) (h : WR m)
    (hpre : ∀ e ∈ pre, e.key < a) (hpost : ∀ e ∈ post, a ≤ e.key) :
    (match find m a with
      | none => none
      | some it => match m[it]? with
        | none => none
        | some e => if e.inside a then e.read a else none) = contents m a := by
  have hok := h.each
  rw [find_split hm hlb (fun e he => (hok e (by simp [hm, he])).1) hpost]
  subst hm
  have hord := List.pairwise_append.1 h.order
  rw [contents_append]
  have key : ∀ e : Entry, e.inside a = true → cell e a = e.read a := by
    intro e he
    simp only [Entry.inside, Bool.and_eq_true, decide_eq_true_eq] at he
    simp [cell, Entry.read, he.1]
  have key2 : ∀ e : Entry, ¬ e.inside a = true → cell e a = none := by
    intro e he
    have := @cell_isSome e a
    cases hh : cell e a with
    | none => rfl
    | some v => rw [hh] at this; simp at this; exact absurd this.symm (by simpa using he)
  have hpost_none : ∀ l : Blocks, (∀ e ∈ l, a < e.base) → contents l a = none :=
    fun l hl => contents_none (fun e he => Or.inl (hl e he))
  -- contents of pre: only its last block matters
  have hpreC : ∀ pre' p, pre = pre' ++ [p] → contents pre a = cell p a := by
    intro pre' p hp
    subst hp
    have h1 := (List.pairwise_append.1 hord.1).2.2
    have hpk := hpre p (by simp)
    rw [contents_append, contents_none (l := pre')]
    · simp [contents]
    · intro e he; have := h1 e he p (by simp); right; omega
  cases hpo : post with
  | nil =>
    subst hpo
    simp only [List.head?_nil, List.append_nil]
    rcases List.eq_nil_or_concat pre with rfl | ⟨pre', p, hp⟩
    · simp [contents]
    · have hp' : pre = pre' ++ [p] := by simpa using hp
      rw [hpreC pre' p hp']
      subst hp'
      simp only [List.append_eq_nil_iff, List.cons_ne_nil, and_false, if_false, List.length_append,
        List.length_cons, List.length_nil, Nat.zero_add, Nat.add_sub_cancel, get_split]
      split
      · rename_i hi; simp [key p hi, contents]
      · rename_i hi; simp [key2 p hi, contents]
  | cons q r =>
    subst hpo
    have hq := (hok q (by simp))
    have hqk := hq.1
    have haq := hpost q (by simp)
    have hr := (List.pairwise_cons.1 hord.2.1).1
    have hqs : q.base ≤ q.stop := by simp [Entry.stop]
    simp only [List.head?_cons]
    by_cases hqa : a = q.base
    · simp only [hqa, if_true, get_split]
      have hin : q.inside a = true := by
        have := hq.2
        simp [Entry.inside, hqa]; omega
      have hpn : contents pre a = none := by
        apply contents_none
        intro e he
        have := hord.2.2 e he q (by simp)
        right; omega
      rw [← hqa, hpn]
      simp [hin, contents, key q hin]
      cases hrd : q.read a with
      | some v => rfl
      | none =>
        have := @cell_isSome q a
        rw [key q hin, hrd, hin] at this
        simp at this
    · have hlt : a < q.base := by omega
      have hqn : contents (q :: r) a = none := by
        apply hpost_none
        intro e he
        rcases List.mem_cons.1 he with rfl | he
        · exact hlt
        · have := hr e he
          have := (hok e (by simp [he])).1
          omega
      rw [hqn]
      simp only [hqa, if_false, Option.or_none]
      rcases List.eq_nil_or_concat pre with rfl | ⟨pre', p, hp⟩
      · simp [contents]
      · have hp' : pre = pre' ++ [p] := by simpa using hp
        rw [hpreC pre' p hp']
        subst hp'
        simp only [List.append_eq_nil_iff, List.cons_ne_nil, and_false, if_false,
          List.length_append, List.length_cons, List.length_nil, Nat.zero_add, Nat.add_sub_cancel,
          List.append_assoc, List.cons_append, List.nil_append, get_split]
        split
        · rename_i hi; simp [key p hi]
        · rename_i hi; simp [key2 p hi]

theorem read_contents {m : Blocks} (h : WR m) (a : Nat) :
    hasByte m a = (contents m a).isSome ∧ readByte m a = (contents m a).getD 0 := by
  obtain ⟨pre, post, hm, hlb, hpre, hpost⟩ := lowerBound_split m a h
  have := find_get hm hlb h hpre hpost
  rw [← this]
  unfold hasByte readByte
  cases find m a with
  | none => simp
  | some it =>
    simp only
    cases hme : m[it]? with
    | none => simp
    | some e =>
      simp only
      by_cases hi : e.inside a = true
      · have : (e.read a).isSome = true := by
          have := @cell_isSome e a
          rw [hi] at this
          simp only [Entry.inside, Bool.and_eq_true, decide_eq_true_eq] at hi
          simpa [cell, Entry.read, hi.1] using this
        simp [hi, this]
      · simp [hi]

end Libasm.BinMemory
