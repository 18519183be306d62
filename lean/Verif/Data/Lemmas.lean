import Verif.Data.Spec
import Verif.Insn.Props
import Verif.Eval.ExprProps
namespace Libasm.Data
open Scan Ctype Insn Insn.Spec Number Eval.Spec Data.Spec
open Eval hiding setErrorIf
open Config (setErrorIf)

/-! ### Emitting -/

/-- What the buffer and the error are after the bytes `xs` were emitted into `b0`. -/
structure Track (b0 : Buf) (xs : List Nat) (b : Buf) (err : Err) : Prop where
  fine : Fine b
  bytes : b.bytes.take b.length = (b0.bytes.take b0.length ++ xs).take 64
  length : b.length = min 64 (b0.length + xs.length)
  address : b.address = b0.address
  own : b.error = if 64 < b0.length + xs.length then .NO_MEMORY else .OK
  err : err = if 64 < b0.length + xs.length then .NO_MEMORY else .OK

theorem track_start {b : Buf} (hb : Fine b) (he : b.error = .OK) : Track b [] b .OK := by
  have := hb.used
  refine ⟨hb, ?_, ?_, rfl, ?_, ?_⟩
  · rw [List.append_nil, List.take_take]; congr 1; omega
  · simp; omega
  · rw [he, if_neg]; simp; omega
  · rw [if_neg]; simp; omega

theorem take_take_append (A xs ys : List Nat) (n : Nat) :
    ((A ++ xs).take n ++ ys).take n = (A ++ (xs ++ ys)).take n := by
  rw [← List.append_assoc, List.take_append, List.take_append (l₁ := A ++ xs), List.take_take,
    Nat.min_self]
  by_cases h : n ≤ (A ++ xs).length
  · rw [List.length_take, Nat.min_eq_left h]
    rw [show n - n = 0 by omega, show n - (A ++ xs).length = 0 by omega]
  · rw [List.length_take, Nat.min_eq_right (by omega)]

theorem emitAt_address (b : Buf) (f : Form) (v : Nat) {b' : Buf} {e : Err}
    (h : b.emit f v = some (b', e)) (hb : Fine b) : b'.address = b.address := by
  obtain ⟨b'', es, h1, _, _, h4⟩ := C19_safe [⟨f, v, none⟩] b hb
  simp only [Buf.calls, Buf.call, h] at h1
  injection h1 with h1
  injection h1 with h1 _
  rw [h1]; exact h4

theorem track_emit {b0 b : Buf} {xs : List Nat} {err : Err} (h : Track b0 xs b err) (f : Form)
    (v : Nat) : ∃ b' err', emitIf b err f v = .ok (b', err') ∧
      Track b0 (xs ++ encode f v) b' err' := by
  obtain ⟨b', e, h1, h2, h3⟩ := emit_effect h.fine f v
  have hf := fine_cells h.fine (fun x hx => encode_lt hx) h2
  obtain ⟨a1, a2⟩ := append_take h.fine h2
  have hadr := emitAt_address b f v h1 h.fine
  have hlen : (xs ++ encode f v).length = xs.length + size f := by
    rw [List.length_append, size_encode]
  refine ⟨b', setErrorIf err e, by unfold emitIf; rw [h1], hf, ?_, ?_, hadr.trans h.address, ?_, ?_⟩
  · rw [a2, h.bytes, take_take_append]
  · rw [a1, h.length, hlen, size_encode]; omega
  · have ho := h.own
    have hl := h.length
    rw [h2.error, hlen, size_encode, ho]
    by_cases g : 64 < b0.length + xs.length
    · rw [if_pos g, if_pos (show 64 < b0.length + (xs.length + size f) by omega)]; simp
    · rw [if_neg g]
      have : b.length = b0.length + xs.length := by omega
      rw [this]
      simp [Nat.add_assoc]
  · have he := h.err
    have ho := h.own
    have hl := h.length
    rw [h3, he, hlen]
    unfold setErrorIf
    by_cases g : 64 < b0.length + xs.length
    · rw [if_pos g, if_pos (show 64 < b0.length + (xs.length + size f) by omega), if_neg (by simp)]
    · have hbl : b.length = b0.length + xs.length := by omega
      rw [if_neg g, hbl, Nat.add_assoc]
      by_cases g2 : 64 < b0.length + (xs.length + size f)
      · rw [if_pos g2, if_pos g2, h2.error, ho, if_neg g, hbl, size_encode, if_pos (show Err.OK = .OK ∧ 64 < _ from ⟨rfl, by omega⟩),
          if_pos (by simp)]
      · rw [if_neg g2, if_neg g2, if_neg (by simp)]

theorem track_pad {b0 : Buf} (n : Nat) : ∀ {b : Buf} {xs : List Nat} {err : Err},
    Track b0 xs b err → ∃ b' err', padBytes n b err = .ok (b', err') ∧
      Track b0 (xs ++ List.replicate n 0) b' err' := by
  induction n with
  | zero => intro b xs err h; exact ⟨b, err, rfl, by simpa using h⟩
  | succ n ih =>
    intro b xs err h
    obtain ⟨b1, e1, h1, h2⟩ := track_emit h .byte 0
    obtain ⟨b2, e2, h3, h4⟩ := ih h2
    refine ⟨b2, e2, ?_, ?_⟩
    · unfold padBytes; rw [h1]; exact h3
    · rw [List.replicate_succ]
      have : encode .byte 0 = [0] := rfl
      rw [this, List.append_assoc] at h4
      exact h4

/-! ### Where operands end -/

/-- What follows an operand: blanks and the end of the line, a comment or a comma. -/
def Follow (rest : Scan) : Prop :=
  ∃ sp t, rest = sp ++ t ∧ (∀ c ∈ sp, Blank c) ∧
    (t = [] ∨ (∃ u, t = ';' :: u) ∨ ∃ u, t = ',' :: u)

theorem follow_skip {rest : Scan} (h : Follow rest) :
    skipSpaces rest = [] ∨ (∃ u, skipSpaces rest = ';' :: u) ∨ ∃ u, skipSpaces rest = ',' :: u := by
  obtain ⟨sp, t, rfl, hsp, h⟩ := h
  rw [skip_blanks hsp]
  rcases h with rfl | ⟨u, rfl⟩ | ⟨u, rfl⟩
  · exact .inl rfl
  · exact .inr (.inl ⟨u, rfl⟩)
  · exact .inr (.inr ⟨u, rfl⟩)

theorem follow_stops {rest : Scan} (h : Follow rest) : Stops '\x00' rest := by
  obtain ⟨sp, t, rfl, hsp, h⟩ := h
  refine ⟨sp, t, rfl, hsp, ?_⟩
  rcases h with rfl | ⟨u, rfl⟩ | ⟨u, rfl⟩
  · exact .inl rfl
  · exact .inr (.inl ⟨u, rfl⟩)
  · refine .inr (.inr (.inr ⟨',', u, rfl, ?_, by decide, by decide, by decide⟩))
    simp [TokenStart, IsLetter, IsDecimal]

theorem follow_ends {rest : Scan} (h : Follow rest) :
    (semicolonEndOfLine rest).1 = true ∨ deref (semicolonEndOfLine rest).2 = ',' := by
  unfold semicolonEndOfLine
  rcases follow_skip h with h | ⟨u, h⟩ | ⟨u, h⟩
  · left; rw [h]; rfl
  · left; rw [h]; rfl
  · right; rw [h]; rfl

theorem ending_follow {rest : Scan} (h : Ending rest) : Follow rest := by
  obtain ⟨sp, t, rfl, hsp, h⟩ := h
  refine ⟨sp, t, rfl, hsp, ?_⟩
  rcases h with rfl | ⟨u, rfl⟩
  · exact .inl rfl
  · exact .inr (.inl ⟨u, rfl⟩)

theorem ending_no_comma {rest : Scan} (h : Ending rest) : expect ',' (skipSpaces rest) = none := by
  obtain ⟨sp, t, rfl, hsp, h⟩ := h
  rw [skip_blanks hsp]
  rcases h with rfl | ⟨u, rfl⟩ <;> rfl

/-! ### Strings -/

/-- Characters that can delimit strings. -/
def Delim (d : Char) : Prop := d ≠ '\x00' ∧ d ≠ ',' ∧ d ≠ ';' ∧ ¬ Blank d

/-- The text of the content of a string. -/
def inside (d : Char) (s : List Char) : List Char :=
  s.flatMap (fun c => if c = d then [d, d] else [c])

theorem quoted_eq (d : Char) (s rest : List Char) :
    quoted d s ++ rest = d :: (inside d s ++ d :: rest) := by
  simp [quoted, inside]

theorem expect_self (d : Char) (t : Scan) : expect d (d :: t) = some t := by
  simp [expect, expectP]

theorem expect_other {c d : Char} (h : c ≠ d) (t : Scan) : expect d (c :: t) = none := by
  simp [expect, expectP, h]

theorem delim_space {d : Char} (hd : Delim d) : isSpace d = false := by
  cases h : isSpace d with
  | false => rfl
  | true => exact absurd (blank_space.mpr h) hd.2.2.2

theorem delim_not_end {d : Char} (hd : Delim d) (t : Scan) :
    ¬ ((semicolonEndOfLine (d :: t)).1 = true ∨ deref (semicolonEndOfLine (d :: t)).2 = ',') := by
  unfold semicolonEndOfLine
  rw [skip_cons (delim_space hd)]
  simp [deref, hd.1, hd.2.1, hd.2.2.1]

theorem read_double (d : Char) (t : Scan) : defaultReadLetter (d :: d :: t) d = (d.toNat, .OK, t) := by
  unfold defaultReadLetter
  rw [expect_self]; dsimp only
  rw [expect_self]

theorem read_plain {c d : Char} (h : c ≠ d) (h0 : c ≠ '\x00') (t : Scan) :
    defaultReadLetter (c :: t) d = (c.toNat, .OK, t) := by
  unfold defaultReadLetter
  rw [expect_other h]; dsimp only
  rw [if_neg h0]

theorem stringEnd_inside (E : Env) (hE : E.endOfLine = semicolonEndOfLine)
    (hr : E.letters.readLetter = defaultReadLetter) {d : Char} (hd : Delim d) {rest : Scan}
    (hf : Follow rest) (s : List Char) (hs : ∀ c ∈ s, c ≠ '\x00') :
    ∀ fuel, (inside d s ++ d :: rest).length < fuel →
      stringEnd E d fuel (inside d s ++ d :: rest) = .ok (.OK, d :: rest) := by
  induction s with
  | nil =>
    intro fuel hl
    cases fuel with
    | zero => omega
    | succ fuel =>
      show stringEnd E d (fuel + 1) (d :: rest) = _
      unfold stringEnd
      rw [if_neg (show ¬ deref (d :: rest) = '\x00' from hd.1), hE,
        if_pos ⟨rfl, follow_ends hf⟩]
  | cons c s ih =>
    intro fuel hl
    have hs' : ∀ c ∈ s, c ≠ '\x00' := fun x hx => hs x (List.mem_cons_of_mem _ hx)
    cases fuel with
    | zero => omega
    | succ fuel =>
      by_cases hc : c = d
      · have e : inside d (c :: s) ++ d :: rest = d :: d :: (inside d s ++ d :: rest) := by
          simp [inside, hc]
        rw [e] at hl ⊢
        unfold stringEnd
        rw [if_neg (show ¬ deref (d :: d :: (inside d s ++ d :: rest)) = '\x00' from hd.1), hE,
          if_neg (fun h => delim_not_end hd _ h.2), hr, read_double]
        dsimp only
        rw [if_neg (by simp)]
        exact ih hs' fuel (by simp only [List.length_cons] at hl ⊢; omega)
      · have e : inside d (c :: s) ++ d :: rest = c :: (inside d s ++ d :: rest) := by
          simp [inside, hc]
        rw [e] at hl ⊢
        unfold stringEnd
        rw [if_neg (show ¬ deref (c :: (inside d s ++ d :: rest)) = '\x00' from
            hs c (List.mem_cons_self ..)), hE,
          if_neg (fun h => hc h.1), hr, read_plain hc (hs c (List.mem_cons_self ..))]
        dsimp only
        rw [if_neg (by simp)]
        exact ih hs' fuel (by simp only [List.length_cons] at hl ⊢; omega)

theorem encode_byte {n : Nat} (h : n < 256) : encode .byte n = [n] := by
  show [n % 256] = [n]
  rw [Nat.mod_eq_of_lt h]

theorem letterLoop_inside (E : Env) (hr : E.letters.readLetter = defaultReadLetter) {d : Char}
    (hd : d.toNat < 256) {rest : Scan} {b0 : Buf} (s : List Char) (hs : ∀ c ∈ s, c ≠ '\x00')
    (hb : ∀ c ∈ s, c.toNat < 256) :
    ∀ fuel b xs err count, (inside d s ++ d :: rest).length < fuel → Track b0 xs b err →
      ∃ b' err' n, letterLoop E d (d :: rest) fuel (inside d s ++ d :: rest) b err count =
          .ok (b', err', n) ∧ n % 4 = (count + s.length) % 4 ∧
        Track b0 (xs ++ s.map Char.toNat) b' err' := by
  induction s with
  | nil =>
    intro fuel b xs err count hl ht
    cases fuel with
    | zero => omega
    | succ fuel =>
      refine ⟨b, err, count, ?_, rfl, by simpa using ht⟩
      show letterLoop E d (d :: rest) (fuel + 1) (d :: rest) b err count = _
      unfold letterLoop
      rw [if_neg (by omega)]
  | cons c s ih =>
    intro fuel b xs err count hl ht
    have hs' : ∀ c ∈ s, c ≠ '\x00' := fun x hx => hs x (List.mem_cons_of_mem _ hx)
    have hb' : ∀ c ∈ s, c.toNat < 256 := fun x hx => hb x (List.mem_cons_of_mem _ hx)
    have hc0 := hs c (List.mem_cons_self ..)
    have hcb := hb c (List.mem_cons_self ..)
    cases fuel with
    | zero => omega
    | succ fuel =>
      obtain ⟨b1, e1, h1, h2⟩ := track_emit ht .byte c.toNat
      rw [encode_byte hcb] at h2
      have key : ∀ t, t.length > (d :: rest).length →
          defaultReadLetter t d = (c.toNat, .OK, inside d s ++ d :: rest) →
          (inside d s ++ d :: rest).length < fuel →
          ∃ b' err' n, letterLoop E d (d :: rest) (fuel + 1) t b err count =
          .ok (b', err', n) ∧ n % 4 = (count + (c :: s).length) % 4 ∧
          Track b0 (xs ++ (c :: s).map Char.toNat) b' err' := by
        intro t ht2 hread hlen
        obtain ⟨b2, e2, n, h3, hn, h4⟩ := ih hs' hb' fuel b1 _ e1 ((count + 1) % 256) hlen h2
        refine ⟨b2, e2, n, ?_, ?_, ?_⟩
        · unfold letterLoop
          rw [if_pos ht2, hr, hread]
          dsimp only
          rw [h1]
          exact h3
        · rw [hn, List.length_cons]; omega
        · simpa using h4
      by_cases hc : c = d
      · have e : inside d (c :: s) ++ d :: rest = d :: d :: (inside d s ++ d :: rest) := by
          simp [inside, hc]
        rw [e] at hl ⊢
        exact key _ (by simp; omega) (by rw [read_double, hc])
          (by simp only [List.length_cons] at hl ⊢; omega)
      · have e : inside d (c :: s) ++ d :: rest = c :: (inside d s ++ d :: rest) := by
          simp [inside, hc]
        rw [e] at hl ⊢
        exact key _ (by simp; omega) (read_plain hc hc0 _)
          (by simp only [List.length_cons] at hl ⊢; omega)

end Libasm.Data
