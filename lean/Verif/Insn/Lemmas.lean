import Verif.Insn.Spec
/-
Emitters as sequences of single byte stores.
-/
namespace Libasm.Insn
open Spec

/-- Store bytes at consecutive positions; the error of the last. -/
def put (pos : Nat) : List Nat → Err → Buf → Option (Buf × Err)
  | [], e, b => some (b, e)
  | x :: xs, _, b =>
    match b.emitByteAt x pos with
    | none => none
    | some (b, e) => put (pos + 1) xs e b

theorem both_put {p q : Nat} {xs ys : List Nat} {e e' : Err} (h : q = p + xs.length) (hy : ys ≠ []) :
    both (put p xs e) (put q ys e') = put p (xs ++ ys) e := by
  subst h
  funext b
  induction xs generalizing p e b with
  | nil =>
    cases ys with
    | nil => exact absurd rfl hy
    | cons y ys => simp [both, put]
  | cons x xs ih =>
    simp only [both, put, List.cons_append]
    cases b.emitByteAt x p with
    | none => rfl
    | some r =>
      obtain ⟨b', e1⟩ := r
      have := ih (p := p + 1) (e := e1) b'
      simp only [both, List.length_cons] at this ⊢
      rw [show p + (xs.length + 1) = p + 1 + xs.length from by omega]
      exact this

theorem emitByteAt_put (v p : Nat) (e : Err) : (fun b => Buf.emitByteAt b v p) = put p [v % 256] e := by
  funext b
  simp only [put]
  have : b.emitByteAt (v % 256) p = b.emitByteAt v p := by
    simp [Buf.emitByteAt]
  rw [this]
  cases b.emitByteAt v p with
  | none => rfl
  | some r => rfl

theorem shr8 (v k : Nat) : v >>> k = v / 2 ^ k := Nat.shiftRight_eq_div_pow v k

theorem be16_put {v p : Nat} (h : p + 2 ≤ 256) (e : Err) :
    Buf.emitUint16BeAt v p = put p (encode .be16 v) e := by
  unfold Buf.emitUint16BeAt
  simp only [shr8]
  rw [emitByteAt_put _ _ e, emitByteAt_put _ _ e, both_put (by simp) (by simp)]
  rw [show p % 256 + 0 = p from by omega]
  have h1 : v % 65536 / 2 ^ 8 % 256 = v / 256 % 256 := by omega
  simp [encode, digits, h1]

theorem le16_put {v p : Nat} (h : p + 2 ≤ 256) (e : Err) :
    Buf.emitUint16LeAt v p = put p (encode .le16 v) e := by
  unfold Buf.emitUint16LeAt
  simp only [shr8]
  rw [emitByteAt_put _ _ e, emitByteAt_put _ _ e, both_put (by simp) (by simp)]
  rw [show p % 256 + 0 = p from by omega]
  have h1 : v % 65536 / 2 ^ 8 % 256 = v / 256 % 256 := by omega
  simp [encode, digits, h1]

theorem be32_put {v p : Nat} (h : p + 4 ≤ 256) (e : Err) :
    Buf.emitUint32BeAt v p = put p (encode .be32 v) e := by
  unfold Buf.emitUint32BeAt
  simp only [shr8]
  rw [show p % 256 = p from by omega, be16_put (by omega) e, be16_put (by omega) e,
    both_put (by simp [encode, digits]) (by simp [encode, digits])]
  have h1 : v % 4294967296 / 2 ^ 16 % 256 = v / 256 / 256 % 256 := by omega
  have h2 : v % 4294967296 / 2 ^ 16 / 256 % 256 = v / 256 / 256 / 256 % 256 := by omega
  have h3 : v % 4294967296 / 2 ^ 0 % 256 = v % 256 := by omega
  have h4 : v % 4294967296 / 2 ^ 0 / 256 % 256 = v / 256 % 256 := by omega
  simp only [encode, digits, h1, h2, h3, h4, List.reverse_cons, List.reverse_nil, List.nil_append,
    List.cons_append, Nat.add_zero]

theorem le32_put {v p : Nat} (h : p + 4 ≤ 256) (e : Err) :
    Buf.emitUint32LeAt v p = put p (encode .le32 v) e := by
  unfold Buf.emitUint32LeAt
  simp only [shr8]
  rw [show p % 256 = p from by omega, le16_put (by omega) e, le16_put (by omega) e,
    both_put (by simp [encode, digits]) (by simp [encode, digits])]
  have h1 : v % 4294967296 / 2 ^ 16 % 256 = v / 256 / 256 % 256 := by omega
  have h2 : v % 4294967296 / 2 ^ 16 / 256 % 256 = v / 256 / 256 / 256 % 256 := by omega
  have h3 : v % 4294967296 / 2 ^ 0 % 256 = v % 256 := by omega
  have h4 : v % 4294967296 / 2 ^ 0 / 256 % 256 = v / 256 % 256 := by omega
  simp only [encode, digits, h1, h2, h3, h4, List.nil_append, List.cons_append, Nat.add_zero]

theorem be64_put {v p : Nat} (h : p + 8 ≤ 256) (e : Err) :
    Buf.emitUint64BeAt v p = put p (encode .be64 v) e := by
  unfold Buf.emitUint64BeAt
  simp only [shr8]
  rw [show p % 256 = p from by omega, be32_put (by omega) e, be32_put (by omega) e,
    both_put (by simp [encode, digits]) (by simp [encode, digits])]
  generalize hw : v % 18446744073709551616 = w
  have a0 : w / 2 ^ 0 % 256 = v % 256 := by omega
  have a1 : w / 2 ^ 0 / 256 % 256 = v / 256 % 256 := by omega
  have a2 : w / 2 ^ 0 / 256 / 256 % 256 = v / 256 / 256 % 256 := by omega
  have a3 : w / 2 ^ 0 / 256 / 256 / 256 % 256 = v / 256 / 256 / 256 % 256 := by omega
  have a4 : w / 2 ^ 32 % 256 = v / 256 / 256 / 256 / 256 % 256 := by omega
  have a5 : w / 2 ^ 32 / 256 % 256 = v / 256 / 256 / 256 / 256 / 256 % 256 := by omega
  have a6 : w / 2 ^ 32 / 256 / 256 % 256 = v / 256 / 256 / 256 / 256 / 256 / 256 % 256 := by omega
  have a7 : w / 2 ^ 32 / 256 / 256 / 256 % 256 =
    v / 256 / 256 / 256 / 256 / 256 / 256 / 256 % 256 := by omega
  simp only [encode, digits, a0, a1, a2, a3, a4, a5, a6, a7, List.reverse_cons, List.reverse_nil,
    List.nil_append, List.cons_append, Nat.add_zero]

theorem le64_put {v p : Nat} (h : p + 8 ≤ 256) (e : Err) :
    Buf.emitUint64LeAt v p = put p (encode .le64 v) e := by
  unfold Buf.emitUint64LeAt
  simp only [shr8]
  rw [show p % 256 = p from by omega, le32_put (by omega) e, le32_put (by omega) e,
    both_put (by simp [encode, digits]) (by simp [encode, digits])]
  generalize hw : v % 18446744073709551616 = w
  have a0 : w / 2 ^ 0 % 256 = v % 256 := by omega
  have a1 : w / 2 ^ 0 / 256 % 256 = v / 256 % 256 := by omega
  have a2 : w / 2 ^ 0 / 256 / 256 % 256 = v / 256 / 256 % 256 := by omega
  have a3 : w / 2 ^ 0 / 256 / 256 / 256 % 256 = v / 256 / 256 / 256 % 256 := by omega
  have a4 : w / 2 ^ 32 % 256 = v / 256 / 256 / 256 / 256 % 256 := by omega
  have a5 : w / 2 ^ 32 / 256 % 256 = v / 256 / 256 / 256 / 256 / 256 % 256 := by omega
  have a6 : w / 2 ^ 32 / 256 / 256 % 256 = v / 256 / 256 / 256 / 256 / 256 / 256 % 256 := by omega
  have a7 : w / 2 ^ 32 / 256 / 256 / 256 % 256 =
    v / 256 / 256 / 256 / 256 / 256 / 256 / 256 % 256 := by omega
  simp only [encode, digits, a0, a1, a2, a3, a4, a5, a6, a7, List.nil_append, List.cons_append,
    Nat.add_zero]

theorem emitAt_put {f : Form} {v p : Nat} (h : p + size f ≤ 256) (e : Err) :
    Buf.emitAt f v p = put p (encode f v) e := by
  cases f
  · exact emitByteAt_put v p e
  · exact be16_put h e
  · exact le16_put h e
  · exact be32_put h e
  · exact le32_put h e
  · exact be64_put h e
  · exact le64_put h e

theorem size_encode (f : Form) (v : Nat) : (encode f v).length = size f := by
  cases f <;> rfl

theorem encode_lt {f : Form} {v x : Nat} (h : x ∈ encode f v) : x < 256 := by
  have key : ∀ n v, x ∈ digits n v → x < 256 := by
    intro n
    induction n with
    | zero => intro v h; cases h
    | succ n ih =>
      intro v h
      cases h with
      | head => omega
      | tail _ h => exact ih _ h
  cases f <;> simp only [encode, List.mem_reverse] at h <;> exact key _ _ h

/-- The buffer with NO_MEMORY recorded unless there is an error already. -/
def full (b : Buf) : Buf := { b with error := if b.error = .OK then .NO_MEMORY else b.error }

theorem setErrorIf_full (b : Buf) : b.setErrorIf .NO_MEMORY = (full b, (full b).error) := by
  unfold Buf.setErrorIf full
  by_cases h : b.error = .OK <;> simp [h]

theorem full_full (b : Buf) : full (full b) = full b := by
  unfold full
  by_cases h : b.error = .OK <;> simp [h]

/-- What a sequence of byte stores does to a buffer. -/
structure Stored (b b' : Buf) (pos : Nat) (xs : List Nat) : Prop where
  cell : ∀ i, i < 64 → b'.bytes[i]? = if pos ≤ i ∧ i < pos + xs.length then xs[i - pos]? else b.bytes[i]?
  cells : b'.bytes.length = 64
  length : b'.length = max b.length (min 64 (if pos < 64 then pos + xs.length else 0))
  address : b'.address = b.address
  error : b'.error = if b.error = .OK ∧ 64 < pos + xs.length then .NO_MEMORY else b.error

theorem emitByteAt_lt {b : Buf} {x p : Nat} (hb : b.bytes.length = 64) (hp : p < 64) :
    b.emitByteAt x p =
      some ({ b with bytes := b.bytes.set p (x % 256),
                     length := if b.length < p + 1 then p + 1 else b.length }, .OK) := by
  unfold Buf.emitByteAt store
  simp only [show p % 256 = p from by omega, maxCode, hb]
  rw [if_neg (by omega), if_pos hp]

theorem emitByteAt_ge {b : Buf} {x p : Nat} (hp : 64 ≤ p) (hq : p < 256) :
    b.emitByteAt x p = some (full b, (full b).error) := by
  unfold Buf.emitByteAt
  simp only [show p % 256 = p from by omega, maxCode]
  rw [if_pos hp, setErrorIf_full]

theorem put_ge {b : Buf} {p : Nat} {xs : List Nat} {e : Err} (hp : 64 ≤ p)
    (hq : p + xs.length ≤ 256) (hx : xs ≠ []) : put p xs e b = some (full b, (full b).error) := by
  induction xs generalizing p e b with
  | nil => exact absurd rfl hx
  | cons x xs ih =>
    have hq' : p + (xs.length + 1) ≤ 256 := hq
    simp only [put]
    rw [emitByteAt_ge hp (by omega)]
    cases xs with
    | nil => rfl
    | cons y ys =>
      show put (p + 1) (y :: ys) _ _ = _
      rw [ih (by omega) (by omega) (by simp), full_full]

theorem put_effect {b : Buf} {p : Nat} {xs : List Nat} {e : Err} (hb : b.bytes.length = 64)
    (hu : b.length ≤ 64) (hx : ∀ x ∈ xs, x < 256) (hq : p + xs.length ≤ 256) (hn : xs ≠ []) :
    ∃ b' e', put p xs e b = some (b', e') ∧ Stored b b' p xs ∧
      e' = (if 64 < p + xs.length then b'.error else .OK) := by
  by_cases hp : 64 ≤ p
  · refine ⟨_, _, put_ge hp hq hn, ?_, ?_⟩
    · have h0 : 0 < xs.length := by cases xs with | nil => exact absurd rfl hn | cons => simp
      refine ⟨fun i hi => ?_, hb, ?_, rfl, ?_⟩
      · rw [if_neg (by omega)]; rfl
      · rw [if_neg (by omega)]; show b.length = _; omega
      · show (if b.error = .OK then _ else _) = _
        by_cases h : b.error = .OK
        · rw [if_pos h, if_pos ⟨h, by omega⟩]
        · rw [if_neg h, if_neg (fun hh => h hh.1)]
    · have h0 : 0 < xs.length := by cases xs with | nil => exact absurd rfl hn | cons => simp
      rw [if_pos (by omega)]
  · induction xs generalizing p e b with
    | nil => exact absurd rfl hn
    | cons x xs ih =>
      have hp : p < 64 := by omega
      have hq' : p + (xs.length + 1) ≤ 256 := hq
      simp only [put]
      rw [emitByteAt_lt hb hp, show x % 256 = x from Nat.mod_eq_of_lt (hx x (by simp))]
      simp only
      cases xs with
      | nil =>
        refine ⟨_, _, rfl, ⟨fun i hi => ?_, ?_, ?_, rfl, ?_⟩, ?_⟩
        · simp only [List.getElem?_set, List.length_cons, List.length_nil]
          by_cases h : p = i
          · subst h; rw [if_pos rfl, if_pos (by omega), if_pos (by omega)]; simp
          · rw [if_neg h, if_neg (by omega)]
        · simp [hb]
        · rw [if_pos hp]
          simp only [List.length_cons, List.length_nil]
          have := hu
          split <;> omega
        · show b.error = _
          rw [if_neg (by intro hh; have := hh.2; simp only [List.length_cons, List.length_nil] at this; omega)]
        · rw [if_neg (by simp only [List.length_cons, List.length_nil]; omega)]
      | cons y ys =>
        generalize hb1 : ({ b with bytes := b.bytes.set p x, length := if b.length < p + 1 then p + 1 else b.length } : Buf) = b1
        have hb1l : b1.bytes.length = 64 := by subst hb1; simp [hb]
        have hb1u : b1.length ≤ 64 := by subst hb1; show (if b.length < p + 1 then p + 1 else b.length) ≤ 64; split <;> omega
        have hb1e : b1.error = b.error := by subst hb1; rfl
        have hb1a : b1.address = b.address := by subst hb1; rfl
        have hb1n : b1.length = max b.length (p + 1) := by
          subst hb1; show (if b.length < p + 1 then p + 1 else b.length) = _; split <;> omega
        have hb1c : ∀ i : Nat, b1.bytes[i]? = if p = i then some x else b.bytes[i]? := by
          intro i; subst hb1; simp only [List.getElem?_set]
          by_cases h : p = i
          · subst h; rw [if_pos rfl, if_pos (by omega), if_pos rfl]
          · rw [if_neg h, if_neg h]
        have hlen : (y :: ys).length = ys.length + 1 := rfl
        rw [hlen] at hq'
        by_cases h64 : 64 ≤ p + 1
        · rw [put_ge h64 (by rw [hlen]; omega) (by simp)]
          refine ⟨_, _, rfl, ?_, ?_⟩
          · refine ⟨fun i hi => ?_, hb1l, ?_, hb1a, ?_⟩
            · show b1.bytes[i]? = _
              rw [hb1c]
              simp only [List.length_cons]
              by_cases h : p = i
              · subst h; rw [if_pos rfl, if_pos (by omega)]; simp
              · rw [if_neg h, if_neg (by omega)]
            · show b1.length = _
              rw [hb1n, if_pos hp]; simp only [List.length_cons]; omega
            · show (if b1.error = .OK then _ else b1.error) = _
              rw [hb1e]
              simp only [List.length_cons]
              by_cases h : b.error = .OK
              · rw [if_pos h, if_pos ⟨h, by omega⟩]
              · rw [if_neg h, if_neg (fun hh => h hh.1)]
          · rw [if_pos (by simp only [List.length_cons]; omega)]
        · obtain ⟨b', e', h1, h2, h3⟩ := ih (b := b1) (p := p + 1) (e := .OK) hb1l hb1u
            (fun z hz => hx z (List.mem_cons_of_mem _ hz)) (by rw [hlen]; omega) (by simp) (by omega)
          refine ⟨b', e', h1, ⟨fun i hi => ?_, h2.cells, ?_, by rw [h2.address, hb1a], ?_⟩, ?_⟩
          · rw [h2.cell i hi, hb1c]
            simp only [List.length_cons]
            by_cases hc : p + 1 ≤ i ∧ i < p + 1 + (ys.length + 1)
            · rw [if_pos hc, if_pos (by omega)]
              rw [show i - p = (i - (p + 1)) + 1 from by omega, List.getElem?_cons_succ]
            · rw [if_neg hc]
              by_cases h : p = i
              · subst h; rw [if_pos rfl, if_pos (by omega)]; simp
              · rw [if_neg h, if_neg (by omega)]
          · rw [h2.length, hb1n, if_pos (by omega), if_pos hp]
            simp only [List.length_cons]; omega
          · rw [h2.error, hb1e]
            have hc : (64 < p + 1 + (y :: ys).length) = (64 < p + (x :: y :: ys).length) := by
              simp only [List.length_cons]; exact propext (by omega)
            simp only [hc]
          · rw [h3]
            have hc : (64 < p + 1 + (y :: ys).length) = (64 < p + (x :: y :: ys).length) := by
              simp only [List.length_cons]; exact propext (by omega)
            simp only [hc]

/-! ### Safety of any position -/

theorem emitByteAt_safe {b : Buf} (hf : Fine b) (v p : Nat) :
    ∃ b' e, b.emitByteAt v p = some (b', e) ∧ Fine b' ∧ b.length ≤ b'.length ∧ b'.address = b.address := by
  have h0 : b.emitByteAt v p = b.emitByteAt v (p % 256) := by simp [Buf.emitByteAt]
  rw [h0]
  by_cases hp : p % 256 < 64
  · rw [emitByteAt_lt hf.cells hp]
    refine ⟨_, _, rfl, ⟨?_, ?_, ?_⟩, ?_, rfl⟩
    · simp [hf.cells]
    · show (if b.length < p % 256 + 1 then p % 256 + 1 else b.length) ≤ 64
      have := hf.used; split <;> omega
    · intro x hx
      rcases List.mem_or_eq_of_mem_set hx with h | h
      · exact hf.bytes x h
      · omega
    · show _ ≤ (if b.length < p % 256 + 1 then p % 256 + 1 else b.length)
      split <;> omega
  · rw [emitByteAt_ge (by omega) (by omega)]
    exact ⟨_, _, rfl, ⟨hf.cells, hf.used, hf.bytes⟩, Nat.le_refl _, rfl⟩

/-- Emitters that never leave the array. -/
def Safe (g : Buf → Option (Buf × Err)) : Prop :=
  ∀ b, Fine b → ∃ b' e, g b = some (b', e) ∧ Fine b' ∧ b.length ≤ b'.length ∧ b'.address = b.address

theorem both_safe {f g : Buf → Option (Buf × Err)} (hf : Safe f) (hg : Safe g) : Safe (both f g) := by
  intro b hb
  obtain ⟨b1, e1, h1, k1, l1, a1⟩ := hf b hb
  obtain ⟨b2, e2, h2, k2, l2, a2⟩ := hg b1 k1
  refine ⟨b2, e2, ?_, k2, by omega, by rw [a2, a1]⟩
  simp only [both, h1, h2]

theorem emitAt_safe (f : Form) (v p : Nat) : Safe (Buf.emitAt f v p) := by
  have h8 : ∀ v p, Safe (fun b => Buf.emitByteAt b v p) := fun v p b hb => emitByteAt_safe hb v p
  have hb16 : ∀ v p, Safe (Buf.emitUint16BeAt v p) := fun v p => both_safe (h8 _ _) (h8 _ _)
  have hl16 : ∀ v p, Safe (Buf.emitUint16LeAt v p) := fun v p => both_safe (h8 _ _) (h8 _ _)
  have hb32 : ∀ v p, Safe (Buf.emitUint32BeAt v p) := fun v p => both_safe (hb16 _ _) (hb16 _ _)
  have hl32 : ∀ v p, Safe (Buf.emitUint32LeAt v p) := fun v p => both_safe (hl16 _ _) (hl16 _ _)
  have hb64 : ∀ v p, Safe (Buf.emitUint64BeAt v p) := fun v p => both_safe (hb32 _ _) (hb32 _ _)
  have hl64 : ∀ v p, Safe (Buf.emitUint64LeAt v p) := fun v p => both_safe (hl32 _ _) (hl32 _ _)
  cases f
  · exact h8 v p
  · exact hb16 v p
  · exact hl16 v p
  · exact hb32 v p
  · exact hl32 v p
  · exact hb64 v p
  · exact hl64 v p

end Libasm.Insn
