import Verif.Insn.Lemmas
/-
Appending, and reading back.
-/
namespace Libasm.Insn
open Spec

theorem fine_cells {b b' : Buf} {p : Nat} {xs : List Nat} (hf : Fine b) (hx : ∀ x ∈ xs, x < 256)
    (h : Stored b b' p xs) : Fine b' := by
  refine ⟨h.cells, ?_, ?_⟩
  · rw [h.length]; have := hf.used; omega
  · intro x hm
    obtain ⟨i, hi⟩ := List.mem_iff_getElem?.1 hm
    have hi64 : i < 64 := by
      have := (List.getElem?_eq_some_iff.1 hi).1
      rw [h.cells] at this; exact this
    rw [h.cell i hi64] at hi
    split at hi
    · exact hx x (List.mem_of_getElem? hi)
    · exact hf.bytes x (List.mem_of_getElem? hi)

/-- The cells in use after a store at the end. -/
theorem append_take {b b' : Buf} {xs : List Nat} (hf : Fine b) (h : Stored b b' b.length xs) :
    b'.length = min 64 (b.length + xs.length) ∧
      b'.bytes.take b'.length = (b.bytes.take b.length ++ xs).take 64 := by
  have hu := hf.used
  have hl : b'.length = min 64 (b.length + xs.length) := by
    rw [h.length]
    split <;> omega
  refine ⟨hl, ?_⟩
  apply List.ext_getElem?
  intro i
  by_cases hi : i < 64
  · rw [List.getElem?_take, List.getElem?_take, if_pos hi, hl]
    by_cases h1 : i < min 64 (b.length + xs.length)
    · rw [if_pos h1, h.cell i hi]
      by_cases h2 : i < b.length
      · rw [if_neg (by omega), List.getElem?_append_left (by simp [hf.cells]; omega),
          List.getElem?_take, if_pos h2]
      · rw [if_pos (by omega), List.getElem?_append_right (by simp [hf.cells]; omega)]
        simp only [List.length_take, hf.cells]
        congr 1; omega
    · rw [if_neg h1, List.getElem?_append_right (by simp [hf.cells]; omega)]
      rw [List.getElem?_eq_none]
      simp [hf.cells]; omega
  · rw [List.getElem?_eq_none, List.getElem?_eq_none]
    · simp; omega
    · simp; omega

theorem emit_effect {b : Buf} (hf : Fine b) (f : Form) (v : Nat) :
    ∃ b' e, b.emit f v = some (b', e) ∧ Stored b b' b.length (encode f v) ∧
      e = (if 64 < b.length + size f then b'.error else .OK) := by
  have hu := hf.used
  have hs : b.length + size f ≤ 256 := by cases f <;> simp [size] <;> omega
  have hn : encode f v ≠ [] := by
    intro h
    have := size_encode f v
    rw [h] at this
    cases f <;> cases this
  obtain ⟨b', e, h1, h2, h3⟩ := put_effect (e := .OK) (xs := encode f v) hf.cells hu
    (fun x hx => encode_lt hx) (by rw [size_encode]; exact hs) hn
  refine ⟨b', e, ?_, h2, by rw [size_encode] at h3; exact h3⟩
  rw [Buf.emit, emitAt_put hs .OK]
  exact h1

/-! ### Reading -/

/-- A reader that takes `k` bytes and makes a number of them. -/
def Reads (f : Reader → Option (Nat × Reader)) (k : Nat) (val : List Nat → Nat) : Prop :=
  ∀ r bs rest, Fine r.insn → r.memory = bs ++ rest → bs.length = k → (∀ x ∈ bs, x < 256) →
    ∃ r', f r = some (val bs, r') ∧ r'.memory = rest ∧ Fine r'.insn ∧
      (r.insn.length + k ≤ 64 → r'.error = r.error ∧ r'.insn.length = r.insn.length + k ∧
        r'.insn.error = r.insn.error ∧ r'.insn.address = r.insn.address ∧
        r'.insn.bytes.take r'.insn.length = r.insn.bytes.take r.insn.length ++ bs)

theorem readByte_reads : Reads Reader.readByte 1 (fun bs => bs.headD 0) := by
  intro r bs rest hf hm hk hx
  obtain ⟨x, hbs⟩ : ∃ x, bs = [x] := by
    match bs, hk with
    | [x], _ => exact ⟨x, rfl⟩
  subst hbs
  have hx' := hx x (by simp)
  obtain ⟨b', e, h1, h2, h3⟩ := emit_effect hf .byte x
  have henc : encode .byte x = [x] := by simp [encode, digits, Nat.mod_eq_of_lt hx']
  rw [henc] at h2
  have hfine := fine_cells hf hx h2
  have hsz : size .byte = 1 := rfl
  unfold Reader.readByte
  rw [hm]
  simp only [List.cons_append, List.nil_append, Nat.mod_eq_of_lt hx', h1, List.headD_cons]
  refine ⟨_, rfl, ?_, ?_, ?_⟩
  · split
    · unfold Reader.setErrorIf; split <;> rfl
    · rfl
  · split
    · unfold Reader.setErrorIf; split <;> exact hfine
    · exact hfine
  · intro hroom
    rw [if_neg (by rw [hsz]; omega)] at h3
    subst h3
    rw [if_neg (by simp)]
    obtain ⟨a1, a2⟩ := append_take hf h2
    refine ⟨rfl, ?_, ?_, h2.address, ?_⟩
    · show b'.length = _
      rw [a1]; simp only [List.length_cons, List.length_nil]; omega
    · show b'.error = _
      rw [h2.error, if_neg]
      simp only [List.length_cons, List.length_nil]; omega
    · show List.take b'.length b'.bytes = _
      rw [a2, List.take_of_length_le]
      simp [hf.cells]; omega

theorem two_reads {f : Reader → Option (Nat × Reader)} {k : Nat} {val : List Nat → Nat}
    (h : Reads f k val) (mix : Nat → Nat → Nat) :
    Reads (Reader.two f mix) (k + k) (fun bs => mix (val (bs.take k)) (val (bs.drop k))) := by
  intro r bs rest hf hm hk hx
  obtain ⟨r1, a1, a2, a3, a4⟩ := h r (bs.take k) (bs.drop k ++ rest) hf
    (by rw [hm, ← List.append_assoc, List.take_append_drop]) (by simp; omega)
    (fun x hm => hx x (List.mem_of_mem_take hm))
  obtain ⟨r2, b1, b2, b3, b4⟩ := h r1 (bs.drop k) rest a3 a2 (by simp; omega)
    (fun x hm => hx x (List.mem_of_mem_drop hm))
  refine ⟨r2, ?_, b2, b3, ?_⟩
  · unfold Reader.two
    simp only [a1, b1]
  · intro hroom
    obtain ⟨c1, c2, c3, c4, c5⟩ := a4 (by omega)
    obtain ⟨d1, d2, d3, d4, d5⟩ := b4 (by omega)
    refine ⟨by rw [d1, c1], by omega, by rw [d3, c3], by rw [d4, c4], ?_⟩
    rw [d5, c5, List.append_assoc, List.take_append_drop]

/-- The number a reader of a form makes of its bytes. -/
def combine (f : Form) (bs : List Nat) : Nat :=
  let v8 (bs : List Nat) : Nat := bs.headD 0
  let be16 (bs : List Nat) : Nat := (v8 (bs.take 1) <<< 8 ||| v8 (bs.drop 1)) % 65536
  let le16 (bs : List Nat) : Nat := (v8 (bs.drop 1) <<< 8 ||| v8 (bs.take 1)) % 65536
  let be32 (bs : List Nat) : Nat := (be16 (bs.take 2) <<< 16 ||| be16 (bs.drop 2)) % 4294967296
  let le32 (bs : List Nat) : Nat := (le16 (bs.drop 2) <<< 16 ||| le16 (bs.take 2)) % 4294967296
  match f with
  | .byte => v8 bs
  | .be16 => be16 bs
  | .le16 => le16 bs
  | .be32 => be32 bs
  | .le32 => le32 bs
  | .be64 => (be32 (bs.take 4) <<< 32 ||| be32 (bs.drop 4)) % 18446744073709551616
  | .le64 => (le32 (bs.drop 4) <<< 32 ||| le32 (bs.take 4)) % 18446744073709551616

theorem read_reads (f : Form) : Reads (Reader.read f) (size f) (combine f) := by
  have h8 := readByte_reads
  have hb16 : Reads Reader.readUint16Be 2 _ := two_reads h8 _
  have hl16 : Reads Reader.readUint16Le 2 _ := two_reads h8 _
  have hb32 : Reads Reader.readUint32Be 4 _ := two_reads hb16 _
  have hl32 : Reads Reader.readUint32Le 4 _ := two_reads hl16 _
  have hb64 : Reads Reader.readUint64Be 8 _ := two_reads hb32 _
  have hl64 : Reads Reader.readUint64Le 8 _ := two_reads hl32 _
  cases f
  · exact h8
  · exact hb16
  · exact hl16
  · exact hb32
  · exact hl32
  · exact hb64
  · exact hl64

theorem mix_or {a b k : Nat} (h : b < 2 ^ k) : a <<< k ||| b = a * 2 ^ k + b := by
  rw [← Nat.shiftLeft_add_eq_or_of_lt h, Nat.shiftLeft_eq]

theorem mix16 {a b : Nat} (ha : a < 256) (hb : b < 256) : (a <<< 8 ||| b) % 65536 = a * 256 + b := by
  rw [mix_or (by omega)]; omega
theorem mix32 {a b : Nat} (ha : a < 65536) (hb : b < 65536) :
    (a <<< 16 ||| b) % 4294967296 = a * 65536 + b := by
  rw [mix_or (by omega)]; omega
theorem mix64 {a b : Nat} (ha : a < 4294967296) (hb : b < 4294967296) :
    (a <<< 32 ||| b) % 18446744073709551616 = a * 4294967296 + b := by
  rw [mix_or (by omega)]; omega

theorem combine_encode {f : Form} {v : Nat} (h : v < 256 ^ size f) : combine f (encode f v) = v := by
  have m : ∀ x : Nat, x % 256 < 256 := fun x => Nat.mod_lt _ (by decide)
  cases f
  · simp only [size, combine, encode, digits, List.headD_cons] at *; omega
  · simp only [size, combine, encode, digits, List.reverse_cons, List.reverse_nil, List.nil_append,
      List.cons_append, List.take_succ_cons, List.take_zero, List.drop_succ_cons, List.drop_zero,
      List.headD_cons] at *
    rw [mix16 (m _) (m _)]; omega
  · simp only [size, combine, encode, digits, List.take_succ_cons, List.take_zero,
      List.drop_succ_cons, List.drop_zero, List.headD_cons] at *
    rw [mix16 (m _) (m _)]; omega
  · simp only [size, combine, encode, digits, List.reverse_cons, List.reverse_nil, List.nil_append,
      List.cons_append, List.take_succ_cons, List.take_zero, List.drop_succ_cons, List.drop_zero,
      List.headD_cons] at *
    rw [mix16 (m _) (m _), mix16 (m _) (m _), mix32 (by omega) (by omega)]; omega
  · simp only [size, combine, encode, digits, List.take_succ_cons, List.take_zero,
      List.drop_succ_cons, List.drop_zero, List.headD_cons] at *
    rw [mix16 (m _) (m _), mix16 (m _) (m _), mix32 (by omega) (by omega)]; omega
  · simp only [size, combine, encode, digits, List.reverse_cons, List.reverse_nil, List.nil_append,
      List.cons_append, List.take_succ_cons, List.take_zero, List.drop_succ_cons, List.drop_zero,
      List.headD_cons] at *
    rw [mix16 (m _) (m _), mix16 (m _) (m _), mix16 (m _) (m _), mix16 (m _) (m _),
      mix32 (by omega) (by omega), mix32 (by omega) (by omega), mix64 (by omega) (by omega)]
    omega
  · simp only [size, combine, encode, digits, List.take_succ_cons, List.take_zero,
      List.drop_succ_cons, List.drop_zero, List.headD_cons] at *
    rw [mix16 (m _) (m _), mix16 (m _) (m _), mix16 (m _) (m _), mix16 (m _) (m _),
      mix32 (by omega) (by omega), mix32 (by omega) (by omega), mix64 (by omega) (by omega)]
    omega

end Libasm.Insn
