import Verif.Insn.Props
import Verif.Config.Props
import Verif.Dis.Spec
/-
Decoders that only read take from memory what they put into the instruction.
-/
namespace Libasm.Dis
open Insn Insn.Spec Spec
open Eval (Out)

/-- `r'` is `r` after taking up to `n` bytes. -/
def Took (n : Nat) (r r' : Reader) : Prop :=
  ∃ bs, r.memory = bs ++ r'.memory ∧ bs.length = min n r.memory.length ∧ Fine r'.insn ∧
    r'.insn.length = r.insn.length + bs.length ∧ r'.insn.address = r.insn.address ∧
    r'.insn.bytes.take r'.insn.length = r.insn.bytes.take r.insn.length ++ bs

theorem Took.comp {n m : Nat} {r r' r'' : Reader} (h1 : Took n r r') (h2 : Took m r' r'') :
    Took (n + m) r r'' := by
  obtain ⟨bs, a1, a2, a3, a4, a5, a6⟩ := h1
  obtain ⟨cs, b1, b2, b3, b4, b5, b6⟩ := h2
  refine ⟨bs ++ cs, by rw [a1, b1, List.append_assoc], ?_, b3, ?_, b5.trans a5, ?_⟩
  · rw [List.length_append, a2, b2]
    have := congrArg List.length a1
    rw [List.length_append] at this
    omega
  · rw [List.length_append]; omega
  · rw [b6, a6, List.append_assoc]

theorem readByte_took {r : Reader} (hf : Fine r.insn) (hm : ∀ x ∈ r.memory, x < 256)
    (hl : r.insn.length + 1 ≤ 64) : ∃ v r', r.readByte = some (v, r') ∧ Took 1 r r' := by
  cases h : r.memory with
  | nil =>
    refine ⟨0, r.setErrorIf .NO_MEMORY, by unfold Reader.readByte; rw [h], [], ?_⟩
    have h1 : (r.setErrorIf .NO_MEMORY).insn = r.insn ∧ (r.setErrorIf .NO_MEMORY).memory = r.memory := by
      unfold Reader.setErrorIf; split <;> exact ⟨rfl, rfl⟩
    rw [h1.1, h1.2, h]
    exact ⟨rfl, rfl, hf, rfl, rfl, by simp⟩
  | cons x rest =>
    obtain ⟨r', h1, h2, h3, h4⟩ := readByte_reads r [x] rest hf (by rw [h]; rfl) rfl (by
      intro y hy; rw [List.mem_singleton.1 hy]; exact hm x (by rw [h]; simp))
    obtain ⟨g1, g2, g3, g4, g5⟩ := h4 hl
    refine ⟨_, r', h1, [x], by rw [h, h2]; rfl, by rw [h]; simp, h3, g2, g4, g5⟩

/-- A reader of `n` bytes. -/
def Takes (f : Reader → Option (Nat × Reader)) (n : Nat) : Prop :=
  ∀ r, Fine r.insn → (∀ x ∈ r.memory, x < 256) → r.insn.length + n ≤ 64 →
    ∃ v r', f r = some (v, r') ∧ Took n r r'

theorem Took.room {n : Nat} {r r' : Reader} (h : Took n r r') :
    Fine r'.insn ∧ (∀ m, (∀ x ∈ r.memory, x < m) → ∀ x ∈ r'.memory, x < m) ∧
      r'.insn.length ≤ r.insn.length + n := by
  obtain ⟨bs, h1, h2, h3, h4, _, _⟩ := h
  exact ⟨h3, fun m hm x hx => hm x (by rw [h1]; exact List.mem_append_right _ hx), by omega⟩

theorem takes_two {f : Reader → Option (Nat × Reader)} {n : Nat} (hf : Takes f n)
    (mix : Nat → Nat → Nat) : Takes (Reader.two f mix) (n + n) := by
  intro r h1 h2 h3
  obtain ⟨v, r', g1, g2⟩ := hf r h1 h2 (by omega)
  obtain ⟨k1, k2, k3⟩ := g2.room
  obtain ⟨w, r'', g3, g4⟩ := hf r' k1 (k2 _ h2) (by omega)
  exact ⟨mix v w, r'', by unfold Reader.two; rw [g1]; dsimp only; rw [g3], g2.comp g4⟩

theorem read_takes (f : Form) : Takes (Reader.read f) (size f) := by
  have h1 : Takes Reader.readByte 1 := fun r a b c => readByte_took a b c
  have h2 : ∀ mix, Takes (Reader.two Reader.readByte mix) 2 := fun mix => takes_two h1 mix
  cases f
  · exact h1
  · exact h2 _
  · exact h2 _
  · exact takes_two (h2 _) _
  · exact takes_two (h2 _) _
  · exact takes_two (takes_two (h2 _) _) _
  · exact takes_two (takes_two (h2 _) _) _

/-- What a plain decoder takes. -/
theorem run_took {n : Nat} {p : Prog} (hp : Plain n p) (r : Reader) (hf : Fine r.insn)
    (hm : ∀ x ∈ r.memory, x < 256) (hl : r.insn.length + n ≤ 64) :
    ∃ r' k, p.run r = some r' ∧ Took k r r' := by
  induction hp generalizing r with
  | done => exact ⟨r, 0, rfl, [], by simp, by simp, hf, by simp, rfl, by simp⟩
  | @read n f k hs hk ih =>
    obtain ⟨v, r', g1, g2⟩ := read_takes f r hf hm (by omega)
    obtain ⟨k1, k2, k3⟩ := g2.room
    obtain ⟨r'', j, g3, g4⟩ := ih v r'.error r' k1 (k2 _ hm) (by omega)
    exact ⟨r'', _, by unfold Prog.run; rw [g1]; exact g3, g2.comp g4⟩
  | @setError n e p _ ih =>
    obtain ⟨r', k, g1, g2⟩ := ih { r with error := e } hf hm hl
    exact ⟨r', k, g1, g2⟩

theorem size_pos (f : Form) : 1 ≤ size f := by cases f <;> decide

/-- A plain decoder that begins with reading takes at least a byte, if there is one. -/
theorem run_begins {n : Nat} {p : Prog} (hp : Plain n p) (hb : Begins p) (r : Reader)
    (hf : Fine r.insn) (hm : ∀ x ∈ r.memory, x < 256) (hl : r.insn.length + n ≤ 64) :
    ∃ r' k, p.run r = some r' ∧ Took k r r' ∧ 1 ≤ k := by
  cases hp with
  | done => cases hb
  | setError _ => cases hb
  | @read _ f k hs hk =>
    obtain ⟨v, r', g1, g2⟩ := read_takes f r hf hm (by omega)
    obtain ⟨k1, k2, k3⟩ := g2.room
    obtain ⟨r'', j, g3, g4⟩ := run_took (hk v r'.error) r' k1 (k2 _ hm) (by omega)
    refine ⟨r'', _, by unfold Prog.run; rw [g1]; exact g3, g2.comp g4, ?_⟩
    have := size_pos f
    omega

theorem block_visits (D : Cpu) (start size fuel offset : Nat) (memory : List Nat)
    (hp : ∀ a, Plain 64 (D.prog a) ∧ Begins (D.prog a)) (hm : ∀ x ∈ memory, x < 256)
    (hs : offset + memory.length = size) (hsize : size < 2 ^ 32)
    (ha : ∀ i, i < size → start + i / D.unit < 2 ^ 32 ∧
      Config.checkAddr D.width (start + i / D.unit) false = .OK)
    (hf : memory.length < fuel) :
    ∃ recs, block D start size fuel offset memory = .ok recs ∧
      Visits D.unit start offset memory recs := by
  induction fuel generalizing offset memory with
  | zero => omega
  | succ fuel ih =>
    unfold block
    by_cases hlt : offset < size
    · rw [if_pos hlt]
      obtain ⟨h32, hok⟩ := ha offset hlt
      have haddr : (Buf.new (start + offset / D.unit)).address = start + offset / D.unit :=
        Nat.mod_eq_of_lt h32
      obtain ⟨g1, g2⟩ := hp (start + offset / D.unit)
      obtain ⟨r', k, h1, ⟨bs, b1, b2, b3, b4, b5, b6⟩, hk⟩ := run_begins g1 g2
        { insn := Buf.new (start + offset / D.unit), memory := memory, error := .OK }
        (fine_new _) hm (by simp [Buf.new])
      dsimp only at b1 b2 b4 b5 b6
      have hlen : (Buf.new (start + offset / D.unit)).length = 0 := rfl
      rw [hlen, Nat.zero_add] at b4
      rw [hlen, List.take_zero, List.nil_append] at b6
      have hd : decode D (Buf.new (start + offset / D.unit)) memory =
          some ({ r'.insn with error := r'.error }, r'.memory) := by
        unfold decode
        rw [haddr, hok]
        simp only [ne_eq, not_true_eq_false, if_false]
        rw [h1]
      rw [hd]
      dsimp only
      have hml := congrArg List.length b1
      rw [List.length_append] at hml
      have hbs : 1 ≤ bs.length := by omega
      have ho : (offset + r'.insn.length) % 4294967296 = offset + bs.length := by
        rw [b4]; exact Nat.mod_eq_of_lt (by omega)
      rw [ho]
      obtain ⟨recs, c1, c2⟩ := ih (offset + bs.length) r'.memory
        (fun x hx => hm x (by rw [b1]; exact List.mem_append_right _ hx)) (by omega) (by omega)
      rw [c1]
      refine ⟨_, rfl, ?_⟩
      rw [b6, b1]
      refine .cons (r := ⟨r'.insn.address, bs, r'.error⟩) ?_ ?_ c2
      · intro h; rw [show bs = [] from h] at hbs; simp at hbs
      · exact b5.trans haddr
    · rw [if_neg hlt]
      have : memory = [] := List.eq_nil_of_length_eq_zero (by omega)
      subst this
      exact ⟨[], rfl, .nil⟩

end Libasm.Dis
