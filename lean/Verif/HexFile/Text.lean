import Verif.HexFile.Lemmas
/-
Whole-file lemmas for the hex file round trips.
-/
namespace Libasm.HexFile
open Libasm.Ctype Libasm.BinMemory Libasm.BinMemory.Spec

def total (rs : List (Nat × List UInt8)) : Nat := (rs.map (fun r => r.2.length)).sum

theorem decodeMoto_records {bits : Nat} : ∀ (recs : List (Nat × List UInt8)) (size : Int)
    (m : Blocks),
    (∀ r ∈ recs, r.1 < 256 ^ addressSize bits ∧ addressSize bits + r.2.length + 1 < 256 ∧
      r.1 + r.2.length ≤ 2 ^ 32) →
    decodeMoto (recs.map (fun r => Moto.encode bits r.1 r.2) ++ [Moto.endLine bits]) size m =
      (size + total recs, store m (recBytes recs)) := by
  intro recs
  induction recs with
  | nil =>
    intro size m _
    have : ∀ m, Moto.decode (Moto.endLine bits) m = (0, m) := by
      intro m
      unfold Moto.endLine
      rcases addressSize_cases bits with h | h | h <;> rw [h] <;> rfl
    simp only [List.map_nil, List.nil_append, decodeMoto, this]
    simp [total, recBytes, store]
  | cons r rs ih =>
    intro size m h
    obtain ⟨h1, h2, h3⟩ := h r (by simp)
    simp only [List.map_cons, List.cons_append, decodeMoto]
    rw [Moto.decode_encode m h1 h2 h3]
    simp only
    rw [if_neg (by omega), ih _ _ (fun x hx => h x (by simp [hx]))]
    have hb : recBytes (r :: rs) = bytesFrom r.1 r.2 ++ recBytes rs := by simp [recBytes]
    rw [hb, store_append]
    simp only [total, List.map_cons, List.sum_cons, Prod.mk.injEq, and_true]
    omega

/-- Fact about a reachable memory that is not completely full. -/
theorem blocks_ok {ws : List (Nat × UInt8)} (h : Addr32 ws)
    (hfree : ∃ a, a < 2 ^ 32 ∧ lastWrite ws a = none) :
    ∀ e ∈ writes ws, e.size = e.data.length ∧ e.base + e.data.length ≤ 2 ^ 32 ∧
      e.data.length ≤ 2 ^ 32 ∧
      ∀ a, e.base ≤ a → a < e.base + e.data.length → (lastWrite ws a).isSome := by
  obtain ⟨h1, h2⟩ := writes_ok h
  intro e he
  have htop := (ch_ok h1 e he).top
  simp only [Entry.stop] at htop
  have hin : ∀ a, e.base ≤ a → a < e.base + e.data.length → (lastWrite ws a).isSome := by
    intro a ha hb
    have hc : cell e a = e.data[a - e.base]? := by simp [cell, ha]
    have hlt : a - e.base < e.data.length := by omega
    have : (a, e.data[a - e.base]) ∈ image ((writes ws).map fun e => (e.base, e.data)) := by
      simp only [image, List.mem_flatMap, List.mem_map]
      refine ⟨(e.base, e.data), ⟨e, he, rfl⟩, ?_⟩
      rw [mem_bytesFrom]
      exact ⟨ha, by simp [hlt]⟩
    rw [mem_image_iff (WF.toWR h1), h2] at this
    simp [this]
  refine ⟨?_, htop, by omega, hin⟩
  obtain ⟨a, ha, hn⟩ := hfree
  unfold Entry.size
  apply Nat.mod_eq_of_lt
  by_cases hl : e.data.length < 2 ^ 32
  · exact hl
  · have := hin a (by omega) (by omega)
    rw [hn] at this
    simp at this

theorem records_ok {ws : List (Nat × UInt8)} (h : Addr32 ws)
    (hfree : ∃ a, a < 2 ^ 32 ∧ lastWrite ws a = none) {rs fuel : Nat} (hrs : 0 < rs)
    (hf : 2 ^ 32 ≤ fuel) :
    ∃ recs, records rs fuel (writes ws) = some recs ∧
      recBytes recs = image ((writes ws).map fun e => (e.base, e.data)) ∧
      ∀ r ∈ recs, ∃ e ∈ writes ws, RecOf rs e.base e.data r := by
  obtain ⟨h1, h2⟩ := writes_ok h
  have hb := blocks_ok h hfree
  obtain ⟨recs, e1, e2, e3⟩ := recordsOf_ok (fuel := fuel) hrs (writes ws) (fun e he => by
    obtain ⟨x, y, z, _⟩ := hb e he
    exact ⟨x, y, by omega⟩)
  exact ⟨recs, by simp only [records, walk_ok h1, e1], e2, e3⟩

theorem RecOf.facts {rs base : Nat} {data : List UInt8} {r : Nat × List UInt8} (hrs : 0 < rs)
    (h : RecOf rs base data r) : base ≤ r.1 ∧ r.1 + r.2.length ≤ base + data.length ∧
      0 < r.2.length ∧ r.2.length ≤ rs := by
  obtain ⟨k, h1, h2, h3⟩ := h
  rw [h2, h3]
  simp only [List.length_take, List.length_drop]
  omega

theorem total_eq {recs : List (Nat × List UInt8)} : total recs = (recBytes recs).length := by
  have : ∀ b (d : List UInt8), (bytesFrom b d).length = d.length := by
    intro b d
    induction d generalizing b with
    | nil => rfl
    | cons x r ih => simp [bytesFrom, ih]
  induction recs with
  | nil => rfl
  | cons r t ih => simp_all [total, recBytes]

/-! ### Intel HEX -/

theorem Intel.decode_encodeLine {addr ela : Nat} {data : List UInt8} (m : Blocks)
    (hl : data.length < 256) (h32 : ela + addr % 65536 + data.length ≤ 2 ^ 32) :
    Intel.decode (Intel.encodeLine addr data) ela m =
      ((data.length : Int), ela, store m (bytesFrom (ela + addr % 65536) data)) := by
  unfold Intel.encodeLine
  rw [Nat.mod_eq_of_lt hl]
  simp only [List.append_assoc, List.cons_append, List.nil_append]
  unfold Intel.decode
  simp only
  rw [parseByte_hex2 hl]
  simp only
  rw [parseUint16_hex4 (by omega)]
  simp only
  rw [parseByte_hex2 (by omega)]
  simp only [show ¬ ((0 : Nat) = 4) by decide, if_false, ne_eq, not_true_eq_false]
  rw [readData_ok _ _ _ _ _ h32]
  unfold Intel.checkEnd
  have hs : ∀ s, Intel.getSum s < 256 := fun s => by unfold Intel.getSum; omega
  have := parseByte_hex2 (hs (data.foldl (fun s d => addSum8 s d.toNat)
      (addSum8 (addSum16 (addSum8 0 data.length) (addr % 65536)) 0))) []
  rw [List.append_nil] at this
  simp only [this]
  have hz : ∀ s, addSum8 s (Intel.getSum s) = 0 := by
    intro s; unfold addSum8 Intel.getSum; omega
  simp [hz]

/-- The checksum of the extended address record is not padded with a blank. -/
def ElaPrintable (addr : Nat) : Prop :=
  16 ≤ (256 - (6 + addr / 16777216 + addr / 65536 % 256) % 256) % 256

theorem Intel.decode_ela {bits addr ela : Nat} (hb : ¬ addressSize bits ≤ 2) (ha : addr < 2 ^ 32)
    (hp : ElaPrintable addr) (m : Blocks) :
    ∃ l, Intel.formatEla bits addr = [l] ∧
      Intel.decode l ela m = (0, addr / 65536 * 65536, m) := by
  have hmod : addr / 65536 % 65536 = addr / 65536 := by omega
  refine ⟨_, by simp only [Intel.formatEla, if_neg hb, hmod]; rfl, ?_⟩
  have hsum : Intel.getSum (addSum16 (addSum8 (addSum16 (addSum8 0 2) 0) 4) (addr / 65536)) =
      (256 - (6 + addr / 16777216 + addr / 65536 % 256) % 256) % 256 := by
    unfold Intel.getSum addSum16 addSum8
    omega
  have hblank : hexBlank2 (Intel.getSum
      (addSum16 (addSum8 (addSum16 (addSum8 0 2) 0) 4) (addr / 65536))) =
      hex2 (Intel.getSum (addSum16 (addSum8 (addSum16 (addSum8 0 2) 0) 4) (addr / 65536))) := by
    unfold hexBlank2
    rw [if_neg (by rw [hsum]; unfold ElaPrintable at hp; omega)]
  rw [hblank]
  simp only [List.append_assoc, List.cons_append, List.nil_append]
  unfold Intel.decode
  simp only
  rw [parseByte_hex2 (by omega)]
  simp only
  rw [parseUint16_hex4 (by omega)]
  simp only
  rw [parseByte_hex2 (by omega)]
  simp only [if_true]
  unfold Intel.decodeEla
  rw [parseUint16_hex4 (by omega)]
  simp only
  have hs : ∀ s, Intel.getSum s < 256 := fun s => by unfold Intel.getSum; omega
  have := parseByte_hex2 (hs (addSum16 (addSum8 (addSum16 (addSum8 0 2) 0) 4) (addr / 65536))) []
  rw [List.append_nil] at this
  rw [this]
  have hz : ∀ s, addSum8 s (Intel.getSum s) = 0 := by
    intro s; unfold addSum8 Intel.getSum; omega
  simp [hz]

theorem Intel.encode_inside {bits addr : Nat} {st : Intel.St} {data : List UInt8}
    (h0 : 0 < data.length) (hl : data.length < 256) (h32 : addr + data.length ≤ 2 ^ 32)
    (hseg : addr / 65536 = (addr + data.length - 1) / 65536) :
    Intel.encode bits st addr data =
      ((if addr ≠ st.next ∨ addr / 65536 ≠ st.last / 65536 then Intel.formatEla bits addr else [])
        ++ [Intel.encodeLine addr data], ⟨addr, (addr + data.length) % 2 ^ 32⟩) := by
  unfold Intel.encode
  simp only
  split
  · rename_i hne
    -- the record ends exactly on a 64K boundary
    have hend : addr / 65536 * 65536 + 65536 = addr + data.length := by omega
    have hchunk : ((addr + data.length) % 2 ^ 32 / 65536 * 65536 + 2 ^ 32 - addr) % 256 =
        data.length := by
      by_cases hw : addr + data.length = 2 ^ 32
      · rw [hw]; omega
      · have e : (addr + data.length) % 2 ^ 32 = addr + data.length := Nat.mod_eq_of_lt (by omega)
        rw [e]; omega
    rw [hchunk]
    simp
  · rfl

theorem decodeIntel_records {bits : Nat} : ∀ (recs : List (Nat × List UInt8)) (st : Intel.St)
    (ela : Nat) (size : Int) (m : Blocks),
    (∀ r ∈ recs, 0 < r.2.length ∧ r.2.length < 256 ∧ r.1 + r.2.length ≤ 2 ^ 32 ∧
      r.1 / 65536 = (r.1 + r.2.length - 1) / 65536 ∧
      (if addressSize bits ≤ 2 then r.1 < 65536 else ElaPrintable r.1)) →
    (if addressSize bits ≤ 2 then ela = 0 else
      st.next / 65536 = st.last / 65536 → ela = st.last / 65536 * 65536) →
    decodeIntel (Intel.encodeAll bits st recs) ela size m =
      (size + total recs, store m (recBytes recs)) := by
  intro recs
  induction recs with
  | nil =>
    intro st ela size m _ _
    have : ∀ m, Intel.decode Intel.endLine ela m = (0, ela, m) := fun m => rfl
    simp only [Intel.encodeAll, decodeIntel, this]
    simp [total, recBytes, store]
  | cons r rs ih =>
    intro st ela size m h hst
    obtain ⟨h1, h2, h3, h4, h5⟩ := h r (by simp)
    have hrs := fun x hx => h x (List.mem_cons_of_mem r hx)
    have henc := Intel.encode_inside (bits := bits) (st := st) h1 h2 h3 h4
    have hb : recBytes (r :: rs) = bytesFrom r.1 r.2 ++ recBytes rs := by simp [recBytes]
    have htot : size + (total (r :: rs) : Int) = size + (r.2.length : Int) + (total rs : Int) := by
      simp only [total, List.map_cons, List.sum_cons]; omega
    rw [hb, store_append, htot]
    simp only [Intel.encodeAll]
    rw [henc]
    simp only [List.append_assoc, List.cons_append, List.nil_append]
    by_cases hbits : addressSize bits ≤ 2
    · rw [if_pos hbits] at hst h5
      have hela : (if r.1 ≠ st.next ∨ r.1 / 65536 ≠ st.last / 65536 then Intel.formatEla bits r.1
          else []) = [] := by
        split
        · simp [Intel.formatEla, hbits]
        · rfl
      rw [hela, List.nil_append]
      simp only [decodeIntel]
      have hm : r.1 % 65536 = r.1 := Nat.mod_eq_of_lt h5
      rw [Intel.decode_encodeLine m h2 (by omega)]
      simp only
      rw [if_neg (by omega), ih _ _ _ _ hrs (by rw [if_pos hbits]; exact hst)]
      rw [hst, hm, Nat.zero_add]
    · rw [if_neg hbits] at hst h5
      have hline : ∀ m, decodeIntel (Intel.encodeLine r.1 r.2 ::
          Intel.encodeAll bits ⟨r.1, (r.1 + r.2.length) % 2 ^ 32⟩ rs) (r.1 / 65536 * 65536) size m =
          (size + r.2.length + total rs, store (store m (bytesFrom r.1 r.2)) (recBytes rs)) := by
        intro m
        simp only [decodeIntel]
        have hm : r.1 / 65536 * 65536 + r.1 % 65536 = r.1 := by omega
        rw [Intel.decode_encodeLine m h2 (by omega)]
        simp only
        rw [if_neg (by omega), ih _ _ _ _ hrs ?_, hm]
        rw [if_neg hbits]
        intro _
        rfl
      by_cases hnew : r.1 ≠ st.next ∨ r.1 / 65536 ≠ st.last / 65536
      · rw [if_pos hnew]
        obtain ⟨l, hl1, hl2⟩ := Intel.decode_ela (ela := ela) hbits (by omega) h5 m
        rw [hl1]
        simp only [List.cons_append, List.nil_append, decodeIntel]
        rw [hl2]
        simp only [show ¬ ((0 : Int) < 0) by decide, if_false, Int.add_zero]
        have := hline m
        simp only [decodeIntel] at this
        exact this
      · rw [if_neg hnew, List.nil_append]
        have hn1 : r.1 = st.next := by
          by_cases hh : r.1 = st.next
          · exact hh
          · exact absurd (Or.inl hh) hnew
        have hn2 : r.1 / 65536 = st.last / 65536 := by
          by_cases hh : r.1 / 65536 = st.last / 65536
          · exact hh
          · exact absurd (Or.inr hh) hnew
        have : ela = r.1 / 65536 * 65536 := by
          rw [hn2]; exact hst (by rw [← hn1]; exact hn2)
        rw [this]
        exact hline m

theorem Intel.encodeAll_head {bits : Nat} (st : Intel.St) (recs : List (Nat × List UInt8)) :
    ∃ s ls, Intel.encodeAll bits st recs = (':' :: s) :: ls := by
  cases recs with
  | nil => exact ⟨_, _, rfl⟩
  | cons r rs =>
    simp only [Intel.encodeAll, Intel.encode]
    split
    · split
      · split
        · unfold Intel.formatEla
          split
          · exact ⟨_, _, rfl⟩
          · exact ⟨_, _, rfl⟩
        · exact ⟨_, _, rfl⟩
      · split
        · unfold Intel.formatEla
          split
          · exact ⟨_, _, rfl⟩
          · exact ⟨_, _, rfl⟩
        · exact ⟨_, _, rfl⟩
    · split
      · unfold Intel.formatEla
        split
        · exact ⟨_, _, rfl⟩
        · exact ⟨_, _, rfl⟩
      · exact ⟨_, _, rfl⟩

end Libasm.HexFile
