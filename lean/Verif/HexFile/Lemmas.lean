import Verif.HexFile.Model
import Verif.BinMemory.Range
/-
Helper lemmas for the hex file round trips.
-/
namespace Libasm.HexFile
open Libasm.Ctype Libasm.BinMemory Libasm.BinMemory.Spec

theorem hexDigit_ok : ∀ n, n < 16 → isXdigit (hexDigit n) = true ∧ parseHex (hexDigit n) = n := by
  decide

theorem parseByte_hex2 {n : Nat} (h : n < 256) (r : List Char) :
    parseByte (hex2 n ++ r) = some (n, r) := by
  have h1 := hexDigit_ok (n / 16 % 16) (by omega)
  have h2 := hexDigit_ok (n % 16) (by omega)
  simp only [hex2, List.cons_append, List.nil_append, parseByte, h1.1, h2.1, h1.2, h2.2,
    Bool.and_self, if_true]
  have : n / 16 % 16 * 16 + n % 16 = n := by omega
  rw [this]

theorem parseUint16_hex4 {n : Nat} (h : n < 65536) (r : List Char) :
    parseUint16 (hex4 n ++ r) = some (n, r) := by
  unfold parseUint16 hex4
  rw [List.append_assoc, parseByte_hex2 (by omega)]
  simp only
  rw [parseByte_hex2 (by omega)]
  simp only
  have : n / 256 % 256 * 256 + n % 256 = n := by omega
  rw [this]

theorem parseUint24_hex6 {n : Nat} (h : n < 16777216) (r : List Char) :
    parseUint24 (hex2 (n / 65536 % 256) ++ (hex4 (n % 65536) ++ r)) = some (n, r) := by
  unfold parseUint24
  rw [parseByte_hex2 (by omega)]
  simp only
  rw [parseUint16_hex4 (by omega)]
  simp only
  have : n / 65536 % 256 * 65536 + n % 65536 = n := by omega
  rw [this]

theorem parseUint32_hex8 {n : Nat} (h : n < 4294967296) (r : List Char) :
    parseUint32 (hex8 n ++ r) = some (n, r) := by
  unfold parseUint32 hex8
  rw [List.append_assoc, parseUint16_hex4 (by omega)]
  simp only
  rw [parseUint16_hex4 (by omega)]
  simp only
  have : n / 65536 % 65536 * 65536 + n % 65536 = n := by omega
  rw [this]

/-- Writing bytes one after the other. -/
def store (m : Blocks) (ws : List (Nat × UInt8)) : Blocks :=
  ws.foldl (fun m w => writeByte m w.1 w.2) m

theorem store_append (m : Blocks) (a b : List (Nat × UInt8)) :
    store m (a ++ b) = store (store m a) b := by simp [store]

theorem readData_ok (data : List UInt8) : ∀ (addr sum : Nat) (r : List Char) (m : Blocks),
    addr + data.length ≤ 2 ^ 32 →
    readData data.length addr sum (Moto.dataHex data ++ r) m =
      (store m (bytesFrom addr data),
        some (data.foldl (fun s d => addSum8 s d.toNat) sum, r)) := by
  induction data with
  | nil => intro addr sum r m _; rfl
  | cons d ds ih =>
    intro addr sum r m h
    simp only [List.length_cons] at h
    simp only [Moto.dataHex, List.flatMap_cons, List.append_assoc, List.length_cons, readData]
    rw [parseByte_hex2 (UInt8.toNat_lt d)]
    simp only [UInt8.ofNat_toNat]
    have ha : addr % 2 ^ 32 = addr := Nat.mod_eq_of_lt (by omega)
    rw [ha]
    have := ih (addr + 1) (addSum8 sum d.toNat) r (writeByte m addr d) (by omega)
    simp only [Moto.dataHex] at this
    rw [this]
    simp [store, bytesFrom]

theorem addressSize_cases (bits : Nat) :
    addressSize bits = 2 ∨ addressSize bits = 3 ∨ addressSize bits = 4 := by
  unfold addressSize
  split
  · exact Or.inl rfl
  · split
    · exact Or.inr (Or.inl rfl)
    · exact Or.inr (Or.inr rfl)

theorem addSum8_lt (s d : Nat) : addSum8 s d < 256 := Nat.mod_lt _ (by decide)

/-- One S-record line decodes to its own bytes. -/
theorem Moto.decode_encode {bits addr : Nat} {data : List UInt8} (m : Blocks)
    (ha : addr < 256 ^ addressSize bits) (hl : addressSize bits + data.length + 1 < 256)
    (h32 : addr + data.length ≤ 2 ^ 32) :
    Moto.decode (Moto.encode bits addr data) m =
      ((data.length : Int), store m (bytesFrom addr data)) := by
  unfold Moto.encode
  rw [Nat.mod_eq_of_lt hl]
  have hsum : ∀ s, Moto.getSum s < 256 := fun s => by unfold Moto.getSum; omega
  rcases addressSize_cases bits with hs | hs | hs <;> rw [hs] at ha hl ⊢
  · have ha' : addr < 65536 := by simpa using ha
    have e1 : addr % 65536 = addr := Nat.mod_eq_of_lt ha'
    simp only [e1, List.append_assoc, List.cons_append, List.nil_append]
    show Moto.decodeData '1' _ m = _
    unfold Moto.decodeData
    rw [parseByte_hex2 hl]
    simp only [Moto.parseAddress, if_true]
    rw [if_neg (by omega), parseUint16_hex4 ha']
    simp only
    rw [if_neg (by omega)]
    have hn : 2 + data.length + 1 - 2 - 1 = data.length := by omega
    rw [hn, readData_ok _ _ _ _ _ h32]
    unfold Moto.checkEnd
    have := parseByte_hex2 (hsum (data.foldl (fun s d => addSum8 s d.toNat)
      (addSum16 (addSum8 0 (2 + data.length + 1)) addr))) []
    rw [List.append_nil] at this
    simp only [this]
    simp
  · have ha' : addr < 16777216 := by simpa using ha
    simp only [List.append_assoc, List.cons_append, List.nil_append]
    show Moto.decodeData '2' _ m = _
    unfold Moto.decodeData
    rw [parseByte_hex2 hl]
    simp only [Moto.parseAddress, show ('2' = '1') = False by simp, if_true, if_false]
    rw [if_neg (by omega), parseUint24_hex6 ha']
    simp only
    rw [if_neg (by omega)]
    have hn : 3 + data.length + 1 - 3 - 1 = data.length := by omega
    rw [hn, readData_ok _ _ _ _ _ h32]
    unfold Moto.checkEnd
    have := parseByte_hex2 (hsum (data.foldl (fun s d => addSum8 s d.toNat)
      (addSum24 (addSum8 0 (3 + data.length + 1)) addr))) []
    rw [List.append_nil] at this
    simp only [this]
    simp
  · have ha' : addr < 4294967296 := by simpa using ha
    simp only [List.append_assoc, List.cons_append, List.nil_append]
    show Moto.decodeData '3' _ m = _
    unfold Moto.decodeData
    rw [parseByte_hex2 hl]
    simp only [Moto.parseAddress, show ('3' = '1') = False by simp, show ('3' = '2') = False by simp,
      if_false]
    rw [if_neg (by omega), parseUint32_hex8 ha']
    simp only
    rw [if_neg (by omega)]
    have hn : 4 + data.length + 1 - 4 - 1 = data.length := by omega
    rw [hn, readData_ok _ _ _ _ _ h32]
    unfold Moto.checkEnd
    have := parseByte_hex2 (hsum (data.foldl (fun s d => addSum8 s d.toNat)
      (addSum32 (addSum8 0 (4 + data.length + 1)) addr))) []
    rw [List.append_nil] at this
    simp only [this]
    simp

/-! ### Record splitting -/

def recBytes (rs : List (Nat × List UInt8)) : List (Nat × UInt8) :=
  rs.flatMap (fun r => bytesFrom r.1 r.2)

theorem bytesFrom_append (base : Nat) (a b : List UInt8) :
    bytesFrom base (a ++ b) = bytesFrom base a ++ bytesFrom (base + a.length) b := by
  induction a generalizing base with
  | nil => simp [bytesFrom]
  | cons x r ih =>
    simp only [List.cons_append, bytesFrom, ih, List.length_cons]
    rw [show base + 1 + r.length = base + (r.length + 1) by omega]

/-- What one record of a block looks like. -/
def RecOf (rs : Nat) (base : Nat) (data : List UInt8) (r : Nat × List UInt8) : Prop :=
  ∃ k, k * rs < data.length ∧ r.1 = base + k * rs ∧ r.2 = (data.drop (k * rs)).take rs

theorem recordLoop_ok {rs : Nat} (hrs : 0 < rs) {e : Entry} (hs : e.size = e.data.length)
    (htop : e.base + e.data.length ≤ 2 ^ 32) :
    ∀ fuel k, e.data.length - k * rs ≤ fuel →
      ∃ recs, recordLoop rs e fuel (k * rs) = some recs ∧
        recBytes recs = bytesFrom (e.base + k * rs) (e.data.drop (k * rs)) ∧
        ∀ r ∈ recs, RecOf rs e.base e.data r := by
  intro fuel
  induction fuel with
  | zero =>
    intro k h
    refine ⟨[], ?_, ?_, by simp⟩
    · unfold recordLoop
      rw [if_neg (by omega)]
    · have : e.data.drop (k * rs) = [] := by simp; omega
      rw [this]; rfl
  | succ fuel ih =>
    intro k h
    unfold recordLoop
    by_cases hi : k * rs < e.size
    · have hk : (k + 1) * rs = k * rs + rs := by rw [Nat.add_mul]; omega
      obtain ⟨recs, h1, h2, h3⟩ := ih (k + 1) (by omega)
      rw [if_pos hi]
      simp only
      rw [show k * rs + rs = (k + 1) * rs by omega, h1]
      refine ⟨_, rfl, ?_, ?_⟩
      · have hmod : (e.base + k * rs) % 2 ^ 32 = e.base + k * rs := Nat.mod_eq_of_lt (by omega)
        have htake : (e.data.drop (k * rs)).take
            (if rs ≥ e.size - k * rs then e.size - k * rs else rs) =
            (e.data.drop (k * rs)).take rs := by
          split
          · rw [List.take_of_length_le (by simp; omega), List.take_of_length_le (by simp; omega)]
          · rfl
        have hcons : ∀ x, recBytes (x :: recs) = bytesFrom x.1 x.2 ++ recBytes recs := by
          intro x; simp [recBytes]
        rw [hcons, h2, hmod, htake]
        simp only
        have hsplit : e.data.drop (k * rs) = (e.data.drop (k * rs)).take rs ++
            e.data.drop ((k + 1) * rs) := by
          rw [hk, ← List.drop_drop, List.take_append_drop]
        conv => rhs; rw [hsplit]
        rw [bytesFrom_append]
        congr 1
        by_cases hle : rs ≤ e.data.length - k * rs
        · have : ((e.data.drop (k * rs)).take rs).length = rs := by simp; omega
          rw [this, hk]
          congr 1
          omega
        · have : e.data.drop ((k + 1) * rs) = [] := by simp; omega
          rw [this]; rfl
      · intro r hr
        rcases List.mem_cons.1 hr with rfl | hr
        · refine ⟨k, by omega, ?_, ?_⟩
          · exact Nat.mod_eq_of_lt (by omega)
          · simp only
            split
            · rw [List.take_of_length_le (by simp; omega), List.take_of_length_le (by simp; omega)]
            · rfl
        · exact h3 r hr
    · rw [if_neg hi]
      refine ⟨[], rfl, ?_, by simp⟩
      have : e.data.drop (k * rs) = [] := by simp; omega
      rw [this]; rfl

theorem recordsOf_ok {rs fuel : Nat} (hrs : 0 < rs) : ∀ (l : List Entry),
    (∀ e ∈ l, e.size = e.data.length ∧ e.base + e.data.length ≤ 2 ^ 32 ∧ e.data.length ≤ fuel) →
      ∃ recs, recordsOf rs fuel l = some recs ∧
        recBytes recs = image (l.map fun e => (e.base, e.data)) ∧
        ∀ r ∈ recs, ∃ e ∈ l, RecOf rs e.base e.data r := by
  intro l
  induction l with
  | nil => intro _; exact ⟨[], rfl, rfl, by simp⟩
  | cons e t ih =>
    intro h
    obtain ⟨b, hb1, hb2, hb3⟩ := ih (fun x hx => h x (by simp [hx]))
    obtain ⟨h1, h2, h3⟩ := h e (by simp)
    obtain ⟨a, ha1, ha2, ha3⟩ := recordLoop_ok hrs h1 h2 fuel 0 (by omega)
    simp only [Nat.zero_mul] at ha1 ha2
    refine ⟨a ++ b, ?_, ?_, ?_⟩
    · simp only [recordsOf, ha1, hb1]
    · have : recBytes (a ++ b) = recBytes a ++ recBytes b := by simp [recBytes]
      rw [this, ha2, hb2]
      simp [image]
    · intro r hr
      rcases List.mem_append.1 hr with hr | hr
      · exact ⟨e, by simp, ha3 r hr⟩
      · obtain ⟨f, hf, hrf⟩ := hb3 r hr
        exact ⟨f, by simp [hf], hrf⟩

/-! ### Storing an image -/

theorem lastWrite_none {ws : List (Nat × UInt8)} {a : Nat} (h : ∀ w ∈ ws, w.1 ≠ a) (r0) :
    ws.foldl (fun r w => if w.1 = a then some w.2 else r) r0 = r0 := by
  induction ws generalizing r0 with
  | nil => rfl
  | cons w t ih =>
    simp only [List.foldl_cons, h w (by simp), if_false]
    exact ih (fun x hx => h x (by simp [hx])) r0

theorem lastWrite_lt {ws : List (Nat × UInt8)} (h : Addr32 ws) {a : Nat}
    (ha : (lastWrite ws a).isSome) : a < 2 ^ 32 := by
  by_cases hw : ∃ w ∈ ws, w.1 = a
  · obtain ⟨w, hw, rfl⟩ := hw
    exact h w hw
  · unfold lastWrite at ha
    rw [lastWrite_none (fun w hw' he => hw ⟨w, hw', he⟩)] at ha
    simp at ha

theorem lastWrite_sorted {ws : List (Nat × UInt8)} (h : ws.Pairwise (fun p q => p.1 < q.1))
    (a : Nat) (v : UInt8) : lastWrite ws a = some v ↔ (a, v) ∈ ws := by
  unfold lastWrite
  induction ws with
  | nil => simp
  | cons w t ih =>
    have hp := List.pairwise_cons.1 h
    simp only [List.foldl_cons, List.mem_cons]
    by_cases hw : w.1 = a
    · rw [if_pos hw, lastWrite_none (fun x hx => by have := hp.1 x hx; omega)]
      constructor
      · intro h1
        left
        simp only [Option.some.injEq] at h1
        rw [← hw, ← h1]
      · rintro (h1 | h1)
        · rw [← h1]
        · have := hp.1 _ h1
          simp only at this
          omega
    · rw [if_neg hw, ih hp.2]
      constructor
      · exact Or.inr
      · rintro (h1 | h1)
        · rw [← h1] at hw; exact absurd rfl hw
        · exact h1

/-- Storing the bytes of a memory, in iteration order, rebuilds an equal memory. -/
theorem store_image {m : Blocks} (h : WF m) :
    equal (store [] (image (m.map fun e => (e.base, e.data)))) m = true := by
  have hs := image_sorted (WF.toWR h)
  have hA : Addr32 (image (m.map fun e => (e.base, e.data))) := by
    intro w hw
    simp only [image, List.mem_flatMap, List.mem_map] at hw
    obtain ⟨b, ⟨e, he, rfl⟩, hw⟩ := hw
    have h1 := mem_bytesFrom_lt hw
    have h2 := (ch_ok h e he).top
    simp only [Entry.stop] at *
    omega
  obtain ⟨h1, h2⟩ := writes_ok hA
  have := canonical h1 h (fun a => by
    rw [h2]
    cases hc : contents m a with
    | some v => rw [lastWrite_sorted hs, mem_image_iff (WF.toWR h)]; exact hc
    | none =>
      cases hl : lastWrite (image (m.map fun e => (e.base, e.data))) a with
      | none => rfl
      | some v =>
        rw [lastWrite_sorted hs, mem_image_iff (WF.toWR h), hc] at hl
        simp at hl)
  show equal (writes _) m = true
  simp [equal, this]

end Libasm.HexFile
