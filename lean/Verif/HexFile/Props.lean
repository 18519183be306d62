import Verif.HexFile.Text
import Verif.HexFile.Spec
/-
Property theorems C05, C06, C09 about the hex file encoders and decoders.
-/
namespace Libasm.HexFile
open Libasm.BinMemory Libasm.BinMemory.Spec Spec

/-- C09. For every image (short of a completely full 4 GiB) and every record size of at least
one, the encoder loop ends; the records, in the order they are written, spell every byte of the
image exactly once at its own address, in ascending order; and no record is empty or longer than
the record size. -/
theorem C09_records_exact (ws : List (Nat × UInt8)) (h : Addr32 ws) (hfree : NotFull ws)
    (rs : Nat) (hrs : 1 ≤ rs) (fuel : Nat) (hf : 2 ^ 32 ≤ fuel) :
    ∃ recs, records rs fuel (writes ws) = some recs ∧
      (∀ a v, (a, v) ∈ image recs ↔ lastWrite ws a = some v) ∧
      (image recs).Pairwise (fun p q => p.1 < q.1) ∧
      ∀ r ∈ recs, 1 ≤ r.2.length ∧ r.2.length ≤ rs := by
  obtain ⟨h1, h2⟩ := writes_ok h
  obtain ⟨recs, e1, e2, e3⟩ := records_ok h hfree hrs hf
  have e2' : image recs = image ((writes ws).map fun e => (e.base, e.data)) := e2
  refine ⟨recs, e1, ?_, ?_, ?_⟩
  · intro a v
    rw [e2', mem_image_iff (WF.toWR h1), h2]
  · rw [e2']; exact image_sorted (WF.toWR h1)
  · intro r hr
    obtain ⟨e, _, hre⟩ := e3 r hr
    obtain ⟨_, _, h3, h4⟩ := hre.facts hrs
    exact ⟨h3, h4⟩

/-- C09, the other direction: with record size 0 the encoder loop never ends on a non-empty
image. -/
theorem C09_record_size_zero (ws : List (Nat × UInt8)) (h : Addr32 ws) (hfree : NotFull ws)
    (hne : ws ≠ []) (fuel : Nat) : records 0 fuel (writes ws) = none := by
  obtain ⟨h1, h2⟩ := writes_ok h
  have hb := blocks_ok h hfree
  have hloop : ∀ e : Entry, 0 < e.size → ∀ fuel, recordLoop 0 e fuel 0 = none := by
    intro e he fuel
    induction fuel with
    | zero => unfold recordLoop; rw [if_pos he]
    | succ n ih => unfold recordLoop; rw [if_pos he]; simp [ih]
  unfold records
  rw [walk_ok h1]
  simp only
  cases hw : writes ws with
  | nil =>
    rcases List.eq_nil_or_concat ws with h3 | ⟨l, x, h3⟩
    · exact absurd h3 hne
    · have h3' : ws = l ++ [x] := by simpa using h3
      have := h2 x.1
      rw [hw, h3', lastWrite_snoc] at this
      simp [contents] at this
  | cons e r =>
    have he : e ∈ writes ws := by rw [hw]; simp
    have hsz := (hb e he).1
    have hn := (ch_ok h1 e he).ne
    simp only [recordsOf, hloop e (by omega) fuel]

example : NotFull [(5, 1), (6, 2), (7, 3), (9, 4)] ∧
    records 2 9 (writes [(5, 1), (6, 2), (7, 3), (9, 4)]) =
      some [(5, [1, 2]), (7, [3]), (9, [4])] := ⟨⟨0, by decide⟩, by decide⟩

/-- C05. S-record round trip: for every image whose addresses fit the `bits` address bits of the
CPU, and every record size for which length, 2 to 4 address bytes and checksum fit the one-byte
length field, decoding the encoded text into an
empty memory succeeds, counts every byte, and gives an equal memory. -/
theorem C05_srecord_round_trip (ws : List (Nat × UInt8)) (h : Addr32 ws) (hfree : NotFull ws)
    (bits rs fuel : Nat) (hrs : 1 ≤ rs)
    (hrs2 : rs + (if bits ≤ 16 then 2 else if bits ≤ 24 then 3 else 4) + 1 ≤ 255)
    (hfit : ∀ a, (lastWrite ws a).isSome → a < 2 ^ bits)
    (hf : 2 ^ 32 ≤ fuel) :
    ∃ lines, Moto.encodeImage bits rs fuel (writes ws) = some lines ∧
      (decodeText lines []).1 = (image ((writes ws).map fun e => (e.base, e.data))).length ∧
      equal (decodeText lines []).2 (writes ws) = true := by
  obtain ⟨h1, h2⟩ := writes_ok h
  obtain ⟨recs, e1, e2, e3⟩ := records_ok h hfree hrs hf
  have hb := blocks_ok h hfree
  refine ⟨_, by simp only [Moto.encodeImage, e1, Option.map_some]; rfl, ?_⟩
  replace hrs2 : rs + addressSize bits + 1 ≤ 255 := hrs2
  have hcover : ∀ a, (lastWrite ws a).isSome → a < 256 ^ addressSize bits := by
    intro a ha
    have h32 : a < 2 ^ 32 := lastWrite_lt h ha
    have hb := hfit a ha
    unfold addressSize
    split
    · have := Nat.pow_le_pow_right (n := 2) (by decide) (show bits ≤ 16 by assumption)
      omega
    · split
      · have := Nat.pow_le_pow_right (n := 2) (by decide) (show bits ≤ 24 by assumption)
        omega
      · exact h32
  have hrec : ∀ r ∈ recs, r.1 < 256 ^ addressSize bits ∧ addressSize bits + r.2.length + 1 < 256 ∧
      r.1 + r.2.length ≤ 2 ^ 32 := by
    intro r hr
    obtain ⟨e, he, hre⟩ := e3 r hr
    obtain ⟨f1, f2, f3, f4⟩ := hre.facts hrs
    obtain ⟨_, g2, _, g4⟩ := hb e he
    exact ⟨hcover _ (g4 r.1 f1 (by omega)), by omega, by omega⟩
  have hdec := decodeMoto_records recs 0 [] hrec
  have hall : decodeText (Moto.beginLine :: recs.map (fun r => Moto.encode bits r.1 r.2) ++
      [Moto.endLine bits]) [] = (((total recs : Nat) : Int), store [] (recBytes recs)) := by
    rw [show ((total recs : Nat) : Int) = 0 + (total recs : Int) by omega, ← hdec]
    rfl
  rw [hall, total_eq, e2]
  exact ⟨rfl, store_image h1⟩

example : NotFull [(0xFFFE, 1), (0xFFFF, 2), (3, 3)] ∧
    (∀ a, (lastWrite [(0xFFFE, 1), (0xFFFF, 2), (3, 3)] a).isSome → a < 2 ^ 16) ∧
    Moto.encodeImage 16 1 4 (writes [(0xFFFE, 1), (0xFFFF, 2), (3, 3)]) =
      some ["S0030000FC".toList, "S104000303F5".toList, "S104FFFE01FD".toList,
        "S104FFFF02FB".toList, "S9030000FC".toList] := by
  refine ⟨⟨0, by decide⟩, ?_, by decide⟩
  intro a ha
  simp only [lastWrite, List.foldl_cons, List.foldl_nil] at ha
  show a < 65536
  split at ha
  · omega
  · split at ha
    · omega
    · split at ha
      · omega
      · simp at ha

/-- C06, full statement for one image, CPU address width and record size. -/
def IntelRoundTrip (ws : List (Nat × UInt8)) (bits rs fuel : Nat) : Prop :=
  ∃ lines, Intel.encodeImage bits rs fuel (writes ws) = some lines ∧
    (decodeText lines []).1 = (image ((writes ws).map fun e => (e.base, e.data))).length ∧
    equal (decodeText lines []).2 (writes ws) = true

/-- The code violates C06 when a record straddles a 64 KiB boundary: the part after the boundary
is written without a new extended address record, and reads back 64 KiB too low. -/
theorem C06_violated_straddle : ¬ IntelRoundTrip [(0x1FFFF, 1), (0x20000, 2)] 24 16 2 := by
  rintro ⟨lines, h1, _, h3⟩
  have : Intel.encodeImage 24 16 2 (writes [(0x1FFFF, 1), (0x20000, 2)]) =
      some [":020000040001F9".toList, ":01FFFF000100".toList, ":0100000002FD".toList,
        ":00000001FF".toList] := by decide
  rw [this, Option.some.injEq] at h1
  subst h1
  revert h3
  decide

/-- The code violates C06 when the checksum of an extended address record is below 16: it is
printed with a leading blank, which the decoder rejects. -/
theorem C06_violated_checksum : ¬ IntelRoundTrip [(0xEB0000, 1)] 24 16 2 := by
  rintro ⟨lines, h1, h2, _⟩
  have : Intel.encodeImage 24 16 2 (writes [(0xEB0000, 1)]) =
      some [":0200000400EB F".toList, ":0100000001FE".toList, ":00000001FF".toList] := by decide
  rw [this, Option.some.injEq] at h1
  subst h1
  revert h2
  decide

/-- C06, proved part: the Intel HEX round trip holds for every image and record size except in
the two situations shown above, that is, provided
* every 64 KiB boundary inside a run of written bytes is a record boundary, and
* (for CPUs with more than 16 address bits) the checksum of each extended address record is at
  least 16, and (for the others) addresses are below 2^16. -/
theorem C06_intel_hex_round_trip_partial (ws : List (Nat × UInt8)) (h : Addr32 ws)
    (hfree : NotFull ws) (bits rs fuel : Nat) (hrs : 1 ≤ rs) (hrs2 : rs ≤ 255)
    (hbound : ∀ s a, RunTo ws s a → a % 65536 = 0 → (a - s) % rs = 0)
    (hnarrow : bits ≤ 16 → ∀ a, (lastWrite ws a).isSome → a < 65536)
    (hsum : 16 < bits → ∀ a, (lastWrite ws a).isSome →
      16 ≤ (256 - (6 + a / 16777216 + a / 65536 % 256) % 256) % 256)
    (hf : 2 ^ 32 ≤ fuel) :
    IntelRoundTrip ws bits rs fuel := by
  obtain ⟨h1, h2⟩ := writes_ok h
  obtain ⟨recs, e1, e2, e3⟩ := records_ok h hfree hrs hf
  have hb := blocks_ok h hfree
  refine ⟨_, by simp only [Intel.encodeImage, e1, Option.map_some]; rfl, ?_⟩
  have hbits : addressSize bits ≤ 2 ↔ bits ≤ 16 := by
    unfold addressSize
    split
    · simp_all
    · split <;> simp_all
  have hstart : ∀ e ∈ writes ws, e.base = 0 ∨ lastWrite ws (e.base - 1) = none := by
    intro e he
    obtain ⟨pre, post, hm⟩ := List.append_of_mem he
    by_cases h0 : e.base = 0
    · exact Or.inl h0
    · right
      rw [← h2, hm]
      have hch : Ch (pre ++ e :: post) none := by rw [← hm]; exact h1
      obtain ⟨hc1, hc2⟩ := (ch_append pre (e :: post) none).1 hch
      have hl := ch_lt (b := e.key) hc1
      have hk := hc2.1.key_eq
      apply contents_none
      intro f hf
      rcases List.mem_append.1 hf with hf | hf
      · have := hl f hf; right; omega
      · left
        rcases List.mem_cons.1 hf with rfl | hf
        · omega
        · have := ch_gt hc2 f hf
          simp only [Entry.stop] at this
          omega
  have hrec : ∀ r ∈ recs, 0 < r.2.length ∧ r.2.length < 256 ∧ r.1 + r.2.length ≤ 2 ^ 32 ∧
      r.1 / 65536 = (r.1 + r.2.length - 1) / 65536 ∧
      (if addressSize bits ≤ 2 then r.1 < 65536 else ElaPrintable r.1) := by
    intro r hr
    obtain ⟨e, he, hre⟩ := e3 r hr
    obtain ⟨f1, f2, f3, f4⟩ := hre.facts hrs
    obtain ⟨_, g2, _, g4⟩ := hb e he
    have hw := g4 r.1 f1 (by omega)
    refine ⟨f3, by omega, by omega, ?_, ?_⟩
    · obtain ⟨k, hk1, hk2, hk3⟩ := hre
      by_cases hseg : r.1 / 65536 = (r.1 + r.2.length - 1) / 65536
      · exact hseg
      · exfalso
        -- the boundary strictly inside the record
        have hB := hbound e.base ((r.1 / 65536 + 1) * 65536) ⟨by omega, fun x hx1 hx2 =>
          g4 x hx1 (by omega), hstart e he⟩ (by omega)
        have hlen : r.2.length ≤ rs := f4
        have hb1 : r.1 < (r.1 / 65536 + 1) * 65536 := by omega
        have hb2 : (r.1 / 65536 + 1) * 65536 < r.1 + r.2.length := by omega
        generalize (r.1 / 65536 + 1) * 65536 = b at *
        rw [hk2] at hb1 hb2
        obtain ⟨q, hq⟩ := Nat.dvd_of_mod_eq_zero hB
        have hb3 : b = e.base + rs * q := by omega
        have h5 : k * rs < rs * q := by omega
        have h6 : rs * q < k * rs + rs := by omega
        rw [Nat.mul_comm k rs] at h5 h6
        have h7 : k < q := Nat.lt_of_mul_lt_mul_left h5
        have h8 : rs * q < rs * (k + 1) := by rw [Nat.mul_add]; omega
        have h9 : q < k + 1 := Nat.lt_of_mul_lt_mul_left h8
        omega
    · split
      · rename_i hn; exact hnarrow (hbits.1 hn) _ hw
      · rename_i hn
        exact hsum (by have := mt hbits.2 hn; omega) _ hw
  obtain ⟨s, ls, hh⟩ := Intel.encodeAll_head (bits := bits) Intel.reset recs
  have hdec := decodeIntel_records (bits := bits) recs Intel.reset 0 0 [] hrec (by
    split
    · rfl
    · intro hc; exact absurd hc (by decide))
  have hall : decodeText (Intel.encodeAll bits Intel.reset recs) [] =
      (((total recs : Nat) : Int), store [] (recBytes recs)) := by
    rw [show ((total recs : Nat) : Int) = 0 + (total recs : Int) by omega, ← hdec, hh]
    rfl
  rw [hall, total_eq, e2]
  exact ⟨rfl, store_image h1⟩

/-- An image that crosses two 64 KiB boundaries and meets the hypotheses of
`C06_intel_hex_round_trip_partial`. -/
example : NotFull [(0x1FFFF, 1), (0x20000, 2), (0x50005, 7)] ∧
    (∀ s a, RunTo [(0x1FFFF, 1), (0x20000, 2), (0x50005, 7)] s a → a % 65536 = 0 →
      (a - s) % 1 = 0) ∧
    Intel.encodeImage 24 1 3 (writes [(0x1FFFF, 1), (0x20000, 2), (0x50005, 7)]) =
      some [":020000040001F9".toList, ":01FFFF000100".toList, ":020000040002F8".toList,
        ":0100000002FD".toList, ":020000040005F5".toList, ":0100050007F3".toList,
        ":00000001FF".toList] := by
  refine ⟨⟨0, by decide⟩, fun _ _ _ _ => Nat.mod_one _, by decide⟩

end Libasm.HexFile
