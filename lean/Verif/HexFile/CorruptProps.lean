import Verif.HexFile.Corrupt
/-
Property theorems C07 and C08: corrupted hex file lines.
-/
namespace Libasm.HexFile
open Libasm.BinMemory Spec

/-- C07, full statement: if an S-record data line is accepted, the line in which exactly one of
the bytes the record consists of (length, address, data, checksum) has another value is not. -/
def SrecDetects (type : Char) (s s' : List Char) (bs bs' : List Nat) (i : Nat) : Prop :=
  hexBytes s = some bs → hexBytes s' = some bs' → DifferAt bs bs' i → i ≤ bs.headD 0 →
    ∀ m m', 0 ≤ (Moto.decode ('S' :: type :: s) m).1 →
      (Moto.decode ('S' :: type :: s') m').1 < 0

/-- The code violates C07 for the length byte: it does not check that the line ends after the
checksum, so a smaller length can take a data byte for the checksum. -/
theorem C07_violated_length : ¬ SrecDetects '1' "0600000000FAFF".toList "0500000000FAFF".toList
    [6, 0, 0, 0, 0, 250, 255] [5, 0, 0, 0, 0, 250, 255] 0 := by
  intro h
  have := h (by decide) (by decide)
    ⟨rfl, by decide, by decide, fun j hj => by
      cases j with
      | zero => exact absurd rfl hj
      | succ j => rfl⟩ (by decide) [] [] (by decide)
  revert this
  decide

/-- C07, proved part: every change of one address, data or checksum byte is detected. -/
theorem C07_srecord_corruption_partial (type : Char) (ht : type = '1' ∨ type = '2' ∨ type = '3')
    (s s' : List Char) (bs bs' : List Nat) (i : Nat) (hi : 1 ≤ i) :
    SrecDetects type s s' bs bs' i := by
  intro hs hs' hd hlen m m' hacc
  match bs, bs', hs, hs', hd, hlen with
  | [], _, _, _, hd, _ => exact absurd hd.2.1 (by simp)
  | b :: r, [], _, _, hd, _ => exact absurd hd.1 (by simp)
  | b :: r, b' :: r', hs, hs', hd, hlen =>
    have hb : b = b' := by
      have := hd.2.2.2 0 (by omega)
      simpa using this
    subst hb
    rw [Moto.decode_code ht hs] at hacc
    rw [Moto.decode_code ht hs']
    obtain ⟨i', rfl⟩ : ∃ i', i = i' + 1 := ⟨i - 1, by omega⟩
    have hd' : DifferAt r r' i' := by
      obtain ⟨h1, h2, h3, h4⟩ := hd
      refine ⟨by simpa using h1, by simpa using h2, by simpa using h3, fun j hj => ?_⟩
      have := h4 (j + 1) (by omega)
      simpa using this
    have hne := differ_take hd' (n := b) (by simp at hlen; omega) b
      (fun x hx => hexBytes_lt hs x (by simp [hx])) (fun x hx => hexBytes_lt hs' x (by simp [hx]))
    unfold srecCode at hacc ⊢
    rw [← hd'.1]
    split at hacc
    · exact absurd hacc (by decide)
    · split at hacc
      · exact absurd hacc (by decide)
      · split at hacc
        · exact absurd hacc (by decide)
        · split at hacc
          · exact absurd hacc (by decide)
          · split at hacc
            · rename_i h1 h2 h3 h4 h5
              rw [if_neg h1, if_neg h2, if_neg h3, if_neg h4, if_neg (by omega)]
              decide
            · exact absurd hacc (by decide)

example : (∀ m, 0 ≤ (Moto.decode ('S' :: '1' :: "0600100102E303".toList) m).1) ∧
    hexBytes "0600100102E303".toList = some [6, 0, 16, 1, 2, 0xE3, 3] ∧
    hexBytes "0600100102E302".toList = some [6, 0, 16, 1, 2, 0xE3, 2] ∧
    DifferAt [6, 0, 16, 1, 2, 0xE3, 3] [6, 0, 16, 1, 2, 0xE3, 2] 6 ∧ 6 ≤ [6, 0, 16].headD 0 := by
  refine ⟨fun m => ?_, by decide, by decide, ⟨rfl, by decide, by decide, fun j hj => ?_⟩, by decide⟩
  · rw [Moto.decode_code (Or.inl rfl) (len := 6) (rest := [0, 16, 1, 2, 0xE3, 3]) (by decide)]
    decide
  · match j, hj with
    | 0, _ | 1, _ | 2, _ | 3, _ | 4, _ | 5, _ => rfl
    | j + 7, _ => simp

/-- C08, full statement: the same for Intel HEX data (type 0) and extended address (type 4)
records. -/
def IhexDetects (s s' : List Char) (bs bs' : List Nat) (i : Nat) : Prop :=
  hexBytes s = some bs → hexBytes s' = some bs' → DifferAt bs bs' i →
    (bs.getD 3 0 = 0 ∨ bs.getD 3 0 = 4) →
    i < (if bs.getD 3 0 = 0 then bs.getD 0 0 + 5 else 7) →
    ∀ ela ela' m m', 0 ≤ (Intel.decode (':' :: s) ela m).1 →
      (Intel.decode (':' :: s') ela' m').1 < 0

/-- The code violates C08 for the length byte of a data record: trailing bytes are ignored. -/
theorem C08_violated_length : ¬ IhexDetects "0200000000FFFF".toList "0100000000FFFF".toList
    [2, 0, 0, 0, 0, 255, 255] [1, 0, 0, 0, 0, 255, 255] 0 := by
  intro h
  have := h (by decide) (by decide)
    ⟨rfl, by decide, by decide, fun j hj => by
      cases j with
      | zero => exact absurd rfl hj
      | succ j => rfl⟩ (by decide) (by decide) 0 0 [] [] (by decide)
  revert this
  decide

/-- The code violates C08 for the type byte: a record of an unknown type is skipped without
checking it, so the data is silently lost. -/
theorem C08_violated_type : ¬ IhexDetects "0100000001FE".toList "0100000101FE".toList
    [1, 0, 0, 0, 1, 254] [1, 0, 0, 1, 1, 254] 3 := by
  intro h
  have := h (by decide) (by decide)
    ⟨rfl, by decide, by decide, fun j hj => by
      match j, hj with
      | 0, _ | 1, _ | 2, _ => rfl
      | 3, hj => exact absurd rfl hj
      | j + 4, _ => rfl⟩ (by decide) (by decide) 0 0 [] [] (by decide)
  revert this
  decide

/-- C08, proved part: every change of one byte other than the type byte, and other than the
length byte of a data record, is detected. -/
theorem C08_ihex_corruption_partial (s s' : List Char) (bs bs' : List Nat) (i : Nat) (h3 : i ≠ 3)
    (h0 : i = 0 → bs.getD 3 0 = 4) : IhexDetects s s' bs bs' i := by
  intro hs hs' hd htype hlen ela ela' m m' hacc
  match bs, bs', hs, hs', hd, htype, hlen, h0 with
  | len :: ah :: al :: type :: r, len' :: ah' :: al' :: type' :: r', hs, hs', hd, htype, hlen, h0 =>
    rw [Intel.decode_code hs] at hacc
    rw [Intel.decode_code hs']
    have ht : type = type' := by
      have := hd.2.2.2 3 (fun h => h3 h.symm)
      simpa using this
    subst ht
    have hsumall : ∀ n, i < n + 4 → (len + ah + al + type + (r.take n).sum) % 256 ≠
        (len' + ah' + al' + type + (r'.take n).sum) % 256 := by
      intro n hn
      have := differ_take hd (n := n + 4) hn 0 (hexBytes_lt hs) (hexBytes_lt hs')
      simp only [List.take_succ_cons, List.sum_cons] at this
      omega
    have hrl : r.length = r'.length := by have := hd.1; simpa using this
    simp only [List.getD_cons_succ, List.getD_cons_zero] at htype hlen h0
    unfold ihexCode at hacc ⊢
    by_cases h4 : type = 4
    · rw [if_pos h4] at hacc ⊢
      rw [if_neg (by omega)] at hlen
      rw [← hrl]
      split at hacc
      · exact absurd hacc (by decide)
      · split at hacc
        · rename_i g1 g2
          have := hsumall 3 (by omega)
          rw [if_neg g1, if_neg (by omega)]
          decide
        · exact absurd hacc (by decide)
    · have ht0 : type = 0 := by omega
      have hi0 : i ≠ 0 := fun h => h4 (h0 h)
      have hl : len = len' := by
        have := hd.2.2.2 0 (fun h => hi0 h.symm)
        simpa using this
      subst hl
      rw [if_pos ht0] at hlen
      rw [if_neg h4, if_neg (by simpa using ht0)] at hacc ⊢
      rw [← hrl]
      split at hacc
      · exact absurd hacc (by decide)
      · split at hacc
        · rename_i g1 g2
          have := hsumall (len + 1) (by omega)
          rw [if_neg g1, if_neg (by omega)]
          decide
        · exact absurd hacc (by decide)
  | [], _, _, _, hd, _, _, _ => exact absurd hd.2.1 (by simp)
  | [a], bs', hs, _, _, _, _, _ =>
    obtain ⟨s1, a1, a2, _⟩ := hexBytes_cons hs
    have := parseUint16_short a2 (by simp)
    simp [Intel.decode, a1, this] at hacc
  | [a, b], bs', hs, _, _, _, _, _ =>
    obtain ⟨s1, a1, a2, _⟩ := hexBytes_cons hs
    have := parseUint16_short a2 (by simp)
    simp [Intel.decode, a1, this] at hacc
  | [a, b, c], bs', hs, _, _, _, _, _ =>
    obtain ⟨s1, a1, a2, _⟩ := hexBytes_cons hs
    obtain ⟨s2, b1, b2, _⟩ := parseUint16_bytes a2
    have := hexBytes_nil b2
    simp [Intel.decode, a1, b1, this] at hacc
  | a :: b :: c :: d :: r, [], _, _, hd, _, _, _ => exact absurd hd.1 (by simp)
  | a :: b :: c :: d :: r, [_], _, _, hd, _, _, _ => exact absurd hd.1 (by simp)
  | a :: b :: c :: d :: r, [_, _], _, _, hd, _, _, _ => exact absurd hd.1 (by simp)
  | a :: b :: c :: d :: r, [_, _, _], _, _, hd, _, _, _ => exact absurd hd.1 (by simp)

example : (∀ ela m, 0 ≤ (Intel.decode (':' :: "020000040001F9".toList) ela m).1) ∧
    DifferAt [2, 0, 0, 4, 0, 1, 0xF9] [2, 0, 0, 4, 0, 3, 0xF9] 5 := by
  refine ⟨fun ela m => ?_, ⟨rfl, by decide, by decide, fun j hj => ?_⟩⟩
  · rw [Intel.decode_code (len := 2) (ah := 0) (al := 0) (type := 4) (rest := [0, 1, 0xF9])
      (by decide)]
    decide
  · match j, hj with
    | 0, _ | 1, _ | 2, _ | 3, _ | 4, _ | 6, _ => rfl
    | j + 7, _ => simp

end Libasm.HexFile
