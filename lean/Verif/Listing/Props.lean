import Verif.Listing.Lemmas
import Verif.Listing.Values
/-
C34 (the listing shows every byte once) and C54 (the address column).
-/
namespace Libasm.Listing
open Number.Spec Spec

theorem Even.start {s : Style} {size : Nat}
    (h : s.width = .w8 ∨ (s.width = .w16 ∧ s.unit = 1) ∨ size % 2 = 0) : Even s size 0 := by
  rcases h with h | h | h
  · exact .inl h
  · exact .inr (.inl h)
  · by_cases h' : s.width = .w16 ∧ s.unit = 1
    · exact .inr (.inl h')
    · exact .inr (.inr ⟨h', h, rfl⟩)

/-- The address column of the code: the start address plus a number of bytes. -/
def column (start offset : Nat) : Nat := (start + offset) % 4294967296

theorem asmLines_spec (s : Style) (i : Item) (hv : i.value = none) (hby : ∀ x ∈ i.bytes, x < 256)
    (fuel next : Nat) (hf : i.bytes.length < fuel + next) (hle : next ≤ i.bytes.length)
    (h0 : next = 0 ∨ next < i.bytes.length) (he : Even s i.bytes.length next) :
    ∃ lines, asmLines s i fuel next = some lines ∧
      Lists s (column i.start) next (i.bytes.drop next) lines := by
  induction fuel generalizing next with
  | zero => omega
  | succ fuel ih =>
    obtain ⟨cells, h1, h2, h3, h4, h5⟩ := formatBytes_spec s i.start i.bytes hby next hle he
    have ha : Address s (column i.start next) (formatAddress s (i.start + next)) := by
      have := address_shows s (column i.start next) (Nat.mod_lt _ (by decide))
      unfold formatAddress at this ⊢
      unfold column at this ⊢
      rwa [Nat.mod_mod] at this
    have hline : ∃ number source, asmLine s i next =
        (.body number (formatAddress s (i.start + next)) (formatBytes s i.start i.bytes next).1 source,
          next + (formatBytes s i.start i.bytes next).2) := by
      unfold asmLine
      rw [hv]
      exact ⟨_, _, rfl⟩
    obtain ⟨number, source, hline⟩ := hline
    unfold asmLines
    rw [hline]
    dsimp only
    generalize (formatBytes s i.start i.bytes next).2 = n at h2 h3 h4 h5
    generalize (formatBytes s i.start i.bytes next).1 = col at h1
    by_cases hm : next + n < i.bytes.length
    · rw [if_pos hm]
      have hn := h4 (by omega)
      obtain ⟨lines, g1, g2⟩ := ih (next + n) (by omega) h3 (.inr hm) h5
      refine ⟨_, by rw [g1]; rfl, ?_⟩
      have hlen : (cells.flatMap Cell.bytes).length = n := by
        rw [h2, List.length_take, List.length_drop]; omega
      have hsplit : i.bytes.drop next = cells.flatMap Cell.bytes ++ i.bytes.drop (next + n) := by
        rw [h2, ← List.drop_drop, List.take_append_drop]
      rw [hsplit]
      refine .more ?_ ha h1 ?_
      · intro h; rw [h] at hlen; simp at hlen; omega
      · rw [hlen]; exact g2
    · rw [if_neg hm]
      refine ⟨_, rfl, ?_⟩
      have : i.bytes.drop next = cells.flatMap Cell.bytes := by
        rw [h2, List.take_of_length_le]
        rw [List.length_drop]; omega
      rw [this]
      exact .last ha h1

theorem disLines_spec (s : Style) (text : List Char) (start : Nat) (bytes : List Nat)
    (hby : ∀ x ∈ bytes, x < 256)
    (fuel next : Nat) (hf : bytes.length < fuel + next) (hle : next ≤ bytes.length)
    (h0 : next = 0 ∨ next < bytes.length) (he : Even s bytes.length next) :
    ∃ lines, disLines s text start bytes fuel next = some lines ∧
      Lists s (column start) next (bytes.drop next) lines := by
  induction fuel generalizing next with
  | zero => omega
  | succ fuel ih =>
    obtain ⟨cells, h1, h2, h3, h4, h5⟩ := formatBytes_spec s start bytes hby next hle he
    have ha : Address s (column start next) (formatAddress s (start + next)) := by
      have := address_shows s (column start next) (Nat.mod_lt _ (by decide))
      unfold formatAddress at this ⊢
      unfold column at this ⊢
      rwa [Nat.mod_mod] at this
    have hline : ∃ number source, disLine s text start bytes next =
        (.body number (formatAddress s (start + next)) (formatBytes s start bytes next).1 source,
          next + (formatBytes s start bytes next).2) := ⟨_, _, rfl⟩
    obtain ⟨number, source, hline⟩ := hline
    unfold disLines
    rw [hline]
    dsimp only
    generalize (formatBytes s start bytes next).2 = n at h2 h3 h4 h5
    generalize (formatBytes s start bytes next).1 = col at h1
    by_cases hm : next + n < bytes.length
    · rw [if_pos hm]
      have hn := h4 (by omega)
      obtain ⟨lines, g1, g2⟩ := ih (next + n) (by omega) h3 (.inr hm) h5
      refine ⟨_, by rw [g1]; rfl, ?_⟩
      have hlen : (cells.flatMap Cell.bytes).length = n := by
        rw [h2, List.length_take, List.length_drop]; omega
      have hsplit : bytes.drop next = cells.flatMap Cell.bytes ++ bytes.drop (next + n) := by
        rw [h2, ← List.drop_drop, List.take_append_drop]
      rw [hsplit]
      refine .more ?_ ha h1 ?_
      · intro h; rw [h] at hlen; simp at hlen; omega
      · rw [hlen]; exact g2
    · rw [if_neg hm]
      refine ⟨_, rfl, ?_⟩
      have : bytes.drop next = cells.flatMap Cell.bytes := by
        rw [h2, List.take_of_length_le]
        rw [List.length_drop]; omega
      rw [this]
      exact .last ha h1

/-! ### C34 -/

/-- C34, proved part, assembler listing: the lines of an instruction end, and the cells of their bytes
columns, from the first line to the last, hold the bytes of the instruction: each once, in order, every
cell with the numeral of its value.  After an error the first line is the error message.  For every
start address, radix, order of bytes and number of bytes; missing: an odd number of bytes of a CPU with
word addresses (see C34_violated). -/
theorem C34_asm_partial (s : Style) (i : Item) (hv : i.value = none) (hby : ∀ x ∈ i.bytes, x < 256)
    (he : s.width = .w8 ∨ (s.width = .w16 ∧ s.unit = 1) ∨ i.bytes.length % 2 = 0) :
    ∃ lines addressOf,
      asmListing s i (i.bytes.length + 1) = some (if i.hasError then .error :: lines else lines) ∧
      Lists s addressOf 0 i.bytes lines := by
  obtain ⟨lines, h1, h2⟩ := asmLines_spec s i hv hby (i.bytes.length + 1) 0 (by omega) (by omega)
    (.inl rfl) (.start he)
  exact ⟨lines, _, by rw [asmListing, h1]; rfl, h2⟩

/-- C34, proved part, disassembler listing: the same. -/
theorem C34_dis_partial (s : Style) (text : List Char) (start : Nat) (bytes : List Nat)
    (hby : ∀ x ∈ bytes, x < 256)
    (he : s.width = .w8 ∨ (s.width = .w16 ∧ s.unit = 1) ∨ bytes.length % 2 = 0) :
    ∃ lines addressOf, disLines s text start bytes (bytes.length + 1) 0 = some lines ∧
      Lists s addressOf 0 bytes lines := by
  obtain ⟨lines, h1, h2⟩ := disLines_spec s text start bytes hby (bytes.length + 1) 0 (by omega)
    (by omega) (.inl rfl) (.start he)
  exact ⟨lines, _, h1, h2⟩

/-- A line that defines a symbol is one line with the value. -/
theorem C34_value (s : Style) (i : Item) (v : Nat) (hv : i.value = some v) (hb : i.bytes = []) :
    ∃ number address t source, Shows s.base t.length (v % 2 ^ 32) t ∧
      asmListing s i 1 = some ((if i.hasError then [.error] else []) ++
        [.body number address ([' ', '='] ++ t) source]) := by
  have hm : v % 2 ^ 32 < 2 ^ 32 := Nat.mod_lt _ (by decide)
  have hn := number_shows s (v % 2 ^ 32) (calcBits (v % 2 ^ 32)) hm (calcBits_pos _)
  have hf : formatValue s (v % 4294967296) 0 0 false =
      if s.hex then Number.fmtHex s.upper (v % 2 ^ 32) (calcBits (v % 2 ^ 32))
      else Number.fmtOct false (v % 2 ^ 32) (calcBits (v % 2 ^ 32)) := by
    simp only [formatValue, if_true, show ¬ ((0 : Int) > 0) by omega, if_false, List.nil_append]
  have hline : ∃ number address source, asmLine s i 0 =
      (.body number address ([' ', '='] ++ formatValue s (v % 4294967296) 0 0 false) source, 0) := by
    unfold asmLine
    rw [hv]
    exact ⟨_, _, _, rfl⟩
  obtain ⟨number, address, source, hline⟩ := hline
  refine ⟨number, address, formatValue s (v % 4294967296) 0 0 false, source, ?_, ?_⟩
  · rw [hf]
    exact ⟨hn.1, hn.2.1, Nat.le_refl _, fun _ => rfl⟩
  · simp only [asmListing, asmLines, hline, hb, List.length_nil, Nat.not_lt_zero, if_false,
      Option.map_some]
    cases i.hasError <;> rfl

/-- What the listing of an assembly is given for an entry of the log. -/
def item (e : Driver.Entry) (nest lineno : Nat) (lineNumber : Bool) : Item :=
  ⟨e.line, if e.value.isUndefined then none else some e.value.getUnsigned, e.address, e.bytes,
    decide (e.error ≠ .OK), nest, lineno, lineNumber⟩

/-- C34 in the assembly: the listing of every line of every pass ends, with the value of the symbol it
defines or else with its bytes, each once. -/
theorem C34_pass_partial {σ δ : Type} (C : Driver.Cpu σ δ) (files : Driver.Files)
    (cmd : Driver.Command σ) (report : Bool) (fuel : Nat) (p q : Driver.Pass σ)
    (h : Driver.pass C files cmd report fuel p = .ok (some q)) (e : Driver.Entry) (hq : e ∈ q.log)
    (s : Style) (nest lineno : Nat) (lineNumber : Bool) (hby : ∀ x ∈ e.bytes, x < 256)
    (he : s.width = .w8 ∨ (s.width = .w16 ∧ s.unit = 1) ∨ e.bytes.length % 2 = 0) :
    ∃ lines, asmListing s (item e nest lineno lineNumber) (e.bytes.length + 1) =
        some (if e.error ≠ .OK then .error :: lines else lines) ∧
      ((∃ addressOf, Lists s addressOf 0 e.bytes lines) ∨
        e.bytes = [] ∧ ∃ number address t source,
          Shows s.base t.length (e.value.bits % 2 ^ 32) t ∧
          lines = [.body number address ([' ', '='] ++ t) source]) := by
  by_cases hu : e.value.isUndefined = true
  · obtain ⟨lines, addressOf, h1, h2⟩ := C34_asm_partial s (item e nest lineno lineNumber)
      (by simp [item, hu]) hby he
    refine ⟨lines, ?_, .inl ⟨addressOf, h2⟩⟩
    rw [show e.bytes = (item e nest lineno lineNumber).bytes from rfl, h1]
    by_cases hr : e.error = .OK <;> simp [item, hr]
  · have hb : e.bytes = [] := by
      rcases Driver.pass_value h e hq with g | g
      · rw [g] at hu; exact absurd rfl hu
      · exact g
    obtain ⟨number, address, t, source, h1, h2⟩ := C34_value s (item e nest lineno lineNumber)
      e.value.getUnsigned (by simp [item, hu]) hb
    refine ⟨[.body number address ([' ', '='] ++ t) source], ?_,
      .inr ⟨hb, number, address, t, source, ?_, rfl⟩⟩
    · rw [hb]
      show asmListing s (item e nest lineno lineNumber) 1 = _
      rw [h2]
      by_cases hr : e.error = .OK <;> simp [item, hr]
    · have : e.value.getUnsigned % 2 ^ 32 = e.value.bits % 2 ^ 32 := by
        unfold Value.getUnsigned
        exact Nat.mod_mod _ _
      rwa [this] at h1

/-- Hypotheses of C34 are met: nine bytes at an odd address of a CPU with 16 bit codes.  The columns
are those of the listing of ` dc.b 1,2,3,4,5,6,7,8,9` at 1 (MC68000). -/
example : asmLines ⟨1, .w16, true, true, true⟩
      ⟨" dc.b 1,2,3,4,5,6,7,8,9".toList, none, 1, [1, 2, 3, 4, 5, 6, 7, 8, 9], false, 0, 1, false⟩
      10 0 =
    some [.body "   ".toList "       1 :".toList "   01 0203 0405 0607".toList
        "     dc.b 1,2,3,4,5,6,7,8,9".toList,
      .body "   ".toList "       8 :".toList " 0809".toList []] := by decide +kernel

example : asmLines ⟨1, .w16, false, false, true⟩
      ⟨[], none, 7, [0o12, 0o34, 0o56], true, 0, 1, false⟩ 10 0 =
    some [.body "   ".toList "       7 :".toList " 012    027034".toList []] := by decide +kernel

/-- C34 does not hold as stated: with word addresses a single byte is listed as a word, so a byte is
shown that was not generated.  The listing of one byte is that of two. -/
theorem C34_violated :
    disLines ⟨2, .w16, true, true, true⟩ [] 0 [0x12] 9 0 =
        some [.body [] "       0 :".toList " 1200".toList []] ∧
      disLines ⟨2, .w16, true, true, true⟩ [] 0 [0x12, 0x00] 9 0 =
        disLines ⟨2, .w16, true, true, true⟩ [] 0 [0x12] 9 0 := by
  decide +kernel

/-! ### C54: the address column -/

theorem lists_congr {s : Style} {f g : Nat → Nat} {offset : Nat} {bytes : List Nat} {lines : List Line}
    (h : Lists s f offset bytes lines)
    (hfg : ∀ o, offset ≤ o → o ≤ offset + bytes.length → f o = g o) : Lists s g offset bytes lines := by
  induction h with
  | last h1 h2 =>
    rw [hfg _ (Nat.le_refl _) (by omega)] at h1
    exact .last h1 h2
  | more h0 h1 h2 h3 ih =>
    rw [hfg _ (Nat.le_refl _) (by omega)] at h1
    refine .more h0 h1 h2 (ih fun o g1 g2 => ?_)
    refine hfg o (by omega) ?_
    rw [List.length_append]
    omega

/-- C54, proved part: every line of a listing shows the address of its first byte, if addresses are
those of bytes.  For every instruction that does not reach past the 32 bit addresses; missing: CPUs with
word addresses (see C54_violated). -/
theorem C54_address_partial (s : Style) (i : Item) (hv : i.value = none) (hu : s.unit = 1)
    (hby : ∀ x ∈ i.bytes, x < 256) (ha : i.start + i.bytes.length < 2 ^ 32)
    (he : s.width ≠ .w12) :
    ∃ lines,
      asmListing s i (i.bytes.length + 1) = some (if i.hasError then .error :: lines else lines) ∧
      Lists s (fun offset => i.start + offset / s.unit) 0 i.bytes lines := by
  have he' : s.width = .w8 ∨ (s.width = .w16 ∧ s.unit = 1) ∨ i.bytes.length % 2 = 0 := by
    cases hw : s.width
    · exact .inl rfl
    · exact absurd hw he
    · exact .inr (.inl ⟨rfl, hu⟩)
  obtain ⟨lines, h1, h2⟩ := asmLines_spec s i hv hby (i.bytes.length + 1) 0 (by omega) (by omega)
    (.inl rfl) (.start he')
  refine ⟨lines, by rw [asmListing, h1]; rfl, lists_congr h2 fun o _ ho => ?_⟩
  rw [hu, Nat.div_one]
  exact Nat.mod_eq_of_lt (by omega)

/-- C54, proved part, disassembler listing: the same. -/
theorem C54_dis_address_partial (s : Style) (text : List Char) (start : Nat) (bytes : List Nat)
    (hu : s.unit = 1) (hby : ∀ x ∈ bytes, x < 256) (ha : start + bytes.length < 2 ^ 32)
    (he : s.width ≠ .w12) :
    ∃ lines, disLines s text start bytes (bytes.length + 1) 0 = some lines ∧
      Lists s (fun offset => start + offset / s.unit) 0 bytes lines := by
  have he' : s.width = .w8 ∨ (s.width = .w16 ∧ s.unit = 1) ∨ bytes.length % 2 = 0 := by
    cases hw : s.width
    · exact .inl rfl
    · exact absurd hw he
    · exact .inr (.inl ⟨rfl, hu⟩)
  obtain ⟨lines, h1, h2⟩ := disLines_spec s text start bytes hby (bytes.length + 1) 0 (by omega)
    (by omega) (.inl rfl) (.start he')
  refine ⟨lines, h1, lists_congr h2 fun o _ ho => ?_⟩
  rw [hu, Nat.div_one]
  exact Nat.mod_eq_of_lt (by omega)

/-- C54 does not hold as stated: four words at 0x100 of a CPU with word addresses, as in
` .word 1,2,3,4`; the fourth is at 0x103, the listing says 0x106. -/
theorem C54_violated :
    (asmLines ⟨2, .w16, true, true, true⟩
        ⟨[], none, 0x100, [0, 1, 0, 2, 0, 3, 0, 4], false, 0, 1, false⟩ 9 0) =
      some [.body "   ".toList "     100 :".toList " 0001 0002 0003".toList [],
        .body "   ".toList "     106 :".toList " 0004".toList []] := by decide +kernel

end Libasm.Listing
