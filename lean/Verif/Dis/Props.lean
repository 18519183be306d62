import Verif.BinMemory.Props
import Verif.Dis.Lemmas
/-
C35: disassembling covers the image.
-/
namespace Libasm.Dis
open Insn (Buf Reader Form)
open BinMemory (writes walk)
open BinMemory.Spec (lastWrite Addr32 image bytesFrom)
open Eval (Out)
open Spec

theorem mem_bytesFrom (base : Nat) (data : List UInt8) (i : Nat) (h : i < data.length) :
    (base + i, data[i]) ∈ bytesFrom base data := by
  induction data generalizing base i with
  | nil => simp at h
  | cons x xs ih =>
    cases i with
    | zero => simp [bytesFrom]
    | succ i =>
      have := ih (base + 1) i (by simpa using h)
      rw [bytesFrom]
      refine List.mem_cons_of_mem _ ?_
      rw [show base + (i + 1) = base + 1 + i by omega]
      simpa using this

theorem blocks_visit (D : Cpu) (hu : D.unit ≠ 0) (hp : ∀ a, Plain 64 (D.prog a) ∧ Begins (D.prog a))
    (hw : D.width ≤ 32) (fuel : Nat) (es : List BinMemory.Entry)
    (hes : ∀ e ∈ es, e.data.length < 2 ^ 32 ∧ e.data.length < fuel ∧
      ∀ i, i < e.data.length → (e.base + i) / D.unit < 2 ^ D.width) :
    ∃ recs, blocks D fuel es = .ok recs ∧ VisitsAll D.unit (es.map fun e => (e.base, e.data)) recs := by
  induction es with
  | nil => exact ⟨[], rfl, .nil⟩
  | cons e es ih =>
    obtain ⟨h1, h2, h3⟩ := hes e (by simp)
    obtain ⟨rest, g1, g2⟩ := ih fun x hx => hes x (List.mem_cons_of_mem _ hx)
    have hsize : e.size = e.data.length := Nat.mod_eq_of_lt h1
    obtain ⟨recs, k1, k2⟩ := block_visits D (e.base / D.unit) e.size fuel 0 (e.data.map UInt8.toNat) hp
      (by
        intro x hx
        obtain ⟨y, _, rfl⟩ := List.mem_map.1 hx
        exact y.toNat_lt)
      (by rw [List.length_map, hsize]; omega) (by omega)
      (by
        intro i hi
        have hle : e.base / D.unit + i / D.unit ≤ (e.base + i) / D.unit := by
          rw [Nat.le_div_iff_mul_le (Nat.pos_of_ne_zero hu), Nat.add_mul]
          exact Nat.add_le_add (Nat.div_mul_le_self _ _) (Nat.div_mul_le_self _ _)
        have hlt : e.base / D.unit + i / D.unit < 2 ^ D.width :=
          Nat.lt_of_le_of_lt hle (h3 i (by omega))
        exact ⟨Nat.lt_of_lt_of_le hlt (Nat.pow_le_pow_right (by decide) hw),
          Config.checkAddr_ok hw hlt⟩)
      (by rw [List.length_map]; omega)
    refine ⟨recs :: rest, ?_, .cons k2 g2⟩
    unfold blocks
    rw [if_neg hu, k1, g1]
    rfl

/-- C35, proved part: disassembling an image ends, and the instructions printed are, block by block and
one after another, the bytes of the image, each once and in order; none is empty, and each has the
address of its first byte.  For every history of writes and for every decoder that does nothing to the
instruction but read it, at least once and at most 64 bytes.  The image may use the addresses of the
CPU; missing: images that reach past them, or that fill all 32 bit addresses, and decoders that shorten
an instruction (see C35_violated_address and C35_violated_wait). -/
theorem C35_covers_partial (D : Cpu) (ws : List (Nat × UInt8)) (h : Addr32 ws) (hu : D.unit ≠ 0)
    (hp : ∀ a, Plain 64 (D.prog a) ∧ Begins (D.prog a)) (hw : D.width ≤ 32)
    (ha : ∀ a v, lastWrite ws a = some v → a / D.unit < 2 ^ D.width)
    (hfree : ∃ a, a < 2 ^ 32 ∧ lastWrite ws a = none) :
    ∃ bs recs, (∀ a v, (a, v) ∈ image bs ↔ lastWrite ws a = some v) ∧
      disassemble D (2 ^ 32) (writes ws) = .ok recs ∧ VisitsAll D.unit bs recs := by
  obtain ⟨es, h1, h2, h3, h4⟩ := BinMemory.C03_iteration_exact ws h
  have hin : ∀ e ∈ es, ∀ i (hi : i < e.data.length), lastWrite ws (e.base + i) = some e.data[i] := by
    intro e he i hi
    refine (h2 _ _).1 ?_
    unfold image
    refine List.mem_flatMap.2 ⟨(e.base, e.data), List.mem_map.2 ⟨e, he, rfl⟩, ?_⟩
    exact mem_bytesFrom e.base e.data i hi
  have h32 : ∀ a v, lastWrite ws a = some v → a < 2 ^ 32 := by
    intro a v hav
    have : ∀ (l : List (Nat × UInt8)) r, (∀ w ∈ l, w.1 < 2 ^ 32) →
        l.foldl (fun r w => if w.1 = a then some w.2 else r) r = some v →
        r = some v ∨ a < 2 ^ 32 := by
      intro l
      induction l with
      | nil => intro r _ hr; exact .inl hr
      | cons w l ih =>
        intro r hl hr
        rcases ih _ (fun x hx => hl x (List.mem_cons_of_mem _ hx)) hr with g | g
        · dsimp only at g
          split at g
          · rename_i hwa
            exact .inr (hwa ▸ hl w (by simp))
          · exact .inl g
        · exact .inr g
    rcases this ws none h hav with g | g
    · cases g
    · exact g
  have hlen : ∀ e ∈ es, e.data.length < 2 ^ 32 := by
    intro e he
    obtain ⟨b, hb1, hb2⟩ := hfree
    refine Nat.lt_of_not_le fun hge => ?_
    have hlast := h32 _ _ (hin e he (e.data.length - 1) (by omega))
    have hb : b < e.data.length := by omega
    have hbase : e.base = 0 := by omega
    have := hin e he b hb
    rw [hbase, Nat.zero_add, hb2] at this
    cases this
  obtain ⟨recs, g1, g2⟩ := blocks_visit D hu hp hw (2 ^ 32) es fun e he =>
    ⟨hlen e he, hlen e he, fun i hi => ha _ _ (hin e he i hi)⟩
  refine ⟨es.map fun e => (e.base, e.data), recs, h2, ?_, g2⟩
  unfold disassemble
  rw [h1]
  exact g1

/-- A disassembler with instructions of one byte, and of three bytes from 0xC0 on. -/
def sample : Cpu :=
  { width := 16, unit := 1
    prog := fun _ => .read .byte fun v _ => if v < 0xC0 then .done else .read .le16 fun _ _ => .done }

/-- Hypotheses of C35 are met. -/
example : ∀ a, Plain 64 (sample.prog a) ∧ Begins (sample.prog a) := by
  intro a
  refine ⟨.read (by decide) fun v e => ?_, trivial⟩
  split
  · exact .done
  · exact .read (by decide) fun _ _ => .done

example : disassemble sample 9 (writes [(0x100, 0x76), (0x101, 0xC3), (0x102, 0), (0x103, 1),
      (0x200, 0xC9)]) =
    .ok [[⟨0x100, [0x76], .OK⟩, ⟨0x101, [0xC3, 0, 1], .OK⟩], [⟨0x200, [0xC9], .NO_MEMORY⟩]] := by
  with_unfolding_all rfl

/-- C35 does not hold as stated: a block of the image at an address the CPU does not have is never
left, whatever the decoder.  (`decode` returns before reading, and the loop goes on at the same place.) -/
theorem C35_violated_address (D : Cpu) (hw : D.width ≤ 32) (start size fuel offset : Nat)
    (memory : List Nat) (ho : offset < size) (hs : size < 2 ^ 32)
    (ha : start + offset / D.unit < 2 ^ 32) (hover : 2 ^ D.width ≤ start + offset / D.unit) :
    block D start size fuel offset memory = .diverge := by
  induction fuel with
  | zero => rfl
  | succ fuel ih =>
    have haddr : (Buf.new (start + offset / D.unit)).address = start + offset / D.unit :=
      Nat.mod_eq_of_lt ha
    have hc := (Config.C22_checkAddr D.width (start + offset / D.unit) false hw ha).2.1.2 hover
    have hd : decode D (Buf.new (start + offset / D.unit)) memory =
        some ({ Buf.new (start + offset / D.unit) with error := .OVERFLOW_RANGE }, memory) := by
      unfold decode
      rw [haddr, hc]
      dsimp only
      rw [if_pos (by decide), haddr]
    have hm : (offset + 0) % 4294967296 = offset := Nat.mod_eq_of_lt (by omega)
    unfold block
    rw [if_pos ho, hd]
    dsimp only
    rw [show (Buf.new (start + offset / D.unit)).length = 0 from rfl, hm, ih]
    rfl

/-- For a CPU with 16 bit addresses: an image with a byte at 0x10000. -/
theorem C35_violated_image (fuel : Nat) :
    disassemble sample fuel (writes [(0x10000, 0)]) = .diverge := by
  have h : walk (writes [(0x10000, 0)]) = some [⟨0x10000, 0x10000, [0], none⟩] := by decide +kernel
  unfold disassemble
  rw [h]
  show (block sample 0x10000 1 fuel 0 [0]).bind _ = _
  rw [C35_violated_address sample (by decide) 0x10000 1 fuel 0 [0] (by decide) (by decide) (by decide)
    (by decide)]
  rfl

/-- The i8086: `operands` is what follows the codes (src/dis_i8086.cpp:446-468). -/
def i8086 (fpu cpu segment : Nat → Bool) (operands : Nat → Option Nat → Prog) : Cpu :=
  { width := 20, unit := 1
    prog := fun _ => readCodes fpu cpu segment fun opc e pushed =>
      if e ≠ .OK then .done else operands opc pushed }

/-- C35 does not hold as stated, for the i8086: WAIT (0x9B) followed by a byte that does not belong to
the floating point unit is never left.  The byte after it is read to look at it and pushed back into an
object that is gone when the next instruction is decoded, so it is lost and the reader runs out of
bytes before the loop does.  For every such byte and every table in which 0x9B is WAIT, an
instruction without operands. -/
theorem C35_violated_wait (fpu cpu segment : Nat → Bool) (operands : Nat → Option Nat → Prog)
    (x : Nat) (hx : x < 256) (hfx : fpu x = false) (hw : fpu 0x9B = false) (hc : cpu 0x9B = false)
    (hs : segment 0x9B = false) (ho : ∀ p, operands 0x9B p = .done) (fuel : Nat) :
    block (i8086 fpu cpu segment operands) 0 2 fuel 0 [0x9B, x] = .diverge := by
  have hn : ∀ i e, Reader.readByte ⟨i, [], e⟩ = some (0, ⟨i, [], if e = .OK then .NO_MEMORY else e⟩) := by
    intro i e
    cases e <;> rfl
  have hend : ∀ fuel, block (i8086 fpu cpu segment operands) 0 2 fuel 1 [] = .diverge := by
    intro fuel
    induction fuel with
    | zero => rfl
    | succ fuel ih =>
      have hd : decode (i8086 fpu cpu segment operands) (Buf.new 1) [] =
          some ({ Buf.new 1 with error := .NO_MEMORY }, []) := by
        have h0 : Config.checkAddr 20 1 false = .OK := by decide
        cases h1 : segment 0 <;> cases h2 : cpu 0 <;> cases h3 : fpu 0 <;>
          simp [decode, i8086, readCodes, readPushed, Prog.run, Reader.read, Buf.new, hn, h0, h1, h2, h3]
      unfold block
      rw [if_pos (by decide)]
      rw [show Buf.new (0 + 1 / (i8086 fpu cpu segment operands).unit) = Buf.new 1 by simp [i8086], hd]
      show (block _ 0 2 fuel 1 []).bind _ = _
      rw [ih]
      rfl
  have hd : ∃ i, i.length = 1 ∧ decode (i8086 fpu cpu segment operands) (Buf.new 0) [0x9B, x] =
      some (i, []) := by
    have h0 : Config.checkAddr 20 0 false = .OK := by decide
    have hr1 : Reader.readByte ⟨Buf.new 0, [0x9B, x], .OK⟩ = some (0x9B,
        ⟨⟨0, 1, 0x9B :: List.replicate 63 0, .OK⟩, [x], .OK⟩) := rfl
    have hr2 : Reader.readByte ⟨⟨0, 1, 0x9B :: List.replicate 63 0, .OK⟩, [x], .OK⟩ = some (x % 256,
        ⟨⟨0, 2, 0x9B :: x % 256 :: List.replicate 62 0, .OK⟩, [], .OK⟩) := by
      rw [Nat.mod_eq_of_lt hx]
      simp [Reader.readByte, Buf.emit, Buf.emitAt, Buf.emitByteAt, Insn.store, Insn.maxCode,
        Nat.mod_eq_of_lt hx]
    refine ⟨⟨0, 1, 0x9B :: List.replicate 63 0, .OK⟩, rfl, ?_⟩
    have h0 : Config.checkAddr 20 (Buf.new 0).address false = .OK := h0
    have hres : ∀ l, Buf.reset ⟨0, 2, 0x9B :: l, .OK⟩ 0 1 = ⟨0, 1, 0x9B :: List.replicate 63 0, .OK⟩ :=
      fun l => rfl
    have hx' : fpu (x % 256) = false := by rw [Nat.mod_eq_of_lt hx, hfx]
    simp [-List.reduceReplicate, decode, i8086, readCodes, readPushed, Prog.run, Reader.read, h0, hw, hc,
      hs, ho, hr1, hr2, hres, hx']
  obtain ⟨i, h1, hd⟩ := hd
  cases fuel with
  | zero => rfl
  | succ fuel =>
    unfold block
    rw [if_pos (by decide)]
    rw [show Buf.new (0 + 0 / (i8086 fpu cpu segment operands).unit) = Buf.new 0 by simp [i8086], hd]
    dsimp only
    rw [h1]
    show (block _ 0 2 fuel 1 []).bind _ = _
    rw [hend]
    rfl

/-- For an image of WAIT and NOP at address 0 (the hypotheses of C35_violated_wait are met). -/
theorem C35_violated_wait_image (fuel : Nat) :
    disassemble (i8086 (fun b => 0xD8 ≤ b && b < 0xE0) (fun b => b == 0x0F) (fun b => b == 0x2E)
      fun _ _ => .done) fuel (writes [(0, 0x9B), (1, 0x90)]) = .diverge := by
  have h : walk (writes [(0, 0x9B), (1, 0x90)]) = some [⟨0, 0, [0x9B, 0x90], none⟩] := by decide +kernel
  unfold disassemble
  rw [h]
  show (block _ 0 2 fuel 0 [0x9B, 0x90]).bind _ = _
  rw [C35_violated_wait _ _ _ _ 0x90 (by decide) rfl rfl rfl rfl (fun _ => rfl)]
  rfl

end Libasm.Dis
