import Verif.Cpu.Cdp1802.Encode
/-
C27: what the CDP1802 disassembler prints assembles to the bytes it read.
-/
namespace Libasm.Cpu.Cdp1802
open Scan Number Number.Spec Eval
open Tables (Row)

theorem syntaxOk : SyntaxOk syntaxOf := by
  constructor
  · intro c hc
    exact Ctype.ascii (p := fun c => Ctype.isSpace c = true → syntaxOf.instructionLetter c = false)
      (by decide +kernel) c (space_ascii hc) hc
  · intro c s hc
    have h := Ctype.ascii (p := fun c => Ctype.isAlpha c = true →
      (c == '\x00' || c == ';') = false ∧ Table.low c ≠ Table.low '.')
      (by decide +kernel) c (alpha_ascii hc) hc
    have h1 : Table.iexpectText (c :: s) ['.', '.'] = none := by
      have e : Table.strncasecmp (c :: s) ['.', '.'] 2 = Table.low c - Table.low '.' := by
        unfold Table.strncasecmp
        rw [if_neg h.2]
      show (if Table.strncasecmp (c :: s) ['.', '.'] 2 = 0 then _ else none) = none
      rw [e, if_neg (by have := h.2; omega)]
    show ((Table.iexpectText (c :: s) ['.', '.']).isSome || semicolonEnd (c :: s)) = false
    rw [h1]
    exact h.1

theorem parse_blank (P : Plugins Value) (useReg : Bool) (s : List Char) :
    parseOperand P useReg (' ' :: s) = parseOperand P useReg s := by
  unfold parseOperand
  have : skipSpaces (' ' :: s) = skipSpaces s := rfl
  rw [this]

theorem operand_mem {o : Opts} {useReg : Bool} {addr b : Nat} (m : Mode) {r : Rd}
    (h : ∀ x ∈ r.mem, x < 256) : ∀ x ∈ (decodeOperand o useReg addr b m r).2.mem, x < 256 := by
  unfold decodeOperand
  cases m <;> first
    | exact byte_mem h
    | exact be16_mem h
    | exact h
    | (cases useReg <;> exact h)

/-- After the prefix and the code are read. -/
theorem insn_back {E : Env} {o : Opts} {cpu : CpuType} {useReg : Bool} {pre b addr : Nat} {r : Rd}
    {sep : List Char} (hP : Pairs .surroundX .rca o) (ha : addr < 2 ^ 16)
    (hp : pre = 0 ∨ pre = 0x68) (hb : b < 256) (hpage : addr < 0xfffe ∨ (pre = 0 ∧ b / 16 ≠ 3))
    (hmem : ∀ x ∈ r.mem, x < 256) (hsep : Blank sep)
    (hd : (decodeInsn o useReg cpu addr pre b r).err = .OK) :
    ∃ bs, (∃ s, r.mem = bs ++ s) ∧ (decodeInsn o useReg cpu addr pre b r).bytes = r.bytes ++ bs ∧
      assemble E useReg false cpu addr ((decodeInsn o useReg cpu addr pre b r).name ++ sep ++
        (decodeInsn o useReg cpu addr pre b r).operands) = .ok (.insn ⟨.OK, code pre b ++ bs, []⟩) := by
  have hp256 : pre < 256 := by omega
  unfold decodeInsn at hd ⊢
  cases hrow : searchOpCode cpu pre b with
  | none => rw [hrow] at hd; cases hd
  | some row =>
    rw [hrow] at hd
    dsimp only at hd ⊢
    have hf : Fact cpu useReg pre b row o.upper := fact hp hb hrow o.upper
    have hfit : Fits (flags row).1 addr := by
      intro hm
      have := hf.page hm
      rcases hpage with h | ⟨h1, h2⟩
      · exact h
      · omega
    have line : ∀ (operands : List Char) (res : Res), skipSpaces operands = operands →
        encodeImpl (lexer.plugins E '\x00' addr) useReg false cpu addr
          (row.name.map (letter o.upper)) operands = .ok res →
        assemble E useReg false cpu addr (outText o row.name ++ sep ++ operands) =
          .ok (.insn res) := by
      intro operands res h1 h2
      exact encode_name syntaxOk hf.name hsep h1 (address_ok (by decide) ha) h2
    by_cases h1 : (flags row).1 = .NONE
    · have h2 := hf.none h1
      rw [if_pos h1] at hd ⊢
      dsimp only at hd ⊢
      refine ⟨[], ⟨r.mem, rfl⟩, by rw [List.append_nil], ?_⟩
      refine line [] _ rfl ?_
      unfold encodeImpl
      rw [show parseOperand (lexer.plugins E '\x00' addr) useReg [] = .ok ({}, []) from rfl,
        Out.ok_bind]
      have e := encode_insn hf hp256 hb (addr := addr) (v := 0) (w := 0) hfit
        (by rw [h1]; decide) (by decide) []
      rw [h1, h2] at e
      rw [show bytesOf .NONE 0 = [] from rfl, List.append_nil] at e
      exact e
    · rw [if_neg h1] at hd ⊢
      by_cases h2 : (flags row).2 = .NONE
      · rw [if_pos h2] at hd ⊢
        dsimp only at hd ⊢
        obtain ⟨v, R⟩ := operand_reads (E := E) hP useReg (b := b) (r := { r with err := .OK })
          ⟨h1, hf.known⟩ hfit hmem hd
        refine ⟨bytesOf (flags row).1 v, ⟨_, R.took.mem⟩, R.took.bytes, ?_⟩
        have hs := R.space []
        have hr := R.reads [] (Or.inl rfl)
        rw [List.append_nil] at hs hr
        refine line _ _ hs ?_
        unfold encodeImpl
        rw [hr, Out.ok_bind]
        dsimp only
        rw [(opd_mode useReg _ addr b v).2, if_neg (by decide),
          show expect ',' (skipSpaces []) = none from rfl]
        dsimp only
        have e := encode_insn hf hp256 hb (v := v) (w := 0) hfit R.small (by decide) []
        rw [h2] at e
        rw [show bytesOf .NONE 0 = [] from rfl, List.append_nil] at e
        exact e
      · rw [if_neg h2] at hd ⊢
        dsimp only at hd ⊢
        have h2' : (flags row).2 = .ADDR := hf.second.resolve_left h2
        have hmem2 := operand_mem (o := o) (useReg := useReg) (addr := addr) (b := b) (flags row).1
          (r := { r with err := .OK }) hmem
        obtain ⟨w, R2⟩ := operand_reads (E := E) hP useReg (b := b) ⟨h2, by rw [h2']; decide⟩
          (by rw [h2']; intro h; rcases h with h | h <;> cases h) hmem2 hd
        have hd1 := R2.took.err
        obtain ⟨v, R⟩ := operand_reads (E := E) hP useReg (b := b) (r := { r with err := .OK })
          ⟨h1, hf.known⟩ hfit hmem hd1
        have t := R.took.trans R2.took
        refine ⟨bytesOf (flags row).1 v ++ bytesOf (flags row).2 w, ⟨_, t.mem⟩, t.bytes, ?_⟩
        have hs2 := R2.space []
        have hr2 := R2.reads [] (Or.inl rfl)
        have hw : w < 65536 := by have := R2.small; rw [h2'] at this; exact this
        rw [List.append_nil] at hs2 hr2
        generalize hu : (decodeOperand o useReg addr b (flags row).2 _).1 = u at hs2 hr2
        generalize ht : (decodeOperand o useReg addr b (flags row).1 { r with err := .OK }).1 = tt at *
        have e0 : tt ++ [',', ' '] ++ u = tt ++ (',' :: ' ' :: u) := by simp
        rw [e0]
        refine line _ _ (R.space _) ?_
        unfold encodeImpl
        rw [R.reads _ (Or.inr ⟨_, rfl⟩), Out.ok_bind]
        dsimp only
        rw [(opd_mode useReg _ addr b v).2, if_neg (by decide),
          show expect ',' (skipSpaces (',' :: ' ' :: u)) = some (' ' :: u) from rfl]
        dsimp only
        rw [parse_blank, hr2, Out.ok_bind]
        dsimp only
        rw [(opd_mode useReg _ addr b w).2, if_neg (by decide)]
        have e := encode_insn hf hp256 hb (v := v) (w := w) hfit R.small hw []
        rw [← List.append_assoc]
        exact e

theorem prefix_code {cpu : CpuType} {b : Nat} (h : isPrefix cpu b = true) : b = 0x68 := by
  have h1 : ∀ cpu, ∀ p ∈ pages cpu, p.prefix_ = 0 ∨ p.prefix_ = 0x68 := by
    intro cpu
    cases cpu <;> (intro p hp; revert p; decide +kernel)
  unfold isPrefix at h
  simp only [List.any_eq_true, Bool.and_eq_true, bne_iff_ne, beq_iff_eq] at h
  obtain ⟨p, hp, h2, h3⟩ := h
  have := h1 cpu p hp
  omega

/-- What the disassembler prints of any bytes it takes without error, for any of the processors, with
and without register names, assembles at the same address to the same bytes without error, and
nothing of the line is left; the bytes are the first of those given.

What is missing of C27: a branch inside a page in the last two bytes of the memory
(`C27_violated_wrap`), octal numbers in the style of the CPU itself (`C27_violated_octal`), and
long branches with the option `smart-branch` (which are meant to become short ones,
`C27_violated_smart`). -/
theorem C27_partial (o : Opts) (E : Env) (cpu : CpuType) (useReg : Bool) (addr : Nat)
    (mem : List Nat) (sep : List Char) (ha : addr < 2 ^ 16) (hmem : mem ≠ [])
    (hbytes : ∀ b ∈ mem, b < 256) (hsep : sep ≠ [] ∧ ∀ c ∈ sep, Ctype.isSpace c = true)
    (hoct : o.octal = true → o.cstyle = true ∨ o.intelHex = true)
    (hpage : addr < 0xfffe ∨ ∀ b, mem.head? = some b → b / 16 ≠ 3 ∧ b ≠ 0x68)
    (hd : (disassemble o useReg cpu addr mem).err = .OK) :
    assemble E useReg false cpu addr ((disassemble o useReg cpu addr mem).name ++ sep ++
        (disassemble o useReg cpu addr mem).operands) =
      .ok (.insn ⟨.OK, (disassemble o useReg cpu addr mem).bytes, []⟩) ∧
    (disassemble o useReg cpu addr mem).bytes ≠ [] ∧
    (disassemble o useReg cpu addr mem).bytes <+: mem := by
  have hP := pairs o hoct
  obtain ⟨b, rest, rfl⟩ := List.exists_cons_of_ne_nil hmem
  have hb : b < 256 := hbytes b (List.mem_cons_self ..)
  have hrest : ∀ x ∈ rest, x < 256 := fun x hx => hbytes x (List.mem_cons_of_mem _ hx)
  have hdis : disassemble o useReg cpu addr (b :: rest) =
      decodeImpl o useReg cpu addr (b :: rest) := by
    unfold disassemble decode
    rw [address_ok (by decide) ha]
    rfl
  have hbyte : (⟨b :: rest, [], .OK⟩ : Rd).byte = (b, ⟨rest, [b], .OK⟩) := by
    unfold Rd.byte
    dsimp only
    rw [Nat.mod_eq_of_lt hb]
    rfl
  rw [hdis] at hd ⊢
  unfold decodeImpl at hd ⊢
  rw [hbyte] at hd ⊢
  dsimp only at hd ⊢
  by_cases hx : isPrefix cpu b = true
  · rw [if_pos hx] at hd ⊢
    have hpre : b = 0x68 := prefix_code hx
    have ha' : addr < 0xfffe := by
      rcases hpage with h | h
      · exact h
      · exact absurd hpre (h b rfl).2
    by_cases he : (⟨rest, [b], .OK⟩ : Rd).byte.2.err = .OK
    · rw [if_neg (not_not_intro he)] at hd ⊢
      obtain ⟨h1, t⟩ := byte_took (r := ⟨rest, [b], .OK⟩) hrest he
      have hm2 := byte_mem (r := ⟨rest, [b], .OK⟩) hrest
      obtain ⟨bs, ⟨s, g1⟩, g2, g3⟩ := insn_back (E := E) hP ha (Or.inr hpre) h1 (Or.inl ha') hm2
        hsep hd
      generalize (⟨rest, [b], .OK⟩ : Rd).byte = p at *
      have e1 : (decodeInsn o useReg cpu addr b p.1 p.2).bytes = b :: p.1 :: bs := by
        rw [g2, t.bytes]
        rfl
      have e2 := t.mem
      rw [e1]
      refine ⟨?_, List.cons_ne_nil _ _, s, ?_⟩
      · rw [g3]
        unfold code
        rw [if_pos (by omega)]
        rfl
      · show b :: p.1 :: (bs ++ s) = b :: rest
        rw [← g1]
        exact congrArg (b :: ·) e2.symm
    · rw [if_pos he] at hd
      exact absurd hd he
  · rw [if_neg hx] at hd ⊢
    obtain ⟨bs, ⟨s, g1⟩, g2, g3⟩ := insn_back (E := E) hP ha (Or.inl rfl) hb
      (hpage.imp id (fun h => ⟨rfl, (h b rfl).1⟩)) hrest hsep hd
    have e1 : (decodeInsn o useReg cpu addr 0 b ⟨rest, [b], .OK⟩).bytes = b :: bs := g2
    rw [e1]
    refine ⟨?_, List.cons_ne_nil _ _, s, ?_⟩
    · rw [g3]
      rfl
    · show b :: (bs ++ s) = b :: rest
      rw [← g1]

/-- The hypotheses of `C27_partial` hold of a branch at the end of a page, of a prefixed instruction
with two operands, of a register. -/
example :
    (disassemble (.default '$') false .CDP1802 0x12fe [0x30, 0x80]).err = .OK ∧
    (disassemble (.default '$') false .CDP1802 0x12fe [0x30, 0x80]).operands = "X'1380'".toList ∧
    (disassemble (.default '$') true .CDP1804A 0xfff0 [0x68, 0x2a, 0x12, 0x34]).err = .OK ∧
    (disassemble (.default '$') true .CDP1804A 0xfff0 [0x68, 0x2a, 0x12, 0x34]).operands =
      "R10, X'1234'".toList ∧
    (disassemble (.default '$') false .CDP1804 0xffff [0x0f]).err = .OK ∧
    (disassemble (.default '$') false .CDP1804 0xffff [0x0f]).operands = "15".toList ∧
    (disassemble ⟨true, false, true, false, false, true, '$'⟩ false .CDP1802 0 [0xf8, 0x34]).operands =
      "064Q".toList := by
  decide +kernel

/-- A branch in the last two bytes of the memory: the disassembler takes the page after it to be
page 0, the assembler an address beyond the memory, which no target can be in the page of. -/
theorem C27_violated_wrap :
    disassemble (.default '$') false .CDP1802 0xfffe [0x30, 0x10] =
      ⟨.OK, "BR".toList, "X'0010'".toList, [0x30, 0x10]⟩ ∧
    assemble ⟨fun _ => none, fun _ => none, fun _ => none⟩ false false .CDP1802 0xfffe
      "BR X'0010'".toList = .ok (.insn ⟨.OVERWRAP_SEGMENT, [0x30, 0x10], []⟩) := by
  refine ⟨by decide +kernel, ?_⟩
  with_unfolding_all rfl

/-- With `list-radix` 8 the disassembler shows octal numbers in a way the assembler does not
read as octal. -/
theorem C27_violated_octal :
    ∃ o : Opts, o.octal = true ∧
    disassemble o false .CDP1802 0 [0xf8, 0x92] = ⟨.OK, "LDI".toList, "222".toList, [0xf8, 0x92]⟩ ∧
    assemble ⟨fun _ => none, fun _ => none, fun _ => none⟩ false false .CDP1802 0
      "LDI 222".toList = .ok (.insn ⟨.OK, [0xf8, 222], []⟩) := by
  refine ⟨⟨true, true, true, false, false, false, '$'⟩, rfl, by decide +kernel, ?_⟩
  with_unfolding_all rfl

/-- With `smart-branch` a long branch into the own page becomes a short one. -/
theorem C27_violated_smart :
    disassemble (.default '$') false .CDP1802 0 [0xc0, 0x00, 0x10] =
      ⟨.OK, "LBR".toList, "X'0010'".toList, [0xc0, 0x00, 0x10]⟩ ∧
    assemble ⟨fun _ => none, fun _ => none, fun _ => none⟩ false true .CDP1802 0
      "LBR X'0010'".toList = .ok (.insn ⟨.OK, [0x30, 0x10], []⟩) := by
  refine ⟨by decide +kernel, ?_⟩
  with_unfolding_all rfl

end Libasm.Cpu.Cdp1802
