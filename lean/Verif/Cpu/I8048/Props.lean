import Verif.Cpu.I8048.Encode
/-
C63: what the i8048 disassembler prints assembles to the bytes it read.
-/
namespace Libasm.Cpu.I8048
open Scan Number Number.Spec Eval
open Tables (Row)

theorem syntaxOk : SyntaxOk syntaxOf := by
  constructor
  · intro c hc
    exact Ctype.ascii (p := fun c => Ctype.isSpace c = true → syntaxOf.instructionLetter c = false)
      (by decide +kernel) c (space_ascii hc) hc
  · intro c s hc
    exact Ctype.ascii (p := fun c => Ctype.isAlpha c = true → (c == '\x00' || c == ';') = false)
      (by decide +kernel) c (alpha_ascii hc) hc

theorem skip_skip (s : Scan) : skipSpaces (skipSpaces s) = skipSpaces s := by
  unfold skipSpaces trimStart
  induction s with
  | nil => rfl
  | cons c s ih =>
    rw [List.dropWhile_cons]
    split
    · exact ih
    · rw [List.dropWhile_cons, if_neg (by assumption)]

theorem parse_skip (P : Plugins Value) (s : Scan) : parseOperand P (skipSpaces s) = parseOperand P s := by
  unfold parseOperand
  rw [skip_skip]

theorem impl_skip (P : Plugins Value) (cpu : CpuType) (addr : Nat) (name : List Char) (s : Scan) :
    encodeImpl P cpu addr name (skipSpaces s) = encodeImpl P cpu addr name s := by
  unfold encodeImpl
  rw [operands_skip (parse_skip P)]

theorem emit_none (addr : Nat) (a : Asm) : encodeOperand addr .NONE {} a = .ok a := by
  unfold encodeOperand
  rw [Asm.noError]

theorem pad_none (ops : List Operand) :
    (pad 2 {} ops).map (·.mode) = pad 2 .NONE (ops.map (·.mode)) := pad_map _ _ _ _

/-- From the operands to the instruction. -/
theorem impl_of {E : Env} {cpu : CpuType} {addr b : Nat} {row : Row} {up : Bool} {t : List Char}
    {ops : List Operand} {a : Asm} (hn : nameOk cpu b row up = true)
    (hops : operandList (parseOperand (plug E addr)) 2 t = .ok (.ok (ops, [])))
    (hm : (pad 2 {} ops).map (·.mode) = pad 2 .NONE ((modes row).map (pmode b)))
    (he : emitList (encodeOperand addr) ((pad 2 .NONE (modes row)).zip (pad 2 {} ops)) ⟨.OK, row.opcode, []⟩ = .ok a) :
    encodeImpl (plug E addr) cpu addr (row.name.map (letter up)) t = .ok ⟨a.err, a.bytes, []⟩ := by
  unfold nameOk at hn
  simp only [Bool.and_eq_true] at hn
  unfold encodeImpl
  rw [hops, Out.ok_bind]
  dsimp only
  rw [hm, rowIs_eq hn.2, Out.ok_bind]
  dsimp only
  rw [he, Out.ok_bind]

/-- A target in the page is a byte. -/
theorem page_byte {o : Opts} {addr b : Nat} : ∀ (ms : List Mode) (r : Rd), .AD08 ∈ ms →
    (decodeList (decodeOperand o addr b) ms r).2.err = .OK →
    r.bytes.length < (decodeList (decodeOperand o addr b) ms r).2.bytes.length := by
  have grow : ∀ (m : Mode) (r : Rd), r.bytes.length ≤ (decodeOperand o addr b m r).2.bytes.length := by
    intro m r
    have hb : r.bytes.length ≤ r.byte.2.bytes.length := by
      unfold Rd.byte
      split
      · exact Nat.le_refl _
      · simp
    unfold decodeOperand
    cases m <;> first
      | exact Nat.le_refl _
      | exact hb
  have grows : ∀ (ms : List Mode) (r : Rd),
      r.bytes.length ≤ (decodeList (decodeOperand o addr b) ms r).2.bytes.length := by
    intro ms
    induction ms with
    | nil => intro r; exact Nat.le_refl _
    | cons m ms ih =>
      intro r
      cases ms with
      | nil => exact grow m r
      | cons n ms => exact Nat.le_trans (grow m r) (ih _)
  have mono : ∀ (ms : List Mode) (r : Rd), (decodeList (decodeOperand o addr b) ms r).2.err = .OK → r.err = .OK := by
    intro ms
    induction ms with
    | nil => intro r h; exact h
    | cons m ms ih =>
      intro r h
      cases ms with
      | nil => exact operand_mono _ _ h
      | cons n ms => exact operand_mono _ _ (ih _ h)
  have one : ∀ r : Rd, (decodeOperand o addr b .AD08 r).2.err = .OK →
      r.bytes.length < (decodeOperand o addr b .AD08 r).2.bytes.length := by
    intro r h
    have h : r.byte.2.err = .OK := h
    show r.bytes.length < r.byte.2.bytes.length
    unfold Rd.byte at h ⊢
    split at h
    · exact absurd (setErrorIf_ok h).2 (by decide)
    · simp
  intro ms
  induction ms with
  | nil => intro r h; cases h
  | cons m ms ih =>
    intro r h he
    cases ms with
    | nil =>
      rw [← List.mem_singleton.1 h] at he ⊢
      exact one r he
    | cons n ms =>
      rcases List.mem_cons.1 h with h | h
      · subst h
        exact Nat.lt_of_lt_of_le (one r (mono _ _ he)) (grows _ _)
      · exact Nat.lt_of_le_of_lt (grow m r) (ih _ h he)

/-- The operands of an entry, after its code. -/
theorem operands_back {E : Env} {o : Opts} {addr b : Nat} {row : Row}
    {mem : List Nat} (hb : b < 256) (hmem : ∀ x ∈ mem, x < 256) (hrow : rowOk b row = true)
    (he : (decodeList (decodeOperand o addr b) (modes row) ⟨mem, [b], .OK⟩).2.err = .OK)
    (ha : addr + (decodeList (decodeOperand o addr b) (modes row) ⟨mem, [b], .OK⟩).2.bytes.length ≤ 4096) :
    ∃ ops a bs, operandList (parseOperand (plug E addr)) 2
        (decodeList (decodeOperand o addr b) (modes row) ⟨mem, [b], .OK⟩).1 = .ok (.ok (ops, [])) ∧
      (pad 2 {} ops).map (·.mode) = pad 2 .NONE ((modes row).map (pmode b)) ∧
      emitList (encodeOperand addr) ((pad 2 .NONE (modes row)).zip (pad 2 {} ops)) ⟨.OK, row.opcode, []⟩ = .ok a ∧
      a.err = .OK ∧ a.opc = b ∧ a.ops = bs ∧
      Took ⟨mem, [b], .OK⟩ (decodeList (decodeOperand o addr b) (modes row) ⟨mem, [b], .OK⟩).2 bs := by
  have ha : ∀ m ∈ modes row, m = .AD08 → addr + 1 < 4096 := by
    intro m hm hx
    subst hx
    have := page_byte (modes row) ⟨mem, [b], .OK⟩ hm he
    have : 1 < (decodeList (decodeOperand o addr b) (modes row) ⟨mem, [b], .OK⟩).2.bytes.length := this
    omega
  have hrow' := hrow
  simp only [rowOk, Bool.and_eq_true, List.all_eq_true, decide_eq_true_eq, Bool.or_eq_true, beq_iff_eq] at hrow'
  obtain ⟨⟨w2, w3⟩, w4⟩ := hrow'
  by_cases h0 : modes row = []
  · rw [h0]
    refine ⟨[{}], ⟨.OK, row.opcode, []⟩, [], rfl, rfl, ?_, rfl, ?_, rfl, Took.refl rfl⟩
    · exact emit_pad (emit_none addr) 2 [] [] _ rfl (by decide)
    · rw [h0] at w4
      rcases w4 with w4 | w4
      · cases w4
      · exact w4
  · have room : Room (modes row).length ⟨mem, [b], .OK⟩ := ⟨hmem, by simp only [List.length_singleton]; omega⟩
    obtain ⟨ops, hc, hops⟩ := list_reads (Rel := Rel b addr) (parse := parseOperand (plug E addr))
      (fun s => by
        rw [← parse_skip _ (' ' :: s), ← parse_skip _ s]
        rfl)
      (fun m r => operand_mono m r) (fun m r r' op h => by
        obtain ⟨bs, k1, k2, _⟩ := h.vals
        exact ⟨bs, k1, k2⟩)
      (modes row) 2 _ h0 w2 room
      (fun m hm k r hr h => operand_reads ⟨(w3 m hm).1.1.1, (w3 m hm).1.1.2⟩ (w3 m hm).1.2 (ha m hm) hb hr h) he
    have hl := chain_length _ _ _ _ hc
    obtain ⟨bs, ht⟩ := chain_took (fun m r r' op h => by
        obtain ⟨bs, k1, _⟩ := h.vals
        exact ⟨bs, k1⟩) _ _ _ _ he hc
    have hmap : (pad 2 {} ops).map (·.mode) = pad 2 .NONE ((modes row).map (pmode b)) := by
      rw [pad_none, chain_map (f := pmode b) (g := fun op : Operand => op.mode) (fun m r r' op h => h.mode) _ _ _ _ hc]
    have S0 : Sync b row ⟨.OK, row.opcode, []⟩ ⟨mem, [b], .OK⟩ row.opcode := ⟨rfl, rfl, Or.inl rfl, rfl⟩
    obtain ⟨a, g1, g2⟩ := chain_emit (Rel := Rel b addr) (Sync := Sync b row)
      (emit := encodeOperand addr) (emb := fun m c => if (field b m).isSome then b else c) (modes row) _ _ ops _ _
      (fun m hm r r' op a c h hs => emit_one hrow hb hm (ha m hm) h hs) hc S0
    refine ⟨ops, a, bs, hops, hmap, ?_, g2.err, ?_, ?_, ht⟩
    · rw [emit_pad (emit_none addr) 2 _ _ _ hl w2]
      exact g1
    · rw [g2.opc]
      have fold : ∀ (ms : List Mode) (c : Nat), (ms.any (fun m => (field b m).isSome) = true ∨ c = b) →
          ms.foldl (fun c m => if (field b m).isSome = true then b else c) c = b := by
        intro ms
        induction ms with
        | nil =>
          intro c h
          rcases h with h | h
          · cases h
          · exact h
        | cons m ms ih =>
          intro c h
          rw [List.foldl_cons]
          apply ih
          rw [List.any_cons, Bool.or_eq_true] at h
          rcases h with (h | h) | h
          · right; rw [if_pos h]
          · exact Or.inl h
          · right; rw [h]; split <;> rfl
      exact fold _ _ w4
    · have := g2.bytes
      rw [ht.bytes] at this
      exact (List.cons.inj this).2.symm

/-- What the disassembler prints of any bytes it takes without error assembles at the same address to
the same bytes without error, and nothing of the line is left; the bytes are the first of those given.
The instruction is within the memory, of 4096 bytes. -/
theorem C63 (o : Opts) (E : Env) (cpu : CpuType) (addr : Nat) (mem : List Nat) (sep : List Char)
    (hbytes : ∀ b ∈ mem, b < 256) (hmem : mem ≠ [])
    (hsep : sep ≠ [] ∧ ∀ c ∈ sep, Ctype.isSpace c = true)
    (hd : (disassemble o cpu addr mem).err = .OK)
    (hend : addr + (disassemble o cpu addr mem).bytes.length ≤ 2 ^ 12) :
    assemble E cpu addr ((disassemble o cpu addr mem).name ++ sep ++ (disassemble o cpu addr mem).operands) =
      .ok (.insn ⟨.OK, (disassemble o cpu addr mem).bytes, []⟩) ∧
    (disassemble o cpu addr mem).bytes ≠ [] ∧
    (disassemble o cpu addr mem).bytes <+: mem := by
  have hdis : disassemble o cpu addr mem = decodeImpl o cpu addr mem ∧ Config.checkAddr 12 addr false = .OK := by
    unfold disassemble decode at hd ⊢
    split at hd
    · exact absurd hd (by assumption)
    · rename_i h1
      rw [if_neg h1]
      exact ⟨rfl, Classical.not_not.1 h1⟩
  obtain ⟨hdis, hok⟩ := hdis
  rw [hdis] at hd hend ⊢
  cases mem with
  | nil => exact absurd rfl hmem
  | cons b rest =>
  have hb : b < 256 := hbytes b (List.mem_cons_self ..)
  have hrest : ∀ x ∈ rest, x < 256 := fun x hx => hbytes x (List.mem_cons_of_mem _ hx)
  unfold decodeImpl at hd hend ⊢
  rw [byte_some hb] at hd hend ⊢
  dsimp only [List.nil_append] at hd hend ⊢
  have hcode := codes_ok cpu b hb
  unfold codeOk at hcode
  cases hrow : searchOpCode cpu b with
  | none => rw [hrow] at hd; cases hd
  | some row =>
    rw [hrow] at hd hend hcode
    dsimp only at hd hend hcode ⊢
    simp only [Bool.and_eq_true] at hcode
    have hname : nameOk cpu b row o.upper = true := by
      cases o.upper
      · exact hcode.1.2
      · exact hcode.2
    have hn : nameB syntaxOf (row.name.map (letter o.upper)) = true := by
      unfold nameOk at hname
      simp only [Bool.and_eq_true] at hname
      exact hname.1
    obtain ⟨ops, a, bs, h1, h2, h3, h4, h5, h6, h7⟩ := operands_back (E := E) hb hrest hcode.1.1 hd hend
    have e1 : (decodeList (decodeOperand o addr b) (modes row) ⟨rest, [b], .OK⟩).2.bytes = b :: bs := h7.bytes
    have e2 : rest = bs ++ (decodeList (decodeOperand o addr b) (modes row) ⟨rest, [b], .OK⟩).2.mem := h7.mem
    rw [e1]
    refine ⟨?_, List.cons_ne_nil _ _, _, by rw [List.cons_append, ← e2]⟩
    have e3 := impl_of hname h1 h2 h3
    have e4 : a.bytes = b :: bs := by
      unfold Asm.bytes
      rw [h5, h6, Nat.mod_eq_of_lt hb]
    rw [h4, e4] at e3
    exact encode_operands syntaxOk hn hsep (impl_skip _ _ _ _ _) hok e3

/-- The hypotheses of `C63` hold of an instruction with a bit number and a target in the page, of a port, of a
jump, of an instruction that only one of the processors has, of the last byte of the memory. -/
example :
    (disassemble (.default '$') .I8048 0x2fe [0xf2, 0x12]).err = .OK ∧
    (disassemble (.default '$') .I8048 0x2fe [0xf2, 0x12]).name = "JB".toList ∧
    (disassemble (.default '$') .I8048 0x2fe [0xf2, 0x12]).operands = "7, 212H".toList ∧
    (disassemble (.default '$') .I8048 0x2ff [0xe9, 0x12]).operands = "R1, 312H".toList ∧
    (disassemble (.default '$') .I8039 0 [0x9a, 0xf0]).operands = "P2, #0F0H".toList ∧
    (disassemble (.default '$') .I8039 0 [0xe4, 0x34]).operands = "734H".toList ∧
    (disassemble (.default '$') .MSM80C48 0 [0xf3]).operands = "P1, @R3".toList ∧
    (disassemble (.default '$') .MSM80C48 0 [0xf3]).err = .OK ∧
    (disassemble (.default '$') .I8048 0 [0xf3]).err = .UNKNOWN_INSTRUCTION ∧
    (disassemble (.default '$') .I8048 0xfff [0x0c]).err = .OK ∧
    (disassemble (.default '$') .I8048 0xfff [0x0c]).operands = "A, P4".toList := by
  decide +kernel

/-- Where `C63` says nothing: of an instruction half of which is past the memory the disassembler prints
a target at the begin of it, which the assembler does not take there. -/
theorem C63_violated_end :
    (disassemble (.default '$') .I8048 0xfff [0xe9, 0x12]).err = .OK ∧
    (disassemble (.default '$') .I8048 0xfff [0xe9, 0x12]).operands = "R1, 012H".toList ∧
    assemble noEnv .I8048 0xfff "DJNZ R1, 012H".toList =
      .ok (.insn ⟨.OPERAND_TOO_FAR, [0xe9, 0x12], []⟩) := by
  decide +kernel

end Libasm.Cpu.I8048
