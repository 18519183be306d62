import Verif.Cpu.Mc6805.Encode
/-
C73: what the mc6805 disassembler prints assembles to the bytes it read.
-/
namespace Libasm.Cpu.Mc6805
open Scan Number Number.Spec Eval
open Tables (Row)

theorem syntaxOk : SyntaxOk syntaxOf := by
  constructor
  · intro c hc
    exact Ctype.ascii (p := fun c => Ctype.isSpace c = true → syntaxOf.instructionLetter c = false)
      (by decide +kernel) c (space_ascii hc) hc
  · intro c s hc
    exact Ctype.ascii (p := fun c => Ctype.isAlpha c = true → (c == '*' || c == ';') = false)
      (by decide +kernel) c (alpha_ascii hc) hc

theorem skip_skip (s : Scan) : skipSpaces (skipSpaces s) = skipSpaces s := by
  unfold skipSpaces trimStart
  induction s with
  | nil => rfl
  | cons c s ih =>
    rw [List.dropWhile_cons]
    split
    · exact ih
    · rw [List.dropWhile_cons, if_neg (by assumption)]

theorem parse_skip (P : Plugins Value) (s : Scan) : parseOperand P (skipSpaces s) = parseOperand P s := by
  unfold parseOperand
  rw [skip_skip]

theorem impl_skip (P : Plugins Value) (cpu : CpuType) (w addr : Nat) (name : List Char) (s : Scan) :
    encodeImpl P cpu w addr name (skipSpaces s) = encodeImpl P cpu w addr name s := by
  unfold encodeImpl
  rw [operands_skip (parse_skip P), skip_skip]

theorem emit_none (w addr : Nat) (a : Asm) : encodeOperand w addr .NONE {} a = .ok a := by
  unfold encodeOperand
  rw [Asm.noError]
  rfl

theorem pad_none (ops : List Operand) :
    (pad 3 {} ops).map (·.mode) = pad 3 .NONE (ops.map (·.mode)) := pad_map _ _ _ _

/-- From the operands to the instruction. -/
theorem impl_of {E : Env} {cpu : CpuType} {w addr b : Nat} {row : Row} {up : Bool} {t : List Char}
    {ops : List Operand} {a : Asm} (hn : nameOk cpu b row up = true) (h0 : modes row ≠ [])
    (hops : operandList (parseOperand (plug E addr)) 3 t = .ok (.ok (ops, [])))
    (hm : ops.map (·.mode) ∈ choices b (modes row))
    (he : emitList (encodeOperand w addr) ((pad 3 .NONE (modes row)).zip (pad 3 {} ops)) ⟨.OK, row.opcode, []⟩ = .ok a) :
    encodeImpl (plug E addr) cpu w addr (row.name.map (letter up)) t = .ok ⟨a.err, a.bytes, []⟩ := by
  unfold nameOk at hn
  simp only [Bool.and_eq_true, decide_eq_true_eq, List.all_eq_true] at hn
  unfold encodeImpl
  rw [hn.1.2, Out.ok_bind, decide_eq_true h0, if_pos rfl, hops, Out.ok_bind]
  dsimp only
  rw [pad_none, rowIs_eq (hn.2 _ hm), Out.ok_bind]
  dsimp only
  rw [he, Out.ok_bind]

/-- An instruction without operands. -/
theorem impl_bare {E : Env} {cpu : CpuType} {w addr b : Nat} {row : Row} {up : Bool} (hn : nameOk cpu b row up = true)
    (hrow : rowOk b row = true) (hb : b < 256) (h0 : modes row = []) :
    encodeImpl (plug E addr) cpu w addr (row.name.map (letter up)) [] = .ok ⟨.OK, [b], []⟩ := by
  unfold nameOk at hn
  rw [h0] at hn
  simp only [Bool.and_eq_true, decide_eq_true_eq, List.all_eq_true] at hn
  have hopc : row.opcode = b := by
    unfold rowOk at hrow
    rw [h0] at hrow
    simpa [emb] using hrow
  unfold encodeImpl
  rw [hn.1.2, Out.ok_bind, if_neg (by decide), Out.ok_bind]
  dsimp only
  rw [show (pad 3 ({} : Operand) []).map (·.mode) = pad 3 .NONE [] from rfl,
    rowIs_eq (hn.2 [] (List.mem_singleton.2 rfl)), Out.ok_bind]
  dsimp only
  rw [h0, emit_pad (emit_none w addr) 3 [] [] _ rfl (by decide), show emitList (encodeOperand w addr) (([] : List Mode).zip
    ([] : List Operand)) ⟨.OK, row.opcode, []⟩ = .ok ⟨.OK, row.opcode, []⟩ from rfl, Out.ok_bind]
  unfold Asm.bytes
  dsimp only
  rw [hopc, Nat.mod_eq_of_lt hb]
  rfl

/-- The operands of an entry, after its code. -/
theorem operands_back {E : Env} {o : Opts} {w addr b : Nat} {row : Row} {mem : List Nat}
    (hsym : o.relative = true → o.curSym = '*') (h8 : 8 ≤ w) (hw : w ≤ 16) (ha : addr < 2 ^ w)
    (hmem : ∀ x ∈ mem, x < 256) (hrow : rowOk b row = true) (h0 : modes row ≠ [])
    (he : (decodeList (decodeOperand o w addr b) (modes row) ⟨mem, [b], .OK⟩).2.err = .OK) :
    ∃ ops a bs, operandList (parseOperand (plug E addr)) 3
        (decodeList (decodeOperand o w addr b) (modes row) ⟨mem, [b], .OK⟩).1 = .ok (.ok (ops, [])) ∧
      ops.map (·.mode) ∈ choices b (modes row) ∧
      emitList (encodeOperand w addr) ((pad 3 .NONE (modes row)).zip (pad 3 {} ops)) ⟨.OK, row.opcode, []⟩ = .ok a ∧
      a.err = .OK ∧ a.opc = b ∧ a.ops = bs ∧
      Took ⟨mem, [b], .OK⟩ (decodeList (decodeOperand o w addr b) (modes row) ⟨mem, [b], .OK⟩).2 bs := by
  have hrow' := hrow
  unfold rowOk at hrow'
  simp only [Bool.and_eq_true, List.all_eq_true, decide_eq_true_eq, beq_iff_eq] at hrow'
  obtain ⟨⟨hlen, hcode⟩, hms⟩ := hrow'
  have room : Room (modes row).length ⟨mem, [b], .OK⟩ := ⟨hmem, by simp only [List.length_singleton]; omega⟩
  obtain ⟨_, ops, hc, hops⟩ := list_reads_hd (Rel := Rel b w addr) (parse := parseOperand (plug E addr)) (Hd := Hd)
    (fun s => by
      rw [← parse_skip _ (' ' :: s), ← parse_skip _ s]
      rfl)
    (fun m r => operand_mono m r) (fun m r r' op h => by
      obtain ⟨bs, k1, k2, _⟩ := h.vals
      exact ⟨bs, k1, k2⟩)
    (modes row) 3 _ h0 hlen room
    (fun m hm k r hr h => operand_reads hsym h8 hw ha (hms m hm).1 hr h) he
  have hl := chain_length _ _ _ _ hc
  obtain ⟨bs, ht⟩ := chain_took (fun m r r' op h => by
      obtain ⟨bs, k1, _⟩ := h.vals
      exact ⟨bs, k1⟩) _ _ _ _ he hc
  have S0 : Sync b row.opcode ⟨.OK, row.opcode, []⟩ ⟨mem, [b], .OK⟩ row.opcode := ⟨rfl, rfl, Or.inl rfl, rfl⟩
  obtain ⟨a, g1, g2⟩ := chain_emit (Rel := Rel b w addr) (Sync := Sync b row.opcode)
    (emit := encodeOperand w addr) (emb := emb b) (modes row) _ _ ops _ _
    (fun m hm r r' op a c h hs => emit_one hrow hm h8 hw ha h hs) hc S0
  refine ⟨ops, a, bs, hops, chain_choices _ _ _ _ hc, ?_, g2.err, g2.opc.trans hcode, ?_, ht⟩
  · rw [emit_pad (emit_none w addr) 3 _ _ _ hl hlen]
    exact g1
  · have := g2.bytes
    rw [ht.bytes] at this
    exact (List.cons.inj this).2.symm

/-- What the disassembler of any of the three processors prints of any bytes it takes without error assembles at
the same address to the same bytes without error, and nothing of the line is left; the bytes are the first of
those given. The option `pc-bits`, the same for both, is 0 or at least 8: with less the assembler rejects targets
that the disassembler prints (`C73_violated_width`). Where targets are printed relative, the symbol of the
location is the one that the assembler knows. -/
theorem C73_partial (o : Opts) (E : Env) (cpu : CpuType) (pcBits addr : Nat) (mem : List Nat) (sep : List Char)
    (hpc : pcBits = 0 ∨ 8 ≤ pcBits ∧ pcBits ≤ 16)
    (hsym : o.relative = true → o.curSym = '*')
    (haddr : addr < 2 ^ (if pcBits = 0 then 13 else pcBits)) (hbytes : ∀ b ∈ mem, b < 256) (hmem : mem ≠ [])
    (hsep : sep ≠ [] ∧ ∀ c ∈ sep, Ctype.isSpace c = true)
    (hd : (disassemble o cpu pcBits addr mem).err = .OK) :
    assemble E cpu pcBits addr ((disassemble o cpu pcBits addr mem).name ++ sep ++
      (disassemble o cpu pcBits addr mem).operands) =
      .ok (.insn ⟨.OK, (disassemble o cpu pcBits addr mem).bytes, []⟩) ∧
    (disassemble o cpu pcBits addr mem).bytes ≠ [] ∧
    (disassemble o cpu pcBits addr mem).bytes <+: mem := by
  unfold disassemble assemble at *
  have ha : addr < 2 ^ addressWidth pcBits := haddr
  have h8 : 8 ≤ addressWidth pcBits := by unfold addressWidth; split <;> omega
  have hw : addressWidth pcBits ≤ 16 := by unfold addressWidth; split <;> omega
  generalize addressWidth pcBits = w at *
  have hok : Config.checkAddr w addr false = .OK := address_ok (by omega) ha
  have hdis : decode w (decodeImpl o cpu w) addr mem = decodeImpl o cpu w addr mem := by
    unfold decode
    rw [if_neg (by rw [hok]; simp)]
  rw [hdis] at hd ⊢
  cases mem with
  | nil => exact absurd rfl hmem
  | cons b rest =>
  have hb : b < 256 := hbytes b (List.mem_cons_self ..)
  have hrest : ∀ x ∈ rest, x < 256 := fun x hx => hbytes x (List.mem_cons_of_mem _ hx)
  unfold decodeImpl at hd ⊢
  rw [byte_some hb] at hd ⊢
  dsimp only [List.nil_append] at hd ⊢
  have hcode := codes_ok cpu b hb
  unfold codeOk at hcode
  cases hrow : searchOpCode cpu b with
  | none => rw [hrow] at hd; cases hd
  | some row =>
    rw [hrow] at hd hcode
    dsimp only at hd hcode ⊢
    simp only [Bool.and_eq_true] at hcode
    have hname : nameOk cpu b row o.upper = true := by
      cases o.upper
      · exact hcode.1.2
      · exact hcode.2
    have hn : nameB syntaxOf (row.name.map (letter o.upper)) = true := by
      unfold nameOk at hname
      simp only [Bool.and_eq_true] at hname
      exact hname.1.1
    by_cases h0 : modes row = []
    · have e3 := impl_bare (E := E) (w := w) (addr := addr) hname hcode.1.1 hb h0
      rw [h0]
      exact ⟨encode_operands syntaxOk hn hsep (impl_skip _ _ _ _ _ _) hok e3, List.cons_ne_nil _ _, _, rfl⟩
    obtain ⟨ops, a, bs, h1, h2, h3, h4', h5, h6, h7⟩ := operands_back (E := E) hsym h8 hw ha hrest hcode.1.1 h0 hd
    have e1 : (decodeList (decodeOperand o w addr b) (modes row) ⟨rest, [b], .OK⟩).2.bytes = b :: bs := h7.bytes
    have e2 : rest = bs ++ (decodeList (decodeOperand o w addr b) (modes row) ⟨rest, [b], .OK⟩).2.mem := h7.mem
    rw [e1]
    refine ⟨?_, List.cons_ne_nil _ _, _, by rw [List.cons_append, ← e2]⟩
    have e3 := impl_of hname h0 h1 h2 h3
    have e4 : a.bytes = b :: bs := by
      unfold Asm.bytes
      rw [h5, h6, Nat.mod_eq_of_lt hb]
    rw [h4', e4] at e3
    exact encode_operands syntaxOk hn hsep (impl_skip _ _ _ _ _ _) hok e3

/-- The hypotheses of `C73_partial` hold of a bit with an address and a target, also relative, of each
kind of memory operand, with and without the prefixes, and of immediate data. -/
example :
    (disassemble (.default '*') .MC6805 0 0x1ffd [0x07, 0x04, 0x00]).err = .OVERFLOW_RANGE ∧
    (disassemble (.default '*') .MC6805 0 0x1ff0 [0x07, 0x04, 0xfe]).err = .OK ∧
    (disassemble (.default '*') .MC6805 0 0x1ff0 [0x07, 0x04, 0xfe]).name = "BRCLR".toList ∧
    (disassemble (.default '*') .MC6805 0 0x1ff0 [0x07, 0x04, 0xfe]).operands = "3, $04, $1FF1".toList ∧
    (disassemble { Opts.default '*' with relative := true } .MC6805 0 0x1ff0 [0x07, 0x04, 0xfe]).operands =
      "3, $04, *+1".toList ∧
    (disassemble (.default '*') .MC6805 11 0 [0xc6, 0x00, 0x12]).operands = ">$012".toList ∧
    (disassemble (.default '*') .MC6805 11 0 [0xc6, 0x08, 0x12]).err = .OVERFLOW_RANGE ∧
    (disassemble (.default '*') .MC6805 0 0 [0xd6, 0x00, 0x12]).operands = ">$0012,X".toList ∧
    (disassemble (.default '*') .MC6805 0 0 [0xd6, 0x12, 0x34]).operands = "$1234,X".toList ∧
    (disassemble (.default '*') .MC6805 0 0 [0xe6, 0x00]).operands = "<0,X".toList ∧
    (disassemble (.default '*') .MC6805 0 0 [0xe6, 0x12]).operands = "18,X".toList ∧
    (disassemble (.default '*') .MC6805 0 0 [0xf6]).operands = ",X".toList ∧
    (disassemble (.default '*') .MC6805 0 0 [0xa6, 0xff]).operands = "#$FF".toList ∧
    (disassemble (.default '*') .MC68HC05 0 0 [0x42]).name = "MUL".toList := by
  decide +kernel

/-- With fewer than 8 bits of an address the assembler does not take a target that the disassembler
prints. -/
theorem C73_violated_width :
    (disassemble (.default '*') .MC6805 4 0 [0x20, 0x0a]).err = .OK ∧
    (disassemble (.default '*') .MC6805 4 0 [0x20, 0x0a]).operands = "$C".toList ∧
    assemble noEnv .MC6805 4 0 "BRA $C".toList = .ok (.insn ⟨.OVERFLOW_RANGE, [0x20, 0xfa], []⟩) := by
  decide +kernel

end Libasm.Cpu.Mc6805
