import Verif.Cpu.F3850.Encode
/-
C71: what the f3850 disassembler prints assembles to the bytes it read.
-/
namespace Libasm.Cpu.F3850
open Scan Number Number.Spec Eval
open Tables (Row)

theorem syntaxOk : SyntaxOk syntaxOf := by
  constructor
  · intro c hc
    exact Ctype.ascii (p := fun c => Ctype.isSpace c = true → syntaxOf.instructionLetter c = false)
      (by decide +kernel) c (space_ascii hc) hc
  · intro c s hc
    exact Ctype.ascii (p := fun c => Ctype.isAlpha c = true → (c == '*' || c == ';') = false)
      (by decide +kernel) c (alpha_ascii hc) hc

theorem skip_skip (s : Scan) : skipSpaces (skipSpaces s) = skipSpaces s := by
  unfold skipSpaces trimStart
  induction s with
  | nil => rfl
  | cons c s ih =>
    rw [List.dropWhile_cons]
    split
    · exact ih
    · rw [List.dropWhile_cons, if_neg (by assumption)]

theorem parse_skip (P : Plugins Value) (s : Scan) : parseOperand P (skipSpaces s) = parseOperand P s := by
  unfold parseOperand
  rw [skip_skip]

theorem impl_skip (P : Plugins Value) (addr : Nat) (name : List Char) (s : Scan) :
    encodeImpl P addr name (skipSpaces s) = encodeImpl P addr name s := by
  unfold encodeImpl
  rw [operands_skip (parse_skip P), skip_skip]

theorem emit_none (addr : Nat) (a : Asm) : encodeOperand addr .NONE {} a = .ok a := by
  unfold encodeOperand
  rw [Asm.noError]

theorem pad_none (ops : List Operand) :
    (pad 2 {} ops).map (·.mode) = pad 2 .NONE (ops.map (·.mode)) := pad_map _ _ _ _

theorem pad_cls (ops : List Operand) :
    ((pad 2 {} ops).map (·.mode)).map cls = pad 2 .NONE (ops.map fun op => cls op.mode) := by
  rw [List.map_map]
  exact pad_map _ _ _ _

/-- An instruction without operands. -/
theorem impl_bare {E : Env} {addr b : Nat} {row : Row} {up : Bool} (hn : nameOk b row up = true)
    (hrow : rowOk b row = true) (hb : b < 256) (h0 : modes row = []) :
    encodeImpl (plug E addr) addr (row.name.map (letter up)) [] = .ok ⟨.OK, [b], []⟩ := by
  unfold nameOk at hn
  rw [h0] at hn
  simp only [Bool.and_eq_true, decide_eq_true_eq] at hn
  rw [if_neg (by decide)] at hn
  have hopc : row.opcode = b := by
    unfold rowOk at hrow
    rw [h0] at hrow
    simpa using hrow
  unfold encodeImpl
  rw [hn.1.2, Out.ok_bind, if_neg (by decide), Out.ok_bind]
  dsimp only
  rw [show (pad 2 ({} : Operand) []).map (·.mode) = pad 2 .NONE (([] : List Mode).map (pmode b)) from rfl,
    rowIs_eq hn.2, Out.ok_bind]
  dsimp only
  rw [h0, emit_pad (emit_none addr) 2 [] [] _ rfl (by decide), show emitList (encodeOperand addr) (([] : List Mode).zip
    ([] : List Operand)) ⟨.OK, row.opcode, []⟩ = .ok ⟨.OK, row.opcode, []⟩ from rfl, Out.ok_bind]
  unfold Asm.bytes
  dsimp only
  rw [hopc, Nat.mod_eq_of_lt hb]
  rfl

/-- A shift by four. -/
theorem impl_shift {E : Env} {o : Opts} {addr b : Nat} {row : Row} {up : Bool} (hn : nameOk b row up = true)
    (hb : b < 256) (h4 : modes row = [.C4]) :
    encodeImpl (plug E addr) addr (row.name.map (letter up)) (outDec .fairchild o 4 3) = .ok ⟨.OK, [b], []⟩ := by
  unfold nameOk at hn
  rw [h4] at hn
  simp only [Bool.and_eq_true, decide_eq_true_eq] at hn
  rw [if_pos trivial] at hn
  obtain ⟨r, k1, k2, k3⟩ := shiftIs_eq hn.2
  obtain ⟨m', g1, g2⟩ := plain_reads (E := E) (addr := addr) (w := 4) (by decide)
    (outDec_num (pairs o) 4 3 (by omega) (by decide) (by decide))
  have hops : operandList (parseOperand (plug E addr)) 2 (outDec .fairchild o 4 3) =
      .ok (.ok ([{ mode := m', val := ⟨4, .unsigned⟩ }], [])) := by
    have := g2 [] (Or.inl rfl)
    rw [List.append_nil] at this
    unfold operandList
    rw [show outDec .fairchild o 4 3 = outDec .fairchild o 4 ((3 : Nat) : Int) from rfl, this]
    rfl
  unfold encodeImpl
  rw [hn.1.2, Out.ok_bind, if_pos (by decide), hops, Out.ok_bind]
  dsimp only
  rw [search_cls, show ((pad 2 ({} : Operand) [{ mode := m', val := ⟨4, .unsigned⟩ }]).map (·.mode)).map cls =
    [cls m', .NONE] from rfl, g1, k1, Out.ok_bind]
  dsimp only
  rw [k2, emit_pad (emit_none addr) 2 [_] [_] _ rfl (by decide)]
  have : emitList (encodeOperand addr) (([.C1] : List Mode).zip ([{ mode := m', val := ⟨4, .unsigned⟩ }] : List Operand))
      ⟨.OK, r.opcode, []⟩ = .ok ⟨.OK, (r.opcode + 2) % 256, []⟩ := rfl
  rw [this, Out.ok_bind, k3]
  unfold Asm.bytes
  dsimp only
  rw [Nat.mod_eq_of_lt hb]

/-- From the operands to the instruction. -/
theorem impl_of {E : Env} {addr b : Nat} {row : Row} {up : Bool} {t : List Char}
    {ops : List Operand} {a : Asm} (hn : nameOk b row up = true) (h0 : modes row ≠ []) (h4 : modes row ≠ [.C4])
    (hops : operandList (parseOperand (plug E addr)) 2 t = .ok (.ok (ops, [])))
    (hm : ((pad 2 {} ops).map (·.mode)).map cls = pad 2 .NONE ((modes row).map (pmode b)))
    (he : emitList (encodeOperand addr) ((pad 2 .NONE (modes row)).zip (pad 2 {} ops)) ⟨.OK, row.opcode, []⟩ = .ok a) :
    encodeImpl (plug E addr) addr (row.name.map (letter up)) t = .ok ⟨a.err, a.bytes, []⟩ := by
  unfold nameOk at hn
  rw [if_neg h4] at hn
  simp only [Bool.and_eq_true, decide_eq_true_eq] at hn
  unfold encodeImpl
  rw [hn.1.2, Out.ok_bind, decide_eq_true h0, if_pos rfl, hops, Out.ok_bind]
  dsimp only
  rw [search_cls, hm, rowIs_eq hn.2, Out.ok_bind]
  dsimp only
  rw [he, Out.ok_bind]

/-- The operands of an entry, after its code. -/
theorem operands_back {E : Env} {o : Opts} {addr b : Nat} {row : Row}
    {mem : List Nat} (hsym : o.relative = true → o.curSym ∈ ['*', '$', '.']) (ha : addr < 65536) (hb : b < 256)
    (hmem : ∀ x ∈ mem, x < 256) (hrow : rowOk b row = true) (hc4 : modes row ≠ [.C4]) (h0 : modes row ≠ [])
    (he : (decodeList (decodeOperand o addr b) (modes row) ⟨mem, [b], .OK⟩).2.err = .OK) :
    ∃ ops a bs, operandList (parseOperand (plug E addr)) 2
        (decodeList (decodeOperand o addr b) (modes row) ⟨mem, [b], .OK⟩).1 = .ok (.ok (ops, [])) ∧
      ((pad 2 {} ops).map (·.mode)).map cls = pad 2 .NONE ((modes row).map (pmode b)) ∧
      emitList (encodeOperand addr) ((pad 2 .NONE (modes row)).zip (pad 2 {} ops)) ⟨.OK, row.opcode, []⟩ = .ok a ∧
      a.err = .OK ∧ a.opc = b ∧ a.ops = bs ∧
      Took ⟨mem, [b], .OK⟩ (decodeList (decodeOperand o addr b) (modes row) ⟨mem, [b], .OK⟩).2 bs := by
  have hrow' := hrow
  simp only [rowOk, Bool.and_eq_true, List.all_eq_true, decide_eq_true_eq, Bool.or_eq_true, beq_iff_eq] at hrow'
  obtain ⟨⟨w2, w3⟩, w4⟩ := hrow'
  have noc4 : ∀ m ∈ modes row, m ≠ .C4 := by
    intro m hm hx
    rcases (w3 m hm).2 with h | h
    · exact h hx
    · exact hc4 h
  have room : Room (modes row).length ⟨mem, [b], .OK⟩ := ⟨hmem, by simp only [List.length_singleton]; omega⟩
  obtain ⟨ops, hc, hops⟩ := list_reads (Rel := Rel b addr) (parse := parseOperand (plug E addr))
    (fun s => by
      rw [← parse_skip _ (' ' :: s), ← parse_skip _ s]
      rfl)
    (fun m r => operand_mono m r) (fun m r r' op h => by
      obtain ⟨bs, k1, k2, _⟩ := h.vals
      exact ⟨bs, k1, k2⟩)
    (modes row) 2 _ h0 w2 room
    (fun m hm k r hr h => operand_reads hsym ha ⟨(w3 m hm).1.1.1, (w3 m hm).1.1.2⟩ hb hr h) he
  have hl := chain_length _ _ _ _ hc
  obtain ⟨bs, ht⟩ := chain_took (fun m r r' op h => by
      obtain ⟨bs, k1, _⟩ := h.vals
      exact ⟨bs, k1⟩) _ _ _ _ he hc
  have hmap : ((pad 2 {} ops).map (·.mode)).map cls = pad 2 .NONE ((modes row).map (pmode b)) := by
    rw [pad_cls, chain_map (f := pmode b) (g := fun op : Operand => cls op.mode) (fun m r r' op h => h.mode) _ _ _ _ hc]
  have S0 : Sync b row ⟨.OK, row.opcode, []⟩ ⟨mem, [b], .OK⟩ row.opcode := ⟨rfl, rfl, Or.inl rfl, rfl⟩
  obtain ⟨a, g1, g2⟩ := chain_emit (Rel := Rel b addr) (Sync := Sync b row)
    (emit := encodeOperand addr) (emb := fun m c => if (field b m).isSome then b else c) (modes row) _ _ ops _ _
    (fun m hm r r' op a c h hs => emit_one hrow hb hm (noc4 m hm) ha h hs) hc S0
  refine ⟨ops, a, bs, hops, hmap, ?_, g2.err, ?_, ?_, ht⟩
  · rw [emit_pad (emit_none addr) 2 _ _ _ hl w2]
    exact g1
  · rw [g2.opc]
    have fold : ∀ (ms : List Mode) (c : Nat), (ms.any (fun m => (field b m).isSome) = true ∨ c = b) →
        ms.foldl (fun c m => if (field b m).isSome = true then b else c) c = b := by
      intro ms
      induction ms with
      | nil =>
        intro c h
        rcases h with h | h
        · cases h
        · exact h
      | cons m ms ih =>
        intro c h
        rw [List.foldl_cons]
        apply ih
        rw [List.any_cons, Bool.or_eq_true] at h
        rcases h with (h | h) | h
        · right; rw [if_pos h]
        · exact Or.inl h
        · right; rw [h]; split <;> rfl
    exact fold _ _ w4
  · have := g2.bytes
    rw [ht.bytes] at this
    exact (List.cons.inj this).2.symm

/-- What the disassembler prints of any bytes it takes without error assembles at the same address to
the same bytes without error, and nothing of the line is left; the bytes are the first of those given. Where
targets are printed relative, the symbol of the location is one that the assembler knows. -/
theorem C71 (o : Opts) (E : Env) (addr : Nat) (mem : List Nat) (sep : List Char)
    (hsym : o.relative = true → o.curSym ∈ ['*', '$', '.'])
    (haddr : addr < 2 ^ 16) (hbytes : ∀ b ∈ mem, b < 256) (hmem : mem ≠ [])
    (hsep : sep ≠ [] ∧ ∀ c ∈ sep, Ctype.isSpace c = true)
    (hd : (disassemble o addr mem).err = .OK) :
    assemble E addr ((disassemble o addr mem).name ++ sep ++ (disassemble o addr mem).operands) =
      .ok (.insn ⟨.OK, (disassemble o addr mem).bytes, []⟩) ∧
    (disassemble o addr mem).bytes ≠ [] ∧
    (disassemble o addr mem).bytes <+: mem := by
  have ha : addr < 65536 := haddr
  have hok : Config.checkAddr 16 addr false = .OK := address_ok (by decide) haddr
  have hdis : disassemble o addr mem = decodeImpl o addr mem := by
    unfold disassemble decode
    rw [if_neg (by rw [hok]; simp)]
  rw [hdis] at hd ⊢
  cases mem with
  | nil => exact absurd rfl hmem
  | cons b rest =>
  have hb : b < 256 := hbytes b (List.mem_cons_self ..)
  have hrest : ∀ x ∈ rest, x < 256 := fun x hx => hbytes x (List.mem_cons_of_mem _ hx)
  unfold decodeImpl at hd ⊢
  rw [byte_some hb] at hd ⊢
  dsimp only [List.nil_append] at hd ⊢
  have hcode := codes_ok b hb
  unfold codeOk at hcode
  cases hrow : searchOpCode b with
  | none => rw [hrow] at hd; cases hd
  | some row =>
    rw [hrow] at hd hcode
    dsimp only at hd hcode ⊢
    simp only [Bool.and_eq_true] at hcode
    have hname : nameOk b row o.upper = true := by
      cases o.upper
      · exact hcode.1.2
      · exact hcode.2
    have hn : nameB syntaxOf (row.name.map (letter o.upper)) = true := by
      unfold nameOk at hname
      simp only [Bool.and_eq_true] at hname
      exact hname.1.1
    by_cases h0 : modes row = []
    · have e3 := impl_bare (E := E) (addr := addr) hname hcode.1.1 hb h0
      rw [h0]
      exact ⟨encode_operands syntaxOk hn hsep (impl_skip _ _ _ _) hok e3, List.cons_ne_nil _ _, _, rfl⟩
    by_cases h4 : modes row = [.C4]
    · have e3 := impl_shift (E := E) (o := o) (addr := addr) hname hb h4
      rw [h4]
      exact ⟨encode_operands syntaxOk hn hsep (impl_skip _ _ _ _) hok e3, List.cons_ne_nil _ _, _, rfl⟩
    obtain ⟨ops, a, bs, h1, h2, h3, h4', h5, h6, h7⟩ := operands_back (E := E) hsym ha hb hrest hcode.1.1 h4 h0 hd
    have e1 : (decodeList (decodeOperand o addr b) (modes row) ⟨rest, [b], .OK⟩).2.bytes = b :: bs := h7.bytes
    have e2 : rest = bs ++ (decodeList (decodeOperand o addr b) (modes row) ⟨rest, [b], .OK⟩).2.mem := h7.mem
    rw [e1]
    refine ⟨?_, List.cons_ne_nil _ _, _, by rw [List.cons_append, ← e2]⟩
    have e3 := impl_of hname h0 h4 h1 h2 h3
    have e4 : a.bytes = b :: bs := by
      unfold Asm.bytes
      rw [h5, h6, Nat.mod_eq_of_lt hb]
    rw [h4', e4] at e3
    exact encode_operands syntaxOk hn hsep (impl_skip _ _ _ _) hok e3

/-- The hypotheses of `C71` hold of a scratchpad register with a name and one without, of a shift by four, of a
branch with bits of the status, of a relative target, of a port and of an address. -/
example :
    (disassemble (.default '$') 0 [0x49]).err = .OK ∧
    (disassemble (.default '$') 0 [0x49]).operands = "A, J".toList ∧
    (disassemble (.default '$') 0 [0x48]).operands = "A, 8".toList ∧
    (disassemble (.default '$') 0 [0x15]).name = "SL".toList ∧
    (disassemble (.default '$') 0 [0x15]).operands = "4".toList ∧
    (disassemble (.default '$') 0x1000 [0x85, 0x80]).err = .OK ∧
    (disassemble (.default '$') 0x1000 [0x85, 0x80]).operands = "5, H'0F81'".toList ∧
    (disassemble { Opts.default '*' with relative := true } 0x1000 [0x90, 0xfe]).err = .OK ∧
    (disassemble { Opts.default '*' with relative := true } 0x1000 [0x90, 0xfe]).operands = "*-1".toList ∧
    (disassemble (.default '$') 0 [0x26, 0x03]).err = .OPERAND_NOT_ALLOWED ∧
    (disassemble (.default '$') 0 [0x26, 0x04]).operands = "4".toList ∧
    (disassemble (.default '$') 0xffff [0x2a, 0x12, 0x34]).operands = "H'1234'".toList := by
  decide +kernel

end Libasm.Cpu.F3850
