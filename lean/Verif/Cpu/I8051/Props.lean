import Verif.Cpu.I8051.Encode
/-
C61: what the i8051 disassembler prints assembles to the bytes it read.
-/
namespace Libasm.Cpu.I8051
open Scan Number Number.Spec Eval
open Tables (Row)

theorem syntaxOk : SyntaxOk syntaxOf := by
  constructor
  · intro c hc
    exact Ctype.ascii (p := fun c => Ctype.isSpace c = true → syntaxOf.instructionLetter c = false)
      (by decide +kernel) c (space_ascii hc) hc
  · intro c s hc
    exact Ctype.ascii (p := fun c => Ctype.isAlpha c = true → (c == '\x00' || c == ';') = false)
      (by decide +kernel) c (alpha_ascii hc) hc

theorem skip_skip (s : Scan) : skipSpaces (skipSpaces s) = skipSpaces s := by
  unfold skipSpaces trimStart
  induction s with
  | nil => rfl
  | cons c s ih =>
    rw [List.dropWhile_cons]
    split
    · exact ih
    · rw [List.dropWhile_cons, if_neg (by assumption)]

theorem parse_skip (P : Char → Plugins Value) (s : Scan) : parseOperand P (skipSpaces s) = parseOperand P s := by
  unfold parseOperand
  rw [skip_skip]

theorem impl_skip (P : Char → Plugins Value) (smart : Bool) (addr : Nat) (name : List Char) (s : Scan) :
    encodeImpl P smart addr name (skipSpaces s) = encodeImpl P smart addr name s := by
  unfold encodeImpl
  rw [operands_skip (parse_skip P)]

theorem emit_none (smart : Bool) (addr : Nat) (a : Asm) : encodeOperand smart addr .NONE {} a = .ok a := by
  unfold encodeOperand
  rw [Asm.noError]

theorem pad_none (ops : List Operand) :
    (pad 3 {} ops).map (·.mode) = pad 3 .NONE (ops.map (·.mode)) := pad_map _ _ _ _

/-- From the operands to the instruction. -/
theorem impl_of {E : Env} {addr : Nat} {row : Row} {up : Bool} {t : List Char} {ops : List Operand} {a : Asm}
    (hn : nameOk row up = true)
    (hops : operandList (parseOperand (plug E addr)) 3 t = .ok (.ok (ops, [])))
    (hm : (pad 3 {} ops).map (·.mode) = pad 3 .NONE ((modes row).map pmode))
    (he : encodeOperands false addr row (pad 3 {} ops) ⟨.OK, row.opcode, []⟩ = .ok a) :
    encodeImpl (plug E addr) false addr (row.name.map (letter up)) t = .ok ⟨a.err, a.bytes, []⟩ := by
  unfold nameOk at hn
  simp only [Bool.and_eq_true] at hn
  unfold encodeImpl
  rw [hops, Out.ok_bind]
  dsimp only
  rw [hm, rowIs_eq hn.2, Out.ok_bind]
  dsimp only
  rw [he, Out.ok_bind]

theorem chain_one {b addr : Nat} {m : Mode} {r r' : Rd} {ops : List Operand}
    (h : Chain (Rel b addr) [m] r r' ops) : ∃ op, ops = [op] ∧ Rel b addr m r r' op := by
  cases ops with
  | nil => exact h.elim
  | cons op ops =>
    obtain ⟨r1, h1, h2⟩ := h
    cases ops with
    | nil =>
      have h2 : r1 = r' := h2
      exact ⟨op, rfl, h2 ▸ h1⟩
    | cons => exact h2.elim

theorem emit_jump {addr b c : Nat} {r r' : Rd} {op : Operand} (ha : addr < 65536) (hb : b < 256)
    (h : Rel b addr .ADR11 r r' op) (hr : r.bytes = [b]) (hc : (c ||| b / 32 * 32) % 256 = b) :
    ∃ v, Took r r' [v] ∧ encodeOperand false addr .ADR11 op ⟨.OK, c, []⟩ = .ok ⟨.OK, b, [v]⟩ := by
  obtain ⟨k1, k2, _, bs', k3, _, v, k4, k5, k6⟩ := h
  subst k5
  refine ⟨v, k3, ?_⟩
  have hlen : r'.bytes.length = 2 := by rw [k3.bytes, hr]; rfl
  rw [hlen] at k6
  unfold encodeOperand
  rw [k1, Asm.noError]
  dsimp only
  unfold encodeJump
  rw [k1, k6]
  dsimp only
  rw [if_neg (not_not_intro (rfl : Err.OK = .OK)), getUnsigned_nat (by omega), if_pos ⟨rfl, rfl⟩]
  have hblock : (block (addr + 2) != block ((addr + 2) % 65536 / 2048 * 2048 + b / 32 * 256 + v)) = false := by
    unfold block
    simp only [bne_eq_false_iff_eq]
    omega
  rw [hblock]
  show Out.ok (Asm.mk .OK ((c ||| _) % 256) [_]) = _
  have e2 : ((addr + 2) % 65536 / 2048 * 2048 + b / 32 * 256 + v) / 256 % 8 * 32 = b / 32 * 32 := by omega
  have e3 : ((addr + 2) % 65536 / 2048 * 2048 + b / 32 * 256 + v) % 256 = v := by omega
  rw [e2, e3, hc]

/-- The operands of an entry, after its code. -/
theorem operands_back {E : Env} {o : Opts} (hsym : o.relative = true → o.curSym = '$') {addr b : Nat} {row : Row}
    {mem : List Nat} (ha : addr < 65536) (hb : b < 256) (hmem : ∀ x ∈ mem, x < 256) (hrow : rowOk b row = true)
    (h2 : ¬ (dst row = .ADR8 ∧ src row = .ADR8))
    (he : (decodeList (decodeOperand o addr b) (modes row) ⟨mem, [b], .OK⟩).2.err = .OK) :
    ∃ ops a bs, operandList (parseOperand (plug E addr)) 3
        (decodeList (decodeOperand o addr b) (modes row) ⟨mem, [b], .OK⟩).1 = .ok (.ok (ops, [])) ∧
      (pad 3 {} ops).map (·.mode) = pad 3 .NONE ((modes row).map pmode) ∧
      encodeOperands false addr row (pad 3 {} ops) ⟨.OK, row.opcode, []⟩ = .ok a ∧
      a.err = .OK ∧ a.opc = b ∧ a.ops = bs ∧
      Took ⟨mem, [b], .OK⟩ (decodeList (decodeOperand o addr b) (modes row) ⟨mem, [b], .OK⟩).2 bs := by
  have hrow' := hrow
  simp only [rowOk, Bool.and_eq_true, List.all_eq_true, decide_eq_true_eq, Bool.or_eq_true, beq_iff_eq] at hrow'
  obtain ⟨⟨⟨⟨⟨w1, w2⟩, w3⟩, w4⟩, w5⟩, w6⟩ := hrow'
  have eo : ∀ ops a, encodeOperands false addr row ops a =
      emitList (encodeOperand false addr) ((pad 3 .NONE (modes row)).zip ops) a := by
    intro ops a
    unfold encodeOperands
    rw [if_neg h2]
  by_cases h0 : modes row = []
  · rw [h0]
    refine ⟨[{}], ⟨.OK, row.opcode, []⟩, [], rfl, rfl, ?_, rfl, ?_, rfl, Took.refl rfl⟩
    · rw [eo, h0]
      exact emit_pad (emit_none false addr) 3 [] [] _ rfl (by decide)
    · rw [h0] at w4
      rcases w4 with w4 | w4
      · cases w4
      · exact w4
  · have room : Room (modes row).length ⟨mem, [b], .OK⟩ := ⟨hmem, by simp only [List.length_singleton]; omega⟩
    obtain ⟨ops, hc, hops⟩ := list_reads (Rel := Rel b addr) (parse := parseOperand (plug E addr))
      (fun s => by
        rw [← parse_skip _ (' ' :: s), ← parse_skip _ s]
        rfl)
      (fun m r => operand_mono m r) (fun m r r' op h => by
        obtain ⟨bs, k1, k2, _⟩ := h.vals
        exact ⟨bs, k1, k2⟩)
      (modes row) 3 _ h0 w2 room
      (fun m hm k r hr h => operand_reads hsym ⟨(w3 m hm).1.1.1.1, (w3 m hm).1.1.1.2⟩ ha hb hr h) he
    have hl := chain_length _ _ _ _ hc
    obtain ⟨bs, ht⟩ := chain_took (fun m r r' op h => by
        obtain ⟨bs, k1, _⟩ := h.vals
        exact ⟨bs, k1⟩) _ _ _ _ he hc
    have hmap : (pad 3 {} ops).map (·.mode) = pad 3 .NONE ((modes row).map pmode) := by
      rw [pad_none, chain_map (f := pmode) (g := fun op : Operand => op.mode) (fun m r r' op h => h.mode) _ _ _ _ hc]
    have fin : ∀ a, emitList (encodeOperand false addr) ((modes row).zip ops) ⟨.OK, row.opcode, []⟩ = .ok a →
        encodeOperands false addr row (pad 3 {} ops) ⟨.OK, row.opcode, []⟩ = .ok a := by
      intro a h
      rw [eo, emit_pad (emit_none false addr) 3 _ _ _ hl w2]
      exact h
    by_cases h11 : modes row = [.ADR11]
    · have hm := w3 .ADR11 (by rw [h11]; exact List.mem_singleton.2 rfl)
      have hm := hm.1.1.2
      simp only [emb, Bool.not_true, Bool.false_eq_true, false_or, field] at hm
      rw [h11] at hc hl fin hops ht hmap ⊢
      generalize decodeList (fun m r => decodeOperand o addr b m r) [.ADR11] ⟨mem, [b], .OK⟩ = D at *
      obtain ⟨op, rfl, hR⟩ := chain_one hc
      obtain ⟨v, g1, g2⟩ := emit_jump ha hb hR rfl hm.1
      have hbs : bs = [v] := by
        have h1 := ht.bytes
        rw [g1.bytes] at h1
        exact (List.append_cancel_left h1).symm
      refine ⟨[op], ⟨.OK, b, [v]⟩, bs, hops, hmap, fin _ ?_, rfl, rfl, hbs.symm, ht⟩
      show (encodeOperand false addr .ADR11 op ⟨.OK, row.opcode, []⟩).bind _ = _
      rw [g2]
      rfl
    · have S0 : Sync b row ⟨.OK, row.opcode, []⟩ ⟨mem, [b], .OK⟩ row.opcode := ⟨rfl, rfl, Or.inl rfl, rfl⟩
      obtain ⟨a, g1, g2⟩ := chain_emit (Rel := Rel b addr) (Sync := Sync b row)
        (emit := encodeOperand false addr) (emb := fun m c => if emb m then b else c) (modes row) _ _ ops _ _
        (fun m hm r r' op a c h hs => emit_one hrow hb hm (by
          intro hx
          rcases (w3 m hm).2 with h | h
          · exact h hx
          · exact h11 h) ha h hs) hc S0
      refine ⟨ops, a, bs, hops, hmap, fin a g1, g2.err, ?_, ?_, ht⟩
      · rw [g2.opc]
        have fold : ∀ (ms : List Mode) (c : Nat), (ms.any emb = true ∨ c = b) →
            ms.foldl (fun c m => if emb m = true then b else c) c = b := by
          intro ms
          induction ms with
          | nil =>
            intro c h
            rcases h with h | h
            · cases h
            · exact h
          | cons m ms ih =>
            intro c h
            rw [List.foldl_cons]
            apply ih
            rw [List.any_cons, Bool.or_eq_true] at h
            rcases h with (h | h) | h
            · right; rw [if_pos h]
            · exact Or.inl h
            · right; rw [h]; split <;> rfl
        exact fold _ _ w4
      · have := g2.bytes
        rw [ht.bytes] at this
        exact (List.cons.inj this).2.symm

/-- The operands of `MOV dst, src`, in the other order. -/
theorem move_back {E : Env} {o : Opts} {addr b : Nat} {row : Row}
    {mem : List Nat} (hmem : ∀ x ∈ mem, x < 256) (hrow : rowOk b row = true)
    (h2 : dst row = .ADR8 ∧ src row = .ADR8)
    (he : (decodeMove o ⟨mem, [b], .OK⟩).2.err = .OK) :
    ∃ ops a bs, operandList (parseOperand (plug E addr)) 3 (decodeMove o ⟨mem, [b], .OK⟩).1 = .ok (.ok (ops, [])) ∧
      (pad 3 {} ops).map (·.mode) = pad 3 .NONE ((modes row).map pmode) ∧
      encodeOperands false addr row (pad 3 {} ops) ⟨.OK, row.opcode, []⟩ = .ok a ∧
      a.err = .OK ∧ a.opc = b ∧ a.ops = bs ∧
      Took ⟨mem, [b], .OK⟩ (decodeMove o ⟨mem, [b], .OK⟩).2 bs := by
  simp only [rowOk, Bool.and_eq_true, List.all_eq_true, decide_eq_true_eq, Bool.or_eq_true, beq_iff_eq] at hrow
  obtain ⟨⟨⟨⟨⟨_, _⟩, _⟩, _⟩, _⟩, w6⟩ := hrow
  have w6 := w6.resolve_left (by simp [h2])
  obtain ⟨⟨w7, rfl⟩, w8⟩ := w6
  unfold decodeMove at he ⊢
  dsimp only at he ⊢
  have hm1 := byte_mem (r := ⟨mem, [0x85], .OK⟩) hmem
  obtain ⟨a2, t2⟩ := byte_took hm1 he
  obtain ⟨a1, t1⟩ := byte_took (r := ⟨mem, [0x85], .OK⟩) hmem (byte_err he)
  generalize (⟨mem, [0x85], .OK⟩ : Rd).byte = p1 at *
  obtain ⟨v1, r1⟩ := p1
  dsimp only at *
  generalize r1.byte = p2 at *
  obtain ⟨v2, r2⟩ := p2
  dsimp only at *
  have n1 := outAbsAddr_num (intel_pairs o) v1 8 a1 (by decide) (by decide)
  have n2 := outAbsAddr_num (intel_pairs o) v2 8 a2 (by decide) (by decide)
  have hreg : ∀ {t : List Char} {v : Nat} (_ : NumText .intel .intel t v) (rest),
      searchText regs (t ++ rest) = .ok none := fun h rest => reg_none regsOk regsNo (h.lead.append rest)
  have p2 := plain_reads (E := E) (addr := addr) (expr_num n2) (hreg n2 _)
    (rest := ',' :: ' ' :: outAbsAddr .intel o 8 v1) (Or.inr ⟨_, rfl⟩)
  have p1 := plain_reads (E := E) (addr := addr) (expr_num n1) (hreg n1 []) (rest := []) (Or.inl rfl)
  rw [List.append_nil] at p1
  have p1' : parseOperand (plug E addr) (' ' :: outAbsAddr .intel o 8 v1) = _ := p1
  refine ⟨[{ mode := .ADR16, val := ⟨v2, .unsigned⟩ }, { mode := .ADR16, val := ⟨v1, .unsigned⟩ }],
    ⟨.OK, 0x85, [v1, v2]⟩, [v1, v2], ?_, by rw [w7]; rfl, ?_, rfl, rfl, rfl, t1.trans t2⟩
  · unfold operandList
    rw [p2, Out.ok_bind]
    show Out.bind (operandList _ 2 (' ' :: outAbsAddr .intel o 8 v1)) _ = _
    unfold operandList
    rw [p1', Out.ok_bind]
    rfl
  · unfold encodeOperands
    rw [if_pos h2, w8]
    have o1 : (⟨v1, .unsigned⟩ : Value).overflow 255 0 = false := overflow_num (by omega) (by omega) (by omega)
    have o2 : (⟨v2, .unsigned⟩ : Value).overflow 255 0 = false := overflow_num (by omega) (by omega) (by omega)
    have one : ∀ (v : Nat) (ops : List Nat), v < 256 → (⟨v, .unsigned⟩ : Value).overflow 255 0 = false →
        encodeOperand false addr .ADR8 { mode := .ADR16, val := ⟨v, .unsigned⟩ } ⟨.OK, 0x85, ops⟩ =
          .ok ⟨.OK, 0x85, ops ++ [v]⟩ := by
      intro v ops hv ho
      unfold encodeOperand
      dsimp only
      rw [Asm.noError, ho, getUnsigned_nat (by omega)]
      show Out.ok (Asm.mk .OK 0x85 (ops ++ [v % 256])) = _
      rw [Nat.mod_eq_of_lt hv]
    show Out.bind (encodeOperand false addr .ADR8 { mode := .ADR16, val := ⟨v1, .unsigned⟩ } ⟨.OK, 0x85, []⟩) _ = _
    rw [one v1 _ a1 o1, Out.ok_bind]
    show Out.bind (encodeOperand false addr .ADR8 { mode := .ADR16, val := ⟨v2, .unsigned⟩ } ⟨.OK, 0x85, [] ++ [v1]⟩) _ = _
    rw [one v2 _ a2 o2, Out.ok_bind]
    rfl

/-- What the disassembler prints of any bytes it takes without error assembles at the same address to
the same bytes without error, and nothing of the line is left; the bytes are the first of those given.
With the option `relative` the location symbol must be the `$` the assembler knows; the option
`smart-branch` of the assembler is off, it is there to choose other jumps. -/
theorem C61 (o : Opts) (E : Env) (addr : Nat) (mem : List Nat) (sep : List Char)
    (ha : addr < 2 ^ 16) (hbytes : ∀ b ∈ mem, b < 256) (hmem : mem ≠ [])
    (hsep : sep ≠ [] ∧ ∀ c ∈ sep, Ctype.isSpace c = true)
    (hsym : o.relative = true → o.curSym = '$')
    (hd : (disassemble o addr mem).err = .OK) :
    assemble E false addr ((disassemble o addr mem).name ++ sep ++ (disassemble o addr mem).operands) =
      .ok (.insn ⟨.OK, (disassemble o addr mem).bytes, []⟩) ∧
    (disassemble o addr mem).bytes ≠ [] ∧
    (disassemble o addr mem).bytes <+: mem := by
  have hdis : disassemble o addr mem = decodeImpl o addr mem := by
    unfold disassemble decode
    rw [address_ok (by decide) ha]
    rfl
  rw [hdis] at hd ⊢
  cases mem with
  | nil => exact absurd rfl hmem
  | cons b rest =>
  have hb : b < 256 := hbytes b (List.mem_cons_self ..)
  have hrest : ∀ x ∈ rest, x < 256 := fun x hx => hbytes x (List.mem_cons_of_mem _ hx)
  unfold decodeImpl at hd ⊢
  rw [byte_some hb] at hd ⊢
  dsimp only [List.nil_append] at hd ⊢
  have hcode := codes_ok b hb
  unfold codeOk at hcode
  cases hrow : searchOpCode b with
  | none => rw [hrow] at hd; cases hd
  | some row =>
    rw [hrow] at hd hcode
    dsimp only at hd hcode ⊢
    simp only [Bool.and_eq_true] at hcode
    have hname : nameOk row o.upper = true := by
      cases o.upper
      · exact hcode.1.2
      · exact hcode.2
    have hn : nameB syntaxOf (row.name.map (letter o.upper)) = true := by
      unfold nameOk at hname
      simp only [Bool.and_eq_true] at hname
      exact hname.1
    have fin : ∀ (t : List Char) (r' : Rd), (∃ ops a bs,
        operandList (parseOperand (plug E addr)) 3 t = .ok (.ok (ops, [])) ∧
        (pad 3 {} ops).map (·.mode) = pad 3 .NONE ((modes row).map pmode) ∧
        encodeOperands false addr row (pad 3 {} ops) ⟨.OK, row.opcode, []⟩ = .ok a ∧
        a.err = .OK ∧ a.opc = b ∧ a.ops = bs ∧ Took ⟨rest, [b], .OK⟩ r' bs) →
        assemble E false addr (outText o row.name ++ sep ++ t) = .ok (.insn ⟨.OK, r'.bytes, []⟩) ∧
        r'.bytes ≠ [] ∧ r'.bytes <+: b :: rest := by
      rintro t r' ⟨ops, a, bs, h1, h2, h3, h4, h5, h6, h7⟩
      have e1 : r'.bytes = b :: bs := h7.bytes
      have e2 : rest = bs ++ r'.mem := h7.mem
      rw [e1]
      refine ⟨?_, List.cons_ne_nil _ _, r'.mem, by rw [e2]; rfl⟩
      have e3 := impl_of hname h1 h2 h3
      have e4 : a.bytes = b :: bs := by
        unfold Asm.bytes
        rw [h5, h6, Nat.mod_eq_of_lt hb]
      rw [h4, e4] at e3
      exact encode_operands syntaxOk hn hsep (impl_skip _ _ _ _ _) (address_ok (by decide) ha) e3
    by_cases h2 : dst row = .ADR8 ∧ src row = .ADR8
    · rw [if_pos h2] at hd ⊢
      exact fin _ _ (move_back hrest hcode.1.1 h2 hd)
    · rw [if_neg h2] at hd ⊢
      exact fin _ _ (operands_back hsym ha hb hrest hcode.1.1 h2 hd)

/-- The hypotheses of `C61` hold of an instruction with three operands, of a move between two addresses, of
a bit, of a jump in its block of 2048 bytes, of a relative target. -/
example :
    (disassemble (.default '$') 0x1000 [0xb5, 0x12, 0xfd]).err = .OK ∧
    (disassemble (.default '$') 0x1000 [0xb5, 0x12, 0xfd]).operands = "A, 12H, 1000H".toList ∧
    (disassemble (.default '$') 0 [0x85, 0x12, 0xf0]).name = "MOV".toList ∧
    (disassemble (.default '$') 0 [0x85, 0x12, 0xf0]).operands = "0F0H, 12H".toList ∧
    (disassemble (.default '$') 0 [0xb0, 0xe7]).operands = "C, /0E0H.7".toList ∧
    (disassemble (.default '$') 0x17fe [0xe1, 0x34]).err = .OK ∧
    (disassemble (.default '$') 0x17fe [0xe1, 0x34]).operands = "1F34H".toList ∧
    (disassemble ⟨true, false, false, true, false, false, '$'⟩ 0x1000 [0xdf, 0x90]).err = .OK ∧
    (disassemble ⟨true, false, false, true, false, false, '$'⟩ 0x1000 [0xdf, 0x90]).operands =
      "r7, $-110".toList := by
  decide +kernel

/-- Without memory, where `C61` says nothing, an instruction is found without error; it is not the one that is
there, for there is none. -/
theorem no_memory_no_error :
    (disassemble (.default '$') 0 []).err = .OK ∧ (disassemble (.default '$') 0 []).name = "NOP".toList ∧
    (disassemble (.default '$') 0 []).bytes = [] := by
  decide +kernel

end Libasm.Cpu.I8051
