import Verif.Cpu.Tms7000.Encode
/-
C72: what the tms7000 disassembler prints assembles to the bytes it read.
-/
namespace Libasm.Cpu.Tms7000
open Scan Number Number.Spec Eval
open Tables (Row)

theorem syntaxOk : SyntaxOk syntaxOf := by
  constructor
  · intro c hc
    exact Ctype.ascii (p := fun c => Ctype.isSpace c = true → syntaxOf.instructionLetter c = false)
      (by decide +kernel) c (space_ascii hc) hc
  · intro c s hc
    exact Ctype.ascii (p := fun c => Ctype.isAlpha c = true → (c == '*' || c == ';') = false)
      (by decide +kernel) c (alpha_ascii hc) hc

theorem skip_skip (s : Scan) : skipSpaces (skipSpaces s) = skipSpaces s := by
  unfold skipSpaces trimStart
  induction s with
  | nil => rfl
  | cons c s ih =>
    rw [List.dropWhile_cons]
    split
    · exact ih
    · rw [List.dropWhile_cons, if_neg (by assumption)]

theorem parse_skip (P : Plugins Value) (s : Scan) : parseOperand P (skipSpaces s) = parseOperand P s := by
  unfold parseOperand
  rw [skip_skip]

theorem impl_skip (P : Plugins Value) (addr : Nat) (name : List Char) (s : Scan) :
    encodeImpl P addr name (skipSpaces s) = encodeImpl P addr name s := by
  unfold encodeImpl
  rw [operands_skip (parse_skip P), skip_skip]

theorem emit_none (addr : Nat) (a : Asm) : encodeOperand addr .NONE {} a = .ok a := by
  unfold encodeOperand
  rw [Asm.noError]

theorem pad_none (ops : List Operand) :
    (pad 3 {} ops).map (·.mode) = pad 3 .NONE (ops.map (·.mode)) := pad_map _ _ _ _

/-- From the operands to the instruction. -/
theorem impl_of {E : Env} {addr b : Nat} {row : Row} {up : Bool} {t : List Char}
    {ops : List Operand} {a : Asm} (hn : nameOk b row up = true) (h0 : modes row ≠ [])
    (hops : operandList (parseOperand (plug E addr)) 3 t = .ok (.ok (ops, [])))
    (hm : ops.map (·.mode) ∈ choices b (modes row) 1)
    (he : emitList (encodeOperand addr) ((pad 3 .NONE (modes row)).zip (pad 3 {} ops)) ⟨.OK, row.opcode, []⟩ = .ok a) :
    encodeImpl (plug E addr) addr (row.name.map (letter up)) t = .ok ⟨a.err, a.bytes, []⟩ := by
  unfold nameOk at hn
  simp only [Bool.and_eq_true, decide_eq_true_eq, List.all_eq_true] at hn
  unfold encodeImpl
  rw [hn.1.2, Out.ok_bind, decide_eq_true h0, if_pos rfl, hops, Out.ok_bind]
  dsimp only
  rw [pad_none, rowIs_eq (hn.2 _ hm), Out.ok_bind]
  dsimp only
  rw [he, Out.ok_bind]

/-- An instruction without operands. -/
theorem impl_bare {E : Env} {addr b : Nat} {row : Row} {up : Bool} (hn : nameOk b row up = true)
    (hrow : rowOk b row = true) (hb : b < 256) (h0 : modes row = []) :
    encodeImpl (plug E addr) addr (row.name.map (letter up)) [] = .ok ⟨.OK, [b], []⟩ := by
  unfold nameOk at hn
  rw [h0] at hn
  simp only [Bool.and_eq_true, decide_eq_true_eq, List.all_eq_true] at hn
  have hopc : row.opcode = b := by
    unfold rowOk at hrow
    rw [h0] at hrow
    simpa using hrow
  unfold encodeImpl
  rw [hn.1.2, Out.ok_bind, if_neg (by decide), Out.ok_bind]
  dsimp only
  rw [show (pad 3 ({} : Operand) []).map (·.mode) = pad 3 .NONE [] from rfl,
    rowIs_eq (hn.2 [] (List.mem_singleton.2 rfl)), Out.ok_bind]
  dsimp only
  rw [h0, emit_pad (emit_none addr) 3 [] [] _ rfl (by decide), show emitList (encodeOperand addr) (([] : List Mode).zip
    ([] : List Operand)) ⟨.OK, row.opcode, []⟩ = .ok ⟨.OK, row.opcode, []⟩ from rfl, Out.ok_bind]
  unfold Asm.bytes
  dsimp only
  rw [hopc, Nat.mod_eq_of_lt hb]
  rfl

theorem trap_mode : ∀ v < 32, addressMode ⟨v, .unsigned⟩ = .ADRR := by decide

/-- A trap. -/
theorem impl_trap {E : Env} {o : Opts} (ho : Readable o) {addr b : Nat} {row : Row} {up : Bool}
    (hn : nameOk b row up = true) (hb : b < 256) (hb' : 0xE8 ≤ b) (hopc : row.opcode = 0xE8) (h4 : modes row = [.TRAP]) :
    encodeImpl (plug E addr) addr (row.name.map (letter up)) (outDec .texas o (0x1F - b % 32) 5) =
      .ok ⟨.OK, [b], []⟩ := by
  generalize hv : 0x1F - b % 32 = v
  have hv' : v < 32 := by omega
  have hnum : NumText .texas .texas (outDec .texas o v ((5 : Nat) : Int)) v :=
    outDec_num (pairs ho) v 5 (by omega) (by decide) (by decide)
  have hlead : ∃ c s, outDec .texas o v ((5 : Nat) : Int) = c :: s ∧ c ∈ '$' :: firsts .texas := by
    obtain ⟨c, s, h1, h2⟩ := lead_first hnum.lead
    exact ⟨c, s, h1, List.mem_cons_of_mem _ h2⟩
  obtain ⟨s1, s2⟩ := after_stop (E := E) (loc := addr) (rest := []) (Or.inl rfl)
  have hp := address_reads (E := E) (addr := addr) (rest := []) (Or.inl rfl) hlead
    (eval_const (const_of lexOk hnum E '\x00' addr) s1 s2)
  rw [trap_mode v hv', List.append_nil] at hp
  have hops : operandList (parseOperand (plug E addr)) 3 (outDec .texas o v 5) =
      .ok (.ok ([{ mode := .ADRR, val := ⟨v, .unsigned⟩ }], [])) := by
    unfold operandList
    rw [show outDec .texas o v 5 = outDec .texas o v ((5 : Nat) : Int) from rfl, hp]
    rfl
  have hem : emitList (encodeOperand addr) ((pad 3 .NONE (modes row)).zip
      (pad 3 {} [({ mode := .ADRR, val := ⟨v, .unsigned⟩ } : Operand)])) ⟨.OK, row.opcode, []⟩ = .ok ⟨.OK, b, []⟩ := by
    rw [h4, emit_pad (emit_none addr) 3 [_] [_] _ rfl (by decide)]
    have hover : (⟨v, .unsigned⟩ : Value).overflow 0x17 0 = false := overflow_num (by omega) (by omega) (by omega)
    have : encodeOperand addr .TRAP { mode := .ADRR, val := ⟨v, .unsigned⟩ } ⟨.OK, row.opcode, []⟩ =
        .ok ⟨.OK, b, []⟩ := by
      unfold encodeOperand
      rw [Asm.noError]
      dsimp only
      rw [hover, getUnsigned_nat (by omega), hopc]
      unfold Config.W
      rw [show (0xE8 + 23 + 4294967296 - v) % 256 = b by omega]
      rfl
    show (encodeOperand addr .TRAP { mode := .ADRR, val := ⟨v, .unsigned⟩ } ⟨.OK, row.opcode, []⟩).bind
      (emitList (encodeOperand addr) []) = _
    rw [this, Out.ok_bind]
    rfl
  have := impl_of hn (by rw [h4]; decide) hops (by
    rw [h4]
    have : ∀ b < 256, [Mode.ADRR] ∈ choices b [.TRAP] 1 := by decide +kernel
    exact this b hb) hem
  rw [this]
  unfold Asm.bytes
  dsimp only
  rw [Nat.mod_eq_of_lt hb]

/-- The operands of an entry, after its code. -/
theorem operands_back {E : Env} {o : Opts} {addr b : Nat} {row : Row} (ho : Readable o)
    {mem : List Nat} (hsym : o.relative = true → o.curSym = '$') (ha : addr < 65536)
    (hmem : ∀ x ∈ mem, x < 256) (hlen : (modes row).length ≤ 3) (hopc : row.opcode = b)
    (hms : ∀ m ∈ modes row, m ≠ .NONE ∧ m ≠ .UNDEF ∧ m ≠ .ADRR ∧ m ≠ .ADRP ∧ m ≠ .TRAP) (h0 : modes row ≠ [])
    (hx : ∀ p ∈ shortened b, (b :: mem)[p.1]? ≠ some p.2)
    (he : (decodeList (decodeOperand o addr b) (modes row) ⟨mem, [b], .OK⟩).2.err = .OK) :
    ∃ ops a bs, operandList (parseOperand (plug E addr)) 3
        (decodeList (decodeOperand o addr b) (modes row) ⟨mem, [b], .OK⟩).1 = .ok (.ok (ops, [])) ∧
      ops.map (·.mode) ∈ choices b (modes row) 1 ∧
      emitList (encodeOperand addr) ((pad 3 .NONE (modes row)).zip (pad 3 {} ops)) ⟨.OK, row.opcode, []⟩ = .ok a ∧
      a.err = .OK ∧ a.opc = b ∧ a.ops = bs ∧
      Took ⟨mem, [b], .OK⟩ (decodeList (decodeOperand o addr b) (modes row) ⟨mem, [b], .OK⟩).2 bs := by
  have room : Room (modes row).length ⟨mem, [b], .OK⟩ := ⟨hmem, by simp only [List.length_singleton]; omega⟩
  obtain ⟨ops, hc, hops⟩ := list_reads (Rel := Rel b addr) (parse := parseOperand (plug E addr))
    (fun s => by
      rw [← parse_skip _ (' ' :: s), ← parse_skip _ s]
      rfl)
    (fun m r => operand_mono m r) (fun m r r' op h => by
      obtain ⟨bs, k1, k2, _⟩ := h.vals
      exact ⟨bs, k1, k2⟩)
    (modes row) 3 _ h0 hlen room
    (fun m hm k r hr h => operand_reads ho hsym ha (hms m hm) hr h) he
  have hl := chain_length _ _ _ _ hc
  obtain ⟨bs, ht⟩ := chain_took (fun m r r' op h => by
      obtain ⟨bs, k1, _⟩ := h.vals
      exact ⟨bs, k1⟩) _ _ _ _ he hc
  have hmap := (chain_choices _ _ _ _ hc he (by
    intro p hp hq
    apply hx p hp
    have e1 : (b :: mem) = (decodeList (decodeOperand o addr b) (modes row) ⟨mem, [b], .OK⟩).2.bytes ++
        (decodeList (decodeOperand o addr b) (modes row) ⟨mem, [b], .OK⟩).2.mem := by
      rw [ht.bytes]
      show b :: mem = [b] ++ bs ++ _
      rw [List.append_assoc, ← ht.mem]
      rfl
    rw [e1, List.getElem?_append_left (List.getElem?_eq_some_iff.1 hq).1]
    exact hq)).1
  have S0 : Sync b ⟨.OK, row.opcode, []⟩ ⟨mem, [b], .OK⟩ row.opcode := ⟨rfl, hopc, rfl⟩
  obtain ⟨a, g1, g2⟩ := chain_emit (Rel := Rel b addr) (Sync := Sync b)
    (emit := encodeOperand addr) (emb := fun _ c => c) (modes row) _ _ ops _ _
    (fun m hm r r' op a c h hs => emit_one (hms m hm).2.2.2.2 ha h hs) hc S0
  refine ⟨ops, a, bs, hops, hmap, ?_, g2.err, g2.opc, ?_, ht⟩
  · rw [emit_pad (emit_none addr) 3 _ _ _ hl hlen]
    exact g1
  · have := g2.bytes
    rw [ht.bytes] at this
    exact (List.cons.inj this).2.symm

/-- What the disassembler prints of any bytes it takes without error assembles at the same address to
the same bytes without error, and nothing of the line is left; the bytes are the first of those given.
Missing are two cases in which it does not hold (`C72_violated_register`, `C72_violated_octal`): a byte of
an operand that names the register A or B by its number, 0 or 1, where there is a shorter instruction for the
register (`shortened`), and numbers in octal in the notation of Texas Instruments. Where targets
are printed relative, the symbol of the location is the one that the assembler knows. -/
theorem C72_partial (o : Opts) (E : Env) (addr : Nat) (mem : List Nat) (sep : List Char)
    (hoct : o.octal = true → o.cstyle = true ∨ o.intelHex = true)
    (hsym : o.relative = true → o.curSym = '$')
    (haddr : addr < 2 ^ 16) (hbytes : ∀ b ∈ mem, b < 256) (hmem : mem ≠ [])
    (hshort : ∀ b rest, mem = b :: rest → ∀ p ∈ shortened b, mem[p.1]? ≠ some p.2)
    (hsep : sep ≠ [] ∧ ∀ c ∈ sep, Ctype.isSpace c = true)
    (hd : (disassemble o addr mem).err = .OK) :
    assemble E addr ((disassemble o addr mem).name ++ sep ++ (disassemble o addr mem).operands) =
      .ok (.insn ⟨.OK, (disassemble o addr mem).bytes, []⟩) ∧
    (disassemble o addr mem).bytes ≠ [] ∧
    (disassemble o addr mem).bytes <+: mem := by
  have ha : addr < 65536 := haddr
  have hok : Config.checkAddr 16 addr false = .OK := address_ok (by decide) haddr
  have hdis : disassemble o addr mem = decodeImpl o addr mem := by
    unfold disassemble decode
    rw [if_neg (by rw [hok]; simp)]
  rw [hdis] at hd ⊢
  cases mem with
  | nil => exact absurd rfl hmem
  | cons b rest =>
  have hb : b < 256 := hbytes b (List.mem_cons_self ..)
  have hrest : ∀ x ∈ rest, x < 256 := fun x hx => hbytes x (List.mem_cons_of_mem _ hx)
  unfold decodeImpl at hd ⊢
  rw [byte_some hb] at hd ⊢
  dsimp only [List.nil_append] at hd ⊢
  have hcode := codes_ok b hb
  unfold codeOk at hcode
  cases hrow : searchOpCode b with
  | none => rw [hrow] at hd; cases hd
  | some row =>
    rw [hrow] at hd hcode
    dsimp only at hd hcode ⊢
    simp only [Bool.and_eq_true] at hcode
    have hname : nameOk b row o.upper = true := by
      cases o.upper
      · exact hcode.1.2
      · exact hcode.2
    have hn : nameB syntaxOf (row.name.map (letter o.upper)) = true := by
      unfold nameOk at hname
      simp only [Bool.and_eq_true] at hname
      exact hname.1.1
    by_cases h0 : modes row = []
    · have e3 := impl_bare (E := E) (addr := addr) hname hcode.1.1 hb h0
      rw [h0]
      exact ⟨encode_operands syntaxOk hn hsep (impl_skip _ _ _ _) hok e3, List.cons_ne_nil _ _, _, rfl⟩
    have hrow' := hcode.1.1
    simp only [rowOk, Bool.and_eq_true, List.all_eq_true, decide_eq_true_eq, Bool.or_eq_true, beq_iff_eq] at hrow'
    obtain ⟨w2, ⟨⟨h4, w3⟩, w4⟩ | ⟨w3, w4⟩⟩ := hrow'
    · have e3 := impl_trap (E := E) (o := o) hoct (addr := addr) hname hb w4 w3 h4
      rw [h4]
      exact ⟨encode_operands syntaxOk hn hsep (impl_skip _ _ _ _) hok e3, List.cons_ne_nil _ _, _, rfl⟩
    obtain ⟨ops, a, bs, h1, h2, h3, h4', h5, h6, h7⟩ := operands_back (E := E) hoct hsym ha hrest w2 w3 w4 h0
      (hshort b rest rfl) hd
    have e1 : (decodeList (decodeOperand o addr b) (modes row) ⟨rest, [b], .OK⟩).2.bytes = b :: bs := h7.bytes
    have e2 : rest = bs ++ (decodeList (decodeOperand o addr b) (modes row) ⟨rest, [b], .OK⟩).2.mem := h7.mem
    rw [e1]
    refine ⟨?_, List.cons_ne_nil _ _, _, by rw [List.cons_append, ← e2]⟩
    have e3 := impl_of hname h0 h1 h2 h3
    have e4 : a.bytes = b :: bs := by
      unfold Asm.bytes
      rw [h5, h6, Nat.mod_eq_of_lt hb]
    rw [h4', e4] at e3
    exact encode_operands syntaxOk hn hsep (impl_skip _ _ _ _) hok e3

/-- The hypotheses of `C72_partial` hold of registers by number and by name, of immediate data with and without
an index, of an address with an index, of a register with an address, of a target after other operands, also
relative, and of a trap. -/
example :
    (disassemble (.default '$') 0 [0x42, 0x7f, 0x80]).err = .OK ∧
    (disassemble (.default '$') 0 [0x42, 0x7f, 0x80]).operands = "R127, R128".toList ∧
    shortened 0x42 = [(1, 0), (1, 1), (2, 0), (2, 1)] ∧
    (disassemble (.default '$') 0 [0x52, 0x7f]).operands = "%>7F, B".toList ∧
    (disassemble (.default '$') 0 [0x88, 0x00, 0x34, 0x05]).operands = "%>0034, R5".toList ∧
    (disassemble (.default '$') 0 [0xa8, 0x12, 0x34, 0x05]).operands = "%>1234(B), R5".toList ∧
    (disassemble (.default '$') 0 [0xaa, 0x12, 0x34]).operands = "@>1234(B)".toList ∧
    (disassemble (.default '$') 0 [0x9a, 0x12]).operands = "*R18".toList ∧
    (disassemble (.default '$') 0 [0xa7, 0x12, 0x34, 0xfe]).operands = "%18, P52, >0002".toList ∧
    (disassemble { Opts.default '$' with relative := true } 0x1000 [0xa7, 0x12, 0x34, 0xfe]).err = .OK ∧
    (disassemble { Opts.default '$' with relative := true } 0x1000 [0xa7, 0x12, 0x34, 0xfe]).operands =
      "%18, P52, $+2".toList ∧
    (disassemble (.default '$') 0 [0xe8]).operands = "23".toList := by
  decide +kernel

/-- Every case that `shortened` names is one that does not come back: of each code the disassembler takes,
with a number that is `shortened` at its place. -/
theorem C72_violated_register : ∀ b < 256, (disassemble (.default '$') 0 [b, 5, 5, 5]).err = .OK →
    ∀ p ∈ shortened b, ∃ mem : List Nat, mem = [b, 5, 5, 5].set p.1 p.2 ∧
      (disassemble (.default '$') 0 mem).err = .OK ∧
      assemble noEnv 0 ((disassemble (.default '$') 0 mem).name ++ [' '] ++
        (disassemble (.default '$') 0 mem).operands) ≠ .ok (.insn ⟨.OK, (disassemble (.default '$') 0 mem).bytes, []⟩) := by
  have : ∀ b < 256, (disassemble (.default '$') 0 [b, 5, 5, 5]).err = .OK → ∀ p ∈ shortened b,
      (disassemble (.default '$') 0 ([b, 5, 5, 5].set p.1 p.2)).err = .OK ∧
      assemble noEnv 0 ((disassemble (.default '$') 0 ([b, 5, 5, 5].set p.1 p.2)).name ++ [' '] ++
        (disassemble (.default '$') 0 ([b, 5, 5, 5].set p.1 p.2)).operands) ≠
        .ok (.insn ⟨.OK, (disassemble (.default '$') 0 ([b, 5, 5, 5].set p.1 p.2)).bytes, []⟩) := by
    decide +kernel
  exact fun b hb he p hp => ⟨_, rfl, this b hb he p hp⟩

/-- What becomes of some: `DEC R0` is printed as `DEC A`, which is one byte; `DJNZ R0` to the farthest target is
printed as `DJNZ A`, from which that target is too far. -/
theorem C72_violated_register_cases :
    (disassemble (.default '$') 0 [0xd2, 0x00]).err = .OK ∧
    (disassemble (.default '$') 0 [0xd2, 0x00]).operands = "A".toList ∧
    assemble noEnv 0 "DEC A".toList = .ok (.insn ⟨.OK, [0xb2], []⟩) ∧
    (disassemble (.default '$') 0 [0xda, 0x00, 0x7f]).err = .OK ∧
    (disassemble (.default '$') 0 [0xda, 0x00, 0x7f]).operands = "A, >0082".toList ∧
    assemble noEnv 0 "DJNZ A, >0082".toList = .ok (.insn ⟨.OPERAND_TOO_FAR, [0xba, 0x80], []⟩) := by
  decide +kernel

/-- An octal number of a listing is read as a decimal one. -/
theorem C72_violated_octal :
    (disassemble { Opts.default '$' with octal := true } 0 [0x22, 0x64]).err = .OK ∧
    (disassemble { Opts.default '$' with octal := true } 0 [0x22, 0x64]).operands = "%144, A".toList ∧
    assemble noEnv 0 "MOV %144, A".toList = .ok (.insn ⟨.OK, [0x22, 0x90], []⟩) := by
  decide +kernel

end Libasm.Cpu.Tms7000
