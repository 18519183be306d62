import Verif.Cpu.Ins8070.Encode
/-
C74: what the ins8070 disassembler prints assembles to the bytes it read.
-/
namespace Libasm.Cpu.Ins8070
open Scan Number Number.Spec Eval
open Tables (Row)

theorem syntaxOk : SyntaxOk syntaxOf := by
  constructor
  · intro c hc
    exact Ctype.ascii (p := fun c => Ctype.isSpace c = true → syntaxOf.instructionLetter c = false)
      (by decide +kernel) c (space_ascii hc) hc
  · intro c s hc
    exact Ctype.ascii (p := fun c => Ctype.isAlpha c = true → (c == '\x00' || c == ';') = false)
      (by decide +kernel) c (alpha_ascii hc) hc

theorem skip_skip (s : Scan) : skipSpaces (skipSpaces s) = skipSpaces s := by
  unfold skipSpaces trimStart
  induction s with
  | nil => rfl
  | cons c s ih =>
    rw [List.dropWhile_cons]
    split
    · exact ih
    · rw [List.dropWhile_cons, if_neg (by assumption)]

theorem parse_skip (P : Plugins Value) (s : Scan) : parseOperand P (skipSpaces s) = parseOperand P s := by
  unfold parseOperand
  rw [skip_skip]

theorem impl_skip (P : Plugins Value) (addr : Nat) (name : List Char) (s : Scan) :
    encodeImpl P addr name (skipSpaces s) = encodeImpl P addr name s := by
  unfold encodeImpl
  rw [operands_skip (parse_skip P)]

theorem emit_none (addr : Nat) (row : Row) (a : Asm) : encodeOperand addr row .NONE {} a = .ok a := by
  unfold encodeOperand
  rw [Asm.noError]

theorem pad_none (ops : List Operand) :
    (pad 2 {} ops).map (·.mode) = pad 2 .NONE (ops.map (·.mode)) := pad_map _ _ _ _

/-- The operands of an entry, after its code. -/
theorem operands_back {E : Env} {o : Opts} {sharp : Bool} {addr b : Nat} {row : Row} (ho : Readable o)
    {mem : List Nat} (hsym : o.relative = true → o.curSym = '$' ∨ o.curSym = '.') (ha : addr < 65536)
    (hmem : ∀ x ∈ mem, x < 256) (hrow : rowOk b row = true)
    (hz : b ∈ branches → ∀ v, mem.head? = some v → (addr : Int) + 2 + int8 v ≠ 0)
    (he : (decodeList (decodeOperand o sharp addr b row) (modes row) ⟨mem, [b], .OK⟩).2.err = .OK) :
    ∃ ops bs, operandList (parseOperand (plug E addr)) 2
        (decodeList (decodeOperand o sharp addr b row) (modes row) ⟨mem, [b], .OK⟩).1 = .ok (.ok (ops, [])) ∧
      (∃ ms ∈ choices b (modes row), (pad 2 {} ops).map (·.mode) = pad 2 .NONE ms) ∧
      emitList (encodeOperand addr row) ((pad 2 .NONE (modes row)).zip (pad 2 {} ops)) ⟨.OK, row.opcode, []⟩ =
        .ok ⟨.OK, b, bs⟩ ∧
      Took ⟨mem, [b], .OK⟩ (decodeList (decodeOperand o sharp addr b row) (modes row) ⟨mem, [b], .OK⟩).2 bs := by
  unfold rowOk at hrow
  simp only [Bool.and_eq_true, beq_iff_eq, Bool.or_eq_true, Bool.not_eq_true', Bool.and_eq_false_iff] at hrow
  obtain ⟨⟨hopc, hshape⟩, hbr⟩ := hrow
  have hz' : ∀ m ∈ modes row, execute row = true → m = .PCR → ∀ v, mem.head? = some v → (addr : Int) + 2 + int8 v ≠ 0 := by
    intro m hm hx hp
    refine hz ?_
    rcases hbr with (h | h) | h
    · rw [hx] at h; cases h
    · rw [hp] at hm
      rw [List.contains_iff_mem.2 hm] at h
      cases h
    · exact List.contains_iff_mem.1 h
  split at hshape
  · rename_i h0
    rw [h0] at hopc he ⊢
    refine ⟨[{}], [], rfl, ⟨[], List.mem_singleton.2 rfl, rfl⟩, ?_, Took.refl rfl⟩
    show (encodeOperand addr row .NONE {} ⟨.OK, row.opcode, []⟩).bind _ = _
    rw [emit_none, Out.ok_bind]
    show (encodeOperand addr row .NONE {} ⟨.OK, row.opcode, []⟩).bind _ = _
    rw [emit_none, Out.ok_bind, show row.opcode = b from hopc]
    rfl
  · rename_i m h0
    rw [h0] at hopc he hz' ⊢
    obtain ⟨op, ⟨k1, bs, k2, k3, k4⟩, k5⟩ := operand_reads (E := E) ho hsym ha hshape hmem
      (hz' m (List.mem_singleton.2 rfl)) he
    refine ⟨[op], bs, ?_, ⟨[op.mode], ?_, rfl⟩, ?_, k2⟩
    · unfold operandList
      rw [show decodeList (decodeOperand o sharp addr b row) [m] ⟨mem, [b], .OK⟩ =
        decodeOperand o sharp addr b row m ⟨mem, [b], .OK⟩ from rfl, k5]
      rfl
    · unfold choices
      exact List.mem_flatMap.2 ⟨_, k1, List.mem_map.2 ⟨[], List.mem_singleton.2 rfl, rfl⟩⟩
    · show (encodeOperand addr row m op ⟨.OK, row.opcode, []⟩).bind _ = _
      rw [k4 _ rfl, Out.ok_bind]
      show (encodeOperand addr row .NONE {} _).bind _ = _
      rw [emit_none, Out.ok_bind]
      show Out.ok (Asm.mk .OK (emb b m row.opcode) ([] ++ bs)) = _
      rw [show emb b m row.opcode = b from hopc]
      rfl
  · rename_i m1 m2 h0
    rw [h0] at hopc he hz' ⊢
    simp only [Bool.and_eq_true] at hshape
    obtain ⟨hs1, hs2⟩ := hshape
    have he' : (decodeOperand o sharp addr b row m2 (decodeOperand o sharp addr b row m1 ⟨mem, [b], .OK⟩).2).2.err = .OK := he
    have he1 := operand_mono _ _ he'
    have hr1 : (decodeOperand o sharp addr b row m1 ⟨mem, [b], .OK⟩).2 = ⟨mem, [b], .OK⟩ := by
      cases m1 <;> first | rfl | cases hs1
    obtain ⟨op1, ⟨k1, bs1, k2, k3, k4⟩, k5⟩ := reg_operand (E := E) (addr := addr) hs1 he1
    obtain ⟨op2, ⟨l1, bs2, l2, l3, l4⟩, l5⟩ := operand_reads (E := E) ho hsym ha hs2 (r := _)
      (by rw [hr1]; exact hmem) (by rw [hr1]; exact hz' m2 (by simp)) he'
    rw [show decodeList (decodeOperand o sharp addr b row) [m1, m2] ⟨mem, [b], .OK⟩ =
        ((decodeOperand o sharp addr b row m1 ⟨mem, [b], .OK⟩).1 ++ ',' :: ' ' ::
          (decodeOperand o sharp addr b row m2 (decodeOperand o sharp addr b row m1 ⟨mem, [b], .OK⟩).2).1,
         (decodeOperand o sharp addr b row m2 (decodeOperand o sharp addr b row m1 ⟨mem, [b], .OK⟩).2).2) from rfl]
    have hb1 : bs1 = [] := by
      have := k2.bytes
      rw [hr1] at this
      simpa using this
    rw [hb1] at k4
    rw [hr1] at l2 l5 ⊢
    refine ⟨[op1, op2], bs2, ?_, ⟨[op1.mode, op2.mode], ?_, rfl⟩, ?_, l2⟩
    · unfold operandList
      dsimp only
      rw [k5 _ (Or.inr ⟨_, rfl⟩), Out.ok_bind]
      dsimp only
      rw [show skipSpaces (',' :: ' ' :: (decodeOperand o sharp addr b row m2 ⟨mem, [b], .OK⟩).1) =
        ',' :: ' ' :: (decodeOperand o sharp addr b row m2 ⟨mem, [b], .OK⟩).1 from rfl,
        show expect ',' (',' :: ' ' :: (decodeOperand o sharp addr b row m2 ⟨mem, [b], .OK⟩).1) =
          some (' ' :: (decodeOperand o sharp addr b row m2 ⟨mem, [b], .OK⟩).1) from rfl]
      dsimp only
      unfold operandList
      rw [← parse_skip, show skipSpaces (' ' :: (decodeOperand o sharp addr b row m2 ⟨mem, [b], .OK⟩).1) =
        skipSpaces (decodeOperand o sharp addr b row m2 ⟨mem, [b], .OK⟩).1 from rfl, parse_skip, l5]
      rfl
    · unfold choices
      refine List.mem_flatMap.2 ⟨_, k1, List.mem_map.2 ⟨[op2.mode], ?_, rfl⟩⟩
      unfold choices
      exact List.mem_flatMap.2 ⟨_, l1, List.mem_map.2 ⟨[], List.mem_singleton.2 rfl, rfl⟩⟩
    · show (encodeOperand addr row m1 op1 ⟨.OK, row.opcode, []⟩).bind _ = _
      rw [k4 _ rfl, Out.ok_bind]
      show (encodeOperand addr row m2 op2 _).bind _ = _
      rw [l4 _ rfl, Out.ok_bind]
      show Out.ok (Asm.mk .OK (emb b m2 (emb b m1 row.opcode)) ([] ++ [] ++ bs2)) = _
      rw [show emb b m2 (emb b m1 row.opcode) = b from hopc]
      rfl
  · cases hshape

/-- What the disassembler prints of any bytes it takes without error assembles at the same address to
the same bytes without error, and nothing of the line is left; the bytes are the first of those given. `sharp`
is the option for the letter before immediate data.
Missing are two cases in which it does not hold (`C74_violated_branch`, `C74_violated_octal`): a branch to the
address 0, and numbers in octal in the notation of National. Where targets are printed relative, the symbol of
the location is one that the assembler knows. -/
theorem C74_partial (o : Opts) (sharp : Bool) (E : Env) (addr : Nat) (mem : List Nat) (sep : List Char)
    (hoct : o.octal = true → o.cstyle = true ∨ o.intelHex = true)
    (hsym : o.relative = true → o.curSym = '$' ∨ o.curSym = '.')
    (haddr : addr < 2 ^ 16) (hbytes : ∀ b ∈ mem, b < 256) (hmem : mem ≠ [])
    (hbr : ∀ b d rest, mem = b :: d :: rest → b ∈ branches →
      (addr : Int) + 2 + (if d < 128 then (d : Int) else d - 256) ≠ 0)
    (hsep : sep ≠ [] ∧ ∀ c ∈ sep, Ctype.isSpace c = true)
    (hd : (disassemble o sharp addr mem).err = .OK) :
    assemble E addr ((disassemble o sharp addr mem).name ++ sep ++ (disassemble o sharp addr mem).operands) =
      .ok (.insn ⟨.OK, (disassemble o sharp addr mem).bytes, []⟩) ∧
    (disassemble o sharp addr mem).bytes ≠ [] ∧
    (disassemble o sharp addr mem).bytes <+: mem := by
  have ha : addr < 65536 := haddr
  have hok : Config.checkAddr 16 addr false = .OK := address_ok (by decide) haddr
  have hdis : disassemble o sharp addr mem = decodeImpl o sharp addr mem := by
    unfold disassemble decode
    rw [if_neg (by rw [hok]; simp)]
  rw [hdis] at hd ⊢
  cases mem with
  | nil => exact absurd rfl hmem
  | cons b rest =>
  have hb : b < 256 := hbytes b (List.mem_cons_self ..)
  have hrest : ∀ x ∈ rest, x < 256 := fun x hx => hbytes x (List.mem_cons_of_mem _ hx)
  have hz : b ∈ branches → ∀ v, rest.head? = some v → (addr : Int) + 2 + int8 v ≠ 0 := by
    intro h v hv
    cases rest with
    | nil => cases hv
    | cons d s =>
      injection hv with hv
      subst hv
      have h1 := hbr b d s rfl h
      have h2 : d < 256 := hrest d (List.mem_cons_self ..)
      have h3 : int8 d = if d < 128 then (d : Int) else d - 256 :=
        (by decide +kernel : ∀ d < 256, int8 d = if d < 128 then (d : Int) else d - 256) d h2
      rw [h3]
      exact h1
  unfold decodeImpl at hd ⊢
  rw [byte_some hb] at hd ⊢
  dsimp only [List.nil_append] at hd ⊢
  have hcode := codes_ok b hb
  unfold codeOk at hcode
  cases hrow : searchOpCode b with
  | none => rw [hrow] at hd; cases hd
  | some row =>
    rw [hrow] at hd hcode
    dsimp only at hd hcode ⊢
    simp only [Bool.and_eq_true] at hcode
    have hname : nameOk b row o.upper = true := by
      cases o.upper
      · exact hcode.1.2
      · exact hcode.2
    unfold nameOk at hname
    simp only [Bool.and_eq_true, List.all_eq_true] at hname
    obtain ⟨ops, bs, h1, ⟨ms, h2, h2'⟩, h3, h7⟩ := operands_back (E := E) hoct hsym ha hrest hcode.1.1 hz hd
    have e1 : (decodeList (decodeOperand o sharp addr b row) (modes row) ⟨rest, [b], .OK⟩).2.bytes = b :: bs := h7.bytes
    have e2 : rest = bs ++ (decodeList (decodeOperand o sharp addr b row) (modes row) ⟨rest, [b], .OK⟩).2.mem := h7.mem
    rw [e1]
    refine ⟨?_, List.cons_ne_nil _ _, _, by rw [List.cons_append, ← e2]⟩
    have e3 : encodeImpl (plug E addr) addr (row.name.map (letter o.upper))
        (decodeList (decodeOperand o sharp addr b row) (modes row) ⟨rest, [b], .OK⟩).1 = .ok ⟨.OK, b :: bs, []⟩ := by
      unfold encodeImpl
      rw [h1, Out.ok_bind]
      dsimp only
      rw [h2', rowIs_eq (hname.2 _ h2), Out.ok_bind]
      dsimp only
      rw [h3, Out.ok_bind]
      unfold Asm.bytes
      dsimp only
      rw [Nat.mod_eq_of_lt hb]
    exact encode_operands syntaxOk hname.1 hsep (impl_skip _ _ _ _) hok e3

/-- The hypotheses of `C74_partial` hold of every way to name an operand: registers, immediate data of both
sizes, an address, a vector, a direct address, an offset from a pointer, with the pointer changed, from the program
counter, and of a target, also relative. -/
example :
    (disassemble (.default '$') false 0x1000 [0x46]).err = .OK ∧
    (disassemble (.default '$') false 0x1000 [0x46]).operands = "P2, EA".toList ∧
    (disassemble (.default '$') false 0x1000 [0x84, 0xfe, 0x12]).operands = "EA, =X'12FE".toList ∧
    (disassemble (.default '$') true 0x1000 [0xc4, 0xfe]).operands = "A, #X'FE".toList ∧
    (disassemble (.default '$') false 0x1000 [0x24, 0xfe, 0x12]).operands = "X'12FF".toList ∧
    (disassemble (.default '$') false 0x1000 [0x1c]).operands = "12".toList ∧
    (disassemble (.default '$') false 0x1000 [0xc5, 0xfe]).operands = "A, X'FFFE".toList ∧
    (disassemble (.default '$') false 0x1000 [0xc2, 0xfe]).operands = "A, -2,P2".toList ∧
    (disassemble (.default '$') false 0x1000 [0xc7, 0xfe]).operands = "A, @-2,P3".toList ∧
    (disassemble (.default '$') false 0x1000 [0xc0, 0xfe]).operands = "A, X'0FFF,PC".toList ∧
    (disassemble { Opts.default '$' with relative := true } false 0x1000 [0xc0, 0xfe]).operands = "A, $-1,PC".toList ∧
    (disassemble (.default '$') false 0x1000 [0x74, 0x10]).err = .OK ∧
    (disassemble (.default '$') false 0x1000 [0x74, 0x10]).operands = "X'1012".toList ∧ 0x74 ∈ branches ∧
    (disassemble (.default '$') false 0x1000 [0x76, 0x10]).operands = "16,P2".toList := by
  decide +kernel

/-- A branch to the address 0 does not come back: the assembler takes one from the target, leaves the memory with
that, and reports it. All of the branches, with the distance to 0 from each address from which it is in reach. -/
theorem C74_violated_branch : ∀ b ∈ branches, ∀ addr < 127,
    (disassemble (.default '$') false addr [b, 254 - addr]).err = .OK ∧
    (disassemble (.default '$') false addr [b, 254 - addr]).operands = "X'0000".toList ∧
    assemble noEnv addr ((disassemble (.default '$') false addr [b, 254 - addr]).name ++ " X'0000".toList) =
      .ok (.insn ⟨.OVERFLOW_RANGE, [b, 254 - addr], []⟩) := by
  decide +kernel

/-- An octal number of a listing is not read: `O` is taken for a symbol. -/
theorem C74_violated_octal :
    (disassemble { Opts.default '$' with octal := true } false 0 [0xc4, 0xfe]).err = .OK ∧
    (disassemble { Opts.default '$' with octal := true } false 0 [0xc4, 0xfe]).operands = "A, =O'376".toList ∧
    assemble noEnv 0 "LD A, =O'376".toList = .ok (.insn ⟨.UNDEFINED_SYMBOL, [0xc4, 0], "'376".toList⟩) := by
  decide +kernel

end Libasm.Cpu.Ins8070
