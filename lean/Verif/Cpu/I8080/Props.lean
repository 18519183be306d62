import Verif.Cpu.I8080.Encode
/-
C26: what the i8080 disassembler prints assembles to the bytes it read.
-/
namespace Libasm.Cpu.I8080
open Scan Number Number.Spec Eval
open Tables (Row)

theorem syntaxOk : SyntaxOk syntaxOf := by
  constructor
  · intro c hc
    exact Ctype.ascii (p := fun c => Ctype.isSpace c = true → syntaxOf.instructionLetter c = false)
      (by decide +kernel) c (space_ascii hc) hc
  · intro c s hc
    exact Ctype.ascii (p := fun c => Ctype.isAlpha c = true → (c == '\x00' || c == ';') = false)
      (by decide +kernel) c (alpha_ascii hc) hc

theorem parse_blank (P : Char → Plugins Value) (zilog : Bool) (s : List Char) :
    parseOperand P zilog (' ' :: s) = parseOperand P zilog s := by
  unfold parseOperand parseZilogOperand parseIntelOperand
  have : skipSpaces (' ' :: s) = skipSpaces s := rfl
  rw [this]

theorem parse_nil (E : Env) (addr : Nat) (zilog : Bool) :
    parseOperand (fun delim => lexer.plugins E delim addr) zilog [] = .ok ({}, []) := by
  cases zilog <;> rfl

theorem enc_none {zilog : Bool} {b opc : Nat} {xs : List Nat} :
    encodeOperand zilog {} .NONE ⟨.OK, opc, xs⟩ = ⟨.OK, opc, xs⟩ := by
  unfold encodeOperand
  rw [noError]

/-- The bytes of an instruction of a code with its operands. -/
theorem encode_insn {cpu : CpuType} {zilog : Bool} {pre b : Nat} {row : Row} {up : Bool}
    (hf : Fact cpu zilog pre b row up) {v w : Nat}
    (hv : (flags row).1 ≠ .NONE → v < bound (flags row).1)
    (hw : (flags row).2.1 ≠ .NONE → w < bound (flags row).2.1) (scan : Scan) :
    encodeInsn cpu zilog (row.name.map (letter up)) (opd zilog (flags row).1 b v)
      (opd zilog (flags row).2.1 b w) scan =
      .ok ⟨.OK, (if pre ≠ 0 then [pre % 256] else []) ++ [b] ++ bytesOf (flags row).1 v ++
        bytesOf (flags row).2.1 w, scan⟩ := by
  unfold encodeInsn
  rw [(opd_mode zilog _ b v).1, (opd_mode zilog _ b w).1, hf.found, Out.ok_bind]
  dsimp only
  have key : ∀ m x opc xs, (m ≠ .NONE → okB zilog up m b = true) → (m ≠ .NONE → x < bound m) →
      encodeOperand zilog (opd zilog m b x) m ⟨.OK, opc, xs⟩ =
      ⟨.OK, (encodeOperand zilog (opd zilog m b 0) m ⟨.OK, opc, []⟩).opc, xs ++ bytesOf m x⟩ := by
    intro m x opc xs h1 h2
    by_cases hm : m = .NONE
    · subst hm
      show encodeOperand zilog {} .NONE _ = ⟨.OK, (encodeOperand zilog {} .NONE _).opc, xs ++ []⟩
      rw [enc_none (b := b), enc_none (b := b), List.append_nil]
    · exact encode_reads (h1 hm) (h2 hm)
  rw [key _ v _ _ hf.dst hv, key _ w _ _ hf.src hw]
  unfold Asm.emitInsn
  simp only [hf.code, List.nil_append, List.append_assoc]

/-- After the prefix and the code are read. -/
theorem insn_back {E : Env} {o : Opts} {cpu : CpuType} {zilog : Bool} {pre b addr : Nat} {r : Rd}
    {sep : List Char} (ha : addr < 2 ^ 16) (hp : pre = 0 ∨ pre = 0xed) (hb : b < 256)
    (hmem : ∀ x ∈ r.mem, x < 256) (hsep : Blank sep)
    (hd : (decodeInsn o cpu zilog pre b r).err = .OK) :
    ∃ bs, (∃ s, r.mem = bs ++ s) ∧ (decodeInsn o cpu zilog pre b r).bytes = r.bytes ++ bs ∧
      assemble E cpu zilog addr ((decodeInsn o cpu zilog pre b r).name ++ sep ++
        (decodeInsn o cpu zilog pre b r).operands) =
        .ok (.insn ⟨.OK, (if pre ≠ 0 then [pre] else []) ++ [b] ++ bs, []⟩) := by
  have hpre : (if pre ≠ 0 then [pre % 256] else []) = (if pre ≠ 0 then [pre] else []) := by
    rcases hp with rfl | rfl <;> rfl
  unfold decodeInsn at hd ⊢
  cases hrow : searchOpCode cpu zilog pre b with
  | none => rw [hrow] at hd; cases hd
  | some row =>
    rw [hrow] at hd
    dsimp only at hd ⊢
    have hf := fact hp hb hrow o.upper
    have line : ∀ (operands : List Char) (res : Res), skipSpaces operands = operands →
        encodeImpl (fun delim => lexer.plugins E delim addr) cpu zilog
          (row.name.map (letter o.upper)) operands = .ok res →
        assemble E cpu zilog addr (outText o row.name ++ sep ++ operands) = .ok (.insn res) := by
      intro operands res h1 h2
      exact encode_name syntaxOk hf.name hsep h1 (address_ok (by decide) ha) h2
    by_cases h1 : (flags row).1 = .NONE
    · have h2 := hf.none h1
      rw [if_pos h1] at hd ⊢
      dsimp only at hd ⊢
      refine ⟨[], ⟨r.mem, rfl⟩, by rw [List.append_nil], ?_⟩
      refine line [] _ rfl ?_
      unfold encodeImpl
      rw [parse_nil, Out.ok_bind]
      have e := encode_insn hf (v := 0) (w := 0) (fun h => absurd h1 h) (fun h => absurd h2 h) []
      rw [h1, h2] at e
      rw [hpre, show bytesOf .NONE 0 = [] from rfl, List.append_nil] at e
      exact e
    · rw [if_neg h1] at hd ⊢
      have hok1 := hf.dst h1
      by_cases h2 : (flags row).2.1 = .NONE
      · rw [if_pos h2] at hd ⊢
        dsimp only at hd ⊢
        obtain ⟨v, R⟩ := operand_reads (E := E) (loc := addr) o (r := { r with err := .OK }) hok1 hmem hd
        refine ⟨bytesOf (flags row).1 v, ⟨_, R.took.mem⟩, R.took.bytes, ?_⟩
        have hs := R.space []
        have hr := R.reads [] (Or.inl rfl)
        rw [List.append_nil] at hs hr
        refine line _ _ hs ?_
        unfold encodeImpl
        rw [hr, Out.ok_bind]
        dsimp only
        have herr : (opd zilog (flags row).1 b v).err = .OK := by
          rw [(opd_mode zilog _ b v).2]
          have := hok1
          unfold okB at this
          simp only [Bool.and_eq_true, decide_eq_true_eq] at this
          exact this.2.1
        rw [herr, if_neg (by decide), show expect ',' (skipSpaces []) = none from rfl]
        dsimp only
        have e := encode_insn hf (v := v) (w := 0) (fun _ => R.small) (fun h => absurd h2 h) []
        rw [h2] at e
        rw [hpre] at e
        have e' : bytesOf .NONE 0 = [] := rfl
        rw [e', List.append_nil] at e
        exact e
      · rw [if_neg h2] at hd ⊢
        dsimp only at hd ⊢
        have hok2 := hf.src h2
        have hmem2 : ∀ x ∈ (decodeOperand o zilog b (flags row).1 { r with err := .OK }).2.mem, x < 256 := by
          intro x hx
          apply hmem
          revert hx
          have l1 : ∀ r : Rd, ∀ x ∈ r.byte.2.mem, x ∈ r.mem := by
            intro r x hx
            unfold Rd.byte at hx
            split at hx
            · exact hx
            · rename_i hm; rw [hm]; exact List.mem_cons_of_mem _ hx
          have l2 : ∀ r : Rd, ∀ x ∈ r.le16.2.mem, x ∈ r.mem := fun r x hx => l1 _ _ (l1 _ _ hx)
          unfold decodeOperand
          cases (flags row).1 <;> first
            | exact l1 _ x
            | exact l2 _ x
            | exact id
            | (cases zilog <;> exact id)
        obtain ⟨w, R2⟩ := operand_reads (E := E) (loc := addr) o hok2 hmem2 hd
        have hd1 := R2.took.err
        obtain ⟨v, R⟩ := operand_reads (E := E) (loc := addr) o (r := { r with err := .OK }) hok1 hmem hd1
        have t := R.took.trans R2.took
        refine ⟨bytesOf (flags row).1 v ++ bytesOf (flags row).2.1 w, ⟨_, t.mem⟩, t.bytes, ?_⟩
        have hs2 := R2.space []
        have hr2 := R2.reads [] (Or.inl rfl)
        rw [List.append_nil] at hs2 hr2
        generalize hu : (decodeOperand o zilog b (flags row).2.1 _).1 = u at hs2 hr2
        generalize ht : (decodeOperand o zilog b (flags row).1 { r with err := .OK }).1 = tt at *
        have e0 : tt ++ [',', ' '] ++ u = tt ++ (',' :: ' ' :: u) := by simp
        rw [e0]
        refine line _ _ (R.space _) ?_
        unfold encodeImpl
        rw [R.reads _ (Or.inr ⟨_, rfl⟩), Out.ok_bind]
        dsimp only
        have herr : (opd zilog (flags row).1 b v).err = .OK := by
          rw [(opd_mode zilog _ b v).2]
          have := hok1
          unfold okB at this
          simp only [Bool.and_eq_true, decide_eq_true_eq] at this
          exact this.2.1
        rw [herr, if_neg (by decide),
          show expect ',' (skipSpaces (',' :: ' ' :: u)) = some (' ' :: u) from rfl]
        dsimp only
        rw [parse_blank, hr2, Out.ok_bind]
        dsimp only
        have e := encode_insn hf (v := v) (w := w) (fun _ => R.small) (fun _ => R2.small) []
        rw [hpre] at e
        rw [← List.append_assoc]
        exact e

/-- What the disassembler prints of any bytes it takes without error, for any of the processors, in
Intel and in Zilog syntax, at any address and with any options, assembles at the same address to
the same bytes without error, and nothing of the line is left; the bytes are the first of those
given. Symbols, functions and the reading of floating point numbers do not matter. Blanks between
name and operands may be any. -/
theorem C26 (o : Opts) (E : Env) (cpu : CpuType) (zilog : Bool) (addr : Nat) (mem : List Nat)
    (sep : List Char) (ha : addr < 2 ^ 16) (hmem : mem ≠ []) (hbytes : ∀ b ∈ mem, b < 256)
    (hsep : sep ≠ [] ∧ ∀ c ∈ sep, Ctype.isSpace c = true)
    (hd : (disassemble o cpu zilog addr mem).err = .OK) :
    assemble E cpu zilog addr ((disassemble o cpu zilog addr mem).name ++ sep ++
        (disassemble o cpu zilog addr mem).operands) =
      .ok (.insn ⟨.OK, (disassemble o cpu zilog addr mem).bytes, []⟩) ∧
    (disassemble o cpu zilog addr mem).bytes ≠ [] ∧
    (disassemble o cpu zilog addr mem).bytes <+: mem := by
  obtain ⟨b, rest, rfl⟩ := List.exists_cons_of_ne_nil hmem
  have hb : b < 256 := hbytes b (List.mem_cons_self ..)
  have hrest : ∀ x ∈ rest, x < 256 := fun x hx => hbytes x (List.mem_cons_of_mem _ hx)
  have hdis : disassemble o cpu zilog addr (b :: rest) = decodeImpl o cpu zilog addr (b :: rest) := by
    unfold disassemble decode
    rw [address_ok (by decide) ha]
    rfl
  have hbyte : (⟨b :: rest, [], .OK⟩ : Rd).byte = (b, ⟨rest, [b], .OK⟩) := by
    unfold Rd.byte
    dsimp only
    rw [Nat.mod_eq_of_lt hb]
    rfl
  rw [hdis] at hd ⊢
  unfold decodeImpl at hd ⊢
  rw [hbyte] at hd ⊢
  dsimp only at hd ⊢
  by_cases hx : isPrefix cpu b = true
  · rw [if_pos hx] at hd ⊢
    have hpre : b = 0xed := by
      unfold isPrefix at hx
      simp only [Bool.and_eq_true, beq_iff_eq] at hx
      exact hx.2
    by_cases he : (⟨rest, [b], .OK⟩ : Rd).byte.2.err = .OK
    · rw [if_neg (not_not_intro he)] at hd ⊢
      obtain ⟨h1, t⟩ := byte_took (r := ⟨rest, [b], .OK⟩) hrest he
      have hm2 := byte_mem (r := ⟨rest, [b], .OK⟩) hrest
      obtain ⟨bs, ⟨s, g1⟩, g2, g3⟩ := insn_back (E := E) (addr := addr) ha (Or.inr hpre) h1 hm2 hsep hd
      generalize (⟨rest, [b], .OK⟩ : Rd).byte = p at *
      have e1 : (decodeInsn o cpu zilog b p.1 p.2).bytes = b :: p.1 :: bs := by
        rw [g2, t.bytes]
        rfl
      have e2 := t.mem
      rw [e1]
      refine ⟨?_, List.cons_ne_nil _ _, s, ?_⟩
      · rw [g3, if_pos (by omega)]
        rfl
      · show b :: p.1 :: (bs ++ s) = b :: rest
        rw [← g1]
        exact congrArg (b :: ·) e2.symm
    · rw [if_pos he] at hd
      exact absurd hd he
  · rw [if_neg hx] at hd ⊢
    obtain ⟨bs, ⟨s, g1⟩, g2, g3⟩ := insn_back (E := E) (addr := addr) ha (Or.inl rfl) hb hrest hsep hd
    have e1 : (decodeInsn o cpu zilog 0 b ⟨rest, [b], .OK⟩).bytes = b :: bs := g2
    rw [e1]
    refine ⟨?_, List.cons_ne_nil _ _, s, ?_⟩
    · rw [g3]
      rfl
    · show b :: (bs ++ s) = b :: rest
      rw [← g1]

/-- The hypotheses of `C26` hold of instructions of one, two and three bytes, of a prefixed one, in
both syntaxes and with other options. -/
example :
    (disassemble (.default '$') .I8080 false 0xfffe [0x41]).err = .OK ∧
    (disassemble (.default '$') .I8080 false 0xfffe [0x41]).operands = "B, C".toList ∧
    (disassemble (.default '$') .I8085 true 0 [0x32, 0x34, 0xf2, 7]).err = .OK ∧
    (disassemble (.default '$') .I8085 true 0 [0x32, 0x34, 0xf2, 7]).operands =
      "(0F234H), A".toList ∧
    (disassemble ⟨true, false, true, false, false, false, '$'⟩ .V30EMU false 0 [0xed, 0xed, 0x34]).operands =
      "064Q".toList ∧
    (disassemble (.default '$') .V30EMU false 0 [0xed, 0xed, 0x34]).err = .OK := by
  decide +kernel

/-- Why the memory must not be empty: of no bytes at all the disassembler makes `NOP` of length 0,
without error (the error of the missing byte is dropped when the table is searched). -/
theorem C26_violated_empty :
    disassemble (.default '$') .I8080 false 0 [] = ⟨.OK, "NOP".toList, [], []⟩ := by
  decide +kernel

end Libasm.Cpu.I8080
