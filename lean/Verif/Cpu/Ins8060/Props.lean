import Verif.Cpu.Ins8060.Encode
/-
C28: what the INS8060 disassembler prints assembles to the bytes it read.
-/
namespace Libasm.Cpu.Ins8060
open Scan Number Number.Spec Eval
open Tables (Row)

/-! ### Putting the pieces together -/

theorem encode_finish {E : Env} {addr b : Nat} {row : Row} {up : Bool} (hf : Fact b row up)
    {operands : List Char} {op : Operand} {opc : Nat} {bytes : List Nat}
    (hp : parseOperand (lexer.plugins E '\x00' addr) operands = .ok (op, []))
    (he : op.err = .OK) (hm : op.mode = printed (mode row) b)
    (hc : encodeMode addr (mode row) op ⟨.OK, row.opcode, []⟩ = .ok ⟨.OK, opc, bytes⟩)
    (hpage : page addr = page (addr + bytes.length + 65535)) :
    encodeImpl (lexer.plugins E '\x00' addr) addr (row.name.map (letter up)) operands =
      .ok ⟨.OK, bytes, []⟩ := by
  unfold encodeImpl
  rw [hp, Out.ok_bind]
  dsimp only
  rw [he, if_neg (by decide)]
  unfold searchName
  rw [hm, hf.found]
  dsimp only
  rw [Out.ok_bind]
  dsimp only
  have : Config.setErrorIf .OK .OK = .OK := rfl
  rw [this, hc, Out.ok_bind]
  dsimp only
  rw [if_neg (fun h => h.2 hpage)]
  rfl

theorem assemble_line {E : Env} {addr b : Nat} {row : Row} {up : Bool} (ha : addr < 65536)
    (hf : Fact b row up) {operands sep : List Char} (hsep : Blank sep) {r : Res}
    (ho : skipSpaces operands = operands)
    (hi : encodeImpl (lexer.plugins E '\x00' addr) addr (row.name.map (letter up)) operands =
      .ok r) :
    assemble E addr (row.name.map (letter up) ++ sep ++ operands) = .ok (.insn r) := by
  unfold assemble
  rw [encode_line ⟨hf.name.1, hf.name.2, hf.letters⟩ ?_ ?_ hf.pseudo hsep ho ?_, hi]
  · rfl
  · intro c hc
    have : ∀ c : Char, Ctype.isSpace c = true → c.toNat < 128 := by
      intro c hc
      simp only [Ctype.isSpace, Bool.or_eq_true, Bool.and_eq_true, decide_eq_true_eq, beq_iff_eq] at hc
      rcases hc with h | h
      · omega
      · omega
    exact Ctype.ascii (p := fun c => Ctype.isSpace c = true → syntaxOf.instructionLetter c = false)
      (by decide +kernel) c (this c hc) hc
  · intro rest
    show semicolonEnd _ = false
    obtain ⟨c, t, ht⟩ := List.exists_cons_of_ne_nil hf.name.1
    have := hf.line
    rw [ht] at this ⊢
    exact this
  · rw [Config.checkAddr_eq false (by decide) (by unfold Config.W; omega), if_neg (by omega),
      if_neg (by simp)]

theorem letter_punct (up : Bool) : letter up '@' = '@' ∧ letter up '(' = '(' ∧
    letter up ')' = ')' ∧ letter up '$' = '$' ∧ letter up '.' = '.' := by
  cases up <;> decide

theorem meant_int8 {opr : Nat} (h : opr < 256) :
    meant (Config.uint32 (Config.int8 opr)) (-8) = Config.int8 opr := by
  revert opr; decide +kernel

theorem uint32_lt (x : Int) : Config.uint32 x < 2 ^ 32 := by
  unfold Config.uint32 Config.W; omega

/-- The operand of a PC relative instruction reads as the target. -/
theorem rel_reads {E : Env} {addr tgt : Nat} {o : Opts} (hP : Pairs .national .ins80xx o)
    (hcur : o.relative = true → o.curSym = '$' ∨ o.curSym = '.') (ha : addr < 65536)
    (ht : tgt < 65536) (hd : ((tgt : Int) - addr).natAbs < 256) :
    ∃ v, parseOperand (lexer.plugins E '\x00' addr) (outRelAddr .national o 16 tgt addr 8) =
        .ok ({ mode := .REL8, val := v }, []) ∧ v.getUnsigned % 65536 = tgt ∧
      skipSpaces (outRelAddr .national o 16 tgt addr 8) = outRelAddr .national o 16 tgt addr 8 := by
  have hsym : o.relative = true → letter o.upper o.curSym = '$' ∨ letter o.upper o.curSym = '.' := by
    intro h
    rcases hcur h with h | h <;> rw [h]
    · exact Or.inl (letter_punct _).2.2.2.1
    · exact Or.inr (letter_punct _).2.2.2.2
  have key : ∀ t v, Plain t → parseInteger (lexer.plugins E '\x00' addr) t .OK = .ok (v, .OK, []) →
      parseOperand (lexer.plugins E '\x00' addr) t = .ok ({ mode := .REL8, val := v }, []) ∧
      skipSpaces t = t := fun t v hp hv => ⟨operand_number hp hv, hp.space⟩
  rcases outRelAddr_text hP 16 tgt addr 8 ht (by decide) (by decide) ha (by decide) (by decide) hd
    with ⟨_, h⟩ | ⟨hr, h1, h2⟩ | ⟨hr, t, h1, h2⟩
  · have e := eval_const (const_of lexOk h E '\x00' addr) Sep.nil (stop_nil E addr)
    rw [List.append_nil] at e
    obtain ⟨k1, k2⟩ := key _ _ (plain_number h.lead) e
    refine ⟨_, k1, ?_, k2⟩
    unfold Value.getUnsigned
    dsimp only
    omega
  · have hs := hsym hr
    have e := eval_const (const_location hs E (loc := addr) (by omega)) Sep.nil (stop_nil E addr)
    rw [List.append_nil] at e
    rw [h2]
    obtain ⟨k1, k2⟩ := key _ _ (plain_head [] (by rcases hs with h | h <;> rw [h] <;> decide)) e
    refine ⟨_, k1, ?_, k2⟩
    unfold Value.getUnsigned
    dsimp only
    omega
  · have hs := hsym hr
    obtain ⟨c, u, hcu, hcf⟩ := lead_first h1.lead
    have e := eval_loc (ops E addr) (const_location hs E (loc := addr) (by omega))
      (const_of lexOk h1 E '\x00' addr) (by omega) h1.small
      ⟨c, u, hcu, by
        have : ∀ c ∈ firsts .national, c ≠ '\x00' ∧ c ≠ '+' := by decide
        exact this c hcf⟩ Sep.nil (stop_nil E addr)
    rw [List.append_nil] at e
    rw [h2]
    have hpl : ∀ s, Plain (letter o.upper o.curSym :: s) := fun s =>
      plain_head s (by rcases hs with h | h <;> rw [h] <;> decide)
    by_cases hneg : (tgt : Int) - addr < 0
    · rw [if_pos hneg]
      obtain ⟨k1, k2⟩ := key _ _ (hpl _) e.2
      refine ⟨_, k1, ?_, k2⟩
      unfold Value.setS
      rw [if_pos (by omega)]
      unfold Value.getUnsigned
      dsimp only
      omega
    · rw [if_neg hneg]
      obtain ⟨k1, k2⟩ := key _ _ (hpl _) e.1
      refine ⟨_, k1, ?_, k2⟩
      unfold Value.setU Value.M Value.getUnsigned
      dsimp only
      omega

theorem abs_reads {E : Env} {addr tgt : Nat} {o : Opts} (hP : Pairs .national .ins80xx o)
    (ht : tgt < 65536) :
    ∃ v, parseOperand (lexer.plugins E '\x00' addr) (outAbsAddr .national o 16 tgt) =
        .ok ({ mode := .REL8, val := v }, []) ∧ v.getUnsigned % 65536 = tgt ∧
      skipSpaces (outAbsAddr .national o 16 tgt) = outAbsAddr .national o 16 tgt := by
  have h := outAbsAddr_num hP tgt 16 ht (by decide) (by decide)
  have e := eval_const (const_of lexOk h E '\x00' addr) Sep.nil (stop_nil E addr)
  rw [List.append_nil] at e
  refine ⟨_, operand_number (plain_number h.lead) e, ?_, lead_space h.lead⟩
  unfold Value.getUnsigned
  dsimp only
  omega

theorem byte_cons {opr : Nat} (ho : opr < 256) (mem bs : List Nat) :
    (⟨opr :: mem, bs, .OK⟩ : Rd).byte = (opr, ⟨mem, bs ++ [opr], .OK⟩) := by
  unfold Rd.byte
  dsimp only
  rw [Nat.mod_eq_of_lt ho]

theorem decodeIndx_snd (o : Opts) (addr b : Nat) (m : Mode) (hasMode : Bool) (r : Rd) :
    (decodeIndx o addr b m hasMode r).2 = r.byte.2 := by
  unfold decodeIndx
  simp only [apply_ite Prod.snd, ite_self]

theorem decodeIndx_pc {addr b opr : Nat} (o : Opts) (ho : opr < 256) (m : Mode) (hasMode : Bool)
    (h0 : b % 4 = 0) (hauto : (hasMode && decide (b / 4 % 2 = 1)) = false) (mem bs : List Nat) :
    decodeIndx o addr b m hasMode ⟨opr :: mem, bs, .OK⟩ =
      (if Config.int16 (Config.uint32 ((target addr opr (if m = .REL8 then 1 else 0) : Int) -
          ((addr + 1) % Config.W : Nat) - (if m = .REL8 then 1 else 0))) ≥ -128 ∧
        Config.int16 (Config.uint32 ((target addr opr (if m = .REL8 then 1 else 0) : Int) -
          ((addr + 1) % Config.W : Nat) - (if m = .REL8 then 1 else 0))) < 128
       then outRelAddr .national o 16 (target addr opr (if m = .REL8 then 1 else 0)) addr 8
       else outAbsAddr .national o 16 (target addr opr (if m = .REL8 then 1 else 0)),
       ⟨mem, bs ++ [opr], .OK⟩) := by
  have hpc : decodePointerReg b = .PC := by unfold decodePointerReg; rw [h0]; rfl
  unfold decodeIndx target
  rw [byte_cons ho]
  dsimp only
  rw [if_pos hpc, hauto]
  simp only [Bool.false_eq_true, if_false, List.nil_append]
  generalize (if m = .REL8 then (1 : Int) else 0) = f
  by_cases hc : Config.int16 (Config.uint32 (((page ((addr + 1) % Config.W) +
        offset (uint16 (↑(offset ((addr + 1) % Config.W)) + Config.int8 opr + f)) : Nat) : Int) -
          ((addr + 1) % Config.W : Nat) - f)) ≥ -128 ∧
      Config.int16 (Config.uint32 (((page ((addr + 1) % Config.W) +
        offset (uint16 (↑(offset ((addr + 1) % Config.W)) + Config.int8 opr + f)) : Nat) : Int) -
          ((addr + 1) % Config.W : Nat) - f)) < 128
  · rw [if_pos hc, if_pos hc]
  · rw [if_neg hc, if_neg hc]

theorem near_target {addr opr : Nat} (ha : addr < 65536) (hn : addr % 4096 ≠ 4095) (ho : opr < 256)
    {f : Int} (hf : f = 0 ∨ f = 1)
    (h : Config.int16 (Config.uint32 ((target addr opr f : Int) - ((addr + 1) % Config.W : Nat) - f))
        ≥ -128 ∧
      Config.int16 (Config.uint32 ((target addr opr f : Int) - ((addr + 1) % Config.W : Nat) - f))
        < 128) : ((target addr opr f : Int) - addr).natAbs < 256 := by
  obtain ⟨h1, hpg⟩ := target_lt ha hn ho hf
  generalize target addr opr f = t at *
  have e1 : ((addr + 1) % Config.W : Nat) = addr + 1 := by unfold Config.W; omega
  rw [e1] at h
  unfold Config.int16 Config.uint32 Config.W at h
  have hx : (((t : Int) - ((addr + 1 : Nat) : Int) - f) % ((4294967296 : Nat) : Int)).toNat % 65536 =
      (((t : Int) - addr - 1 - f) % 65536).toNat := by omega
  rw [hx] at h
  rcases hf with rfl | rfl <;> (split at h <;> omega)

/-- What `decodeIndx` prints. -/
theorem indx_reads {E : Env} {addr b opr : Nat} {o : Opts} (hP : Pairs .national .ins80xx o)
    (hcur : o.relative = true → o.curSym = '$' ∨ o.curSym = '.') (ha : addr < 65536)
    (hn : addr % 4096 ≠ 4095) (ho : opr < 256) (m : Mode) (hasMode : Bool)
    (hauto : b % 4 = 0 → (hasMode && decide (b / 4 % 2 = 1)) = false) (mem bs : List Nat) :
    (decodeIndx o addr b m hasMode ⟨opr :: mem, bs, .OK⟩).2 = ⟨mem, bs ++ [opr], .OK⟩ ∧
    skipSpaces (decodeIndx o addr b m hasMode ⟨opr :: mem, bs, .OK⟩).1 =
      (decodeIndx o addr b m hasMode ⟨opr :: mem, bs, .OK⟩).1 ∧
    (b % 4 = 0 → ∃ v, parseOperand (lexer.plugins E '\x00' addr)
        (decodeIndx o addr b m hasMode ⟨opr :: mem, bs, .OK⟩).1 =
          .ok ({ mode := .REL8, val := v }, []) ∧
        v.getUnsigned % 65536 = target addr opr (if m = .REL8 then 1 else 0)) ∧
    (b % 4 ≠ 0 → parseOperand (lexer.plugins E '\x00' addr)
        (decodeIndx o addr b m hasMode ⟨opr :: mem, bs, .OK⟩).1 =
          .ok (dispOperand (if hasMode && decide (b / 4 % 2 = 1) then .INDX else .DISP) b opr, [])) := by
  by_cases h0 : b % 4 = 0
  · rw [decodeIndx_pc o ho m hasMode h0 (hauto h0)]
    dsimp only
    have hf : (if m = .REL8 then (1 : Int) else 0) = 0 ∨ (if m = .REL8 then (1 : Int) else 0) = 1 := by
      split <;> simp
    generalize (if m = .REL8 then (1 : Int) else 0) = f at *
    have ht := (target_lt ha hn ho hf).1
    by_cases hdiff : Config.int16 (Config.uint32 ((target addr opr f : Int) -
          ((addr + 1) % Config.W : Nat) - f)) ≥ -128 ∧
        Config.int16 (Config.uint32 ((target addr opr f : Int) -
          ((addr + 1) % Config.W : Nat) - f)) < 128
    · rw [if_pos hdiff]
      obtain ⟨v, k1, k2, k3⟩ := rel_reads (E := E) hP hcur ha ht (near_target ha hn ho hf hdiff)
      exact ⟨rfl, k3, fun _ => ⟨v, k1, k2⟩, fun h => absurd h0 h⟩
    · rw [if_neg hdiff]
      obtain ⟨v, k1, k2, k3⟩ := abs_reads (E := E) (addr := addr) hP ht
      exact ⟨rfl, k3, fun _ => ⟨v, k1, k2⟩, fun h => absurd h0 h⟩
  · unfold decodeIndx
    rw [byte_cons ho]
    dsimp only
    obtain ⟨r1, _, r3⟩ := reg_pc h0
    rw [if_neg r1]
    obtain ⟨p1, p2, p3, _⟩ := letter_punct o.upper
    rw [p1, p2, p3]
    generalize hauto' : (hasMode && decide (b / 4 % 2 = 1)) = auto
    have e : ∀ disp : List Char, (if auto = true then ['@'] else []) ++ disp ++ ['('] ++
        outText o (regText regs (decodePointerReg b)) ++ [')'] =
        (if auto = true then ['@'] else []) ++ (disp ++ '(' ::
          (outText o (regText regs (decodePointerReg b)) ++ [')'])) := by
      intro disp; simp
    dsimp only
    rw [e]
    refine ⟨rfl, ?_, fun h => absurd h h0, fun _ => ?_⟩
    · cases auto
      · by_cases h : opr = 0x80
        · rw [if_pos h]
          unfold outText
          cases o.upper <;> rfl
        · rw [if_neg h]
          have ht := outDec_text hP (Config.uint32 (Config.int8 opr)) (-8) (uint32_lt _) (by decide)
            (by decide)
          exact (plain_signed ht).space
      · rfl
    · unfold dispOperand
      by_cases h : opr = 0x80
      · rw [if_pos h, h, operand_e auto o _ r3]
        rfl
      · rw [if_neg h, if_neg h]
        have ht := outDec_text hP (Config.uint32 (Config.int8 opr)) (-8) (uint32_lt _) (by decide)
            (by decide)
        rw [meant_int8 ho] at ht
        rw [operand_disp auto o _ r3 (fun rest => plain_signed ht)
          (fun s => eval_signed lexOk (ops E addr) ht (Sep.cons (by decide) s) (stop_open E addr s))]
        have : (opr == 128) = false := by simpa using h
        rw [this]

/-! ### C28 -/

/-- What the INS8060 disassembler prints of any bytes it takes without error, at any address and
with any options, assembles at the same address to the same bytes without error; these are the
first of the bytes given. The symbols, the functions and the reading of floating point numbers do
not matter. Blanks between name and operands may be any. With `list-radix` 8 one of the options
`c-style` and `intel-hex` is needed (see below), with `relative` the location symbol must be one of
the assembler's. -/
theorem C28_partial (o : Opts) (E : Env) (addr : Nat) (mem : List Nat) (sep : List Char)
    (hoct : o.octal = true → o.cstyle = true ∨ o.intelHex = true)
    (hcur : o.relative = true → o.curSym = '$' ∨ o.curSym = '.')
    (ha : addr < 2 ^ 16) (hmem : mem ≠ []) (hbytes : ∀ b ∈ mem, b < 256)
    (hsep : sep ≠ [] ∧ ∀ c ∈ sep, Ctype.isSpace c = true)
    (hd : (disassemble o addr mem).err = .OK) :
    assemble E addr ((disassemble o addr mem).name ++ sep ++ (disassemble o addr mem).operands) =
      .ok (.insn ⟨.OK, (disassemble o addr mem).bytes, []⟩) ∧
    (disassemble o addr mem).bytes ≠ [] ∧ (disassemble o addr mem).bytes <+: mem := by
  have ha' : addr < 65536 := ha
  have hP : Pairs .national .ins80xx o := by
    refine ⟨by decide, by decide, fun h => ?_⟩
    rcases hoct h with h | h
    · exact Or.inl h
    · exact Or.inr (Or.inl h)
  have hchk : Config.checkAddr 16 addr false = .OK := by
    rw [Config.checkAddr_eq false (by decide) (by unfold Config.W; omega), if_neg (by omega),
      if_neg (by simp)]
  obtain ⟨b, rest, rfl⟩ := List.exists_cons_of_ne_nil hmem
  have hb : b < 256 := hbytes b (List.mem_cons_self ..)
  have hdis : disassemble o addr (b :: rest) = decodeImpl o addr (b :: rest) := by
    unfold disassemble decode
    rw [hchk]
    rfl
  rw [hdis] at hd ⊢
  unfold decodeImpl at hd ⊢
  have hbyte : (⟨b :: rest, [], .OK⟩ : Rd).byte = (b, ⟨rest, [b], .OK⟩) := by
    unfold Rd.byte
    dsimp only
    rw [Nat.mod_eq_of_lt hb]
    rfl
  rw [hbyte] at hd ⊢
  dsimp only at hd ⊢
  cases hrow : searchOpCode b with
  | none => rw [hrow] at hd; cases hd
  | some row =>
    rw [hrow] at hd
    dsimp only at hd ⊢
    have hf := fact hb hrow o.upper
    have hcode := hf.code
    have one : ∀ operands op opc, page addr = page (addr + 1 + 65535) →
        parseOperand (lexer.plugins E '\x00' addr) operands = .ok (op, []) →
        skipSpaces operands = operands → op.err = .OK → op.mode = printed (mode row) b →
        encodeMode addr (mode row) op ⟨.OK, row.opcode, []⟩ = .ok ⟨.OK, opc, [b]⟩ →
        assemble E addr (outText o row.name ++ sep ++ operands) = .ok (.insn ⟨.OK, [b], []⟩) ∧
        [b] ≠ [] ∧ [b] <+: b :: rest := by
      intro operands op opc hpg h1 h2 h3 h4 h5
      exact ⟨assemble_line ha' hf hsep h2 (encode_finish hf h1 h3 h4 h5 hpg),
        List.cons_ne_nil _ _, ⟨rest, rfl⟩⟩
    have two : ∀ opr rest', rest = opr :: rest' → ∀ operands op opc,
        page addr = page (addr + 2 + 65535) →
        parseOperand (lexer.plugins E '\x00' addr) operands = .ok (op, []) →
        skipSpaces operands = operands → op.err = .OK → op.mode = printed (mode row) b →
        encodeMode addr (mode row) op ⟨.OK, row.opcode, []⟩ = .ok ⟨.OK, opc, [b, opr]⟩ →
        assemble E addr (outText o row.name ++ sep ++ operands) = .ok (.insn ⟨.OK, [b, opr], []⟩) ∧
        [b, opr] ≠ [] ∧ [b, opr] <+: b :: rest := by
      intro opr rest' hr operands op opc hpg h1 h2 h3 h4 h5
      refine ⟨assemble_line ha' hf hsep h2 (encode_finish hf h1 h3 h4 h5 hpg),
        List.cons_ne_nil _ _, ⟨rest', by rw [hr]; rfl⟩⟩
    -- the page check of the disassembler
    have chk : ∀ r : Rd, r.err = .OK → (if page addr ≠ page (addr + r.bytes.length + 65535) then
        r.setErrorIf .OVERWRAP_SEGMENT else r).err = .OK →
        page addr = page (addr + r.bytes.length + 65535) ∧
        (if page addr ≠ page (addr + r.bytes.length + 65535) then
          r.setErrorIf .OVERWRAP_SEGMENT else r) = r := by
      intro r hr h
      by_cases hp : page addr = page (addr + r.bytes.length + 65535)
      · exact ⟨hp, by rw [if_neg (not_not_intro hp)]⟩
      · rw [if_pos hp] at h
        unfold Rd.setErrorIf Config.setErrorIf at h
        rw [hr] at h
        simp at h
    have nomem : ∀ r : Rd, r.err ≠ .OK → (if page addr ≠ page (addr + r.bytes.length + 65535) then
        r.setErrorIf .OVERWRAP_SEGMENT else r).err ≠ .OK := by
      intro r hr
      split
      · unfold Rd.setErrorIf Config.setErrorIf
        rw [if_neg (fun h => hr h.1)]
        exact hr
      · exact hr
    have indx : ∀ m hasMode, mode row = m → (m = .REL8 ∨ m = .DISP ∨ m = .INDX) →
        hasMode = decide (m = .INDX) →
        (if page addr ≠ page (addr + (decodeIndx o addr b m hasMode ⟨rest, [b], .OK⟩).2.bytes.length + 65535)
          then (decodeIndx o addr b m hasMode ⟨rest, [b], .OK⟩).2.setErrorIf .OVERWRAP_SEGMENT
          else (decodeIndx o addr b m hasMode ⟨rest, [b], .OK⟩).2).err = .OK →
        let r := (if page addr ≠ page (addr + (decodeIndx o addr b m hasMode ⟨rest, [b], .OK⟩).2.bytes.length + 65535)
          then (decodeIndx o addr b m hasMode ⟨rest, [b], .OK⟩).2.setErrorIf .OVERWRAP_SEGMENT
          else (decodeIndx o addr b m hasMode ⟨rest, [b], .OK⟩).2)
        assemble E addr (outText o row.name ++ sep ++
            (decodeIndx o addr b m hasMode ⟨rest, [b], .OK⟩).1) =
          .ok (.insn ⟨.OK, r.bytes, []⟩) ∧ r.bytes ≠ [] ∧ r.bytes <+: b :: rest := by
      intro m hasMode hm hmm hhas herr
      cases hrest : rest with
      | nil =>
        exfalso
        rw [hrest] at herr
        refine nomem _ ?_ herr
        rw [decodeIndx_snd]
        unfold Rd.byte Rd.setErrorIf Config.setErrorIf
        simp
      | cons opr rest' =>
        have ho : opr < 256 := hbytes opr (by rw [hrest]; simp)
        rw [hrest] at herr
        have hauto : b % 4 = 0 → (hasMode && decide (b / 4 % 2 = 1)) = false := by
          intro h0
          rw [hhas]
          by_cases hi : m = .INDX
          · have := hf.auto (hm.trans hi) h0
            simp [this]
          · simp [hi]
        have hsnd : (decodeIndx o addr b m hasMode ⟨opr :: rest', [b], .OK⟩).2 =
            ⟨rest', [b, opr], .OK⟩ := by
          rw [decodeIndx_snd, byte_cons ho]
          rfl
        rw [hsnd] at herr ⊢
        obtain ⟨hpg, heq⟩ := chk _ rfl herr
        rw [heq]
        dsimp only at hpg ⊢
        have hn := same_page ha' hpg
        obtain ⟨_, k2, k3, k4⟩ := indx_reads (E := E) (b := b) hP hcur ha' hn ho m hasMode hauto rest' [b]
        rw [← hrest]
        have key : ∀ op opc,
            parseOperand (lexer.plugins E '\x00' addr)
              (decodeIndx o addr b m hasMode ⟨opr :: rest', [b], .OK⟩).1 = .ok (op, []) →
            op.err = .OK → op.mode = printed (mode row) b →
            encodeMode addr (mode row) op ⟨.OK, row.opcode, []⟩ = .ok ⟨.OK, opc, [b, opr]⟩ →
            assemble E addr (outText o row.name ++ sep ++
              (decodeIndx o addr b m hasMode ⟨rest, [b], .OK⟩).1) =
              .ok (.insn ⟨.OK, [b, opr], []⟩) ∧ [b, opr] ≠ [] ∧ [b, opr] <+: b :: rest := by
          rw [hrest]
          intro op opc h1 h2 h3 h4
          have := two opr rest' hrest _ op opc hpg h1 k2 h2 h3 h4
          rw [hrest] at this
          exact this
        by_cases h0 : b % 4 = 0
        · obtain ⟨v, k3, k5⟩ := k3 h0
          have hrc : row.opcode = b := by
            rw [hm] at hcode
            rcases hmm with rfl | rfl | rfl
            · exact hcode.trans (show b / 4 * 4 = b by omega)
            · exact hcode.trans (show b / 4 * 4 = b by omega)
            · have := hf.auto hm h0
              exact hcode.trans (show b / 8 * 8 = b by omega)
          refine key _ b k3 rfl ?_ ?_
          · rw [hm]
            rcases hmm with rfl | rfl | rfl <;> (unfold printed; simp [h0])
          · rw [hm, hrc]
            have := enc_rel ha' hn ho hb m v k5
            rcases hmm with rfl | rfl | rfl
            · exact this
            · show encodeIndx _ _ _ _ = _
              unfold encodeIndx
              rw [if_pos rfl]
              exact this
            · show encodeIndx _ _ _ _ = _
              unfold encodeIndx
              rw [if_pos rfl]
              exact this
        · have k4 := k4 h0
          obtain ⟨o1, o2, o3⟩ := or_low hb
          rcases hmm with rfl | rfl | rfl
          · rw [hm] at hcode
            dsimp only at hcode
            rw [hhas] at k4
            refine key _ b (by rw [hhas]; exact k4) rfl ?_ ?_
            · rw [hm]; unfold printed dispOperand; simp [h0]
            · rw [hm, hcode]
              exact enc_rel_disp hb h0 ho .REL8
          · rw [hm] at hcode
            dsimp only at hcode
            rw [hhas] at k4
            refine key _ b (by rw [hhas]; exact k4) rfl ?_ ?_
            · rw [hm]; unfold printed dispOperand; simp [h0]
            · rw [hm, hcode]
              exact enc_indx_disp hb h0 ho .DISP .DISP (Or.inl ⟨rfl, by rw [o1, Nat.mod_eq_of_lt hb]⟩)
          · rw [hm] at hcode
            dsimp only at hcode
            rw [hhas] at k4
            by_cases h4 : b / 4 % 2 = 1
            · have e : (decide (Mode.INDX = Mode.INDX) && decide (b / 4 % 2 = 1)) = true := by simp [h4]
              rw [e, if_pos rfl] at k4
              refine key _ b (by rw [hhas]; exact k4) rfl ?_ ?_
              · rw [hm]; unfold printed dispOperand; simp [h0, h4]
              · rw [hm, hcode]
                exact enc_indx_disp hb h0 ho .INDX .INDX (Or.inr ⟨rfl, rfl, by rw [o3]; omega⟩)
            · have e : (decide (Mode.INDX = Mode.INDX) && decide (b / 4 % 2 = 1)) = false := by simp [h4]
              rw [e, if_neg (by decide)] at k4
              refine key _ b (by rw [hhas]; exact k4) rfl ?_ ?_
              · rw [hm]; unfold printed dispOperand; simp [h0, h4]
              · rw [hm, hcode]
                exact enc_indx_disp hb h0 ho .INDX .DISP (Or.inl ⟨rfl, by rw [o2]; omega⟩)
    cases hm : mode row with
    | UNDEF => exact absurd hm hf.undef
    | NONE =>
      rw [hm] at hd hcode
      dsimp only at hd hcode ⊢
      obtain ⟨hpg, heq⟩ := chk ⟨rest, [b], .OK⟩ rfl hd
      rw [heq]
      refine one [] {} b hpg operand_nil rfl rfl (by rw [hm]; rfl) ?_
      rw [hm, hcode]
      show Out.ok (Asm.emitInsn _) = _
      unfold Asm.emitInsn
      simp only [Nat.mod_eq_of_lt hb, List.nil_append]
    | PNTR =>
      rw [hm] at hd hcode
      dsimp only at hd hcode ⊢
      obtain ⟨hpg, heq⟩ := chk ⟨rest, [b], .OK⟩ rfl hd
      rw [heq]
      have hne : decodePointerReg b ≠ .E := by unfold decodePointerReg; split <;> simp
      refine one _ _ b hpg (operand_reg o _ hne) ?_ rfl (by rw [hm]; rfl) ?_
      · have : ∀ r, r ≠ Reg.E → skipSpaces (outText o (regText regs r)) = outText o (regText regs r) := by
          intro r _; unfold outText; cases o.upper <;> cases r <;> decide
        exact this _ hne
      · rw [hm, hcode]
        show Out.ok (Asm.emitInsn (Asm.embed _ (encodePointerReg (some (decodePointerReg b))))) = _
        unfold Asm.emitInsn Asm.embed
        simp only [reg_code, (or_low hb).1, Nat.mod_eq_of_lt hb, List.nil_append]
    | IMM8 =>
      rw [hm] at hd hcode
      dsimp only at hd hcode ⊢
      cases hrest : rest with
      | nil =>
        exfalso
        rw [hrest] at hd
        exact nomem _ (by unfold Rd.byte Rd.setErrorIf Config.setErrorIf; simp) hd
      | cons opr rest' =>
        have ho : opr < 256 := hbytes opr (by rw [hrest]; simp)
        have hbyte : (⟨opr :: rest', [b], .OK⟩ : Rd).byte = (opr, ⟨rest', [b, opr], .OK⟩) := by
          unfold Rd.byte
          dsimp only
          rw [Nat.mod_eq_of_lt ho]
          rfl
        rw [hrest, hbyte] at hd
        dsimp only at hd
        obtain ⟨hpg, heq⟩ := chk ⟨rest', [b, opr], .OK⟩ rfl hd
        rw [hbyte]
        dsimp only
        rw [heq]
        have h := outHex_num hP opr 8 true ho (by decide) (by decide)
        have e := eval_const (const_of lexOk h E '\x00' addr) Sep.nil (stop_nil E addr)
        rw [List.append_nil] at e
        have := two opr rest' hrest _ _ b hpg (operand_number (plain_number h.lead) e)
          (lead_space h.lead) rfl (by rw [hm]; rfl) (by
            rw [hm, hcode]
            show Out.ok (Asm.emitByte (Asm.emitInsn _) _) = _
            have hov : (⟨opr, .unsigned⟩ : Value).overflowUint8 = false := by
              unfold Value.overflowUint8 Value.overflow Value.overflowUint32 Value.isUnsigned
                Value.getUnsigned
              simp
              omega
            dsimp only
            rw [hov]
            unfold Asm.emitByte Asm.emitInsn Value.getUnsigned
            simp only [Bool.false_eq_true, if_false, Nat.mod_eq_of_lt hb, List.nil_append,
              List.singleton_append]
            have : (((opr % 4294967296 : Nat) : Int) % 256).toNat = opr := by omega
            rw [this])
        rw [hrest] at this
        exact this
    | REL8 =>
      rw [hm] at hd
      exact indx .REL8 false hm (Or.inl rfl) (by decide) hd
    | DISP =>
      rw [hm] at hd
      exact indx .DISP false hm (Or.inr (Or.inl rfl)) (by decide) hd
    | INDX =>
      rw [hm] at hd
      exact indx .INDX true hm (Or.inr (Or.inr rfl)) (by decide) hd

/-- The hypotheses of `C28_partial` hold of `ST @-14(P2)`, of a branch back, and with the option
`relative`. -/
example : (disassemble (.default '$') 0x1ff0 [0xce, 0xf2, 1]).err = .OK ∧
    (disassemble (.default '$') 0x1ff0 [0xce, 0xf2, 1]).operands = "@-14(P2)".toList ∧
    (disassemble (.default '$') 0x1ff0 [0x90, 0xf0]).err = .OK ∧
    (disassemble (.default '$') 0x1ff0 [0x90, 0xf0]).operands = "X'1FE2".toList ∧
    (disassemble ⟨true, false, false, true, false, false, '.'⟩ 0x1ff0 [0x90, 0xf0]).operands =
      ".-14".toList := by
  decide +kernel

/-- With the option `list-radix` 8 alone `c4 12` is printed as `LDI O'022`, which the assembler
reads as an undefined symbol `O` followed by a comment, and takes for `c4 00`. -/
theorem C28_violated_octal :
    let E : Env := ⟨fun _ => none, fun _ => none, fun _ => none⟩
    let o : Opts := ⟨true, true, true, false, false, false, '$'⟩
    let d := disassemble o 0x1000 [0xc4, 0x12]
    d.err = .OK ∧ d.name = "LDI".toList ∧ d.operands = "O'022".toList ∧ d.bytes = [0xc4, 0x12] ∧
    assemble E 0x1000 (d.name ++ [' '] ++ d.operands) =
      .ok (.insn ⟨.UNDEFINED_SYMBOL, [0xc4, 0], "'022".toList⟩) := by
  refine ⟨by decide +kernel, by decide +kernel, by decide +kernel, by decide +kernel, ?_⟩
  with_unfolding_all rfl

end Libasm.Cpu.Ins8060
