import Verif.Cpu.Z80.Encode
/-
C70: what the Z80 disassembler prints assembles to the bytes it read.
-/
namespace Libasm.Cpu.Z80
open Scan Number Number.Spec Eval
open Tables (Row)

theorem syntaxOk : SyntaxOk syntaxOf := by
  constructor
  · intro c hc
    exact Ctype.ascii (p := fun c => Ctype.isSpace c = true → syntaxOf.instructionLetter c = false)
      (by decide +kernel) c (space_ascii hc) hc
  · intro c s hc
    exact Ctype.ascii (p := fun c => Ctype.isAlpha c = true → (c == '\x00' || c == ';') = false)
      (by decide +kernel) c (alpha_ascii hc) hc

theorem skip_skip (s : Scan) : skipSpaces (skipSpaces s) = skipSpaces s := by
  unfold skipSpaces trimStart
  induction s with
  | nil => rfl
  | cons c s ih =>
    rw [List.dropWhile_cons]
    split
    · exact ih
    · rw [List.dropWhile_cons, if_neg (by assumption)]

theorem parse_skip (P : Char → Plugins Value) (s : Scan) : parseOperand P (skipSpaces s) = parseOperand P s := by
  unfold parseOperand
  rw [skip_skip]

theorem impl_skip (P : Char → Plugins Value) (addr : Nat) (name : List Char) (s : Scan) :
    encodeImpl P addr name (skipSpaces s) = encodeImpl P addr name s := by
  unfold encodeImpl
  rw [operands_skip (parse_skip P)]

theorem emit_none (addr : Nat) (ib : Bool) (op : Operand) (i : Ins) :
    encodeOperand addr ib .NONE {} op i = .ok i := by
  unfold encodeOperand
  rw [show i.asm.setErrorIf ({} : Operand).err = i.asm from Asm.noError _]

/-- From the operands to the instruction. -/
theorem impl_of {E : Env} {addr pre : Nat} {row : Row} {name t : List Char} {ops : List Operand}
    {i1 i2 : Ins} (hops : operandList (parseOperand (fun delim => plug E delim addr)) 2 t = .ok (.ok (ops, [])))
    (hs : searchName name ((ops[0]?).getD ({} : Operand)).mode ((ops[1]?).getD ({} : Operand)).mode = .ok (.ok (pre, row)))
    (h1 : encodeOperand addr (indexBit row) (dst row) ((ops[0]?).getD ({} : Operand)) ((ops[1]?).getD ({} : Operand)) ⟨⟨.OK, row.opcode, []⟩, pre⟩ = .ok i1)
    (h2 : encodeOperand addr (indexBit row) (src row) ((ops[1]?).getD ({} : Operand)) ((ops[0]?).getD ({} : Operand)) i1 = .ok i2) :
    encodeImpl (fun delim => plug E delim addr) addr name t = .ok ⟨i2.asm.err, i2.bytes, []⟩ := by
  unfold encodeImpl
  rw [hops, Out.ok_bind]
  dsimp only
  rw [hs, Out.ok_bind]
  dsimp only
  rw [h1, Out.ok_bind, h2, Out.ok_bind]

/-- The bytes before the operands. -/
def codeBytes (pre b : Nat) : List Nat := if pre = 0 then [b] else [pre, b]

theorem bytes_eq {pre b : Nat} {ops : List Nat} (hp : pre < 256) (hb : b < 256) :
    Ins.bytes ⟨⟨.OK, b, ops⟩, pre⟩ = codeBytes pre b ++ ops := by
  unfold Ins.bytes Asm.bytes codeBytes
  dsimp only
  by_cases h : pre = 0
  · rw [if_pos h, if_neg (by simpa using h), Nat.mod_eq_of_lt hb]
    rfl
  · rw [if_neg h, if_pos h, Nat.mod_eq_of_lt hb, Nat.mod_eq_of_lt hp]
    rfl

theorem parse_space (P : Char → Plugins Value) (s : Scan) : parseOperand P (' ' :: s) = parseOperand P s := by
  rw [← parse_skip _ (' ' :: s), ← parse_skip _ s]
  rfl

theorem chain_one {M O : Type} {R : M → Rd → Rd → O → Prop} {m : M} {r r' : Rd} {ops : List O}
    (h : Chain R [m] r r' ops) : ∃ op, ops = [op] ∧ R m r r' op := by
  match ops, h with
  | [op], ⟨r1, h1, h2⟩ => subst h2; exact ⟨op, rfl, h1⟩

theorem chain_two {M O : Type} {R : M → Rd → Rd → O → Prop} {m1 m2 : M} {r r' : Rd} {ops : List O}
    (h : Chain R [m1, m2] r r' ops) : ∃ op1 op2 r1, ops = [op1, op2] ∧ R m1 r r1 op1 ∧ R m2 r1 r' op2 := by
  match ops, h with
  | [op1, op2], ⟨r1, h1, r2, h2, h3⟩ => subst h3; exact ⟨op1, op2, r1, rfl, h1, h2⟩

/-- An instruction whose code and prefix were read. -/
theorem insn_back {E : Env} {o : Opts} {addr pre b : Nat} {row : Row} {mem : List Nat}
    (hsym : o.relative = true → o.curSym = '$') (ha : addr < 65536) (hp : pre < 256) (hb : b < 256)
    (hmem : ∀ x ∈ mem, x < 256) (hrow : rowOk pre b row = true) (hname : nameOk pre b row o.upper = true)
    (he : (decodeList (decodeOperand o addr pre b) (modes row) ⟨mem, codeBytes pre b, .OK⟩).2.err = .OK) :
    ∃ bs, Took ⟨mem, codeBytes pre b, .OK⟩ (decodeList (decodeOperand o addr pre b) (modes row) ⟨mem, codeBytes pre b, .OK⟩).2 bs ∧
      encodeImpl (fun delim => plug E delim addr) addr (row.name.map (letter o.upper))
        (decodeList (decodeOperand o addr pre b) (modes row) ⟨mem, codeBytes pre b, .OK⟩).1 =
        .ok ⟨.OK, codeBytes pre b ++ bs, []⟩ := by
  unfold rowOk at hrow
  simp only [Bool.and_eq_true, List.all_eq_true, decide_eq_true_eq, Bool.not_eq_true'] at hrow
  obtain ⟨⟨⟨⟨⟨w1, w2⟩, w3⟩, w4⟩, w5⟩, w6⟩ := hrow
  unfold nameOk at hname
  simp only [Bool.and_eq_true] at hname
  obtain ⟨-, hname⟩ := hname
  have hlenc : (codeBytes pre b).length ≤ 2 := by unfold codeBytes; split <;> simp
  have finish : ∀ (ops : List Operand) (bs1 bs2 : List Nat), (∀ p, ∃ i1, encodeOperand addr false (dst row) ((ops[0]?).getD ({} : Operand))
        ((ops[1]?).getD ({} : Operand)) ⟨⟨.OK, row.opcode, []⟩, p⟩ = .ok i1 ∧
        encodeOperand addr false (src row) ((ops[1]?).getD ({} : Operand)) ((ops[0]?).getD ({} : Operand)) i1 =
        .ok ⟨⟨.OK, emb (field pre b (src row)) (emb (field pre b (dst row)) row.opcode), bs1 ++ bs2⟩,
          prefixAfter pre (src row) (prefixAfter pre (dst row) p)⟩) →
      ((ops[0]?).getD ({} : Operand)).mode = ((modes row).map (pmode pre b)).headD .NONE →
      ((ops[1]?).getD ({} : Operand)).mode = (((modes row).map (pmode pre b)).drop 1).headD .NONE →
      ∀ t, operandList (parseOperand (fun delim => plug E delim addr)) 2 t = .ok (.ok (ops, [])) →
      encodeImpl (fun delim => plug E delim addr) addr (row.name.map (letter o.upper)) t =
        .ok ⟨.OK, codeBytes pre b ++ (bs1 ++ bs2), []⟩ := by
    intro ops bs1 bs2 h1 h2 h3 t h4
    split at hname
    · rename_i p r heq
      simp only [Bool.and_eq_true, decide_eq_true_eq] at hname
      obtain ⟨rfl, hpre⟩ := hname
      obtain ⟨i1, g1, g2⟩ := h1 p
      rw [w6, hpre] at g2
      rw [← h2, ← h3] at heq
      have := impl_of h4 heq (by rw [w5]; exact g1) (by rw [w5]; exact g2)
      rw [bytes_eq hp hb] at this
      exact this
    · cases hname
  have reads := list_reads (Rel := Rel pre b addr) (parse := parseOperand (fun delim => plug E delim addr))
      (dec := decodeOperand o addr pre b) (parse_space _)
      (fun m r => operand_mono m r) (fun m r r' op h => by
        obtain ⟨bs, k1, k2, _⟩ := h.vals
        exact ⟨bs, k1, k2⟩)
      (modes row) 2 ⟨mem, codeBytes pre b, .OK⟩
  have ready : ∀ m ∈ modes row, ∀ k r, Room (k + 1) r → (decodeOperand o addr pre b m r).2.err = .OK →
      ∃ op, Rel pre b addr m r (decodeOperand o addr pre b m r).2 op ∧ ∀ rest, AfterOp rest →
        parseOperand (fun delim => plug E delim addr) ((decodeOperand o addr pre b m r).1 ++ rest) = .ok (.ok (op, rest)) :=
    fun m hm k r hr h => operand_reads hsym ha hb (w2 m hm).2 hr h
  have room : Room (modes row).length ⟨mem, codeBytes pre b, .OK⟩ := ⟨hmem, by dsimp only; omega⟩
  generalize hD : decodeList (decodeOperand o addr pre b) (modes row) ⟨mem, codeBytes pre b, .OK⟩ = D at *
  match hms : modes row with
  | [] =>
    have e1 : dst row = .NONE := by unfold dst; rw [hms]; rfl
    have e2 : src row = .NONE := by unfold src; rw [hms]; rfl
    have hd : D = ([], ⟨mem, codeBytes pre b, .OK⟩) := by rw [← hD, hms]; rfl
    rw [hd]
    refine ⟨[], Took.refl rfl, ?_⟩
    refine finish [({} : Operand)] [] [] (fun p => ⟨⟨⟨.OK, row.opcode, []⟩, p⟩, ?_, ?_⟩) (by rw [hms]; rfl) (by rw [hms]; rfl) _ rfl
    · rw [e1]; exact emit_none ..
    · rw [e2, e1]; exact emit_none ..
  | [m] =>
    have e1 : dst row = m := by unfold dst; rw [hms]; rfl
    have e2 : src row = .NONE := by unfold src; rw [hms]; rfl
    obtain ⟨ops, hc, hops⟩ := reads (by rw [hms]; exact List.cons_ne_nil _ _) w1 room ready he
    rw [hms] at hc
    obtain ⟨op, rfl, hrel⟩ := chain_one hc
    have hm : m ∈ modes row := by rw [hms]; exact List.mem_cons_self ..
    have hnx : m = .R16X → False := by
      intro hx
      rcases w4 with w4 | w4
      · exact w4 (hx ▸ hm)
      · rw [hms] at w4; cases w4
    have hl : m = .REL → D.2.bytes.length = 2 := by
      intro hx
      obtain ⟨bs, k1, _, k3⟩ := hrel.vals
      rw [k1.bytes]
      unfold relOk at w3
      rw [hms, hx] at w3
      rw [hx] at k3
      obtain ⟨v, w, _, _, rfl, _⟩ := k3
      have : pre = 0 := by simpa using w3
      unfold codeBytes
      rw [if_pos this]
      rfl
    obtain ⟨bs, t1, _, _⟩ := emit_one (i := ⟨⟨.OK, row.opcode, []⟩, pre⟩) (other := ({} : Operand)) hb ha (w2 m hm).2 hrel
      (fun hx => (hnx hx).elim) hl rfl
    refine ⟨bs, t1, ?_⟩
    have := finish [op] bs [] (fun p => ?_) (by rw [hms]; exact hrel.mode) (by rw [hms]; rfl) _ hops
    · rw [List.append_nil] at this
      exact this
    · obtain ⟨bs', t1', _, e3⟩ := emit_one (i := ⟨⟨.OK, row.opcode, []⟩, p⟩) (other := ({} : Operand)) hb ha (w2 m hm).2 hrel
        (fun hx => (hnx hx).elim) hl rfl
      have : bs' = bs := by
        have h1 := t1.bytes
        rw [t1'.bytes] at h1
        exact List.append_cancel_left h1
      subst this
      refine ⟨_, by rw [e1]; exact e3, ?_⟩
      rw [e2, e1, List.append_nil]
      exact emit_none ..
  | [m1, m2] =>
    have e1 : dst row = m1 := by unfold dst; rw [hms]; rfl
    have e2 : src row = m2 := by unfold src; rw [hms]; rfl
    obtain ⟨ops, hc, hops⟩ := reads (by rw [hms]; exact List.cons_ne_nil _ _) w1 room ready he
    rw [hms] at hc
    obtain ⟨op1, op2, r1, rfl, hrel1, hrel2⟩ := chain_two hc
    have hm1 : m1 ∈ modes row := by rw [hms]; exact List.mem_cons_self ..
    have hm2 : m2 ∈ modes row := by rw [hms]; exact List.mem_cons_of_mem _ (List.mem_cons_self ..)
    have hnx : m1 = .R16X → False := by
      intro hx
      rcases w4 with w4 | w4
      · exact w4 (hx ▸ hm1)
      · rw [hms, hx] at w4; cases w4
    have hx2 : m2 = .R16X → op1.reg = decodeIndexReg pre := by
      intro hx
      rcases w4 with w4 | w4
      · exact absurd (hx ▸ hm2) w4
      · rw [hms] at w4
        injection w4 with w4 w4'
        have hv := hrel1.vals
        rw [w4] at hv
        obtain ⟨bs, _, _, _, h3⟩ := hv
        unfold opOf textOf at h3
        dsimp only at h3
        cases hd : decodeIndexReg pre with
        | none => rw [hd] at h3; cases h3
        | some rr =>
          rw [hd] at h3
          have hr := (index_text hd (.default '$')).1
          have : ∀ rr ∈ [Reg.IX, Reg.IY], (wordOperand false (regText regs rr)).map (·.reg) = some (some rr) := by
            decide +kernel
          have := this rr (by rcases hr with rfl | rfl <;> simp)
          dsimp only [Option.map] at h3
          rw [h3] at this
          injection this
    have hl1 : m1 = .REL → False := by
      intro hx
      unfold relOk at w3
      rw [hms, hx] at w3
      cases m2 <;> simp_all [byteMode]
    have t1 := emit_one (i := ⟨⟨.OK, row.opcode, []⟩, pre⟩) (other := ({} : Operand)) hb ha (w2 m1 hm1).2 hrel1
      (fun hx => (hnx hx).elim) (fun hx => (hl1 hx).elim) rfl
    obtain ⟨bs1, t1, tn, _⟩ := t1
    have hl2 : m2 = .REL → D.2.bytes.length = 2 := by
      intro hx
      obtain ⟨bs, k1, _, k3⟩ := hrel2.vals
      rw [k1.bytes]
      unfold relOk at w3
      rw [hms, hx] at w3
      rw [hx] at k3
      obtain ⟨v, w, _, _, rfl, _⟩ := k3
      have hz : pre = 0 ∧ byteMode m1 = false := by
        have : (decide (pre = 0) && !byteMode m1) = true := by
          cases m1 <;> first | exact w3 | exact (hl1 rfl).elim
        simpa using this
      have hz1 := tn hz.2
      subst hz1
      rw [t1.bytes, List.append_nil]
      unfold codeBytes
      rw [if_pos hz.1]
      rfl
    obtain ⟨bs2, t2, _, _⟩ := emit_one (i := ⟨⟨.OK, row.opcode, []⟩, pre⟩) (other := op1) hb ha (w2 m2 hm2).2 hrel2
      hx2 hl2 rfl
    refine ⟨bs1 ++ bs2, t1.trans t2, ?_⟩
    refine finish [op1, op2] bs1 bs2 (fun p => ?_) (by rw [hms]; exact hrel1.mode) (by rw [hms]; exact hrel2.mode) _ hops
    obtain ⟨bs1', t1', _, e3⟩ := emit_one (i := ⟨⟨.OK, row.opcode, []⟩, p⟩) (other := op2) hb ha (w2 m1 hm1).2 hrel1
      (fun hx => (hnx hx).elim) (fun hx => (hl1 hx).elim) rfl
    have : bs1' = bs1 := by
      have h1 := t1.bytes
      rw [t1'.bytes] at h1
      exact List.append_cancel_left h1
    subst this
    obtain ⟨bs2', t2', _, e4⟩ := emit_one (i := ⟨⟨.OK, emb (field pre b m1) row.opcode, [] ++ bs1'⟩, prefixAfter pre m1 p⟩)
      (other := op1) hb ha (w2 m2 hm2).2 hrel2 hx2 hl2 rfl
    have : bs2' = bs2 := by
      have h1 := t2.bytes
      rw [t2'.bytes] at h1
      exact List.append_cancel_left h1
    subst this
    rw [e1, e2]
    exact ⟨_, e3, e4⟩
  | _ :: _ :: _ :: _ => rw [hms] at w1; simp at w1

theorem checkAddr_lt {addr : Nat} (h : Config.checkAddr 16 addr false = .OK) (h32 : addr < Config.W) : addr < 65536 := by
  rw [Config.checkAddr_eq false (by decide) h32] at h
  split at h
  · cases h
  · rename_i hlt
    simpa using hlt

/-- An operation on a bit of an indexed byte. -/
theorem bits_back {E : Env} {o : Opts} {addr pre : Nat} {mem : List Nat}
    (hp : pre < 256) (hi : (decodeIndexReg pre).isSome = true)
    (hmem : ∀ x ∈ mem, x < 256)
    (he : (decodeIndexedBitOp o pre 0xcb ⟨mem, [pre, 0xcb], .OK⟩).err = .OK) :
    ∃ off code rest, mem = off :: code :: rest ∧
      (decodeIndexedBitOp o pre 0xcb ⟨mem, [pre, 0xcb], .OK⟩).bytes = [pre, 0xcb, off, code] ∧
      nameB syntaxOf (decodeIndexedBitOp o pre 0xcb ⟨mem, [pre, 0xcb], .OK⟩).name = true ∧
      encodeImpl (fun delim => plug E delim addr) addr (decodeIndexedBitOp o pre 0xcb ⟨mem, [pre, 0xcb], .OK⟩).name
        (decodeIndexedBitOp o pre 0xcb ⟨mem, [pre, 0xcb], .OK⟩).operands = .ok ⟨.OK, [pre, 0xcb, off, code], []⟩ := by
  have hbad : ∀ r : Rd, (r.setErrorIf .UNKNOWN_INSTRUCTION).err ≠ .OK := by
    intro r h
    exact absurd (setErrorIf_ok h).2 (by decide)
  unfold decodeIndexedBitOp at he ⊢
  dsimp only at he ⊢
  have hbyte : (⟨mem, [pre, 0xcb], .OK⟩ : Rd).byte.2.byte.2.err = .OK := by
    split at he
    · exact absurd he (hbad _)
    · split at he
      · exact he
      · exact absurd he (hbad _)
  obtain ⟨c1, t1⟩ := byte_took (byte_mem hmem) hbyte
  obtain ⟨c2, t2⟩ := byte_took hmem t1.err
  generalize hoff : (⟨mem, [pre, 0xcb], .OK⟩ : Rd).byte.1 = off at *
  generalize hr1 : (⟨mem, [pre, 0xcb], .OK⟩ : Rd).byte.2 = r1 at *
  generalize hcode : r1.byte.1 = code at *
  generalize hr2 : r1.byte.2 = r2 at *
  have tt := t2.trans t1
  have hmem' : mem = off :: code :: r2.mem := tt.mem
  have hbytes : r2.bytes = [pre, 0xcb, off, code] := tt.bytes
  refine ⟨off, code, r2.mem, hmem', ?_⟩
  have hok := bits_ok code c1
  unfold bitOk at hok
  cases hs : searchOpCode 0xcb code with
  | none => rw [hs] at he; exact absurd he (hbad _)
  | some row =>
    rw [hs] at he hok
    dsimp only at he hok ⊢
    by_cases hl : decodeDataReg code = .HL
    · rw [if_pos hl]
      have hok : (bitEntry code row false && bitEntry code row true) = true := by
        rw [Bool.or_eq_true] at hok
        rcases hok with hok | hok
        · exact absurd hl (of_decide_eq_true hok)
        · exact hok
      have hent : bitEntry code row o.upper = true := by
        rw [Bool.and_eq_true] at hok
        cases o.upper
        · exact hok.1
        · exact hok.2
      unfold bitEntry at hent
      rw [Bool.and_eq_true] at hent
      obtain ⟨hn, hent⟩ := hent
      refine ⟨hbytes, hn, ?_⟩
      split at hent
      · rename_i p r heq
        simp only [Bool.and_eq_true, decide_eq_true_eq] at hent
        obtain ⟨⟨rfl, hib⟩, hent⟩ := hent
        have hix := fun rest => indexed_reads (E := E) (addr := addr) (o := o) (pre := pre) c2 hi rest
        have bytes : ∀ c, Ins.bytes ⟨⟨.OK, 0xcb, [off, c]⟩, pre⟩ = [pre, 0xcb, off, c] := by
          intro c
          have hne : pre ≠ 0 := by
            intro h0
            rw [h0] at hi
            cases hi
          rw [bytes_eq hp (by decide)]
          unfold codeBytes
          rw [if_neg hne]
          rfl
        have idx : ∀ (op other : Operand) (c : Nat), op = { mode := .IDX, reg := decodeIndexReg pre, val := Value.setS (int8 off) } →
            encodeOperand addr true .IDX op other ⟨⟨.OK, c, []⟩, 0xcb⟩ = .ok ⟨⟨.OK, 0xcb, [off, c]⟩, pre⟩ := by
          intro op other c hop
          subst hop
          unfold encodeOperand
          dsimp only
          rw [Asm.noError, (offset_byte c2).1, if_pos rfl]
          unfold encodeIndexedBitOp
          dsimp only
          rw [index_prefix hi, (offset_byte c2).2]
          rfl
        by_cases hbit : dst row = .BIT
        · rw [if_pos hbit] at hent ⊢
          simp only [Bool.and_eq_true, decide_eq_true_eq] at hent
          obtain ⟨⟨hd1, hd2⟩, hop⟩ := hent
          rw [if_pos hbit, if_pos hbit] at heq
          have hnum := outHex_num (intel_pairs o) (code / 8 % 8) 3 true (by omega) (by decide) (by decide)
          have hops : operandList (parseOperand (fun delim => plug E delim addr)) 2
              (outHex .intel o (code / 8 % 8) 3 true ++ [',', ' '] ++ outIndexed o pre off) =
              .ok (.ok ([{ mode := .IM16, val := ⟨code / 8 % 8, .unsigned⟩ },
                { mode := .IDX, reg := decodeIndexReg pre, val := Value.setS (int8 off) }], [])) := by
            have e1 := num_reads (E := E) (loc := addr) (t := outHex .intel o (code / 8 % 8) 3 true) hnum (rest := ',' :: ' ' :: outIndexed o pre off) (Or.inr ⟨_, rfl⟩)
            have e2 := hix []
            rw [List.append_nil] at e2
            rw [List.append_assoc]
            unfold operandList
            show Out.bind (parseOperand (fun delim => plug E delim addr)
              (outHex .intel o (code / 8 % 8) 3 true ++ ',' :: ' ' :: outIndexed o pre off)) _ = _
            rw [e1, Out.ok_bind]
            show Out.bind (operandList _ 1 (' ' :: outIndexed o pre off)) _ = _
            unfold operandList
            rw [parse_space, e2, Out.ok_bind]
            rfl
          have := impl_of (i1 := ⟨⟨.OK, code, []⟩, 0xcb⟩) (i2 := ⟨⟨.OK, 0xcb, [off, code]⟩, pre⟩) hops heq
            (by
              rw [hd1, hib]
              show encodeOperand addr true .BIT { mode := .IM16, val := ⟨code / 8 % 8, .unsigned⟩ } _ _ = _
              unfold encodeOperand
              dsimp only
              rw [Asm.noError, getUnsigned_nat (by omega), show (⟨code / 8 % 8, .unsigned⟩ : Value).overflow 7 0 = false from
                overflow_num (by omega) (by omega) (by omega), show code / 8 % 8 % 8 = code / 8 % 8 by omega]
              show Out.ok (⟨⟨.OK, (r.opcode ||| code / 8 % 8 * 8) % 256, []⟩, 0xcb⟩ : Ins) = _
              rw [hop])
            (by
              rw [hd2, hib]
              exact idx _ _ _ rfl)
          rw [bytes] at this
          exact this
        · rw [if_neg hbit] at hent ⊢
          simp only [Bool.and_eq_true, decide_eq_true_eq] at hent
          obtain ⟨⟨hd1, hd2⟩, hop⟩ := hent
          rw [if_neg hbit, if_neg hbit] at heq
          have hops : operandList (parseOperand (fun delim => plug E delim addr)) 2 ([] ++ outIndexed o pre off) =
              .ok (.ok ([{ mode := .IDX, reg := decodeIndexReg pre, val := Value.setS (int8 off) }], [])) := by
            have e2 := hix []
            rw [List.append_nil] at e2
            rw [List.nil_append]
            unfold operandList
            rw [e2, Out.ok_bind]
            rfl
          have := impl_of (i1 := ⟨⟨.OK, 0xcb, [off, code]⟩, pre⟩) (i2 := ⟨⟨.OK, 0xcb, [off, code]⟩, pre⟩) hops heq
            (by
              rw [hd1, hib, hop]
              exact idx _ _ _ rfl)
            (by
              rw [hd2, hib]
              exact emit_none ..)
          rw [bytes] at this
          exact this
      · cases hent
    · rw [if_neg hl] at he
      exact absurd he (hbad _)

/-- What the disassembler prints of any bytes it takes without error assembles at the same address to
the same bytes without error, and nothing of the line is left; the bytes are the first of those given.
With the option `relative` the targets of branches are printed with the letter of the location symbol,
which has to be the one of the assembler. -/
theorem C70 (o : Opts) (E : Env) (addr : Nat) (mem : List Nat) (sep : List Char)
    (haddr : addr < 2 ^ 32) (hbytes : ∀ b ∈ mem, b < 256) (hmem : mem ≠ [])
    (hsep : sep ≠ [] ∧ ∀ c ∈ sep, Ctype.isSpace c = true)
    (hsym : o.relative = true → o.curSym = '$')
    (hd : (disassemble o addr mem).err = .OK) :
    assemble E addr ((disassemble o addr mem).name ++ sep ++ (disassemble o addr mem).operands) =
      .ok (.insn ⟨.OK, (disassemble o addr mem).bytes, []⟩) ∧
    (disassemble o addr mem).bytes ≠ [] ∧
    (disassemble o addr mem).bytes <+: mem := by
  have hdis : disassemble o addr mem = decodeImpl o addr mem ∧ Config.checkAddr 16 addr false = .OK := by
    unfold disassemble decode at hd ⊢
    split at hd
    · exact absurd hd (by assumption)
    · rename_i h1
      rw [if_neg h1]
      exact ⟨rfl, Classical.not_not.1 h1⟩
  obtain ⟨hdis, hok⟩ := hdis
  have ha := checkAddr_lt hok (by unfold Config.W; omega)
  rw [hdis] at hd ⊢
  -- what is left to show of an instruction whose code was read
  have main : ∀ (pre b : Nat) (rest : List Nat), pre < 256 → b < 256 → (∀ x ∈ rest, x < 256) → codeOk pre b = true →
      (decodeInsn o addr pre b ⟨rest, codeBytes pre b, .OK⟩).err = .OK →
      ∃ bs tail, rest = bs ++ tail ∧ (decodeInsn o addr pre b ⟨rest, codeBytes pre b, .OK⟩).bytes = codeBytes pre b ++ bs ∧
        nameB syntaxOf (decodeInsn o addr pre b ⟨rest, codeBytes pre b, .OK⟩).name = true ∧
        encodeImpl (fun delim => plug E delim addr) addr (decodeInsn o addr pre b ⟨rest, codeBytes pre b, .OK⟩).name
          (decodeInsn o addr pre b ⟨rest, codeBytes pre b, .OK⟩).operands = .ok ⟨.OK, codeBytes pre b ++ bs, []⟩ := by
    intro pre b rest hp hb hrest hcode he
    unfold decodeInsn at he ⊢
    unfold codeOk at hcode
    cases hs : searchOpCode pre b with
    | none => rw [hs] at he; cases he
    | some row =>
      rw [hs] at he hcode
      dsimp only at he hcode ⊢
      by_cases hx : dst row = .IXB
      · rw [if_pos hx] at he hcode ⊢
        simp only [Bool.and_eq_true, decide_eq_true_eq] at hcode
        obtain ⟨hi, rfl⟩ := hcode
        have hne : pre ≠ 0 := by
          intro h0
          rw [h0] at hi
          cases hi
        have hcb : codeBytes pre 0xcb = [pre, 0xcb] := by unfold codeBytes; rw [if_neg hne]
        rw [hcb] at he ⊢
        obtain ⟨off, code, tail, g1, g2, g3, g4⟩ := bits_back (E := E) (addr := addr) hp hi hrest he
        exact ⟨[off, code], tail, g1, g2, g3, g4⟩
      · rw [if_neg hx] at he hcode ⊢
        simp only [Bool.and_eq_true] at hcode
        have hname : nameOk pre b row o.upper = true := by
          cases o.upper
          · exact hcode.1.2
          · exact hcode.2
        obtain ⟨bs, t1, t2⟩ := insn_back (E := E) hsym ha hp hb hrest hcode.1.1 hname he
        refine ⟨bs, _, t1.mem, t1.bytes, ?_, t2⟩
        unfold nameOk at hname
        rw [Bool.and_eq_true] at hname
        exact hname.1
  have wrap : ∀ (d : Dis) (code bs tail : List Nat), code ≠ [] → mem = code ++ (bs ++ tail) → d.bytes = code ++ bs →
      nameB syntaxOf d.name = true →
      encodeImpl (fun delim => plug E delim addr) addr d.name d.operands = .ok ⟨.OK, code ++ bs, []⟩ →
      assemble E addr (d.name ++ sep ++ d.operands) = .ok (.insn ⟨.OK, d.bytes, []⟩) ∧ d.bytes ≠ [] ∧ d.bytes <+: mem := by
    intro d code bs tail h0 h1 h2 h3 h4
    rw [h2]
    refine ⟨encode_operands syntaxOk h3 hsep (impl_skip _ _ _ _) hok h4, by simp [h0], tail, ?_⟩
    rw [h1, List.append_assoc]
  cases mem with
  | nil => exact absurd rfl hmem
  | cons b rest =>
  have hb : b < 256 := hbytes b (List.mem_cons_self ..)
  have hrest : ∀ x ∈ rest, x < 256 := fun x hx => hbytes x (List.mem_cons_of_mem _ hx)
  unfold decodeImpl at hd ⊢
  rw [byte_some hb] at hd ⊢
  dsimp only [List.nil_append] at hd ⊢
  by_cases hp : isPrefix b = true
  · rw [if_pos hp] at hd ⊢
    cases rest with
    | nil => exact absurd hd (show ¬ Err.NO_MEMORY = Err.OK by decide)
    | cons c rest =>
      have hc : c < 256 := hrest c (List.mem_cons_self ..)
      have hrest' : ∀ x ∈ rest, x < 256 := fun x hx => hrest x (List.mem_cons_of_mem _ hx)
      have hcode : codeOk b c = true := by
        rcases prefixes b hb hp with rfl | rfl | rfl | rfl
        · exact codes_cb c hc
        · exact codes_ed c hc
        · exact codes_dd c hc
        · exact codes_fd c hc
      rw [byte_some hc] at hd ⊢
      dsimp only at hd ⊢
      rw [if_neg (by simp)] at hd ⊢
      have hcb : [b] ++ [c] = codeBytes b c := by
        unfold codeBytes
        rw [if_neg (by rcases prefixes b hb hp with rfl | rfl | rfl | rfl <;> decide)]
        rfl
      rw [hcb] at hd ⊢
      obtain ⟨bs, tail, g1, g2, g3, g4⟩ := main b c rest hb hc hrest' hcode hd
      refine wrap _ (codeBytes b c) bs tail (by rw [← hcb]; simp) ?_ g2 g3 g4
      rw [← hcb, ← g1]
      rfl
  · rw [if_neg hp] at hd ⊢
    have hcode : codeOk 0 b = true := by
      rcases codes_00 b hb with h | h
      · exact absurd h hp
      · exact h
    obtain ⟨bs, tail, g1, g2, g3, g4⟩ := main 0 b rest (by decide) hb hrest hcode hd
    refine wrap _ (codeBytes 0 b) bs tail (by simp [codeBytes]) ?_ g2 g3 g4
    rw [← g1]
    rfl

/-- The hypotheses of `C70` hold of an operation on a bit of an indexed byte, of an offset below zero, of a
branch printed relative to the location, of an index register, of the exchange with the other register. -/
example :
    (disassemble (.default '$') 0x100 [0xfd, 0xcb, 0xfe, 0x5e]).err = .OK ∧
    (disassemble (.default '$') 0x100 [0xfd, 0xcb, 0xfe, 0x5e]).name = "BIT".toList ∧
    (disassemble (.default '$') 0x100 [0xfd, 0xcb, 0xfe, 0x5e]).operands = "3, (IY-2)".toList ∧
    (disassemble (.default '$') 0x100 [0xdd, 0x36, 5, 0x80]).operands = "(IX+5), 80H".toList ∧
    (disassemble { Opts.default '$' with relative := true } 0xfffe [0x38, 0xf0]).err = .OK ∧
    (disassemble { Opts.default '$' with relative := true } 0xfffe [0x38, 0xf0]).operands = "C, $-14".toList ∧
    (disassemble (.default '$') 0 [0xdd, 0x29]).operands = "IX, IX".toList ∧
    (disassemble (.default '$') 0 [8]).operands = "AF, AF'".toList ∧
    (disassemble (.default '$') 0 [0xed, 0x5e]).operands = "2".toList ∧
    (disassemble (.default '$') 0 [0xdd, 0x59]).err = .UNKNOWN_INSTRUCTION := by
  decide +kernel

end Libasm.Cpu.Z80
