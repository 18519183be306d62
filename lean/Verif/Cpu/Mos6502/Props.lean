import Verif.Cpu.Mos6502.Encode
import Verif.Cpu.Back
/-
C66: what the MOS6502 family disassembler prints assembles to the bytes it read.
-/
namespace Libasm.Cpu.Mos6502
open Scan Number Number.Spec Eval
open Tables (Row)

theorem syntaxOk : SyntaxOk syntaxOf := by
  constructor
  · intro c hc
    exact Ctype.ascii (p := fun c => Ctype.isSpace c = true → syntaxOf.instructionLetter c = false)
      (by decide +kernel) c (space_ascii hc) hc
  · intro c s hc
    obtain ⟨h1, h2⟩ := Ctype.ascii (p := fun c => Ctype.isAlpha c = true → Ctype.isSpace c = false ∧
      (c == '\x00' || c == ';') = false) (by decide +kernel) c (alpha_ascii hc) hc
    have : skipSpaces (c :: s) = c :: s := by
      unfold skipSpaces trimStart
      rw [List.dropWhile_cons, h1]
      rfl
    show (deref (skipSpaces (c :: s)) == '\x00' || deref (skipSpaces (c :: s)) == ';') = false
    rw [this]
    exact h2

/-- What is shown for one instruction: the text can be read, and read again it gives the bytes. -/
def Back (E : Env) (cfg : Cfg) (cpu : CpuType) (addr b : Nat) (name : List Char) (r : Rd)
    (d : List Char × Rd) : Prop :=
  ∃ bs, Took r d.2 bs ∧ skipSpaces d.1 = d.1 ∧
    encodeImpl (parsers E addr) cfg cpu addr name d.1 = .ok ⟨.OK, b :: bs, []⟩

theorem took_nil {r : Rd} (h : r.err = .OK) : Took r r [] := ⟨h, rfl, by rw [List.append_nil]⟩

section
variable {E : Env} {o : Opts} {cfg : Cfg} {cpu : CpuType} {addr b : Nat} {row : Row} {r : Rd}

theorem back_none (hf : Fact cpu b row o.upper) (hb : b < 256) (hfl : flags row = flagsOf .none)
    (he : (decodeOperands o cfg cpu addr b (flags row) r).2.err = .OK) :
    Back E cfg cpu addr b (row.name.map (letter o.upper)) r (decodeOperands o cfg cpu addr b (flags row) r) := by
  have hd : decodeOperands o cfg cpu addr b (flagsOf .none) r = ([], r) := rfl
  rw [hfl, hd] at he ⊢
  refine ⟨[], took_nil he, rfl, ?_⟩
  unfold encodeImpl
  rw [hf.has, Out.ok_bind, hfl, if_neg (by decide)]
  exact insn_of hf hb (by rw [hfl]; exact List.mem_cons_self ..) (by rw [hfl]; exact List.mem_cons_self ..)
    (by rw [hfl]; exact List.mem_cons_self ..) (by rw [hfl]; rfl) _

theorem back_regA (hf : Fact cpu b row o.upper) (hb : b < 256) (hfl : flags row = flagsOf .regA)
    (he : (decodeOperands o cfg cpu addr b (flags row) r).2.err = .OK) :
    Back E cfg cpu addr b (row.name.map (letter o.upper)) r (decodeOperands o cfg cpu addr b (flags row) r) := by
  have hd : decodeOperands o cfg cpu addr b (flagsOf .regA) r =
      ([letter o.upper (regLetter .REGA)], r) := by
    have : decodeOperands o cfg cpu addr b (flagsOf .regA) r =
      ([] ++ outText o (regText registers .REGA) ++ [], r) := rfl
    rw [this, regText_letter (Or.inl rfl)]
    rfl
  rw [hfl, hd] at he ⊢
  refine ⟨[], took_nil he, by cases o.upper <;> rfl, ?_⟩
  have h1 := reg_reads E addr (Or.inl rfl : isReg .REGA) o.upper .no Sep.nil
  rw [show delimOf .no = '\x00' from rfl, close_no] at h1
  rw [encode_three (by rw [hf.has, hfl]; rfl) h1 rfl (next_nil _ _) rfl (next_nil _ _) rfl]
  exact insn_of hf hb (by rw [hfl]; exact List.mem_cons_self ..) (by rw [hfl]; exact List.mem_cons_self ..)
    (by rw [hfl]; exact List.mem_cons_self ..) (by rw [hfl]; rfl) _

theorem back_imm {m : Base} (hm : m = .IMA ∨ m = .IMX ∨ m = .IM8) (hf : Fact cpu b row o.upper) (hb : b < 256)
    (hfl : flags row = flagsOf (.imm m)) (hcfg : cpu ≠ .W65C816 → cfg.longA = false ∧ cfg.longI = false)
    (hmem : ∀ x ∈ r.mem, x < 256)
    (he : (decodeOperands o cfg cpu addr b (flags row) r).2.err = .OK) :
    Back E cfg cpu addr b (row.name.map (letter o.upper)) r (decodeOperands o cfg cpu addr b (flags row) r) := by
  have hd : decodeOperands o cfg cpu addr b (flagsOf (.imm m)) r =
      decodeImmediate o (longImmediate cfg cpu m) r := by
    have : decodeOperands o cfg cpu addr b (flagsOf (.imm m)) r =
      ([] ++ (decodeImmediate o (longImmediate cfg cpu m) r).1 ++ [],
        (decodeImmediate o (longImmediate cfg cpu m) r).2) := by rcases hm with rfl | rfl | rfl <;> rfl
    rw [this, List.nil_append, List.append_nil]
  rw [hfl, hd] at he ⊢
  have emit : ∀ (op : Operand), encodeOperand cfg cpu addr m op ⟨.OK, row.opcode, []⟩ =
      .ok (emitImmediate op (longImmediate cfg cpu m) ⟨.OK, row.opcode, []⟩) := by
    intro op
    unfold longImmediate
    by_cases hc : cpu = .W65C816
    · subst hc
      have hn : (Base.IMA == Base.IMX) = false ∧ (Base.IMX == Base.IMA) = false ∧ (Base.IM8 == Base.IMA) = false ∧
          (Base.IM8 == Base.IMX) = false := by decide
      rcases hm with rfl | rfl | rfl <;> unfold encodeOperand <;> simp [hn]
    · obtain ⟨h1, h2⟩ := hcfg hc
      have : (cpu == CpuType.W65C816) = false := by simpa using hc
      rcases hm with rfl | rfl | rfl <;> unfold encodeOperand <;> simp [this, h1, h2]
  have fin : ∀ (v : Nat) (t : List Char) (bs : List Nat), Expr E addr t v →
      emitImmediate (opd .IMA .no v) (longImmediate cfg cpu m) ⟨.OK, row.opcode, []⟩ = ⟨.OK, row.opcode, bs⟩ →
      encodeImpl (parsers E addr) cfg cpu addr (row.name.map (letter o.upper)) ('#' :: t) =
        .ok ⟨.OK, b :: bs, []⟩ := by
    intro v t bs e h
    rw [encode_three (by rw [hf.has, hfl]; rcases hm with rfl | rfl | rfl <;> rfl) (imm_reads e) rfl
      (next_nil _ _) rfl (next_nil _ _) rfl]
    refine insn_of hf hb ?_ (by rw [hfl]; exact List.mem_cons_self ..)
      (by rw [hfl]; exact List.mem_cons_self ..) ?_ _
    · rw [hfl]
      rcases hm with rfl | rfl | rfl <;> exact List.mem_cons_self ..
    · rw [hfl]
      have e2 : emitOperands cfg cpu addr (flagsOf (.imm m)) (opd .IMA .no v) {} ⟨.OK, row.opcode, []⟩ =
        (encodeOperand cfg cpu addr m (opd .IMA .no v) ⟨.OK, row.opcode, []⟩).bind fun a => .ok a := by
        rcases hm with rfl | rfl | rfl <;> rfl
      rw [e2, emit, Out.ok_bind, h]
  unfold decodeImmediate at he ⊢
  cases hl : longImmediate cfg cpu m with
  | true =>
    rw [hl] at he fin
    rw [if_pos rfl] at he ⊢
    dsimp only at he ⊢
    obtain ⟨h1, h2⟩ := le16_took hmem he
    have e := expr_num (E := E) (addr := addr) (outHex_num (pairs o) r.le16.1 16 true h1 (by decide) (by decide))
    exact ⟨_, h2, rfl, fin _ _ _ e (imm_emit _ true _ (w := r.le16.1) rfl h1)⟩
  | false =>
    rw [hl] at he fin
    rw [if_neg (by decide)] at he ⊢
    dsimp only at he ⊢
    obtain ⟨h1, h2⟩ := byte_took hmem he
    have e := expr_num (E := E) (addr := addr) (outHex_num (pairs o) r.byte.1 8 true h1 (by decide) (by decide))
    exact ⟨_, h2, rfl, fin _ _ _ e (imm_emit _ false _ (w := r.byte.1) rfl h1)⟩

theorem bank_enc {d c x y : Nat} (hf : Fact cpu b row o.upper) (hb : b < 256) (hfl : flags row = flagsOf .bank)
    (hd : d < 256) (hc : c < 256)
    (hx : x = c * 65536) (hy : y = d * 65536) :
    skipSpaces (outAbsAddr .motorola o 24 x ++ [',', ' '] ++ outAbsAddr .motorola o 24 y) =
      outAbsAddr .motorola o 24 x ++ [',', ' '] ++ outAbsAddr .motorola o 24 y ∧
    encodeImpl (parsers E addr) cfg cpu addr (row.name.map (letter o.upper))
      (outAbsAddr .motorola o 24 x ++ [',', ' '] ++ outAbsAddr .motorola o 24 y) =
      .ok ⟨.OK, b :: ([d] ++ [c]), []⟩ := by
  have e1 := expr_num (E := E) (addr := addr)
    (outAbsAddr_num (pairs o) x 24 (by omega) (by decide) (by decide))
  have e2 := expr_num (E := E) (addr := addr)
    (outAbsAddr_num (pairs o) y 24 (by omega) (by decide) (by decide))
  generalize outAbsAddr .motorola o 24 x = t1 at e1 ⊢
  generalize outAbsAddr .motorola o 24 y = t2 at e2 ⊢
  have r1 := value_reads e1 .no .no (rest := ',' :: ' ' :: t2) (Or.inr (Or.inl ⟨_, rfl⟩))
  have r2 := value_reads e2 .no .no (rest := []) (Or.inl rfl)
  rw [show delimOf .no = '\x00' from rfl, close_no] at r1 r2
  simp only [opening, sizeText, List.nil_append, List.append_nil] at r1 r2
  rw [show t1 ++ [',', ' '] ++ t2 = t1 ++ (',' :: ' ' :: t2) by simp]
  refine ⟨(sized e1 .no (',' :: ' ' :: t2)).1, ?_⟩
  rw [encode_three (by rw [hf.has, hfl]; rfl) r1 rfl
    ((next_comma _ _ _).trans ((parse_blank _ _ _).trans r2)) rfl (next_nil _ _) rfl]
  rw [select_kind (by omega), select_kind (by omega)]
  refine insn_of hf hb ?_ ?_ (by rw [hfl]; exact List.mem_cons_self ..) ?_ _
  · rw [hfl]
    exact List.mem_map_of_mem (f := fun k => (⟨k, .no⟩ : Mode)) (kind_any _)
  · rw [hfl]
    exact List.mem_map_of_mem (f := fun k => (⟨k, .no⟩ : Mode)) (kind_any _)
  · rw [hfl]
    unfold emitOperands
    rw [if_pos ⟨rfl, rfl⟩]
    dsimp only [opd]
    rw [getUnsigned_num (by omega), getUnsigned_num (by omega), noError, noError, hx, hy,
      Nat.mul_div_cancel _ (by decide), Nat.mul_div_cancel _ (by decide), emit8_eq _ hd, emit8_eq _ hc]
    rfl

theorem back_bank (hcpu : cpu = .W65C816) (hf : Fact cpu b row o.upper) (hb : b < 256)
    (hfl : flags row = flagsOf .bank) (hmem : ∀ x ∈ r.mem, x < 256)
    (he : (decodeOperands o cfg cpu addr b (flags row) r).2.err = .OK) :
    Back E cfg cpu addr b (row.name.map (letter o.upper)) r (decodeOperands o cfg cpu addr b (flags row) r) := by
  have hd : decodeOperands o cfg cpu addr b (flagsOf .bank) r = decodeBlockMove o cpu r := rfl
  rw [hfl, hd] at he ⊢
  unfold decodeBlockMove at he ⊢
  dsimp only at he ⊢
  have hw : width cpu = 24 := by rw [hcpu]; rfl
  rw [hw]
  by_cases hx : r.byte.2.err = .OK
  · rw [if_neg (by simp [hx])] at he ⊢
    obtain ⟨h1, h2⟩ := byte_took hmem hx
    obtain ⟨h3, h4⟩ := byte_took (byte_mem hmem) he
    obtain ⟨f1, f2⟩ := bank_enc (E := E) (cfg := cfg) (addr := addr) hf hb hfl h1 h3 rfl rfl
    exact ⟨_, h2.trans h4, f1, f2⟩
  · rw [if_pos hx] at he
    exact absurd he hx

theorem operand_mem (m : Base) (h : ∀ x ∈ r.mem, x < 256) :
    ∀ x ∈ (decodeOperand o cfg cpu addr b m r).2.mem, x < 256 := by
  unfold decodeOperand
  cases m <;> first
    | exact h
    | exact byte_mem h
    | exact le16_mem h
    | exact byte_mem (le16_mem h)
    | (unfold decodeImmediate; dsimp only; split; exact le16_mem h; exact byte_mem h)

theorem sized_append {z : Size} {t rest : List Char} {w : Nat} (h : Expr E addr t w) :
    skipSpaces (sizeText z ++ t ++ rest) = sizeText z ++ t ++ rest := by
  rw [List.append_assoc]
  exact (sized h z rest).1

/-- The layouts with one value and what follows it. -/
theorem back_mem {m : Base} {i : Ind} {tail : Base} (hm : isValue m)
    (ht : tail = .NONE ∨ tail = .REGX ∨ tail = .REGY ∨ tail = .REGS) (hf : Fact cpu b row o.upper) (hb : b < 256)
    (hfl : flags row = flagsOf (.mem m i tail)) (hsym : o.relative = true → o.curSym = '*')
    (ha : addr < 2 ^ width cpu) (hsm : cfg.smart = false) (hr : r.bytes = [b]) (hmem : ∀ x ∈ r.mem, x < 256)
    (he : (decodeOperands o cfg cpu addr b (flags row) r).2.err = .OK) :
    Back E cfg cpu addr b (row.name.map (letter o.upper)) r (decodeOperands o cfg cpu addr b (flags row) r) := by
  have hw := pow_width cpu
  have hne : (⟨m, i⟩ : Mode) ≠ none_ ∧ ¬ ((⟨m, i⟩ : Mode) = ⟨.BANK, .no⟩ ∧ (⟨tail, .no⟩ : Mode) = ⟨.BANK, .no⟩) := by
    rcases hm with rfl | rfl | rfl | rfl | rfl <;> exact ⟨by simp [none_], by simp⟩
  have hcl : (if i ≠ Ind.no then closing i else []) = closing i := by cases i <;> rfl
  -- what is printed
  have hd : decodeOperands o cfg cpu addr b (flagsOf (.mem m i tail)) r =
      (opening i ++ (decodeOperand o cfg cpu addr b m r).1 ++ closing i ++
        (if tail = .NONE then [] else [',', letter o.upper (regLetter tail)]),
        (decodeOperand o cfg cpu addr b m r).2) := by
    unfold decodeOperands flagsOf
    dsimp only
    rw [if_neg hne.2, if_neg hne.1, hcl]
    by_cases h0 : tail = .NONE
    · subst h0
      show (_, _) = (_ ++ [], _)
      rw [List.append_nil]
    · rw [if_neg (by simpa [none_] using h0), if_neg h0, if_pos rfl]
      have e : decodeOperand o cfg cpu addr b tail (decodeOperand o cfg cpu addr b m r).2 =
          (outText o (regText registers tail), (decodeOperand o cfg cpu addr b m r).2) := by
        rcases ht with rfl | rfl | rfl | rfl
        · exact absurd rfl h0
        all_goals rfl
      have hreg : isReg tail := by
        rcases ht with h | h | h | h
        · exact absurd h h0
        · exact Or.inr (Or.inl h)
        · exact Or.inr (Or.inr (Or.inl h))
        · exact Or.inr (Or.inr (Or.inr h))
      rw [e, regText_letter hreg]
      simp [closing]
  rw [hfl, hd] at he ⊢
  dsimp only at he ⊢
  obtain ⟨z, t, v, w, R⟩ := operand_reads (E := E) hsym hm ha (by rw [hr]; simp) hmem he
  rw [R.text]
  refine ⟨_, R.took, ?_, ?_⟩
  · cases i with
    | no =>
      have := sized_append (rest := if tail = .NONE then [] else [',', letter o.upper (regLetter tail)]) (z := z) R.expr
      simpa [opening, closing] using this
    | indirect => rfl
    | long => rfl
  -- reading it
  have hmode : (opd (selectMode z ⟨w, .unsigned⟩ .OK) i w).mode ∈ modesOf b (flags row).mode1 := by
    rw [hfl]
    have : modesOf b (flagsOf (.mem m i tail)).mode1 = (kinds b m).map fun k => ⟨k, i⟩ := by
      rcases hm with rfl | rfl | rfl | rfl | rfl <;> rfl
    rw [this]
    exact List.mem_map_of_mem (f := fun k => (⟨k, i⟩ : Mode)) R.kind
  have emit : ∀ op2 : Operand, op2.err = .OK → emitOperands cfg cpu addr (flags row)
      (opd (selectMode z ⟨w, .unsigned⟩ .OK) i w) op2 ⟨.OK, row.opcode, []⟩ =
      .ok ⟨.OK, row.opcode, bytesOf false m v⟩ := by
    intro op2 h2
    rw [hfl]
    unfold emitOperands flagsOf
    dsimp only
    rw [if_neg hne.2]
    have hz : ((⟨.OK, row.opcode, []⟩ : Asm).setErrorIf
        (opd (selectMode z ⟨w, .unsigned⟩ .OK) i w).err).setErrorIf op2.err = ⟨.OK, row.opcode, []⟩ := by
      rw [h2, noError]
      rfl
    rw [hz]
    show (encodeOperand cfg cpu addr m _ _).bind _ = _
    rw [emit_value hsm hm (by omega) R.shown rfl
      (fun _ => by rw [R.took.bytes, hr, List.length_append]; simp only [List.length_cons, List.length_nil]; omega)
      (fun _ => rfl) (by simp), Out.ok_bind]
    show encodeOperand cfg cpu addr tail _ _ = _
    rcases ht with rfl | rfl | rfl | rfl <;> rfl
  have hhas : hasOperand cpu (row.name.map (letter o.upper)) = .ok true := by
    rw [hf.has, hfl]
    exact congrArg Out.ok (decide_eq_true hne.1)
  by_cases h0 : tail = .NONE
  · subst h0
    rw [if_pos rfl]
    have r1 := value_reads R.expr z i (rest := closing i) (by
      cases i
      · exact Or.inl rfl
      · exact Or.inr (Or.inr ⟨by decide, [], rfl⟩)
      · exact Or.inr (Or.inr ⟨by decide, [], rfl⟩))
    have c := close_here (opd (selectMode z ⟨w, .unsigned⟩ .OK) i w) (opening i ++ (sizeText z ++ (t ++ closing i))) i []
    rw [List.append_nil] at c
    rw [c] at r1
    rw [show opening i ++ (sizeText z ++ t) ++ closing i ++ [] = opening i ++ (sizeText z ++ (t ++ closing i)) by simp]
    rw [encode_three hhas r1 rfl (next_nil _ _) rfl (next_nil _ _) rfl]
    exact insn_of hf hb hmode (by rw [hfl]; exact List.mem_cons_self ..) (by rw [hfl]; exact List.mem_cons_self ..)
      (emit _ rfl) _
  · rw [if_neg h0]
    have hreg : isReg tail := by
      rcases ht with h | h | h | h
      · exact absurd h h0
      · exact Or.inr (Or.inl h)
      · exact Or.inr (Or.inr (Or.inl h))
      · exact Or.inr (Or.inr (Or.inr h))
    have r1 := value_reads R.expr z i (rest := closing i ++ [',', letter o.upper (regLetter tail)]) (by
      cases i
      · exact Or.inr (Or.inl ⟨_, rfl⟩)
      · exact Or.inr (Or.inr ⟨by decide, _, rfl⟩)
      · exact Or.inr (Or.inr ⟨by decide, _, rfl⟩))
    rw [close_here] at r1
    have r2 := reg_reads E addr hreg o.upper .no Sep.nil
    rw [show delimOf .no = '\x00' from rfl, close_no] at r2
    rw [show opening i ++ (sizeText z ++ t) ++ closing i ++ [',', letter o.upper (regLetter tail)] =
      opening i ++ (sizeText z ++ (t ++ (closing i ++ [',', letter o.upper (regLetter tail)]))) by simp]
    rw [encode_three hhas r1 rfl ((next_comma _ _ _).trans r2) rfl (next_nil _ _) rfl]
    refine insn_of hf hb hmode ?_ (by rw [hfl]; exact List.mem_cons_self ..) (emit _ rfl) _
    rw [hfl]
    rcases hreg with rfl | rfl | rfl | rfl <;> exact List.mem_cons_self ..

/-- The branches on bits. -/
theorem back_bit (hf : Fact cpu b row o.upper) (hb : b < 256)
    (hfl : flags row = flagsOf .bit) (hsym : o.relative = true → o.curSym = '*')
    (ha : addr < 2 ^ width cpu) (hsm : cfg.smart = false) (hr : r.bytes = [b]) (hmem : ∀ x ∈ r.mem, x < 256)
    (he : (decodeOperands o cfg cpu addr b (flags row) r).2.err = .OK) :
    Back E cfg cpu addr b (row.name.map (letter o.upper)) r (decodeOperands o cfg cpu addr b (flags row) r) := by
  have hw := pow_width cpu
  have hmem1 := operand_mem (o := o) (cfg := cfg) (cpu := cpu) (addr := addr) (b := b) (r := r) .DPG hmem
  have hd : decodeOperands o cfg cpu addr b (flagsOf .bit) r =
      ((decodeOperand o cfg cpu addr b .DPG r).1 ++
        ',' :: (decodeOperand o cfg cpu addr b .REL (decodeOperand o cfg cpu addr b .DPG r).2).1,
        (decodeOperand o cfg cpu addr b .REL (decodeOperand o cfg cpu addr b .DPG r).2).2) := by
    have : decodeOperands o cfg cpu addr b (flagsOf .bit) r =
      ([] ++ (decodeOperand o cfg cpu addr b .DPG r).1 ++ [] ++ [','] ++
        (decodeOperand o cfg cpu addr b .REL (decodeOperand o cfg cpu addr b .DPG r).2).1 ++ [],
        (decodeOperand o cfg cpu addr b .REL (decodeOperand o cfg cpu addr b .DPG r).2).2) := rfl
    rw [this]
    simp
  rw [hfl, hd] at he ⊢
  dsimp only at he ⊢
  have hl1 : (decodeOperand o cfg cpu addr b .DPG r).2.bytes.length < 90 := by
    show r.byte.2.bytes.length < 90
    unfold Rd.byte
    cases r.mem <;> simp [Rd.setErrorIf, hr]
  obtain ⟨z2, t2, v2, w2, R2⟩ := operand_reads (E := E) hsym (Or.inr (Or.inr (Or.inr (Or.inl rfl)))) ha hl1 hmem1 he
  have he1 : (decodeOperand o cfg cpu addr b .DPG r).2.err = .OK := by
    exact byte_err (setErrorIf_ok he).1
  obtain ⟨z, t, v, w, R⟩ := operand_reads (E := E) hsym (Or.inl rfl) ha (by rw [hr]; simp) hmem he1
  have T := R.took.trans R2.took
  rw [R.text, R2.text]
  refine ⟨_, T, sized_append R.expr, ?_⟩
  have r1 := value_reads R.expr z .no (rest := ',' :: (sizeText z2 ++ t2)) (Or.inr (Or.inl ⟨_, rfl⟩))
  have r2 := value_reads R2.expr z2 .no (rest := []) (Or.inl rfl)
  rw [show delimOf .no = '\x00' from rfl, close_no] at r1 r2
  simp only [opening, List.nil_append, List.append_nil] at r1 r2
  rw [List.append_assoc]
  rw [encode_three (by rw [hf.has, hfl]; rfl) r1 rfl ((next_comma _ _ _).trans r2) rfl (next_nil _ _) rfl]
  refine insn_of hf hb ?_ ?_ (by rw [hfl]; exact List.mem_cons_self ..) ?_ _
  · rw [hfl]
    exact List.mem_map_of_mem (f := fun k => (⟨k, .no⟩ : Mode)) R.kind
  · rw [hfl]
    exact List.mem_map_of_mem (f := fun k => (⟨k, .no⟩ : Mode)) R2.kind
  · rw [hfl]
    show (encodeOperand cfg cpu addr .DPG _ ⟨.OK, row.opcode, []⟩).bind
      (fun a => encodeOperand cfg cpu addr .REL _ a) = _
    rw [emit_value hsm (Or.inl rfl) (by omega) R.shown rfl (fun h => by rcases h with h | h <;> cases h)
      (fun h => by cases h) (by simp), Out.ok_bind]
    rw [emit_value hsm (Or.inr (Or.inr (Or.inr (Or.inl rfl)))) (by omega) R2.shown rfl
      (fun _ => by
        rw [R2.took.bytes, R.took.bytes, hr]
        simp only [List.length_append, List.length_cons, List.length_nil, List.nil_append]
        omega)
      (fun h => by cases h) (by simp [bytesOf])]
    simp only [List.nil_append]

/-- `(value,X)`. -/
theorem back_inX {m : Base} (hm : m = .DPG ∨ m = .ABS) (hf : Fact cpu b row o.upper) (hb : b < 256)
    (hfl : flags row = flagsOf (.inX m)) (hsym : o.relative = true → o.curSym = '*')
    (ha : addr < 2 ^ width cpu) (hsm : cfg.smart = false) (hr : r.bytes = [b]) (hmem : ∀ x ∈ r.mem, x < 256)
    (he : (decodeOperands o cfg cpu addr b (flags row) r).2.err = .OK) :
    Back E cfg cpu addr b (row.name.map (letter o.upper)) r (decodeOperands o cfg cpu addr b (flags row) r) := by
  have hw := pow_width cpu
  have hm' : isValue m := by
    rcases hm with h | h
    · exact Or.inl h
    · exact Or.inr (Or.inl h)
  have hd : decodeOperands o cfg cpu addr b (flagsOf (.inX m)) r =
      ('(' :: ((decodeOperand o cfg cpu addr b m r).1 ++ [',', letter o.upper (regLetter .REGX), ')']),
        (decodeOperand o cfg cpu addr b m r).2) := by
    have : decodeOperands o cfg cpu addr b (flagsOf (.inX m)) r =
      (['('] ++ (decodeOperand o cfg cpu addr b m r).1 ++ [] ++ [','] ++ outText o (regText registers .REGX) ++ [')'],
        (decodeOperand o cfg cpu addr b m r).2) := by rcases hm with rfl | rfl <;> rfl
    rw [this, regText_letter (Or.inr (Or.inl rfl))]
    simp
  rw [hfl, hd] at he ⊢
  dsimp only at he ⊢
  obtain ⟨z, t, v, w, R⟩ := operand_reads (E := E) hsym hm' ha (by rw [hr]; simp) hmem he
  rw [R.text]
  refine ⟨_, R.took, rfl, ?_⟩
  have r1 := value_reads R.expr z .indirect (rest := [',', letter o.upper (regLetter .REGX), ')'])
    (Or.inr (Or.inl ⟨_, rfl⟩))
  rw [close_later] at r1
  have r2 := reg_reads E addr (m := .REGX) (Or.inr (Or.inl rfl)) o.upper .indirect
    (rest := [')']) (Sep.cons (by decide) _)
  rw [show [')'] = closing .indirect ++ [] from rfl, close_here] at r2
  rw [show '(' :: (sizeText z ++ t ++ [',', letter o.upper (regLetter .REGX), ')']) =
    opening .indirect ++ (sizeText z ++ (t ++ [',', letter o.upper (regLetter .REGX), ')'])) by simp [opening]]
  rw [encode_three (by rw [hf.has, hfl]; rcases hm with rfl | rfl <;> rfl) r1 rfl
    ((next_comma _ _ _).trans r2) rfl (next_nil _ _) rfl]
  refine insn_of hf hb ?_ (by rw [hfl]; exact List.mem_cons_self ..) (by rw [hfl]; exact List.mem_cons_self ..) ?_ _
  · rw [hfl]
    have : modesOf b (flagsOf (.inX m)).mode1 = (kinds b m).map fun k => ⟨k, .indirect⟩ := by
      rcases hm with rfl | rfl <;> rfl
    rw [this]
    exact List.mem_map_of_mem (f := fun k => (⟨k, .indirect⟩ : Mode)) R.kind
  · rw [hfl]
    have e : emitOperands cfg cpu addr (flagsOf (.inX m)) (opd (selectMode z ⟨w, .unsigned⟩ .OK) .indirect w)
        { mode := ⟨.REGX, .indirect⟩ } ⟨.OK, row.opcode, []⟩ =
        (encodeOperand cfg cpu addr m (opd (selectMode z ⟨w, .unsigned⟩ .OK) .indirect w)
          ⟨.OK, row.opcode, []⟩).bind fun a => .ok a := by
      rcases hm with rfl | rfl <;> rfl
    rw [e, emit_value hsm hm' (by omega) R.shown rfl
      (fun h => by rcases hm with rfl | rfl <;> rcases h with h | h <;> cases h)
      (fun h => by rcases hm with rfl | rfl <;> cases h) (by simp), Out.ok_bind]
    rfl

/-- `(value,S),Y`. -/
theorem back_inSY (hf : Fact cpu b row o.upper) (hb : b < 256)
    (hfl : flags row = flagsOf .inSY) (hsym : o.relative = true → o.curSym = '*')
    (ha : addr < 2 ^ width cpu) (hsm : cfg.smart = false) (hr : r.bytes = [b]) (hmem : ∀ x ∈ r.mem, x < 256)
    (he : (decodeOperands o cfg cpu addr b (flags row) r).2.err = .OK) :
    Back E cfg cpu addr b (row.name.map (letter o.upper)) r (decodeOperands o cfg cpu addr b (flags row) r) := by
  have hw := pow_width cpu
  have hd : decodeOperands o cfg cpu addr b (flagsOf .inSY) r =
      ('(' :: ((decodeOperand o cfg cpu addr b .DPG r).1 ++ [',', letter o.upper (regLetter .REGS), ')', ',',
        letter o.upper (regLetter .REGY)]), (decodeOperand o cfg cpu addr b .DPG r).2) := by
    have : decodeOperands o cfg cpu addr b (flagsOf .inSY) r =
      (['('] ++ (decodeOperand o cfg cpu addr b .DPG r).1 ++ [] ++ [','] ++ outText o (regText registers .REGS) ++
        [')'] ++ [','] ++ outText o (regText registers .REGY), (decodeOperand o cfg cpu addr b .DPG r).2) := rfl
    rw [this, regText_letter (Or.inr (Or.inr (Or.inr rfl))), regText_letter (Or.inr (Or.inr (Or.inl rfl)))]
    simp
  rw [hfl, hd] at he ⊢
  dsimp only at he ⊢
  obtain ⟨z, t, v, w, R⟩ := operand_reads (E := E) hsym (Or.inl rfl) ha (by rw [hr]; simp) hmem he
  rw [R.text]
  refine ⟨_, R.took, rfl, ?_⟩
  have r1 := value_reads R.expr z .indirect (rest := [',', letter o.upper (regLetter .REGS), ')', ',',
    letter o.upper (regLetter .REGY)]) (Or.inr (Or.inl ⟨_, rfl⟩))
  rw [close_later] at r1
  have r2 := reg_reads E addr (m := .REGS) (Or.inr (Or.inr (Or.inr rfl))) o.upper .indirect
    (rest := [')', ',', letter o.upper (regLetter .REGY)]) (Sep.cons (by decide) _)
  rw [show [')', ',', letter o.upper (regLetter .REGY)] =
    closing .indirect ++ [',', letter o.upper (regLetter .REGY)] from rfl, close_here] at r2
  have r3 := reg_reads E addr (m := .REGY) (Or.inr (Or.inr (Or.inl rfl))) o.upper .no Sep.nil
  rw [show delimOf .no = '\x00' from rfl, close_no] at r3
  rw [show '(' :: (sizeText z ++ t ++ [',', letter o.upper (regLetter .REGS), ')', ',',
      letter o.upper (regLetter .REGY)]) =
    opening .indirect ++ (sizeText z ++ (t ++ [',', letter o.upper (regLetter .REGS), ')', ',',
      letter o.upper (regLetter .REGY)])) by simp [opening]]
  rw [encode_three (by rw [hf.has, hfl]; rfl) r1 rfl
    ((next_comma _ _ _).trans r2) rfl ((next_comma _ _ _).trans r3) rfl]
  refine insn_of hf hb ?_ (by rw [hfl]; exact List.mem_cons_self ..) (by rw [hfl]; exact List.mem_cons_self ..) ?_ _
  · rw [hfl]
    exact List.mem_map_of_mem (f := fun k => (⟨k, .indirect⟩ : Mode)) R.kind
  · rw [hfl]
    show (encodeOperand cfg cpu addr .DPG _ ⟨.OK, row.opcode, []⟩).bind (fun a => .ok a) = _
    rw [emit_value hsm (Or.inl rfl) (by omega) R.shown rfl (fun h => by rcases h with h | h <;> cases h)
      (fun h => by cases h) (by simp), Out.ok_bind]
    rfl

/-- What is known of the layouts. -/
def okShape (cpu : CpuType) : Shape → Bool
  | .imm m => decide (m = .IMA ∨ m = .IMX ∨ m = .IM8)
  | .bank => decide (cpu = .W65C816)
  | .mem m _ tail => decide ((m = .DPG ∨ m = .ABS ∨ m = .ABSL ∨ m = .REL ∨ m = .LREL) ∧
      (tail = .NONE ∨ tail = .REGX ∨ tail = .REGY ∨ tail = .REGS))
  | .inX m => decide (m = .DPG ∨ m = .ABS)
  | _ => true

theorem shapes_ok (cpu : CpuType) : ∀ s ∈ shapes cpu, okShape cpu s = true := by
  cases cpu <;> decide

theorem insn_back {l : Bool} (hrow : searchOpCode cpu l b = some row) (hb : b < 256)
    (hsym : o.relative = true → o.curSym = '*')
    (ha : addr < 2 ^ width cpu) (hsm : cfg.smart = false)
    (hcfg : cpu ≠ .W65C816 → cfg.longA = false ∧ cfg.longI = false)
    (hr : r.bytes = [b]) (hmem : ∀ x ∈ r.mem, x < 256)
    (he : (decodeOperands o cfg cpu addr b (flags row) r).2.err = .OK) :
    Back E cfg cpu addr b (row.name.map (letter o.upper)) r (decodeOperands o cfg cpu addr b (flags row) r) := by
  have hf := fact hb hrow o.upper
  obtain ⟨s, hs, hfl⟩ := hf.shape
  have hok := shapes_ok cpu s hs
  cases s with
  | none => exact back_none hf hb hfl he
  | regA => exact back_regA hf hb hfl he
  | imm m => exact back_imm (of_decide_eq_true hok) hf hb hfl hcfg hmem he
  | bank => exact back_bank (of_decide_eq_true hok) hf hb hfl hmem he
  | bit => exact back_bit hf hb hfl hsym ha hsm hr hmem he
  | mem m i tail =>
    obtain ⟨h1, h2⟩ := of_decide_eq_true hok
    exact back_mem h1 h2 hf hb hfl hsym ha hsm hr hmem he
  | inX m => exact back_inX (of_decide_eq_true hok) hf hb hfl hsym ha hsm hr hmem he
  | inSY => exact back_inSY hf hb hfl hsym ha hsm hr hmem he

end

theorem C66_partial (o : Opts) (E : Env) (cfg : Cfg) (cpu : CpuType) (addr : Nat) (mem : List Nat) (sep : List Char)
    (hne : mem ≠ []) (ha : addr < if cpu = .W65C816 then 2 ^ 24 else 2 ^ 16) (hbytes : ∀ b ∈ mem, b < 256)
    (hsep : sep ≠ [] ∧ ∀ c ∈ sep, Ctype.isSpace c = true)
    (hsym : o.relative = true → o.curSym = '*')
    (hsmart : cfg.smart = false) (hlong : cpu ≠ .W65C816 → cfg.longA = false ∧ cfg.longI = false)
    (hd : (disassemble o cfg cpu addr mem).err = .OK) :
    assemble E cfg cpu addr ((disassemble o cfg cpu addr mem).name ++ sep ++
        (disassemble o cfg cpu addr mem).operands) =
      .ok (.insn ⟨.OK, (disassemble o cfg cpu addr mem).bytes, []⟩) ∧
    (disassemble o cfg cpu addr mem).bytes ≠ [] ∧
    (disassemble o cfg cpu addr mem).bytes <+: mem := by
  have ha' : addr < 2 ^ width cpu := by
    cases cpu <;> exact ha
  have hok := address_ok (show width cpu ≤ 32 by have := width_le cpu; omega) ha'
  have hdis : disassemble o cfg cpu addr mem = decodeImpl o cfg cpu addr mem := by
    unfold disassemble decode
    rw [hok]
    rfl
  rw [hdis] at hd ⊢
  cases mem with
  | nil => exact absurd rfl hne
  | cons b rest =>
  have hb : b < 256 := hbytes b (List.mem_cons_self ..)
  have hrest : ∀ x ∈ rest, x < 256 := fun x hx => hbytes x (List.mem_cons_of_mem _ hx)
  have hbyte : (⟨b :: rest, [], .OK⟩ : Rd).byte = (b, ⟨rest, [b], .OK⟩) := by
    unfold Rd.byte
    dsimp only
    rw [Nat.mod_eq_of_lt hb]
    rfl
  unfold decodeImpl at hd ⊢
  rw [hbyte] at hd ⊢
  dsimp only at hd ⊢
  cases hrow : searchOpCode cpu cfg.indirectLong b with
  | none => rw [hrow] at hd; cases hd
  | some row =>
    rw [hrow] at hd
    dsimp only at hd ⊢
    obtain ⟨bs, T, h1, h2⟩ := insn_back (E := E) (r := ⟨rest, [b], .OK⟩) hrow hb hsym ha' hsmart hlong rfl hrest hd
    have hb' : (decodeOperands o cfg cpu addr b (flags row) ⟨rest, [b], .OK⟩).2.bytes = b :: bs := T.bytes
    rw [hb']
    refine ⟨?_, List.cons_ne_nil _ _, (decodeOperands o cfg cpu addr b (flags row) ⟨rest, [b], .OK⟩).2.mem, ?_⟩
    · exact encode_name syntaxOk (fact hb hrow o.upper).name hsep h1 hok h2
    · have hm : rest = bs ++ (decodeOperands o cfg cpu addr b (flags row) ⟨rest, [b], .OK⟩).2.mem := T.mem
      generalize (decodeOperands o cfg cpu addr b (flags row) ⟨rest, [b], .OK⟩).2.mem = m' at hm ⊢
      rw [hm]
      rfl

/-- The hypotheses of `C66_partial` hold of every kind of operands there is. -/
example :
    (disassemble (.default '*') ⟨true, false, true, false⟩ .W65C816 0x12fffe [0xa9, 0x34, 0x12]).err = .OK ∧
    (disassemble (.default '*') ⟨true, false, true, false⟩ .W65C816 0 [0xa9, 0x34, 0x12]).operands =
      "#$1234".toList ∧
    (disassemble (.default '*') ⟨true, false, true, false⟩ .W65C816 0 [0xaf, 0x34, 0x12, 0]).operands =
      ">>$001234".toList ∧
    (disassemble (.default '*') ⟨true, false, true, false⟩ .W65C816 0 [0xad, 0x34, 0]).operands =
      ">$0034".toList ∧
    (disassemble (.default '*') ⟨false, false, true, false⟩ .W65C816 0 [0xb3, 0x34]).operands =
      "($34,S),Y".toList ∧
    (disassemble (.default '*') ⟨false, false, true, false⟩ .W65C816 0 [0xb7, 0x34]).operands =
      "[$34],Y".toList ∧
    (disassemble (.default '*') ⟨false, false, false, false⟩ .W65C816 0 [0xb7, 0x34]).name = "LDAL".toList ∧
    (disassemble (.default '*') ⟨false, false, false, false⟩ .W65C816 0 [0xb7, 0x34]).operands =
      "($34),Y".toList ∧
    (disassemble (.default '*') ⟨false, false, true, false⟩ .W65C816 0 [0x54, 0x34, 0x12]).operands =
      "$120000, $340000".toList ∧
    (disassemble (.default '*') ⟨false, false, true, false⟩ .R65C02 0xfff0 [0x0f, 0x34, 0x80]).operands =
      "$34,$FF73".toList ∧
    (disassemble (.default '*') ⟨false, false, true, false⟩ .W65C816 0xfff0 [0x82, 0x00, 0x80]).operands =
      "$007FF3".toList ∧
    (disassemble ⟨true, false, false, true, false, false, '*'⟩ ⟨false, false, true, false⟩ .MOS6502 0x1000
      [0xd0, 0x90]).operands = "*-110".toList ∧
    (disassemble ⟨true, false, false, true, false, false, '*'⟩ ⟨false, false, true, false⟩ .MOS6502 0x1000
      [0x61, 0x90]).operands = "($90,x)".toList := by
  decide +kernel

/-- What `hlong` excludes can happen: `cpu 65816`, `longa on`, `cpu 6502` are all accepted, and leave an
assembler for the 6502 whose `LDA #18` has three bytes; the disassembler prints it for two. -/
theorem C66_violated_longa :
    ∃ s, ({} : Settings).after [.cpu .W65C816, .longA true, .cpu .MOS6502] = some s ∧ s.cpu = .MOS6502 ∧
    (disassemble (.default '*') ⟨s.longA, s.longI, true, false⟩ s.cpu 0 [0xa9, 0x12]).err = .OK ∧
    (disassemble (.default '*') ⟨s.longA, s.longI, true, false⟩ s.cpu 0 [0xa9, 0x12]).bytes = [0xa9, 0x12] ∧
    (disassemble (.default '*') ⟨s.longA, s.longI, true, false⟩ s.cpu 0 [0xa9, 0x12]).name = "LDA".toList ∧
    (disassemble (.default '*') ⟨s.longA, s.longI, true, false⟩ s.cpu 0 [0xa9, 0x12]).operands = "#18".toList ∧
    assemble noEnv ⟨s.longA, s.longI, true, false⟩ s.cpu 0 "LDA #18".toList =
      .ok (.insn ⟨.OK, [0xa9, 0x12, 0], []⟩) := by
  refine ⟨⟨.MOS6502, true, false⟩, by decide, ?_⟩
  decide +kernel

/-- Where there is no memory a `BRK` of no bytes is read, without an error. -/
theorem C66_violated_empty (cpu : CpuType) :
    (disassemble (.default '*') ⟨false, false, true, false⟩ cpu 0 []).err = .OK ∧
    (disassemble (.default '*') ⟨false, false, true, false⟩ cpu 0 []).name = "BRK".toList ∧
    (disassemble (.default '*') ⟨false, false, true, false⟩ cpu 0 []).bytes = [] := by
  cases cpu <;> decide +kernel

end Libasm.Cpu.Mos6502
