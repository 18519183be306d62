import Verif.Cpu.Back
import Verif.Config.Props
import Verif.Cpu.Mos6502.Props
/-
C29 for the MOS6502 family: whatever line the assembler takes, the disassembler reads the bytes of it as
one instruction of the same name.
-/
namespace Libasm.Cpu.Mos6502
open Scan Number Eval
open Tables (Row)

/-! ### Specification -/

/-- Names of the same instruction: those with L are for the indirect long modes. -/
def synonyms : List (List String) :=
  [["JMP", "JMPL"], ["ORA", "ORAL"], ["AND", "ANDL"], ["EOR", "EORL"], ["ADC", "ADCL"], ["STA", "STAL"],
   ["LDA", "LDAL"], ["CMP", "CMPL"], ["SBC", "SBCL"]]

/-- The line has the name of the instruction or of a synonym of it. -/
def WrittenLike (line name : List Char) : Prop :=
  WrittenAs line name ∨
  ∃ group ∈ synonyms, ∃ a ∈ group, ∃ b ∈ group,
    WrittenAs line a.toList ∧ Table.Spec.Same b.toList name

/-- The displacement of 16 bits, from the third byte after `addr`, leads to the bank of `addr`. -/
def InBank (addr lo hi : Nat) : Prop :=
  ∃ target : Nat, target / 65536 = addr / 65536 ∧
    (target : Int) = addr + 3 + (lo + 256 * hi) - (if hi < 128 then 0 else 65536)

/-! ### The instruction table -/

/-- Two names of the table are synonyms. -/
def alike (a b : List Char) : Bool :=
  a == b || synonyms.any fun group => (group.map String.toList).contains a && (group.map String.toList).contains b

def wdm : List Char := ['W', 'D', 'M']

/-- The operand has no bytes. -/
def silent (m : Base) : Bool :=
  m == .NONE || m == .REGA || m == .REGX || m == .REGY || m == .REGS

/-- What the row is encoded to is read as a row of the same name and modes. -/
def rowB (cpu : CpuType) (l : Bool) (r : Row) : Bool :=
  decide (r.opcode < 256) && decide ('\x00' ∉ r.name) && decide (r.name.length < 11) && decide ('=' ∉ r.name) &&
  (r.name == wdm ||
  match searchOpCode cpu l r.opcode with
  | none => false
  | some r' =>
    alike r.name r'.name &&
    (flags r).mode1.base == (flags r').mode1.base && (flags r).mode2.base == (flags r').mode2.base &&
    (flags r).mode3.base == (flags r').mode3.base && silent (flags r).mode3.base &&
    decide ((flags r').mode1 = none_ ↔ (flags r').mode1.base = .NONE) &&
    decide ((flags r').mode2 = none_ ↔ (flags r').mode2.base = .NONE) &&
    ((flags r').mode1 != none_ || (flags r').mode2 == none_) &&
    (((flags r).mode1.base == .BANK && (flags r).mode2.base == .BANK && (flags r).mode1.ind == .no &&
      (flags r).mode2.ind == .no && (flags r').mode1.ind == .no && (flags r').mode2.ind == .no) ||
     ((flags r).mode1.base != .BANK && (flags r).mode2.base != .BANK && (flags r).mode1.base != .UNDEF &&
      (silent (flags r).mode2.base || ((flags r).mode2.base == .REL && (flags r).mode1.base == .DPG)))) &&
    ((flags r).mode1.base != .ABSL || cpu == .W65C816) &&
    ((flags r).mode1.base != .LREL || (cpu == .W65C816 && (r.opcode == 0x82 || r.opcode == 0x62))))

theorem rows_mos6502 : ∀ l, ((pages .MOS6502).all fun p => p.entries.all fun r => rowB .MOS6502 l r) = true := by
  decide +kernel
theorem rows_g65sc02 : ∀ l, ((pages .G65SC02).all fun p => p.entries.all fun r => rowB .G65SC02 l r) = true := by
  decide +kernel
theorem rows_r65c02 : ∀ l, ((pages .R65C02).all fun p => p.entries.all fun r => rowB .R65C02 l r) = true := by
  decide +kernel
theorem rows_w65c02s : ∀ l, ((pages .W65C02S).all fun p => p.entries.all fun r => rowB .W65C02S l r) = true := by
  decide +kernel
theorem rows_w65c816 : ∀ l, ((pages .W65C816).all fun p => p.entries.all fun r => rowB .W65C816 l r) = true := by
  decide +kernel

theorem rows_ok (cpu : CpuType) (l : Bool) : ((pages cpu).all fun p => p.entries.all fun r => rowB cpu l r) = true := by
  cases cpu
  · exact rows_mos6502 l
  · exact rows_g65sc02 l
  · exact rows_r65c02 l
  · exact rows_w65c02s l
  · exact rows_w65c816 l

/-- What `rowB` says of a row, and of the row that is read for its code. -/
structure Row.Ok (cpu : CpuType) (l : Bool) (r r' : Row) : Prop where
  found : searchOpCode cpu l r.opcode = some r'
  name : alike r.name r'.name = true
  base1 : (flags r).mode1.base = (flags r').mode1.base
  base2 : (flags r).mode2.base = (flags r').mode2.base
  base3 : (flags r).mode3.base = (flags r').mode3.base
  last : silent (flags r).mode3.base = true
  none1 : (flags r').mode1 = none_ ↔ (flags r').mode1.base = .NONE
  none2 : (flags r').mode2 = none_ ↔ (flags r').mode2.base = .NONE
  none : (flags r').mode1 = none_ → (flags r').mode2 = none_
  kind : ((flags r).mode1 = ⟨.BANK, .no⟩ ∧ (flags r).mode2 = ⟨.BANK, .no⟩ ∧
      (flags r').mode1 = ⟨.BANK, .no⟩ ∧ (flags r').mode2 = ⟨.BANK, .no⟩) ∨
    ((flags r).mode1.base ≠ .BANK ∧ (flags r).mode2.base ≠ .BANK ∧ (flags r).mode1.base ≠ .UNDEF ∧
      (silent (flags r).mode2.base = true ∨ ((flags r).mode2.base = .REL ∧ (flags r).mode1.base = .DPG)))
  absl : (flags r).mode1.base = .ABSL → cpu = .W65C816
  lrel : (flags r).mode1.base = .LREL → cpu = .W65C816 ∧ (r.opcode = 0x82 ∨ r.opcode = 0x62)

theorem row_of {cpu : CpuType} {l : Bool} {r : Row} (h : rowB cpu l r = true) :
    r.opcode < 256 ∧ '\x00' ∉ r.name ∧ r.name.length < 11 ∧ '=' ∉ r.name ∧
    (r.name = wdm ∨ ∃ r', Row.Ok cpu l r r') := by
  unfold rowB at h
  simp only [Bool.and_eq_true, decide_eq_true_eq, Bool.or_eq_true, beq_iff_eq] at h
  obtain ⟨⟨⟨⟨h1, h2⟩, h3⟩, h4⟩, h5⟩ := h
  refine ⟨h1, h2, h3, h4, ?_⟩
  rcases h5 with h5 | h5
  · exact Or.inl h5
  · right
    split at h5
    · cases h5
    · rename_i r' hs
      simp only [Bool.and_eq_true, decide_eq_true_eq, Bool.or_eq_true, beq_iff_eq, bne_iff_ne, ne_eq] at h5
      obtain ⟨⟨⟨⟨⟨⟨⟨⟨⟨⟨q1, q2⟩, q3⟩, q4⟩, q5⟩, q6⟩, q7⟩, q8⟩, q9⟩, q10⟩, q11⟩ := h5
      have imp : ∀ {a b : Prop}, ¬ a ∨ b → a → b := fun h ha => h.resolve_left (not_not_intro ha)
      refine ⟨r', hs, q1, q2, q3, q4, q5, q6, q7, imp q8, ?_, imp q10, imp q11⟩
      rcases q9 with ⟨⟨⟨⟨⟨k1, k2⟩, k3⟩, k4⟩, k5⟩, k6⟩ | ⟨⟨⟨k1, k2⟩, k3⟩, k4⟩
      · left
        have mk : ∀ {m : Mode}, m.base = .BANK → m.ind = .no → m = ⟨.BANK, .no⟩ := by
          intro m h1 h2
          cases m
          subst h1 h2
          rfl
        exact ⟨mk k1 k3, mk k2 k4, mk (q2 ▸ k1) k5, mk (q3 ▸ k2) k6⟩
      · exact Or.inr ⟨k1, k2, k3, k4⟩

/-! ### Encoding -/

/-- The bytes an operand takes. -/
def size (cfg : Cfg) (cpu : CpuType) : Base → Nat
  | .IMA => if longImmediate cfg cpu .IMA then 2 else 1
  | .IMX => if longImmediate cfg cpu .IMX then 2 else 1
  | .IM8 | .DPG | .REL => 1
  | .ABS | .LREL => 2
  | .ABSL => 3
  | _ => 0

/-- The displacement leads to an address the disassembler takes. -/
def Reaches (cpu : CpuType) (addr base : Nat) (d : Int) : Prop :=
  ∃ w : Nat, (w : Int) = base + d ∧ w < 2 ^ width cpu ∧
    (bankModel cpu = true → Config.checkAddrSeg (width cpu) w addr 16 false = some .OK)

/-- What the encoding of an operand adds. -/
structure Emits (cfg : Cfg) (cpu : CpuType) (addr : Nat) (m : Base) (a a' : Asm) (bs : List Nat) : Prop where
  err : a.err = .OK
  opc : a'.opc = a.opc
  ops : a'.ops = a.ops ++ bs
  len : bs.length = size cfg cpu m
  byte : ∀ b ∈ bs, b < 256
  rel : m = .REL → addr + 1 + a.ops.length + 1 ≤ 2 ^ width cpu →
    ∃ d : Int, -128 ≤ d ∧ d < 128 ∧ bs = [(d % 256).toNat] ∧ Reaches cpu addr (addr + 1 + a.ops.length + 1) d

theorem getUnsigned_lt (v : Value) : v.getUnsigned < 2 ^ 32 := by
  unfold Value.getUnsigned
  omega

theorem setErr_any {a : Asm} {e : Err} (h : (a.setErrorIf e).err = .OK) :
    a.err = .OK ∧ e = .OK ∧ a.setErrorIf e = a := by
  obtain ⟨h1, h2⟩ := setErrorIf_ok h
  exact ⟨h1, h2, by rw [h2]; exact noError a⟩

theorem emit_imm {op : Operand} {long : Bool} {a : Asm} (h : (emitImmediate op long a).err = .OK) :
    a.err = .OK ∧ ∃ bs, emitImmediate op long a = { a with ops := a.ops ++ bs } ∧
      bs.length = (if long then 2 else 1) ∧ ∀ b ∈ bs, b < 256 := by
  have key : ∀ (c : Prop) [Decidable c] (e : Err) , (if c then a.setErrorIf e else a).err = .OK →
      a.err = .OK ∧ (if c then a.setErrorIf e else a) = a := by
    intro c _ e h
    split at h
    · obtain ⟨g1, g2, g3⟩ := setErr_any h
      exact ⟨g1, by rw [if_pos (by assumption)]; exact g3⟩
    · exact ⟨h, by rw [if_neg (by assumption)]⟩
  unfold emitImmediate at h ⊢
  cases long with
  | true =>
    rw [if_pos rfl] at h ⊢
    obtain ⟨g1, g2⟩ := key _ _ h
    rw [g2]
    refine ⟨g1, [op.val.getUnsigned % 256, op.val.getUnsigned / 256 % 256], rfl, rfl, ?_⟩
    intro b hb
    simp only [List.mem_cons, List.not_mem_nil, or_false] at hb
    rcases hb with rfl | rfl <;> exact Nat.mod_lt _ (by decide)
  | false =>
    rw [if_neg (by decide)] at h ⊢
    obtain ⟨g1, g2⟩ := key _ _ h
    rw [g2]
    refine ⟨g1, [op.val.getUnsigned % 256], rfl, rfl, ?_⟩
    intro b hb
    rw [List.mem_singleton.1 hb]
    exact Nat.mod_lt _ (by decide)

theorem delta_inv {cpu : CpuType} {base target : Nat} {a a' : Asm} {d : Int}
    (h : delta cpu base target a = .ok (d, a')) :
    ∃ e, Config.branchDelta (width cpu) base target a.err = some (d, e) ∧ a' = { a with err := e } := by
  unfold delta ofOption at h
  cases hb : Config.branchDelta (width cpu) base target a.err with
  | none => rw [hb] at h; cases h
  | some x =>
    rw [hb] at h
    obtain ⟨d', e⟩ := x
    injection h with h
    injection h with h1 h2
    subst h1
    exact ⟨e, rfl, h2.symm⟩

theorem delta_err {cpu : CpuType} {base target : Nat} {a a' : Asm} {d : Int}
    (h : delta cpu base target a = .ok (d, a')) (he : a'.err = .OK) : a.err = .OK ∧ a' = a := by
  obtain ⟨e, h1, h2⟩ := delta_inv h
  have h3 : a.err = .OK := by
    by_cases hn : a.err = .OK
    · exact hn
    · rw [h2] at he
      exact absurd he (Config.branchDelta_err hn h1)
  refine ⟨h3, ?_⟩
  rw [h2] at he ⊢
  dsimp only at he
  rw [he, ← h3]

theorem bank_inv {cpu : CpuType} {addr base t : Nat} {op : Operand} {a a' : Asm} (ho : op.err = .OK)
    (h : checkBank cpu addr base op a = .ok (t, a')) (he : a'.err = .OK) :
    a.err = .OK ∧ a' = a ∧ t = op.val.getUnsigned ∧
    (bankModel cpu = true → Config.checkAddrSeg (width cpu) t addr 16 false = some .OK) := by
  unfold checkBank at h
  rw [ho] at h
  dsimp only at h
  rw [if_neg (not_not_intro (rfl : Err.OK = .OK))] at h
  by_cases hb : bankModel cpu = true
  · rw [if_pos hb] at h
    obtain ⟨e, hs⟩ := seg_some (width cpu) op.val.getUnsigned addr
    rw [hs] at h
    injection h with h
    injection h with h1 h2
    subst h1 h2
    obtain ⟨g1, g2, g3⟩ := setErr_any he
    subst g2
    exact ⟨g1, g3, rfl, fun _ => hs⟩
  · rw [if_neg hb] at h
    injection h with h
    injection h with h1 h2
    subst h1 h2
    exact ⟨he, rfl, rfl, fun h => absurd h hb⟩

theorem bank_err {cpu : CpuType} {addr base t : Nat} {op : Operand} {a a' : Asm}
    (h : checkBank cpu addr base op a = .ok (t, a')) (he : a'.err = .OK) : a.err = .OK ∧ a' = a := by
  unfold checkBank at h
  dsimp only at h
  generalize (if op.err ≠ .OK then base else op.val.getUnsigned) = u at h
  by_cases hb : bankModel cpu = true
  · rw [if_pos hb] at h
    obtain ⟨e, hs⟩ := seg_some (width cpu) u addr
    rw [hs] at h
    injection h with h
    injection h with h1 h2
    subst h1 h2
    obtain ⟨g1, g2, g3⟩ := setErr_any he
    exact ⟨g1, g3⟩
  · rw [if_neg hb] at h
    injection h with h
    injection h with h1 h2
    subst h1 h2
    exact ⟨he, rfl⟩

theorem short_inv {cpu : CpuType} {base t : Nat} {a a' : Asm} (h : shortBranch cpu base t a = .ok a')
    (he : a'.err = .OK) : a.err = .OK ∧ ∃ d : Int, a' = { a with ops := a.ops ++ [(d % 256).toNat] } ∧
      -128 ≤ d ∧ d < 128 ∧ delta cpu base t a = .ok (d, a) := by
  unfold shortBranch at h
  obtain ⟨⟨d, a1⟩, h1, h2⟩ := bind_ok h
  dsimp only at h2
  rw [Config.overflowDelta_eq (by decide) (by decide)] at h2
  have h2 : Out.ok ((if (decide (¬(-128 ≤ d ∧ d < 128))) = true then a1.setErrorIf .OPERAND_TOO_FAR else a1).emit8
      (d % 256).toNat) = .ok a' := h2
  injection h2 with h2
  by_cases hf : ¬(-128 ≤ d ∧ d < 128)
  · rw [if_pos (decide_eq_true hf)] at h2
    rw [← h2] at he
    obtain ⟨_, g, _⟩ := setErr_any (a := a1) (e := .OPERAND_TOO_FAR) he
    cases g
  · rw [if_neg (fun h => hf (of_decide_eq_true h))] at h2
    have he1 : a1.err = .OK := by rw [← h2] at he; exact he
    obtain ⟨g1, g2⟩ := delta_err h1 he1
    subst g2
    refine ⟨g1, d, ?_, by omega, by omega, h1⟩
    rw [← h2, emit8_eq _ (by omega)]

theorem long_inv {cpu : CpuType} {addr : Nat} {op : Operand} {a a' : Asm}
    (h : longBranch cpu addr op a = .ok a') (he : a'.err = .OK) :
    a.err = .OK ∧ ∃ d : Int, a' = { a with ops := a.ops ++
      [(d % 65536).toNat % 256, (d % 65536).toNat / 256 % 256] } := by
  unfold longBranch at h
  dsimp only at h
  obtain ⟨⟨t, a1⟩, h1, h2⟩ := bind_ok h
  obtain ⟨⟨d, a2⟩, h3, h4⟩ := bind_ok h2
  dsimp only at h3 h4
  injection h4 with h4
  have he2 : a2.err = .OK := by rw [← h4] at he; exact he
  obtain ⟨g1, g2⟩ := delta_err h3 he2
  subst g2
  obtain ⟨g3, g4⟩ := bank_err h1 g1
  subst g4
  exact ⟨g3, d, h4.symm⟩

/-- An error is kept. -/
theorem sticky {cfg : Cfg} {cpu : CpuType} {addr : Nat} {m : Base} {op : Operand} {a a' : Asm}
    (hsm : cfg.smart = false) (hm : m ≠ .UNDEF)
    (h : encodeOperand cfg cpu addr m op a = .ok a') (he : a'.err = .OK) : a.err = .OK := by
  have nothing : encodeOperand cfg cpu addr m op a = .ok a → a.err = .OK := by
    intro hs
    rw [hs] at h
    injection h with h
    rw [h]
    exact he
  have imm : ∀ long, encodeOperand cfg cpu addr m op a = .ok (emitImmediate op long a) → a.err = .OK := by
    intro long h1
    rw [h1] at h
    injection h with h
    subst h
    exact (emit_imm he).1
  cases m with
  | NONE | REGA | REGX | REGY | REGS | BANK => exact nothing rfl
  | UNDEF => exact absurd rfl hm
  | IMA => exact imm cfg.longA rfl
  | IMX => exact imm cfg.longI rfl
  | IM8 | DPG => exact imm false rfl
  | ABS => exact imm true rfl
  | ABSL =>
    unfold encodeOperand at h
    dsimp only at h
    injection h with h
    rw [← h] at he
    split at he
    · exact (setErr_any (a := a) (e := .OVERFLOW_RANGE) he).1
    · exact he
  | REL =>
    unfold encodeOperand encodeRelative at h
    dsimp only at h
    rw [hsm] at h
    obtain ⟨⟨t, a1⟩, h1, h2⟩ := bind_ok h
    dsimp only at h2
    rw [if_pos ⟨rfl, by simp⟩] at h2
    exact (bank_err h1 (short_inv h2 he).1).1
  | LREL =>
    unfold encodeOperand encodeRelative at h
    dsimp only at h
    rw [hsm] at h
    obtain ⟨⟨t, a1⟩, h1, h2⟩ := bind_ok h
    dsimp only at h2
    rw [if_neg (by simp), if_pos ⟨rfl, by simp⟩] at h2
    exact (bank_err h1 (long_inv h2 he).1).1

theorem emits {cfg : Cfg} {cpu : CpuType} {addr : Nat} {m : Base} {op : Operand} {a a' : Asm}
    (hsm : cfg.smart = false) (hlong : cpu ≠ .W65C816 → cfg.longA = false ∧ cfg.longI = false)
    (haddr : addr < 2 ^ 24) (hops : a.ops.length < 10) (ho : op.err = .OK) (hm : m ≠ .UNDEF)
    (h : encodeOperand cfg cpu addr m op a = .ok a') (he : a'.err = .OK) :
    ∃ bs, Emits cfg cpu addr m a a' bs := by
  have nothing : silent m = true ∨ m = .BANK → ∃ bs, Emits cfg cpu addr m a a' bs := by
    intro hs
    have hz : encodeOperand cfg cpu addr m op a = .ok a ∧ size cfg cpu m = 0 ∧ m ≠ .REL := by
      cases m <;> first | exact ⟨rfl, rfl, by decide⟩ | (rcases hs with hs | hs <;> cases hs)
    rw [hz.1] at h
    injection h with h
    subst h
    exact ⟨[], he, rfl, (List.append_nil _).symm, hz.2.1.symm, (fun b hb => nomatch hb), fun h => absurd h hz.2.2⟩
  have imm : ∀ long, encodeOperand cfg cpu addr m op a = .ok (emitImmediate op long a) →
      (if long then 2 else 1) = size cfg cpu m → m ≠ .REL → ∃ bs, Emits cfg cpu addr m a a' bs := by
    intro long h1 h2 h3
    rw [h1] at h
    injection h with h
    subst h
    obtain ⟨g1, bs, g2, g3, g4⟩ := emit_imm he
    rw [g2]
    exact ⟨bs, g1, rfl, rfl, g3.trans h2, g4, fun h => absurd h h3⟩
  have ls : cfg.longA = longImmediate cfg cpu .IMA ∧ cfg.longI = longImmediate cfg cpu .IMX := by
    unfold longImmediate
    by_cases hc : cpu = .W65C816
    · subst hc
      have hn : (Base.IMA == Base.IMX) = false ∧ (Base.IMX == Base.IMA) = false := by decide
      simp [hn]
    · have : (cpu == CpuType.W65C816) = false := by simpa using hc
      simp [this, hlong hc]
  have hW : addr + (if a.length = 0 then 1 else a.length) + 1 = addr + 1 + a.ops.length + 1 := by
    unfold Asm.length
    cases a.ops with
    | nil => rfl
    | cons c t =>
      simp only [List.cons_ne_nil, if_false, List.length_cons]
      rw [if_neg (by omega)]
      omega
  cases m with
  | NONE | REGA | REGX | REGY | REGS => exact nothing (Or.inl rfl)
  | BANK => exact nothing (Or.inr rfl)
  | UNDEF => exact absurd rfl hm
  | IMA => exact imm cfg.longA rfl (by rw [ls.1]; rfl) (by decide)
  | IMX => exact imm cfg.longI rfl (by rw [ls.2]; rfl) (by decide)
  | IM8 | DPG => exact imm false rfl rfl (by decide)
  | ABS => exact imm true rfl rfl (by decide)
  | ABSL =>
    unfold encodeOperand at h
    dsimp only at h
    injection h with h
    have key : a.err = .OK ∧ a' = (a.emit16 op.val.getUnsigned).emit8 (op.val.getUnsigned / 65536) := by
      split at h
      · rw [← h] at he
        obtain ⟨g1, g2, g3⟩ := setErr_any (a := a) (e := .OVERFLOW_RANGE) he
        cases g2
      · rw [← h] at he
        exact ⟨he, h.symm⟩
    rw [key.2]
    refine ⟨[op.val.getUnsigned % 256, op.val.getUnsigned / 256 % 256, op.val.getUnsigned / 65536 % 256], key.1, rfl,
      ?_, rfl, ?_, fun h => by cases h⟩
    · unfold Asm.emit8 Asm.emit16
      simp
    · intro b hb
      simp only [List.mem_cons, List.not_mem_nil, or_false] at hb
      rcases hb with rfl | rfl | rfl <;> exact Nat.mod_lt _ (by decide)
  | REL =>
    unfold encodeOperand encodeRelative at h
    dsimp only at h
    rw [hW, Nat.mod_eq_of_lt (by unfold Config.W; omega), hsm] at h
    obtain ⟨⟨t, a1⟩, h1, h2⟩ := bind_ok h
    dsimp only at h2
    rw [if_pos ⟨rfl, by simp⟩] at h2
    obtain ⟨g1, d, g2, g3, g4, g5⟩ := short_inv h2 he
    obtain ⟨k1, k2, k3, k4⟩ := bank_inv ho h1 g1
    subst k2
    refine ⟨[(d % 256).toNat], k1, by rw [g2], by rw [g2], rfl, ?_, ?_⟩
    · intro b hb
      rw [List.mem_singleton.1 hb]
      omega
    · intro _ hend
      obtain ⟨e, q1, q2⟩ := delta_inv g5
      have he' : e = .OK := by
        have := congrArg Asm.err q2
        dsimp only at this
        rw [← this]
        exact k1
      have ht : t < Config.W := by rw [k3]; exact getUnsigned_lt _
      obtain ⟨w1, w2⟩ := width_le cpu
      obtain ⟨_, b2, b3⟩ := branch_back (by omega) (by omega) hend (by unfold Config.W; omega) ht q1 he'
      exact ⟨d, g3, g4, rfl, t, by omega, b2, k4⟩
  | LREL =>
    unfold encodeOperand encodeRelative at h
    dsimp only at h
    rw [hsm] at h
    obtain ⟨⟨t, a1⟩, h1, h2⟩ := bind_ok h
    dsimp only at h2
    rw [if_neg (by simp), if_pos ⟨rfl, by simp⟩] at h2
    obtain ⟨g1, d, g2⟩ := long_inv h2 he
    obtain ⟨k1, k2, k3, k4⟩ := bank_inv ho h1 g1
    subst k2
    refine ⟨_, k1, by rw [g2], by rw [g2], rfl, ?_, fun h => by cases h⟩
    intro b hb
    simp only [List.mem_cons, List.not_mem_nil, or_false] at hb
    rcases hb with rfl | rfl <;> exact Nat.mod_lt _ (by decide)

/-! ### Decoding -/

theorem le_bytes {bs mem bytes : List Nat} (hb : ∀ b ∈ bs, b < 256) (h : bs.length = 2) :
    (⟨bs ++ mem, bytes, .OK⟩ : Rd).le16.2 = ⟨mem, bytes ++ bs, .OK⟩ := by
  obtain ⟨b, c, rfl⟩ : ∃ b c, bs = [b, c] := by
    match bs, h with
    | [b, c], _ => exact ⟨b, c, rfl⟩
  unfold Rd.le16
  rw [List.cons_append, List.singleton_append, byte_some (hb b (List.mem_cons_self ..))]
  dsimp only
  rw [byte_some (hb c (by simp)), List.append_assoc]
  rfl

theorem target_ok (o : Opts) {cpu : CpuType} {addr : Nat} {d : Int} (bits : Nat) {mem bytes : List Nat}
    (h : Reaches cpu addr (addr + bytes.length) d) :
    (decodeTarget o cpu addr d bits ⟨mem, bytes, .OK⟩).2 = ⟨mem, bytes, .OK⟩ := by
  obtain ⟨w, h1, h2, h3⟩ := h
  have hw := pow_width cpu
  unfold decodeTarget
  dsimp only
  have ht : (((addr + bytes.length : Nat) : Int) + d) % Config.W = w := by
    rw [← h1, Int.emod_eq_of_lt (by omega) (by unfold Config.W; omega)]
  rw [ht, Int.toNat_natCast]
  by_cases hb : bankModel cpu = true
  · rw [if_pos hb, h3 hb]
    rfl
  · rw [if_neg hb, address_ok (by have := width_le cpu; omega) h2]
    rfl

theorem decoded (o : Opts) {cfg : Cfg} {cpu : CpuType} {addr opc : Nat} {m : Base} {bs mem bytes : List Nat}
    (hl : bs.length = size cfg cpu m) (hb : ∀ b ∈ bs, b < 256)
    (ha : m = .ABSL → cpu = .W65C816)
    (hr : m = .REL → ∃ d : Int, -128 ≤ d ∧ d < 128 ∧ bs = [(d % 256).toNat] ∧ Reaches cpu addr (addr + bytes.length + 1) d)
    (hlr : m = .LREL → ∀ lo hi, bs = [lo, hi] → Reaches cpu addr (addr + bytes.length + 2) (int16 (lo + 256 * hi))) :
    ∃ t, decodeOperand o cfg cpu addr opc m ⟨bs ++ mem, bytes, .OK⟩ = (t, ⟨mem, bytes ++ bs, .OK⟩) := by
  have key : (decodeOperand o cfg cpu addr opc m ⟨bs ++ mem, bytes, .OK⟩).2 = ⟨mem, bytes ++ bs, .OK⟩ := by
    unfold decodeOperand
    have none : bs.length = 0 → (⟨bs ++ mem, bytes, .OK⟩ : Rd) = ⟨mem, bytes ++ bs, .OK⟩ := by
      intro h
      rw [List.length_eq_zero_iff.1 h, List.nil_append, List.append_nil]
    have imm : ∀ long, bs.length = (if long = true then 2 else 1) →
        (decodeImmediate o long ⟨bs ++ mem, bytes, .OK⟩).2 = ⟨mem, bytes ++ bs, .OK⟩ := by
      intro long h
      unfold decodeImmediate
      cases long
      · exact one_byte hb h
      · exact le_bytes hb h
    cases m with
    | NONE | REGA | REGX | REGY | REGS | BANK | UNDEF => exact none hl
    | IMA => exact imm _ hl
    | IMX => exact imm _ hl
    | IM8 =>
      have : longImmediate cfg cpu .IM8 = false := by unfold longImmediate; simp
      exact imm _ (by rw [this]; exact hl)
    | DPG => exact one_byte hb hl
    | ABS => exact le_bytes hb hl
    | ABSL =>
      dsimp only
      obtain ⟨x, y, z, rfl⟩ : ∃ x y z, bs = [x, y, z] := by
        match bs, hl with
        | [x, y, z], _ => exact ⟨x, y, z, rfl⟩
      have hx := hb x (by simp)
      have hy := hb y (by simp)
      have hz := hb z (by simp)
      have hc := ha rfl
      unfold decodeAbsoluteLong
      have h1 : (⟨[x, y, z] ++ mem, bytes, .OK⟩ : Rd).le16 = (x + 256 * y, ⟨z :: mem, bytes ++ [x, y], .OK⟩) := by
        unfold Rd.le16
        rw [List.cons_append, byte_some hx]
        dsimp only
        rw [List.cons_append, byte_some hy, List.append_assoc]
        simp only [List.cons_append, List.nil_append, Prod.mk.injEq, and_true]
        omega
      rw [h1]
      dsimp only
      rw [byte_some hz]
      dsimp only
      rw [hc, address_ok (by decide) (by show _ < 2 ^ 24; omega)]
      simp [Rd.setErrorIf, Config.setErrorIf]
    | REL =>
      obtain ⟨d, d1, d2, rfl, d3⟩ := hr rfl
      dsimp only
      unfold decodeRelative
      rw [if_neg (by decide), List.singleton_append, byte_some (by omega)]
      dsimp only
      have hi : int8 (d % 256).toNat = d := by
        unfold int8
        split <;> omega
      rw [hi]
      exact target_ok o 8 (by rw [List.length_append, ← Nat.add_assoc]; exact d3)
    | LREL =>
      dsimp only
      obtain ⟨x, y, rfl⟩ : ∃ x y, bs = [x, y] := by
        match bs, hl with
        | [x, y], _ => exact ⟨x, y, rfl⟩
      have hx := hb x (by simp)
      have hy := hb y (by simp)
      have h1 : (⟨[x, y] ++ mem, bytes, .OK⟩ : Rd).le16 = (x + 256 * y, ⟨mem, bytes ++ [x, y], .OK⟩) := by
        unfold Rd.le16
        rw [List.cons_append, byte_some hx]
        dsimp only
        rw [List.cons_append, byte_some hy, List.append_assoc]
        simp only [List.cons_append, List.nil_append, Prod.mk.injEq, and_true]
        omega
      unfold decodeRelative
      rw [if_pos rfl, h1]
      dsimp only
      exact target_ok o 16 (by rw [List.length_append, ← Nat.add_assoc]; exact hlr rfl x y rfl)
  exact ⟨_, Prod.ext rfl key⟩

/-- The operands of a layout other than a block move. -/
theorem decodedOperands (o : Opts) {cfg : Cfg} {cpu : CpuType} {addr : Nat} {row row' : Row}
    (H : Row.Ok cpu cfg.indirectLong row row')
    (hk : (flags row).mode1.base ≠ .BANK)
    {b1 b2 mem : List Nat} {opc : Nat}
    (l1 : b1.length = size cfg cpu (flags row).mode1.base) (l2 : b2.length = size cfg cpu (flags row).mode2.base)
    (h1 : ∀ b ∈ b1, b < 256) (h2 : ∀ b ∈ b2, b < 256)
    (n2 : (flags row).mode2.base = .REL ∨ silent (flags row).mode2.base = true)
    (r1 : (flags row).mode1.base = .REL → ∃ d : Int, -128 ≤ d ∧ d < 128 ∧ b1 = [(d % 256).toNat] ∧
      Reaches cpu addr (addr + 1 + 1) d)
    (r2 : (flags row).mode2.base = .REL → ∃ d : Int, -128 ≤ d ∧ d < 128 ∧ b2 = [(d % 256).toNat] ∧
      Reaches cpu addr (addr + 1 + b1.length + 1) d)
    (lr : (flags row).mode1.base = .LREL → ∀ lo hi, b1 = [lo, hi] →
      Reaches cpu addr (addr + 1 + 2) (int16 (lo + 256 * hi))) :
    (decodeOperands o cfg cpu addr opc (flags row') ⟨b1 ++ (b2 ++ mem), [row.opcode], .OK⟩).2 =
      ⟨mem, row.opcode :: (b1 ++ b2), .OK⟩ := by
  have silent_of : ∀ {m : Base}, silent m = true → size cfg cpu m = 0 ∧ m ≠ .REL ∧ m ≠ .LREL ∧ m ≠ .ABSL := by
    intro m h
    cases m <;> first | exact ⟨rfl, by decide, by decide, by decide⟩ | cases h
  obtain ⟨t1, e1⟩ := decoded o (cfg := cfg) (cpu := cpu) (addr := addr) (opc := opc) (m := (flags row').mode1.base)
    (bs := b1) (mem := b2 ++ mem) (bytes := [row.opcode]) (by rw [← H.base1]; exact l1) h1
    (by rw [← H.base1]; exact H.absl) (by rw [← H.base1]; exact r1) (by rw [← H.base1]; exact lr)
  obtain ⟨t2, e2⟩ := decoded o (cfg := cfg) (cpu := cpu) (addr := addr) (opc := opc) (m := (flags row').mode2.base)
    (bs := b2) (mem := mem) (bytes := [row.opcode] ++ b1) (by rw [← H.base2]; exact l2) h2
    (by
      rw [← H.base2]
      intro h
      rcases n2 with n | n
      · rw [n] at h; cases h
      · exact absurd h (silent_of n).2.2.2)
    (by
      rw [← H.base2]
      intro h
      rw [List.length_append, List.length_singleton, ← Nat.add_assoc]
      exact r2 h)
    (by
      rw [← H.base2]
      intro h
      rcases n2 with n | n
      · rw [n] at h; cases h
      · exact absurd h (silent_of n).2.2.1)
  have hs3 := silent_of (H.base3 ▸ H.last)
  obtain ⟨t3, e3⟩ := decoded o (cfg := cfg) (cpu := cpu) (addr := addr) (opc := opc) (m := (flags row').mode3.base)
    (bs := []) (mem := mem) (bytes := [row.opcode] ++ b1 ++ b2) hs3.1.symm (fun b hb => nomatch hb)
    (fun h => absurd h hs3.2.2.2) (fun h => absurd h hs3.2.1) (fun h => absurd h hs3.2.2.1)
  rw [List.nil_append, List.append_nil] at e3
  have z1 : (flags row').mode1 = none_ → b1 = [] := by
    intro h
    rw [H.base1, H.none1.1 h] at l1
    exact List.length_eq_zero_iff.1 l1
  have z2 : (flags row').mode2 = none_ → b2 = [] := by
    intro h
    rw [H.base2, H.none2.1 h] at l2
    exact List.length_eq_zero_iff.1 l2
  unfold decodeOperands
  rw [if_neg (fun h => hk (by rw [H.base1, h.1]))]
  by_cases m1 : (flags row').mode1 = none_
  · rw [if_pos m1, z1 m1, z2 (H.none m1)]
    rfl
  · rw [if_neg m1, e1]
    dsimp only
    by_cases m2 : (flags row').mode2 = none_
    · rw [if_pos m2, z2 m2, List.append_nil]
      rfl
    · rw [if_neg m2, e2]
      dsimp only
      by_cases m3 : (flags row').mode3 = none_
      · rw [if_pos m3, List.append_assoc]
        rfl
      · rw [if_neg m3, e3]
        dsimp only
        rw [List.append_assoc]
        rfl

/-! ### The property -/

theorem alnum (c : Char) (h : Ctype.isAlnum c = true) : syntaxOf.instructionLetter c = true := by
  have : symbol false c = true := by
    unfold symbol simpleSymbol
    rw [symbolLetter_alnum h]
    rfl
  show (symbol false c || c == '.' || c == '=' || c == '*' || c == ':') = true
  rw [this]
  rfl

theorem written_alike {line a b c : List Char} (h : WrittenAs line a) (hab : alike a b = true)
    (hbc : Table.Spec.Same b c) : WrittenLike line c := by
  unfold alike at hab
  simp only [Bool.or_eq_true, beq_iff_eq, List.any_eq_true, Bool.and_eq_true, List.contains_iff_mem] at hab
  rcases hab with rfl | ⟨g, hg, h1, h2⟩
  · exact Or.inl (h.letters hbc)
  · obtain ⟨x, x1, x2⟩ := List.mem_map.1 h1
    obtain ⟨y, y1, y2⟩ := List.mem_map.1 h2
    exact Or.inr ⟨g, hg, x, x1, y, y1, by rw [x2]; exact h, by rw [y2]; exact hbc⟩

theorem inBank_reaches {addr lo hi : Nat} (ha : addr < 2 ^ 24) (hlo : lo < 256) (hhi : hi < 256)
    (h : InBank addr lo hi) : Reaches .W65C816 addr (addr + 3) (int16 (lo + 256 * hi)) := by
  obtain ⟨t, h1, h2⟩ := h
  have ht : t < 2 ^ 24 := by omega
  refine ⟨t, ?_, ht, fun _ => ?_⟩
  · unfold int16
    split at h2 <;> split <;> omega
  · obtain ⟨e, e1, e2, _⟩ := Config.C22_segment 24 t addr 16 false (by decide) (by omega) (by omega) (by decide)
    rw [e2.2 ⟨ht, (fun h => by cases h), h1⟩] at e1
    exact e1

/-- Whatever line is assembled without error (smart-branch off), for any of the processors, with any
symbols: the disassembler, with any options, reads the bytes of it, whatever follows them, as one
instruction, without error. It has the name written in the line or a synonym of it.

This does not hold of `WDM` (`C29_violated_wdm`), of `BRL` and `PER` with a target in the bank but more than
32 KiB away (`C29_violated_far`), and past the end of the memory; `hlong` as for C66. -/
theorem C29_mos6502_partial {E : Env} {cfg : Cfg} {cpu : CpuType} {addr : Nat} {line : List Char}
    {bytes : List Nat} {rest : Scan}
    (h : assemble E cfg cpu addr line = .ok (.insn ⟨.OK, bytes, rest⟩))
    (hsmart : cfg.smart = false) (hlong : cpu ≠ .W65C816 → cfg.longA = false ∧ cfg.longI = false)
    (hend : addr + bytes.length ≤ if cpu = .W65C816 then 2 ^ 24 else 2 ^ 16)
    (hwdm : ¬ WrittenAs line "WDM".toList)
    (hfar : ∀ lo hi, bytes = [0x82, lo, hi] ∨ bytes = [0x62, lo, hi] → InBank addr lo hi)
    (o : Opts) (more : List Nat) :
    (disassemble o cfg cpu addr (bytes ++ more)).err = .OK ∧
    (disassemble o cfg cpu addr (bytes ++ more)).bytes = bytes ∧
    WrittenLike line (disassemble o cfg cpu addr (bytes ++ more)).name := by
  have hend : addr + bytes.length ≤ 2 ^ width cpu := by cases cpu <;> exact hend
  have hpow := pow_width cpu
  obtain ⟨word, scan, hi, haddr, hw, blanks, tail, hline, hblank⟩ :=
    encode_line_inv (by decide) rfl h
  obtain ⟨op1, op2, op3, s, hins⟩ : ∃ op1 op2 op3 s,
      encodeInsn cfg cpu addr (word.take 11) op1 op2 op3 s = .ok ⟨.OK, bytes, rest⟩ := by
    have bad : ∀ {e : Err} {s : Scan}, e ≠ .OK → Out.ok (⟨e, [], s⟩ : Res) = .ok ⟨.OK, bytes, rest⟩ → False := by
      intro e s he h
      injection h with h
      injection h with h
      exact he h
    have err : ∀ {e : Err}, hasError e = true → e ≠ .OK := by
      intro e he h
      rw [h] at he
      cases he
    unfold encodeImpl at hi
    obtain ⟨has, _, d2⟩ := bind_ok hi
    dsimp only at d2
    split at d2
    · obtain ⟨⟨op1, s1, i1⟩, p1, d3⟩ := bind_ok d2
      dsimp only at d3
      split at d3
      · exact (bad (err (by assumption)) d3).elim
      · obtain ⟨⟨op2, s2, i2⟩, p2, d4⟩ := bind_ok d3
        dsimp only at d4
        split at d4
        · exact (bad (err (by assumption)) d4).elim
        · split at d4
          · exact (bad (by split <;> decide) d4).elim
          · obtain ⟨⟨op3, s3, i3⟩, p3, d5⟩ := bind_ok d4
            dsimp only at d5
            split at d5
            · exact (bad (err (by assumption)) d5).elim
            · exact ⟨op1, op2, op3, _, d5⟩
    · exact ⟨_, _, _, _, d2⟩
  clear hi h
  unfold encodeInsn at hins
  obtain ⟨x, f1, f2⟩ := bind_ok hins
  unfold searchName at f1
  split at f1
  · rename_i pre row hs
    injection f1 with f1
    subst f1
    dsimp only at f2
    obtain ⟨a, w1, f5⟩ := bind_ok f2
    injection f5 with f5
    injection f5 with f6 f7 f8
    obtain ⟨p, hp, _, hrow, hcmp, hacc⟩ := searchName_mem hs
    have hB : rowB cpu cfg.indirectLong row = true :=
      List.all_eq_true.1 (List.all_eq_true.1 (rows_ok cpu cfg.indirectLong) p hp) row hrow
    obtain ⟨b1, b2, b3, beq, b5⟩ := row_of hB
    have hname : WrittenAs line row.name :=
      written alnum (fun c h => eq_of_beq h) hw b2 b3 hcmp beq hline hblank
    rcases b5 with b5 | ⟨row', H⟩
    · rw [b5] at hname
      exact absurd hname hwdm
    have ha : addr < 2 ^ width cpu := by
      rw [← f7] at hend
      unfold Asm.bytes at hend
      rw [List.length_cons] at hend
      omega
    -- what the disassembler makes of bytes
    have dis : ∀ bs, bytes = row.opcode :: bs →
        (decodeOperands o cfg cpu addr row.opcode (flags row') ⟨bs ++ more, [row.opcode], .OK⟩).2 =
          ⟨more, row.opcode :: bs, .OK⟩ →
        (disassemble o cfg cpu addr (bytes ++ more)).err = .OK ∧
        (disassemble o cfg cpu addr (bytes ++ more)).bytes = bytes ∧
        WrittenLike line (disassemble o cfg cpu addr (bytes ++ more)).name := by
      intro bs hbs hd
      have hdis : disassemble o cfg cpu addr (bytes ++ more) = ⟨.OK, outText o row'.name,
          (decodeOperands o cfg cpu addr row.opcode (flags row') ⟨bs ++ more, [row.opcode], .OK⟩).1, bytes⟩ := by
        unfold disassemble decode
        rw [haddr]
        show decodeImpl o cfg cpu addr (bytes ++ more) = _
        unfold decodeImpl
        rw [hbs, List.cons_append, byte_some b1]
        dsimp only
        rw [H.found]
        dsimp only
        rw [show ([] ++ [row.opcode] : List Nat) = [row.opcode] from rfl, hd]
      rw [hdis]
      exact ⟨rfl, rfl, written_alike hname H.name (outText_same o _)⟩
    have hopc : row.opcode % 256 = row.opcode := Nat.mod_eq_of_lt b1
    unfold emitOperands at w1
    rcases H.kind with ⟨k1, k2, k3, k4⟩ | ⟨k1, k2, k3, k4⟩
    · rw [if_pos ⟨k1, k2⟩] at w1
      injection w1 with w1
      subst w1
      apply dis [op2.val.getUnsigned / 65536 % 256, op1.val.getUnsigned / 65536 % 256]
      · rw [← f7]
        unfold Asm.bytes
        show row.opcode % 256 :: _ = _
        rw [hopc]
        rfl
      · unfold decodeOperands
        rw [if_pos ⟨k3, k4⟩]
        unfold decodeBlockMove
        rw [List.cons_append, byte_some (Nat.mod_lt _ (by decide))]
        dsimp only
        rw [List.cons_append, byte_some (Nat.mod_lt _ (by decide))]
        dsimp only
        rw [if_neg (not_not_intro rfl)]
        rfl
    · rw [if_neg (fun h => k1 (by rw [h.1]))] at w1
      obtain ⟨a1, w2, w3⟩ := bind_ok w1
      have n2 : (flags row).mode2.base = .REL ∨ silent (flags row).mode2.base = true := by
        rcases k4 with k | k
        · exact Or.inr k
        · exact Or.inl k.1
      have u2 : (flags row).mode2.base ≠ .UNDEF := by
        rcases n2 with h | h
        · rw [h]; decide
        · intro h'; rw [h'] at h; cases h
      have he : a.err = .OK := f6
      have he1 := sticky hsmart u2 w3 he
      have he0 := sticky hsmart k3 w2 he1
      obtain ⟨g1, g2, g3⟩ := setErr_any he0
      obtain ⟨_, g5, g6⟩ := setErr_any g1
      have ha24 : addr < 2 ^ 24 := by omega
      obtain ⟨b1, E1⟩ := emits hsmart hlong ha24 (by rw [g3, g6]; exact (by decide : 0 < 10)) g5 k3 w2 he1
      have ho1 : a1.ops = b1 := by rw [E1.ops, g3, g6]; rfl
      have hl1 : b1.length < 10 := by
        rw [E1.len]
        unfold size
        split <;> (try split) <;> decide
      obtain ⟨b2, E2⟩ := emits hsmart hlong ha24 (by rw [ho1]; exact hl1) g2 u2 w3 he
      have hbytes : bytes = row.opcode :: (b1 ++ b2) := by
        rw [← f7]
        unfold Asm.bytes
        rw [E2.opc, E1.opc, E2.ops, ho1, g3, g6, hopc]
      rw [hbytes, List.length_cons, List.length_append] at hend
      apply dis (b1 ++ b2) hbytes
      rw [List.append_assoc]
      refine decodedOperands o H k1 E1.len E2.len E1.byte E2.byte n2 ?_ ?_ ?_
      · intro hm
        have hz : b1.length = 1 := by rw [E1.len, hm]; rfl
        have := E1.rel hm
        rw [g3, g6] at this
        exact this (by show addr + 1 + 0 + 1 ≤ _; omega)
      · intro hm
        have hz : b2.length = 1 := by rw [E2.len, hm]; rfl
        have := E2.rel hm
        rw [ho1] at this
        exact this (by omega)
      · intro hm lo hi hb
        obtain ⟨c1, c2⟩ := H.lrel hm
        have hn : b2 = [] := by
          have : size cfg cpu (flags row).mode2.base = 0 := by
            rcases k4 with k | k
            · cases hq : (flags row).mode2.base <;> rw [hq] at k <;> first | rfl | cases k
            · rw [hm] at k
              cases k.2
          exact List.length_eq_zero_iff.1 (E2.len.trans this)
        have hx := E1.byte lo (by rw [hb]; simp)
        have hy := E1.byte hi (by rw [hb]; simp)
        subst c1
        refine inBank_reaches ha24 hx hy (hfar lo hi ?_)
        rw [hbytes, hb, hn]
        rcases c2 with c2 | c2 <;> rw [c2]
        · exact Or.inl rfl
        · exact Or.inr rfl
  · rename_i e hs
    injection f1 with f1
    subst f1
    injection f2 with f2
    injection f2 with f2 f3 f4
    exact absurd f2 (by
      unfold nameError
      split
      · decide
      · exact searchName_err hs)
  · cases f1

example :
    assemble noEnv ⟨true, false, true, false⟩ .W65C816 0x12000 " brl *-2 ; comment".toList =
      .ok (.insn ⟨.OK, [0x82, 0xfb, 0xff], "; comment".toList⟩) ∧ InBank 0x12000 0xfb 0xff ∧
    assemble noEnv ⟨true, false, true, false⟩ .W65C816 0x12000 " ADC #$1234".toList =
      .ok (.insn ⟨.OK, [0x69, 0x34, 0x12], []⟩) ∧
    assemble noEnv ⟨true, false, true, false⟩ .W65C816 0 "mvn $120000, $340000".toList =
      .ok (.insn ⟨.OK, [0x54, 0x34, 0x12], []⟩) ∧
    assemble noEnv ⟨false, false, true, false⟩ .R65C02 0xfffd "bbr3 $12, $ff80".toList =
      .ok (.insn ⟨.OK, [0x3f, 0x12, 0x80], []⟩) := by
  refine ⟨by decide +kernel, ⟨0x11ffe, by decide, by decide⟩, by decide +kernel, by decide +kernel, by decide +kernel⟩

/-- The exception: a long branch more than 32 KiB away in the bank is accepted, wraps in the bank, and is out
of it for the disassembler. -/
theorem C29_violated_far :
    assemble noEnv ⟨false, false, true, false⟩ .W65C816 0 "BRL $FFFF".toList =
      .ok (.insn ⟨.OK, [0x82, 0xfc, 0xff], []⟩) ∧
    (disassemble (.default '*') ⟨false, false, true, false⟩ .W65C816 0 [0x82, 0xfc, 0xff]).err = .OVERFLOW_RANGE := by
  decide +kernel

/-- The exception: `WDM` is assembled and not known to the disassembler. -/
theorem C29_violated_wdm :
    assemble noEnv ⟨false, false, true, false⟩ .W65C816 0 "WDM #3".toList = .ok (.insn ⟨.OK, [0x42, 3], []⟩) ∧
    (disassemble (.default '*') ⟨false, false, true, false⟩ .W65C816 0 [0x42, 3]).err = .UNKNOWN_INSTRUCTION := by
  decide +kernel

end Libasm.Cpu.Mos6502
