import Verif.Cpu.Ins8060.Lemmas
import Verif.Config.Lemmas
/-
Encoding the operands read gives the bytes back.
-/
namespace Libasm.Cpu.Ins8060
open Scan Number Number.Spec Eval
open Tables (Row)

/-! ### The instruction table -/

/-- How the operand of an instruction of mode `m` and code `b` reads. -/
def printed (m : Mode) (b : Nat) : Mode :=
  match m with
  | .NONE => .NONE
  | .PNTR => .PNTR
  | .IMM8 => .REL8
  | .INDX => if b % 4 = 0 then .REL8 else if b / 4 % 2 = 1 then .INDX else .DISP
  | _ => if b % 4 = 0 then .REL8 else .DISP

/-- What the table must satisfy for the code `b`. -/
structure Fact (b : Nat) (row : Row) (up : Bool) : Prop where
  name : row.name.map (letter up) ≠ [] ∧ (row.name.map (letter up)).length ≤ 11
  letters : ∀ c ∈ row.name.map (letter up), syntaxOf.instructionLetter c = true ∧
    syntaxOf.instructionTerminator c = false ∧ Ctype.isSpace c = false
  line : semicolonEnd (row.name.map (letter up)) = false
  pseudo : isPseudo syntaxOf (row.name.map (letter up)) = false
  found : Table.searchName (fun r : Row => Table.strcasecmp (row.name.map (letter up)) r.name)
      (fun _ r => acceptMode (printed (mode row) b) r) Tables.Ins8060.INS8060_PAGES false =
    some (.ok (0, row))
  code : row.opcode = (match mode row with
    | .INDX => b / 8 * 8
    | .PNTR | .REL8 | .DISP => b / 4 * 4
    | _ => b)
  auto : mode row = .INDX → b % 4 = 0 → b / 4 % 2 = 0
  undef : mode row ≠ .UNDEF

def foundB (x : Option (Except Err (Nat × Row))) (row : Row) : Bool :=
  match x with
  | some (.ok (n, r)) => n == 0 && decide (r = row)
  | _ => false

def factB (b : Nat) (row : Row) (up : Bool) : Bool :=
  decide (row.name.map (letter up) ≠ [] ∧ (row.name.map (letter up)).length ≤ 11) &&
  decide (∀ c ∈ row.name.map (letter up), syntaxOf.instructionLetter c = true ∧
    syntaxOf.instructionTerminator c = false ∧ Ctype.isSpace c = false) &&
  decide (semicolonEnd (row.name.map (letter up)) = false) &&
  decide (isPseudo syntaxOf (row.name.map (letter up)) = false) &&
  foundB (Table.searchName (fun r : Row => Table.strcasecmp (row.name.map (letter up)) r.name)
      (fun _ r => acceptMode (printed (mode row) b) r) Tables.Ins8060.INS8060_PAGES false) row &&
  decide (row.opcode = (match mode row with
    | .INDX => b / 8 * 8
    | .PNTR | .REL8 | .DISP => b / 4 * 4
    | _ => b)) &&
  decide (mode row = .INDX → b % 4 = 0 → b / 4 % 2 = 0) && decide (mode row ≠ .UNDEF)

theorem fact_of {b : Nat} {row : Row} {up : Bool} (h : factB b row up = true) : Fact b row up := by
  unfold factB at h
  simp only [Bool.and_eq_true, decide_eq_true_eq] at h
  obtain ⟨⟨⟨⟨⟨⟨⟨h1, h2⟩, h3⟩, h4⟩, h5⟩, h6⟩, h7⟩, h8⟩ := h
  refine ⟨h1, h2, h3, h4, ?_, h6, h7, h8⟩
  unfold foundB at h5
  split at h5
  · rename_i n r he
    simp only [Bool.and_eq_true, beq_iff_eq, decide_eq_true_eq] at h5
    rw [he, h5.1, h5.2]
  · cases h5

def allB (b : Nat) : Bool :=
  match searchOpCode b with
  | none => true
  | some row => factB b row true && factB b row false

theorem all_codes : ∀ b < 256, allB b = true := by decide +kernel

theorem fact {b : Nat} (hb : b < 256) {row : Row} (h : searchOpCode b = some row) (up : Bool) :
    Fact b row up := by
  have := all_codes b hb
  unfold allB at this
  rw [h] at this
  simp only [Bool.and_eq_true] at this
  cases up
  · exact fact_of this.2
  · exact fact_of this.1

/-! ### Encoding -/

theorem pages_eq {t a : Nat} (ht : t < 65536) (ha : a < 65536) (h : t / 4096 = a / 4096) :
    Config.checkAddrSeg 16 t a 12 false = some .OK := by
  have h1 : Config.checkAddr 16 t false = .OK := by
    rw [Config.checkAddr_eq false (by decide) (by unfold Config.W; omega), if_neg (by omega),
      if_neg (by simp)]
  unfold Config.checkAddrSeg
  rw [if_neg (by decide), h1]
  dsimp only
  rw [if_neg (by simp)]
  have e : Config.not32 (((1 <<< 12) + 18446744073709551616 - 1) % 18446744073709551616) =
    Config.W - 1 - (2 ^ 12 - 1) := by decide
  rw [e, Config.and_high (by unfold Config.W; omega) (by decide),
    Config.and_high (by unfold Config.W; omega) (by decide)]
  rw [if_pos (by omega)]

/-- The target the disassembler shows. -/
def target (addr opr : Nat) (fetch : Int) : Nat :=
  page ((addr + 1) % Config.W) +
    offset (uint16 ((offset ((addr + 1) % Config.W) : Nat) + Config.int8 opr + fetch))

theorem same_page {addr : Nat} (ha : addr < 65536) (h : page addr = page (addr + 2 + 65535)) :
    addr % 4096 ≠ 4095 := by
  unfold page at h
  omega

theorem target_eq {addr opr : Nat} (ha : addr < 65536) (hn : addr % 4096 ≠ 4095) (ho : opr < 256)
    {fetch : Int} (hf : fetch = 0 ∨ fetch = 1) :
    target addr opr fetch = addr / 4096 * 4096 +
      (((addr % 4096 + 1 : Nat) + Config.int8 opr + fetch) % 4096).toNat := by
  unfold target page offset uint16 Config.W Config.int8
  rcases hf with rfl | rfl <;> (split <;> omega)

theorem target_lt {addr opr : Nat} (ha : addr < 65536) (hn : addr % 4096 ≠ 4095) (ho : opr < 256)
    {fetch : Int} (hf : fetch = 0 ∨ fetch = 1) :
    target addr opr fetch < 65536 ∧ target addr opr fetch / 4096 = addr / 4096 := by
  rw [target_eq ha hn ho hf]
  omega

/-- The displacement computed from the target. -/
theorem delta_back {addr opr : Nat} (ha : addr < 65536) (hn : addr % 4096 ≠ 4095) (ho : opr < 256)
    {fetch : Int} (hf : fetch = 0 ∨ fetch = 1) :
    Config.signExtend (Config.uint32 (((offset (uint16 ((target addr opr fetch : Nat) - fetch)) : Nat) : Int)
      - (offset ((addr + 1) % 65536) : Nat))) 12 = some (Config.int8 opr) := by
  rw [target_eq ha hn ho hf, Config.signExtend_eq (by decide) (by decide), Option.some.injEq]
  unfold offset uint16 Config.uint32 Config.W Config.int8
  rcases hf with rfl | rfl <;> (split <;> split <;> omega)

theorem int8_range (opr : Nat) : -128 ≤ Config.int8 opr ∧ Config.int8 opr < 128 := by
  unfold Config.int8; split <;> omega

theorem int8_byte {opr : Nat} (h : opr < 256) : (Config.int8 opr % 256).toNat = opr := by
  unfold Config.int8; split <;> omega

theorem int16_small {x : Int} (h : -128 ≤ x ∧ x < 128) : int16 x = x := by
  unfold int16 Config.int16 uint16
  split <;> omega

theorem near {x : Int} (h : -128 ≤ x ∧ x < 128) : Config.overflowDelta x 8 = some false := by
  rw [Config.overflowDelta_eq (by decide) (by decide), Option.some.injEq, decide_eq_false_iff_not]
  simp only [Nat.reduceSub, Nat.reducePow]
  omega

theorem enc_rel {addr opr opc : Nat} (ha : addr < 65536) (hn : addr % 4096 ≠ 4095) (ho : opr < 256)
    (hc : opc < 256) (m : Mode) (v : Value)
    (hv : v.getUnsigned % 65536 = target addr opr (if m = .REL8 then 1 else 0)) :
    encodeRel8 addr m { mode := .REL8, val := v } ⟨.OK, opc, []⟩ =
      .ok ⟨.OK, opc, [opc, opr]⟩ := by
  have hf : (if m = .REL8 then (1 : Int) else 0) = 0 ∨ (if m = .REL8 then (1 : Int) else 0) = 1 := by
    split <;> simp
  obtain ⟨t1, t2⟩ := target_lt ha hn ho hf
  unfold encodeRel8
  rw [if_neg (by simp)]
  dsimp only
  rw [if_neg (by simp), hv, pages_eq t1 ha t2]
  dsimp only [ofOption]
  rw [Out.ok_bind, delta_back ha hn ho hf]
  dsimp only [ofOption]
  rw [Out.ok_bind, int16_small (int8_range opr), near (int8_range opr)]
  dsimp only [ofOption]
  rw [Out.ok_bind]
  simp only [Bool.false_eq_true, if_false, ne_eq, not_true_eq_false]
  unfold Asm.setErrorIf Asm.embed Asm.emitInsn Asm.emitByte Config.setErrorIf encodePointerReg
  simp only [ne_eq, not_true_eq_false, and_false, if_false, Nat.or_zero, List.nil_append,
    List.singleton_append, int8_byte ho]
  rw [Nat.mod_eq_of_lt hc, Nat.mod_eq_of_lt hc]

theorem reg_code (opc : Nat) : encodePointerReg (some (decodePointerReg opc)) = opc % 4 := by
  unfold decodePointerReg
  have : opc % 4 < 4 := Nat.mod_lt _ (by decide)
  split <;> simp_all [encodePointerReg]
  omega

theorem reg_pc {opc : Nat} (h : opc % 4 ≠ 0) : decodePointerReg opc ≠ .PC ∧
    decodePointerReg opc ≠ .P0 ∧ decodePointerReg opc ≠ .E := by
  unfold decodePointerReg
  split <;> simp_all

theorem or_low {b : Nat} (hb : b < 256) : (b / 4 * 4 ||| b % 4) = b ∧
    (b / 8 * 8 ||| b % 4) % 256 = b / 8 * 8 + b % 4 ∧
    ((b / 8 * 8 ||| b % 4) % 256 ||| 4) % 256 = b / 8 * 8 + 4 + b % 4 := by
  revert b; decide +kernel

/-- What is read before `(Pn)`. -/
def dispOperand (m : Mode) (b opr : Nat) : Operand :=
  { mode := m, reg := some (decodePointerReg b), index := opr == 128,
    val := if opr = 128 then Value.undefined else Value.setS (Config.int8 opr) }

theorem getSigned_setS {x : Int} (h : -128 ≤ x ∧ x < 128) : (Value.setS x).getSigned = x := by
  unfold Value.setS
  split
  · unfold Value.getSigned
    dsimp only
    split <;> omega
  · unfold Value.getSigned Value.ofSigned Value.M
    dsimp only
    split <;> omega

theorem not128 {opr : Nat} (h : opr < 256) (hn : opr ≠ 128) : Config.int8 opr ≠ -128 := by
  unfold Config.int8; split <;> omega

theorem byte128 : ((-128 : Int) % 256).toNat = 128 := by decide

theorem enc_rel_disp {addr opr b : Nat} (hb : b < 256) (hn : b % 4 ≠ 0) (ho : opr < 256) (m : Mode) :
    encodeRel8 addr m (dispOperand .DISP b opr) ⟨.OK, b / 4 * 4, []⟩ = .ok ⟨.OK, b, [b, opr]⟩ := by
  obtain ⟨r1, r2, _⟩ := reg_pc hn
  unfold encodeRel8 dispOperand
  rw [if_pos rfl]
  dsimp only
  have hp : ¬ (some (decodePointerReg b) = some Reg.PC ∨ some (decodePointerReg b) = some Reg.P0) := by
    rintro (h | h) <;> injection h with h
    · exact r1 h
    · exact r2 h
  have hor := (or_low hb).1
  by_cases h : opr = 128
  · subst h
    simp only [BEq.rfl, if_true, if_neg hp]
    unfold Asm.emitByte Asm.emitInsn Asm.embed
    simp only [reg_code, hor, Nat.mod_eq_of_lt hb, List.nil_append, List.singleton_append, byte128]
  · have e : (opr == 128) = false := by simpa using h
    rw [e, if_neg h]
    simp only [Bool.false_eq_true, if_false]
    rw [getSigned_setS (int8_range opr), int16_small (int8_range opr), near (int8_range opr)]
    dsimp only [ofOption]
    rw [Out.ok_bind]
    have e2 : (false || (!decide (some (decodePointerReg b) = some Reg.PC ∨
        some (decodePointerReg b) = some Reg.P0) && Config.int8 opr == -128)) = false := by
      have := not128 ho h
      simp [this]
    rw [e2]
    simp only [Bool.false_eq_true, if_false]
    unfold Asm.emitByte Asm.emitInsn Asm.embed
    simp only [reg_code, hor, Nat.mod_eq_of_lt hb, List.nil_append, List.singleton_append,
      int8_byte ho]

theorem enc_indx_disp {addr opr b opc : Nat} (hb : b < 256) (hn : b % 4 ≠ 0) (ho : opr < 256)
    (m om : Mode) (hm : (om = .DISP ∧ (opc ||| b % 4) % 256 = b) ∨
      (om = .INDX ∧ m = .INDX ∧ ((opc ||| b % 4) % 256 ||| 4) % 256 = b)) :
    encodeIndx addr m (dispOperand om b opr) ⟨.OK, opc, []⟩ = .ok ⟨.OK, b, [b, opr]⟩ := by
  obtain ⟨r1, r2, _⟩ := reg_pc hn
  have hp : ¬ (some (decodePointerReg b) = some Reg.PC ∨ some (decodePointerReg b) = some Reg.P0) := by
    rintro (h | h) <;> injection h with h
    · exact r1 h
    · exact r2 h
  unfold encodeIndx dispOperand
  dsimp only
  rw [if_neg (by rcases hm with ⟨rfl, _⟩ | ⟨rfl, _⟩ <;> decide)]
  have ha : (if om = Mode.INDX then
      (if m ≠ Mode.INDX then
        (Asm.embed ⟨.OK, opc, []⟩ (encodePointerReg (some (decodePointerReg b)))).setErrorIf
          .OPERAND_NOT_ALLOWED
       else Asm.embed ⟨.OK, opc, []⟩ (encodePointerReg (some (decodePointerReg b)))).embed 4
      else Asm.embed ⟨.OK, opc, []⟩ (encodePointerReg (some (decodePointerReg b)))) =
      ⟨.OK, b, []⟩ := by
    unfold Asm.embed
    simp only [reg_code]
    rcases hm with ⟨rfl, h⟩ | ⟨rfl, rfl, h⟩
    · rw [if_neg (by decide), h]
    · rw [if_pos rfl, if_neg (by simp)]
      simp only [h]
  rw [ha]
  by_cases h : opr = 128
  · subst h
    simp only [BEq.rfl, if_true, if_neg hp]
    unfold Asm.emitByte Asm.emitInsn
    simp only [Nat.mod_eq_of_lt hb, List.nil_append, List.singleton_append, byte128]
  · have e : (opr == 128) = false := by simpa using h
    rw [e, if_neg h]
    simp only [Bool.false_eq_true, if_false]
    rw [getSigned_setS (int8_range opr), near (int8_range opr)]
    dsimp only [ofOption]
    rw [Out.ok_bind]
    have e2 : (false || (!decide (some (decodePointerReg b) = some Reg.PC ∨
        some (decodePointerReg b) = some Reg.P0) && Config.int8 opr == -128)) = false := by
      have := not128 ho h
      simp [this]
    rw [e2]
    simp only [Bool.false_eq_true, if_false]
    unfold Asm.emitByte Asm.emitInsn
    simp only [Nat.mod_eq_of_lt hb, List.nil_append, List.singleton_append, int8_byte ho]

end Libasm.Cpu.Ins8060
