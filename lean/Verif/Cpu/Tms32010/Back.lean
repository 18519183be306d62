import Verif.Cpu.Back
import Verif.Cpu.Tms32010.Props
/-
C29 for the TMS32010: whatever line the assembler takes, the disassembler reads the bytes of it as one
instruction of the same name, or of a name with the same code.
-/
namespace Libasm.Cpu.Tms32010
open Scan Number Eval
open Tables (Row)

/-! ### Names for the same code -/

/-- Names for the same code; of these the disassembler prints the second. -/
def synonyms : List (String × List String) := [("MAR", ["LARP"])]

/-- The line has the name of the instruction or another one for the same code. -/
def WrittenLike (line name : List Char) : Prop :=
  WrittenAs line name ∨
  ∃ s ∈ synonyms, ∃ b ∈ s.2, WrittenAs line s.1.toList ∧ Table.Spec.Same b.toList name

def alike (a b : List Char) : Bool :=
  a == b || synonyms.any fun s => s.1.toList == a && (s.2.map String.toList).contains b

theorem written_alike {line a b c : List Char} (h : WrittenAs line a) (hab : alike a b = true)
    (hbc : Table.Spec.Same b c) : WrittenLike line c := by
  unfold alike at hab
  simp only [Bool.or_eq_true, beq_iff_eq, List.any_eq_true, Bool.and_eq_true, List.contains_iff_mem] at hab
  rcases hab with rfl | ⟨g, hg, h1, h2⟩
  · exact Or.inl (h.letters hbc)
  · obtain ⟨y, y1, y2⟩ := List.mem_map.1 h2
    exact Or.inr ⟨g, hg, y, y1, by rw [h1]; exact h, by rw [y2]; exact hbc⟩

/-! ### Encoding -/

theorem hasError_ne {e : Err} (h : hasError e = true) : e ≠ .OK := by
  intro he
  rw [he] at h
  exact absurd h (by decide)

theorem parse_err {P : Plugins Value} {scan : Scan} {e : Err} {rest : Scan}
    (h : parseOperand P scan = .ok (.error (e, rest))) : e ≠ .OK := by
  unfold parseOperand at h
  dsimp only at h
  split at h
  · injection h with h; cases h
  · split at h
    · split at h
      · injection h with h; cases h
      · split at h <;> (injection h with h; cases h)
    · split at h
      · injection h with h; cases h
      · injection h with h; cases h
      · obtain ⟨⟨v, e', p⟩, h3, h4⟩ := bind_ok h
        dsimp only at h4
        split at h4
        · rename_i he
          injection h4 with h4
          injection h4 with h4
          injection h4 with h4
          rw [← h4]
          exact hasError_ne he
        · injection h4 with h4
          cases h4

/-- What an operand may be. -/
def OpOk (op : Operand) : Prop :=
  op.mode = .ARP ∨ op.mode = .INC ∨ op.mode = .DEC ∨ (op.mode = .NONE ∧ op.val.getUnsigned = 0) ∨
  (op.mode = .AR ∧ op.val.getUnsigned < 2) ∨ (op.mode = .PA ∧ op.val.getUnsigned < 8) ∨
  op.mode = constantType op.val.getUnsigned

theorem opOk_none : OpOk {} := Or.inr (Or.inr (Or.inr (Or.inl ⟨rfl, by decide⟩)))

theorem reg_small {s p : Scan} {r : Reg} (h : parseRegName s = some (r, p)) : regOk r := by
  unfold parseRegName at h
  split at h
  · split at h
    · split at h
      · rename_i hn
        injection h with h
        injection h with h
        subst h
        exact hn
      · cases h
    · cases h
  · split at h
    · split at h
      · split at h
        · rename_i hn
          injection h with h
          injection h with h
          subst h
          exact hn
        · cases h
      · cases h
    · cases h

theorem reg_value : ∀ n < 8, (Value.setUnsigned n).getUnsigned = n := by decide

theorem parse_opOk {P : Plugins Value} (s : Scan) (op : Operand) (p : Scan)
    (h : parseOperand P s = .ok (.ok (op, p))) : OpOk op := by
  unfold parseOperand at h
  dsimp only at h
  split at h
  · injection h with h; injection h with h; injection h with h
    subst h
    exact opOk_none
  · split at h
    · split at h
      · injection h with h; injection h with h; injection h with h
        subst h
        exact Or.inr (Or.inl rfl)
      · split at h
        · injection h with h; injection h with h; injection h with h
          subst h
          exact Or.inr (Or.inr (Or.inl rfl))
        · injection h with h; injection h with h; injection h with h
          subst h
          exact Or.inl rfl
    · split at h
      · rename_i n q hr
        have hn : n < 2 := reg_small hr
        injection h with h; injection h with h; injection h with h
        subst h
        refine Or.inr (Or.inr (Or.inr (Or.inr (Or.inl ⟨rfl, ?_⟩))))
        show (Value.setUnsigned n).getUnsigned < 2
        rw [reg_value n (by omega)]
        exact hn
      · rename_i n q hr
        have hn : n < 8 := reg_small hr
        injection h with h; injection h with h; injection h with h
        subst h
        refine Or.inr (Or.inr (Or.inr (Or.inr (Or.inr (Or.inl ⟨rfl, ?_⟩)))))
        show (Value.setUnsigned n).getUnsigned < 8
        rw [reg_value n (by omega)]
        exact hn
      · obtain ⟨⟨v, e', p⟩, h3, h4⟩ := bind_ok h
        dsimp only at h4
        split at h4
        · injection h4 with h4
          cases h4
        · injection h4 with h4; injection h4 with h4; injection h4 with h4
          subst h4
          exact Or.inr (Or.inr (Or.inr (Or.inr (Or.inr (Or.inr rfl)))))

/-- The values of an operand that is accepted. -/
def Small (m : Mode) (v : Nat) : Prop :=
  match m with
  | .DPK | .ARK | .AR | .NARP => v < 2
  | .LS3 => v < 2 ∨ v = 4
  | .PA => v < 8
  | .LS4 => v < 16
  | .IM8 => v < 256
  | _ => True

theorem small {op : Operand} {m : Mode} (h : OpOk op) (ha : acceptMode op.mode m = true)
    (hm : op.mode ≠ .ARP ∧ op.mode ≠ .INC ∧ op.mode ≠ .DEC) : Small m (op.val.getUnsigned % 65536) := by
  rcases h with h | h | h | ⟨h, h1⟩ | ⟨h, h1⟩ | ⟨h, h1⟩ | h
  · exact absurd h hm.1
  · exact absurd h hm.2.1
  · exact absurd h hm.2.2
  · rw [h] at ha
    rw [h1]
    revert ha
    cases m <;> first | (intro ha; exact absurd ha (by decide)) | (intro; unfold Small; decide) | (intro; trivial)
  · rw [h] at ha
    rw [Nat.mod_eq_of_lt (by omega)]
    revert ha
    cases m <;> first | (intro ha; exact absurd ha (by decide)) | (intro; exact h1) | (intro; trivial)
  · rw [h] at ha
    rw [Nat.mod_eq_of_lt (by omega)]
    revert ha
    cases m <;> first | (intro ha; exact absurd ha (by decide)) | (intro; exact h1) | (intro; trivial)
  · rw [h] at ha
    generalize op.val.getUnsigned = v at *
    unfold constantType at ha
    dsimp only at ha
    generalize v % 65536 = v at *
    revert ha
    repeat' split
    all_goals
      cases m <;> first
        | (intro ha; exact absurd ha (by decide))
        | (intro; trivial)
        | (intro; unfold Small; dsimp only; omega)

theorem not_memory {op : Operand} {m : Mode} (ha : acceptMode op.mode m = true) (hm : m ≠ .MAM)
    (h1 : m ≠ .ARP) (h2 : m ≠ .INC) (h3 : m ≠ .DEC) : op.mode ≠ .ARP ∧ op.mode ≠ .INC ∧ op.mode ≠ .DEC := by
  generalize op.mode = x at *
  refine ⟨?_, ?_, ?_⟩ <;>
    (rintro rfl
     revert ha
     cases m <;> first | (intro ha; exact absurd ha (by decide)) | contradiction)

/-! ### Encoding -/

theorem embed_err {a : Asm} {x : Nat} (h : (embed a x).err = .OK) : a.err = .OK := h

theorem set_ok {a : Asm} {e : Err} (h : (a.setErrorIf e).err = .OK) : a.err = .OK ∧ a.setErrorIf e = a := by
  have := setErrorIf_ok h
  exact ⟨this.1, by rw [this.2, Asm.noError]⟩

/-- No error goes away. -/
theorem encode_err {cpu : CpuType} {m : Mode} {op : Operand} {a : Asm} (h : (encodeOperand cpu m op a).err = .OK) :
    a.err = .OK ∧ a.setErrorIf op.err = a := by
  have mem : (encodeOperand cpu .MAM op a).err = .OK → a.err = .OK ∧ a.setErrorIf op.err = a := by
    intro h
    unfold encodeOperand at h
    dsimp only at h
    split at h
    · exact set_ok h
    · exact set_ok h
    · exact set_ok h
    · exact set_ok (Asm.check_ok (by decide) (Asm.check_ok (by decide) (embed_err h)).1).1
  cases m
  case MAM => exact mem h
  case NARP =>
    unfold encodeOperand at h
    dsimp only at h
    split at h <;> exact set_ok h
  case IM13 => exact set_ok (Asm.check_ok (by decide) (embed_err h)).1
  case PMA => exact set_ok (Asm.check_ok (a := a.setErrorIf op.err) (by decide) h).1
  all_goals exact set_ok h

theorem encode_rest {cpu : CpuType} {op : Operand} {a : Asm} (h : (encodeOperand cpu .NONE op a).err = .OK) :
    encodeOperand cpu .NONE op a = a := (encode_err h).2

/-- Data in the lower bits. -/
theorem encode_low {cpu : CpuType} {m : Mode} {op : Operand} {a : Asm} (hm : m = .ARK ∨ m = .DPK ∨ m = .IM8)
    (h : (encodeOperand cpu m op a).err = .OK) :
    encodeOperand cpu m op a = { a with opc := a.opc ||| op.val.getUnsigned % 65536 } := by
  have := (encode_err h).2
  have e : encodeOperand cpu m op a = embed (a.setErrorIf op.err) op.val.getUnsigned := by
    rcases hm with rfl | rfl | rfl <;> rfl
  rw [e, this]
  rfl

/-- Data in the upper byte. -/
theorem encode_high {cpu : CpuType} {m : Mode} {op : Operand} {a : Asm} (hm : m = .LS3 ∨ m = .LS4 ∨ m = .PA ∨ m = .AR)
    (hv : op.val.getUnsigned % 65536 < 256)
    (h : (encodeOperand cpu m op a).err = .OK) :
    encodeOperand cpu m op a = { a with opc := a.opc ||| op.val.getUnsigned % 65536 * 256 } := by
  have := (encode_err h).2
  have e : encodeOperand cpu m op a = embed (a.setErrorIf op.err) (op.val.getUnsigned * 256) := by
    rcases hm with rfl | rfl | rfl | rfl <;> rfl
  rw [e, this]
  unfold embed
  rw [show op.val.getUnsigned * 256 % 65536 = op.val.getUnsigned % 65536 * 256 by omega]

/-- What the lower byte is with a memory operand: the disassembler knows it, and the address is in the memory. -/
def Low (cpu : CpuType) (h l : Nat) : Prop :=
  (l < 128 ∨ l = 0x88 ∨ l = 0xA8 ∨ l = 0x98) ∧ (h = 0x7C → l < 128 → l + 128 ≤ dataMemoryLimit cpu)

theorem memory_step {cpu : CpuType} {op : Operand} {h : Nat} {bs : List Nat}
    (he : (encodeOperand cpu .MAM op ⟨.OK, h * 256, bs⟩).err = .OK) :
    ∃ l, encodeOperand cpu .MAM op ⟨.OK, h * 256, bs⟩ = ⟨.OK, h * 256 + l, bs⟩ ∧ Low cpu h l := by
  have hs := (encode_err he).2
  have fixed : ∀ l, l = 0x88 ∨ l = 0xA8 ∨ l = 0x98 →
      encodeOperand cpu .MAM op ⟨.OK, h * 256, bs⟩ = embed (Asm.setErrorIf ⟨.OK, h * 256, bs⟩ op.err) l →
      ∃ l, encodeOperand cpu .MAM op ⟨.OK, h * 256, bs⟩ = ⟨.OK, h * 256 + l, bs⟩ ∧ Low cpu h l := by
    intro l hl e
    refine ⟨l, ?_, Or.inr hl, ?_⟩
    · rw [e, hs, embed_opc _ (by omega), or_low (by omega)]
    · intro _ h1
      omega
  by_cases h1 : op.mode = .ARP
  · exact fixed 0x88 (Or.inl rfl) (by unfold encodeOperand; dsimp only; rw [h1])
  by_cases h2 : op.mode = .INC
  · exact fixed 0xA8 (Or.inr (Or.inl rfl)) (by unfold encodeOperand; dsimp only; rw [h2])
  by_cases h3 : op.mode = .DEC
  · exact fixed 0x98 (Or.inr (Or.inr rfl)) (by unfold encodeOperand; dsimp only; rw [h3])
  have e := encode_memory cpu (op := op) (a := ⟨.OK, h * 256, bs⟩) ⟨h1, h2, h3⟩
  rw [hs] at e
  rw [e] at he ⊢
  obtain ⟨k1, k2, k3⟩ := Asm.check_ok (by decide) (embed_err he)
  obtain ⟨k4, k5, k6⟩ := Asm.check_ok (by decide) k1
  rw [k3, k6]
  rw [k6] at k2
  simp only [decide_eq_false_iff_not] at k2 k5
  refine ⟨op.val.getUnsigned % 128, ?_, Or.inl (Nat.mod_lt _ (by decide)), ?_⟩
  · rw [embed_opc _ (by omega), or_low (by omega)]
  · intro hh _
    subst hh
    have hl : dataMemoryLimit cpu ≤ 255 := by cases cpu <;> decide
    have : ¬ op.val.getUnsigned < 128 := fun h => k2 ⟨rfl, h⟩
    omega

def nextB (l n : Nat) : Bool :=
  !(l < 128 || l == 0x88 || l == 0xA8 || l == 0x98) ||
  (((l - l / 8 % 2 * 8) ||| n) < 256 && validMam ((l - l / 8 % 2 * 8) ||| n) &&
    (!(((l - l / 8 % 2 * 8) ||| n) < 128) || l < 128) && (!(l < 16) || ((l - l / 8 % 2 * 8) ||| n) < 16))

theorem nextB_all : ∀ l < 256, ∀ n < 2, nextB l n = true := by decide +kernel

theorem next_low (l : Nat) (hl : l < 256) (n : Nat) (hn : n < 2) (h : l < 128 ∨ l = 0x88 ∨ l = 0xA8 ∨ l = 0x98) :
    ((l - l / 8 % 2 * 8) ||| n) < 256 ∧ validMam ((l - l / 8 % 2 * 8) ||| n) = true ∧
    (((l - l / 8 % 2 * 8) ||| n) < 128 → l < 128) ∧ (l < 16 → ((l - l / 8 % 2 * 8) ||| n) < 16) := by
  have hb := nextB_all l hl n hn
  unfold nextB at hb
  generalize (l - l / 8 % 2 * 8) ||| n = x at *
  simp only [Bool.or_eq_true, Bool.not_eq_true', Bool.and_eq_true, decide_eq_true_eq, decide_eq_false_iff_not,
    Bool.or_eq_false_iff, beq_eq_false_iff_ne] at hb
  rcases hb with hb | ⟨⟨⟨h1, h2⟩, h3⟩, h4⟩
  · omega
  · exact ⟨h1, h2, by omega, by omega⟩

theorem same_low : ∀ l < 256, l < 128 ∨ l = 0x88 ∨ l = 0xA8 ∨ l = 0x98 → validMam l = true := by decide +kernel

/-- The lower byte in the end. -/
def LowEnd (cpu : CpuType) (h l : Nat) : Prop :=
  l < 256 ∧ validMam l = true ∧ (h = 0x7C → l < 128 → l + 128 ≤ dataMemoryLimit cpu)

theorem next_step {cpu : CpuType} {op : Operand} {h l : Nat} {bs : List Nat} (hop : OpOk op)
    (ha : acceptMode op.mode .NARP = true) (hl : Low cpu h l)
    (he : (encodeOperand cpu .NARP op ⟨.OK, h * 256 + l, bs⟩).err = .OK) :
    ∃ l', encodeOperand cpu .NARP op ⟨.OK, h * 256 + l, bs⟩ = ⟨.OK, h * 256 + l', bs⟩ ∧ LowEnd cpu h l' := by
  have hs := (encode_err he).2
  have hn : op.val.getUnsigned % 65536 < 2 := small hop ha (not_memory ha (by decide) (by decide) (by decide) (by decide))
  have hlt : l < 256 := by have := hl.1; omega
  unfold encodeOperand
  dsimp only
  rw [hs]
  by_cases hm : op.mode = .NONE
  · rw [if_pos hm]
    exact ⟨l, rfl, hlt, same_low l hlt hl.1, hl.2⟩
  · rw [if_neg hm]
    obtain ⟨n1, n2, n3, n4⟩ := next_low l hlt _ hn hl.1
    refine ⟨(l - l / 8 % 2 * 8) ||| op.val.getUnsigned % 65536, ?_, n1, n2, ?_⟩
    · unfold embed
      dsimp only
      rw [show h * 256 + l - (h * 256 + l) / 8 % 2 * 8 = h * 256 + (l - l / 8 % 2 * 8) by omega,
        or_low' (by omega) (by omega)]
    · intro hh hlow
      have h1 := hl.2 hh (n3 hlow)
      cases cpu with
      | TMS32010 =>
        have h1 : l + 128 ≤ 143 := h1
        have := n4 (by omega)
        show _ ≤ 143
        omega
      | TMS32015 =>
        show _ ≤ 255
        omega

/-! ### Back -/

theorem maskLow_mam {m2 : Mode} {h l : Nat} (h2 : m2 ≠ .IM8) (hl : l < 256) (hv : validMam l = true) :
    maskLow .MAM m2 (h * 256 + l) = some (h * 256) := by
  unfold validMam at hv
  simp only [Bool.or_eq_true, Bool.and_eq_true, decide_eq_true_eq, beq_iff_eq, bne_iff_ne] at hv
  unfold maskLow
  rw [if_neg (by simp [h2]), if_pos (Or.inl rfl)]
  split
  · exact congrArg some (by omega)
  · rw [if_neg (by omega), if_neg (by omega), if_neg (by omega)]
    exact congrArg some (by omega)

theorem maskLow_ar_mam {h l : Nat} (hl : l < 256) (hv : validMam l = true) :
    maskLow .AR .MAM (h * 256 + l) = some (h * 256) := by
  rw [← maskLow_mam (m2 := .LS0) (by decide) hl hv]
  rfl

theorem match_of {opc : Nat} {row : Row} {ms : List Mode} {x y : Nat} (hm : modes row = ms)
    (h1 : maskLow (ms.getD 0 .NONE) (ms.getD 1 .NONE) opc = some x)
    (h2 : maskRest (ms.getD 0 .NONE) (ms.getD 1 .NONE) x = some y) (h3 : y = row.opcode) :
    matchOpCode opc row = true := by
  unfold matchOpCode modeAt
  rw [hm, h1]
  show (match maskRest _ _ x with | some opc => _ | none => _) = true
  rw [h2]
  exact beq_iff_eq.2 h3

/-- What the proofs need of the code of a row. -/
def codeOk (r : Row) : Bool :=
  r.opcode < 65536 && !r.name.contains '\x00' && r.name.length < 11 && !r.name.contains '=' &&
  match modes r with
  | [.ARK] | [.DPK] => r.opcode % 2 == 0
  | [.IM8] => r.opcode % 256 == 0
  | [.IM13] => r.opcode % 8192 == 0
  | [.AR, .IM8] | [.AR, .MAM, .NARP] => r.opcode % 512 == 0 && r.opcode / 512 != 0x7C / 2
  | [.MAM, .NARP] | [.MAM, .LS0, .NARP] => r.opcode % 256 == 0
  | [.MAM, .LS4, .NARP] => r.opcode % 4096 == 0 && r.opcode / 4096 != 0x7C / 16
  | [.MAM, .PA, .NARP] | [.MAM, .LS3, .NARP] => r.opcode % 2048 == 0 && r.opcode / 2048 != 0x7C / 8
  | _ => true

theorem codes_ok : rows.all codeOk = true := by decide +kernel

/-- What is to be shown of the operands of a row. -/
def Good (cpu : CpuType) (row : Row) (a : Asm) : Prop :=
  a.opc < 65536 ∧ matchOpCode a.opc row = true ∧
  ∀ (o : Opts) (more pre : List Nat),
    (decodeOperands o cpu a.opc ⟨a.ops ++ more, pre, .OK⟩ (modes row)).2 = ⟨more, pre ++ a.ops, .OK⟩

theorem or_bits {k x y : Nat} (hx : x % 2 ^ k = 0) (hy : y < 2 ^ k) : x ||| y = x + y := by
  have := Nat.two_pow_add_eq_or_of_lt (i := k) (b := y) hy (x / 2 ^ k)
  rw [Nat.mul_div_cancel' (Nat.dvd_of_mod_eq_zero hx)] at this
  exact this.symm

theorem direct_rd (o : Opts) {cpu : CpuType} {h l : Nat} (r : Rd) (hl : LowEnd cpu h l) :
    (decodeOperand o cpu (h * 256 + l) .MAM r).2 = r := by
  obtain ⟨h1, _, h3⟩ := hl
  unfold decodeOperand
  dsimp only
  split
  · rfl
  · unfold outDirect
    split
    · dsimp only
      rw [if_neg (by have := h3 (by omega) (by omega); omega)]
    · rfl

section
variable {cpu : CpuType} {row : Row} {op1 op2 op3 : Operand}

theorem good_none (hm : modes row = []) (hc : row.opcode < 65536)  : Good cpu row ⟨.OK, row.opcode, []⟩ := by
  refine ⟨hc, match_of hm (x := row.opcode) (by rfl) (by rfl) rfl, ?_⟩
  intro o more pre
  rw [hm, List.append_nil]
  rfl

theorem good_bit {m : Mode} {n : Nat} (hm : modes row = [m]) (h : m = .ARK ∨ m = .DPK) (hc : row.opcode < 65536)
    (h2 : row.opcode % 2 = 0) (hn : n < 2) : Good cpu row ⟨.OK, row.opcode ||| n, []⟩ := by
  rw [or_even h2 hn]
  refine ⟨by dsimp only; omega, ?_, ?_⟩
  · refine match_of hm (x := row.opcode + n) (y := (row.opcode + n) / 2 * 2) ?_ ?_ (by omega)
    · rcases h with rfl | rfl <;> rfl
    · rcases h with rfl | rfl <;> rfl
  · intro o more pre
    rw [hm, List.append_nil]
    rcases h with rfl | rfl <;> rfl

theorem good_byte {n : Nat} (hm : modes row = [.IM8]) (hc : row.opcode < 65536) (h2 : row.opcode % 256 = 0)
    (hn : n < 256) : Good cpu row ⟨.OK, row.opcode ||| n, []⟩ := by
  rw [or_bits (k := 8) h2 hn]
  refine ⟨by dsimp only; omega, ?_, ?_⟩
  · exact match_of hm (x := (row.opcode + n) / 256 * 256) (y := (row.opcode + n) / 256 * 256) (by rfl) (by rfl) (by omega)
  · intro o more pre
    rw [hm, List.append_nil]
    rfl

theorem good_imm {n : Nat} (hm : modes row = [.IM13]) (hc : row.opcode < 65536) (h2 : row.opcode % 8192 = 0)
    (hn : n < 8192) : Good cpu row ⟨.OK, row.opcode ||| n, []⟩ := by
  rw [or_bits (k := 13) h2 hn]
  refine ⟨by dsimp only; omega, ?_, ?_⟩
  · exact match_of hm (x := (row.opcode + n) / 8192 * 8192) (y := (row.opcode + n) / 8192 * 8192) (by rfl) (by rfl) (by omega)
  · intro o more pre
    rw [hm, List.append_nil]
    rfl

theorem good_address {n : Nat} (hm : modes row = [.PMA]) (hc : row.opcode < 65536) (hn : n < 4096) :
    Good cpu row ⟨.OK, row.opcode, [n % 256, n / 256 % 256]⟩ := by
  refine ⟨hc, match_of hm (x := row.opcode) (by rfl) (by rfl) rfl, ?_⟩
  intro o more pre
  rw [hm]
  generalize hr : (⟨[n % 256, n / 256 % 256] ++ more, pre, .OK⟩ : Rd) = r
  show (outProgramAddress o r).2 = _
  rw [← hr]
  unfold outProgramAddress
  have e : (⟨[n % 256, n / 256 % 256] ++ more, pre, .OK⟩ : Rd).le16 =
      (n, ⟨more, pre ++ [n % 256, n / 256 % 256], .OK⟩) := by
    unfold Rd.le16
    rw [List.cons_append, byte_some (by omega)]
    dsimp only
    rw [List.cons_append, byte_some (by omega)]
    dsimp only
    rw [List.append_assoc]
    refine Prod.ext ?_ rfl
    show n / 256 % 256 * 256 + n % 256 = n
    omega
  rw [e]
  dsimp only
  rw [Config.checkAddr_eq false (by decide) (by unfold Config.W; omega), if_neg (by omega)]
  rfl

theorem good_reg_byte {n v : Nat} (hm : modes row = [.AR, .IM8]) (hc : row.opcode < 65536) (h2 : row.opcode % 512 = 0)
    (hn : n < 2) (hv : v < 256) : Good cpu row ⟨.OK, (row.opcode ||| n * 256) ||| v, []⟩ := by
  have e : (row.opcode ||| n * 256) ||| v = row.opcode + n * 256 + v := by
    have h1 := or_high (x := row.opcode / 256) (y := 0) (z := n) (by decide)
    rw [or_even (by omega) hn, show row.opcode / 256 * 256 + 0 = row.opcode by omega] at h1
    rw [h1, Nat.add_zero, or_low hv]
    omega
  rw [e]
  refine ⟨by dsimp only; omega, ?_, ?_⟩
  · exact match_of hm (x := (row.opcode + n * 256 + v) / 256 * 256)
      (y := (row.opcode + n * 256 + v) / 256 * 256 - (row.opcode + n * 256 + v) / 256 * 256 / 256 % 2 * 256)
      (by rfl) (by rfl) (by omega)
  · intro o more pre
    rw [hm, List.append_nil]
    rfl

theorem good_memory {h l : Nat} (hm : modes row = [.MAM, .NARP] ∨ modes row = [.MAM, .LS0, .NARP]) (hc : h < 256)
    (h2 : row.opcode = h * 256) (hl : LowEnd cpu h l) : Good cpu row ⟨.OK, h * 256 + l, []⟩ := by
  have := hl.1
  refine ⟨show h * 256 + l < 65536 by omega, ?_, ?_⟩
  · rcases hm with hm | hm
    · exact match_of hm (maskLow_mam (by decide) hl.1 hl.2.1) (by rfl) h2.symm
    · exact match_of hm (maskLow_mam (by decide) hl.1 hl.2.1) (by rfl) h2.symm
  · intro o more pre
    rw [List.append_nil]
    have hd := direct_rd o ⟨[] ++ more, pre, .OK⟩ hl
    rcases hm with hm | hm
    · rw [hm]
      exact hd
    · rw [hm]
      exact hd

theorem good_reg_memory {h l n : Nat} (hm : modes row = [.AR, .MAM, .NARP]) (hc : h < 256) (h2 : h % 2 = 0)
    (he : row.opcode = h * 256) (hn : n < 2) (hl : LowEnd cpu (h + n) l) :
    Good cpu row ⟨.OK, (h + n) * 256 + l, []⟩ := by
  have := hl.1
  refine ⟨show (h + n) * 256 + l < 65536 by omega, ?_, ?_⟩
  · exact match_of hm (maskLow_ar_mam hl.1 hl.2.1) (y := (h + n) * 256 - (h + n) * 256 / 256 % 2 * 256) (by rfl) (by omega)
  · intro o more pre
    rw [hm, List.append_nil]
    exact direct_rd o ⟨[] ++ more, pre, .OK⟩ hl

theorem good_memory_field {h l n k : Nat} {m : Mode}
    (hk : (m = .LS4 ∧ k = 16) ∨ (m = .PA ∧ k = 8) ∨ (m = .LS3 ∧ k = 8 ∧ (n < 2 ∨ n = 4)))
    (hm : modes row = [.MAM, m, .NARP]) (hc : h < 256) (h2 : h % k = 0)
    (he : row.opcode = h * 256) (hn : n < k) (hl : LowEnd cpu (h + n) l) :
    Good cpu row ⟨.OK, (h + n) * 256 + l, []⟩ := by
  have := hl.1
  refine ⟨?_, ?_, ?_⟩
  · show (h + n) * 256 + l < 65536
    rcases hk with ⟨_, rfl⟩ | ⟨_, rfl⟩ | ⟨_, rfl, _⟩ <;> omega
  · have h5 : m ≠ .IM8 := by rcases hk with ⟨rfl, _⟩ | ⟨rfl, _⟩ | ⟨rfl, _⟩ <;> decide
    refine match_of hm (maskLow_mam h5 hl.1 hl.2.1) (y := h * 256) ?_ he.symm
    show maskRest .MAM m ((h + n) * 256) = _
    rcases hk with ⟨rfl, rfl⟩ | ⟨rfl, rfl⟩ | ⟨rfl, rfl, h6⟩
    · show some ((h + n) * 256 - (h + n) * 256 / 256 % 16 * 256) = _
      exact congrArg some (by omega)
    · show some ((h + n) * 256 - (h + n) * 256 / 256 % 8 * 256) = _
      exact congrArg some (by omega)
    · show (if (h + n) * 256 / 256 % 8 < 2 ∨ (h + n) * 256 / 256 % 8 = 4 then some ((h + n) * 256 - (h + n) * 256 / 256 % 8 * 256)
        else none) = _
      rw [if_pos (by omega)]
      exact congrArg some (by omega)
  · intro o more pre
    rw [hm, List.append_nil]
    have hd := direct_rd o ⟨[] ++ more, pre, .OK⟩ hl
    rcases hk with ⟨rfl, rfl⟩ | ⟨rfl, rfl⟩ | ⟨rfl, rfl, h6⟩ <;> exact hd

/-- The field of a code with a memory operand. -/
theorem field_good {h k : Nat} {m : Mode} {a2 : Asm}
    (hk : (m = .LS4 ∧ k = 4) ∨ (m = .PA ∧ k = 3) ∨ (m = .LS3 ∧ k = 3))
    (hm : modes row = [.MAM, m, .NARP]) (hc : h < 256) (h2 : h % 2 ^ k = 0) (hne : h / 2 ^ k ≠ 0x7C / 2 ^ k)
    (he : row.opcode = h * 256) (ho2 : OpOk op2) (ho3 : OpOk op3)
    (ha2 : acceptMode op2.mode m = true) (ha3 : acceptMode op3.mode .NARP = true)
    (e2 : encodeOperand cpu m op2 (encodeOperand cpu .MAM op1 ⟨.OK, h * 256, []⟩) = a2)
    (e3 : (encodeOperand cpu .NARP op3 a2).err = .OK) : Good cpu row (encodeOperand cpu .NARP op3 a2) := by
  subst e2
  have x2 := (encode_err e3).1
  have x1 := (encode_err x2).1
  obtain ⟨l, h1, hl⟩ := memory_step x1
  rw [h1] at x2 e3 ⊢
  have hmm : m ≠ .MAM ∧ m ≠ .ARP ∧ m ≠ .INC ∧ m ≠ .DEC := by
    rcases hk with ⟨rfl, _⟩ | ⟨rfl, _⟩ | ⟨rfl, _⟩ <;> decide
  have hs := small ho2 ha2 (not_memory ha2 hmm.1 hmm.2.1 hmm.2.2.1 hmm.2.2.2)
  have hlt : l < 256 := by have := hl.1; omega
  have hn : op2.val.getUnsigned % 65536 < 2 ^ k := by
    rcases hk with ⟨rfl, rfl⟩ | ⟨rfl, rfl⟩ | ⟨rfl, rfl⟩
    · exact hs
    · exact hs
    · have : op2.val.getUnsigned % 65536 < 2 ∨ op2.val.getUnsigned % 65536 = 4 := hs
      omega
  have h16 : (2 : Nat) ^ k ≤ 16 := by rcases hk with ⟨_, rfl⟩ | ⟨_, rfl⟩ | ⟨_, rfl⟩ <;> decide
  have e := encode_high (cpu := cpu) (m := m) (op := op2) (a := ⟨.OK, h * 256 + l, []⟩)
    (by rcases hk with ⟨rfl, _⟩ | ⟨rfl, _⟩ | ⟨rfl, _⟩ <;> simp) (by omega) x2
  rw [e] at e3 ⊢
  dsimp only at e3 ⊢
  rw [or_high hlt, or_bits h2 hn] at e3 ⊢
  have hl' : Low cpu (h + op2.val.getUnsigned % 65536) l := by
    refine ⟨hl.1, ?_⟩
    intro hh _
    refine absurd ?_ hne
    rw [← hh]
    rcases hk with ⟨_, rfl⟩ | ⟨_, rfl⟩ | ⟨_, rfl⟩ <;> omega
  obtain ⟨l', h3, hl3⟩ := next_step ho3 ha3 hl' e3
  rw [h3]
  refine good_memory_field (k := 2 ^ k) ?_ hm hc h2 he hn hl3
  rcases hk with ⟨rfl, rfl⟩ | ⟨rfl, rfl⟩ | ⟨rfl, rfl⟩
  · exact Or.inl ⟨rfl, rfl⟩
  · exact Or.inr (Or.inl ⟨rfl, rfl⟩)
  · exact Or.inr (Or.inr ⟨rfl, rfl, hs⟩)

/-- From the operands to the code, and back. -/
theorem insn_good (hrow : row ∈ rows) (ho1 : OpOk op1) (ho2 : OpOk op2) (ho3 : OpOk op3)
    (ha : acceptModes [op1.mode, op2.mode, op3.mode] row = true)
    (he : (((pad 3 .NONE (modes row)).zip [op1, op2, op3]).foldl (fun a p => encodeOperand cpu p.1 p.2 a)
      ⟨.OK, row.opcode, []⟩).err = .OK) :
    Good cpu row (((pad 3 .NONE (modes row)).zip [op1, op2, op3]).foldl (fun a p => encodeOperand cpu p.1 p.2 a)
      ⟨.OK, row.opcode, []⟩) := by
  have hs : modes row ∈ shapes := by
    have h1 := List.all_eq_true.1 (rows_ok false) row hrow
    unfold rowOk at h1
    simp only [Bool.and_eq_true, List.contains_iff_mem] at h1
    exact h1.1.1.1
  have hc := List.all_eq_true.1 codes_ok row hrow
  unfold codeOk at hc
  simp only [Bool.and_eq_true, decide_eq_true_eq] at hc
  obtain ⟨⟨⟨⟨hc, _⟩, _⟩, _⟩, hcode⟩ := hc
  have last : ∀ {a}, ((encodeOperand cpu .NONE op3 a)).err = .OK → encodeOperand cpu .NONE op3 a = a := encode_rest
  have two : ∀ {a}, (encodeOperand cpu .NONE op3 (encodeOperand cpu .NONE op2 a)).err = .OK →
      encodeOperand cpu .NONE op3 (encodeOperand cpu .NONE op2 a) = a := by
    intro a h
    rw [last h]
    rw [last h] at h
    exact encode_rest h
  unfold acceptModes at ha
  simp only [shapes, List.mem_cons, List.not_mem_nil, or_false] at hs
  rcases hs with hm | hm | hm | hm | hm | hm | hm | hm | hm | hm | hm | hm | hm <;>
    (rw [hm] at ha he hcode ⊢
     simp only [pad, List.zip_cons_cons, List.zip_nil_right, List.all_cons, List.all_nil, Bool.and_true, Bool.and_eq_true,
       List.foldl_cons, List.foldl_nil] at ha he ⊢
     obtain ⟨ha1, ha2, ha3⟩ := ha)
  · rw [two he]
    rw [two he] at he
    rw [encode_rest he]
    exact good_none hm hc
  · rw [two he]
    rw [two he] at he
    rw [encode_low (Or.inl rfl) he]
    exact good_bit hm (Or.inl rfl) hc (eq_of_beq hcode)
      (small ho1 ha1 (not_memory ha1 (by decide) (by decide) (by decide) (by decide)))
  · rw [two he]
    rw [two he] at he
    rw [encode_low (Or.inr (Or.inl rfl)) he]
    exact good_bit hm (Or.inr rfl) hc (eq_of_beq hcode)
      (small ho1 ha1 (not_memory ha1 (by decide) (by decide) (by decide) (by decide)))
  · rw [two he]
    rw [two he] at he
    rw [encode_low (Or.inr (Or.inr rfl)) he]
    exact good_byte hm hc (eq_of_beq hcode)
      (small ho1 ha1 (not_memory ha1 (by decide) (by decide) (by decide) (by decide)))
  · rw [two he]
    rw [two he] at he
    have e : encodeOperand cpu .IM13 op1 ⟨.OK, row.opcode, []⟩ = ⟨.OK, row.opcode ||| op1.val.getUnsigned % 8192, []⟩ := by
      have h1 := (encode_err he).2
      have h2 : encodeOperand cpu .IM13 op1 ⟨.OK, row.opcode, []⟩ =
        embed ((Asm.setErrorIf ⟨.OK, row.opcode, []⟩ op1.err).check (op1.val.overflow 0x0FFF (-0x1000)) .OVERFLOW_RANGE)
          (op1.val.getUnsigned % 8192) := rfl
      rw [h2] at he ⊢
      rw [(Asm.check_ok (by decide) (embed_err he)).2.2, h1, embed_opc _ (by omega)]
    rw [e]
    exact good_imm hm hc (eq_of_beq hcode) (Nat.mod_lt _ (by decide))
  · rw [two he]
    rw [two he] at he
    have e : encodeOperand cpu .PMA op1 ⟨.OK, row.opcode, []⟩ =
        ⟨.OK, row.opcode, [op1.val.getUnsigned % 4096 % 256, op1.val.getUnsigned % 4096 / 256 % 256]⟩ := by
      have h1 := (encode_err he).2
      have h2 : encodeOperand cpu .PMA op1 ⟨.OK, row.opcode, []⟩ =
        ((Asm.setErrorIf ⟨.OK, row.opcode, []⟩ op1.err).check (op1.val.overflow 0x0FFF 0) .OVERFLOW_RANGE).emit16le
          (op1.val.getUnsigned % 4096) := rfl
      rw [h2] at he ⊢
      rw [(Asm.check_ok (a := Asm.setErrorIf ⟨.OK, row.opcode, []⟩ op1.err) (by decide) he).2.2, h1]
      rfl
    rw [e]
    exact good_address hm hc (Nat.mod_lt _ (by decide))
  · rw [last he]
    rw [last he] at he
    have x1 := (encode_err he).1
    have s1 := small ho1 ha1 (not_memory ha1 (by decide) (by decide) (by decide) (by decide))
    have s1 : op1.val.getUnsigned % 65536 < 2 := s1
    rw [encode_low (Or.inr (Or.inr rfl)) he, encode_high (Or.inr (Or.inr (Or.inr rfl))) (by omega) x1]
    simp only [Bool.and_eq_true, beq_iff_eq] at hcode
    exact good_reg_byte hm hc hcode.1 s1
      (small ho2 ha2 (not_memory ha2 (by decide) (by decide) (by decide) (by decide)))
  · rw [last he]
    rw [last he] at he
    have x1 := (encode_err he).1
    simp only [beq_iff_eq] at hcode
    have hh : row.opcode = row.opcode / 256 * 256 := by omega
    rw [hh] at x1 he ⊢
    obtain ⟨l, h1, hl⟩ := memory_step x1
    rw [h1] at he ⊢
    obtain ⟨l', h3, hl3⟩ := next_step ho2 ha2 hl he
    rw [h3]
    exact good_memory (Or.inl hm) (by omega) hh hl3
  · simp only [Bool.and_eq_true, beq_iff_eq, bne_iff_ne] at hcode
    have hh : row.opcode = row.opcode / 256 * 256 := by omega
    rw [hh] at he ⊢
    exact field_good (k := 4) (Or.inl ⟨rfl, rfl⟩) hm (by omega) (by omega) (by omega) hh ho2 ho3 ha2 ha3 rfl he
  · simp only [Bool.and_eq_true, beq_iff_eq, bne_iff_ne] at hcode
    have hh : row.opcode = row.opcode / 256 * 256 := by omega
    rw [hh] at he ⊢
    have x2 := (encode_err he).1
    have x1 := (encode_err x2).1
    have s1 : op1.val.getUnsigned % 65536 < 2 :=
      small ho1 ha1 (not_memory ha1 (by decide) (by decide) (by decide) (by decide))
    rw [encode_high (Or.inr (Or.inr (Or.inr rfl))) (by omega) x1] at x2 he ⊢
    dsimp only at x2 he ⊢
    have ho := or_high (x := row.opcode / 256) (y := 0) (z := op1.val.getUnsigned % 65536) (by decide)
    rw [or_even (by omega) s1, Nat.add_zero, Nat.add_zero] at ho
    rw [ho] at x2 he ⊢
    obtain ⟨l, h1, hl⟩ := memory_step x2
    rw [h1] at he ⊢
    obtain ⟨l', h3, hl3⟩ := next_step ho3 ha3 hl he
    rw [h3]
    exact good_reg_memory hm (by omega) (by omega) hh s1 hl3
  · simp only [Bool.and_eq_true, beq_iff_eq, bne_iff_ne] at hcode
    have hh : row.opcode = row.opcode / 256 * 256 := by omega
    rw [hh] at he ⊢
    exact field_good (k := 3) (Or.inr (Or.inl ⟨rfl, rfl⟩)) hm (by omega) (by omega) (by omega) hh ho2 ho3 ha2 ha3 rfl he
  · simp only [beq_iff_eq] at hcode
    have hh : row.opcode = row.opcode / 256 * 256 := by omega
    rw [hh] at he ⊢
    have x2 := (encode_err he).1
    have x1 := (encode_err x2).1
    have e2 : encodeOperand cpu .LS0 op2 (encodeOperand cpu .MAM op1 ⟨.OK, row.opcode / 256 * 256, []⟩) =
      encodeOperand cpu .MAM op1 ⟨.OK, row.opcode / 256 * 256, []⟩ := (encode_err x2).2
    rw [e2] at he ⊢
    obtain ⟨l, h1, hl⟩ := memory_step x1
    rw [h1] at he ⊢
    obtain ⟨l', h3, hl3⟩ := next_step ho3 ha3 hl he
    rw [h3]
    exact good_memory (Or.inr hm) (by omega) hh hl3
  · simp only [Bool.and_eq_true, beq_iff_eq, bne_iff_ne] at hcode
    have hh : row.opcode = row.opcode / 256 * 256 := by omega
    rw [hh] at he ⊢
    exact field_good (k := 3) (Or.inr (Or.inr ⟨rfl, rfl⟩)) hm (by omega) (by omega) (by omega) hh ho2 ho3 ha2 ha3 rfl he

end

/-! ### The entry for a code -/

/-- The upper bytes of the codes of an entry. -/
def hiOk (h : Nat) (p : List Mode × Nat) : Bool :=
  match p.1 with
  | [.IM13] => h / 32 * 32 == p.2 / 256
  | [.MAM, .LS4, .NARP] => h / 16 * 16 == p.2 / 256
  | [.AR, .IM8] | [.AR, .MAM, .NARP] => h / 2 * 2 == p.2 / 256
  | [.MAM, .PA, .NARP] | [.MAM, .LS3, .NARP] => h / 8 * 8 == p.2 / 256
  | _ => h == p.2 / 256

theorem match_hi {opc : Nat} {row : Row} (hrow : row ∈ rows) (h : matchOpCode opc row = true) :
    hiOk (opc / 256) (modes row, row.opcode) = true ∧ (modes row = [] → opc = row.opcode) := by
  have hs : modes row ∈ shapes := by
    have h1 := List.all_eq_true.1 (rows_ok false) row hrow
    unfold rowOk at h1
    simp only [Bool.and_eq_true, List.contains_iff_mem] at h1
    exact h1.1.1.1
  unfold matchOpCode modeAt at h
  cases h1 : maskLow ((modes row).getD 0 .NONE) ((modes row).getD 1 .NONE) opc with
  | none => rw [h1] at h; exact absurd h Bool.false_ne_true
  | some x =>
    rw [h1] at h
    have h : (match maskRest ((modes row).getD 0 .NONE) ((modes row).getD 1 .NONE) x with
      | some opc => opc == row.opcode | none => false) = true := h
    cases h2 : maskRest ((modes row).getD 0 .NONE) ((modes row).getD 1 .NONE) x with
    | none => rw [h2] at h; exact absurd h Bool.false_ne_true
    | some y =>
      rw [h2] at h
      have hy : y = row.opcode := eq_of_beq h
      unfold hiOk
      generalize row.opcode = c at *
      clear h hrow
      subst hy
      simp only [shapes, List.mem_cons, List.not_mem_nil, or_false] at hs
      rcases hs with hm | hm | hm | hm | hm | hm | hm | hm | hm | hm | hm | hm | hm <;> rw [hm] at h1 h2 ⊢ <;>
        dsimp only <;> simp only [beq_iff_eq]
      · have h1 : some opc = some x := h1
        have h2 : some x = some y := h2
        injection h1 with h1; injection h2 with h2
        exact ⟨by omega, fun _ => by omega⟩
      · have h1 : some opc = some x := h1
        have h2 : some (x / 2 * 2) = some y := h2
        injection h1 with h1; injection h2 with h2
        exact ⟨by omega, fun h => nomatch h⟩
      · have h1 : some opc = some x := h1
        have h2 : some (x / 2 * 2) = some y := h2
        injection h1 with h1; injection h2 with h2
        exact ⟨by omega, fun h => nomatch h⟩
      · have h1 : some (opc / 256 * 256) = some x := h1
        have h2 : some x = some y := h2
        injection h1 with h1; injection h2 with h2
        exact ⟨by omega, fun h => nomatch h⟩
      · have h1 : some (opc / 8192 * 8192) = some x := h1
        have h2 : some x = some y := h2
        injection h1 with h1; injection h2 with h2
        exact ⟨by omega, fun h => nomatch h⟩
      · have h1 : some opc = some x := h1
        have h2 : some x = some y := h2
        injection h1 with h1; injection h2 with h2
        exact ⟨by omega, fun h => nomatch h⟩
      · have h1 : some (opc / 256 * 256) = some x := h1
        have h2 : some (x - x / 256 % 2 * 256) = some y := h2
        injection h1 with h1; injection h2 with h2
        exact ⟨by omega, fun h => nomatch h⟩
      · obtain ⟨_, h1⟩ := low_mam (by decide) h1
        have h2 : some x = some y := h2
        injection h2 with h2
        exact ⟨by omega, fun h => nomatch h⟩
      · obtain ⟨_, h1⟩ := low_mam (by decide) h1
        have h2 : some (x - x / 256 % 16 * 256) = some y := h2
        injection h2 with h2
        exact ⟨by omega, fun h => nomatch h⟩
      · obtain ⟨_, h1⟩ := low_ar_mam h1
        have h2 : some (x - x / 256 % 2 * 256) = some y := h2
        injection h2 with h2
        exact ⟨by omega, fun h => nomatch h⟩
      · obtain ⟨_, h1⟩ := low_mam (by decide) h1
        have h2 : some (x - x / 256 % 8 * 256) = some y := h2
        injection h2 with h2
        exact ⟨by omega, fun h => nomatch h⟩
      · obtain ⟨_, h1⟩ := low_mam (by decide) h1
        have h2 : some x = some y := h2
        injection h2 with h2
        exact ⟨by omega, fun h => nomatch h⟩
      · obtain ⟨_, h1⟩ := low_mam (by decide) h1
        have h2 : (if x / 256 % 8 < 2 ∨ x / 256 % 8 = 4 then some (x - x / 256 % 8 * 256) else none) = some y := h2
        split at h2
        · injection h2 with h2
          exact ⟨by omega, fun h => nomatch h⟩
        · cases h2

/-- The modes and the code of an entry, and its number. -/
def keys : List (List Mode × Nat) := rows.map fun r => (modes r, r.opcode)

/-- There is one entry for an upper byte, or no operand, or it is that of LARP. -/
def oneB (ks : List (List Mode × Nat)) (h : Nat) : Bool :=
  match ks.filter (hiOk h) with
  | [] => true
  | [_] => true
  | l => l.all (fun p => p.1.isEmpty) || (h == 0x68 && l.length == 2)

theorem keys_one : ∀ h < 256, oneB keys h = true := by
  have : keys = [
    ([.MAM, .LS4, .NARP], 0x0),
    ([.MAM, .LS4, .NARP], 0x1000),
    ([.MAM, .LS4, .NARP], 0x2000),
    ([.AR, .MAM, .NARP], 0x3000),
    ([.AR, .MAM, .NARP], 0x3800),
    ([.MAM, .PA, .NARP], 0x4000),
    ([.MAM, .PA, .NARP], 0x4800),
    ([.MAM, .LS0, .NARP], 0x5000),
    ([.MAM, .LS3, .NARP], 0x5800),
    ([.MAM, .NARP], 0x6000),
    ([.MAM, .NARP], 0x6100),
    ([.MAM, .NARP], 0x6200),
    ([.MAM, .NARP], 0x6300),
    ([.MAM, .NARP], 0x6400),
    ([.MAM, .NARP], 0x6500),
    ([.MAM, .NARP], 0x6600),
    ([.MAM, .NARP], 0x6700),
    ([.ARK], 0x6880),
    ([.MAM, .NARP], 0x6800),
    ([.MAM, .NARP], 0x6900),
    ([.MAM, .NARP], 0x6a00),
    ([.MAM, .NARP], 0x6b00),
    ([.MAM, .NARP], 0x6c00),
    ([.MAM, .NARP], 0x6d00),
    ([.DPK], 0x6e00),
    ([.MAM, .NARP], 0x6f00),
    ([.AR, .IM8], 0x7000),
    ([.MAM, .NARP], 0x7800),
    ([.MAM, .NARP], 0x7900),
    ([.MAM, .NARP], 0x7a00),
    ([.MAM, .NARP], 0x7b00),
    ([.MAM, .NARP], 0x7c00),
    ([.MAM, .NARP], 0x7d00),
    ([.IM8], 0x7e00),
    ([], 0x7f80),
    ([], 0x7f81),
    ([], 0x7f82),
    ([], 0x7f88),
    ([], 0x7f89),
    ([], 0x7f8a),
    ([], 0x7f8b),
    ([], 0x7f8c),
    ([], 0x7f8d),
    ([], 0x7f8e),
    ([], 0x7f8f),
    ([], 0x7f90),
    ([], 0x7f9c),
    ([], 0x7f9d),
    ([.IM13], 0x8000),
    ([.PMA], 0xf400),
    ([.PMA], 0xf500),
    ([.PMA], 0xf600),
    ([.PMA], 0xf800),
    ([.PMA], 0xf900),
    ([.PMA], 0xfa00),
    ([.PMA], 0xfb00),
    ([.PMA], 0xfc00),
    ([.PMA], 0xfd00),
    ([.PMA], 0xfe00),
    ([.PMA], 0xff00)] := by decide +kernel
  rw [this]
  decide +kernel

theorem keys_nodup : ∀ r ∈ rows, ∀ r' ∈ rows, r.opcode = r'.opcode → r = r' := by decide +kernel

/-- The entries of LARP and MAR. -/
def larp : Row := ⟨0x6880, ['L', 'A', 'R', 'P'], ["E1", "M_ARK"]⟩
def mar : Row := ⟨0x6800, ['M', 'A', 'R'], ["E2", "M_MAM", "M_NARP"]⟩

theorem two_rows : ∀ r ∈ rows, hiOk 0x68 (modes r, r.opcode) = true → r = larp ∨ r = mar := by decide +kernel

theorem search_find (opc : Nat) : searchOpCode opc = rows.find? (matchOpCode opc) := by
  unfold searchOpCode
  rw [Table.Props.C24_searchOpCode]
  have e : ((pages.filter fun _ => true).flatMap fun p => p.entries.map fun e => (p, e)) =
      rows.map fun e => ((⟨0, [], Tables.Tms32010.TABLE_TMS32010, Tables.Tms32010.INDEX_TMS32010⟩ : Table.Page Row), e) := by
    rfl
  rw [e, List.find?_map]
  have e2 : ((fun x : Table.Page Row × Row => matchOpCode opc x.2) ∘
      fun e => ((⟨0, [], Tables.Tms32010.TABLE_TMS32010, Tables.Tms32010.INDEX_TMS32010⟩ : Table.Page Row), e)) =
      matchOpCode opc := rfl
  rw [e2]
  cases rows.find? (matchOpCode opc) <;> rfl

theorem one_row {r r' : Row} {h : Nat} (hh : h < 256) (hr : r ∈ rows) (hr' : r' ∈ rows)
    (h1 : hiOk h (modes r, r.opcode) = true) (h2 : hiOk h (modes r', r'.opcode) = true) :
    r.opcode = r'.opcode ∨ (modes r = [] ∧ modes r' = []) ∨ h = 0x68 := by
  have m1 : (modes r, r.opcode) ∈ keys.filter (hiOk h) :=
    List.mem_filter.2 ⟨List.mem_map.2 ⟨r, hr, rfl⟩, h1⟩
  have m2 : (modes r', r'.opcode) ∈ keys.filter (hiOk h) :=
    List.mem_filter.2 ⟨List.mem_map.2 ⟨r', hr', rfl⟩, h2⟩
  have hk := keys_one h hh
  unfold oneB at hk
  generalize keys.filter (hiOk h) = l at *
  split at hk
  · cases m1
  · rename_i x
    rw [List.mem_singleton] at m1 m2
    have := m1.trans m2.symm
    injection this with _ this
    exact Or.inl this
  · rw [Bool.or_eq_true] at hk
    rcases hk with hk | hk
    · have h3 := List.all_eq_true.1 hk _ m1
      have h4 := List.all_eq_true.1 hk _ m2
      exact Or.inr (Or.inl ⟨List.isEmpty_iff.1 h3, List.isEmpty_iff.1 h4⟩)
    · simp only [Bool.and_eq_true, beq_iff_eq] at hk
      exact Or.inr (Or.inr hk.1)

theorem search_back {opc : Nat} {row : Row} (hc : opc < 65536) (hr : row ∈ rows) (h : matchOpCode opc row = true) :
    ∃ row', searchOpCode opc = some row' ∧ (row' = row ∨ (row = mar ∧ row' = larp)) := by
  rw [search_find]
  cases hf : rows.find? (matchOpCode opc) with
  | none =>
    have := List.find?_eq_none.1 hf row hr
    exact absurd h this
  | some row' =>
    refine ⟨row', rfl, ?_⟩
    have hm' := List.find?_some hf
    have hr' := List.mem_of_find?_eq_some hf
    obtain ⟨k1, k2⟩ := match_hi hr h
    obtain ⟨k3, k4⟩ := match_hi hr' hm'
    rcases one_row (by omega) hr hr' k1 k3 with h1 | ⟨h1, h2⟩ | h1
    · exact Or.inl (keys_nodup _ hr' _ hr h1.symm)
    · exact Or.inl (keys_nodup _ hr' _ hr ((k4 h2).symm.trans (k2 h1)))
    · rw [h1] at k1 k3
      rcases two_rows _ hr k1 with e1 | e1 <;> rcases two_rows _ hr' k3 with e2 | e2
      · exact Or.inl (e2.trans e1.symm)
      · have e3 : rows = rows.take 18 ++ rows.drop 18 := (List.take_append_drop 18 rows).symm
        rw [e3, List.find?_append] at hf
        cases hf2 : (rows.take 18).find? (matchOpCode opc) with
        | none =>
          have h5 : larp ∈ rows.take 18 := by decide +kernel
          rw [e1] at h
          exact absurd h (List.find?_eq_none.1 hf2 larp h5)
        | some x =>
          rw [hf2] at hf
          have hf : some x = some row' := hf
          injection hf with hf
          have h6 := List.mem_of_find?_eq_some hf2
          have h7 : mar ∉ rows.take 18 := by decide +kernel
          rw [hf, e2] at h6
          exact absurd h6 h7
      · exact Or.inr ⟨e1, e2⟩
      · exact Or.inl (e2.trans e1.symm)

theorem mar_mem (o : Opts) (cpu : CpuType) (opc : Nat) (r : Rd) :
    (decodeOperands o cpu opc r (modes mar)).2.mem = r.mem := by
  have e : (decodeOperands o cpu opc r (modes mar)).2 = (decodeOperand o cpu opc .MAM r).2 := rfl
  rw [e]
  unfold decodeOperand
  dsimp only
  split
  · rfl
  · unfold outDirect
    split
    · dsimp only
      split <;> rfl
    · rfl

theorem alnum (c : Char) (h : Ctype.isAlnum c = true) : syntaxOf.instructionLetter c = true := by
  show (simpleSymbol ['_', '$'] false c || c == '.') = true
  unfold simpleSymbol Eval.symbolLetter
  unfold Ctype.isAlnum at h
  rw [Bool.not_false, Bool.true_and, h]
  rfl

/-- Whatever line is assembled without error, at any address and with any symbols: the disassembler, with any
options, reads the bytes of it, whatever follows them, as one instruction, without error. It has the name written in
the line, or another name for the same code.
What is missing of C29: that the operands are those of the line, which they need not be: `C75_unchecked`. -/
theorem C29_tms32010_partial {E : Env} {cpu : CpuType} {addr : Nat} {line : List Char} {bytes : List Nat} {rest : Scan}
    (h : assemble E cpu addr line = .ok (.insn ⟨.OK, bytes, rest⟩)) (o : Opts) (more : List Nat) :
    (disassemble o cpu addr (bytes ++ more)).err = .OK ∧
    (disassemble o cpu addr (bytes ++ more)).bytes = bytes ∧
    WrittenLike line (disassemble o cpu addr (bytes ++ more)).name := by
  obtain ⟨word, scan, hi, haddr, hw, blanks, tail, hline, hblank⟩ :=
    encode_line_inv (by decide) rfl h
  unfold encodeImpl at hi
  obtain ⟨x, d1, d2⟩ := bind_ok hi
  cases x with
  | error e =>
    obtain ⟨e, p⟩ := e
    injection d2 with d2
    injection d2 with d2
    exact absurd d2 (operands_err (fun s e p h => parse_err h) _ _ _ _ d1)
  | ok x =>
    obtain ⟨ops, s⟩ := x
    dsimp only at d2
    obtain ⟨x, f1, f2⟩ := bind_ok d2
    unfold searchName at f1
    split at f1
    · rename_i pre row hs
      injection f1 with f1
      subst f1
      dsimp only at f2
      injection f2 with f2
      injection f2 with f2 f3 f4
      obtain ⟨p, hp, rfl, hrow, hcmp, hacc⟩ := searchName_mem hs
      have hrow : row ∈ rows := by
        have : ∀ q ∈ pages, q.entries = rows := by decide +kernel
        rw [← this p hp]
        exact hrow
      have hops := (operands_all parse_opOk _ _ _ _ d1).1
      have hpad := pad_all opOk_none 3 ops hops
      obtain ⟨op1, op2, op3, he⟩ := length_three (pad_length ({} : Operand) 3 ops)
      rw [he] at hpad hacc f2 f3
      obtain ⟨g1, g2, g3⟩ := insn_good hrow (hpad op1 (by simp)) (hpad op2 (by simp)) (hpad op3 (by simp)) hacc f2
      generalize List.foldl (fun a (p : Mode × Operand) => encodeOperand cpu p.1 p.2 a) (⟨.OK, row.opcode, []⟩ : Asm)
        ((pad 3 .NONE (modes row)).zip [op1, op2, op3]) = a at *
      subst f3
      have hdis : disassemble o cpu addr (Tms32010.bytes a ++ more) = decodeImpl o cpu (Tms32010.bytes a ++ more) := by
        unfold disassemble decode
        rw [haddr]
        rfl
      have hcode := List.all_eq_true.1 codes_ok row hrow
      unfold codeOk at hcode
      simp only [Bool.and_eq_true, decide_eq_true_eq, Bool.not_eq_true'] at hcode
      obtain ⟨⟨⟨⟨_, b1⟩, b2⟩, b3⟩, _⟩ := hcode
      have no : ∀ {c : Char}, row.name.contains c = false → c ∉ row.name := by
        intro c h hc
        rw [List.contains_iff_mem.2 hc] at h
        cases h
      have hname : WrittenAs line row.name := written alnum (fun c h => by cases h) hw (no b1) b2 hcmp (no b3) hline hblank
      have hle : (⟨Tms32010.bytes a ++ more, [], .OK⟩ : Rd).le16 =
          (a.opc, ⟨a.ops ++ more, [a.opc % 256, a.opc / 256 % 256], .OK⟩) := by
        unfold Tms32010.bytes Rd.le16
        rw [List.cons_append, byte_some (by omega)]
        dsimp only
        rw [List.cons_append, byte_some (by omega)]
        refine Prod.ext ?_ rfl
        show a.opc / 256 % 256 * 256 + a.opc % 256 = a.opc
        omega
      obtain ⟨row', hs', hr'⟩ := search_back g1 hrow g2
      have hd : (decodeOperands o cpu a.opc ⟨a.ops ++ more, [a.opc % 256, a.opc / 256 % 256], .OK⟩ (modes row')).2 =
          ⟨more, [a.opc % 256, a.opc / 256 % 256] ++ a.ops, .OK⟩ := by
        rcases hr' with rfl | ⟨rfl, rfl⟩
        · exact g3 o more _
        · have h2 : a.ops = [] := by
            have h3 := congrArg Rd.mem (g3 o [] [])
            rw [mar_mem] at h3
            simpa using h3
          rw [h2]
          rfl
      have hal : alike row.name row'.name = true := by
        rcases hr' with rfl | ⟨rfl, rfl⟩
        · unfold alike
          simp
        · decide
      rw [hdis]
      unfold decodeImpl
      rw [hle]
      dsimp only
      rw [hs']
      dsimp only
      rw [hd]
      exact ⟨rfl, rfl, written_alike hname hal (outText_same o _)⟩
    · rename_i e hs
      injection f1 with f1
      subst f1
      injection f2 with f2
      injection f2 with f2 f3 f4
      exact absurd f2 (searchName_err hs)
    · cases f1

/-- A line is assembled to at least a word. -/
theorem assembled_length {E : Env} {cpu : CpuType} {addr : Nat} {line : List Char} {bytes : List Nat} {rest : Scan}
    (h : assemble E cpu addr line = .ok (.insn ⟨.OK, bytes, rest⟩)) : 2 ≤ bytes.length := by
  obtain ⟨word, scan, hi, _⟩ := encode_line_inv (by decide) rfl h
  unfold encodeImpl at hi
  obtain ⟨x, d1, d2⟩ := bind_ok hi
  cases x with
  | error e =>
    obtain ⟨e, p⟩ := e
    injection d2 with d2
    injection d2 with d2
    exact absurd d2 (operands_err (fun s e p h => parse_err h) _ _ _ _ d1)
  | ok x =>
    obtain ⟨ops, s⟩ := x
    dsimp only at d2
    obtain ⟨x, f1, f2⟩ := bind_ok d2
    cases x with
    | error e =>
      injection f2 with f2
      injection f2 with f2
      unfold searchName at f1
      split at f1
      · injection f1 with f1
        cases f1
      · rename_i e' hs
        injection f1 with f1
        injection f1 with f1
        exact absurd f2 (by rw [← f1]; exact searchName_err hs)
      · cases f1
    | ok row =>
      injection f2 with f2
      injection f2 with f2 f3 f4
      rw [← f3]
      unfold Tms32010.bytes
      simp

/-- `C29_tms32010_partial` has something to say of operands of several kinds. -/
example :
    assemble noEnv .TMS32010 0x100 "  add *+, 4, ar1 ; comment".toList =
      .ok (.insn ⟨.OK, [0xa1, 0x04], "; comment".toList⟩) ∧
    assemble noEnv .TMS32010 0 "sar ar1, 10h".toList = .ok (.insn ⟨.OK, [0x10, 0x31], []⟩) ∧
    assemble noEnv .TMS32010 0 "banz 123h".toList = .ok (.insn ⟨.OK, [0x00, 0xf4, 0x23, 0x01], []⟩) ∧
    assemble noEnv .TMS32010 0 "mpyk -1".toList = .ok (.insn ⟨.OK, [0xff, 0x9f], []⟩) ∧
    assemble noEnv .TMS32010 0 "out *-, pa7".toList = .ok (.insn ⟨.OK, [0x98, 0x4f], []⟩) ∧
    assemble noEnv .TMS32015 0 "sst 0ffh".toList = .ok (.insn ⟨.OK, [0x7f, 0x7c], []⟩) := by
  decide +kernel

/-- The name need not be that of the line. -/
theorem another_name :
    assemble noEnv .TMS32010 0 "MAR *, AR1".toList = .ok (.insn ⟨.OK, [0x81, 0x68], []⟩) ∧
    (disassemble (.default '$') .TMS32010 0 [0x81, 0x68]).name = "LARP".toList := by
  decide +kernel

end Libasm.Cpu.Tms32010
