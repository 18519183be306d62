import Verif.Cpu.Z80.Lemmas
/-
What the Z80 assembler makes of the operands its disassembler prints.
-/
namespace Libasm.Cpu.Z80
open Scan Number Number.Spec Eval
open Tables (Row)

/-! ### What is printed of an operand -/

/-- The name printed for a mode, between parentheses or not; `pre` is the prefix and `b` the code. -/
def textOf (pre b : Nat) (m : Mode) : Option (Bool × List Char) :=
  match m with
  | .CC4 => some (false, regText ccs (decodeCcName (b / 8 % 4)))
  | .CC8 => some (false, regText ccs (decodeCcName (b / 8)))
  | .R16 | .NOHL | .R16X => some (false, regText regs (decodePointerReg (b / 16) pre))
  | .STK => some (false, regText regs (decodeStackReg (b / 16)))
  | .SRC | .SR8 => some (decide (decodeDataReg b = .HL), regText regs (decodeDataReg b))
  | .DST | .DR8 => some (decide (decodeDataReg (b / 8) = .HL), regText regs (decodeDataReg (b / 8)))
  | .RIDX => (decodeIndexReg pre).map fun r => (false, regText regs r)
  | .R .BC | .R .C | .R .B | .R .D | .R .E | .R .H | .R .L | .R .IX | .R .IY => none
  | .R reg => some (false, regText regs reg)
  | .PTR => some (true, regText regs (decodeIndirectBase (b / 16)))
  | .IIDX => (decodeIndexReg pre).map fun r => (true, regText regs r)
  | .I .HL => some (true, regText regs .HL)
  | .I .SP => some (true, regText regs .SP)
  | .I .C => some (true, regText regs .C)
  | _ => none

/-- The number in the code. -/
def numOf (b : Nat) (m : Mode) : Option Nat :=
  match m with
  | .VEC => some (b / 8 % 8 * 8)
  | .BIT => some (b / 8 % 8)
  | .IMMD => some (b / 8 % 4 - 1)
  | _ => none

/-- What is read for an operand that is in the code. -/
def opOf (pre b : Nat) (m : Mode) : Option Operand :=
  match textOf pre b m with
  | some (p, t) => wordOperand p t
  | none => (numOf b m).map fun v => { mode := .IM16, val := ⟨v, .unsigned⟩ }

/-- The modes with bytes after the code. -/
def byteMode (m : Mode) : Bool :=
  match m with
  | .IM8 | .IM16 | .ABS | .IOA | .IDX | .REL => true
  | _ => false

/-- The name printed is read, in capital letters and in small ones. -/
def textFine (pre b : Nat) (m : Mode) : Bool :=
  match textOf pre b m with
  | none => (numOf b m).isSome
  | some (p, t) => (wordOperand p t).isSome && [false, true].all fun up =>
    decide (t.map (letter up) ≠ []) && (t.map (letter up)).all Table.isNameLetter &&
    decide (wordOperand p (t.map (letter up)) = wordOperand p t)

/-- An operand that can be printed and read. -/
def fine (pre b : Nat) (m : Mode) : Bool :=
  if byteMode m then decide (m ≠ .IDX) || (decodeIndexReg pre).isSome
  else textFine pre b m

/-- The mode an operand is read with. -/
def pmode (pre b : Nat) (m : Mode) : Mode :=
  match m with
  | .IM8 | .IM16 | .REL => .IM16
  | .ABS | .IOA => .ABS
  | .IDX => .IDX
  | m => ((opOf pre b m).map (·.mode)).getD .UNDEF

/-- The bytes `bs` of the operand and what is read of it. -/
def Vals (pre b addr : Nat) (m : Mode) (bs : List Nat) (r' : Rd) (op : Operand) : Prop :=
  match m with
  | .IM8 | .IOA => ∃ v, v < 256 ∧ bs = [v] ∧ op.val = ⟨v, .unsigned⟩
  | .IM16 | .ABS => ∃ v, v < 65536 ∧ bs = [v % 256, v / 256] ∧ op.val = ⟨v, .unsigned⟩
  | .IDX => ∃ v, v < 256 ∧ bs = [v] ∧ op.val = Value.setS (int8 v) ∧ op.reg = decodeIndexReg pre
  | .REL => ∃ v w : Nat, v < 256 ∧ w < 65536 ∧ bs = [v] ∧ (w : Int) = ((addr + r'.bytes.length : Nat) : Int) + int8 v ∧
      op.val = ⟨w, .unsigned⟩
  | m => bs = [] ∧ opOf pre b m = some op

/-- The operand `op` was decoded from `r` to `r'`. -/
structure Rel (pre b addr : Nat) (m : Mode) (r r' : Rd) (op : Operand) : Prop where
  err : op.err = .OK
  mode : op.mode = pmode pre b m
  vals : ∃ bs, Took r r' bs ∧ bs.length ≤ 10 ∧ Vals pre b addr m bs r' op

theorem operand_mono {o : Opts} {addr pre b : Nat} (m : Mode) (r : Rd)
    (h : (decodeOperand o addr pre b m r).2.err = .OK) : r.err = .OK := by
  unfold decodeOperand at h
  cases m with
  | R reg => cases reg <;> exact h
  | I reg => cases reg <;> exact h
  | REL => exact byte_err (setErrorIf_ok h).1
  | IM16 | ABS => exact byte_err (byte_err h)
  | IM8 | IOA | IDX => exact byte_err h
  | _ => exact h

/-- A name as it is printed. -/
def outWord (o : Opts) (x : Bool × List Char) : List Char :=
  if x.1 then '(' :: outText o x.2 ++ [')'] else outText o x.2

theorem word_text {o : Opts} {addr pre b : Nat} {m : Mode} {r : Rd} {x : Bool × List Char}
    (h : textOf pre b m = some x) : decodeOperand o addr pre b m r = (outWord o x, r) := by
  have data : ∀ reg : Reg, outDataReg o reg = outWord o (decide (reg = .HL), regText regs reg) := by
    intro reg
    unfold outDataReg outWord outIndirect outReg
    by_cases hh : reg = .HL
    · rw [if_pos hh, if_pos (decide_eq_true hh)]
    · rw [if_neg hh, if_neg (by simpa using hh)]
  have idx : ∀ (p : Bool), (decodeIndexReg pre).map (fun r => (p, regText regs r)) = some x →
      outReg? o (decodeIndexReg pre) = outText o x.2 ∧ x.1 = p := by
    intro p hx
    cases hd : decodeIndexReg pre with
    | none => rw [hd] at hx; cases hx
    | some reg =>
      rw [hd] at hx
      injection hx with hx
      subst hx
      exact ⟨rfl, rfl⟩
  unfold textOf at h
  unfold decodeOperand
  cases m with
  | R reg => cases reg <;> first | (injection h with h; subst h; rfl) | cases h
  | I reg => cases reg <;> first | (injection h with h; subst h; rfl) | cases h
  | SRC | SR8 | DST | DR8 => injection h with h; subst h; dsimp only; rw [data]
  | RIDX =>
    obtain ⟨h1, h2⟩ := idx false h
    dsimp only
    rw [h1, outWord, h2]
    rfl
  | IIDX =>
    obtain ⟨h1, h2⟩ := idx true h
    dsimp only
    rw [h1, outWord, h2]
    rfl
  | CC4 | CC8 | R16 | NOHL | R16X | STK | PTR => injection h with h; subst h; rfl
  | _ => cases h

theorem outText_map (o : Opts) (t : List Char) : outText o t = t.map (letter o.upper) := rfl

variable {E : Env} {addr : Nat}

theorem word_operand {o : Opts} {pre b : Nat} {m : Mode} {x : Bool × List Char} (h : textOf pre b m = some x)
    (hf : textFine pre b m = true) :
    ∃ op, opOf pre b m = some op ∧ op.err = .OK ∧ ∀ rest, AfterOp rest →
      parseOperand (fun delim => plug E delim addr) (outWord o x ++ rest) = .ok (.ok (op, rest)) := by
  obtain ⟨p, t⟩ := x
  unfold textFine at hf
  rw [h] at hf
  simp only [Bool.and_eq_true, List.all_eq_true, decide_eq_true_eq] at hf
  obtain ⟨h1, h2⟩ := hf
  obtain ⟨op, hop⟩ := Option.isSome_iff_exists.1 h1
  have g := h2 o.upper (by cases o.upper <;> simp)
  obtain ⟨⟨g1, g2⟩, g3⟩ := g
  rw [hop] at g3
  have herr : op.err = .OK := by
    unfold wordOperand at hop
    split at hop
    · cases hl : look regs t with
      | none => rw [hl] at hop; cases hop
      | some r =>
        rw [hl] at hop
        have hop : (indirectMode r).map (fun m => ({ mode := m, reg := some r } : Operand)) = some op := hop
        cases hm : indirectMode r with
        | none => rw [hm] at hop; cases hop
        | some m => rw [hm] at hop; injection hop with hop; subst hop; rfl
    · split at hop
      · injection hop with hop; subst hop; rfl
      · split at hop
        · injection hop with hop; subst hop; rfl
        · cases hl : look regs t with
          | none => rw [hl] at hop; cases hop
          | some r => rw [hl] at hop; injection hop with hop; subst hop; rfl
  refine ⟨op, ?_, herr, fun rest hr => ?_⟩
  · unfold opOf
    rw [h]
    exact hop
  · have hsep := (after (E := E) (delim := '\x00') (loc := addr) hr).1
    unfold outWord
    cases p with
    | false =>
      rw [if_neg (show ¬ (false, t).1 = true from (by decide : ¬ false = true))]
      exact word_reads ⟨g1, g2⟩ hsep g3
    | true =>
      rw [if_pos rfl]
      have := paren_reads (E := E) (loc := addr) (rest := rest) ⟨g1, g2⟩ g3
      simp only [List.cons_append, List.append_assoc, List.nil_append]
      exact this

theorem index_text {pre : Nat} {r : Reg} (h : decodeIndexReg pre = some r) (o : Opts) :
    (r = .IX ∨ r = .IY) ∧ outReg? o (decodeIndexReg pre) = outReg o r ∧
    (outReg o r ≠ [] ∧ ∀ c ∈ outReg o r, Table.isNameLetter c = true) ∧ look regs (outReg o r) = some r := by
  have hr : r = .IX ∨ r = .IY := by
    unfold decodeIndexReg at h
    split at h
    · injection h with h; exact Or.inl h.symm
    · split at h
      · injection h with h; exact Or.inr h.symm
      · cases h
  refine ⟨hr, by rw [h]; rfl, ?_⟩
  have : ∀ up : Bool, ∀ r ∈ [Reg.IX, Reg.IY], (((regText regs r).map (letter up)) ≠ [] ∧
      ∀ c ∈ (regText regs r).map (letter up), Table.isNameLetter c = true) ∧
      look regs ((regText regs r).map (letter up)) = some r := by decide +kernel
  exact this o.upper r (by rcases hr with rfl | rfl <;> simp)

/-- An operand with an index register, as it is printed. -/
theorem indexed_reads {o : Opts} {pre b : Nat} (hb : b < 256) (h : (decodeIndexReg pre).isSome = true)
    (rest : List Char) :
    parseOperand (fun delim => plug E delim addr) (outIndexed o pre b ++ rest) =
      .ok (.ok ({ mode := .IDX, reg := decodeIndexReg pre, val := Value.setS (int8 b) }, rest)) := by
  obtain ⟨r, hr⟩ := Option.isSome_iff_exists.1 h
  obtain ⟨h1, h2, h3, h4⟩ := index_text hr o
  have := index_reads (E := E) (loc := addr) (o := o) (rest := rest) hb h3 h4 h1
  unfold outIndexed
  rw [h2, hr]
  rw [← this]
  simp only [List.cons_append, List.append_assoc, List.nil_append]

theorem num_text {o : Opts} {pre b : Nat} {m : Mode} {r : Rd} {v : Nat} (hb : b < 256)
    (h : numOf b m = some v) : textOf pre b m = none ∧ (decodeOperand o addr pre b m r).2 = r ∧
      NumText .intel .intel (decodeOperand o addr pre b m r).1 v := by
  have hP := intel_pairs o
  unfold numOf at h
  cases m with
  | VEC =>
    injection h with h
    subst h
    exact ⟨rfl, rfl, outHex_num hP _ 8 true (by omega) (by decide) (by decide)⟩
  | BIT =>
    injection h with h
    subst h
    exact ⟨rfl, rfl, outHex_num hP _ 3 true (by omega) (by decide) (by decide)⟩
  | IMMD =>
    injection h with h
    subst h
    exact ⟨rfl, rfl, digit_text (by omega)⟩
  | _ => cases h

theorem operand_reads {o : Opts} {m : Mode} {pre b k : Nat} {r : Rd}
    (hsym : o.relative = true → o.curSym = '$') (ha : addr < 65536) (hb : b < 256)
    (hf : fine pre b m = true) (hroom : Room (k + 1) r)
    (h : (decodeOperand o addr pre b m r).2.err = .OK) :
    ∃ op, Rel pre b addr m r (decodeOperand o addr pre b m r).2 op ∧
      ∀ rest, AfterOp rest → parseOperand (fun delim => plug E delim addr)
        ((decodeOperand o addr pre b m r).1 ++ rest) = .ok (.ok (op, rest)) := by
  have hP := intel_pairs o
  have hmem := hroom.mem
  by_cases hm : byteMode m = true
  · unfold fine at hf
    rw [if_pos hm] at hf
    unfold decodeOperand at h ⊢
    cases m with
    | IM8 =>
      dsimp only at h ⊢
      obtain ⟨h1, h2⟩ := byte_took hmem h
      exact ⟨{ mode := .IM16, val := ⟨r.byte.1, .unsigned⟩ }, ⟨rfl, rfl, _, h2, by simp, _, h1, rfl, rfl⟩,
        fun rest hr => num_reads (outHex_num hP r.byte.1 8 true h1 (by decide) (by decide)) hr⟩
    | IM16 =>
      dsimp only at h ⊢
      obtain ⟨h1, h2⟩ := le16_took hmem h
      exact ⟨{ mode := .IM16, val := ⟨r.le16.1, .unsigned⟩ }, ⟨rfl, rfl, _, h2, by simp, _, h1, rfl, rfl⟩,
        fun rest hr => num_reads (outHex_num hP r.le16.1 16 true h1 (by decide) (by decide)) hr⟩
    | ABS =>
      dsimp only at h ⊢
      obtain ⟨h1, h2⟩ := le16_took hmem h
      refine ⟨{ mode := .ABS, val := ⟨r.le16.1, .unsigned⟩ }, ⟨rfl, rfl, _, h2, by simp, _, h1, rfl, rfl⟩,
        fun rest hr => ?_⟩
      have := paren_num_reads (E := E) (loc := addr) (rest := rest)
        (outAbsAddr_num hP r.le16.1 16 h1 (by decide) (by decide))
      unfold outIndirect
      simp only [List.cons_append, List.append_assoc, List.nil_append]
      exact this
    | IOA =>
      dsimp only at h ⊢
      obtain ⟨h1, h2⟩ := byte_took hmem h
      refine ⟨{ mode := .ABS, val := ⟨r.byte.1, .unsigned⟩ }, ⟨rfl, rfl, _, h2, by simp, _, h1, rfl, rfl⟩,
        fun rest hr => ?_⟩
      have := paren_num_reads (E := E) (loc := addr) (rest := rest)
        (outHex_num hP r.byte.1 8 true h1 (by decide) (by decide))
      unfold outIndirect
      simp only [List.cons_append, List.append_assoc, List.nil_append]
      exact this
    | IDX =>
      dsimp only at h ⊢
      obtain ⟨h1, h2⟩ := byte_took hmem h
      have hi : (decodeIndexReg pre).isSome = true := by simpa using hf
      exact ⟨{ mode := .IDX, reg := decodeIndexReg pre, val := Value.setS (int8 r.byte.1) },
        ⟨rfl, rfl, _, h2, by simp, _, h1, rfl, rfl, rfl⟩, fun rest hr => indexed_reads h1 hi rest⟩
    | REL =>
      have hlen := hroom.len
      unfold decodeRelative at h ⊢
      dsimp only at h ⊢
      generalize hT : (((addr + r.byte.2.bytes.length : Nat) : Int) + int8 r.byte.1) % Config.W = T at *
      obtain ⟨g1, g2⟩ := setErrorIf_ok h
      obtain ⟨h1, h2⟩ := byte_took hmem g1
      have hi := int8_range _ h1
      have hl : r.byte.2.bytes.length = r.bytes.length + 1 := by rw [h2.bytes]; simp
      have hT' : T.toNat < 65536 := by
        rw [Config.checkAddr_eq false (by decide) (by unfold Config.W at *; omega)] at g2
        split at g2
        · cases g2
        · rename_i hlt
          simpa using hlt
      have hsh : (T.toNat : Int) = ((addr + r.byte.2.bytes.length : Nat) : Int) + int8 r.byte.1 := by
        unfold Config.W at hT
        omega
      exact ⟨{ mode := .IM16, val := ⟨T.toNat, .unsigned⟩ }, ⟨rfl, rfl, _, ⟨h2.err, h2.mem, h2.bytes⟩, by simp,
        _, _, h1, hT', rfl, hsh, rfl⟩, fun rest hr => rel_operand hsym ha hT' (by omega) hr⟩
    | _ => cases hm
  · have hm' : byteMode m = false := by simpa using hm
    unfold fine at hf
    rw [if_neg hm] at hf
    have vals : ∀ op r', opOf pre b m = some op → Vals pre b addr m [] r' op ∧ op.mode = pmode pre b m := by
      intro op r' ho
      have h2 : pmode pre b m = ((opOf pre b m).map (·.mode)).getD .UNDEF := by cases m <;> first | rfl | cases hm'
      refine ⟨?_, ?_⟩
      · cases m <;> first | exact ⟨rfl, ho⟩ | cases hm'
      · rw [h2, ho]; rfl
    cases hx : textOf pre b m with
    | some x =>
      rw [word_text hx] at h ⊢
      obtain ⟨op, h1, h2, h3⟩ := word_operand (E := E) (addr := addr) (o := o) hx hf
      exact ⟨op, ⟨h2, (vals op r h1).2, [], Took.refl h, by decide, (vals op r h1).1⟩, h3⟩
    | none =>
      unfold textFine at hf
      rw [hx] at hf
      obtain ⟨v, hv⟩ := Option.isSome_iff_exists.1 hf
      obtain ⟨_, h1, h2⟩ := num_text (addr := addr) (o := o) (pre := pre) (r := r) hb hv
      rw [h1] at h ⊢
      have ho : opOf pre b m = some { mode := .IM16, val := ⟨v, .unsigned⟩ } := by
        unfold opOf
        rw [hx, hv]
        rfl
      exact ⟨_, ⟨rfl, (vals _ r ho).2, [], Took.refl h, by decide, (vals _ r ho).1⟩, fun rest hr => num_reads h2 hr⟩

/-! ### What is emitted for an operand -/

/-- The bits a mode puts into the code. -/
def field (pre b : Nat) (m : Mode) : Option Nat :=
  let op := (opOf pre b m).getD {}
  match m with
  | .CC4 | .CC8 => some (op.val.getUnsigned % 256 * 8)
  | .R16 | .NOHL | .PTR => some (regNum op.reg * 16)
  | .R16X => some (encodePointerRegIx op.reg (decodeIndexReg pre) * 16)
  | .STK => some (encodeStackReg op.reg * 16)
  | .SRC | .SR8 => some (encodeDataReg op.reg)
  | .DST | .DR8 => some (encodeDataReg op.reg * 8)
  | .R .R => some 8
  | .VEC => some (b / 8 % 8 * 8)
  | .BIT => some (b / 8 % 8 * 8)
  | .IMMD => if b / 8 % 4 - 1 = 0 then none else if b / 8 % 4 - 1 = 1 then some 16 else some 24
  | _ => none

/-- The code with the bits. -/
def emb (f : Option Nat) (c : Nat) : Nat :=
  match f with
  | some f => (c ||| f) % 256
  | none => c

/-- The modes that set the prefix. -/
def isIdx (m : Mode) : Bool := decide (m = .IDX ∨ m = .RIDX ∨ m = .IIDX)

/-- The prefix after an operand. -/
def prefixAfter (pre : Nat) (m : Mode) (p : Nat) : Nat := if isIdx m then pre else p

theorem getUnsigned_nat {v : Nat} (h : v < 65536) :
    (⟨v, .unsigned⟩ : Value).getUnsigned = v := getUnsigned_num (by omega)

theorem index_prefix {pre : Nat} (h : (decodeIndexReg pre).isSome = true) :
    indexPrefix (decodeIndexReg pre) = pre := by
  unfold decodeIndexReg at h ⊢
  split at h
  · rename_i hp
    rw [if_pos hp, hp]
    rfl
  · rename_i hp
    rw [if_neg hp]
    split at h
    · rename_i hq
      rw [if_pos hq, hq]
      rfl
    · cases h

theorem offset_byte {v : Nat} (h : v < 256) :
    (Value.setS (int8 v)).overflowInt8 = false ∧ (Value.setS (int8 v)).getUnsigned % 256 = v :=
  (by decide +kernel : ∀ v < 256, (Value.setS (int8 v)).overflowInt8 = false ∧
    (Value.setS (int8 v)).getUnsigned % 256 = v) v h

theorem emit_one {pre b : Nat} {m : Mode} {r r' : Rd} {op other : Operand} {i : Ins} (hb : b < 256)
    (ha : addr < 65536) (hf : fine pre b m = true) (h : Rel pre b addr m r r' op)
    (hx : m = .R16X → other.reg = decodeIndexReg pre) (hrel : m = .REL → r'.bytes.length = 2)
    (hi : i.asm.err = .OK) :
    ∃ bs, Took r r' bs ∧ (byteMode m = false → bs = []) ∧ encodeOperand addr false m op other i =
      .ok ⟨⟨.OK, emb (field pre b m) i.asm.opc, i.asm.ops ++ bs⟩, prefixAfter pre m i.pre⟩ := by
  obtain ⟨⟨e, c, ops⟩, p⟩ := i
  have hi : e = .OK := hi
  subst hi
  obtain ⟨k1, k2, bs, k3, k4, k5⟩ := h
  refine ⟨bs, k3, ?_⟩
  unfold encodeOperand
  rw [k1, Asm.noError]
  dsimp only
  by_cases hm : byteMode m = true
  · refine ⟨fun hn => absurd hm (by rw [hn]; decide), ?_⟩
    unfold fine at hf
    rw [if_pos hm] at hf
    cases m with
    | IM8 =>
      obtain ⟨v, h1, h2, h3⟩ := k5
      rw [h3, show (⟨v, .unsigned⟩ : Value).overflowUint8 = false from
        overflow_num (by omega) (by omega) (by omega), getUnsigned_nat (by omega), h2]
      show Out.ok _ = _
      unfold Asm.emit8
      rw [show v % 256 = v by omega]
      rfl
    | IOA =>
      obtain ⟨v, h1, h2, h3⟩ := k5
      rw [h3, show (⟨v, .unsigned⟩ : Value).overflow 255 0 = false from
        overflow_num (by omega) (by omega) (by omega), getUnsigned_nat (by omega), h2]
      show Out.ok _ = _
      unfold Asm.emit8
      rw [show v % 256 = v by omega]
      rfl
    | IM16 | ABS =>
      obtain ⟨v, h1, h2, h3⟩ := k5
      rw [h3, getUnsigned_nat h1, h2]
      show Out.ok _ = _
      unfold Asm.emit16le
      rw [show v / 256 % 256 = v / 256 by omega]
      rfl
    | IDX =>
      obtain ⟨v, h1, h2, h3, h4⟩ := k5
      have hs : (decodeIndexReg pre).isSome = true := by simpa using hf
      rw [h3, (offset_byte h1).1, h4, index_prefix hs, if_neg (by decide), h2]
      show Out.ok _ = _
      unfold Asm.emit8
      rw [(offset_byte h1).2]
      rfl
    | REL =>
      obtain ⟨v, w, h1, h2, h3, h4, h5⟩ := k5
      rw [hrel rfl] at h4
      have e : (⟨.OK, c, ops⟩ : Asm).rel8 16 (addr + 2) w = .ok ⟨.OK, c, ops ++ [v]⟩ :=
        Asm.rel8_near (by decide) (by decide) h1 (by unfold Config.W; omega) (by omega) (by omega) rfl
      rw [h5, getUnsigned_nat h2, h3]
      show (((⟨.OK, c, ops⟩ : Asm).rel8 16 (addr + 2) w).bind _) = _
      rw [e]
      rfl
    | _ => cases hm
  · have hm' : byteMode m = false := by simpa using hm
    have k5 : bs = [] ∧ opOf pre b m = some op := by cases m <;> first | exact k5 | cases hm'
    obtain ⟨rfl, k6⟩ := k5
    refine ⟨fun _ => rfl, ?_⟩
    unfold fine at hf
    rw [if_neg hm] at hf
    have ho : (opOf pre b m).getD {} = op := by rw [k6]; rfl
    rw [List.append_nil]
    have idxop : ∀ q, textOf pre b m = (decodeIndexReg pre).map (fun r => (q, regText regs r)) → numOf b m = none →
        (q = false → m = .RIDX) → (q = true → m = .IIDX) → indexPrefix op.reg = pre := by
      intro q h1 h2 h3 h4
      cases hd : decodeIndexReg pre with
      | none =>
        rw [hd] at h1
        unfold opOf at k6
        rw [h1, h2] at k6
        cases k6
      | some rr =>
        rw [hd] at h1
        have hr : rr = .IX ∨ rr = .IY := (index_text hd (.default '$')).1
        have : op.reg = some rr := by
          unfold opOf at k6
          rw [h1] at k6
          dsimp only [Option.map] at k6
          have : ∀ q, ∀ rr ∈ [Reg.IX, Reg.IY], (wordOperand q (regText regs rr)).map (·.reg) = some (some rr) := by
            decide +kernel
          have := this q rr (by rcases hr with rfl | rfl <;> simp)
          rw [k6] at this
          injection this
        rw [this, ← hd]
        exact index_prefix (by rw [hd]; rfl)
    cases m with
    | CC4 | CC8 | R16 | NOHL | PTR | STK | SRC | SR8 | DST | DR8 => unfold field; rw [ho]; rfl
    | R16X => unfold field; rw [ho, hx rfl]; rfl
    | RIDX =>
      rw [idxop false rfl rfl (fun _ => rfl) (fun h => by cases h)]
      rfl
    | IIDX =>
      rw [idxop true rfl rfl (fun h => by cases h) (fun _ => rfl)]
      rfl
    | VEC =>
      have : op = { mode := .IM16, val := ⟨b / 8 % 8 * 8, .unsigned⟩ } := by injection k6 with k6; exact k6.symm
      subst this
      dsimp only
      rw [getUnsigned_nat (by omega), if_neg]
      · rfl
      · exact (by decide +kernel : ∀ b < 256, ¬ ((b / 8 % 8 * 8) &&& notVec ≠ 0)) b hb
    | BIT =>
      have : op = { mode := .IM16, val := ⟨b / 8 % 8, .unsigned⟩ } := by injection k6 with k6; exact k6.symm
      subst this
      dsimp only
      rw [getUnsigned_nat (by omega), show (⟨b / 8 % 8, .unsigned⟩ : Value).overflow 7 0 = false from
        overflow_num (by omega) (by omega) (by omega), show b / 8 % 8 % 8 = b / 8 % 8 by omega]
      rfl
    | IMMD =>
      have : op = { mode := .IM16, val := ⟨b / 8 % 4 - 1, .unsigned⟩ } := by injection k6 with k6; exact k6.symm
      subst this
      dsimp only
      rw [getUnsigned_nat (by omega)]
      unfold field
      dsimp only
      by_cases h0 : b / 8 % 4 - 1 = 0
      · rw [if_pos h0, if_pos h0]; rfl
      · rw [if_neg h0, if_neg h0]
        by_cases h1 : b / 8 % 4 - 1 = 1
        · rw [if_pos h1, if_pos h1]; rfl
        · rw [if_neg h1, if_neg h1, if_pos (by omega)]; rfl
    | R reg => cases reg <;> rfl
    | I reg => cases reg <;> rfl
    | NONE | IXB | UNDEF => rfl
    | _ => cases hm'

/-! ### The table -/

/-- Where a target of a branch may be. -/
def relOk (pre : Nat) (row : Row) : Bool :=
  match modes row with
  | [.REL] => decide (pre = 0)
  | [m, .REL] => decide (pre = 0) && !byteMode m
  | ms => decide (.REL ∉ ms)

/-- What the table has to say for the code `b` after the prefix `pre` and its entry. -/
def rowOk (pre b : Nat) (row : Row) : Bool :=
  decide ((modes row).length ≤ 2) && (modes row).all (fun m => decide (m ≠ .NONE) && fine pre b m) &&
  relOk pre row && decide (.R16X ∉ modes row ∨ modes row = [.RIDX, .R16X]) && !indexBit row &&
  decide (emb (field pre b (src row)) (emb (field pre b (dst row)) row.opcode) = b)

/-- The entry that is found is this one, in a page whose prefix comes out right. -/
def nameOk (pre b : Nat) (row : Row) (up : Bool) : Bool :=
  nameB syntaxOf (row.name.map (letter up)) &&
  match searchName (row.name.map (letter up)) (((modes row).map (pmode pre b)).headD .NONE)
      ((((modes row).map (pmode pre b)).drop 1).headD .NONE) with
  | .ok (.ok (p, r)) => decide (r = row) &&
      decide (prefixAfter pre (src row) (prefixAfter pre (dst row) p) = pre)
  | _ => false

/-- What the table has to say for a code. -/
def codeOk (pre b : Nat) : Bool :=
  match searchOpCode pre b with
  | none => true
  | some row =>
    if dst row = .IXB then (decodeIndexReg pre).isSome && decide (b = 0xcb)
    else rowOk pre b row && nameOk pre b row false && nameOk pre b row true

/-- The entry of an operation on a bit of an indexed byte. -/
def bitEntry (code : Nat) (row : Row) (up : Bool) : Bool :=
  nameB syntaxOf (row.name.map (letter up)) &&
  match searchName (row.name.map (letter up)) (if dst row = .BIT then .IM16 else .IDX)
      (if dst row = .BIT then .IDX else .NONE) with
  | .ok (.ok (p, r)) => decide (p = 0xcb) && indexBit r &&
      (if dst row = .BIT then decide (dst r = .BIT ∧ src r = .IDX) && decide ((r.opcode ||| code / 8 % 8 * 8) % 256 = code)
      else decide (dst r = .IDX ∧ src r = .NONE) && decide (r.opcode = code))
  | _ => false

/-- What the table has to say for a code after the prefix and an offset. -/
def bitOk (code : Nat) : Bool :=
  match searchOpCode 0xcb code with
  | none => true
  | some row => decide (decodeDataReg code ≠ .HL) || (bitEntry code row false && bitEntry code row true)

theorem codes_00 : ∀ b < 256, isPrefix b = true ∨ codeOk 0 b = true := by decide +kernel
theorem codes_cb : ∀ b < 256, codeOk 0xcb b = true := by decide +kernel
theorem codes_ed : ∀ b < 256, codeOk 0xed b = true := by decide +kernel
theorem codes_dd : ∀ b < 256, codeOk 0xdd b = true := by decide +kernel
theorem codes_fd : ∀ b < 256, codeOk 0xfd b = true := by decide +kernel
theorem bits_ok : ∀ b < 256, bitOk b = true := by decide +kernel

theorem prefixes : ∀ b < 256, isPrefix b = true → b = 0xcb ∨ b = 0xed ∨ b = 0xdd ∨ b = 0xfd := by decide +kernel

end Libasm.Cpu.Z80
