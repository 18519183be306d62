import Verif.Cpu.Back
import Verif.Cpu.Cdp1802.Props
/-
C29 for the CDP1802 family: whatever line the assembler takes, the disassembler reads the bytes of it as
one instruction of the same name, but for the instructions that share a code.
-/
namespace Libasm.Cpu.Cdp1802
open Scan Number Eval
open Tables (Row)

/-! ### Specification -/

/-- Names of the same instruction. With smart branches the short and the long branch are one. -/
def synonyms (smart : Bool) : List (List String) :=
  [["SHRC", "RSHR"], ["SHLC", "RSHL"], ["BDF", "BPZ", "BGE"], ["BNF", "BM", "BL"],
   ["LBDF", "LBPZ", "LBGE"], ["LBNF", "LBM", "LBL"]] ++
  if smart then
    [["BR", "LBR"], ["BQ", "LBQ"], ["BZ", "LBZ"], ["BDF", "BPZ", "BGE", "LBDF", "LBPZ", "LBGE"],
     ["BNQ", "LBNQ"], ["BNZ", "LBNZ"], ["BNF", "BM", "BL", "LBNF", "LBM", "LBL"]]
  else []

/-- The line has the name of the instruction or of a synonym of it. -/
def WrittenLike (smart : Bool) (line name : List Char) : Prop :=
  WrittenAs line name ∨
  ∃ group ∈ synonyms smart, ∃ a ∈ group, ∃ b ∈ group,
    WrittenAs line a.toList ∧ Table.Spec.Same b.toList name

/-- Instructions whose code may be that of another instruction, and the code: see the theorems
`C29_violated_*`. -/
def shared : List (String × Nat) := [("NBR", 0x38), ("NLBR", 0xc8), ("LDN", 0), ("OUT", 0x60), ("INP", 0x68)]

/-- Those of `shared` whose bytes are not read back. -/
def lost : List (String × Nat) := [("NBR", 0x38), ("NLBR", 0xc8), ("INP", 0x68)]

/-! ### Encoding -/

/-- The codes an operand may lead to, each with the number of bytes after it. -/
def codes (smart : Bool) (m : Mode) (opc : Nat) : List (Nat × Nat) :=
  match m with
  | .REGN | .REG1 => (List.range 16).map fun x => (opc ||| x, 0)
  | .IOAD => (List.range 8).map fun x => (opc ||| x, 0)
  | .IMM8 | .PAGE => [(opc, 1)]
  | .ADDR => [(opc, 2)]
  | .SHRT => if smart then [(0x30 + opc % 16, 1), (0xc0 + opc % 16, 2)] else [(opc, 1)]
  | .LONG => if smart then [(0x30 + opc % 16, 1), (0xc0 + opc % 16, 2)] else [(opc, 2)]
  | .NONE | .UNDEF => [(opc, 0)]

/-- The prefix byte. -/
def prefixBytes (pre : Nat) : List Nat := if pre ≠ 0 then [pre] else []

/-- The bytes: the code, and those of the operand. -/
def Emitted (smart : Bool) (m : Mode) (pre opc : Nat) (a : Asm) : Prop :=
  ∃ c ∈ codes smart m opc, ∃ bs, a.bytes = prefixBytes pre ++ (c.1 :: bs) ∧ bs.length = c.2 ∧
    ∀ b ∈ bs, b < 256

theorem emitInsn_bytes {a : Asm} (hp : a.pre < 256) (ho : a.opc < 256) (hb : a.bytes = []) :
    a.emitInsn.bytes = prefixBytes a.pre ++ [a.opc] := by
  unfold Asm.emitInsn prefixBytes
  dsimp only
  rw [hb, Nat.mod_eq_of_lt ho, Nat.mod_eq_of_lt hp, List.nil_append]

theorem overflow_le {v : Value} {max : Nat} (hm : max ≤ 2147483647) (h : v.overflow max 0 = false) :
    v.getUnsigned ≤ max := by
  unfold Value.overflow at h
  split at h
  · cases h
  · split at h
    · simpa using h
    · split at h
      · simpa using h
      · simp only [Bool.or_eq_false_iff, Bool.and_eq_false_iff, decide_eq_false_iff_not] at h
        unfold Value.getSigned at h
        unfold Value.getUnsigned
        dsimp only at h
        split at h <;> omega

theorem emitted_reg {smart : Bool} {m : Mode} {pre opc : Nat} {e : Err} (op : Operand) (val : Value)
    (hm : m = .REGN ∨ m = .REG1) (hp : pre < 256) (ho : opc < 256) :
    Emitted smart m pre opc (emitReg op val ⟨e, pre, opc, []⟩) := by
  have fin : ∀ x e', x ≤ 15 → Emitted smart m pre opc ((Asm.mk e' pre opc []).embed x).emitInsn := by
    intro x e' hx
    have hlt : opc ||| x < 256 := Nat.or_lt_two_pow (n := 8) ho (by omega)
    refine ⟨(opc ||| x, 0), ?_, [], ?_, rfl, by simp⟩
    · rcases hm with rfl | rfl <;> exact List.mem_map.2 ⟨x, List.mem_range.2 (by omega), rfl⟩
    · rw [emitInsn_bytes hp (Nat.mod_lt _ (by decide)) rfl]
      show _ ++ [(opc ||| x) % 256] = _
      rw [Nat.mod_eq_of_lt hlt]
      rfl
  unfold emitReg
  dsimp only
  generalize orElse op val 7 = v
  by_cases h : v.overflow 15 0 = true
  · rw [if_pos h]
    exact fin 7 (Config.setErrorIf e .ILLEGAL_REGISTER) (by decide)
  · rw [if_neg h]
    exact fin _ e (overflow_le (by decide) (by simpa using h))

theorem emitted_intra {smart : Bool} {m : Mode} {pre opc opc' target : Nat} {e : Err} (hp : pre < 256)
    (ho : opc' < 256) (hc : (opc', 1) ∈ codes smart m opc) :
    Emitted smart m pre opc (intraPage target ⟨e, pre, opc', []⟩) := by
  refine ⟨_, hc, [target % 256], ?_, rfl, ?_⟩
  · show (Asm.mk e pre opc' []).emitInsn.bytes ++ [target % 256] = _
    rw [emitInsn_bytes hp ho rfl, List.append_assoc]
    rfl
  · intro b hb
    rw [List.mem_singleton.1 hb]
    omega

theorem emitted_inter {smart : Bool} {m : Mode} {pre opc opc' : Nat} {op : Operand} {e : Err} (hp : pre < 256)
    (ho : opc' < 256) (hc : (opc', 2) ∈ codes smart m opc) :
    Emitted smart m pre opc (interPage op ⟨e, pre, opc', []⟩) := by
  refine ⟨_, hc, [op.val.getUnsigned / 256 % 256, op.val.getUnsigned % 256], ?_, rfl, ?_⟩
  · show ((Asm.mk e pre opc' []).setErrorIf _).emitInsn.bytes ++ _ = _
    rw [emitInsn_bytes hp ho rfl, List.append_assoc]
    rfl
  · intro b hb
    simp only [List.mem_cons, List.not_mem_nil, or_false] at hb
    omega

theorem emitted_page {smart : Bool} {addr : Nat} {m : Mode} {op : Operand} {pre opc : Nat} {e : Err} {a : Asm}
    (hm : m = .PAGE ∨ m = .ADDR ∨ m = .SHRT ∨ m = .LONG) (hp : pre < 256) (ho : opc < 256)
    (h : encodePage smart addr m op ⟨e, pre, opc, []⟩ = .ok a) : Emitted smart m pre opc a := by
  unfold encodePage at h
  dsimp only at h
  obtain ⟨e', h1, h2⟩ := bind_ok h
  split at h2
  · rename_i hc
    injection h2 with h2
    subst h2
    refine emitted_intra (e := Config.setErrorIf e e') hp ho ?_
    rcases hc with rfl | ⟨rfl, rfl⟩ <;> simp [codes]
  · rename_i hc1
    split at h2
    · rename_i hc
      injection h2 with h2
      subst h2
      refine emitted_inter hp ho ?_
      rcases hc with rfl | ⟨rfl, rfl⟩ <;> simp [codes]
    · rename_i hc2
      have hs : smart = true ∧ (m = .SHRT ∨ m = .LONG) := by
        revert hc1 hc2 hm
        cases smart <;> cases m <;> decide
      obtain ⟨rfl, hs⟩ := hs
      split at h2
      · injection h2 with h2
        subst h2
        refine emitted_inter hp (by omega) ?_
        rcases hs with rfl | rfl <;> simp [codes]
      · injection h2 with h2
        subst h2
        refine emitted_intra hp (by omega) ?_
        rcases hs with rfl | rfl <;> simp [codes]

theorem emitted {smart : Bool} {addr : Nat} {m : Mode} {op : Operand} {pre opc : Nat} {e : Err} {a : Asm}
    (hp : pre < 256) (ho : opc < 256) (h : emitOperand smart addr m op ⟨e, pre, opc, []⟩ = .ok a) :
    Emitted smart m pre opc a := by
  unfold emitOperand at h
  cases m with
  | REG1 =>
    dsimp only at h
    split at h
    · injection h with h
      subst h
      exact emitted_reg op _ (Or.inr rfl) hp ho
    · injection h with h
      subst h
      exact emitted_reg op _ (Or.inr rfl) hp ho
  | REGN =>
    injection h with h
    subst h
    exact emitted_reg op _ (Or.inl rfl) hp ho
  | IMM8 =>
    injection h with h
    subst h
    refine ⟨(opc, 1), by simp [codes], [op.val.getUnsigned % 256], ?_, rfl, ?_⟩
    · split <;>
      · show Asm.bytes (Asm.emitInsn _) ++ [op.val.getUnsigned % 256] = _
        rw [emitInsn_bytes hp ho rfl, List.append_assoc]
        rfl
    · intro b hb
      rw [List.mem_singleton.1 hb]
      omega
  | PAGE => exact emitted_page (Or.inl rfl) hp ho h
  | ADDR => exact emitted_page (Or.inr (Or.inl rfl)) hp ho h
  | SHRT => exact emitted_page (Or.inr (Or.inr (Or.inl rfl))) hp ho h
  | LONG => exact emitted_page (Or.inr (Or.inr (Or.inr rfl))) hp ho h
  | IOAD =>
    have fin : ∀ x e', x ≤ 7 → Emitted smart .IOAD pre opc ((Asm.mk e' pre opc []).embed x).emitInsn := by
      intro x e' hx
      have hlt : opc ||| x < 256 := Nat.or_lt_two_pow (n := 8) ho (by omega)
      refine ⟨(opc ||| x, 0), List.mem_map.2 ⟨x, List.mem_range.2 (by omega), rfl⟩, [], ?_, rfl, by simp⟩
      rw [emitInsn_bytes hp (Nat.mod_lt _ (by decide)) rfl]
      show _ ++ [(opc ||| x) % 256] = _
      rw [Nat.mod_eq_of_lt hlt]
      rfl
    dsimp only at h
    generalize orElse op op.val 1 = v at h
    split at h
    · injection h with h
      subst h
      exact fin 1 (Config.setErrorIf (Config.setErrorIf e op.err) .OPERAND_NOT_ALLOWED) (by decide)
    · rename_i hc
      injection h with h
      subst h
      simp only [Bool.or_eq_true, not_or] at hc
      exact fin _ (Config.setErrorIf e op.err) (overflow_le (by decide) (by simpa using hc.2))
  | NONE | UNDEF =>
    injection h with h
    subst h
    refine ⟨(opc, 0), by simp [codes], [], ?_, rfl, by simp⟩
    rw [emitInsn_bytes hp ho rfl]
    rfl

/-! ### Decoding -/

theorem byte_some {b : Nat} {mem bytes : List Nat} (hb : b < 256) :
    (⟨b :: mem, bytes, .OK⟩ : Rd).byte = (b, ⟨mem, bytes ++ [b], .OK⟩) := by
  unfold Rd.byte
  dsimp only
  rw [Nat.mod_eq_of_lt hb]

/-- The bytes after the code that an operand takes. -/
def size : Mode → Nat
  | .IMM8 | .PAGE | .SHRT => 1
  | .ADDR | .LONG => 2
  | _ => 0

/-- The bytes after the code that the disassembler reads. -/
def sizes (row : Row) : Nat :=
  if (flags row).1 = .NONE then 0 else size (flags row).1 + size (flags row).2

theorem decoded (o : Opts) (useReg : Bool) (addr opc : Nat) (m : Mode) {bs mem bytes : List Nat}
    (hl : bs.length = size m) (hb : ∀ b ∈ bs, b < 256) :
    (decodeOperand o useReg addr opc m ⟨bs ++ mem, bytes, .OK⟩).2 = ⟨mem, bytes ++ bs, .OK⟩ := by
  have none : bs.length = 0 → (⟨bs ++ mem, bytes, .OK⟩ : Rd) = ⟨mem, bytes ++ bs, .OK⟩ := by
    intro h
    rw [List.length_eq_zero_iff.1 h, List.nil_append, List.append_nil]
  have one : bs.length = 1 → (⟨bs ++ mem, bytes, .OK⟩ : Rd).byte.2 = ⟨mem, bytes ++ bs, .OK⟩ := by
    intro h
    obtain ⟨b, rfl⟩ := List.length_eq_one_iff.1 h
    rw [List.singleton_append, byte_some (hb b (List.mem_cons_self ..))]
  have two : bs.length = 2 → (⟨bs ++ mem, bytes, .OK⟩ : Rd).be16.2 = ⟨mem, bytes ++ bs, .OK⟩ := by
    intro h
    obtain ⟨b, c, rfl⟩ : ∃ b c, bs = [b, c] := by
      match bs, h with
      | [b, c], _ => exact ⟨b, c, rfl⟩
    unfold Rd.be16
    rw [List.cons_append, List.singleton_append, byte_some (hb b (List.mem_cons_self ..))]
    dsimp only
    rw [byte_some (hb c (by simp)), List.append_assoc]
    rfl
  cases m with
  | IMM8 | PAGE | SHRT => exact one hl
  | ADDR | LONG => exact two hl
  | NONE | UNDEF | IOAD => exact none hl
  | REGN | REG1 =>
    unfold decodeOperand
    dsimp only
    split <;> exact none hl

theorem decodedInsn (o : Opts) (useReg : Bool) {cpu : CpuType} {addr pre opc : Nat} {row : Row}
    (hs : searchOpCode cpu pre opc = some row) {bs mem bytes : List Nat} {e : Err}
    (hl : bs.length = sizes row) (hb : ∀ b ∈ bs, b < 256) :
    (decodeInsn o useReg cpu addr pre opc ⟨bs ++ mem, bytes, e⟩).err = .OK ∧
    (decodeInsn o useReg cpu addr pre opc ⟨bs ++ mem, bytes, e⟩).bytes = bytes ++ bs ∧
    (decodeInsn o useReg cpu addr pre opc ⟨bs ++ mem, bytes, e⟩).name = outText o row.name := by
  unfold decodeInsn
  rw [hs]
  dsimp only
  unfold sizes at hl
  by_cases h1 : (flags row).1 = .NONE
  · rw [if_pos h1] at hl
    rw [if_pos h1, List.length_eq_zero_iff.1 hl, List.append_nil]
    exact ⟨rfl, rfl, rfl⟩
  · rw [if_neg h1] at hl
    rw [if_neg h1]
    have e1 : bs = bs.take (size (flags row).1) ++ bs.drop (size (flags row).1) := (List.take_append_drop ..).symm
    have l1 : (bs.take (size (flags row).1)).length = size (flags row).1 := by
      rw [List.length_take]; omega
    have l2 : (bs.drop (size (flags row).1)).length = size (flags row).2 := by
      rw [List.length_drop]; omega
    have m1 : ∀ b ∈ bs.take (size (flags row).1), b < 256 := fun b h => hb b (List.mem_of_mem_take h)
    have m2 : ∀ b ∈ bs.drop (size (flags row).1), b < 256 := fun b h => hb b (List.mem_of_mem_drop h)
    generalize bs.take (size (flags row).1) = x at *
    generalize bs.drop (size (flags row).1) = y at *
    subst e1
    rw [List.append_assoc, decoded o useReg addr opc _ l1 m1]
    by_cases h2 : (flags row).2 = .NONE
    · rw [if_pos h2]
      rw [h2] at l2
      have : y = [] := List.length_eq_zero_iff.1 l2
      subst this
      rw [List.append_nil]
      exact ⟨rfl, rfl, rfl⟩
    · rw [if_neg h2]
      dsimp only
      rw [decoded o useReg addr opc _ l2 m2, List.append_assoc]
      exact ⟨rfl, rfl, rfl⟩

/-! ### The instruction table -/

/-- Two names of the table are synonyms. -/
def alike (smart : Bool) (a b : List Char) : Bool :=
  a == b || (synonyms smart).any fun group => (group.map String.toList).contains a && (group.map String.toList).contains b

/-- What the row of the page of prefix `pre` can be encoded to is read as a row of the same name and
length. -/
def rowB (smart : Bool) (cpu : CpuType) (pre : Nat) (r : Row) : Bool :=
  decide (r.opcode < 256) && decide ('\x00' ∉ r.name) && decide (r.name.length < 11) && decide ('=' ∉ r.name) &&
  (pre == 0 || (isPrefix cpu pre && decide (pre < 256))) &&
  (codes smart (flags r).1 r.opcode).all fun c =>
    decide (c.1 < 256) &&
    ((pre == 0 && (lost.map fun x => (x.1.toList, x.2)).contains (r.name, c.1)) ||
    (pre != 0 || !isPrefix cpu c.1) &&
    match searchOpCode cpu pre c.1 with
    | none => false
    | some r' => sizes r' == c.2 + (if (flags r).2 = .ADDR then 2 else 0) &&
      (pre == 0 && (shared.map fun x => (x.1.toList, x.2)).contains (r.name, c.1) || alike smart r.name r'.name))

theorem rows_ok (smart : Bool) (cpu : CpuType) :
    ((pages cpu).all fun p => p.entries.all fun r => rowB smart cpu p.prefix_ r) = true := by
  cases cpu <;> cases smart <;> decide +kernel

theorem alnum (c : Char) (h : Ctype.isAlnum c = true) : syntaxOf.instructionLetter c = true := by
  show (symbolLetter false c || c == '=') = true
  rw [symbolLetter_alnum h]
  rfl

theorem terminator (c : Char) (h : syntaxOf.instructionTerminator c = true) : c = '=' := by
  simpa [syntaxOf] using h

theorem written_alike {smart : Bool} {line a b c : List Char} (h : WrittenAs line a) (hab : alike smart a b = true)
    (hbc : Table.Spec.Same b c) : WrittenLike smart line c := by
  unfold alike at hab
  simp only [Bool.or_eq_true, beq_iff_eq, List.any_eq_true, Bool.and_eq_true, List.contains_iff_mem] at hab
  rcases hab with rfl | ⟨g, hg, h1, h2⟩
  · exact Or.inl (h.letters hbc)
  · obtain ⟨x, x1, x2⟩ := List.mem_map.1 h1
    obtain ⟨y, y1, y2⟩ := List.mem_map.1 h2
    exact Or.inr ⟨g, hg, x, x1, y, y1, by rw [x2]; exact h, by rw [y2]; exact hbc⟩

/-- The bytes of a line come back as one instruction, but for those in `lost`; the name is the one of the line or a
synonym, but for those in `shared`. -/
theorem line_back {E : Env} {useReg smart : Bool} {cpu : CpuType} {addr : Nat} {line : List Char}
    {bytes : List Nat} {rest : Scan}
    (h : assemble E useReg smart cpu addr line = .ok (.insn ⟨.OK, bytes, rest⟩))
    (hlost : ∀ x ∈ [("NBR", 0x38), ("NLBR", 0xc8), ("INP", 0x68)], bytes.head? = some x.2 → ¬ WrittenAs line x.1.toList)
    (o : Opts) (reg : Bool) (more : List Nat) :
    (disassemble o reg cpu addr (bytes ++ more)).err = .OK ∧
    (disassemble o reg cpu addr (bytes ++ more)).bytes = bytes ∧
    ((∀ x ∈ [("NBR", 0x38), ("NLBR", 0xc8), ("LDN", 0), ("OUT", 0x60), ("INP", 0x68)],
      bytes.head? = some x.2 → ¬ WrittenAs line x.1.toList) →
      WrittenLike smart line (disassemble o reg cpu addr (bytes ++ more)).name) := by
  obtain ⟨word, scan, hi, haddr, hw, blanks, tail, hline, hblank⟩ :=
    encode_line_inv (by decide) rfl h
  obtain ⟨op1, op2, s2, hins⟩ : ∃ op1 op2 s2,
      encodeInsn smart cpu addr (word.take 11) op1 op2 s2 = .ok ⟨.OK, bytes, rest⟩ := by
    unfold encodeImpl at hi
    obtain ⟨⟨op1, s1⟩, d1, d2⟩ := bind_ok hi
    dsimp only at d2
    split at d2
    · rename_i he
      injection d2 with d2
      injection d2 with d2
      rw [d2] at he
      exact absurd he (by decide)
    · split at d2
      · obtain ⟨⟨op2, s2⟩, e1, e2⟩ := bind_ok d2
        dsimp only at e2
        split at e2
        · rename_i he
          injection e2 with e2
          injection e2 with e2
          rw [e2] at he
          exact absurd he (by decide)
        · exact ⟨op1, op2, _, e2⟩
      · exact ⟨op1, {}, _, d2⟩
  clear hi h
  unfold encodeInsn at hins
  obtain ⟨x, f1, f2⟩ := bind_ok hins
  unfold searchName at f1
  split at f1
  · rename_i pre row hs
    injection f1 with f1
    subst f1
    dsimp only at f2
    obtain ⟨a, g1, g2⟩ := bind_ok f2
    obtain ⟨p, hp, rfl, hrow, hcmp, hacc⟩ := searchName_mem hs
    have hB : rowB smart cpu p.prefix_ row = true :=
      List.all_eq_true.1 (List.all_eq_true.1 (rows_ok smart cpu) p hp) row hrow
    unfold rowB at hB
    simp only [Bool.and_eq_true, decide_eq_true_eq, Bool.or_eq_true, beq_iff_eq] at hB
    obtain ⟨⟨⟨⟨⟨b1, b2⟩, b3⟩, beq⟩, b4⟩, b5⟩ := hB
    have hpre : p.prefix_ < 256 := by
      rcases b4 with b4 | b4
      · rw [b4]; decide
      · exact b4.2
    obtain ⟨c, hc, bs, hbytes, hl, hb⟩ := emitted hpre b1 g1
    have hname : WrittenAs line row.name := written alnum terminator hw b2 b3 hcmp beq hline hblank
    -- all bytes after the code
    obtain ⟨bs', hbytes', hl', hb'⟩ : ∃ bs', bytes = prefixBytes p.prefix_ ++ (c.1 :: bs') ∧
        bs'.length = c.2 + (if (flags row).2 = .ADDR then 2 else 0) ∧ ∀ b ∈ bs', b < 256 := by
      split at g2
      · rename_i hadr
        injection g2 with g2
        injection g2 with g2 g3 g4
        refine ⟨bs ++ [op2.val.getUnsigned / 256 % 256, op2.val.getUnsigned % 256], ?_, ?_, ?_⟩
        · rw [← g3]
          show a.bytes ++ _ = _
          rw [hbytes, List.append_assoc]
          rfl
        · rw [List.length_append, hl, if_pos hadr]
          rfl
        · intro b hx
          rcases List.mem_append.1 hx with hx | hx
          · exact hb b hx
          · simp only [List.mem_cons, List.not_mem_nil, or_false] at hx
            omega
      · rename_i hadr
        injection g2 with g2
        injection g2 with g2 g3 g4
        exact ⟨bs, by rw [← g3, hbytes], by rw [hl, if_neg hadr]; rfl, hb⟩
    clear hbytes hl hb g2 g1
    have b5 := List.all_eq_true.1 b5 c hc
    simp only [Bool.and_eq_true, decide_eq_true_eq, Bool.or_eq_true, beq_iff_eq, bne_iff_ne,
      Bool.not_eq_true'] at b5
    obtain ⟨hopc, b5⟩ := b5
    have hnl : ¬ (p.prefix_ = 0 ∧ (lost.map fun x => (x.1.toList, x.2)).contains (row.name, c.1) = true) := by
      rintro ⟨n0, n1⟩
      obtain ⟨y, n5, n6⟩ := List.mem_map.1 (List.contains_iff_mem.1 n1)
      injection n6 with n6 n7
      refine hlost y n5 ?_ (by rw [n6]; exact hname)
      rw [hbytes', n0, n7]
      rfl
    have hnx : (∀ x ∈ [("NBR", 0x38), ("NLBR", 0xc8), ("LDN", 0), ("OUT", 0x60), ("INP", 0x68)],
        bytes.head? = some x.2 → ¬ WrittenAs line x.1.toList) →
        ¬ (p.prefix_ = 0 ∧ (shared.map fun x => (x.1.toList, x.2)).contains (row.name, c.1) = true) := by
      rintro hx ⟨n0, n1⟩
      obtain ⟨y, n5, n6⟩ := List.mem_map.1 (List.contains_iff_mem.1 n1)
      injection n6 with n6 n7
      refine hx y n5 ?_ (by rw [n6]; exact hname)
      rw [hbytes', n0, n7]
      rfl
    obtain ⟨b6, b7⟩ := b5.resolve_left hnl
    cases hso : searchOpCode cpu p.prefix_ c.1 with
    | none => rw [hso] at b7; cases b7
    | some row' =>
      rw [hso] at b7
      simp only [Bool.and_eq_true, beq_iff_eq, Bool.or_eq_true] at b7
      rw [hbytes'] at hnx
      unfold prefixBytes at hnx
      have hdis : ∀ mem, disassemble o reg cpu addr mem = decodeImpl o reg cpu addr mem := by
        intro mem
        unfold disassemble decode
        rw [haddr]
        rfl
      rw [hdis, hbytes']
      unfold decodeImpl prefixBytes
      by_cases hp0 : p.prefix_ = 0
      · rw [if_neg (not_not_intro hp0), List.nil_append] at hnx
        rw [if_neg (not_not_intro hp0), List.nil_append, List.cons_append, byte_some hopc]
        dsimp only
        have hnp : isPrefix cpu c.1 = false := b6.resolve_left (not_not_intro hp0)
        rw [hnp, if_neg (by decide)]
        rw [hp0] at hso
        obtain ⟨r1, r2, r3⟩ := decodedInsn o reg (addr := addr) hso (mem := more) (bytes := [] ++ [c.1]) (e := .OK)
          (hl'.trans b7.1.symm) hb'
        exact ⟨r1, r2, fun hx => by rw [r3]; exact written_alike hname (b7.2.resolve_left (hnx hx)) (outText_same o _)⟩
      · have hpp : isPrefix cpu p.prefix_ = true := (b4.resolve_left hp0).1
        rw [if_pos hp0, List.singleton_append] at hnx
        rw [if_pos hp0, List.singleton_append, List.cons_append, List.cons_append, byte_some hpre]
        dsimp only
        rw [hpp, if_pos rfl, byte_some hopc]
        dsimp only
        rw [if_neg (by decide)]
        obtain ⟨r1, r2, r3⟩ := decodedInsn o reg (addr := addr) hso (mem := more)
          (bytes := [] ++ [p.prefix_] ++ [c.1]) (e := .OK) (hl'.trans b7.1.symm) hb'
        exact ⟨r1, r2, fun hx => by rw [r3]; exact written_alike hname (b7.2.resolve_left (hnx hx)) (outText_same o _)⟩
  · rename_i e hs
    injection f1 with f1
    subst f1
    injection f2 with f2
    injection f2 with f2 f3 f4
    exact absurd f2 (searchName_err hs)
  · cases f1

/-- Whatever line is assembled without error, for any of the processors, with or without smart branches
and register names, at any address and with any symbols: the disassembler, with any options, reads the bytes
of it, whatever follows them, as one instruction, without error. It has the name written in the line or a
synonym of it.

Except for five instructions when their code is also that of another one: see the theorems
`C29_violated_*`. -/
theorem C29_cdp1802_partial {E : Env} {useReg smart : Bool} {cpu : CpuType} {addr : Nat} {line : List Char}
    {bytes : List Nat} {rest : Scan}
    (h : assemble E useReg smart cpu addr line = .ok (.insn ⟨.OK, bytes, rest⟩))
    (hx : ∀ x ∈ [("NBR", 0x38), ("NLBR", 0xc8), ("LDN", 0), ("OUT", 0x60), ("INP", 0x68)],
      bytes.head? = some x.2 → ¬ WrittenAs line x.1.toList)
    (o : Opts) (reg : Bool) (more : List Nat) :
    (disassemble o reg cpu addr (bytes ++ more)).err = .OK ∧
    (disassemble o reg cpu addr (bytes ++ more)).bytes = bytes ∧
    WrittenLike smart line (disassemble o reg cpu addr (bytes ++ more)).name := by
  obtain ⟨h1, h2, h3⟩ := line_back h (fun x hx' => hx x (by
    simp only [List.mem_cons, List.not_mem_nil, or_false] at hx'
    rcases hx' with rfl | rfl | rfl <;> decide)) o reg more
  exact ⟨h1, h2, h3 hx⟩

/-- `C29_cdp1802_partial` has something to say of operands of several kinds. -/
example :
    assemble noEnv true false .CDP1804 0x100 "  rldi R3, #1234 ; comment".toList =
      .ok (.insn ⟨.OK, [0x68, 0xc3, 0x12, 0x34], "; comment".toList⟩) ∧
    assemble noEnv true true .CDP1802 0x100 "bge #200".toList = .ok (.insn ⟨.OK, [0xc3, 2, 0], []⟩) := by
  decide +kernel

/-- The exception: `NBR` skips its operand, and is read as the one byte instruction `SKP`. -/
theorem C29_violated_nbr :
    assemble noEnv true false .CDP1802 0 "NBR #12".toList = .ok (.insn ⟨.OK, [0x38, 0x12], []⟩) ∧
    (disassemble (.default '*') true .CDP1802 0 [0x38, 0x12]).bytes = [0x38] ∧
    (disassemble (.default '*') true .CDP1802 0 [0x38, 0x12]).name = "SKP".toList := by
  decide +kernel

/-- The exception: `NLBR` is read as the one byte instruction `LSKP`. -/
theorem C29_violated_nlbr :
    assemble noEnv true false .CDP1802 0 "NLBR #1234".toList = .ok (.insn ⟨.OK, [0xc8, 0x12, 0x34], []⟩) ∧
    (disassemble (.default '*') true .CDP1802 0 [0xc8, 0x12, 0x34]).bytes = [0xc8] ∧
    (disassemble (.default '*') true .CDP1802 0 [0xc8, 0x12, 0x34]).name = "LSKP".toList := by
  decide +kernel

/-- The exception: register 0 is not allowed for `LDN` but an empty pair of parentheses is, and gives the
code of `IDL`. -/
theorem C29_violated_ldn :
    assemble noEnv true false .CDP1802 0 "LDN ()".toList = .ok (.insn ⟨.OK, [0], []⟩) ∧
    (disassemble (.default '*') true .CDP1802 0 [0]).name = "IDL".toList := by
  decide +kernel

/-- The exception: `OUT` to port `()` is `IRX`, and `INP` from port `()` is no instruction of the CDP1802
and a prefix of the CDP1804. -/
theorem C29_violated_port :
    assemble noEnv true false .CDP1802 0 "OUT ()".toList = .ok (.insn ⟨.OK, [0x60], []⟩) ∧
    (disassemble (.default '*') true .CDP1802 0 [0x60]).name = "IRX".toList ∧
    assemble noEnv true false .CDP1802 0 "INP ()".toList = .ok (.insn ⟨.OK, [0x68], []⟩) ∧
    (disassemble (.default '*') true .CDP1802 0 [0x68]).err = .UNKNOWN_INSTRUCTION ∧
    (disassemble (.default '*') true .CDP1804 0 [0x68]).err = .NO_MEMORY := by
  decide +kernel

end Libasm.Cpu.Cdp1802
