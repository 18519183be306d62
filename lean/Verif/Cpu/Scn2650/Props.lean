import Verif.Cpu.Back
import Verif.Cpu.Scn2650.Encode
/-
C77: what the scn2650 disassembler prints assembles to the bytes it read.
-/
namespace Libasm.Cpu.Scn2650
open Scan Number Number.Spec Eval
open Tables (Row)

theorem syntaxOk : SyntaxOk syntaxOf := by
  constructor
  · intro c hc
    exact Ctype.ascii (p := fun c => Ctype.isSpace c = true → syntaxOf.instructionLetter c = false)
      (by decide +kernel) c (space_ascii hc) hc
  · intro c s hc
    exact Ctype.ascii (p := fun c => Ctype.isAlpha c = true → (c == '*' || c == ';') = false)
      (by decide +kernel) c (alpha_ascii hc) hc

/-- A line with a comma after the name. -/
theorem encode_comma {width : Nat} {impl : List Char → Scan → Out Res} {addr : Nat}
    {name rest : List Char} (hn : nameB syntaxOf name = true)
    (ha : Config.checkAddr width addr false = .OK) :
    encode syntaxOf width impl addr (name ++ ',' :: rest) =
      (impl name (',' :: rest)).bind fun r => .ok (.insn r) := by
  unfold nameB at hn
  simp only [Bool.and_eq_true, decide_eq_true_eq, List.all_eq_true, Bool.not_eq_true'] at hn
  obtain ⟨⟨⟨h1, h2⟩, h3⟩, h4⟩ := hn
  cases name with
  | nil => cases h1
  | cons c t =>
    have h0 : skipSpaces ((c :: t) ++ ',' :: rest) = (c :: t) ++ ',' :: rest := by
      rw [List.cons_append]
      exact skip_head _ (h3 c (List.mem_cons_self ..)).2
    have h5 : readInstruction syntaxOf.instructionLetter syntaxOf.instructionTerminator ((c :: t) ++ ',' :: rest) =
        (c :: t, ',' :: rest) := by
      apply readInstruction_name (fun d hd => (h3 d hd).1)
      intro d hd
      injection hd with hd
      rw [← hd]
      decide
    unfold encode
    rw [h0]
    dsimp only
    rw [show syntaxOf.commentLine ((c :: t) ++ ',' :: rest) = false from syntaxOk.comment c _ h1, if_neg (by decide), h5]
    dsimp only
    rw [List.take_of_length_le h2, h4, show skipSpaces (',' :: rest) = ',' :: rest from rfl, ha]
    simp

/-! ### The table -/

/-- The modes of a register or a condition in the name. -/
def isSfx (m : Mode) : Bool := m == .REGN || m == .REG0 || m == .R123 || m == .CCVN || m == .C012
/-- The mode it is read with. -/
def smode (b : Nat) (m : Mode) : Mode := if m = .CCVN ∨ m = .C012 then ccMode (b % 4) else regMode (b % 4)
/-- The modes of a value. -/
def isVal (m : Mode) : Bool := m == .IMM8 || m == .REL7 || m == .ABS7 || m == .AB15 || m == .IX15
/-- The modes it may be read with. -/
def vmodes (m : Mode) : List Mode :=
  match m with
  | .IMM8 => [.IMM8]
  | .IX15 => [.IX15]
  | _ => [.IMM8, .AB15]
/-- What a value adds to the code. -/
def vemb (m : Mode) (c : Nat) : Nat := if m = .IX15 then (c ||| 3) % 256 else c

/-- The search finds an entry of these modes, and with `f` its code becomes `b`. -/
def rowIs (name : List Char) (m1 m2 : Mode) (t : Mode × Mode) (f : Nat → Nat) (b : Nat) : Bool :=
  match searchName name m1 m2 with
  | .ok (.ok r) => decide (modes r = t) && f r.opcode == b
  | _ => false

theorem rowIs_eq {name : List Char} {m1 m2 : Mode} {t : Mode × Mode} {f : Nat → Nat} {b : Nat}
    (h : rowIs name m1 m2 t f b = true) :
    ∃ r, searchName name m1 m2 = .ok (.ok r) ∧ modes r = t ∧ f r.opcode = b := by
  unfold rowIs at h
  cases hs : searchName name m1 m2 with
  | ok x =>
    cases x with
    | ok r =>
      rw [hs] at h
      simp only [Bool.and_eq_true, decide_eq_true_eq, beq_iff_eq] at h
      exact ⟨r, rfl, h.1, h.2⟩
    | error e => rw [hs] at h; exact absurd h Bool.false_ne_true
  | _ => rw [hs] at h; exact absurd h Bool.false_ne_true

/-- What the first entry of a name says of its operands. -/
def opsAre (name : List Char) (one two : Bool) : Bool :=
  match hasOperand name with
  | .ok (a, b) => decide (a = .NONE) == !one && decide (b = .NONE) == !two
  | _ => false

theorem opsAre_eq {name : List Char} {one two : Bool} (h : opsAre name one two = true) :
    ∃ ms, hasOperand name = .ok ms ∧ (decide (ms.1 = .NONE) = !one) ∧ (decide (ms.2 = .NONE) = !two) := by
  unfold opsAre at h
  cases hs : hasOperand name with
  | ok x =>
    rw [hs] at h
    obtain ⟨a, b⟩ := x
    simp only [Bool.and_eq_true, beq_iff_eq] at h
    exact ⟨_, rfl, h.1, h.2⟩
  | _ => rw [hs] at h; exact absurd h Bool.false_ne_true

/-- The five kinds of entries the disassembler finds. -/
inductive Kind
  | none | sfx | val | both | index
deriving DecidableEq

def kindOf (m : Mode × Mode) : Option Kind :=
  if m = (.NONE, .NONE) then some .none
  else if m = (.REG0, .IX13) then some .index
  else if isSfx m.1 ∧ m.2 = .NONE then some .sfx
  else if isVal m.1 ∧ m.2 = .NONE then some .val
  else if isSfx m.1 ∧ isVal m.2 ∧ m.2 ≠ .IX15 ∧ m.2 ≠ .ABS7 then some .both
  else none

/-- The code `b` with its entry and a letter case. -/
def nameOk (b : Nat) (row : Row) (up : Bool) : Bool :=
  let name := row.name.map (letter up)
  let (m1, m2) := modes row
  nameB syntaxOf name &&
  match kindOf (m1, m2) with
  | some .none => opsAre name false false && rowIs name .NONE .NONE (m1, m2) id b
  | some .sfx => opsAre name true false && rowIs name (smode b m1) .NONE (m1, m2) (fun c => (c ||| b % 4) % 256) b
  | some .val => opsAre name true false && (vmodes m1).all fun m => rowIs name m .NONE (m1, m2) (vemb m1) b
  | some .both => opsAre name true true &&
    (vmodes m2).all fun m => rowIs name (smode b m1) m (m1, m2) (fun c => (c ||| b % 4) % 256) b
  | some .index => opsAre name true true &&
    ([.IMM8, .AB15] : List Mode).all (fun m => rowIs name (regMode (b % 4)) m (.REGN, .AB13) (fun c => (c ||| b % 4) % 256) b) &&
    rowIs name .REG0 .IX13 (.REG0, .IX13) (fun c => ((c ||| 0) % 256 ||| b % 4) % 256) b &&
    (b % 4 != 3 || rowIs name .REG0 .IX15 (.REG0, .IX13) (fun c => ((c ||| 0) % 256 ||| b % 4) % 256) b)
  | none => false

def codeOk (b : Nat) : Bool :=
  match searchOpCode b with
  | none => true
  | some row => nameOk b row false && nameOk b row true &&
    ((modes row).1 != .REL7 && ((modes row).2 != .REL7 || decide (b / 4 % 4 = 2 ∧ b ≠ 0x9B ∧ b ≠ 0xBB)))

theorem codes_ok : ∀ b < 256, codeOk b = true := by decide +kernel

/-! ### Operands -/

section
variable {E : Env} {addr : Nat}

/-- A register or a condition in the name. -/
theorem sfx_reads {o : Opts} {b : Nat} {m1 m2 : Mode} {r : Rd} (hm : isSfx m1 = true) (h2 : m2 ≠ .IX13) :
    ∃ sfx op, decodeOperand o addr b m2 m1 r = ⟨',' :: sfx, [], r⟩ ∧
      (∀ P rest, Gap rest → parseOperand P (sfx ++ rest) = .ok (.ok (op, rest))) ∧
      op.mode = smode b m1 ∧
      ∀ a : Asm, a.err = .OK → encodeOperand addr m1 op a = .ok ⟨.OK, (a.opc ||| b % 4) % 256, a.ops⟩ := by
  have reg : ∀ m, m = .REGN ∨ m = .REG0 ∨ m = .R123 → m1 = m → ∃ sfx op, decodeOperand o addr b m2 m1 r = ⟨',' :: sfx, [], r⟩ ∧
      (∀ P rest, Gap rest → parseOperand P (sfx ++ rest) = .ok (.ok (op, rest))) ∧
      op.mode = smode b m1 ∧
      ∀ a : Asm, a.err = .OK → encodeOperand addr m1 op a = .ok ⟨.OK, (a.opc ||| b % 4) % 256, a.ops⟩ := by
    rintro m hm rfl
    refine ⟨outReg o b, _, ?_, fun P rest hr => reg_reads P o b hr, ?_, fun a ha => emit_reg ha rfl hm rfl⟩
    · rcases hm with rfl | rfl | rfl <;> (unfold decodeOperand; dsimp only; rw [if_neg h2])
    · rcases hm with rfl | rfl | rfl <;> rfl
  have cc : ∀ m, m = .CCVN ∨ m = .C012 → m1 = m → ∃ sfx op, decodeOperand o addr b m2 m1 r = ⟨',' :: sfx, [], r⟩ ∧
      (∀ P rest, Gap rest → parseOperand P (sfx ++ rest) = .ok (.ok (op, rest))) ∧
      op.mode = smode b m1 ∧
      ∀ a : Asm, a.err = .OK → encodeOperand addr m1 op a = .ok ⟨.OK, (a.opc ||| b % 4) % 256, a.ops⟩ := by
    rintro m hm rfl
    refine ⟨outCc o b, _, ?_, fun P rest hr => cc_reads P o b hr, ?_, fun a ha => emit_cc ha rfl hm rfl⟩
    · rcases hm with rfl | rfl <;> rfl
    · rcases hm with rfl | rfl <;> rfl
  unfold isSfx at hm
  simp only [Bool.or_eq_true, beq_iff_eq] at hm
  rcases hm with (((h | h) | h) | h) | h
  · exact reg _ (Or.inl rfl) h
  · exact reg _ (Or.inr (Or.inl rfl)) h
  · exact reg _ (Or.inr (Or.inr rfl)) h
  · exact cc _ (Or.inl rfl) h
  · exact cc _ (Or.inr rfl) h

/-- The text of a value starts with something to read. -/
def Starts (t : List Char) : Prop := skipSpaces t = t ∧ expect ',' t = none

theorem starts_num {t : List Char} {w : Nat} (h : Num E addr t w) (i : Bool) (rest : List Char) :
    Starts (star i ++ t ++ rest) := by
  obtain ⟨c, s, rfl, hc⟩ := h.head
  cases i with
  | true => exact ⟨rfl, rfl⟩
  | false =>
    obtain ⟨h1, _, _, h4, _⟩ := heads hc (s ++ rest)
    exact ⟨h1, h4⟩

theorem star_eq (n : Nat) : (if n = 1 then ['*'] else []) = star (decide (n = 1)) := by
  unfold star
  by_cases h : n = 1
  · rw [if_pos h, decide_eq_true h]; rfl
  · rw [if_neg h, decide_eq_false h]; rfl

theorem mode_mem (i : Bool) : (if i then Mode.AB15 else .IMM8) ∈ ([.IMM8, .AB15] : List Mode) := by
  cases i <;> decide

/-- A value. -/
theorem val_reads {o : Opts} (ho : Readable o) (hsym : o.relative = true → o.curSym = '$') (ha : addr < 2 ^ 15)
    {b : Nat} {m m2 : Mode} {r : Rd} (hm : isVal m = true) (hr : r.bytes.length = 1) (hmem : ∀ x ∈ r.mem, x < 256)
    (hin : m = .REL7 → ∀ v s, r.mem = v :: s → Spec.InPage addr v ∧ (o.relative = true → addr % 8192 < 8190))
    (h : (decodeOperand o addr b m2 m r).rd.err = .OK) :
    ∃ op bs, Took r (decodeOperand o addr b m2 m r).rd bs ∧ (decodeOperand o addr b m2 m r).name = [] ∧
      Starts (decodeOperand o addr b m2 m r).text ∧
      parseOperand (plug E addr) (decodeOperand o addr b m2 m r).text = .ok (.ok (op, [])) ∧
      op.mode ∈ vmodes m ∧
      ∀ a : Asm, a.err = .OK → encodeOperand addr m op a = .ok ⟨.OK, vemb m a.opc, a.ops ++ bs⟩ := by
  have hP := pairs ho
  unfold isVal at hm
  simp only [Bool.or_eq_true, beq_iff_eq] at hm
  rcases hm with (((rfl | rfl) | rfl) | rfl) | rfl
  · -- IMM8
    obtain ⟨h1, h2⟩ := byte_took hmem h
    have hn : Num E addr (outHex .surroundH o r.byte.1 8 true) r.byte.1 :=
      num_of (outHex_num hP r.byte.1 8 true h1 (by decide) (by decide))
    refine ⟨_, [r.byte.1], h2, rfl, ?_, plain_reads false hn, List.mem_cons_self .., fun a hx => emit_imm hx rfl rfl h1⟩
    have := starts_num hn false []
    rw [List.append_nil] at this
    exact this
  · -- REL7
    have e : decodeOperand o addr b m2 .REL7 r = ⟨[], (if r.byte.1 / 128 % 2 = 1 then ['*'] else []) ++
        outRelAddr .surroundH o 15 (inpage (inpage addr r.byte.2.bytes.length) (signed7 r.byte.1)) addr 7, r.byte.2⟩ := by
      unfold decodeOperand
      dsimp only
      unfold decodeRelative
      dsimp only
      rw [if_pos rfl]
    rw [e] at h ⊢
    obtain ⟨h1, h2⟩ := byte_took hmem h
    have hl : r.byte.2.bytes.length = 2 := by rw [h2.bytes, List.length_append, hr]; rfl
    rw [hl, star_eq]
    obtain ⟨g1, g2⟩ := hin rfl r.byte.1 r.byte.2.mem h2.mem
    have hb1 : inpage addr 2 < 2 ^ 15 := inpage_lt 2 ha
    have ht : inpage (inpage addr 2) (signed7 r.byte.1) < 2 ^ 15 := inpage_lt _ hb1
    have heq := inpage_in g1
    have hn : Num E addr (outRelAddr .surroundH o 15 (inpage (inpage addr 2) (signed7 r.byte.1)) addr 7)
        (inpage (inpage addr 2) (signed7 r.byte.1)) := by
      by_cases hrel : o.relative = true
      · refine rel_text ho hsym ha ht ?_
        have := g2 hrel
        have hbase : inpage addr 2 = addr + 2 := by
          unfold inpage page
          omega
        obtain ⟨d1, d2⟩ := disp_range r.byte.1
        rw [heq, hbase, signed_disp]
        show _ < 128
        omega
      · exact abs_text ho ht (by simpa using hrel)
    refine ⟨_, [r.byte.1], h2, rfl, ?_, plain_reads _ hn, mode_mem _, fun a hx => emit_rel hx rfl ha g1 h1 rfl rfl⟩
    have := starts_num hn (decide (r.byte.1 / 128 % 2 = 1)) []
    rw [List.append_nil] at this
    exact this
  · -- ABS7
    have e : decodeOperand o addr b m2 .ABS7 r = ⟨[], (if r.byte.1 / 128 % 2 = 1 then ['*'] else []) ++
        outAbsAddr .surroundH o 15 (signed7 r.byte.1 % 8192).toNat, r.byte.2⟩ := by
      unfold decodeOperand
      dsimp only
      unfold decodeRelative
      dsimp only
      rw [if_neg (by decide)]
    rw [e] at h ⊢
    obtain ⟨h1, h2⟩ := byte_took hmem h
    rw [star_eq]
    have ht : (signed7 r.byte.1 % 8192).toNat < 2 ^ 15 := by omega
    have hn : Num E addr (outAbsAddr .surroundH o 15 (signed7 r.byte.1 % 8192).toNat) (signed7 r.byte.1 % 8192).toNat :=
      num_of (outAbsAddr_num hP _ 15 ht (by decide) (by decide))
    refine ⟨_, [r.byte.1], h2, rfl, ?_, plain_reads _ hn, mode_mem _, fun a hx => emit_zero hx rfl h1 rfl rfl⟩
    have := starts_num hn (decide (r.byte.1 / 128 % 2 = 1)) []
    rw [List.append_nil] at this
    exact this
  · -- AB15
    have e : decodeOperand o addr b m2 .AB15 r = ⟨[], (if r.be16.1 / 32768 % 2 = 1 then ['*'] else []) ++
        outAbsAddr .surroundH o 15 (r.be16.1 % 32768), r.be16.2⟩ := by
      unfold decodeOperand
      dsimp only
      unfold decodeAbsolute
      dsimp only
      rw [if_neg (show ¬ Mode.AB15 = .IX15 by decide), List.append_nil]
    rw [e] at h ⊢
    obtain ⟨h1, h2⟩ := be16_took hmem h
    rw [star_eq]
    have hn : Num E addr (outAbsAddr .surroundH o 15 (r.be16.1 % 32768)) (r.be16.1 % 32768) :=
      num_of (outAbsAddr_num hP _ 15 (by omega) (by decide) (by decide))
    refine ⟨_, _, h2, rfl, ?_, plain_reads _ hn, mode_mem _, fun a hx => emit_abs hx rfl (Or.inl rfl) h1 rfl rfl⟩
    have := starts_num hn (decide (r.be16.1 / 32768 % 2 = 1)) []
    rw [List.append_nil] at this
    exact this
  · -- IX15
    have e : decodeOperand o addr b m2 .IX15 r = ⟨[], (if r.be16.1 / 32768 % 2 = 1 then ['*'] else []) ++
        outAbsAddr .surroundH o 15 (r.be16.1 % 32768) ++ ([',', ' '] ++ outReg o 3), r.be16.2⟩ := by
      unfold decodeOperand
      dsimp only
      unfold decodeAbsolute
      dsimp only
      rw [if_pos rfl]
    rw [e] at h ⊢
    obtain ⟨h1, h2⟩ := be16_took hmem h
    rw [star_eq]
    have hn : Num E addr (outAbsAddr .surroundH o 15 (r.be16.1 % 32768)) (r.be16.1 % 32768) :=
      num_of (outAbsAddr_num hP _ 15 (by omega) (by decide) (by decide))
    exact ⟨_, _, h2, rfl, starts_num hn _ _, index_reads _ hn o 3, List.mem_cons_self ..,
      fun a hx => emit_abs hx rfl (Or.inr ⟨rfl, rfl⟩) h1 rfl rfl⟩

/-- An operand in the page of the instruction, with or without an index. -/
theorem index_back {o : Opts} (ho : Readable o) (ha : addr < 2 ^ 15) {b : Nat} {r : Rd}
    (hmem : ∀ x ∈ r.mem, x < 256) (h : (decodeIndexed o addr b r).rd.err = .OK) :
    ∃ sfx op1 op2 bs, Took r (decodeIndexed o addr b r).rd bs ∧ (decodeIndexed o addr b r).name = ',' :: sfx ∧
      Starts (decodeIndexed o addr b r).text ∧
      (∀ P rest, Gap rest → parseOperand P (sfx ++ rest) = .ok (.ok (op1, rest))) ∧
      parseOperand (plug E addr) (decodeIndexed o addr b r).text = .ok (.ok (op2, [])) ∧
      ((op1.mode = regMode (b % 4) ∧ op2.mode ∈ ([.IMM8, .AB15] : List Mode) ∧
        ∀ a : Asm, a.err = .OK → (encodeOperand addr .REGN op1 a).bind (encodeOperand addr .AB13 op2) =
          .ok ⟨.OK, (a.opc ||| b % 4) % 256, a.ops ++ bs⟩) ∨
       (op1.mode = .REG0 ∧ (op2.mode = .IX13 ∨ op2.mode = .IX15 ∧ b % 4 = 3) ∧
        ∀ a : Asm, a.err = .OK → (encodeOperand addr .REG0 op1 a).bind (encodeOperand addr .IX13 op2) =
          .ok ⟨.OK, ((a.opc ||| 0) % 256 ||| b % 4) % 256, a.ops ++ bs⟩)) := by
  have hP := pairs ho
  have herr : r.be16.2.err = .OK := h
  obtain ⟨h1, h2⟩ := be16_took hmem herr
  have hpage : ∀ n : Nat, page (inpage addr n) = page addr := by
    intro n
    have := inpage_page (addr := addr) (n : Int)
    unfold page
    omega
  have e : decodeIndexed o addr b r = ⟨',' :: outReg o (if r.be16.1 / 8192 % 4 ≠ 0 then 0 else b),
      star (decide (r.be16.1 / 32768 % 2 = 1)) ++ outAbsAddr .surroundH o 15 (page addr + r.be16.1 % 8192) ++
      (if r.be16.1 / 8192 % 4 ≠ 0 then [',', ' '] ++ outReg o b ++
        (if r.be16.1 / 8192 % 4 = 1 then [',', ' ', '+'] else if r.be16.1 / 8192 % 4 = 2 then [',', ' ', '-'] else [])
       else []), r.be16.2⟩ := by
    unfold decodeIndexed
    dsimp only
    rw [hpage, star_eq]
    rfl
  rw [e]
  have hn : Num E addr (outAbsAddr .surroundH o 15 (page addr + r.be16.1 % 8192)) (page addr + r.be16.1 % 8192) :=
    num_of (outAbsAddr_num hP _ 15 (by unfold page; omega) (by decide) (by decide))
  have h4 : r.be16.1 / 8192 % 4 < 4 := Nat.mod_lt _ (by decide)
  by_cases h0 : r.be16.1 / 8192 % 4 = 0
  · rw [if_neg (fun h => h h0), if_neg (fun h => h h0), List.append_nil]
    refine ⟨outReg o b, _, _, _, h2, rfl, ?_, fun P rest hr => reg_reads P o b hr, plain_reads _ hn,
      Or.inl ⟨rfl, mode_mem _, fun a hx => ?_⟩⟩
    · have := starts_num hn (decide (r.be16.1 / 32768 % 2 = 1)) []
      rw [List.append_nil] at this
      exact this
    · rw [emit_reg hx rfl (Or.inl rfl) rfl, Out.ok_bind, emit_page rfl rfl ha h1 rfl rfl h0]
  · rw [if_pos h0, if_pos h0]
    have em : ∀ op2 : Operand, op2.err = .OK → op2.val = ⟨page addr + r.be16.1 % 8192, .unsigned⟩ →
        op2.indir = decide (r.be16.1 / 32768 % 2 = 1) → op2.sign = signOf (r.be16.1 / 8192 % 4) →
        op2.reg = some (b % 4) → ∀ a : Asm, a.err = .OK →
        (encodeOperand addr .REG0 { mode := regMode (0 % 4), reg := some (0 % 4) } a).bind (encodeOperand addr .IX13 op2) =
          .ok ⟨.OK, ((a.opc ||| 0) % 256 ||| b % 4) % 256, a.ops ++ [r.be16.1 / 256, r.be16.1 % 256]⟩ := by
      intro op2 k1 k2 k3 k4 k5 a hx
      rw [emit_reg hx rfl (Or.inr (Or.inl rfl)) rfl, Out.ok_bind, emit_index rfl k1 ha h1 k2 k3 h0 k4 k5]
    rcases (show r.be16.1 / 8192 % 4 = 1 ∨ r.be16.1 / 8192 % 4 = 2 ∨ r.be16.1 / 8192 % 4 = 3 by omega) with h5 | h5 | h5
    · rw [if_pos h5]
      exact ⟨outReg o 0, _, _, _, h2, rfl, starts_num hn _ _, fun P rest hr => reg_reads P o 0 hr,
        auto_reads _ hn o b (Or.inl rfl), Or.inr ⟨rfl, Or.inl rfl, em _ rfl rfl rfl (by rw [h5]; rfl) rfl⟩⟩
    · rw [if_neg (by omega), if_pos h5]
      exact ⟨outReg o 0, _, _, _, h2, rfl, starts_num hn _ _, fun P rest hr => reg_reads P o 0 hr,
        auto_reads _ hn o b (Or.inr rfl), Or.inr ⟨rfl, Or.inl rfl, em _ rfl rfl rfl (by rw [h5]; rfl) rfl⟩⟩
    · rw [if_neg (by omega), if_neg (by omega), List.append_nil]
      refine ⟨outReg o 0, _, _, _, h2, rfl, starts_num hn _ _, fun P rest hr => reg_reads P o 0 hr,
        index_reads _ hn o b, Or.inr ⟨rfl, ?_, em _ rfl rfl rfl (by rw [h5]; rfl) rfl⟩⟩
      dsimp only
      by_cases h6 : b % 4 = 3
      · rw [if_pos h6]; exact Or.inr ⟨rfl, h6⟩
      · rw [if_neg h6]; exact Or.inl rfl

end

/-! ### The instruction -/

theorem blank_gap {sep rest : List Char} (h : sep ≠ [] ∧ ∀ c ∈ sep, Ctype.isSpace c = true) : Gap (sep ++ rest) := by
  obtain ⟨d, u, hu⟩ := List.exists_cons_of_ne_nil h.1
  intro c hc
  rw [hu] at hc
  injection hc with hc
  exact Or.inl (hc ▸ h.2 d (by rw [hu]; exact List.mem_cons_self ..))

theorem impl_of {E : Env} {addr b : Nat} {name scan rest : List Char} {ms t : Mode × Mode} {op1 op2 : Operand}
    {row : Row} {bs : List Nat} (h1 : hasOperand name = .ok ms)
    (h2 : parseOperands (plug E addr) ms scan = .ok (.ok (op1, op2, rest)))
    (h3 : searchName name op1.mode op2.mode = .ok (.ok row)) (h4 : modes row = t)
    (h5 : (encodeOperand addr t.1 op1 ⟨.OK, row.opcode, []⟩).bind (encodeOperand addr t.2 op2) = .ok ⟨.OK, b, bs⟩)
    (hb : b < 256) (h6 : skipSpaces rest = []) :
    encodeImpl (plug E addr) addr name scan = .ok ⟨.OK, b :: bs, []⟩ := by
  unfold encodeImpl
  rw [h1, Out.ok_bind, h2, Out.ok_bind]
  dsimp only
  rw [h3, Out.ok_bind]
  dsimp only
  rw [h4]
  obtain ⟨a, k1, k2⟩ := bind_ok h5
  rw [k1, Out.ok_bind, k2, Out.ok_bind, h6]
  unfold Asm.bytes
  dsimp only
  rw [Nat.mod_eq_of_lt hb]

section
variable {P : Plugins Value} {ms : Mode × Mode}

theorem parse_none (h : ms.1 = .NONE) : parseOperands P ms [] = .ok (.ok ({}, {}, [])) := by
  unfold parseOperands
  dsimp only
  rw [if_pos h]
  rfl

theorem parse_sfx (h : ms.1 ≠ .NONE) (h2 : ms.2 = .NONE) {s rest : List Char} {op : Operand}
    (hp : parseOperand P s = .ok (.ok (op, rest))) :
    parseOperands P ms (',' :: s) = .ok (.ok (op, {}, rest)) := by
  unfold parseOperands
  dsimp only
  rw [if_neg h, if_pos (show (expect ',' (',' :: s)).isSome = true from rfl),
    show (expect ',' (',' :: s)).getD (',' :: s) = s from rfl, hp, Out.ok_bind]
  dsimp only
  rw [if_pos h2]

theorem parse_val (h : ms.1 ≠ .NONE) (h2 : ms.2 = .NONE) {s rest : List Char} {op : Operand} (hs : Starts s)
    (hp : parseOperand P s = .ok (.ok (op, rest))) :
    parseOperands P ms s = .ok (.ok (op, {}, rest)) := by
  unfold parseOperands
  dsimp only
  rw [if_neg h, hs.2, if_neg (by decide), show (none : Option Scan).getD s = s from rfl, hs.1, hp, Out.ok_bind]
  dsimp only
  rw [if_pos h2]

theorem parse_both (h : ms.1 ≠ .NONE) (h2 : ms.2 ≠ .NONE) {s t u rest : List Char} {op1 op2 : Operand}
    (hp : parseOperand P s = .ok (.ok (op1, t))) (ht : skipSpaces t = u)
    (hq : parseOperand P u = .ok (.ok (op2, rest))) :
    parseOperands P ms (',' :: s) = .ok (.ok (op1, op2, rest)) := by
  unfold parseOperands
  dsimp only
  rw [if_neg h, if_pos (show (expect ',' (',' :: s)).isSome = true from rfl),
    show (expect ',' (',' :: s)).getD (',' :: s) = s from rfl, hp, Out.ok_bind]
  dsimp only
  rw [if_neg h2, if_pos (show (expect ',' (',' :: s)).isSome = true from rfl)]
  dsimp only
  rw [ht, hq, Out.ok_bind]
end

/-- Both letter cases of a name. -/
theorem nameOk_of {b : Nat} {row : Row} (h : nameOk b row false = true ∧ nameOk b row true = true) (up : Bool) :
    nameOk b row up = true := by
  cases up
  · exact h.1
  · exact h.2

/-- What the disassembler prints of any bytes it takes without error assembles at the same address to
the same bytes without error, and nothing of the line is left; the bytes are the first of those given. A
relative target stays in the page without going round its ends; where targets are printed relative to the
location, the instruction does not cross the end of the page, and the symbol is the one the assembler knows;
numbers are not octal ones in the notation of Signetics. -/
theorem C77_partial (o : Opts) (E : Env) (addr : Nat) (mem : List Nat) (sep : List Char)
    (hoct : o.octal = true → o.cstyle = true ∨ o.intelHex = true)
    (hsym : o.relative = true → o.curSym = '$')
    (haddr : addr < 2 ^ 15) (hbytes : ∀ b ∈ mem, b < 256)
    (hpage : ∀ b d rest, mem = b :: d :: rest → Spec.Relative b →
      Spec.InPage addr d ∧ (o.relative = true → addr % 8192 < 8190))
    (hsep : sep ≠ [] ∧ ∀ c ∈ sep, Ctype.isSpace c = true)
    (hd : (disassemble o addr mem).err = .OK) :
    assemble E addr ((disassemble o addr mem).name ++ sep ++ (disassemble o addr mem).operands) =
      .ok (.insn ⟨.OK, (disassemble o addr mem).bytes, []⟩) ∧
    (disassemble o addr mem).bytes ≠ [] ∧
    (disassemble o addr mem).bytes <+: mem := by
  have hok : Config.checkAddr 15 addr false = .OK := address_ok (by decide) haddr
  have hdis : disassemble o addr mem = decodeImpl o addr mem := by
    unfold disassemble decode
    rw [if_neg (by rw [hok]; simp)]
  rw [hdis] at hd ⊢
  cases mem with
  | nil =>
    have : (decodeImpl o addr []).err = .UNKNOWN_INSTRUCTION := by
      have h0 : (⟨[], [], .OK⟩ : Rd).byte.1 = 0 := rfl
      unfold decodeImpl
      dsimp only
      rw [h0, show searchOpCode 0 = none by decide +kernel]
    rw [this] at hd
    cases hd
  | cons b rest =>
  have hb : b < 256 := hbytes b (List.mem_cons_self ..)
  have hrest : ∀ x ∈ rest, x < 256 := fun x hx => hbytes x (List.mem_cons_of_mem _ hx)
  unfold decodeImpl at hd ⊢
  rw [byte_some hb] at hd ⊢
  dsimp only [List.nil_append] at hd ⊢
  have hcode := codes_ok b hb
  unfold codeOk at hcode
  cases hrow : searchOpCode b with
  | none => rw [hrow] at hd; cases hd
  | some row =>
    rw [hrow] at hd hcode
    dsimp only at hd hcode ⊢
    simp only [Bool.and_eq_true, Bool.or_eq_true, decide_eq_true_eq, bne_iff_ne, ne_eq] at hcode
    obtain ⟨hcode, hr1, hr2⟩ := hcode
    have hname := nameOk_of hcode o.upper
    unfold nameOk at hname
    dsimp only at hname
    simp only [Bool.and_eq_true] at hname
    obtain ⟨hn, hkind⟩ := hname
    show assemble E addr (row.name.map (letter o.upper) ++ _ ++ _ ++ sep ++ _) = _ ∧ _
    generalize hmodes : modes row = mm at *
    obtain ⟨m1, m2⟩ := mm
    dsimp only at *
    generalize hname : row.name.map (letter o.upper) = name at *
    cases hk : kindOf (m1, m2) with
    | none => rw [hk] at hkind; exact absurd hkind Bool.false_ne_true
    | some k =>
    rw [hk] at hkind
    unfold kindOf at hk
    cases k with
    | none =>
      simp only [Bool.and_eq_true] at hkind
      obtain ⟨ms, g1, g2, g3⟩ := opsAre_eq hkind.1
      obtain ⟨r, g4, g5, g6⟩ := rowIs_eq hkind.2
      have hm : (m1, m2) = (.NONE, .NONE) := by
        by_cases h : (m1, m2) = (.NONE, .NONE)
        · exact h
        · rw [if_neg h] at hk
          repeat' split at hk
          all_goals cases hk
      injection hm with e1 e2
      subst e1 e2
      have e3 := impl_of (E := E) (addr := addr) (b := b) (bs := []) g1 (parse_none (by simpa using g2)) g4 g5 (by
        rw [show encodeOperand addr (Mode.NONE, Mode.NONE).1 {} ⟨.OK, r.opcode, []⟩ = .ok ⟨.OK, r.opcode, []⟩ from emit_none _ _,
          Out.ok_bind]
        rw [show encodeOperand addr (Mode.NONE, Mode.NONE).2 {} ⟨.OK, r.opcode, []⟩ = .ok ⟨.OK, r.opcode, []⟩ from emit_none _ _,
          show r.opcode = b from g6]) hb rfl
      refine ⟨?_, List.cons_ne_nil _ _, _, rfl⟩
      show encode syntaxOf 15 _ addr (name ++ [] ++ [] ++ sep ++ []) = _
      rw [List.append_nil name, List.append_nil name]
      exact encode_name syntaxOk hn hsep rfl hok e3
    | sfx =>
      simp only [Bool.and_eq_true] at hkind
      obtain ⟨ms, g1, g2, g3⟩ := opsAre_eq hkind.1
      obtain ⟨r, g4, g5, g6⟩ := rowIs_eq hkind.2
      have hm : isSfx m1 = true ∧ m2 = .NONE := by
        by_cases h : isSfx m1 = true ∧ m2 = .NONE
        · exact h
        · rw [if_neg h] at hk
          repeat' split at hk
          all_goals cases hk
      obtain ⟨hm, rfl⟩ := hm
      obtain ⟨sfx, op, k1, k2, k3, k4⟩ := sfx_reads (addr := addr) (o := o) (b := b) (r := ⟨rest, [b], .OK⟩) hm
        (show Mode.NONE ≠ .IX13 by decide)
      rw [k1] at hd ⊢
      dsimp only at hd ⊢
      have e3 := impl_of (E := E) (addr := addr) (b := b) (bs := []) (scan := ',' :: (sfx ++ sep)) g1
        (parse_sfx (by simpa using g2) (by simpa using g3) (k2 _ sep (by
          have := blank_gap (rest := []) hsep
          rwa [List.append_nil] at this))) (by rw [k3]; exact g4) g5 (by
        rw [k4 _ rfl, Out.ok_bind]
        dsimp only
        rw [emit_none, show (r.opcode ||| b % 4) % 256 = b from g6]) hb (by
          have := skip_blank hsep.2 (t := [])
          rwa [List.append_nil] at this)
      refine ⟨?_, List.cons_ne_nil _ _, _, rfl⟩
      show encode syntaxOf 15 _ addr (name ++ (',' :: sfx) ++ [] ++ sep ++ []) = _
      rw [show name ++ (',' :: sfx) ++ [] ++ sep ++ [] = name ++ ',' :: (sfx ++ sep) by simp, encode_comma hn hok, e3]
      rfl
    | val =>
      simp only [Bool.and_eq_true] at hkind
      obtain ⟨ms, g1, g2, g3⟩ := opsAre_eq hkind.1
      have hm : isVal m1 = true ∧ m2 = .NONE := by
        by_cases h : isVal m1 = true ∧ m2 = .NONE
        · exact h
        · rw [if_neg h] at hk
          repeat' split at hk
          all_goals cases hk
      obtain ⟨hm, rfl⟩ := hm
      obtain ⟨op, bs, k1, k2, k3, k4, k5, k6⟩ := val_reads (E := E) (addr := addr) (o := o) (b := b) (m2 := .NONE)
        (r := ⟨rest, [b], .OK⟩) hoct hsym haddr hm rfl hrest (fun h => absurd h hr1) hd
      obtain ⟨r, g4, g5, g6⟩ := rowIs_eq (List.all_eq_true.1 hkind.2 _ k5)
      have e3 := impl_of (E := E) (addr := addr) (b := b) (bs := bs) g1
        (parse_val (by simpa using g2) (by simpa using g3) k3 k4) g4 g5 (by
        rw [k6 _ rfl, Out.ok_bind]
        dsimp only
        rw [emit_none, g6]
        rfl) hb rfl
      have e1 := k1.bytes
      have e2 := k1.mem
      generalize decodeOperand o addr b .NONE m1 ⟨rest, [b], .OK⟩ = part at *
      dsimp only [decodeOperand]
      rw [e1, k2]
      refine ⟨?_, List.cons_ne_nil _ _, part.rd.mem, ?_⟩
      · show encode syntaxOf 15 _ addr (name ++ [] ++ [] ++ sep ++ (part.text ++ [])) = _
        rw [List.append_nil name, List.append_nil name, List.append_nil part.text]
        exact encode_name syntaxOk hn hsep k3.1 hok e3
      · show b :: bs ++ _ = b :: rest
        rw [show rest = bs ++ part.rd.mem from e2]
        rfl
    | both =>
      simp only [Bool.and_eq_true] at hkind
      obtain ⟨ms, g1, g2, g3⟩ := opsAre_eq hkind.1
      have hm : isSfx m1 = true ∧ isVal m2 = true ∧ m2 ≠ .IX15 ∧ m2 ≠ .ABS7 := by
        by_cases h : isSfx m1 = true ∧ isVal m2 = true ∧ m2 ≠ .IX15 ∧ m2 ≠ .ABS7
        · exact h
        · rw [if_neg h] at hk
          repeat' split at hk
          all_goals cases hk
      obtain ⟨hm, hm2, hm3, _⟩ := hm
      obtain ⟨sfx, op1, k1, k2, k3, k4⟩ := sfx_reads (addr := addr) (o := o) (b := b) (r := ⟨rest, [b], .OK⟩) hm
        (show m2 ≠ .IX13 from fun h => absurd hm2 (by rw [h]; decide))
      rw [k1] at hd ⊢
      dsimp only at hd ⊢
      obtain ⟨op, bs, j1, j2, j3, j4, j5, j6⟩ := val_reads (E := E) (addr := addr) (o := o) (b := b) (m2 := m2)
        (r := ⟨rest, [b], .OK⟩) hoct hsym haddr hm2 rfl hrest (fun h v s hv => hpage b v s (by
          rw [show rest = v :: s from hv]) (hr2.resolve_left (fun hx => hx h))) hd
      obtain ⟨r, g4, g5, g6⟩ := rowIs_eq (List.all_eq_true.1 hkind.2 _ j5)
      have e3 := impl_of (E := E) (addr := addr) (b := b) (bs := bs) g1
        (parse_both (by simpa using g2) (by simpa using g3) (k2 _ _ (blank_gap hsep))
          ((skip_blank hsep.2 _).trans j3.1) j4) (by rw [k3]; exact g4) g5 (by
        rw [k4 _ rfl, Out.ok_bind]
        dsimp only
        rw [j6 _ rfl, show (r.opcode ||| b % 4) % 256 = b from g6]
        unfold vemb
        rw [if_neg hm3]
        rfl) hb rfl
      have e1 := j1.bytes
      have e2 := j1.mem
      generalize decodeOperand o addr b m2 m2 ⟨rest, [b], .OK⟩ = part at *
      rw [e1, j2]
      refine ⟨?_, List.cons_ne_nil _ _, part.rd.mem, ?_⟩
      · show encode syntaxOf 15 _ addr (name ++ (',' :: sfx) ++ [] ++ sep ++ ([] ++ part.text)) = _
        rw [show name ++ (',' :: sfx) ++ [] ++ sep ++ ([] ++ part.text) = name ++ ',' :: (sfx ++ (sep ++ part.text)) by simp,
          encode_comma hn hok, e3]
        rfl
      · show b :: bs ++ _ = b :: rest
        rw [show rest = bs ++ part.rd.mem from e2]
        rfl
    | index =>
      simp only [Bool.and_eq_true] at hkind
      obtain ⟨⟨⟨i1, i2⟩, i3⟩, i4⟩ := hkind
      obtain ⟨ms, g1, g2, g3⟩ := opsAre_eq i1
      have hm : (m1, m2) = (.REG0, .IX13) := by
        by_cases h : (m1, m2) = (.REG0, .IX13)
        · exact h
        · rw [if_neg h] at hk
          repeat' split at hk
          all_goals cases hk
      injection hm with e1 e2
      subst e1 e2
      have ex : decodeOperand o addr b .IX13 .REG0 ⟨rest, [b], .OK⟩ = ⟨[], [], ⟨rest, [b], .OK⟩⟩ := rfl
      rw [ex] at hd ⊢
      dsimp only at hd ⊢
      have ey : ∀ r, decodeOperand o addr b .IX13 .IX13 r = decodeIndexed o addr b r := fun _ => rfl
      rw [ey] at hd ⊢
      obtain ⟨sfx, op1, op2, bs, k1, k2, k3, k4, k5, k6⟩ := index_back (E := E) (addr := addr) (o := o) (b := b)
        (r := ⟨rest, [b], .OK⟩) hoct haddr hrest hd
      have e3 : encodeImpl (plug E addr) addr name (',' :: (sfx ++ (sep ++ (decodeIndexed o addr b ⟨rest, [b], .OK⟩).text))) =
          .ok ⟨.OK, b :: bs, []⟩ := by
        have hp := parse_both (P := plug E addr) (ms := ms) (by simpa using g2) (by simpa using g3)
          (k4 _ _ (blank_gap hsep)) ((skip_blank hsep.2 _).trans k3.1) k5
        rcases k6 with ⟨j1, j2, j3⟩ | ⟨j1, j2, j3⟩
        · obtain ⟨r, g4, g5, g6⟩ := rowIs_eq (List.all_eq_true.1 i2 _ j2)
          exact impl_of g1 hp (by rw [j1]; exact g4) g5 (by
            rw [j3 _ rfl, show (r.opcode ||| b % 4) % 256 = b from g6]
            rfl) hb rfl
        · have : rowIs name .REG0 op2.mode (.REG0, .IX13) (fun c => ((c ||| 0) % 256 ||| b % 4) % 256) b = true := by
            rcases j2 with j2 | ⟨j2, j4⟩
            · rw [j2]; exact i3
            · rw [j2]
              rw [j4] at i4
              simpa [j4] using i4
          obtain ⟨r, g4, g5, g6⟩ := rowIs_eq this
          exact impl_of g1 hp (by rw [j1]; exact g4) g5 (by
            rw [j3 _ rfl, show ((r.opcode ||| 0) % 256 ||| b % 4) % 256 = b from g6]
            rfl) hb rfl
      have e1 := k1.bytes
      have e2 := k1.mem
      generalize decodeIndexed o addr b ⟨rest, [b], .OK⟩ = part at *
      rw [e1, k2]
      refine ⟨?_, List.cons_ne_nil _ _, part.rd.mem, ?_⟩
      · show encode syntaxOf 15 _ addr (name ++ [] ++ (',' :: sfx) ++ sep ++ ([] ++ part.text)) = _
        rw [show name ++ [] ++ (',' :: sfx) ++ sep ++ ([] ++ part.text) = name ++ ',' :: (sfx ++ (sep ++ part.text)) by simp,
          encode_comma hn hok, e3]
        rfl
      · show b :: bs ++ _ = b :: rest
        rw [show rest = bs ++ part.rd.mem from e2]
        rfl

/-- The hypotheses of `C77_partial` hold of a register, a condition, a relative target, an immediate, an index with
and without a sign, and an address of 15 bits. -/
example :
    (disassemble (.default '$') 0 [0x03]).err = .OK ∧
    (disassemble (.default '$') 0 [0x03]).name = "LODZ,R3".toList ∧
    (disassemble (.default '$') 0 [0x40]).name = "HALT".toList ∧
    (disassemble (.default '$') 0x3123 [0x19, 0xff]).err = .OK ∧
    (disassemble (.default '$') 0x3123 [0x19, 0xff]).name = "BCTR,GT".toList ∧
    (disassemble (.default '$') 0x3123 [0x19, 0xff]).operands = "*H'3124'".toList ∧
    Spec.InPage 0x3123 0xff ∧
    (disassemble { Opts.default '$' with relative := true } 0x3123 [0x19, 0x02]).operands = "$+4".toList ∧
    (disassemble (.default '$') 0 [0x05, 0xfe]).operands = "H'FE'".toList ∧
    (disassemble (.default '$') 0x3123 [0x0f, 0xb2, 0x34]).name = "LODA,R0".toList ∧
    (disassemble (.default '$') 0x3123 [0x0f, 0xb2, 0x34]).operands = "*H'3234', R3, +".toList ∧
    (disassemble (.default '$') 0x3123 [0x0e, 0x72, 0x34]).operands = "H'3234', R2".toList ∧
    (disassemble (.default '$') 0x3123 [0x0e, 0x12, 0x34]).name = "LODA,R2".toList ∧
    (disassemble (.default '$') 0x7fff [0xbf, 0xff, 0x12]).operands = "*H'7F12', R3".toList ∧
    (disassemble (.default '$') 0 [0x9b, 0xff]).operands = "*H'1FFF'".toList := by
  refine ⟨?_, ?_, ?_, ?_, ?_, ?_, ⟨by decide, by decide⟩, ?_⟩ <;> decide +kernel

/-- What `C77_partial` asks for is needed: a relative branch that goes round the end of its page is printed, and
refused by the assembler. -/
theorem C77_violated_page :
    (disassemble (.default '$') 0x1ff0 [0x1b, 0x3f]).err = .OK ∧
    (disassemble (.default '$') 0x1ff0 [0x1b, 0x3f]).name = "BCTR,UN".toList ∧
    (disassemble (.default '$') 0x1ff0 [0x1b, 0x3f]).operands = "H'0031'".toList ∧
    assemble noEnv 0x1ff0 "BCTR,UN H'0031'".toList = .ok (.insn ⟨.OPERAND_TOO_FAR, [0x1b, 0x3f], []⟩) := by
  decide +kernel

/-- From the last bytes of a page the target is the one that is printed as an address, but relative to the
location another one is printed. -/
theorem C77_violated_relative :
    Spec.InPage 0x1ffe 0x02 ∧
    (disassemble (.default '$') 0x1ffe [0x1b, 0x02]).operands = "H'0002'".toList ∧
    (disassemble { Opts.default '$' with relative := true } 0x1ffe [0x1b, 0x02]).err = .OK ∧
    (disassemble { Opts.default '$' with relative := true } 0x1ffe [0x1b, 0x02]).operands = "$-124".toList ∧
    assemble noEnv 0x1ffe "BCTR,UN H'0002'".toList = .ok (.insn ⟨.OK, [0x1b, 0x02], []⟩) := by
  refine ⟨⟨by decide, by decide⟩, ?_⟩
  decide +kernel

/-- An octal number of a listing is read as a decimal one. -/
theorem C77_violated_octal :
    (disassemble { Opts.default '$' with octal := true } 0 [0x04, 0xab]).err = .OK ∧
    (disassemble { Opts.default '$' with octal := true } 0 [0x04, 0xab]).name = "LODI,R0".toList ∧
    (disassemble { Opts.default '$' with octal := true } 0 [0x04, 0xab]).operands = "253".toList ∧
    assemble noEnv 0 "LODI,R0 253".toList = .ok (.insn ⟨.OK, [0x04, 0xfd], []⟩) := by
  decide +kernel

end Libasm.Cpu.Scn2650
