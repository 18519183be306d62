import Verif.Cpu.Ops
import Verif.Cpu.Intel
import Verif.Cpu.I8048.Model
/-
How the i8048 assembler reads what its disassembler prints, and what it makes of it.
-/
namespace Libasm.Cpu.I8048
open Scan Number Number.Spec Eval
open Tables (Row)

theorem lexer_intel : lexer = intelLexer symbol := rfl

/-- The parsers at an address. -/
abbrev plug (E : Env) (addr : Nat) : Plugins Value := lexer.plugins E '\x00' addr

theorem regsOk : RegsOk regs := by decide
theorem regsNo : NoNumbers .intel regs := by decide

/-! ### Registers -/

/-- The registers there are. -/
def known (r : Reg) : Bool := (regs.map (·.2)).contains r

/-- A register as it is printed. -/
theorem reg_text (o : Opts) {r : Reg} (hk : known r = true) {rest : List Char} (hr : Sep rest) :
    searchText regs (outReg o r ++ rest) = .ok (some (r, rest)) ∧
    ∃ c s, outReg o r = c :: s ∧ Ctype.isAlpha c = true := by
  have h1 : ∀ (up : Bool), ∀ r ∈ regs.map (·.2), ((regText regs r).map (letter up)) ≠ [] ∧
      (∀ c ∈ (regText regs r).map (letter up), Table.isNameLetter c = true) ∧
      (regs.find? fun e => decide (Table.Spec.Same e.1 ((regText regs r).map (letter up)))).map (·.2) =
        some r ∧ Ctype.isAlpha (((regText regs r).map (letter up)).headD '0') = true := by
    decide +kernel
  obtain ⟨g1, g2, g3, g4⟩ := h1 o.upper r (List.contains_iff_mem.1 hk)
  refine ⟨reg_found regsOk ⟨g1, g2⟩ hr g3, ?_⟩
  obtain ⟨c, s, hc⟩ := List.exists_cons_of_ne_nil g1
  refine ⟨c, s, hc, ?_⟩
  rw [hc] at g4
  exact g4

/-- A letter starts no other operand than a register or a symbol. -/
theorem alpha_head {c : Char} (s : List Char) (h : Ctype.isAlpha c = true) :
    skipSpaces (c :: s) = c :: s ∧ semicolonEnd (c :: s) = false ∧ expect '#' (c :: s) = none ∧
    expect '@' (c :: s) = none ∧ Ctype.isSpace c = false := by
  have := Ctype.ascii (p := fun c => Ctype.isAlpha c = true → Ctype.isSpace c = false ∧ c ≠ ';' ∧
    c ≠ '\x00' ∧ c ≠ '#' ∧ c ≠ '@') (by decide +kernel) c (alpha_ascii h) h
  obtain ⟨h1, h2, h3, h4, h5⟩ := this
  have key : ∀ d, c ≠ d → expect d (c :: s) = none := by
    intro d hd
    exact expect_none (by intro e he; injection he with he; exact he ▸ hd)
  refine ⟨?_, ?_, key _ h4, key _ h5, h1⟩
  · unfold skipSpaces trimStart
    rw [List.dropWhile_cons, h1]
    rfl
  · show (c == '\x00' || c == ';') = false
    simp [h2, h3]

variable {E : Env} {addr : Nat}

/-- A register by itself. -/
theorem reg_reads (o : Opts) {r : Reg} (hk : known r = true) {m : Mode} (hm : registerMode r = some m)
    {rest : List Char} (hr : Sep rest) :
    parseOperand (plug E addr) (outReg o r ++ rest) = .ok (.ok ({ mode := m, reg := some r }, rest)) := by
  obtain ⟨h1, c, s, h2, h3⟩ := reg_text o hk hr
  obtain ⟨k1, k2, k3, k4, k5⟩ := alpha_head (s ++ rest) h3
  rw [h2, List.cons_append] at h1 ⊢
  unfold parseOperand
  rw [k1]
  dsimp only
  rw [show (plug E addr).endOfLine (c :: (s ++ rest)) = false from k2, if_neg (by decide), k3]
  dsimp only
  rw [k4]
  simp only [Option.isSome, Option.getD, Bool.false_eq_true, false_and, if_false]
  rw [h1, Out.ok_bind]
  dsimp only
  rw [hm]

/-- A register after `@`. -/
theorem indirect_reads (o : Opts) {r : Reg} (hk : known r = true) {m : Mode} (hm : indirectMode r = some m)
    {rest : List Char} (hr : Sep rest) :
    parseOperand (plug E addr) ('@' :: outReg o r ++ rest) = .ok (.ok ({ mode := m, reg := some r }, rest)) := by
  obtain ⟨h1, c, s, h2, h3⟩ := reg_text o hk hr
  obtain ⟨k1, k2, k3, k4, k5⟩ := alpha_head (s ++ rest) h3
  rw [List.cons_append]
  unfold parseOperand
  rw [show skipSpaces ('@' :: (outReg o r ++ rest)) = '@' :: (outReg o r ++ rest) from rfl]
  dsimp only
  rw [show (plug E addr).endOfLine ('@' :: (outReg o r ++ rest)) = false from rfl,
    if_neg (by decide), show expect '#' ('@' :: (outReg o r ++ rest)) = none from rfl]
  dsimp only
  rw [show expect '@' ('@' :: (outReg o r ++ rest)) = some (outReg o r ++ rest) from rfl]
  simp only [Option.isSome, Option.getD, true_and]
  rw [h1, if_neg (by rw [h2]; show ¬ Ctype.isSpace c = true; rw [k5]; decide), Out.ok_bind]
  dsimp only
  rw [if_pos trivial, hm]

/-! ### Numbers -/

/-- Text of a number, as the evaluator takes it. -/
theorem num_reads {w : Nat} {t rest : List Char} (h : NumText .intel .intel t w) (hr : AfterOp rest) :
    parseInteger (plug E addr) (t ++ rest) .OK = .ok (⟨w, .unsigned⟩, .OK, rest) := by
  obtain ⟨h1, h2⟩ := hr.stop (sym := symbol) (E := E) (delim := '\x00') (loc := addr)
  exact eval_const (const_of (intel_lexOk symbol) h E '\x00' addr) h1 h2

theorem digit_head {c : Char} (s : List Char) (hc : c ∈ firsts .intel) :
    skipSpaces (c :: s) = c :: s ∧ semicolonEnd (c :: s) = false ∧ expect '#' (c :: s) = none ∧
    expect '@' (c :: s) = none := by
  have h1 : ∀ c ∈ firsts .intel, Ctype.isSpace c = false ∧ c ≠ ';' ∧
    c ≠ '\x00' ∧ c ≠ '#' ∧ c ≠ '@' := by decide
  obtain ⟨h1, h2, h3, h4, h5⟩ := h1 c hc
  have key : ∀ d, c ≠ d → expect d (c :: s) = none := by
    intro d hd
    exact expect_none (by intro e he; injection he with he; exact he ▸ hd)
  refine ⟨?_, ?_, key _ h4, key _ h5⟩
  · unfold skipSpaces trimStart
    rw [List.dropWhile_cons, h1]
    rfl
  · show (c == '\x00' || c == ';') = false
    simp [h2, h3]

/-- An address or a bit number. -/
theorem plain_reads {w : Nat} {t rest : List Char} (h : NumText .intel .intel t w) (hr : AfterOp rest) :
    parseOperand (plug E addr) (t ++ rest) = .ok (.ok ({ mode := .AD11, val := ⟨w, .unsigned⟩ }, rest)) := by
  have e := num_reads (E := E) (addr := addr) h hr
  have hreg := reg_none regsOk regsNo (h.lead.append rest)
  obtain ⟨c, s, h1, h2⟩ := lead_first h.lead
  rw [h1, List.cons_append] at hreg e ⊢
  obtain ⟨k1, k2, k3, k4⟩ := digit_head (s ++ rest) h2
  unfold parseOperand
  rw [k1]
  dsimp only
  rw [show (plug E addr).endOfLine (c :: (s ++ rest)) = false from k2, if_neg (by decide), k3]
  dsimp only
  rw [k4]
  simp only [Option.isSome, Option.getD, Bool.false_eq_true, false_and, if_false]
  rw [hreg, Out.ok_bind]
  dsimp only
  rw [e, Out.ok_bind]
  rfl

theorem imm_reads {w : Nat} {t rest : List Char} (h : NumText .intel .intel t w) (hr : AfterOp rest) :
    parseOperand (plug E addr) ('#' :: t ++ rest) = .ok (.ok ({ mode := .IMM8, val := ⟨w, .unsigned⟩ }, rest)) := by
  have e := num_reads (E := E) (addr := addr) h hr
  unfold parseOperand
  rw [show skipSpaces ('#' :: t ++ rest) = '#' :: (t ++ rest) from rfl]
  dsimp only
  rw [show (plug E addr).endOfLine ('#' :: (t ++ rest)) = false from rfl, if_neg (by decide),
    show expect '#' ('#' :: (t ++ rest)) = some (t ++ rest) from rfl]
  dsimp only
  rw [e, Out.ok_bind]
  rfl

/-! ### What is printed of an operand -/

/-- The register printed for a mode, after a `@` or not. -/
def regOf (b : Nat) : Mode → Option (Bool × Reg)
  | .IA => some (true, REG_A)
  | .A => some (false, REG_A)
  | .IR | .IR3 => some (true, rreg b)
  | .R => some (false, rreg b)
  | .BUS => some (false, REG_BUS)
  | .P12 | .PEXT => some (false, port b)
  | .P => some (false, REG_P)
  | .P1 => some (false, REG_P1)
  | .P2 => some (false, REG_P2)
  | .PSW => some (false, REG_PSW)
  | .C => some (false, REG_C)
  | .F => some (false, if b / 32 % 2 = 1 then REG_F1 else REG_F0)
  | .RB => some (false, if b / 16 % 2 = 1 then REG_RB1 else REG_RB0)
  | .MB => some (false, if b / 16 % 2 = 1 then REG_MB1 else REG_MB0)
  | .I => some (false, REG_I)
  | .T => some (false, REG_T)
  | .CNT => some (false, REG_CNT)
  | .TCNT => some (false, REG_TCNT)
  | .TCNTI => some (false, REG_TCNTI)
  | .CLK => some (false, REG_CLK)
  | _ => none

/-- The mode an operand is read with. -/
def pmode (b : Nat) (m : Mode) : Mode :=
  match regOf b m with
  | some (true, r) => (indirectMode r).getD .UNDEF
  | some (false, r) => (registerMode r).getD .UNDEF
  | none =>
    match m with
    | .BIT8 => .IMM8
    | .AD08 | .BITN => .AD11
    | m => m

/-- The register printed is one there is, and one that is allowed there. -/
def regFine (b : Nat) (m : Mode) : Bool :=
  match regOf b m with
  | some (true, r) => known r && (indirectMode r).isSome
  | some (false, r) => known r && (registerMode r).isSome
  | none => true

/-- The bytes `bs` of the operand and what is read of it; `b` is the code. -/
def Vals (b addr : Nat) (m : Mode) (bs : List Nat) (op : Operand) : Prop :=
  match m with
  | .IMM8 | .BIT8 => ∃ v, v < 256 ∧ bs = [v] ∧ op.val = ⟨v, .unsigned⟩
  | .AD08 => ∃ v, v < 256 ∧ bs = [v] ∧ op.val = ⟨(addr + 1) / 256 * 256 + v, .unsigned⟩
  | .AD11 => ∃ v, v < 256 ∧ bs = [v] ∧ op.val = ⟨b / 32 * 256 + v, .unsigned⟩
  | .BITN => bs = [] ∧ op.val = ⟨b / 32, .unsigned⟩
  | m => bs = [] ∧ op.reg = (regOf b m).map (·.2)

/-- The operand `op` was decoded from `r` to `r'`. -/
structure Rel (b addr : Nat) (m : Mode) (r r' : Rd) (op : Operand) : Prop where
  err : op.err = .OK
  mode : op.mode = pmode b m
  vals : ∃ bs, Took r r' bs ∧ bs.length ≤ 10 ∧ Vals b addr m bs op

theorem operand_mono {o : Opts} {b : Nat} (m : Mode) (r : Rd)
    (h : (decodeOperand o addr b m r).2.err = .OK) : r.err = .OK := by
  unfold decodeOperand at h
  cases m <;> first
    | exact h
    | exact byte_err h

theorem operand_reads {o : Opts} {m : Mode} {b k : Nat} {r : Rd}
    (hm : m ≠ .NONE ∧ m ≠ .UNDEF) (hf : regFine b m = true) (ha : m = .AD08 → addr + 1 < 4096) (hb : b < 256)
    (hroom : Room (k + 1) r) (h : (decodeOperand o addr b m r).2.err = .OK) :
    ∃ op, Rel b addr m r (decodeOperand o addr b m r).2 op ∧
      ∀ rest, AfterOp rest →
        parseOperand (plug E addr) ((decodeOperand o addr b m r).1 ++ rest) = .ok (.ok (op, rest)) := by
  have hP := intel_pairs o
  have hmem := hroom.mem
  have hsep : ∀ {rest}, AfterOp rest → Sep rest := fun hr =>
    (AfterOp.stop (sym := symbol) (E := E) (delim := '\x00') (loc := addr) hr).1
  have reg : ∀ {reg : Reg} {m' : Mode} (_ : regOf b m = some (false, reg)) (_ : r.err = .OK)
      (_ : ∀ op : Operand, op.reg = (regOf b m).map (·.2) → Vals b addr m [] op),
      ∃ op, Rel b addr m r r op ∧
        ∀ rest, AfterOp rest → parseOperand (plug E addr) (outReg o reg ++ rest) = .ok (.ok (op, rest)) := by
    intro reg m' h1 h2 h3
    unfold regFine at hf
    rw [h1] at hf
    simp only [Bool.and_eq_true] at hf
    obtain ⟨m', hm'⟩ := Option.isSome_iff_exists.1 hf.2
    refine ⟨{ mode := m', reg := some reg }, ⟨rfl, ?_, [], Took.refl h2, by decide, h3 _ (by rw [h1]; rfl)⟩,
      fun rest hr => reg_reads o hf.1 hm' (hsep hr)⟩
    unfold pmode
    rw [h1]
    dsimp only
    rw [hm']
    rfl
  have ind : ∀ {reg : Reg} {m' : Mode} (_ : regOf b m = some (true, reg)) (_ : r.err = .OK)
      (_ : ∀ op : Operand, op.reg = (regOf b m).map (·.2) → Vals b addr m [] op),
      ∃ op, Rel b addr m r r op ∧
        ∀ rest, AfterOp rest → parseOperand (plug E addr) ('@' :: outReg o reg ++ rest) = .ok (.ok (op, rest)) := by
    intro reg m' h1 h2 h3
    unfold regFine at hf
    rw [h1] at hf
    simp only [Bool.and_eq_true] at hf
    obtain ⟨m', hm'⟩ := Option.isSome_iff_exists.1 hf.2
    refine ⟨{ mode := m', reg := some reg }, ⟨rfl, ?_, [], Took.refl h2, by decide, h3 _ (by rw [h1]; rfl)⟩,
      fun rest hr => indirect_reads o hf.1 hm' (hsep hr)⟩
    unfold pmode
    rw [h1]
    dsimp only
    rw [hm']
    rfl
  unfold decodeOperand at h ⊢
  cases m with
  | NONE => exact absurd rfl hm.1
  | UNDEF => exact absurd rfl hm.2
  | A | R | BUS | P12 | PEXT | P | P1 | P2 | PSW | C | F | RB | MB | I | T | CNT | TCNT | TCNTI | CLK =>
    exact reg (m' := .A) rfl h (fun op hx => ⟨rfl, hx⟩)
  | IA | IR | IR3 => exact ind (m' := .A) rfl h (fun op hx => ⟨rfl, hx⟩)
  | IMM8 =>
    dsimp only at h ⊢
    obtain ⟨h1, h2⟩ := byte_took hmem h
    have hn := outDec_num hP r.byte.1 8 h1 (by decide) (by decide)
    exact ⟨{ mode := .IMM8, val := ⟨r.byte.1, .unsigned⟩ }, ⟨rfl, rfl, _, h2, by simp, _, h1, rfl, rfl⟩,
      fun rest hr => imm_reads hn hr⟩
  | BIT8 =>
    dsimp only at h ⊢
    obtain ⟨h1, h2⟩ := byte_took hmem h
    have hn := outHex_num hP r.byte.1 8 false h1 (by decide) (by decide)
    exact ⟨{ mode := .IMM8, val := ⟨r.byte.1, .unsigned⟩ }, ⟨rfl, rfl, _, h2, by simp, _, h1, rfl, rfl⟩,
      fun rest hr => imm_reads hn hr⟩
  | BITN =>
    have hn := outDec_num hP (b / 32) 3 (by omega) (by decide) (by decide)
    exact ⟨{ mode := .AD11, val := ⟨b / 32, .unsigned⟩ }, ⟨rfl, rfl, [], Took.refl h, by decide, rfl, rfl⟩,
      fun rest hr => plain_reads hn hr⟩
  | AD08 =>
    have ha := ha rfl
    dsimp only at h ⊢
    obtain ⟨h1, h2⟩ := byte_took hmem h
    have hn := outAbsAddr_num hP ((addr + 1) / 256 * 256 + r.byte.1) 12 (by omega) (by decide) (by decide)
    exact ⟨{ mode := .AD11, val := ⟨(addr + 1) / 256 * 256 + r.byte.1, .unsigned⟩ }, ⟨rfl, rfl, _, h2, by simp, _, h1, rfl, rfl⟩,
      fun rest hr => plain_reads hn hr⟩
  | AD11 =>
    dsimp only at h ⊢
    obtain ⟨h1, h2⟩ := byte_took hmem h
    have hn := outAbsAddr_num hP (b / 32 * 256 + r.byte.1) 12 (by omega) (by decide) (by decide)
    exact ⟨{ mode := .AD11, val := ⟨b / 32 * 256 + r.byte.1, .unsigned⟩ }, ⟨rfl, rfl, _, h2, by simp, _, h1, rfl, rfl⟩,
      fun rest hr => plain_reads hn hr⟩

/-! ### What is emitted for an operand -/

/-- The bits of the code `b` that a mode puts there. -/
def field (b : Nat) (m : Mode) : Option Nat :=
  match m with
  | .R | .IR | .IR3 | .P12 | .PEXT => some (b % 8)
  | .AD11 | .BITN => some (b / 32 * 32)
  | .F => some (b / 32 % 2 * 32)
  | .RB | .MB => some (b / 16 % 2 * 16)
  | _ => none

/-- What the table has to say for the code `b` and its entry. -/
def rowOk (b : Nat) (row : Row) : Bool :=
  decide ((modes row).length ≤ 2) &&
  (modes row).all (fun m => decide (m ≠ .NONE) && decide (m ≠ .UNDEF) && regFine b m &&
    (match field b m with
      | some f => (row.opcode ||| f) % 256 == b && (b ||| f) % 256 == b
      | none => true)) &&
  ((modes row).any (fun m => (field b m).isSome) || row.opcode == b)

/-- The instruction so far. -/
structure Sync (b : Nat) (row : Row) (a : Asm) (r : Rd) (c : Nat) : Prop where
  err : a.err = .OK
  opc : a.opc = c
  code : c = row.opcode ∨ c = b
  bytes : r.bytes = b :: a.ops

theorem getUnsigned_nat {v : Nat} (h : v < 65536) :
    (⟨v, .unsigned⟩ : Value).getUnsigned = v := getUnsigned_num (by omega)

theorem emit_one {b : Nat} {row : Row} (hrow : rowOk b row = true) (hb : b < 256) {m : Mode} (hm : m ∈ modes row)
    (ha : m = .AD08 → addr + 1 < 4096) {r r' : Rd} {op : Operand} {a : Asm} {c : Nat}
    (h : Rel b addr m r r' op) (hs : Sync b row a r c) :
    ∃ a', encodeOperand addr m op a = .ok a' ∧ Sync b row a' r' (if (field b m).isSome then b else c) := by
  simp only [rowOk, Bool.and_eq_true, List.all_eq_true, decide_eq_true_eq, Bool.or_eq_true] at hrow
  obtain ⟨⟨w2, w3⟩, w4⟩ := hrow
  obtain ⟨⟨⟨w31, w32⟩, w33⟩, w34⟩ := w3 m hm
  obtain ⟨k1, k2, bs, k3, k4, k5⟩ := h
  obtain ⟨s1, s2, s3, s4⟩ := hs
  have nop : ∀ {r' : Rd}, Took r r' [] → Sync b row a r' c := fun t =>
    ⟨s1, s2, s3, by rw [t.bytes, List.append_nil]; exact s4⟩
  have add : ∀ {bs : List Nat}, Took r r' bs → Sync b row { a with ops := a.ops ++ bs } r' c := fun t =>
    ⟨s1, s2, s3, by rw [t.bytes, s4]; rfl⟩
  have code : ∀ f, field b m = some f → (a.opc ||| f) % 256 = b := by
    intro f hf
    rw [hf] at w34
    simp only [Bool.and_eq_true, beq_iff_eq] at w34
    rw [s2]
    rcases s3 with rfl | rfl
    · exact w34.1
    · exact w34.2
  have embed : ∀ n f, field b m = some f → n = f → Took r r' [] →
      Sync b row (a.embed n) r' (if (field b m).isSome then b else c) := by
    intro n f hf hn t
    subst hn
    have hif : (if (field b m).isSome then b else c) = b := by rw [hf]; rfl
    rw [hif]
    exact ⟨s1, code _ hf, Or.inr rfl, (nop t).bytes⟩
  have byte : ∀ {v : Nat}, v < 256 → bs = [v] → op.val = ⟨v, .unsigned⟩ →
      Sync b row ((a.check op.val.overflowUint8 .OVERFLOW_RANGE).emit8 op.val.getUnsigned) r' c := by
    intro v hv hbs hval
    have ho : op.val.overflowUint8 = false := by
      rw [hval]
      exact overflow_num (by omega) (by omega) (by omega)
    rw [ho, hval, getUnsigned_nat (by omega)]
    have := add k3
    rw [hbs] at this
    show Sync b row (a.emit8 v) r' c
    unfold Asm.emit8
    rwa [show v % 256 = v by omega]
  unfold encodeOperand
  rw [k1, Asm.noError]
  have reg : ∀ {rg : Bool × Reg}, regOf b m = some rg → op.reg = (regOf b m).map (·.2) → op.reg = some rg.2 := by
    intro rg h1 h2
    rw [h2, h1]
    rfl
  cases m with
  | NONE => exact absurd rfl w31
  | UNDEF => exact absurd rfl w32
  | R | IR | IR3 =>
    obtain ⟨rfl, k7⟩ := k5
    refine ⟨_, rfl, embed _ _ rfl ?_ k3⟩
    have k7 : op.reg = some (rreg b) := k7
    unfold regNum
    rw [k7]
    rfl
  | P12 | PEXT =>
    obtain ⟨rfl, k7⟩ := k5
    refine ⟨_, rfl, embed _ _ rfl ?_ k3⟩
    have k7 : op.reg = some (port b) := k7
    unfold regNum
    rw [k7]
    exact (by decide +kernel : ∀ b < 256, (port b + 256 - REG_BUS) % 256 = b % 8) b hb
  | F =>
    obtain ⟨rfl, k7⟩ := k5
    refine ⟨_, rfl, embed _ _ rfl ?_ k3⟩
    have k7 : op.reg = some (if b / 32 % 2 = 1 then REG_F1 else REG_F0) := k7
    rw [k7]
    by_cases hx : b / 32 % 2 = 1
    · rw [if_pos hx, if_pos rfl, hx]
    · rw [if_neg hx, if_neg (by decide), show b / 32 % 2 = 0 by omega]
  | RB =>
    obtain ⟨rfl, k7⟩ := k5
    refine ⟨_, rfl, embed _ _ rfl ?_ k3⟩
    have k7 : op.reg = some (if b / 16 % 2 = 1 then REG_RB1 else REG_RB0) := k7
    rw [k7]
    by_cases hx : b / 16 % 2 = 1
    · rw [if_pos hx, if_pos rfl, hx]
    · rw [if_neg hx, if_neg (by decide), show b / 16 % 2 = 0 by omega]
  | MB =>
    obtain ⟨rfl, k7⟩ := k5
    refine ⟨_, rfl, embed _ _ rfl ?_ k3⟩
    have k7 : op.reg = some (if b / 16 % 2 = 1 then REG_MB1 else REG_MB0) := k7
    rw [k7]
    by_cases hx : b / 16 % 2 = 1
    · rw [if_pos hx, if_pos rfl, hx]
    · rw [if_neg hx, if_neg (by decide), show b / 16 % 2 = 0 by omega]
  | BITN =>
    obtain ⟨rfl, k7⟩ := k5
    have ho : op.val.overflow 7 0 = false := by
      rw [k7]
      exact overflow_num (by omega) (by omega) (by omega)
    refine ⟨_, rfl, ?_⟩
    rw [ho, k7, getUnsigned_nat (by omega)]
    exact embed _ _ rfl (by omega) k3
  | IMM8 =>
    obtain ⟨v, h1, h2, h3⟩ := k5
    exact ⟨_, rfl, byte h1 h2 h3⟩
  | BIT8 =>
    obtain ⟨v, h1, h2, h3⟩ := k5
    exact ⟨_, rfl, byte h1 h2 h3⟩
  | AD08 =>
    have ha := ha rfl
    obtain ⟨v, h1, h2, h3⟩ := k5
    subst h2
    refine ⟨_, rfl, ?_⟩
    show Sync b row (encodeAddress addr .AD08 op a) r' c
    unfold encodeAddress
    rw [if_pos rfl, h3, getUnsigned_nat (by omega)]
    have hp : (page ((addr + 1) / 256 * 256 + v) != page (addr + 1)) = false := by
      unfold page
      simp only [bne_eq_false_iff_eq]
      omega
    rw [hp]
    show Sync b row (a.emit8 ((addr + 1) / 256 * 256 + v)) r' c
    unfold Asm.emit8
    rw [show ((addr + 1) / 256 * 256 + v) % 256 = v by omega]
    exact add k3
  | AD11 =>
    obtain ⟨v, h1, h2, h3⟩ := k5
    subst h2
    refine ⟨_, rfl, ?_⟩
    show Sync b row (encodeAddress addr .AD11 op a) r' b
    unfold encodeAddress
    rw [if_neg (by decide), h3, getUnsigned_nat (by omega)]
    have hp : (Config.checkAddr 12 (b / 32 * 256 + v) false != .OK) = false := by
      rw [address_ok (width := 12) (by decide) (by omega)]
      rfl
    rw [hp]
    refine ⟨s1, ?_, Or.inr rfl, ?_⟩
    · show (a.opc ||| (b / 32 * 256 + v) / 256 % 8 * 32) % 256 = b
      rw [show (b / 32 * 256 + v) / 256 % 8 * 32 = b / 32 * 32 by omega]
      exact code _ rfl
    · show r'.bytes = b :: (a.ops ++ [(b / 32 * 256 + v) % 256])
      rw [show (b / 32 * 256 + v) % 256 = v by omega]
      exact (add k3).bytes
  | A | BUS | P | P1 | P2 | PSW | C | I | T | CNT | TCNT | TCNTI | CLK | IA =>
    have : bs = [] := k5.1
    subst this
    exact ⟨_, rfl, nop k3⟩

/-! ### The table -/

/-- The entry that is found is this one. -/
def rowIs (x : Out (Except Err Row)) (row : Row) : Bool :=
  match x with
  | .ok (.ok r) => decide (r = row)
  | _ => false

theorem rowIs_eq {x : Out (Except Err Row)} {row : Row} (h : rowIs x row = true) : x = .ok (.ok row) := by
  unfold rowIs at h
  split at h
  · rw [of_decide_eq_true h]
  · cases h

def nameOk (cpu : CpuType) (b : Nat) (row : Row) (up : Bool) : Bool :=
  nameB syntaxOf (row.name.map (letter up)) &&
  rowIs (searchName cpu (row.name.map (letter up)) (pad 2 .NONE ((modes row).map (pmode b)))) row

/-- What the table has to say for a code. -/
def codeOk (cpu : CpuType) (b : Nat) : Bool :=
  match searchOpCode cpu b with
  | none => true
  | some row => rowOk b row && nameOk cpu b row false && nameOk cpu b row true

theorem codes_8039 : ∀ b < 256, codeOk .I8039 b = true := by decide +kernel
theorem codes_80C39 : ∀ b < 256, codeOk .I80C39 b = true := by decide +kernel
theorem codes_MSM80C39 : ∀ b < 256, codeOk .MSM80C39 b = true := by decide +kernel
theorem codes_8048 : ∀ b < 256, codeOk .I8048 b = true := by decide +kernel
theorem codes_80C48 : ∀ b < 256, codeOk .I80C48 b = true := by decide +kernel
theorem codes_MSM80C48 : ∀ b < 256, codeOk .MSM80C48 b = true := by decide +kernel

theorem codes_ok (cpu : CpuType) : ∀ b < 256, codeOk cpu b = true := by
  cases cpu
  · exact codes_8048
  · exact codes_8039
  · exact codes_80C48
  · exact codes_80C39
  · exact codes_MSM80C48
  · exact codes_MSM80C39

end Libasm.Cpu.I8048
