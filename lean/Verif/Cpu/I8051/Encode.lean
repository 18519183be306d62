import Verif.Cpu.Ops
import Verif.Cpu.Dot
import Verif.Cpu.Intel
import Verif.Cpu.I8051.Model
/-
How the i8051 assembler reads what its disassembler prints, and what it makes of it.
-/
namespace Libasm.Cpu.I8051
open Scan Number Number.Spec Eval
open Tables (Row)

theorem lexer_intel : lexer = intelLexer symbol := rfl

/-- The parsers at an address. -/
abbrev plug (E : Env) (addr : Nat) : Char → Plugins Value := fun delim => lexer.plugins E delim addr

theorem sym_seps : ∀ d ∈ seps, symbol false d = false := by decide

theorem regsOk : RegsOk regs := by decide
theorem regsNo : NoNumbers .intel regs := by decide

/-! ### Registers -/

/-- A register as it is printed. -/
theorem reg_text (o : Opts) (r : Reg) {rest : List Char} (hr : Sep rest) :
    searchText regs (outReg o r ++ rest) = .ok (some (r, rest)) ∧
    ∃ c s, outReg o r = c :: s ∧ Ctype.isAlpha c = true := by
  have h1 : ∀ (up : Bool) (r : Reg), ((regText regs r).map (letter up)) ≠ [] ∧
      (∀ c ∈ (regText regs r).map (letter up), Table.isNameLetter c = true) ∧
      (regs.find? fun e => decide (Table.Spec.Same e.1 ((regText regs r).map (letter up)))).map (·.2) =
        some r ∧ Ctype.isAlpha (((regText regs r).map (letter up)).headD '0') = true := by
    intro up r
    cases up <;> (cases r with | R n => revert n; decide | _ => decide)
  obtain ⟨g1, g2, g3, g4⟩ := h1 o.upper r
  refine ⟨reg_found regsOk ⟨g1, g2⟩ hr g3, ?_⟩
  obtain ⟨c, s, hc⟩ := List.exists_cons_of_ne_nil g1
  refine ⟨c, s, hc, ?_⟩
  rw [hc] at g4
  exact g4

/-- A letter starts no other operand than a register or a symbol. -/
theorem alpha_head {c : Char} (s : List Char) (h : Ctype.isAlpha c = true) :
    skipSpaces (c :: s) = c :: s ∧ semicolonEnd (c :: s) = false ∧ expect '#' (c :: s) = none ∧
    expect '@' (c :: s) = none ∧ Ctype.isSpace c = false := by
  have := Ctype.ascii (p := fun c => Ctype.isAlpha c = true → Ctype.isSpace c = false ∧ c ≠ ';' ∧
    c ≠ '\x00' ∧ c ≠ '#' ∧ c ≠ '@') (by decide +kernel) c (alpha_ascii h) h
  obtain ⟨h1, h2, h3, h4, h5⟩ := this
  have key : ∀ d, c ≠ d → expect d (c :: s) = none := by
    intro d hd
    exact expect_none (by intro e he; injection he with he; exact he ▸ hd)
  refine ⟨?_, ?_, key _ h4, key _ h5, h1⟩
  · unfold skipSpaces trimStart
    rw [List.dropWhile_cons, h1]
    rfl
  · show (c == '\x00' || c == ';') = false
    simp [h2, h3]

variable {E : Env} {addr : Nat}

/-- A register by itself. -/
theorem reg_reads (o : Opts) (r : Reg) {rest : List Char} (hr : Sep rest) :
    parseOperand (plug E addr) (outReg o r ++ rest) =
      registerOperand false r (outReg o r ++ rest) rest := by
  obtain ⟨h1, c, s, h2, h3⟩ := reg_text o r hr
  obtain ⟨k1, k2, k3, k4, k5⟩ := alpha_head (s ++ rest) h3
  rw [h2, List.cons_append] at h1 ⊢
  unfold parseOperand
  rw [k1]
  dsimp only
  rw [show (plug E addr '\x00').endOfLine (c :: (s ++ rest)) = false from k2, if_neg (by decide), k3]
  dsimp only
  rw [k4]
  simp only [Option.isSome, Option.getD, Bool.false_eq_true, false_and, if_false]
  rw [h1, Out.ok_bind]

/-- A register after `@`. -/
theorem indirect_reads (o : Opts) (r : Reg) {rest : List Char} (hr : Sep rest) :
    parseOperand (plug E addr) ('@' :: (outReg o r ++ rest)) =
      registerOperand true r ('@' :: (outReg o r ++ rest)) rest := by
  obtain ⟨h1, c, s, h2, h3⟩ := reg_text o r hr
  obtain ⟨k1, k2, k3, k4, k5⟩ := alpha_head (s ++ rest) h3
  unfold parseOperand
  rw [show skipSpaces ('@' :: (outReg o r ++ rest)) = '@' :: (outReg o r ++ rest) from rfl]
  dsimp only
  rw [show (plug E addr '\x00').endOfLine ('@' :: (outReg o r ++ rest)) = false from rfl,
    if_neg (by decide), show expect '#' ('@' :: (outReg o r ++ rest)) = none from rfl]
  dsimp only
  rw [show expect '@' ('@' :: (outReg o r ++ rest)) = some (outReg o r ++ rest) from rfl]
  simp only [Option.isSome, Option.getD, true_and]
  rw [h1, if_neg (by rw [h2]; show ¬ Ctype.isSpace c = true; rw [k5]; decide), Out.ok_bind]

theorem sep_expect {rest : List Char} (h : AfterOp rest) : expect '+' rest = none ∧ expect '.' rest = none := by
  rcases h with rfl | ⟨s, rfl⟩ <;> exact ⟨rfl, rfl⟩

theorem indexed_reads (o : Opts) {rest : List Char} (hr : AfterOp rest) :
    parseOperand (plug E addr) ('@' :: (outReg o .A ++ '+' :: outReg o .DPTR) ++ rest) =
      .ok (.ok ({ mode := .INDXD, reg := some .A }, rest)) ∧
    parseOperand (plug E addr) ('@' :: (outReg o .A ++ '+' :: outReg o .PC) ++ rest) =
      .ok (.ok ({ mode := .INDXP, reg := some .A }, rest)) := by
  have e : ∀ r, '@' :: (outReg o .A ++ '+' :: outReg o r) ++ rest =
      '@' :: (outReg o .A ++ ('+' :: (outReg o r ++ rest))) := by intro r; simp
  have h1 := (reg_text o .DPTR (hr.stop (sym := symbol) (E := E) (delim := '.') (loc := addr)).1).1
  have h2 := (reg_text o .PC (hr.stop (sym := symbol) (E := E) (delim := '.') (loc := addr)).1).1
  constructor
  · rw [e, indirect_reads o .A (Sep.cons (by decide) _)]
    unfold registerOperand
    rw [if_pos (by decide), show expect '+' ('+' :: (outReg o .DPTR ++ rest)) = some (outReg o .DPTR ++ rest) from rfl]
    dsimp only
    rw [h1, Out.ok_bind]
  · rw [e, indirect_reads o .A (Sep.cons (by decide) _)]
    unfold registerOperand
    rw [if_pos (by decide), show expect '+' ('+' :: (outReg o .PC ++ rest)) = some (outReg o .PC ++ rest) from rfl]
    dsimp only
    rw [h2, Out.ok_bind]

/-! ### Numbers -/

/-- Text of value `w`: the first letter, and what the evaluator makes of it. -/
structure Expr (E : Env) (addr : Nat) (delim : Char) (t : List Char) (w : Nat) : Prop where
  head : ∃ c s, t = c :: s ∧ c ∈ '$' :: firsts .intel
  reads : ∀ rest, AfterOp rest →
    parseInteger (lexer.plugins E delim addr) (t ++ rest) .OK = .ok (⟨w, .unsigned⟩, .OK, rest)

theorem expr_num {w : Nat} {delim : Char} {t : List Char} (h : NumText .intel .intel t w) :
    Expr E addr delim t w := by
  refine ⟨?_, fun rest hr => ?_⟩
  · obtain ⟨c, s, h1, h2⟩ := lead_first h.lead
    exact ⟨c, s, h1, List.mem_cons_of_mem _ h2⟩
  · obtain ⟨h1, h2⟩ := hr.stop (sym := symbol) (E := E) (delim := delim) (loc := addr)
    exact eval_const (const_of (intel_lexOk symbol) h E delim addr) h1 h2

theorem expr_rel {w : Nat} {o : Opts} (hsym : o.relative = true → o.curSym = '$')
    (ha : addr < 65536) (hw : w < 65536) (hd : ((w : Int) - addr).natAbs < 256) :
    Expr E addr '.' (outRelAddr .intel o 16 w addr 8) w := by
  have key := fun rest (hr : AfterOp rest) => intel_rel (E := E) (sym := symbol) (by decide) sym_seps hsym
    (delim := '.') (by decide) (width := 16) (bits := 8) (by decide) (by decide) ha hw (by decide)
    (by decide) hd (hr.stop (sym := symbol) (E := E) (delim := '.') (loc := addr)).1 (hr.stop (sym := symbol) (E := E) (delim := '.') (loc := addr)).2
  exact ⟨(key [] (Or.inl rfl)).2, fun rest hr => (key rest hr).1⟩

theorem digit_head {c : Char} (s : List Char) (hc : c ∈ '$' :: firsts .intel) :
    skipSpaces (c :: s) = c :: s ∧ semicolonEnd (c :: s) = false ∧ expect '#' (c :: s) = none ∧
    expect '@' (c :: s) = none ∧ expect '/' (c :: s) = none ∧ Table.isNameLetter '/' = false := by
  have h1 : ∀ c ∈ '$' :: firsts .intel, Ctype.isSpace c = false ∧ c ≠ ';' ∧
    c ≠ '\x00' ∧ c ≠ '#' ∧ c ≠ '@' ∧ c ≠ '/' := by decide
  obtain ⟨h1, h2, h3, h4, h5, h6⟩ := h1 c hc
  have key : ∀ d, c ≠ d → expect d (c :: s) = none := by
    intro d hd
    exact expect_none (by intro e he; injection he with he; exact he ▸ hd)
  refine ⟨?_, ?_, key _ h4, key _ h5, key _ h6, by decide⟩
  · unfold skipSpaces trimStart
    rw [List.dropWhile_cons, h1]
    rfl
  · show (c == '\x00' || c == ';') = false
    simp [h2, h3]

/-- Text that is no register is taken as an address. -/
theorem address_reads {c : Char} {s : List Char} (hc : c ∈ '$' :: firsts .intel)
    (hreg : searchText regs (c :: s) = .ok none) :
    parseOperand (plug E addr) (c :: s) = addressOperand (plug E addr) (c :: s) := by
  obtain ⟨k1, k2, k3, k4, k5, _⟩ := digit_head s hc
  unfold parseOperand
  rw [k1]
  dsimp only
  rw [show (plug E addr '\x00').endOfLine (c :: s) = false from k2, if_neg (by decide), k3]
  dsimp only
  rw [k4]
  simp only [Option.isSome, Option.getD, Bool.false_eq_true, false_and, if_false]
  rw [hreg, Out.ok_bind]

theorem not_reads (s : List Char) :
    parseOperand (plug E addr) ('/' :: s) = addressOperand (plug E addr) ('/' :: s) := by
  unfold parseOperand
  rw [show skipSpaces ('/' :: s) = '/' :: s from rfl]
  dsimp only
  rw [show (plug E addr '\x00').endOfLine ('/' :: s) = false from rfl, if_neg (by decide),
    show expect '#' ('/' :: s) = none from rfl]
  dsimp only
  rw [show expect '@' ('/' :: s) = none from rfl]
  simp only [Option.isSome, Option.getD, Bool.false_eq_true, false_and, if_false]
  rw [reg_none_head regsOk (by intro d hd; injection hd with hd; subst hd; decide), Out.ok_bind]

/-- An address. -/
theorem plain_reads {w : Nat} {t rest : List Char} (h : Expr E addr '.' t w)
    (hreg : searchText regs (t ++ rest) = .ok none) (hr : AfterOp rest) :
    parseOperand (plug E addr) (t ++ rest) = .ok (.ok ({ mode := .ADR16, val := ⟨w, .unsigned⟩ }, rest)) := by
  have e := h.reads rest hr
  obtain ⟨c, s, h1, h2⟩ := h.head
  rw [h1, List.cons_append] at hreg e ⊢
  obtain ⟨k1, k2, k3, k4, k5, _⟩ := digit_head (s ++ rest) h2
  rw [address_reads h2 hreg]
  unfold addressOperand
  rw [k5]
  simp only [Option.isSome, Option.getD]
  rw [k1, e, Out.ok_bind]
  dsimp only
  rw [if_neg (by decide), (sep_expect hr).2]
  rfl

theorem imm_reads {w : Nat} {t rest : List Char} (h : Expr E addr '\x00' t w) (hr : AfterOp rest) :
    parseOperand (plug E addr) ('#' :: t ++ rest) = .ok (.ok ({ mode := .IMM16, val := ⟨w, .unsigned⟩ }, rest)) := by
  have e := h.reads rest hr
  unfold parseOperand
  rw [show skipSpaces ('#' :: t ++ rest) = '#' :: (t ++ rest) from rfl]
  dsimp only
  rw [show (plug E addr '\x00').endOfLine ('#' :: (t ++ rest)) = false from rfl, if_neg (by decide),
    show expect '#' ('#' :: (t ++ rest)) = some (t ++ rest) from rfl]
  dsimp only
  rw [show plug E addr '\x00' = lexer.plugins E '\x00' addr from rfl, e, Out.ok_bind]
  rfl

/-- The byte of a bit address and the bit number give the bit address. -/
theorem bit_address (v : Nat) (h : v < 256) :
    bitAddress (if 128 ≤ v then v / 8 * 8 else v / 8 + 0x20) (v % 8) = some v := by
  have : ∀ v < 256, bitAddress (if 128 ≤ v then v / 8 * 8 else v / 8 + 0x20) (v % 8) = some v := by
    decide +kernel
  exact this v h

/-- The text after the `/`, if there is one. -/
theorem bit_text (o : Opts) {v : Nat} (hv : v < 256) {rest : List Char} (hr : AfterOp rest) (start : Scan)
    (h : (expect '/' start).getD start = outAbsAddr .intel o 8 (if 128 ≤ v then v / 8 * 8 else v / 8 + 0x20) ++
      '.' :: (outHex .intel o (v % 8) 3 true ++ rest)) :
    addressOperand (plug E addr) start =
      .ok (.ok ({ mode := if (expect '/' start).isSome then .NOTAD else .BITAD, val := ⟨v, .unsigned⟩ }, rest)) := by
  have ha : (if 128 ≤ v then v / 8 * 8 else v / 8 + 0x20) < 2 ^ 8 := by split <;> omega
  have e := dot_eval (intel_lexOk symbol) rfl o ha (by decide) (by decide) E addr
    (outHex .intel o (v % 8) 3 true ++ rest)
  have hl := (outAbsAddr_num (intel_pairs o) _ 8 ha (by decide) (by decide)).lead
  have e2 : parseInteger (lexer.plugins E '\x00' addr) (outHex .intel o (v % 8) 3 true ++ rest) .OK =
      .ok (⟨v % 8, .unsigned⟩, .OK, rest) := (expr_num (E := E) (addr := addr) (delim := '\x00')
    (outHex_num (intel_pairs o) (v % 8) 3 true (by omega) (by decide) (by decide))).reads rest hr
  unfold addressOperand
  rw [h]
  dsimp only
  rw [lead_space (hl.append _), show plug E addr '.' = (intelLexer symbol).plugins E '.' addr from rfl, e,
    Out.ok_bind]
  dsimp only
  rw [if_neg (by decide), show ∀ s, expect '.' ('.' :: s) = some s from fun _ => rfl]
  dsimp only
  rw [show plug E addr '\x00' = lexer.plugins E '\x00' addr from rfl, e2, Out.ok_bind]
  dsimp only
  rw [overflow_num (by omega) (by omega) (by omega), if_neg (by decide), if_neg (by decide),
    getUnsigned_num (by omega), getUnsigned_num (by omega), bit_address v hv]
  dsimp only
  rw [show Value.setUnsigned v = ⟨v, .unsigned⟩ by
    unfold Value.setUnsigned Value.setU Value.M
    congr 1
    omega]
  rfl

theorem bit_reads (o : Opts) {v : Nat} (hv : v < 256) {rest : List Char} (hr : AfterOp rest) :
    parseOperand (plug E addr) (outAbsAddr .intel o 8 (if 128 ≤ v then v / 8 * 8 else v / 8 + 0x20) ++
      '.' :: outHex .intel o (v % 8) 3 true ++ rest) =
      .ok (.ok ({ mode := .BITAD, val := ⟨v, .unsigned⟩ }, rest)) ∧
    parseOperand (plug E addr) ('/' :: (outAbsAddr .intel o 8 (if 128 ≤ v then v / 8 * 8 else v / 8 + 0x20) ++
      '.' :: outHex .intel o (v % 8) 3 true) ++ rest) =
      .ok (.ok ({ mode := .NOTAD, val := ⟨v, .unsigned⟩ }, rest)) := by
  have ha : (if 128 ≤ v then v / 8 * 8 else v / 8 + 0x20) < 2 ^ 8 := by split <;> omega
  have hl := (outAbsAddr_num (intel_pairs o) _ 8 ha (by decide) (by decide)).lead
  have ht := fun start h => bit_text (E := E) (addr := addr) o hv hr start h
  generalize outAbsAddr .intel o 8 (if 128 ≤ v then v / 8 * 8 else v / 8 + 0x20) = t at *
  have hlead := hl.append ('.' :: (outHex .intel o (v % 8) 3 true ++ rest))
  have e1 : t ++ '.' :: outHex .intel o (v % 8) 3 true ++ rest =
    t ++ '.' :: (outHex .intel o (v % 8) 3 true ++ rest) := by simp
  have e2 : '/' :: (t ++ '.' :: outHex .intel o (v % 8) 3 true) ++ rest =
    '/' :: (t ++ '.' :: (outHex .intel o (v % 8) 3 true ++ rest)) := by simp
  rw [e1, e2]
  have hreg := reg_none regsOk regsNo hlead
  obtain ⟨c, s, h1, h2⟩ := lead_first hlead
  constructor
  · have k5 := (digit_head s (List.mem_cons_of_mem '$' h2)).2.2.2.2.1
    have := ht (t ++ '.' :: (outHex .intel o (v % 8) 3 true ++ rest)) (by rw [h1, k5]; rfl)
    rw [h1] at hreg this ⊢
    rw [address_reads (List.mem_cons_of_mem _ h2) hreg, this, k5]
    rfl
  · rw [not_reads, ht _ rfl]
    rfl

/-! ### What is printed of an operand -/

/-- The mode an operand is read with. -/
def pmode : Mode → Mode
  | .REL | .ADR8 | .ADR11 => .ADR16
  | .IMM8 => .IMM16
  | m => m

/-- The bytes `bs` of the operand and what is read of it; `b` is the code. -/
def Vals (b addr : Nat) (m : Mode) (r' : Rd) (bs : List Nat) (op : Operand) : Prop :=
  match m with
  | .ADR8 => ∃ v, v < 256 ∧ bs = [v] ∧ op.val = ⟨v, .unsigned⟩ ∧ (b = 0xE5 → v ≠ 0xE0)
  | .BITAD | .NOTAD | .IMM8 => ∃ v, v < 256 ∧ bs = [v] ∧ op.val = ⟨v, .unsigned⟩
  | .ADR16 | .IMM16 => ∃ v, v < 65536 ∧ bs = [v / 256, v % 256] ∧ op.val = ⟨v, .unsigned⟩
  | .ADR11 => ∃ v, v < 256 ∧ bs = [v] ∧
    op.val = ⟨(addr + r'.bytes.length) % 65536 / 2048 * 2048 + b / 32 * 256 + v, .unsigned⟩
  | .REL => ∃ v w : Nat, v < 256 ∧ w < 65536 ∧ bs = [v] ∧ (w : Int) = ((addr + r'.bytes.length : Nat) : Int) + int8 v ∧
    op.val = ⟨w, .unsigned⟩
  | .RREG => bs = [] ∧ op.reg = some (rreg (b % 8))
  | .IDIRR => bs = [] ∧ op.reg = some (rreg (b % 2))
  | _ => bs = []

/-- The operand `op` was decoded from `r` to `r'`. -/
structure Rel (b addr : Nat) (m : Mode) (r r' : Rd) (op : Operand) : Prop where
  err : op.err = .OK
  mode : op.mode = pmode m
  len : r'.bytes.length ≤ 100
  vals : ∃ bs, Took r r' bs ∧ bs.length ≤ 10 ∧ Vals b addr m r' bs op

theorem operand_mono {o : Opts} {b : Nat} (m : Mode) (r : Rd)
    (h : (decodeOperand o addr b m r).2.err = .OK) : r.err = .OK := by
  unfold decodeOperand at h
  cases m <;> first
    | exact h
    | exact byte_err h
    | exact byte_err (byte_err h)
    | exact byte_err (setErrorIf_ok h).1
    | skip
  dsimp only at h
  split at h
  · exact byte_err (setErrorIf_ok h).1
  · exact byte_err h

theorem operand_reads {o : Opts} (hsym : o.relative = true → o.curSym = '$') {m : Mode} {b k : Nat} {r : Rd}
    (hm : m ≠ .NONE ∧ m ≠ .UNDEF) (ha : addr < 65536) (hb : b < 256) (hroom : Room (k + 1) r)
    (h : (decodeOperand o addr b m r).2.err = .OK) :
    ∃ op, Rel b addr m r (decodeOperand o addr b m r).2 op ∧
      ∀ rest, AfterOp rest →
        parseOperand (plug E addr) ((decodeOperand o addr b m r).1 ++ rest) = .ok (.ok (op, rest)) := by
  have hP := intel_pairs o
  have hmem := hroom.mem
  have hl0 : r.bytes.length ≤ 100 := by have := hroom.len; omega
  have hlen' : ∀ {r' : Rd} {bs}, Took r r' bs → bs.length ≤ 2 → r'.bytes.length ≤ 100 := by
    intro r' bs t hb
    have := hroom.len
    rw [t.bytes, List.length_append]
    omega
  have hsep : ∀ {rest}, AfterOp rest → Sep rest := fun hr =>
    (AfterOp.stop (sym := symbol) (E := E) (delim := '.') (loc := addr) hr).1
  have hreg : ∀ {t : List Char} {v : Nat} (_ : NumText .intel .intel t v) (rest),
      searchText regs (t ++ rest) = .ok none := fun h rest => reg_none regsOk regsNo (h.lead.append rest)
  have plus : ∀ {rest}, AfterOp rest → expect '+' rest = none := fun hr => (sep_expect hr).1
  unfold decodeOperand at h ⊢
  cases m with
  | NONE => exact absurd rfl hm.1
  | UNDEF => exact absurd rfl hm.2
  | AREG =>
    refine ⟨{ mode := .AREG, reg := some .A }, ⟨rfl, rfl, hl0, [], Took.refl h, by decide, rfl⟩, fun rest hr => ?_⟩
    rw [reg_reads o .A (hsep hr)]; rfl
  | CREG =>
    refine ⟨{ mode := .CREG, reg := some .C }, ⟨rfl, rfl, hl0, [], Took.refl h, by decide, rfl⟩, fun rest hr => ?_⟩
    rw [reg_reads o .C (hsep hr)]; rfl
  | DREG =>
    refine ⟨{ mode := .DREG, reg := some .DPTR }, ⟨rfl, rfl, hl0, [], Took.refl h, by decide, rfl⟩, fun rest hr => ?_⟩
    rw [reg_reads o .DPTR (hsep hr)]; rfl
  | ABREG =>
    refine ⟨{ mode := .ABREG, reg := some .AB }, ⟨rfl, rfl, hl0, [], Took.refl h, by decide, rfl⟩, fun rest hr => ?_⟩
    rw [reg_reads o .AB (hsep hr)]; rfl
  | RREG =>
    refine ⟨{ mode := .RREG, reg := some (rreg (b % 8)) },
      ⟨rfl, rfl, hl0, [], Took.refl h, by decide, rfl, rfl⟩, fun rest hr => ?_⟩
    rw [reg_reads o _ (hsep hr)]; rfl
  | IDIRR =>
    refine ⟨{ mode := .IDIRR, reg := some (rreg (b % 2)) },
      ⟨rfl, rfl, hl0, [], Took.refl h, by decide, rfl, rfl⟩, fun rest hr => ?_⟩
    dsimp only
    rw [List.cons_append, indirect_reads o _ (hsep hr)]
    unfold registerOperand rreg
    rw [if_neg (by simp)]
    dsimp only
    rw [if_pos rfl, if_pos (by omega)]
  | IDIRD =>
    refine ⟨{ mode := .IDIRD, reg := some .DPTR }, ⟨rfl, rfl, hl0, [], Took.refl h, by decide, rfl⟩, fun rest hr => ?_⟩
    dsimp only
    rw [List.cons_append, indirect_reads o _ (hsep hr)]; rfl
  | INDXD =>
    exact ⟨{ mode := .INDXD, reg := some .A }, ⟨rfl, rfl, hl0, [], Took.refl h, by decide, rfl⟩,
      fun rest hr => (indexed_reads o hr).1⟩
  | INDXP =>
    exact ⟨{ mode := .INDXP, reg := some .A }, ⟨rfl, rfl, hl0, [], Took.refl h, by decide, rfl⟩,
      fun rest hr => (indexed_reads o hr).2⟩
  | ADR8 =>
    dsimp only at h ⊢
    have hx : invalidDirect b r.byte.1 = false ∧ r.byte.2.err = .OK := by
      cases hi : invalidDirect b r.byte.1 with
      | true => rw [hi] at h; exact absurd (setErrorIf_ok h).2 (by decide)
      | false => rw [hi] at h; exact ⟨rfl, h⟩
    rw [hx.1, if_neg (by decide)]
    obtain ⟨h1, h2⟩ := byte_took hmem hx.2
    have hn := outAbsAddr_num hP r.byte.1 8 h1 (by decide) (by decide)
    refine ⟨{ mode := .ADR16, val := ⟨r.byte.1, .unsigned⟩ }, ⟨rfl, rfl, hlen' h2 (by simp), _, h2, by simp, _, h1, rfl, rfl, ?_⟩,
      fun rest hr => plain_reads (expr_num hn) (hreg hn rest) hr⟩
    intro h5 h6
    have := hx.1
    rw [h5, h6] at this
    cases this
  | ADR11 =>
    dsimp only at h ⊢
    obtain ⟨h1, h2⟩ := byte_took hmem h
    generalize hT : (addr + r.byte.2.bytes.length) % 65536 / 2048 * 2048 + b / 32 * 256 + r.byte.1 = T at *
    have hn := outAbsAddr_num hP T 16 (by omega) (by decide) (by decide)
    exact ⟨{ mode := .ADR16, val := ⟨T, .unsigned⟩ }, ⟨rfl, rfl, hlen' h2 (by simp), _, h2, by simp, _, h1, rfl, by rw [hT]⟩,
      fun rest hr => plain_reads (expr_num hn) (hreg hn rest) hr⟩
  | ADR16 =>
    dsimp only at h ⊢
    obtain ⟨h1, h2⟩ := be16_took hmem h
    have hn := outAbsAddr_num hP r.be16.1 16 h1 (by decide) (by decide)
    exact ⟨{ mode := .ADR16, val := ⟨r.be16.1, .unsigned⟩ }, ⟨rfl, rfl, hlen' h2 (by simp), _, h2, by simp, _, h1, rfl, rfl⟩,
      fun rest hr => plain_reads (expr_num hn) (hreg hn rest) hr⟩
  | IMM8 =>
    dsimp only at h ⊢
    obtain ⟨h1, h2⟩ := byte_took hmem h
    have hn := outHex_num hP r.byte.1 8 true h1 (by decide) (by decide)
    exact ⟨{ mode := .IMM16, val := ⟨r.byte.1, .unsigned⟩ }, ⟨rfl, rfl, hlen' h2 (by simp), _, h2, by simp, _, h1, rfl, rfl⟩,
      fun rest hr => imm_reads (expr_num hn) hr⟩
  | IMM16 =>
    dsimp only at h ⊢
    obtain ⟨h1, h2⟩ := be16_took hmem h
    have hn := outAbsAddr_num hP r.be16.1 16 h1 (by decide) (by decide)
    exact ⟨{ mode := .IMM16, val := ⟨r.be16.1, .unsigned⟩ }, ⟨rfl, rfl, hlen' h2 (by simp), _, h2, by simp, _, h1, rfl, rfl⟩,
      fun rest hr => imm_reads (expr_num hn) hr⟩
  | BITAD =>
    unfold decodeBitAddr at h ⊢
    dsimp only at h ⊢
    obtain ⟨h1, h2⟩ := byte_took hmem h
    exact ⟨{ mode := .BITAD, val := ⟨r.byte.1, .unsigned⟩ }, ⟨rfl, rfl, hlen' h2 (by simp), _, h2, by simp, _, h1, rfl, rfl⟩,
      fun rest hr => (bit_reads o h1 hr).1⟩
  | NOTAD =>
    unfold decodeBitAddr at h ⊢
    dsimp only at h ⊢
    obtain ⟨h1, h2⟩ := byte_took hmem h
    exact ⟨{ mode := .NOTAD, val := ⟨r.byte.1, .unsigned⟩ }, ⟨rfl, rfl, hlen' h2 (by simp), _, h2, by simp, _, h1, rfl, rfl⟩,
      fun rest hr => (bit_reads o h1 hr).2⟩
  | REL =>
    have hlen := hroom.len
    unfold decodeRelative at h ⊢
    dsimp only at h ⊢
    generalize hT : (((addr + r.byte.2.bytes.length : Nat) : Int) + int8 r.byte.1) % Config.W = T at *
    obtain ⟨g1, g2⟩ := setErrorIf_ok h
    obtain ⟨h1, h2⟩ := byte_took hmem g1
    have hi := int8_range _ h1
    have hl : r.byte.2.bytes.length = r.bytes.length + 1 := by rw [h2.bytes]; simp
    have hT' : T.toNat < 65536 := by
      rw [Config.checkAddr_eq false (by decide) (by unfold Config.W at *; omega)] at g2
      split at g2
      · cases g2
      · rename_i hlt
        simpa using hlt
    have hsh : (T.toNat : Int) = ((addr + r.byte.2.bytes.length : Nat) : Int) + int8 r.byte.1 := by
      unfold Config.W at hT
      omega
    have e := expr_rel (E := E) (addr := addr) hsym ha hT' (by omega)
    refine ⟨{ mode := .ADR16, val := ⟨T.toNat, .unsigned⟩ }, ⟨rfl, rfl, (hlen' h2 (by simp) : r.byte.2.bytes.length ≤ 100), _, ⟨h2.err, h2.mem, h2.bytes⟩, by simp,
      _, _, h1, hT', rfl, hsh, rfl⟩, fun rest hr => plain_reads e ?_ hr⟩
    obtain ⟨c, s, hc1, hc2⟩ := e.head
    rw [hc1, List.cons_append]
    rcases List.mem_cons.1 hc2 with rfl | hc2
    · exact reg_none_head regsOk (by intro d hd; injection hd with hd; subst hd; decide)
    · have hd : ∀ c ∈ firsts .intel, IsDigit 10 c := by decide
      exact reg_none regsOk regsNo (Or.inl ⟨c, _, hd c hc2, rfl⟩)

/-! ### What is emitted for an operand -/

/-- The modes that put bits into the code. -/
def emb : Mode → Bool
  | .RREG | .IDIRR | .ADR11 => true
  | _ => false

/-- The bits of the code `b` that a mode puts there. -/
def field (m : Mode) (b : Nat) : Nat :=
  match m with
  | .RREG => b % 8
  | .IDIRR => b % 2
  | .ADR11 => b / 32 * 32
  | _ => 0

/-- What the table has to say for the code `b` and its entry. -/
def rowOk (b : Nat) (row : Row) : Bool :=
  decide (row.opcode < 256) && decide ((modes row).length ≤ 3) &&
  (modes row).all (fun m => decide (m ≠ .NONE) && decide (m ≠ .UNDEF) &&
    (!emb m || ((row.opcode ||| field m b) % 256 == b && (b ||| field m b) % 256 == b)) &&
    (decide (m ≠ .BITAD ∧ m ≠ .NOTAD) || (b != 0xE5 && row.opcode != 0xE5)) &&
    (decide (m ≠ .ADR11) || decide (modes row = [.ADR11]))) &&
  ((modes row).any emb || row.opcode == b) &&
  (row.opcode != 0xE5 || b == 0xE5) &&
  (!(decide (dst row = .ADR8 ∧ src row = .ADR8)) || (decide (modes row = [.ADR8, .ADR8]) && b == 0x85 && row.opcode == 0x85))

/-- The instruction so far. -/
structure Sync (b : Nat) (row : Row) (a : Asm) (r : Rd) (c : Nat) : Prop where
  err : a.err = .OK
  opc : a.opc = c
  code : c = row.opcode ∨ c = b
  bytes : r.bytes = b :: a.ops

theorem getUnsigned_nat {v : Nat} (h : v < 65536) :
    (⟨v, .unsigned⟩ : Value).getUnsigned = v := getUnsigned_num (by omega)

theorem emit_one {b : Nat} {row : Row} (hrow : rowOk b row = true) (hb : b < 256) {m : Mode} (hm : m ∈ modes row)
    (h11 : m ≠ .ADR11) (ha : addr < 65536) {r r' : Rd} {op : Operand} {a : Asm} {c : Nat}
    (h : Rel b addr m r r' op) (hs : Sync b row a r c) :
    ∃ a', encodeOperand false addr m op a = .ok a' ∧ Sync b row a' r' (if emb m then b else c) := by
  simp only [rowOk, Bool.and_eq_true, List.all_eq_true, decide_eq_true_eq, Bool.or_eq_true] at hrow
  obtain ⟨⟨⟨⟨⟨w1, w2⟩, w3⟩, w4⟩, w5⟩, w6⟩ := hrow
  obtain ⟨⟨⟨⟨w31, w32⟩, w33⟩, w34⟩, w35⟩ := w3 m hm
  obtain ⟨k1, k2, hlen, bs, k3, k4, k5⟩ := h
  obtain ⟨s1, s2, s3, s4⟩ := hs
  have nop : ∀ {r' : Rd}, Took r r' [] → Sync b row a r' c := fun t =>
    ⟨s1, s2, s3, by rw [t.bytes, List.append_nil]; exact s4⟩
  have add : ∀ {bs : List Nat}, Took r r' bs → Sync b row { a with ops := a.ops ++ bs } r' c := fun t =>
    ⟨s1, s2, s3, by rw [t.bytes, s4]; rfl⟩
  unfold encodeOperand
  rw [k1, Asm.noError]
  have embed : ∀ n, field m b = n → emb m = true → Took r r' [] →
      Sync b row (a.embed n) r' (if emb m then b else c) := by
    intro n hn he t
    rw [he] at w33
    simp only [Bool.not_true, Bool.false_eq_true, false_or, beq_iff_eq] at w33
    refine ⟨s1, ?_, by rw [he]; exact Or.inr rfl, (nop t).bytes⟩
    show (a.opc ||| n) % 256 = _
    rw [he, if_pos rfl, s2, ← hn]
    rcases s3 with rfl | rfl
    · exact w33.1
    · exact w33.2
  have word : ∀ {v : Nat}, v < 65536 → bs = [v / 256, v % 256] → op.val = ⟨v, .unsigned⟩ →
      Sync b row (a.emit16be op.val.getUnsigned) r' c := by
    intro v hv hbs hval
    rw [hval, getUnsigned_nat hv]
    have := add k3
    rw [hbs] at this
    unfold Asm.emit16be
    rwa [show v / 256 % 256 = v / 256 by omega]
  have byte : ∀ {v : Nat}, v < 256 → bs = [v] → op.val = ⟨v, .unsigned⟩ →
      Sync b row (a.emit8 op.val.getUnsigned) r' c := by
    intro v hv hbs hval
    rw [hval, getUnsigned_nat (by omega)]
    have := add k3
    rw [hbs] at this
    unfold Asm.emit8
    rwa [show v % 256 = v by omega]
  have range : ∀ {v : Nat}, v < 256 → op.val = ⟨v, .unsigned⟩ → op.val.overflow 255 0 = false := by
    intro v hv hval
    rw [hval]
    exact overflow_num (by omega) (by omega) (by omega)
  have hopc : a.opc = row.opcode ∨ a.opc = b := by rw [s2]; exact s3
  simp only [bne_iff_ne, beq_iff_eq, ne_eq] at w5
  have h5 : b ≠ 0xE5 → a.opc ≠ 0xE5 := by
    intro hx
    rcases hopc with h | h
    · rw [h]
      rcases w5 with w5 | w5
      · exact w5
      · exact absurd w5 hx
    · rw [h]; exact hx
  have direct : ∀ {v : Nat} (e : Err), v < 256 → op.val = ⟨v, .unsigned⟩ → (b = 0xE5 → v ≠ 0xE0) →
      (a.check (op.val.overflow 255 0) e).check
        (invalidDirect (a.check (op.val.overflow 255 0) e).opc op.val.getUnsigned) .OPERAND_NOT_ALLOWED = a := by
    intro v e hv hval hx
    rw [range hv hval]
    show a.check (invalidDirect a.opc op.val.getUnsigned) .OPERAND_NOT_ALLOWED = a
    have : invalidDirect a.opc op.val.getUnsigned = false := by
      rw [hval, getUnsigned_nat (by omega)]
      unfold invalidDirect
      by_cases hb5 : b = 0xE5
      · have := hx hb5
        simp only [Bool.and_eq_false_iff, beq_eq_false_iff_ne]
        right; omega
      · simp [h5 hb5]
    rw [this]; rfl
  cases m with
  | ADR11 => exact absurd rfl h11
  | NONE => exact absurd rfl w31
  | UNDEF => exact absurd rfl w32
  | RREG =>
    obtain ⟨rfl, k7⟩ := k5
    refine ⟨_, rfl, ?_⟩
    rw [k7]
    exact embed _ (by show b % 8 = b % 8 % 8; omega) rfl k3
  | IDIRR =>
    obtain ⟨rfl, k7⟩ := k5
    refine ⟨_, rfl, ?_⟩
    rw [k7]
    exact embed _ (by show b % 2 = b % 2 % 8; omega) rfl k3
  | IMM8 =>
    obtain ⟨v, h1, h2, h3⟩ := k5
    have : op.val.overflowUint8 = false := by
      rw [h3]
      exact overflow_num (by omega) (by omega) (by omega)
    refine ⟨_, rfl, ?_⟩
    rw [this]
    exact byte h1 h2 h3
  | IMM16 =>
    obtain ⟨v, h1, h2, h3⟩ := k5
    exact ⟨_, rfl, word h1 h2 h3⟩
  | ADR16 =>
    obtain ⟨v, h1, h2, h3⟩ := k5
    exact ⟨_, rfl, word h1 h2 h3⟩
  | ADR8 =>
    obtain ⟨v, h1, h2, h3, h4⟩ := k5
    refine ⟨_, rfl, ?_⟩
    rw [direct _ h1 h3 h4]
    exact byte h1 h2 h3
  | BITAD =>
    obtain ⟨v, h1, h2, h3⟩ := k5
    simp at w34
    refine ⟨_, rfl, ?_⟩
    rw [direct _ h1 h3 (fun hx => absurd hx w34.1)]
    exact byte h1 h2 h3
  | NOTAD =>
    obtain ⟨v, h1, h2, h3⟩ := k5
    simp at w34
    refine ⟨_, rfl, ?_⟩
    rw [direct _ h1 h3 (fun hx => absurd hx w34.1)]
    exact byte h1 h2 h3
  | REL =>
    obtain ⟨v, w, h1, h2, h3, h4, h5⟩ := k5
    have hl : r'.bytes.length = a.ops.length + 2 := by
      rw [k3.bytes, s4, h3]; simp
    have hbase : (addr + (if a.length = 0 then 1 else a.length) + 1) % Config.W = addr + r'.bytes.length := by
      unfold Asm.length Config.W
      by_cases h0 : a.ops = []
      · rw [if_pos h0, if_pos rfl, hl, h0]
        simp only [List.length_nil]
        omega
      · rw [if_neg h0, if_neg (by omega), hl]
        omega
    refine ⟨{ a with ops := a.ops ++ [v] }, ?_, ?_⟩
    · show encodeRelative addr op a = _
      unfold encodeRelative
      rw [hbase, k1]
      dsimp only
      rw [if_neg (by simp), h5, getUnsigned_nat h2]
      exact Asm.rel8_near (by decide) (by decide) h1 (by unfold Config.W; omega) (by omega) h4 s1
    · rw [h3] at k3
      exact add k3
  | AREG => have : bs = [] := k5; subst this; exact ⟨_, rfl, nop k3⟩
  | CREG => have : bs = [] := k5; subst this; exact ⟨_, rfl, nop k3⟩
  | IDIRD => have : bs = [] := k5; subst this; exact ⟨_, rfl, nop k3⟩
  | DREG => have : bs = [] := k5; subst this; exact ⟨_, rfl, nop k3⟩
  | ABREG => have : bs = [] := k5; subst this; exact ⟨_, rfl, nop k3⟩
  | INDXD => have : bs = [] := k5; subst this; exact ⟨_, rfl, nop k3⟩
  | INDXP => have : bs = [] := k5; subst this; exact ⟨_, rfl, nop k3⟩

/-! ### The table -/

/-- The entry that is found is this one. -/
def rowIs (x : Out (Except Err Row)) (row : Row) : Bool :=
  match x with
  | .ok (.ok r) => decide (r = row)
  | _ => false

theorem rowIs_eq {x : Out (Except Err Row)} {row : Row} (h : rowIs x row = true) : x = .ok (.ok row) := by
  unfold rowIs at h
  split at h
  · rw [of_decide_eq_true h]
  · cases h

def nameOk (row : Row) (up : Bool) : Bool :=
  nameB syntaxOf (row.name.map (letter up)) &&
  rowIs (searchName (row.name.map (letter up)) (pad 3 .NONE ((modes row).map pmode))) row

/-- What the table has to say for a code. -/
def codeOk (b : Nat) : Bool :=
  match searchOpCode b with
  | none => true
  | some row => rowOk b row && nameOk row false && nameOk row true

theorem codes_ok : ∀ b < 256, codeOk b = true := by decide +kernel

end Libasm.Cpu.I8051
