import Verif.Cpu.Ops
import Verif.Cpu.Intel
import Verif.Cpu.I8096.Model
import Verif.Cpu.I8096.Spec
/-
How the i8096 assembler reads what its disassembler prints, and what it makes of it.
-/
namespace Libasm.Cpu.I8096
open Scan Number Number.Spec Eval
open Tables (Row)

theorem lexer_intel : lexer = intelLexer symbol := rfl

/-- The parsers at an address. -/
abbrev plug (E : Env) (addr : Nat) : Plugins Value := lexer.plugins E '\x00' addr

variable {E : Env} {addr : Nat}

/-! ### Numbers -/

/-- What may follow a number. -/
def After (rest : List Char) : Prop := AfterOp rest ∨ (∃ s, rest = '[' :: s) ∨ ∃ s, rest = ']' :: s

theorem After.stop {rest : List Char} (h : After rest) : Sep rest ∧ Stop (plug E addr) rest := by
  rcases h with h | ⟨s, rfl⟩ | ⟨s, rfl⟩
  · exact h.stop (sym := symbol)
  · refine ⟨Sep.cons (by decide) _, rfl, Or.inr (Or.inr ⟨?_, Or.inr rfl⟩)⟩
    show intelInfix ('[' :: s) = none
    rw [intel_infix (by decide)]
    rfl
  · refine ⟨Sep.cons (by decide) _, rfl, Or.inr (Or.inr ⟨?_, Or.inr rfl⟩)⟩
    show intelInfix (']' :: s) = none
    rw [intel_infix (by decide)]
    rfl

/-- Text of a number, as the evaluator takes it. -/
theorem num_reads {w : Nat} {t rest : List Char} (h : NumText .intel .intel t w) (hr : After rest) :
    parseInteger (plug E addr) (t ++ rest) .OK = .ok (⟨w, .unsigned⟩, .OK, rest) := by
  obtain ⟨h1, h2⟩ := hr.stop (E := E) (addr := addr)
  exact eval_const (const_of (intel_lexOk symbol) h E '\x00' addr) h1 h2

/-- How a number starts: a digit, a sign, the location. -/
def heads : List Char := '$' :: '-' :: firsts .intel

theorem digit_head {c : Char} (s : List Char) (hc : c ∈ heads) :
    skipSpaces (c :: s) = c :: s ∧ semicolonEnd (c :: s) = false ∧ expect '#' (c :: s) = none ∧
    expect '[' (c :: s) = none := by
  have h1 : ∀ c ∈ heads, Ctype.isSpace c = false ∧ c ≠ ';' ∧
    c ≠ '\x00' ∧ c ≠ '#' ∧ c ≠ '[' := by decide
  obtain ⟨h1, h2, h3, h4, h5⟩ := h1 c hc
  have key : ∀ d, c ≠ d → expect d (c :: s) = none := by
    intro d hd
    exact expect_none (by intro e he; injection he with he; exact he ▸ hd)
  refine ⟨?_, ?_, key _ h4, key _ h5⟩
  · unfold skipSpaces trimStart
    rw [List.dropWhile_cons, h1]
    rfl
  · show (c == '\x00' || c == ';') = false
    simp [h2, h3]

theorem after_bracket {rest : List Char} (h : AfterOp rest) :
    expect '[' (skipSpaces rest) = none ∧ skipSpaces rest = rest := by
  rcases h with rfl | ⟨t, rfl⟩
  · exact ⟨rfl, rfl⟩
  · exact ⟨rfl, rfl⟩

/-- Text of an expression: how it starts and what it is. -/
structure Expr (E : Env) (addr : Nat) (t : List Char) (v : Value) : Prop where
  head : ∃ c s, t = c :: s ∧ c ∈ heads
  reads : ∀ rest, After rest → parseInteger (plug E addr) (t ++ rest) .OK = .ok (v, .OK, rest)

theorem expr_num {w : Nat} {t : List Char} (h : NumText .intel .intel t w) :
    Expr E addr t ⟨w, .unsigned⟩ := by
  refine ⟨?_, fun rest hr => num_reads h hr⟩
  obtain ⟨c, s, h1, h2⟩ := lead_first h.lead
  exact ⟨c, s, h1, List.mem_cons_of_mem _ (List.mem_cons_of_mem _ h2)⟩

theorem expr_signed {x : Int} {t : List Char} (h : SignedText .intel .intel t x) :
    Expr E addr t (Value.setS x) := by
  refine ⟨?_, fun rest hr => ?_⟩
  · obtain ⟨u, h1, h2⟩ := h.ex
    by_cases hx : x < 0
    · rw [if_pos hx] at h1
      exact ⟨'-', u, h1, by decide⟩
    · rw [if_neg hx] at h1
      obtain ⟨c, s, h3, h4⟩ := lead_first h2.lead
      exact ⟨c, s, by rw [h1, h3]; rfl, List.mem_cons_of_mem _ (List.mem_cons_of_mem _ h4)⟩
  · obtain ⟨h1, h2⟩ := hr.stop (E := E) (addr := addr)
    exact eval_signed (intel_lexOk symbol) (intel_ops symbol E (by decide) addr) h h1 h2

theorem expr_rel {o : Opts} (hsym : o.relative = true → o.curSym = '$') {tgt bits : Nat} (ha : addr < 65536)
    (ht : tgt < 65536) (hb : bits ≤ 32) (hb0 : 1 ≤ bits) (hd : ((tgt : Int) - addr).natAbs < 2 ^ bits) :
    Expr E addr (outRelAddr .intel o 16 tgt addr bits) ⟨tgt, .unsigned⟩ := by
  have key : ∀ rest, After rest → parseInteger (plug E addr) (outRelAddr .intel o 16 tgt addr bits ++ rest) .OK =
      .ok (⟨tgt, .unsigned⟩, .OK, rest) ∧
      ∃ c s, outRelAddr .intel o 16 tgt addr bits = c :: s ∧ c ∈ '$' :: firsts .intel := by
    intro rest hr
    obtain ⟨h1, h2⟩ := hr.stop (E := E) (addr := addr)
    exact intel_rel (sym := symbol) (E := E) (delim := '\x00') (by decide) (by decide) hsym (by decide)
      (by decide) (by decide) ha ht hb hb0 hd h1 h2
  refine ⟨?_, fun rest hr => (key rest hr).1⟩
  obtain ⟨c, s, h1, h2⟩ := (key [] (Or.inl (Or.inl rfl))).2
  refine ⟨c, s, h1, ?_⟩
  rcases List.mem_cons.1 h2 with h2 | h2
  · rw [h2]; exact List.mem_cons_self ..
  · exact List.mem_cons_of_mem _ (List.mem_cons_of_mem _ h2)

/-! ### Operands -/

/-- An address, a register or a bit number. -/
theorem plain_reads {v : Value} {t rest : List Char} (h : Expr E addr t v) (hr : AfterOp rest) :
    parseOperand (plug E addr) (t ++ rest) = .ok (.ok ({ mode := .ADDR, val := v }, rest)) := by
  have e := h.reads rest (Or.inl hr)
  obtain ⟨c, s, h1, h2⟩ := h.head
  rw [h1, List.cons_append] at e ⊢
  obtain ⟨k1, k2, k3, k4⟩ := digit_head (s ++ rest) h2
  unfold parseOperand
  rw [k1]
  dsimp only
  rw [show (plug E addr).endOfLine (c :: (s ++ rest)) = false from k2, if_neg (by decide), k3]
  dsimp only
  rw [k4]
  dsimp only
  rw [e, Out.ok_bind]
  dsimp only
  rw [if_neg (by decide), (after_bracket hr).1]
  dsimp only
  rw [(after_bracket hr).2]

/-- A number after `#`. -/
theorem imm_reads {v : Value} {t rest : List Char} (h : Expr E addr t v) (hr : AfterOp rest) :
    parseOperand (plug E addr) ('#' :: t ++ rest) = .ok (.ok ({ mode := .IMM16, val := v }, rest)) := by
  have e := h.reads rest (Or.inl hr)
  unfold parseOperand
  rw [show skipSpaces ('#' :: t ++ rest) = '#' :: (t ++ rest) from rfl]
  dsimp only
  rw [show (plug E addr).endOfLine ('#' :: (t ++ rest)) = false from rfl, if_neg (by decide),
    show expect '#' ('#' :: (t ++ rest)) = some (t ++ rest) from rfl]
  dsimp only
  rw [e, Out.ok_bind]
  rfl

theorem bracket_reads {v : Value} {t rest : List Char} (h : Expr E addr t v) (op : Operand) (ho : op.err = .OK) :
    parseIndirect (plug E addr) (t ++ ']' :: rest) op = .ok (.ok ({ op with regno := v }, rest)) := by
  unfold parseIndirect
  rw [h.reads _ (Or.inr (Or.inr ⟨_, rfl⟩)), Out.ok_bind]
  dsimp only
  rw [show expect ']' (skipSpaces (']' :: rest)) = some rest from rfl]
  dsimp only
  rw [ho]
  cases op
  cases ho
  rfl

/-- A register in brackets. -/
theorem indir_reads {v : Value} {t rest : List Char} (h : Expr E addr t v) :
    parseOperand (plug E addr) ('[' :: (t ++ ']' :: rest)) =
      .ok (.ok ({ mode := .INDIR, regno := v, val := v }, rest)) := by
  unfold parseOperand
  rw [show skipSpaces ('[' :: (t ++ ']' :: rest)) = '[' :: (t ++ ']' :: rest) from rfl]
  dsimp only
  rw [show (plug E addr).endOfLine ('[' :: (t ++ ']' :: rest)) = false from rfl, if_neg (by decide),
    show expect '#' ('[' :: (t ++ ']' :: rest)) = none from rfl]
  dsimp only
  rw [show expect '[' ('[' :: (t ++ ']' :: rest)) = some (t ++ ']' :: rest) from rfl]
  dsimp only
  rw [bracket_reads h _ rfl, Out.ok_bind]

/-- A register in brackets after a displacement. -/
theorem index_reads {v w : Value} {t u rest : List Char} (h : Expr E addr t v) (hu : Expr E addr u w) :
    parseOperand (plug E addr) (t ++ '[' :: (u ++ ']' :: rest)) =
      .ok (.ok ({ mode := .IDX16, regno := w, val := v }, rest)) := by
  have e := h.reads ('[' :: (u ++ ']' :: rest)) (Or.inr (Or.inl ⟨_, rfl⟩))
  obtain ⟨c, s, h1, h2⟩ := h.head
  rw [h1, List.cons_append] at e ⊢
  obtain ⟨k1, k2, k3, k4⟩ := digit_head (s ++ '[' :: (u ++ ']' :: rest)) h2
  unfold parseOperand
  rw [k1]
  dsimp only
  rw [show (plug E addr).endOfLine (c :: (s ++ '[' :: (u ++ ']' :: rest))) = false from k2, if_neg (by decide), k3]
  dsimp only
  rw [k4]
  dsimp only
  rw [e, Out.ok_bind]
  dsimp only
  rw [if_neg (by decide), show expect '[' (skipSpaces ('[' :: (u ++ ']' :: rest))) = some (u ++ ']' :: rest) from rfl]
  dsimp only
  rw [bracket_reads hu _ rfl, Out.ok_bind]

/-! ### What is printed of an operand -/

/-- The operand that is read of what is printed. -/
def opOf (abs : Bool) (addr b : Nat) (d : DOp) : Operand :=
  match d.mode with
  | .COUNT =>
    if d.regno < 16 then { mode := .IMM16, val := ⟨d.regno, .unsigned⟩ }
    else { mode := .ADDR, val := ⟨d.regno, .unsigned⟩ }
  | .INDIR => { mode := .INDIR, regno := ⟨d.regno, .unsigned⟩, val := ⟨d.regno, .unsigned⟩ }
  | .IDX8 => { mode := .IDX16, regno := ⟨d.regno, .unsigned⟩, val := Value.setS (int8 d.val) }
  | .IDX16 =>
    if d.regno = 0 ∧ abs = true then { mode := .ADDR, val := ⟨d.val, .unsigned⟩ }
    else { mode := .IDX16, regno := ⟨d.regno, .unsigned⟩, val := ⟨d.val, .unsigned⟩ }
  | .REL8 | .REL11 | .REL16 => { mode := .ADDR, val := ⟨relTarget addr b d, .unsigned⟩ }
  | .BITNO => { mode := .ADDR, val := ⟨d.val, .unsigned⟩ }
  | .IMM8 | .IMM16 => { mode := .IMM16, val := ⟨d.val, .unsigned⟩ }
  | _ => { mode := .ADDR, val := ⟨d.regno, .unsigned⟩ }

/-- How large the fields of an operand are. -/
def Fields (d : DOp) : Prop :=
  match d.mode with
  | .COUNT | .BREG | .WREG | .LREG | .INDIR => d.regno < 256
  | .IDX8 => d.regno < 256 ∧ d.val < 256
  | .IDX16 => d.regno < 256 ∧ d.val < 65536
  | .REL8 | .IMM8 => d.val < 256
  | .REL11 => d.val < 2048
  | .REL16 | .IMM16 => d.val < 65536
  | .BITNO => d.val < 8
  | _ => False

/-- What is needed to write the operand in the same way again. -/
def Canon (abs : Bool) (d : DOp) : Prop :=
  match d.mode with
  | .IDX8 => d.regno ≠ 0 ∧ d.val ≠ 0
  | .IDX16 => (if d.regno = 0 then 256 else 128) ≤ d.val
  | .INDIR => abs = true → d.regno ≠ 0
  | _ => True

theorem meant_int8 {v : Nat} (h : v < 256) : meant (Config.uint32 (int8 v)) (-8) = int8 v :=
  (by decide +kernel : ∀ v < 256, meant (Config.uint32 (int8 v)) (-8) = int8 v) v h

theorem signed_range {bits v : Nat} (h : 1 ≤ bits) :
    -((2 ^ (bits - 1) : Nat) : Int) ≤ signed bits v ∧ signed bits v < ((2 ^ (bits - 1) : Nat) : Int) := by
  have h2 : 2 ^ bits = 2 * 2 ^ (bits - 1) := by rw [← Nat.pow_succ']; congr 1; omega
  have h3 : v % 2 ^ bits < 2 ^ bits := Nat.mod_lt _ (Nat.pow_pos (by decide))
  unfold signed
  generalize v % 2 ^ bits = x at *
  generalize 2 ^ (bits - 1) = y at *
  rw [h2] at h3 ⊢
  split <;> omega

/-- The target of a branch, if it is an address. -/
theorem target_eq {b : Nat} {d : DOp} (ha : addr < 65536)
    (hc : Config.checkAddr 16 (relTarget addr b d) false = .OK) :
    relTarget addr b d < 65536 ∧
    (relTarget addr b d : Int) = ((addr + relLen b d.mode : Nat) : Int) + signed (relBits d.mode) d.val := by
  have hl : relLen b d.mode ≤ 3 := by
    unfold relLen
    split
    · split <;> omega
    · omega
    · omega
  have hbits : 1 ≤ relBits d.mode ∧ relBits d.mode ≤ 16 := by
    unfold relBits
    split <;> omega
  have hs := signed_range (v := d.val) hbits.1
  have hp : 2 ^ (relBits d.mode - 1) ≤ 2 ^ 15 := Nat.pow_le_pow_right (by decide) (by omega)
  have hlt : relTarget addr b d < 65536 := by
    have h32 : relTarget addr b d < Config.W := by
      have hW : Config.W = 4294967296 := rfl
      unfold relTarget
      rw [hW]
      omega
    rw [Config.checkAddr_eq false (by decide) h32] at hc
    split at hc
    · cases hc
    · omega
  refine ⟨hlt, ?_⟩
  unfold relTarget at hlt ⊢
  have hW : Config.W = 4294967296 := rfl
  rw [hW] at hlt ⊢
  generalize signed (relBits d.mode) d.val = s at *
  generalize relLen b d.mode = l at *
  omega

theorem show_reads {o : Opts} (hsym : o.relative = true → o.curSym = '$') (ha : addr < 65536) {abs : Bool} {b : Nat}
    {d : DOp} (hf : Fields d) (hc : Canon abs d) (he : (outOperand o abs addr b d).2 = .OK) :
    ∀ rest, AfterOp rest →
      parseOperand (plug E addr) ((outOperand o abs addr b d).1 ++ rest) = .ok (.ok (opOf abs addr b d, rest)) := by
  intro rest hr
  have hP := intel_pairs o
  obtain ⟨mode, regno, val, err⟩ := d
  have reg : regno < 256 → Expr E addr (outDec .intel o regno 8) ⟨regno, .unsigned⟩ := fun h =>
    expr_num (outDec_num hP regno 8 h (by decide) (by decide))
  have plainReg : regno < 256 → parseOperand (plug E addr) (outRegister o abs regno false ++ rest) =
      .ok (.ok ({ mode := .ADDR, val := ⟨regno, .unsigned⟩ }, rest)) := by
    intro h
    have e : outRegister o abs regno false = outDec .intel o regno 8 := by
      unfold outRegister
      rw [if_neg (fun h => by cases h.2.1)]
      simp
    rw [e]
    exact plain_reads (reg h) hr
  have brack : ¬ (regno = 0 ∧ abs = true) →
      outRegister o abs regno true ++ rest = '[' :: (outDec .intel o regno 8 ++ ']' :: rest) := by
    intro h
    unfold outRegister
    rw [if_neg (fun h' => h ⟨h'.1, h'.2.2⟩)]
    simp
  have rel : ∀ n, n ≤ 16 → 8 ≤ n → relBits mode = n →
      Config.checkAddr 16 (relTarget addr b ⟨mode, regno, val, err⟩) false = .OK →
      parseOperand (plug E addr) (outRelAddr .intel o 16 (relTarget addr b ⟨mode, regno, val, err⟩) addr n ++ rest) =
        .ok (.ok ({ mode := .ADDR, val := ⟨relTarget addr b ⟨mode, regno, val, err⟩, .unsigned⟩ }, rest)) := by
    intro n hn hn8 hbits hok
    obtain ⟨g1, g2⟩ := target_eq ha hok
    have g3 := signed_range (bits := relBits mode) (v := val) (by omega)
    have hp : 2 ^ (relBits mode) = 2 * 2 ^ (relBits mode - 1) := by rw [← Nat.pow_succ']; congr 1; omega
    have hp7 : 2 ^ 7 ≤ 2 ^ (relBits mode - 1) := Nat.pow_le_pow_right (by decide) (by omega)
    have hl : relLen b mode ≤ 3 := by
      unfold relLen
      split
      · split <;> omega
      · omega
      · omega
    apply plain_reads (expr_rel hsym ha g1 (by omega) (by omega) _) hr
    rw [← hbits, hp, g2]
    show ((((addr + relLen b mode : Nat) : Int) + signed (relBits mode) val) - addr).natAbs < _
    generalize signed (relBits mode) val = x at *
    generalize 2 ^ (relBits mode - 1) = y at *
    omega
  cases mode with
  | NONE | BAOP | WAOP | ADDR | UNDEF => exact hf.elim
  | BREG | WREG | LREG => exact plainReg hf
  | COUNT =>
    have hf : regno < 256 := hf
    show parseOperand (plug E addr) ((if regno < 16 then (('#' :: outDec .intel o regno 4, err) : List Char × Err)
      else (outRegister o abs regno false, .OK)).1 ++ rest) = .ok (.ok (if regno < 16 then _ else _, rest))
    by_cases h16 : regno < 16
    · rw [if_pos h16, if_pos h16]
      exact imm_reads (expr_num (outDec_num hP regno 4 h16 (by decide) (by decide))) hr
    · rw [if_neg h16, if_neg h16]
      exact plainReg hf
  | INDIR =>
    have hf : regno < 256 := hf
    have hc : abs = true → regno ≠ 0 := hc
    show parseOperand (plug E addr) (outRegister o abs regno true ++ rest) = _
    rw [brack (fun h => hc h.2 h.1)]
    exact indir_reads (reg hf)
  | IDX8 =>
    have hf : regno < 256 ∧ val < 256 := hf
    have hc : regno ≠ 0 ∧ val ≠ 0 := hc
    have ht := outDec_text hP (Config.uint32 (int8 val)) (-8) (by
      unfold Config.uint32 Config.W; omega) (by decide) (by decide)
    rw [meant_int8 hf.2] at ht
    show parseOperand (plug E addr) (outDec .intel o (Config.uint32 (int8 val)) (-8) ++ outRegister o abs regno true ++ rest) = _
    rw [List.append_assoc, brack (fun h => hc.1 h.1)]
    exact index_reads (expr_signed ht) (reg hf.1)
  | IDX16 =>
    have hf : regno < 256 ∧ val < 65536 := hf
    have hn : Expr E addr (outAbsAddr .intel o 16 val) ⟨val, .unsigned⟩ :=
      expr_num (outAbsAddr_num hP val 16 hf.2 (by decide) (by decide))
    show parseOperand (plug E addr) (outAbsAddr .intel o 16 val ++ outRegister o abs regno true ++ rest) =
      .ok (.ok (if regno = 0 ∧ abs = true then _ else _, rest))
    by_cases h0 : regno = 0 ∧ abs = true
    · rw [if_pos h0, show outRegister o abs regno true = [] by unfold outRegister; rw [if_pos ⟨h0.1, rfl, h0.2⟩],
        List.append_nil]
      exact plain_reads hn hr
    · rw [if_neg h0, List.append_assoc, brack h0]
      exact index_reads hn (reg hf.1)
  | REL8 => exact rel 8 (by decide) (by decide) rfl he
  | REL11 => exact rel 11 (by decide) (by decide) rfl he
  | REL16 => exact rel 16 (by decide) (by decide) rfl he
  | BITNO => exact plain_reads (expr_num (outHex_num hP val 3 true hf (by decide) (by decide))) hr
  | IMM8 => exact imm_reads (expr_num (outHex_num hP val 8 true hf (by decide) (by decide))) hr
  | IMM16 => exact imm_reads (expr_num (outHex_num hP val 16 true hf (by decide) (by decide))) hr

/-! ### What is emitted for an operand -/

/-- The code with the bits of `b` that a mode puts there. -/
def emb (b : Nat) (m : Mode) (c : Nat) : Nat :=
  match m with
  | .BAOP | .WAOP => (c ||| b % 4) % 256
  | .REL11 | .BITNO => (c ||| b % 8) % 256
  | _ => c

theorem overflow_eq {v max : Nat} (h : v < 2 ^ 32) {min : Int} (h0 : min ≤ 0) :
    (⟨v, .unsigned⟩ : Value).overflow max min = decide (max < v) := by
  have h1 : (⟨v, .unsigned⟩ : Value).overflowUint32 = false := by
    unfold Value.overflowUint32 Value.isUnsigned
    simp
    omega
  unfold Value.overflow
  rw [h1, getUnsigned_num h]
  unfold Value.isUnsigned
  have : ¬ min > 0 := by omega
  simp [this]

theorem int8_val {v : Nat} (h : v < 256) (h0 : v ≠ 0) :
    (Value.setS (int8 v)).overflowInt8 = false ∧ (Value.setS (int8 v)).getUnsigned % 256 = v ∧
    (Value.setS (int8 v)).isZero = false :=
  (by decide +kernel : ∀ v < 256, v ≠ 0 → (Value.setS (int8 v)).overflowInt8 = false ∧
    (Value.setS (int8 v)).getUnsigned % 256 = v ∧ (Value.setS (int8 v)).isZero = false) v h h0

theorem aligned_ok {c : Bool} (h : aligned c = .OK) : c = true := by
  cases c
  · cases h
  · rfl

theorem read_mono {b : Nat} {m : Mode} {r : Rd} (h : (readOperand b m r).2.err = .OK) : r.err = .OK := by
  have hle : ∀ {r : Rd}, r.le16.2.err = .OK → r.err = .OK := fun h => byte_err (byte_err h)
  have aop : ∀ w, (readAop w b r).2.err = .OK → r.err = .OK := by
    intro w h
    unfold readAop at h
    split at h
    · exact byte_err h
    · cases w
      · exact byte_err h
      · exact hle h
    · exact byte_err h
    · dsimp only at h
      split at h
      · exact byte_err (byte_err h)
      · exact byte_err (hle h)
  unfold readOperand at h
  cases m <;> first
    | exact h
    | exact byte_err h
    | exact hle h
    | exact aop _ h

theorem isZero_num (v : Nat) : (⟨v, .unsigned⟩ : Value).isZero = (v == 0) := by
  unfold Value.isZero Value.isUndefined
  rfl

theorem or_one {n : Nat} (h : n % 2 = 0) : n ||| 1 = n + 1 := by
  have h2 : n = (n / 2) <<< 1 := by rw [Nat.shiftLeft_eq]; omega
  rw [h2, ← Nat.shiftLeft_add_eq_or_of_lt (by decide : 1 < 2 ^ 1)]

theorem ofOption_some {α : Type} (x : α) : ofOption (some x) = Out.ok x := rfl

theorem Asm.ok_eq {a : Asm} (h : a.err = .OK) : a = ⟨.OK, a.opc, a.ops⟩ := by
  cases a
  cases h
  rfl

/-- The displacement of a branch in the field it is put into. -/
theorem signed_field {v : Nat} : ((signed 8 v % 256).toNat % 256 = v % 256) ∧
    ((signed 11 v / 256 % 8).toNat = v / 256 % 8) ∧ ((signed 11 v % 256).toNat % 256 = v % 256) ∧
    ((signed 16 v % 65536).toNat = v % 65536) := by
  refine ⟨?_, ?_, ?_, ?_⟩ <;> unfold signed <;> simp only [Nat.reduceSub, Nat.reducePow] <;> split <;> omega

/-- Registers and other operands of one byte. -/
theorem emit_reg {v : Nat} (hv : v < 256) (e : Err) (c : Nat) (l : List Nat) :
    ((⟨.OK, c, l⟩ : Asm).check ((⟨v, .unsigned⟩ : Value).overflow 255 0) e).emit8 v = ⟨.OK, c, l ++ [v]⟩ := by
  rw [overflow_eq (by omega) (by decide), show decide (255 < v) = false by simp; omega]
  show (⟨.OK, c, l ++ [v % 256]⟩ : Asm) = _
  rw [Nat.mod_eq_of_lt hv]

theorem emit_absolute {w : Bool} {op : Operand} {v : Nat} (he : op.err = .OK) (hval : op.val = ⟨v, .unsigned⟩) (hv : v < 65536)
    (hw : w = true → isWreg v = true) (c : Nat) (l : List Nat) :
    emitAbsolute w op ⟨.OK, c, l⟩ =
      if v < 256 then ⟨.OK, (c ||| 0) % 256, l ++ [v]⟩ else ⟨.OK, (c ||| 3) % 256, l ++ [1, v % 256, v / 256]⟩ := by
  unfold emitAbsolute Value.overflowUint8
  rw [he, hval, getUnsigned_num (by omega), overflow_eq (by omega) (by decide)]
  have h1 : (w && !isWreg v) = false := by
    cases w
    · rfl
    · rw [hw rfl]; rfl
  rw [h1]
  by_cases h : v < 256
  · rw [if_pos ⟨rfl, by simp; omega⟩, if_pos h]
    show (⟨.OK, (c ||| 0) % 256, l ++ [v % 256]⟩ : Asm) = _
    rw [Nat.mod_eq_of_lt h]
  · rw [if_neg (by simp; omega), if_neg h]
    show (⟨.OK, (c ||| 3) % 256, l ++ [1 % 256] ++ [v % 256, v / 256 % 256]⟩ : Asm) = _
    rw [List.append_assoc, show v / 256 % 256 = v / 256 by omega]
    rfl

theorem emit_indir {op : Operand} {n : Nat} (hr : op.regno = ⟨n, .unsigned⟩) (hn : n < 256) (hw : isWreg n = true)
    (c : Nat) (l : List Nat) : emitIndir op ⟨.OK, c, l⟩ = ⟨.OK, (c ||| 2) % 256, l ++ [n]⟩ := by
  unfold emitIndir
  rw [hr, getUnsigned_num (by omega), hw]
  show (⟨.OK, (c ||| 2) % 256, l ++ [n % 256]⟩ : Asm) = _
  rw [Nat.mod_eq_of_lt hn]

theorem aop0 {w : Bool} {b : Nat} (hb : b % 4 = 0) (r : Rd) : readAop w b r =
    (⟨if w then .WREG else .BREG, r.byte.1, 0, if w then aligned (isWreg r.byte.1) else .OK⟩, r.byte.2) := by
  unfold readAop
  rw [hb]
  rfl

theorem aop1 {w : Bool} {b : Nat} (hb : b % 4 = 1) (r : Rd) : readAop w b r =
    if w then (⟨.IMM16, 0, r.le16.1, .OK⟩, r.le16.2) else (⟨.IMM8, 0, r.byte.1, .OK⟩, r.byte.2) := by
  unfold readAop
  rw [hb]
  rfl

theorem aop2 {w : Bool} {b : Nat} (hb : b % 4 = 2) (r : Rd) : readAop w b r =
    (⟨.INDIR, r.byte.1, 0, aligned (isWreg r.byte.1)⟩, r.byte.2) := by
  unfold readAop
  rw [hb]
  rfl

theorem aop3 {w : Bool} {b : Nat} (hb : b % 4 = 3) (r : Rd) : readAop w b r =
    if isWreg r.byte.1 then
      (⟨.IDX8, r.byte.1, r.byte.2.byte.1, if w && r.byte.1 == 0 then aligned (isWreg r.byte.2.byte.1) else .OK⟩, r.byte.2.byte.2)
    else (⟨.IDX16, r.byte.1 / 2 * 2, r.byte.2.le16.1,
      if w && r.byte.1 / 2 * 2 == 0 then aligned (isWreg r.byte.2.le16.1) else .OK⟩, r.byte.2.le16.2) := by
  unfold readAop
  rw [hb]
  have key : ∀ (c : Bool) (x y : Mode × Nat × Nat × Rd),
      (match (if c = true then x else y) with
        | (mode, regno, val, r) => ((⟨mode, regno, val, if w && regno == 0 then aligned (isWreg val) else .OK⟩, r) : DOp × Rd)) =
      if c = true then (⟨x.1, x.2.1, x.2.2.1, if w && x.2.1 == 0 then aligned (isWreg x.2.2.1) else .OK⟩, x.2.2.2)
      else (⟨y.1, y.2.1, y.2.2.1, if w && y.2.1 == 0 then aligned (isWreg y.2.2.1) else .OK⟩, y.2.2.2) := by
    intro c x y
    cases c <;> rfl
  exact key _ _ _

/-- An operand with an addressing mode of its own. -/
theorem aop_read {abs w : Bool} {b : Nat} {r : Rd} (hmem : ∀ x ∈ r.mem, x < 256)
    (h : (readAop w b r).2.err = .OK) (hd : (readAop w b r).1.err = .OK) (hc : Canon abs (readAop w b r).1) :
    Fields (readAop w b r).1 ∧ ∃ bs, Took r (readAop w b r).2 bs ∧ bs.length ≤ 10 ∧
      ∀ c l, emitAop w (opOf abs addr b (readAop w b r).1) ⟨.OK, c, l⟩ = ⟨.OK, (c ||| b % 4) % 256, l ++ bs⟩ := by
  have hb4 : b % 4 = 0 ∨ b % 4 = 1 ∨ b % 4 = 2 ∨ b % 4 = 3 := by omega
  rcases hb4 with hb | hb | hb | hb
  · rw [aop0 hb] at h hd hc ⊢
    rw [hb]
    dsimp only at h hd hc ⊢
    obtain ⟨h1, h2⟩ := byte_took hmem h
    have hw : w = true → isWreg r.byte.1 = true := by
      intro hw
      rw [if_pos hw] at hd
      exact aligned_ok hd
    refine ⟨?_, [r.byte.1], h2, by simp, ?_⟩
    · cases w <;> exact h1
    · intro c l
      have e := emit_absolute (w := w) (op := { mode := .ADDR, val := ⟨r.byte.1, .unsigned⟩ }) rfl rfl (by omega) hw c l
      rw [if_pos h1] at e
      rw [← e]
      cases w <;> rfl
  · rw [aop1 hb] at h hd hc ⊢
    rw [hb]
    cases w
    · obtain ⟨h1, h2⟩ := byte_took hmem h
      refine ⟨h1, [r.byte.1], h2, by simp, ?_⟩
      intro c l
      show (⟨.OK, (c ||| 1) % 256, l ++ [(⟨r.byte.1, .unsigned⟩ : Value).getUnsigned % 256]⟩ : Asm) = _
      rw [getUnsigned_num (by omega), Nat.mod_eq_of_lt h1]
    · obtain ⟨h1, h2⟩ := le16_took hmem h
      refine ⟨h1, _, h2, by simp, ?_⟩
      intro c l
      show (⟨.OK, (c ||| 1) % 256, l ++ [(⟨r.le16.1, .unsigned⟩ : Value).getUnsigned % 256, (⟨r.le16.1, .unsigned⟩ : Value).getUnsigned / 256 % 256]⟩ : Asm) = _
      rw [getUnsigned_num (by omega), show r.le16.1 / 256 % 256 = r.le16.1 / 256 by omega]
  · rw [aop2 hb] at h hd hc ⊢
    rw [hb]
    obtain ⟨h1, h2⟩ := byte_took hmem h
    refine ⟨h1, [r.byte.1], h2, by simp, ?_⟩
    intro c l
    exact emit_indir rfl h1 (aligned_ok hd) c l
  · rw [aop3 hb] at h hd hc ⊢
    rw [hb]
    by_cases hx : isWreg r.byte.1 = true
    · rw [if_pos hx] at h hd hc ⊢
      dsimp only at h hd hc ⊢
      obtain ⟨h3, h4⟩ := byte_took (byte_mem hmem) h
      obtain ⟨h1, h2⟩ := byte_took hmem h4.err
      have hc : r.byte.1 ≠ 0 ∧ r.byte.2.byte.1 ≠ 0 := hc
      refine ⟨⟨h1, h3⟩, _, h2.trans h4, by simp, ?_⟩
      intro c l
      obtain ⟨e1, e2, e3⟩ := int8_val h3 hc.2
      unfold emitAop opOf
      dsimp only
      rw [e3, if_neg (by decide), isZero_num, if_neg (by simp; exact hc.1), getUnsigned_num (by omega), hx, e1,
        if_pos ⟨rfl, rfl⟩]
      show (⟨.OK, (c ||| 3) % 256, l ++ [r.byte.1 % 256] ++ [(Value.setS (int8 r.byte.2.byte.1)).getUnsigned % 256]⟩ : Asm) = _
      rw [e2, Nat.mod_eq_of_lt h1, List.append_assoc]
    · rw [if_neg hx] at h hd hc ⊢
      dsimp only at h hd hc ⊢
      obtain ⟨h3, h4⟩ := le16_took (byte_mem hmem) h
      obtain ⟨h1, h2⟩ := byte_took hmem h4.err
      have hodd : r.byte.1 % 2 = 1 := by
        unfold isWreg at hx
        simp at hx
        omega
      have hc : (if r.byte.1 / 2 * 2 = 0 then 256 else 128) ≤ r.byte.2.le16.1 := hc
      refine ⟨⟨by show r.byte.1 / 2 * 2 < 256; omega, h3⟩, _, h2.trans h4, by simp, ?_⟩
      intro c l
      by_cases h0 : r.byte.1 / 2 * 2 = 0
      · rw [if_pos h0] at hc
        have hw : w = true → isWreg r.byte.2.le16.1 = true := by
          intro hw
          rw [hw, h0] at hd
          exact aligned_ok hd
        have key : ∀ op : Operand, op.err = .OK → op.val = ⟨r.byte.2.le16.1, .unsigned⟩ →
            emitAbsolute w op ⟨.OK, c, l⟩ =
              ⟨.OK, (c ||| 3) % 256, l ++ ([r.byte.1] ++ [r.byte.2.le16.1 % 256, r.byte.2.le16.1 / 256])⟩ := by
          intro op e1 e2
          rw [emit_absolute e1 e2 h3 hw, if_neg (by omega), show r.byte.1 = 1 by omega]
          rfl
        unfold opOf
        dsimp only
        by_cases ha : abs = true
        · rw [if_pos ⟨h0, ha⟩]
          exact key _ rfl rfl
        · rw [if_neg (fun h => ha h.2)]
          unfold emitAop
          dsimp only
          rw [isZero_num, if_neg (by simp; omega), isZero_num, if_pos (by simp; omega)]
          exact key _ rfl rfl
      · rw [if_neg h0] at hc
        unfold opOf
        dsimp only
        rw [if_neg (fun h => h0 h.1)]
        unfold emitAop
        dsimp only
        unfold Value.overflowInt8
        rw [isZero_num, if_neg (by simp; omega), isZero_num, if_neg (by simp; omega), getUnsigned_num (by omega),
          getUnsigned_num (by omega), overflow_eq (by omega) (by decide),
          show isWreg (r.byte.1 / 2 * 2) = true by unfold isWreg; simp, if_neg (by simp; omega),
          or_one (by omega)]
        show (⟨.OK, (c ||| 3) % 256, l ++ [(r.byte.1 / 2 * 2 + 1) % 256] ++ [r.byte.2.le16.1 % 256, r.byte.2.le16.1 / 256 % 256]⟩ : Asm) = _
        rw [List.append_assoc, show (r.byte.1 / 2 * 2 + 1) % 256 = r.byte.1 by omega,
          show r.byte.2.le16.1 / 256 % 256 = r.byte.2.le16.1 / 256 by omega]

/-- What is emitted for an operand that was read. -/
theorem emit_read {o : Opts} {abs : Bool} (ha : addr < 65536) {b : Nat} {m : Mode} {r : Rd}
    (hmem : ∀ x ∈ r.mem, x < 256) (hm : m ≠ .NONE ∧ m ≠ .UNDEF ∧ m ≠ .ADDR ∧ m ≠ .IDX8 ∧ m ≠ .IDX16 ∧ m ≠ .IMM8 ∧ m ≠ .IMM16)
    (h : (readOperand b m r).2.err = .OK) (hd : (readOperand b m r).1.err = .OK)
    (he : (outOperand o abs addr b (readOperand b m r).1).2 = .OK)
    (hc : Canon abs (readOperand b m r).1) :
    Fields (readOperand b m r).1 ∧ ∃ bs, Took r (readOperand b m r).2 bs ∧ bs.length ≤ 10 ∧
      ∀ c l, relLen c m = relLen b m →
        emitOperand addr m (opOf abs addr b (readOperand b m r).1) ⟨.OK, c, l⟩ =
          .ok ⟨.OK, emb b m c, l ++ bs⟩ := by
  obtain ⟨m1, m2, m3, m4, m5, m6, m7⟩ := hm
  have rel : ∀ {d : DOp}, d.mode = m → d.err = .OK → m = .REL8 ∨ m = .REL11 ∨ m = .REL16 →
      Config.checkAddr 16 (relTarget addr b d) false = .OK → ∀ c, relLen c m = relLen b m →
      Config.branchDelta 16 (addr + relLen c m)
        (if Err.OK ≠ .OK then addr + relLen c m else (⟨relTarget addr b d, .unsigned⟩ : Value).getUnsigned) .OK =
        some (signed (relBits m) d.val, .OK) := by
    intro d h1 _ h2 h3 c h4
    subst h1
    obtain ⟨g1, g2⟩ := target_eq ha h3
    have hbits : 1 ≤ relBits d.mode ∧ relBits d.mode ≤ 16 := by
      unfold relBits
      split <;> omega
    have g3 := signed_range (v := d.val) hbits.1
    have hp : 2 ^ (relBits d.mode - 1) ≤ 2 ^ 15 := Nat.pow_le_pow_right (by decide) (by omega)
    have hl : relLen b d.mode ≤ 3 := by
      unfold relLen
      split
      · split <;> omega
      · omega
      · omega
    have hW : Config.W = 4294967296 := rfl
    rw [if_neg (by decide), getUnsigned_num (by omega), h4]
    rw [branch_near (by decide) (by decide) (by rw [hW]; omega) (by omega) (by simp only [Nat.reduceSub, Nat.reducePow]; omega)
      (by simp only [Nat.reduceSub, Nat.reducePow]; omega), g2]
    congr 2
    omega
  unfold readOperand at h hd he hc ⊢
  cases m with
  | NONE => exact absurd rfl m1
  | UNDEF => exact absurd rfl m2
  | ADDR => exact absurd rfl m3
  | IDX8 => exact absurd rfl m4
  | IDX16 => exact absurd rfl m5
  | IMM8 => exact absurd rfl m6
  | IMM16 => exact absurd rfl m7
  | BREG =>
    dsimp only at h ⊢
    obtain ⟨h1, h2⟩ := byte_took hmem h
    refine ⟨h1, _, h2, by simp, fun c l _ => ?_⟩
    unfold emitOperand opOf
    dsimp only
    rw [getUnsigned_num (by omega)]
    exact congrArg Out.ok (emit_reg h1 _ c l)
  | COUNT =>
    dsimp only at h ⊢
    obtain ⟨h1, h2⟩ := byte_took hmem h
    refine ⟨h1, _, h2, by simp, fun c l _ => ?_⟩
    unfold emitOperand opOf
    dsimp only
    have key : ∀ op : Operand, op.err = .OK → op.val = ⟨r.byte.1, .unsigned⟩ →
        Out.ok ((((⟨.OK, c, l⟩ : Asm).setErrorIf op.err).check (op.val.overflow 255 0) .ILLEGAL_REGISTER).emit8 op.val.getUnsigned) =
          .ok ⟨.OK, emb b .COUNT c, l ++ [r.byte.1]⟩ := by
      intro op e1 e2
      rw [e1, e2, getUnsigned_num (by omega)]
      exact congrArg Out.ok (emit_reg h1 _ c l)
    split
    · exact key _ rfl rfl
    · exact key _ rfl rfl
  | WREG =>
    dsimp only at h hd ⊢
    obtain ⟨h1, h2⟩ := byte_took hmem h
    refine ⟨h1, _, h2, by simp, fun c l _ => ?_⟩
    unfold emitOperand opOf
    dsimp only
    rw [getUnsigned_num (by omega), aligned_ok hd]
    exact congrArg Out.ok (emit_reg h1 _ c l)
  | INDIR =>
    dsimp only at h hd ⊢
    obtain ⟨h1, h2⟩ := byte_took hmem h
    refine ⟨h1, _, h2, by simp, fun c l _ => ?_⟩
    unfold emitOperand opOf
    dsimp only
    rw [getUnsigned_num (by omega), aligned_ok hd]
    exact congrArg Out.ok (emit_reg h1 _ c l)
  | LREG =>
    dsimp only at h hd ⊢
    obtain ⟨h1, h2⟩ := byte_took hmem h
    refine ⟨h1, _, h2, by simp, fun c l _ => ?_⟩
    have hl := aligned_ok hd
    have hw : isWreg r.byte.1 = true := by
      unfold isLreg at hl
      unfold isWreg
      simp at hl ⊢
      omega
    unfold emitOperand opOf
    dsimp only
    rw [getUnsigned_num (by omega), hl, hw]
    exact congrArg Out.ok (emit_reg h1 _ c l)
  | BAOP =>
    obtain ⟨g1, bs, g2, g3, g4⟩ := aop_read (addr := addr) hmem h hd hc
    exact ⟨g1, bs, g2, g3, fun c l _ => congrArg Out.ok (by
      rw [show (⟨.OK, c, l⟩ : Asm).setErrorIf (opOf abs addr b (readAop false b r).1).err = ⟨.OK, c, l⟩ by
        unfold opOf
        repeat' split
        all_goals rfl]
      exact g4 c l)⟩
  | WAOP =>
    obtain ⟨g1, bs, g2, g3, g4⟩ := aop_read (addr := addr) hmem h hd hc
    exact ⟨g1, bs, g2, g3, fun c l _ => congrArg Out.ok (by
      rw [show (⟨.OK, c, l⟩ : Asm).setErrorIf (opOf abs addr b (readAop true b r).1).err = ⟨.OK, c, l⟩ by
        unfold opOf
        repeat' split
        all_goals rfl]
      exact g4 c l)⟩
  | BITNO =>
    dsimp only at h ⊢
    refine ⟨by show b % 8 < 8; omega, [], Took.refl h, by decide, fun c l _ => ?_⟩
    unfold emitOperand opOf
    dsimp only
    rw [getUnsigned_num (by omega), overflow_eq (by omega) (by decide), show decide (7 < b % 8) = false by simp; omega]
    show Out.ok (⟨.OK, (c ||| b % 8 % 8) % 256, l⟩ : Asm) = .ok ⟨.OK, (c ||| b % 8) % 256, l ++ []⟩
    rw [Nat.mod_mod, List.append_nil]
  | REL8 =>
    dsimp only at h ⊢
    obtain ⟨h1, h2⟩ := byte_took hmem h
    refine ⟨h1, _, h2, by simp, fun c l hl => ?_⟩
    have hr := rel (d := ⟨.REL8, 0, r.byte.1, .OK⟩) rfl rfl (Or.inl rfl) he c hl
    unfold emitOperand opOf
    dsimp only
    unfold emitRelative
    dsimp only
    rw [show ((⟨.OK, c, l⟩ : Asm).setErrorIf .OK) = ⟨.OK, c, l⟩ from rfl]
    dsimp only
    rw [hr, ofOption_some, Out.ok_bind]
    dsimp only
    have hsr := signed_range (bits := 8) (v := r.byte.1) (by decide)
    rw [Config.overflowDelta_eq (by decide) (by decide), ofOption_some, Out.ok_bind,
      show (decide ¬(-((2 ^ (8 - 1) : Nat) : Int) ≤ signed (relBits .REL8) r.byte.1 ∧ signed (relBits .REL8) r.byte.1 < ((2 ^ (8 - 1) : Nat) : Int))) = false by
        rw [decide_eq_false_iff_not, Decidable.not_not]; exact hsr]
    show Out.ok (⟨.OK, c, l ++ [(signed 8 r.byte.1 % 256).toNat % 256]⟩ : Asm) = _
    rw [signed_field.1, Nat.mod_eq_of_lt h1]
    rfl
  | REL11 =>
    dsimp only at h ⊢
    obtain ⟨h1, h2⟩ := byte_took hmem h
    refine ⟨by show b % 8 * 256 + r.byte.1 < 2048; omega, _, h2, by simp, fun c l hl => ?_⟩
    have hr := rel (d := ⟨.REL11, 0, b % 8 * 256 + r.byte.1, .OK⟩) rfl rfl (Or.inr (Or.inl rfl)) he c hl
    unfold emitOperand opOf
    dsimp only
    unfold emitRelative
    dsimp only
    rw [show ((⟨.OK, c, l⟩ : Asm).setErrorIf .OK) = ⟨.OK, c, l⟩ from rfl]
    dsimp only
    rw [hr, ofOption_some, Out.ok_bind]
    dsimp only
    have hsr := signed_range (bits := 11) (v := b % 8 * 256 + r.byte.1) (by decide)
    rw [Config.overflowDelta_eq (by decide) (by decide), ofOption_some, Out.ok_bind,
      show (decide ¬(-((2 ^ (11 - 1) : Nat) : Int) ≤ signed (relBits .REL11) (b % 8 * 256 + r.byte.1) ∧
        signed (relBits .REL11) (b % 8 * 256 + r.byte.1) < ((2 ^ (11 - 1) : Nat) : Int))) = false by
        rw [decide_eq_false_iff_not, Decidable.not_not]; exact hsr]
    show Out.ok (⟨.OK, (c ||| (signed 11 (b % 8 * 256 + r.byte.1) / 256 % 8).toNat) % 256,
      l ++ [(signed 11 (b % 8 * 256 + r.byte.1) % 256).toNat % 256]⟩ : Asm) = _
    rw [signed_field.2.1, signed_field.2.2.1, show (b % 8 * 256 + r.byte.1) / 256 % 8 = b % 8 by omega,
      show (b % 8 * 256 + r.byte.1) % 256 = r.byte.1 by omega]
    rfl
  | REL16 =>
    dsimp only at h ⊢
    obtain ⟨h1, h2⟩ := le16_took hmem h
    refine ⟨h1, _, h2, by simp, fun c l hl => ?_⟩
    have hr := rel (d := ⟨.REL16, 0, r.le16.1, .OK⟩) rfl rfl (Or.inr (Or.inr rfl)) he c hl
    unfold emitOperand opOf
    dsimp only
    unfold emitRelative
    dsimp only
    rw [show ((⟨.OK, c, l⟩ : Asm).setErrorIf .OK) = ⟨.OK, c, l⟩ from rfl]
    dsimp only
    rw [hr, ofOption_some, Out.ok_bind]
    show Out.ok (⟨.OK, c, l ++ [(signed 16 r.le16.1 % 65536).toNat % 256, (signed 16 r.le16.1 % 65536).toNat / 256 % 256]⟩ : Asm) = _
    rw [signed_field.2.2.2, show r.le16.1 % 65536 % 256 = r.le16.1 % 256 by omega,
      show r.le16.1 % 65536 / 256 % 256 = r.le16.1 / 256 by omega]
    rfl

end Libasm.Cpu.I8096
