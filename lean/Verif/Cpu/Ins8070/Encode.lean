import Verif.Cpu.Ops
import Verif.Cpu.Ins8060.Encode
import Verif.Cpu.Ins8070.Model
import Verif.Cpu.Ins8070.Spec
/-
How the INS8070 assembler reads what its disassembler prints, and what it makes of it.
-/
namespace Libasm.Cpu.Ins8070
open Scan Number Number.Spec Eval
open Tables (Row)

/-- The parsers at an address. -/
abbrev plug (E : Env) (addr : Nat) : Plugins Value := lexer.plugins E '\x00' addr

/-- The assembler does not read the octal notation of the disassembler. -/
def Readable (o : Opts) : Prop := o.octal = true → o.cstyle = true ∨ o.intelHex = true

theorem pairs {o : Opts} (h : Readable o) : Pairs .national .ins80xx o :=
  ⟨by decide, by decide, fun h' => (h h').elim Or.inl (fun h => Or.inr (Or.inl h))⟩

theorem lexOk : LexOk lexer .national := Ins8060.lexOk

theorem lex_ops (E : Env) (loc : Nat) : Ops (plug E loc) := Ins8060.ops E loc

theorem stop_nil (E : Env) (loc : Nat) : Stop (plug E loc) [] := Ins8060.stop_nil E loc

theorem stop_comma (E : Env) (loc : Nat) (s : List Char) : Stop (plug E loc) (',' :: s) :=
  ⟨rfl, Or.inr (Or.inr ⟨rfl, Or.inr rfl⟩)⟩

theorem after_sep {rest : List Char} (h : AfterOp rest) : Sep rest := by
  rcases h with rfl | ⟨s, rfl⟩
  · exact Sep.nil
  · exact Sep.cons (by decide) _

theorem regsOk : RegsOk regs := by decide
theorem noNumbers : NoNumbers .national regs := by decide

/-! ### Registers -/

theorem reg_name (o : Opts) (r : Reg) {rest : List Char} (hr : Sep rest) :
    parseRegName (outReg o r ++ rest) = .ok (some (r, rest)) := by
  unfold parseRegName outReg
  rw [reg_found regsOk (a := r) ?_ hr ?_]
  · unfold outText; cases o.upper <;> cases r <;> decide
  · unfold outText; cases o.upper <;> cases r <;> decide

/-- How a register starts. -/
theorem reg_head (o : Opts) (r : Reg) (s : List Char) :
    skipSpaces (outReg o r ++ s) = outReg o r ++ s ∧ semicolonEnd (outReg o r ++ s) = false ∧
    expect '#' (outReg o r ++ s) = none ∧ expect '=' (outReg o r ++ s) = none ∧
    expect '@' (outReg o r ++ s) = none := by
  unfold outReg outText
  cases o.upper <;> cases r <;> exact ⟨rfl, rfl, rfl, rfl, rfl⟩

/-- Text that starts a number. -/
structure Plain (t : List Char) : Prop where
  space : skipSpaces t = t
  eol : semicolonEnd t = false
  sharp : expect '#' t = none
  equal : expect '=' t = none
  at_ : expect '@' t = none
  reg : parseRegName t = .ok none

theorem plain_number {t : List Char} (h : Lead .national t) : Plain t := by
  obtain ⟨c, s, rfl, hc⟩ := lead_first h
  have hne : ∀ c ∈ firsts .national, c ≠ '#' ∧ c ≠ '=' ∧ c ≠ '@' := by decide
  have no : ∀ d, c ≠ d → expect d (c :: s) = none := fun d hd =>
    expect_none (by intro x hx; injection hx with hx; exact hx ▸ hd)
  exact ⟨lead_space h, lexOk.eol _ h, no _ (hne c hc).1, no _ (hne c hc).2.1, no _ (hne c hc).2.2,
    reg_none regsOk noNumbers h⟩

theorem plain_head {c : Char} (s : List Char) (h : c ∈ ['-', '$', '.']) : Plain (c :: s) := by
  have h1 : Ctype.isSpace c = false ∧ (c ≠ '#' ∧ c ≠ '=' ∧ c ≠ '@') ∧ Table.isNameLetter c = false ∧
      (c == '\x00' || c == ';') = false := by
    revert c; decide
  have no : ∀ d, c ≠ d → expect d (c :: s) = none := fun d hd =>
    expect_none (by intro x hx; injection hx with hx; exact hx ▸ hd)
  refine ⟨?_, h1.2.2.2, no _ h1.2.1.1, no _ h1.2.1.2.1, no _ h1.2.1.2.2,
    reg_none_head regsOk (by intro d hd; injection hd with hd; exact hd ▸ h1.2.2.1)⟩
  unfold skipSpaces trimStart
  rw [List.dropWhile_cons, h1.1]
  rfl

theorem plain_signed {t rest : List Char} {x : Int} {p : Parser} (h : SignedText .national p t x) :
    Plain (t ++ rest) := by
  obtain ⟨u, h1, h2⟩ := h.ex
  by_cases hx : x < 0
  · rw [if_pos hx] at h1
    rw [h1]
    exact plain_head _ (by decide)
  · rw [if_neg hx] at h1
    rw [h1]
    exact plain_number (h2.lead.append rest)

/-! ### Operands -/

section
variable {E : Env} {addr : Nat}

theorem reg_reads (o : Opts) (r : Reg) {rest : List Char} (hr : Sep rest) :
    parseOperand (plug E addr) (outReg o r ++ rest) =
      .ok (.ok ({ mode := registerMode r, reg := some r }, rest)) := by
  obtain ⟨h1, h2, h3, h4, h5⟩ := reg_head o r rest
  unfold parseOperand
  rw [h1]
  show (if semicolonEnd _ = true then _ else _) = _
  rw [h2, h3, h4]
  simp only [Bool.false_eq_true, if_false]
  rw [reg_name o r hr, Out.ok_bind]

/-- Immediate data. -/
theorem imm_reads {w : Nat} {t : List Char} {c : Char} (hc : c = '#' ∨ c = '=')
    (e : parseInteger (plug E addr) t .OK = .ok (⟨w, .unsigned⟩, .OK, [])) :
    parseOperand (plug E addr) (c :: t) = .ok (.ok ({ mode := .IMM, val := ⟨w, .unsigned⟩ }, [])) := by
  have key : parseOperand (plug E addr) (c :: t) = (parseInteger (plug E addr) t .OK).bind fun (val, err, p) =>
      if hasError err then .ok (.error (err, c :: t))
      else .ok (.ok ({ err := err, mode := .IMM, val := val }, p)) := by
    rcases hc with rfl | rfl <;> rfl
  rw [key, e, Out.ok_bind]
  rfl

/-- The mode of a number. -/
def numberMode (w : Nat) : Mode := if w ≤ 15 then .VEC else .ADR

theorem over15 {w : Nat} (hw : w < 65536) : (⟨w, .unsigned⟩ : Value).overflow 15 0 = decide (15 < w) := by
  have h1 : (⟨w, .unsigned⟩ : Value).overflowUint32 = false := by
    unfold Value.overflowUint32 Value.isUnsigned
    simp
    omega
  unfold Value.overflow
  rw [h1, getUnsigned_num (by omega)]
  unfold Value.isUnsigned
  simp

/-- A number alone. -/
theorem number_reads {w : Nat} (hw : w < 65536) {t : List Char} (ht : Plain t)
    (e : parseInteger (plug E addr) t .OK = .ok (⟨w, .unsigned⟩, .OK, [])) :
    parseOperand (plug E addr) t = .ok (.ok ({ mode := numberMode w, val := ⟨w, .unsigned⟩ }, [])) := by
  unfold parseOperand
  rw [ht.space]
  show (if semicolonEnd t = true then _ else _) = _
  rw [ht.eol, ht.sharp, ht.equal]
  simp only [Bool.false_eq_true, if_false]
  rw [ht.reg, Out.ok_bind]
  dsimp only
  rw [ht.at_]
  dsimp only
  unfold parseNumber
  rw [e, Out.ok_bind]
  dsimp only
  rw [over15 hw]
  unfold numberMode
  by_cases h : w ≤ 15
  · rw [if_pos h, decide_eq_false (by omega)]
    rfl
  · rw [if_neg h, decide_eq_true (by omega)]
    rfl

/-- The register after a comma. -/
theorem index_reads (o : Opts) {r : Reg} (hr : isPointerReg r = true) {auto : Bool}
    (ha : auto = true → r ≠ .PC ∧ r ≠ .SP) (start : Scan) (v : Value) :
    parseIndex start auto .OK v (outReg o r) =
      .ok (.ok ({ reg := some r, auto := auto, val := v,
                  mode := if auto || r == .SP || r == .PC then .GEN else .IDX }, [])) := by
  have h0 := reg_head o r []
  have h1 := reg_name o r Sep.nil
  rw [List.append_nil] at h0 h1
  unfold parseIndex
  rw [h0.1]
  cases auto with
  | false =>
    dsimp only
    rw [h0.2.2.2.2]
    simp only [Bool.false_eq_true, if_false]
    rw [h1, Out.ok_bind]
    dsimp only
    rw [hr]
    rfl
  | true =>
    dsimp only
    simp only [if_true]
    rw [h1, Out.ok_bind]
    dsimp only
    rw [hr]
    have : (r == Reg.PC || r == Reg.SP) = false := by
      simp [ha rfl]
    rw [this]
    rfl

/-- A number with a register. -/
theorem indexed_reads (o : Opts) {r : Reg} (hr : isPointerReg r = true) {auto : Bool}
    (ha : auto = true → r ≠ .PC ∧ r ≠ .SP) {t : List Char} {v : Value} (ht : ∀ s, Plain (t ++ s))
    (e : parseInteger (plug E addr) (t ++ ',' :: outReg o r) .OK = .ok (v, .OK, ',' :: outReg o r)) :
    parseOperand (plug E addr) ((if auto then ['@'] else []) ++ t ++ ',' :: outReg o r) =
      .ok (.ok ({ reg := some r, auto := auto, val := v,
                  mode := if auto || r == .SP || r == .PC then .GEN else .IDX }, [])) := by
  have hp := ht (',' :: outReg o r)
  have num : ∀ start, parseNumber (plug E addr) start auto (t ++ ',' :: outReg o r) =
      .ok (.ok ({ reg := some r, auto := auto, val := v,
                  mode := if auto || r == .SP || r == .PC then .GEN else .IDX }, [])) := by
    intro start
    unfold parseNumber
    rw [e, Out.ok_bind]
    exact index_reads o hr ha start v
  cases auto with
  | false =>
    rw [if_neg (by decide), List.nil_append]
    unfold parseOperand
    rw [hp.space]
    show (if semicolonEnd _ = true then _ else _) = _
    rw [hp.eol, hp.sharp, hp.equal]
    simp only [Bool.false_eq_true, if_false]
    rw [hp.reg, Out.ok_bind]
    dsimp only
    rw [hp.at_]
    exact num _
  | true =>
    rw [if_pos rfl, List.append_assoc, List.singleton_append]
    have hreg : parseRegName ('@' :: (t ++ ',' :: outReg o r)) = .ok none :=
      reg_none_head regsOk (by intro c hc; injection hc with hc; subst hc; decide)
    have key : ∀ s, parseRegName ('@' :: s) = .ok none → parseOperand (plug E addr) ('@' :: s) =
        parseNumber (plug E addr) ('@' :: s) true s := by
      intro s hs
      unfold parseOperand
      rw [show skipSpaces ('@' :: s) = '@' :: s from rfl]
      show (if semicolonEnd ('@' :: s) = true then _ else _) = _
      rw [show semicolonEnd ('@' :: s) = false from rfl, show expect '#' ('@' :: s) = none from rfl,
        show expect '=' ('@' :: s) = none from rfl]
      simp only [Bool.false_eq_true, if_false]
      rw [hs, Out.ok_bind]
      rfl
    rw [key _ hreg]
    exact num _

/-- A target, with `,PC` or without. -/
theorem target_text {o : Opts} (ho : Readable o) (hsym : o.relative = true → o.curSym = '$' ∨ o.curSym = '.')
    (ha : addr < 65536) {w : Nat} (hw : w < 65536) (hd : ((w : Int) - addr).natAbs < 2 ^ 8) :
    (∀ s, Plain (outRelAddr .national o 16 w addr 8 ++ s)) ∧
    ∀ rest, Sep rest → Stop (plug E addr) rest →
      parseInteger (plug E addr) (outRelAddr .national o 16 w addr 8 ++ rest) .OK =
        .ok (⟨w, .unsigned⟩, .OK, rest) := by
  have hlet : ∀ up, letter up '$' = '$' ∧ letter up '.' = '.' := by decide
  have hsym1 : o.relative = true → letter o.upper o.curSym = '$' ∨ letter o.upper o.curSym = '.' := by
    intro hx
    rcases hsym hx with h | h <;> rw [h]
    · exact Or.inl (hlet _).1
    · exact Or.inr (hlet _).2
  have hsym' : o.relative = true → Const (plug E addr) [letter o.upper o.curSym] ⟨addr, .unsigned⟩ := fun hx =>
    Ins8060.const_location (hsym1 hx) E (by omega)
  have key := fun rest (hr : Sep rest) (hs : Stop (plug E addr) rest) => rel_reads lexOk (pairs ho) (lex_ops E addr)
    (show ∀ c ∈ firsts .national, c ≠ '\x00' by decide) hsym' (width := 16)
    (by decide) (by decide) ha hw (bits := 8) (by decide) (by decide) hd hr hs
  refine ⟨?_, fun rest hr hs => (key rest hr hs).1⟩
  intro s
  have hh : o.relative = true → letter o.upper o.curSym ∈ ['-', '$', '.'] := by
    intro hx
    rcases hsym1 hx with h | h <;> rw [h] <;> decide
  rcases outRelAddr_text (pairs ho) 16 w addr 8 hw (by decide) (by decide) ha (by decide) (by decide) hd
    with ⟨_, h⟩ | ⟨h0, _, h2⟩ | ⟨h0, t, _, h2⟩
  · exact plain_number (h.lead.append s)
  · rw [h2]
    exact plain_head _ (hh h0)
  · rw [h2]
    exact plain_head _ (hh h0)

/-! ### What is printed of an operand -/

/-- The modes an operand may be read with, `b` is the code. -/
def pmodes (b : Nat) (m : Mode) : List Mode :=
  match m with
  | .PTR => [registerMode (decodePointerReg b)]
  | .ADR | .PCR => [.ADR, .VEC]
  | .GEN =>
    match b % 8 with
    | 0 | 1 => [.GEN]
    | 2 | 3 => [.IDX]
    | 4 => [.IMM]
    | 5 => [.ADR]
    | _ => [.GEN]
  | m => [m]

/-- The code with the bits of an operand. -/
def emb (b : Nat) (m : Mode) (c : Nat) : Nat :=
  match m with
  | .P23 => (c ||| (2 + b % 2)) % 256
  | .PTR | .IDX => (c ||| b % 4) % 256
  | .VEC => (c ||| b % 16) % 256
  | .GEN =>
    match b % 8 with
    | 0 => c
    | 1 | 2 | 3 => (c ||| b % 4) % 256
    | 4 => (c ||| 4) % 256
    | 5 => (c ||| 5) % 256
    | _ => ((c ||| b % 4) % 256 ||| 4) % 256
  | _ => c

/-- The operand `op` was decoded from `r` to `r'`, and puts the bytes taken into the instruction. -/
structure Rel (b addr : Nat) (row : Row) (m : Mode) (r r' : Rd) (op : Operand) : Prop where
  mode : op.mode ∈ pmodes b m
  vals : ∃ bs, Took r r' bs ∧ bs.length ≤ 10 ∧ ∀ a : Asm, a.err = .OK →
    encodeOperand addr row m op a = .ok { a with opc := emb b m a.opc, ops := a.ops ++ bs }

/-- What is expected of an entry: what may stand where. -/
def modeOk (b : Nat) (row : Row) (m : Mode) : Bool :=
  match m with
  | .AR | .ER | .SR | .EA | .TR | .P23 | .PTR | .IMM | .VEC => true
  | .ADR => execute row
  | .PCR => execute row
  | .IDX => decide (2 ≤ b % 4)
  | .GEN => !execute row
  | _ => false

/-- Where a register is printed. -/
def isReg : Mode → Bool
  | .AR | .ER | .SR | .EA | .TR | .P23 | .PTR => true
  | _ => false

theorem operand_mono {o : Opts} {sharp : Bool} {b : Nat} {row : Row} (m : Mode) (r : Rd)
    (h : (decodeOperand o sharp addr b row m r).2.err = .OK) : r.err = .OK := by
  have imm : (decodeImmediate o sharp row r).2.err = .OK → r.err = .OK := by
    intro h
    unfold decodeImmediate at h
    cases hw : word row <;> rw [hw] at h
    · exact byte_err h
    · exact byte_err (byte_err h)
  have tgt : (decodeTarget o addr row r).2.err = .OK → r.err = .OK := by
    intro h
    unfold decodeTarget at h
    exact byte_err (setErrorIf_ok h).1
  have idx : ∀ auto, (decodeIndexed o b auto r).2.err = .OK → r.err = .OK := fun _ h => byte_err h
  unfold decodeOperand at h
  cases m with
  | IMM => exact imm h
  | ADR => exact byte_err (byte_err h)
  | IDX => exact idx _ h
  | PCR => exact tgt h
  | GEN =>
    have h : (decodeGeneric o sharp addr b row r).2.err = .OK := h
    unfold decodeGeneric at h
    split at h
    · exact tgt h
    · exact idx _ h
    · exact idx _ h
    · exact idx _ h
    · exact imm h
    · exact byte_err h
    · exact idx _ h
  | _ => exact h

theorem pointer_reg (b : Nat) : isPointerReg (decodePointerReg b) = true ∧
    encodePointerReg (some (decodePointerReg b)) = b % 4 := by
  have h : b % 4 = 0 ∨ b % 4 = 1 ∨ b % 4 = 2 ∨ b % 4 = 3 := by omega
  unfold decodePointerReg
  rcases h with h | h | h | h <;> rw [h] <;> exact ⟨rfl, rfl⟩

/-- Registers. -/
theorem reg_operand {o : Opts} {sharp : Bool} {m : Mode} {b : Nat} {row : Row} {r : Rd} (hm : isReg m = true)
    (h : (decodeOperand o sharp addr b row m r).2.err = .OK) :
    ∃ op, Rel b addr row m r (decodeOperand o sharp addr b row m r).2 op ∧
      ∀ rest, AfterOp rest →
        parseOperand (plug E addr) ((decodeOperand o sharp addr b row m r).1 ++ rest) = .ok (.ok (op, rest)) := by
  have same : ∀ a : Asm, { a with opc := a.opc, ops := a.ops ++ [] } = a := by
    intro a
    rw [List.append_nil]
  have plain : ∀ {rg : Reg}, registerMode rg = m → emb b m = id → pmodes b m = [m] →
      (∀ (op : Operand) a, op.err = .OK → encodeOperand addr row m op a = .ok a) → r.err = .OK →
      ∃ op, Rel b addr row m r r op ∧
        ∀ rest, AfterOp rest → parseOperand (plug E addr) (outReg o rg ++ rest) = .ok (.ok (op, rest)) := by
    intro rg h1 h2 h3 h4 h5
    refine ⟨{ mode := registerMode rg, reg := some rg }, ⟨by rw [h3, h1]; exact List.mem_singleton.2 rfl,
      [], Took.refl h5, by decide, fun a _ => ?_⟩, fun rest hr => reg_reads o rg (after_sep hr)⟩
    rw [h4 _ _ rfl, h2]
    show Out.ok a = .ok { a with opc := a.opc, ops := a.ops ++ [] }
    rw [same]
  have nop : ∀ (op : Operand) (a : Asm), op.err = .OK → a.setErrorIf op.err = a := by
    intro op a h
    rw [h, Asm.noError]
  have emb' : ∀ (rg : Reg) (a : Asm) (x : Nat), encodePointerReg (some rg) = x →
      (a.setErrorIf .OK).embed (encodePointerReg (some rg)) = { a with opc := (a.opc ||| x) % 256, ops := a.ops ++ [] } := by
    intro rg a x hx
    rw [Asm.noError, hx, List.append_nil]
    rfl
  unfold decodeOperand at h ⊢
  cases m with
  | AR => exact plain (rg := .A) rfl rfl rfl (fun op a h => congrArg Out.ok (nop op a h)) h
  | ER => exact plain (rg := .E) rfl rfl rfl (fun op a h => congrArg Out.ok (nop op a h)) h
  | SR => exact plain (rg := .S) rfl rfl rfl (fun op a h => congrArg Out.ok (nop op a h)) h
  | EA => exact plain (rg := .EA) rfl rfl rfl (fun op a h => congrArg Out.ok (nop op a h)) h
  | TR => exact plain (rg := .T) rfl rfl rfl (fun op a h => congrArg Out.ok (nop op a h)) h
  | P23 =>
    dsimp only at h ⊢
    have hb : b % 2 = 0 ∨ b % 2 = 1 := by omega
    refine ⟨{ mode := .P23, reg := some (if b % 2 = 1 then .P3 else .P2) }, ⟨List.mem_singleton.2 rfl, [],
      Took.refl h, by decide, fun a _ => ?_⟩, fun rest hr => ?_⟩
    · exact congrArg Out.ok (emb' _ a _ (by rcases hb with h | h <;> rw [h] <;> rfl))
    · have := reg_reads (E := E) (addr := addr) o (if b % 2 = 1 then Reg.P3 else .P2) (after_sep hr)
      rw [this]
      rcases hb with h | h <;> rw [h] <;> rfl
  | PTR =>
    dsimp only at h ⊢
    refine ⟨{ mode := registerMode (decodePointerReg b), reg := some (decodePointerReg b) }, ⟨List.mem_singleton.2 rfl, [],
      Took.refl h, by decide, fun a _ => ?_⟩, fun rest hr => reg_reads o _ (after_sep hr)⟩
    exact congrArg Out.ok (emb' _ a _ (pointer_reg b).2)
  | _ => cases hm

theorem getUnsigned_nat {v : Nat} (h : v < 65536) :
    (⟨v, .unsigned⟩ : Value).getUnsigned = v := getUnsigned_num (by omega)

theorem offset_byte {v : Nat} (h : v < 256) :
    (Value.setS (int8 v)).overflowInt8 = false ∧ ((Value.setS (int8 v)).getSigned % 256).toNat = v :=
  (by decide +kernel : ∀ v < 256, (Value.setS (int8 v)).overflowInt8 = false ∧
    ((Value.setS (int8 v)).getSigned % 256).toNat = v) v h

theorem meant_int8 {v : Nat} (h : v < 256) : meant (Config.uint32 (int8 v)) (-8) = int8 v :=
  (by decide +kernel : ∀ v < 256, meant (Config.uint32 (int8 v)) (-8) = int8 v) v h

/-- Operands at the end of the line. -/
theorem operand_reads {o : Opts} (ho : Readable o) (hsym : o.relative = true → o.curSym = '$' ∨ o.curSym = '.')
    (ha : addr < 65536) {sharp : Bool}
    {m : Mode} {b : Nat} {row : Row} {r : Rd} (hm : modeOk b row m = true) (hmem : ∀ x ∈ r.mem, x < 256)
    (hz : execute row = true → m = .PCR → ∀ v, r.mem.head? = some v → (addr : Int) + 2 + int8 v ≠ 0)
    (h : (decodeOperand o sharp addr b row m r).2.err = .OK) :
    ∃ op, Rel b addr row m r (decodeOperand o sharp addr b row m r).2 op ∧
        parseOperand (plug E addr) (decodeOperand o sharp addr b row m r).1 = .ok (.ok (op, [])) := by
  have hP := pairs ho
  by_cases hreg : isReg m = true
  · obtain ⟨op, h1, h2⟩ := reg_operand (E := E) hreg h
    have := h2 [] (Or.inl rfl)
    rw [List.append_nil] at this
    exact ⟨op, h1, this⟩
  have const : ∀ {t : List Char} {w : Nat}, NumText .national .ins80xx t w →
      parseInteger (plug E addr) t .OK = .ok (⟨w, .unsigned⟩, .OK, []) := by
    intro t w hn
    have := eval_const (const_of lexOk hn E '\x00' addr) Sep.nil (stop_nil E addr)
    rwa [List.append_nil] at this
  have imm : (decodeImmediate o sharp row r).2.err = .OK → ∃ op : Operand, ∃ bs,
      op.err = .OK ∧ op.mode = .IMM ∧ Took r (decodeImmediate o sharp row r).2 bs ∧ bs.length ≤ 10 ∧
      (∀ a : Asm, a.err = .OK → emitImmediate row op a = { a with ops := a.ops ++ bs }) ∧
      parseOperand (plug E addr) (decodeImmediate o sharp row r).1 = .ok (.ok (op, [])) := by
    intro h
    have hc : (if sharp then '#' else '=') = '#' ∨ (if sharp then '#' else '=') = '=' := by cases sharp <;> decide
    unfold decodeImmediate at h ⊢
    unfold emitImmediate
    cases hw : word row <;> rw [hw] at h
    · obtain ⟨g1, g2⟩ := byte_took hmem h
      refine ⟨{ mode := .IMM, val := ⟨r.byte.1, .unsigned⟩ }, _, rfl, rfl, g2, by simp, fun a _ => ?_,
        imm_reads hc (const (outHex_num hP r.byte.1 8 true g1 (by decide) (by decide)))⟩
      dsimp only
      rw [if_neg (by decide), getUnsigned_nat (by omega),
        show (⟨r.byte.1, .unsigned⟩ : Value).overflowUint8 = false from overflow_num (by omega) (by omega) (by omega)]
      unfold Asm.emit8
      rw [Nat.mod_eq_of_lt g1]
      rfl
    · obtain ⟨g1, g2⟩ := le16_took hmem h
      refine ⟨{ mode := .IMM, val := ⟨r.le16.1, .unsigned⟩ }, _, rfl, rfl, g2, by simp, fun a _ => ?_,
        imm_reads hc (const (outHex_num hP r.le16.1 16 true g1 (by decide) (by decide)))⟩
      dsimp only
      rw [if_pos rfl, getUnsigned_nat g1]
      unfold Asm.emit16le
      rw [show r.le16.1 / 256 % 256 = r.le16.1 / 256 by omega]
  have tgt : (decodeTarget o addr row r).2.err = .OK →
      (execute row = true → ∀ v, r.mem.head? = some v → (addr : Int) + 2 + int8 v ≠ 0) →
      ∃ op : Operand, ∃ bs, op.err = .OK ∧
      (execute row = true → op.mode ∈ [Mode.ADR, .VEC]) ∧
      (execute row = false → op.mode = .GEN ∧ op.reg = some .PC) ∧
      Took r (decodeTarget o addr row r).2 bs ∧ bs.length ≤ 10 ∧
      (∀ a : Asm, a.err = .OK → emitRelative addr row op a = .ok { a with ops := a.ops ++ bs }) ∧
      parseOperand (plug E addr) (decodeTarget o addr row r).1 = .ok (.ok (op, [])) := by
    intro h hz
    unfold decodeTarget at h ⊢
    dsimp only at h ⊢
    generalize hT : (((addr + 1 + fetch row : Nat) : Int) + int8 r.byte.1) % Config.W = T at *
    obtain ⟨g1, g2⟩ := setErrorIf_ok h
    obtain ⟨h1, h2⟩ := byte_took hmem g1
    have hi := int8_range _ h1
    have hf : fetch row = 0 ∨ fetch row = 1 := by unfold fetch; split <;> simp
    have hT' : T.toNat < 65536 := by
      rw [Config.checkAddr_eq false (by decide) (by unfold Config.W at *; omega)] at g2
      split at g2
      · cases g2
      · rename_i hlt
        simpa using hlt
    have hsh : (T.toNat : Int) = ((addr + 1 + fetch row : Nat) : Int) + int8 r.byte.1 := by
      unfold Config.W at hT
      omega
    obtain ⟨p1, p2⟩ := target_text (E := E) ho hsym ha hT' (by omega)
    have hne : fetch row = 1 → T.toNat ≠ 0 := by
      intro hf1 h0
      have hx : execute row = true := by
        unfold fetch at hf1
        by_cases hx : execute row = true
        · exact hx
        · rw [if_neg hx] at hf1; cases hf1
      refine hz hx r.byte.1 ?_ (by omega)
      rw [h2.mem]
      rfl
    have emit : ∀ (op : Operand) (a : Asm), op.err = .OK → op.val = ⟨T.toNat, .unsigned⟩ → a.err = .OK →
        emitRelative addr row op a = .ok { a with ops := a.ops ++ [r.byte.1] } := by
      intro op a k1 k2 k3
      unfold emitRelative
      rw [k1]
      dsimp only
      rw [if_neg (by simp), k2, getUnsigned_nat hT']
      have hW : Config.W = 4294967296 := rfl
      rw [Nat.mod_eq_of_lt (show addr + 1 < Config.W by omega),
        show (T.toNat + Config.W - fetch row) % Config.W = T.toNat - fetch row by
          rw [hW]; rcases hf with hf | hf
          · omega
          · have := hne hf
            omega]
      refine Asm.rel8_near (by decide) (by decide) h1 (by omega) (by omega) ?_ k3
      rcases hf with hf | hf
      · omega
      · have := hne hf
        omega
    cases hx : execute row with
    | true =>
      rw [if_pos rfl, List.append_nil]
      have q1 := p1 []
      have q2 := p2 [] Sep.nil (stop_nil E addr)
      rw [List.append_nil] at q1 q2
      refine ⟨{ mode := numberMode T.toNat, val := ⟨T.toNat, .unsigned⟩ }, _, rfl, ?_, ?_,
        ⟨h2.err, h2.mem, h2.bytes⟩, by simp, fun a ha => emit _ a rfl rfl ha, number_reads hT' q1 q2⟩
      · intro _
        dsimp only
        unfold numberMode
        split <;> decide
      · intro hc; cases hc
    | false =>
      rw [if_neg (by decide)]
      have q3 := indexed_reads (E := E) (addr := addr) o (r := .PC) rfl (auto := false) (by intro h; cases h) p1
        (p2 _ (Sep.cons (by decide) _) (stop_comma E addr _))
      refine ⟨_, _, ?_, ?_, ?_, ⟨h2.err, h2.mem, h2.bytes⟩, by simp, ?_, q3⟩
      · rfl
      · intro hc; cases hc
      · exact fun _ => ⟨rfl, rfl⟩
      · exact fun a ha => emit _ a rfl rfl ha
  have idx : ∀ auto : Bool, (auto = true → decodePointerReg b ≠ .PC ∧ decodePointerReg b ≠ .SP) →
      (decodeIndexed o b auto r).2.err = .OK → ∃ v, v < 256 ∧ Took r (decodeIndexed o b auto r).2 [v] ∧
      parseOperand (plug E addr) (decodeIndexed o b auto r).1 =
        .ok (.ok ({ reg := some (decodePointerReg b), auto := auto, val := Value.setS (int8 v), mode :=
          if auto || decodePointerReg b == .SP || decodePointerReg b == .PC then .GEN else .IDX }, [])) := by
    intro auto hau h
    obtain ⟨g1, g2⟩ := byte_took hmem h
    refine ⟨r.byte.1, g1, g2, ?_⟩
    unfold decodeIndexed
    dsimp only
    have ht := outDec_text hP (Config.uint32 (int8 r.byte.1)) (-8) (by
      unfold Config.uint32 Config.W; omega) (by decide) (by decide)
    rw [meant_int8 g1] at ht
    exact indexed_reads o (pointer_reg b).1 hau (fun s => plain_signed ht)
      (eval_signed lexOk (lex_ops E addr) ht (Sep.cons (by decide) _) (stop_comma E addr _))
  have emitIdx : ∀ (auto : Bool) (v : Nat) (m' : Mode) (a : Asm), v < 256 → decodePointerReg b ≠ .PC → m' ≠ .IMM → m' ≠ .ADR →
      m' ≠ .VEC → emitGeneric addr row { reg := some (decodePointerReg b), auto := auto, val := Value.setS (int8 v), mode := m' } a =
        .ok { a with opc := if auto then ((a.opc ||| b % 4) % 256 ||| 4) % 256 else (a.opc ||| b % 4) % 256,
                     ops := a.ops ++ [v] } := by
    intro auto v m' a hv hpc k1 k2 k3
    obtain ⟨e1, e2⟩ := offset_byte hv
    unfold emitGeneric
    dsimp only
    rw [if_neg k1, if_neg (by rintro ⟨h | h, _⟩ <;> contradiction), if_neg (by
      intro h; injection h with h; exact hpc h), (pointer_reg b).2, e1, e2]
    cases auto <;> (unfold Asm.check Asm.emit8 Asm.embed; simp [Nat.mod_eq_of_lt hv])
  have nop : ∀ (op : Operand) (a : Asm), op.err = .OK → a.setErrorIf op.err = a := by
    intro op a h
    rw [h, Asm.noError]
  unfold decodeOperand at h ⊢
  cases m with
  | IMM =>
    obtain ⟨op, bs, k1, k2, k3, k4, k5, k6⟩ := imm h
    refine ⟨op, ⟨by rw [k2]; exact List.mem_singleton.2 rfl, bs, k3, k4, fun a hae => ?_⟩, k6⟩
    unfold encodeOperand
    rw [nop op a k1]
    exact congrArg Out.ok (k5 a hae)
  | ADR =>
    have hx : execute row = true := hm
    have hf : fetch row = 1 := by unfold fetch; rw [hx]; rfl
    have h : r.le16.2.err = .OK := h
    obtain ⟨g1, g2⟩ := le16_took hmem h
    have hn : NumText .national .ins80xx (outAbsAddr .national o 16 ((r.le16.1 + 1) % 65536)) ((r.le16.1 + 1) % 65536) :=
      outAbsAddr_num hP _ 16 (by omega) (by decide) (by decide)
    refine ⟨{ mode := numberMode ((r.le16.1 + 1) % 65536), val := ⟨(r.le16.1 + 1) % 65536, .unsigned⟩ }, ⟨?_, _, g2, by simp,
      fun a _ => ?_⟩, ?_⟩
    · show numberMode _ ∈ [Mode.ADR, .VEC]
      unfold numberMode
      split <;> decide
    · unfold encodeOperand
      rw [nop _ a rfl]
      dsimp only
      unfold emitAbsolute
      dsimp only
      rw [if_neg (by simp), getUnsigned_nat (by omega)]
      have hW : Config.W = 4294967296 := rfl
      generalize hX : ((r.le16.1 + 1) % 65536 + Config.W - 1) % Config.W = X
      have hX1 : X % 256 = r.le16.1 % 256 ∧ X / 256 % 256 = r.le16.1 / 256 := by
        rw [hW] at hX
        omega
      unfold Asm.emit16le
      rw [hX1.1, hX1.2]
      rfl
    · show parseOperand (plug E addr) (outAbsAddr .national o 16 ((r.le16.1 + fetch row) % 65536)) = _
      rw [hf]
      exact number_reads (by omega) (plain_number hn.lead) (const hn)
  | VEC =>
    dsimp only at h ⊢
    have hn : NumText .national .ins80xx (outDec .national o (b % 16) ((4 : Nat) : Int)) (b % 16) :=
      outDec_num hP (b % 16) 4 (by omega) (by decide) (by decide)
    refine ⟨{ mode := .VEC, val := ⟨b % 16, .unsigned⟩ }, ⟨List.mem_singleton.2 rfl, [], Took.refl h, by decide,
      fun a _ => ?_⟩, ?_⟩
    · unfold encodeOperand
      rw [nop _ a rfl]
      dsimp only
      rw [getUnsigned_nat (by omega), List.append_nil, Nat.mod_mod]
      rfl
    · have := number_reads (E := E) (addr := addr) (by omega) (plain_number hn.lead) (const hn)
      rw [show numberMode (b % 16) = .VEC from if_pos (by omega)] at this
      exact this
  | IDX =>
    have hb : 2 ≤ b % 4 := of_decide_eq_true hm
    have hpc : decodePointerReg b ≠ .PC ∧ decodePointerReg b ≠ .SP := by
      have : b % 4 = 2 ∨ b % 4 = 3 := by omega
      unfold decodePointerReg
      rcases this with h | h <;> rw [h] <;> decide
    obtain ⟨v, k1, k2, k3⟩ := idx false (by intro h; cases h) h
    rw [if_neg (by simp [hpc])] at k3
    refine ⟨_, ⟨?_, [v], k2, by simp, fun a _ => ?_⟩, k3⟩
    · exact List.mem_singleton.2 rfl
    · unfold encodeOperand
      rw [nop _ a rfl]
      exact emitIdx false v _ a k1 hpc.1 (by decide) (by decide) (by decide)
  | PCR =>
    have hx : execute row = true := hm
    obtain ⟨op, bs, k1, k2, _, k3, k4, k5, k6⟩ := tgt h (fun hx => hz hx rfl)
    refine ⟨op, ⟨k2 hx, bs, k3, k4, fun a hae => ?_⟩, k6⟩
    unfold encodeOperand
    rw [nop op a k1]
    exact k5 a hae
  | GEN =>
    have hx : execute row = false := by
      have h : (!execute row) = true := hm
      simpa using h
    have hgen : ∀ (op : Operand) a, op.err = .OK → encodeOperand addr row .GEN op a = emitGeneric addr row op a := by
      intro op a h
      unfold encodeOperand
      rw [nop op a h]
    dsimp only at h ⊢
    unfold decodeGeneric at h ⊢
    have h8 : b % 8 = 0 ∨ b % 8 = 1 ∨ b % 8 = 2 ∨ b % 8 = 3 ∨ b % 8 = 4 ∨ b % 8 = 5 ∨ b % 8 = 6 ∨ b % 8 = 7 := by omega
    have idxG : ∀ (auto : Bool) (mm : Mode), decodePointerReg b ≠ .PC → (auto = true → decodePointerReg b ≠ .SP) →
        (if auto || decodePointerReg b == .SP || decodePointerReg b == .PC then Mode.GEN else .IDX) = mm →
        mm ∈ pmodes b .GEN → (∀ c, emb b .GEN c = if auto then ((c ||| b % 4) % 256 ||| 4) % 256 else (c ||| b % 4) % 256) →
        (decodeIndexed o b auto r).2.err = .OK →
        ∃ op, Rel b addr row .GEN r (decodeIndexed o b auto r).2 op ∧
          parseOperand (plug E addr) (decodeIndexed o b auto r).1 = .ok (.ok (op, [])) := by
      intro auto mm c1 c2 c3 c4 c5 h
      obtain ⟨v, k1, k2, k3⟩ := idx auto (fun ha => ⟨c1, c2 ha⟩) h
      rw [c3] at k3
      have c6 : mm = .GEN ∨ mm = .IDX := by
        rw [← c3]; split <;> simp
      refine ⟨_, ⟨c4, [v], k2, by simp, fun a _ => ?_⟩, k3⟩
      rw [hgen _ a rfl, c5]
      exact emitIdx auto v mm a k1 c1 (by rcases c6 with h | h <;> rw [h] <;> decide)
        (by rcases c6 with h | h <;> rw [h] <;> decide) (by rcases c6 with h | h <;> rw [h] <;> decide)
    have hpt : decodePointerReg b = decodePointerReg (b % 8) := by
      unfold decodePointerReg
      rw [show b % 8 % 4 = b % 4 by omega]
    rcases h8 with h8 | h8 | h8 | h8 | h8 | h8 | h8 | h8
    · rw [h8] at h ⊢
      obtain ⟨op, bs, k1, _, k2, k3, k4, k5, k6⟩ := tgt h (fun hc => by rw [hx] at hc; cases hc)
      refine ⟨op, ⟨by unfold pmodes; rw [h8, (k2 hx).1]; exact List.mem_singleton.2 rfl, bs, k3, k4, fun a hae => ?_⟩, k6⟩
      rw [hgen op a k1]
      unfold emitGeneric emb
      rw [h8, if_neg (by rw [(k2 hx).1]; decide), if_neg (by rw [(k2 hx).1]; simp), if_pos (k2 hx).2]
      exact k5 a hae
    · rw [h8] at hpt h ⊢
      refine idxG false .GEN (by rw [hpt]; decide) (by intro h; cases h) (by rw [hpt]; rfl)
        (by unfold pmodes; rw [h8]; exact List.mem_singleton.2 rfl) (fun c => by unfold emb; rw [h8]; rfl) h
    · rw [h8] at hpt h ⊢
      refine idxG false .IDX (by rw [hpt]; decide) (by intro h; cases h) (by rw [hpt]; rfl)
        (by unfold pmodes; rw [h8]; exact List.mem_singleton.2 rfl) (fun c => by unfold emb; rw [h8]; rfl) h
    · rw [h8] at hpt h ⊢
      refine idxG false .IDX (by rw [hpt]; decide) (by intro h; cases h) (by rw [hpt]; rfl)
        (by unfold pmodes; rw [h8]; exact List.mem_singleton.2 rfl) (fun c => by unfold emb; rw [h8]; rfl) h
    · rw [h8] at h ⊢
      obtain ⟨op, bs, k1, k2, k3, k4, k5, k6⟩ := imm h
      refine ⟨op, ⟨by unfold pmodes; rw [h8, k2]; exact List.mem_singleton.2 rfl, bs, k3, k4, fun a hae => ?_⟩, k6⟩
      rw [hgen op a k1]
      unfold emitGeneric emb
      rw [h8, if_pos k2]
      exact congrArg Out.ok (k5 (a.embed 4) hae)
    · rw [h8] at h ⊢
      have h : r.byte.2.err = .OK := h
      obtain ⟨g1, g2⟩ := byte_took hmem h
      have hn : NumText .national .ins80xx (outAbsAddr .national o 16 (65280 + r.byte.1)) (65280 + r.byte.1) :=
        outAbsAddr_num hP _ 16 (by omega) (by decide) (by decide)
      refine ⟨{ mode := .ADR, val := ⟨65280 + r.byte.1, .unsigned⟩ }, ⟨by unfold pmodes; rw [h8]; exact List.mem_singleton.2 rfl,
        _, g2, by simp, fun a _ => ?_⟩, ?_⟩
      · rw [hgen _ a rfl]
        unfold emitGeneric emb
        rw [h8]
        dsimp only
        rw [if_neg (by decide), if_pos ⟨Or.inl rfl, rfl⟩, if_neg (show ¬(Err.OK ≠ Err.OK) by simp), getUnsigned_nat (by omega), if_neg (by omega)]
        unfold Asm.emit8 Asm.embed
        rw [show (65280 + r.byte.1) % 256 = r.byte.1 by omega]
        rfl
      · have := number_reads (E := E) (addr := addr) (by omega) (plain_number hn.lead) (const hn)
        rw [show numberMode (65280 + r.byte.1) = .ADR from if_neg (by omega)] at this
        exact this
    · rw [h8] at hpt h ⊢
      refine idxG true .GEN (by rw [hpt]; decide) (by rw [hpt]; decide) (by rw [hpt]; rfl)
        (by unfold pmodes; rw [h8]; exact List.mem_singleton.2 rfl) (fun c => by unfold emb; rw [h8]; rfl) h
    · rw [h8] at hpt h ⊢
      refine idxG true .GEN (by rw [hpt]; decide) (by rw [hpt]; decide) (by rw [hpt]; rfl)
        (by unfold pmodes; rw [h8]; exact List.mem_singleton.2 rfl) (fun c => by unfold emb; rw [h8]; rfl) h
  | _ => first | (exact absurd rfl hreg) | (cases hm)

end

/-! ### The table -/

/-- What the table has to say for the code `b` and its entry. -/
def rowOk (b : Nat) (row : Row) : Bool :=
  (modes row).foldl (fun c m => emb b m c) row.opcode == b &&
  (match modes row with
   | [] => true
   | [m] => modeOk b row m
   | [m1, m2] => isReg m1 && modeOk b row m2
   | _ => false) &&
  (!(execute row && (modes row).contains .PCR) || branches.contains b)

/-- The modes the operands may be read with. -/
def choices (b : Nat) : List Mode → List (List Mode)
  | [] => [[]]
  | m :: ms => (pmodes b m).flatMap fun x => (choices b ms).map (x :: ·)

/-- The entry that is found is this one. -/
def rowIs (x : Out (Except Err Row)) (row : Row) : Bool :=
  match x with
  | .ok (.ok r) => decide (r = row)
  | _ => false

theorem rowIs_eq {x : Out (Except Err Row)} {row : Row} (h : rowIs x row = true) : x = .ok (.ok row) := by
  unfold rowIs at h
  split at h
  · rw [of_decide_eq_true h]
  · cases h

def nameOk (b : Nat) (row : Row) (up : Bool) : Bool :=
  nameB syntaxOf (row.name.map (letter up)) &&
  (choices b (modes row)).all fun ms => rowIs (searchName (row.name.map (letter up)) (pad 2 .NONE ms)) row

/-- What the table has to say for a code. -/
def codeOk (b : Nat) : Bool :=
  match searchOpCode b with
  | none => true
  | some row => rowOk b row && nameOk b row false && nameOk b row true

theorem codes_ok : ∀ b < 256, codeOk b = true := by decide +kernel

end Libasm.Cpu.Ins8070
