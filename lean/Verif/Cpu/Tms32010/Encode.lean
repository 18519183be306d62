import Verif.Cpu.Ops
import Verif.Table.Props
import Verif.Cpu.Tms32010.Model
/-
How the TMS32010 assembler reads what its disassembler prints, and what it makes of it.
-/
namespace Libasm.Cpu.Tms32010
open Scan Number Number.Spec Eval
open Tables (Row)

/-- The parsers at an address. -/
abbrev plug (E : Env) (addr : Nat) : Plugins Value := lexer.plugins E '\x00' addr

/-- The octal numbers of the listing have no suffix. -/
def Readable (o : Opts) : Prop := o.octal = true → o.cstyle = true ∨ o.intelHex = true

theorem pairs {o : Opts} (h : Readable o) : Pairs .suffixh .intel o :=
  ⟨by decide, by decide, fun h' => (h h').elim Or.inl (fun h => Or.inr (Or.inl h))⟩

theorem lexOk : LexOk lexer .suffixh := by
  apply lexOk_of
  intro c hc s
  simp only [firsts, leads, List.map, List.append_nil, List.mem_cons, List.not_mem_nil, or_false] at hc
  rcases hc with h | h | h | h | h | h | h | h | h | h <;> subst h <;>
    exact ⟨rfl, rfl, fun _ _ => rfl⟩

theorem lex_ops (E : Env) (loc : Nat) : Ops (plug E loc) :=
  ⟨rfl, ⟨opUnaryMinus, rfl, rfl, rfl, fun _ _ _ => rfl⟩, fun _ => rfl, fun _ => rfl, fun _ _ _ => rfl,
    fun _ => rfl,
    by show '\x00' ≠ '-' ∧ '\x00' ≠ '+'; decide⟩

theorem stop_nil (E : Env) (loc : Nat) : Stop (plug E loc) [] :=
  ⟨rfl, Or.inl rfl⟩

theorem stop_comma (E : Env) (loc : Nat) (s : List Char) : Stop (plug E loc) (',' :: s) :=
  ⟨rfl, Or.inr (Or.inr ⟨rfl, Or.inr rfl⟩)⟩

theorem after_stop {E : Env} {loc : Nat} {rest : List Char} (h : AfterOp rest) :
    Sep rest ∧ Stop (plug E loc) rest := by
  rcases h with rfl | ⟨s, rfl⟩
  · exact ⟨Sep.nil, stop_nil ..⟩
  · exact ⟨Sep.cons (by decide) _, stop_comma ..⟩

/-! ### Operands -/

section
variable {E : Env} {addr : Nat}

/-- The text is read as the operand, whatever comes after it. -/
def Reads (E : Env) (addr : Nat) (t : List Char) (op : Operand) : Prop :=
  ∀ rest, AfterOp rest → parseOperand (plug E addr) (t ++ rest) = .ok (.ok (op, rest))

/-- How numbers start: no register starts so, and nothing else. -/
theorem heads {c : Char} (hc : c ∈ '-' :: firsts .suffixh) (s : Scan) :
    skipSpaces (c :: s) = c :: s ∧ (plug E addr).endOfLine (c :: s) = false ∧ expect '*' (c :: s) = none ∧
    parseRegName (c :: s) = none := by
  simp only [firsts, leads, List.map, List.append_nil, List.mem_cons, List.not_mem_nil, or_false] at hc
  rcases hc with h | h | h | h | h | h | h | h | h | h | h <;> subst h <;>
    exact ⟨rfl, rfl, rfl, rfl⟩

/-- A number, whatever text it is read from. -/
theorem value_reads {v : Value} {t : List Char} (hh : ∃ c s, t = c :: s ∧ c ∈ '-' :: firsts .suffixh)
    (e : ∀ rest, AfterOp rest → parseInteger (plug E addr) (t ++ rest) .OK = .ok (v, .OK, rest)) :
    Reads E addr t { mode := constantType v.getUnsigned, val := v } := by
  intro rest hr
  have e := e rest hr
  obtain ⟨c, s, rfl, hc⟩ := hh
  rw [List.cons_append] at e ⊢
  obtain ⟨h1, h2, h3, h4⟩ := heads (E := E) (addr := addr) hc (s ++ rest)
  unfold parseOperand
  rw [h1]
  dsimp only
  rw [h2, h3, h4]
  dsimp only
  rw [e, Out.ok_bind]
  rfl

theorem num_reads {w : Nat} {t : List Char} (h : NumText .suffixh .intel t w) :
    Reads E addr t { mode := constantType w, val := ⟨w, .unsigned⟩ } := by
  have h1 := value_reads (E := E) (addr := addr) (v := ⟨w, .unsigned⟩) (t := t) (by
    obtain ⟨c, s, h1, h2⟩ := lead_first h.lead
    exact ⟨c, s, h1, List.mem_cons_of_mem _ h2⟩) (by
    intro rest hr
    obtain ⟨s1, s2⟩ := after_stop (E := E) (loc := addr) hr
    exact eval_const (const_of lexOk h E '\x00' addr) s1 s2)
  rw [getUnsigned_num h.small] at h1
  exact h1

theorem signed_reads {x : Int} {t : List Char} (h : SignedText .suffixh .intel t x) :
    Reads E addr t { mode := constantType (Value.setS x).getUnsigned, val := Value.setS x } := by
  apply value_reads
  · obtain ⟨u, h1, h2⟩ := h.ex
    obtain ⟨c, s, h3, h4⟩ := lead_first h2.lead
    by_cases hx : x < 0
    · rw [if_pos hx] at h1
      exact ⟨'-', u, h1, List.mem_cons_self ..⟩
    · rw [if_neg hx] at h1
      exact ⟨c, s, by rw [h1, h3]; rfl, List.mem_cons_of_mem _ h4⟩
  · intro rest hr
    obtain ⟨s1, s2⟩ := after_stop (E := E) (loc := addr) hr
    exact eval_signed lexOk (lex_ops E addr) h s1 s2

/-- `*`, `*+` and `*-` -/
theorem indirect_reads {opc : Nat} :
    Reads E addr (outIndirect opc)
      { mode := if opc / 32 % 2 = 1 then .INC else if opc / 16 % 2 = 1 then .DEC else .ARP } := by
  intro rest hr
  unfold outIndirect
  by_cases h1 : opc / 32 % 2 = 1
  · rw [if_pos h1, if_pos h1]
    rfl
  · rw [if_neg h1, if_neg h1]
    by_cases h2 : opc / 16 % 2 = 1
    · rw [if_pos h2, if_pos h2]
      rfl
    · rw [if_neg h2, if_neg h2]
      rcases hr with rfl | ⟨s, rfl⟩ <;> rfl

/-- The operand a register is read as. -/
def regOperand : Reg → Operand
  | .AR n => { mode := .AR, val := ⟨n, .unsigned⟩ }
  | .PA n => { mode := .PA, val := ⟨n, .unsigned⟩ }

/-- The registers there are. -/
def regOk : Reg → Prop
  | .AR n => n < 2
  | .PA n => n < 8

theorem reg_reads (o : Opts) {r : Reg} (hn : regOk r) : Reads E addr (outReg o r) (regOperand r) := by
  intro rest hr
  have hs := (after_stop (E := E) (loc := addr) hr).1
  have num : ∀ n < 8, Table.parseRegNumber (fmtDec o.upper n ++ rest) = some (n, rest) := by
    intro n hn
    have h1 : ∀ n < 8, ∀ up, Table.Spec.Canonical (fmtDec up n) ∧
        Table.Spec.decimal (fmtDec up n) = n := by decide +kernel
    obtain ⟨c1, c2⟩ := h1 n hn o.upper
    have hnum := Libasm.Table.Props.C41_accepts (fmtDec o.upper n) rest c1 (by rw [c2]; omega) (by
      intro c hc
      have : ∀ c ∈ seps, ¬ Table.Spec.Ident c := by decide
      exact this c (hs c hc))
    rw [c2] at hnum
    exact hnum
  have small : ∀ n < 8, Value.setUnsigned n = (⟨n, .unsigned⟩ : Value) := by decide
  have a1 : ∀ up s, skipSpaces (letter up 'A' :: letter up 'R' :: s) = letter up 'A' :: letter up 'R' :: s ∧
      (plug E addr).endOfLine (letter up 'A' :: letter up 'R' :: s) = false ∧
      expect '*' (letter up 'A' :: letter up 'R' :: s) = none ∧
      iexpectText ['A', 'R'] (letter up 'A' :: letter up 'R' :: s) = some s := by
    intro up s
    cases up <;> exact ⟨rfl, rfl, rfl, rfl⟩
  have p1 : ∀ up s, skipSpaces (letter up 'P' :: letter up 'A' :: s) = letter up 'P' :: letter up 'A' :: s ∧
      (plug E addr).endOfLine (letter up 'P' :: letter up 'A' :: s) = false ∧
      expect '*' (letter up 'P' :: letter up 'A' :: s) = none ∧
      iexpectText ['A', 'R'] (letter up 'P' :: letter up 'A' :: s) = none ∧
      iexpectText ['P', 'A'] (letter up 'P' :: letter up 'A' :: s) = some s := by
    intro up s
    cases up <;> exact ⟨rfl, rfl, rfl, rfl, rfl⟩
  cases r with
  | AR n =>
    have hn : n < 2 := hn
    rw [show outReg o (.AR n) ++ rest = letter o.upper 'A' :: letter o.upper 'R' :: (fmtDec o.upper n ++ rest) from rfl]
    obtain ⟨k1, k2, k3, k4⟩ := a1 o.upper (fmtDec o.upper n ++ rest)
    unfold parseOperand
    rw [k1]
    dsimp only
    rw [k2, k3]
    dsimp only
    unfold parseRegName
    rw [k4]
    dsimp only
    rw [num n (by omega)]
    dsimp only
    rw [if_pos hn]
    show Out.ok (Except.ok (({ mode := .AR, val := Value.setUnsigned n } : Operand), rest)) = _
    rw [small n (by omega)]
    rfl
  | PA n =>
    have hn : n < 8 := hn
    rw [show outReg o (.PA n) ++ rest = letter o.upper 'P' :: letter o.upper 'A' :: (fmtDec o.upper n ++ rest) from rfl]
    obtain ⟨k1, k2, k3, k4, k5⟩ := p1 o.upper (fmtDec o.upper n ++ rest)
    unfold parseOperand
    rw [k1]
    dsimp only
    rw [k2, k3]
    dsimp only
    unfold parseRegName
    rw [k4]
    dsimp only
    rw [k5]
    dsimp only
    rw [num n hn]
    dsimp only
    rw [if_pos hn]
    show Out.ok (Except.ok (({ mode := .PA, val := Value.setUnsigned n } : Operand), rest)) = _
    rw [small n hn]
    rfl

theorem skip_skip (s : Scan) : skipSpaces (skipSpaces s) = skipSpaces s := by
  unfold skipSpaces trimStart
  induction s with
  | nil => rfl
  | cons c s ih =>
    rw [List.dropWhile_cons]
    split
    · exact ih
    · rw [List.dropWhile_cons, if_neg (by assumption)]

theorem parse_skip (P : Plugins Value) (s : Scan) : parseOperand P (skipSpaces s) = parseOperand P s := by
  unfold parseOperand
  rw [skip_skip]

/-- The last operand. -/
theorem list_one {t : List Char} {op : Operand} (h : Reads E addr t op) (n : Nat) :
    operandList (parseOperand (plug E addr)) (n + 1) t = .ok (.ok ([op], [])) := by
  have := h [] (Or.inl rfl)
  rw [List.append_nil] at this
  unfold operandList
  rw [this, Out.ok_bind]
  cases n <;> rfl

/-- An operand and others after it. -/
theorem list_cons {t t' : List Char} {op : Operand} {ops : List Operand} {n : Nat} (h : Reads E addr t op)
    (h' : operandList (parseOperand (plug E addr)) (n + 1) t' = .ok (.ok (ops, []))) :
    operandList (parseOperand (plug E addr)) (n + 2) (t ++ (comma ++ t')) = .ok (.ok (op :: ops, [])) := by
  have hs : operandList (parseOperand (plug E addr)) (n + 1) (' ' :: t') =
      operandList (parseOperand (plug E addr)) (n + 1) t' := by
    rw [← operands_skip (parse_skip _) n (' ' :: t'), ← operands_skip (parse_skip _) n t']
    rfl
  unfold operandList
  rw [h (comma ++ t') (Or.inr ⟨t', rfl⟩), Out.ok_bind]
  dsimp only
  rw [show expect ',' (skipSpaces (comma ++ t')) = some (' ' :: t') from rfl]
  dsimp only
  rw [hs, h', Out.ok_bind]

theorem list_nil (n : Nat) :
    operandList (parseOperand (plug E addr)) (n + 1) [] = .ok (.ok ([{}], [])) := by
  unfold operandList
  cases n <;> rfl

/-! ### Into the code -/

/-- The codes the operands are put into: two bytes, one beside the other. -/
theorem or_pair {x y z w : Nat} (hy : y < 256) (hw : w < 256) :
    (x * 256 + y) ||| (z * 256 + w) = (x ||| z) * 256 + (y ||| w) := by
  have h1 := Nat.or_div_two_pow (a := x * 256 + y) (b := z * 256 + w) (n := 8)
  have h2 := Nat.or_mod_two_pow (a := x * 256 + y) (b := z * 256 + w) (n := 8)
  rw [show (2 : Nat) ^ 8 = 256 from rfl] at h1 h2
  rw [show (x * 256 + y) / 256 = x by omega, show (z * 256 + w) / 256 = z by omega] at h1
  rw [show (x * 256 + y) % 256 = y by omega, show (z * 256 + w) % 256 = w by omega] at h2
  omega

theorem or_low {x y : Nat} (hy : y < 256) : x * 256 ||| y = x * 256 + y := by
  have := or_pair (x := x) (y := 0) (z := 0) (w := y) (by decide) hy
  simpa using this

theorem or_low' {x y w : Nat} (hy : y < 256) (hw : w < 256) : (x * 256 + y) ||| w = x * 256 + (y ||| w) := by
  have := or_pair (x := x) (y := y) (z := 0) (w := w) hy hw
  simpa using this

theorem or_high {x y z : Nat} (hy : y < 256) : (x * 256 + y) ||| z * 256 = (x ||| z) * 256 + y := by
  have := or_pair (x := x) (y := y) (z := z) (w := 0) hy (by decide)
  simpa using this

/-- The bits of a memory operand, before the next register is known. -/
def mam (l : Nat) : Nat :=
  if l < 128 then l else if l / 32 % 2 = 1 then 0xA8 else if l / 16 % 2 = 1 then 0x98 else 0x88

/-- The bits of a memory operand there are. -/
def validMam (l : Nat) : Bool :=
  l < 128 || (l / 64 % 2 == 0 && l / 2 % 4 == 0 && l / 16 % 4 != 3 && (l / 8 % 2 == 0 || l % 8 == 0))

/-- There is a next register. -/
def Next (opc : Nat) : Prop := opc / 128 % 2 = 1 ∧ opc / 8 % 2 = 0

instance (opc : Nat) : Decidable (Next opc) := inferInstanceAs (Decidable (_ ∧ _))

theorem mam_lt {l : Nat} (h : l < 256) : mam l < 256 := by
  unfold mam
  split
  · omega
  · split
    · decide
    · split <;> decide

theorem mam_back : ∀ l < 256, validMam l = true →
    (if Next l then (mam l - mam l / 8 % 2 * 8) ||| l % 2 else mam l) = l := by decide +kernel

theorem low_mam {m2 : Mode} {opc x : Nat} (h2 : m2 ≠ .IM8) (h : maskLow .MAM m2 opc = some x) :
    validMam (opc % 256) = true ∧ x = opc / 256 * 256 := by
  unfold maskLow at h
  rw [if_neg (by simp [h2]), if_pos (Or.inl rfl)] at h
  unfold validMam
  simp only [Bool.or_eq_true, Bool.and_eq_true, decide_eq_true_eq, beq_iff_eq, bne_iff_ne]
  split at h
  · injection h with h
    exact ⟨by omega, by omega⟩
  · split at h
    · cases h
    · split at h
      · cases h
      · split at h
        · cases h
        · injection h with h
          exact ⟨by omega, by omega⟩

theorem low_ar_mam {opc x : Nat} (h : maskLow .AR .MAM opc = some x) :
    validMam (opc % 256) = true ∧ x = opc / 256 * 256 := by
  refine low_mam (m2 := .LS0) (by decide) ?_
  rw [← h]
  rfl

/-! ### The operands -/

theorem accept_imm {v : Nat} : acceptMode (constantType v) .IM13 = true ∧ acceptMode (constantType v) .PMA = true := by
  unfold constantType
  dsimp only
  repeat' split
  all_goals exact ⟨by decide, by decide⟩

theorem accept_byte {v : Nat} (h : v < 256) :
    acceptMode (constantType v) .IM8 = true ∧ acceptMode (constantType v) .MAM = true := by
  unfold constantType
  dsimp only
  rw [Nat.mod_eq_of_lt (show v < 65536 by omega)]
  repeat' split
  all_goals first | exact absurd h (by assumption) | exact ⟨by decide, by decide⟩

theorem accept_small : (∀ v < 16, acceptMode (constantType v) .LS4 = true) ∧
    (∀ v < 2, acceptMode (constantType v) .DPK = true) ∧
    (∀ v < 8, v < 2 ∨ v = 4 → acceptMode (constantType v) .LS3 = true) ∧
    acceptMode (constantType 0) .LS0 = true := by decide

/-- The constant is none of the registers. -/
theorem constant_mode (v : Nat) : constantType v ≠ .ARP ∧ constantType v ≠ .INC ∧ constantType v ≠ .DEC ∧
    constantType v ≠ .NONE := by
  unfold constantType
  dsimp only
  repeat' split
  all_goals decide

theorem encode_memory (cpu : CpuType) {op : Operand} {a : Asm} (h : op.mode ≠ .ARP ∧ op.mode ≠ .INC ∧ op.mode ≠ .DEC) :
    encodeOperand cpu .MAM op a =
      embed (((a.setErrorIf op.err).check (decide (op.val.getUnsigned > dataMemoryLimit cpu)) .OVERFLOW_RANGE).check
        (decide (((a.setErrorIf op.err).check (decide (op.val.getUnsigned > dataMemoryLimit cpu)) .OVERFLOW_RANGE).opc = 0x7C00 ∧
          op.val.getUnsigned < 0x80)) .OVERFLOW_RANGE) (op.val.getUnsigned % 128) := by
  unfold encodeOperand
  dsimp only
  split
  · exact absurd (by assumption) h.1
  · exact absurd (by assumption) h.2.1
  · exact absurd (by assumption) h.2.2
  · rfl

theorem check_false (a : Asm) (e : Err) : a.check false e = a := rfl

/-- A memory operand. -/
theorem mam_reads {o : Opts} (ho : Readable o) (cpu : CpuType) {opc : Nat} {r : Rd}
    (he : (decodeOperand o cpu opc .MAM r).2.err = .OK) :
    (decodeOperand o cpu opc .MAM r).2 = r ∧
    ∃ op, Reads E addr (decodeOperand o cpu opc .MAM r).1 op ∧ acceptMode op.mode .MAM = true ∧
      ∀ a : Asm, (a.opc = 0x7C00 → opc / 256 = 0x7C) →
        encodeOperand cpu .MAM op a = { a with opc := a.opc ||| mam (opc % 256) } := by
  unfold decodeOperand at he ⊢
  dsimp only at he ⊢
  by_cases h7 : opc / 128 % 2 = 1
  · rw [if_pos h7] at he ⊢
    refine ⟨rfl, _, indirect_reads, ?_, ?_⟩
    · dsimp only
      repeat' split
      all_goals decide
    · intro a _
      have e : mam (opc % 256) = if opc / 32 % 2 = 1 then 0xA8 else if opc / 16 % 2 = 1 then 0x98 else 0x88 := by
        unfold mam
        rw [if_neg (by omega), show opc % 256 / 32 % 2 = opc / 32 % 2 by omega,
          show opc % 256 / 16 % 2 = opc / 16 % 2 by omega]
      rw [e]
      by_cases h1 : opc / 32 % 2 = 1
      · rw [if_pos h1, if_pos h1]
        show embed (a.setErrorIf .OK) 0xA8 = _
        rw [Asm.noError]
        rfl
      · rw [if_neg h1, if_neg h1]
        by_cases h2 : opc / 16 % 2 = 1
        · rw [if_pos h2, if_pos h2]
          show embed (a.setErrorIf .OK) 0x98 = _
          rw [Asm.noError]
          rfl
        · rw [if_neg h2, if_neg h2]
          show embed (a.setErrorIf .OK) 0x88 = _
          rw [Asm.noError]
          rfl
  · rw [if_neg h7] at he ⊢
    have hl : mam (opc % 256) = opc % 128 := by
      unfold mam
      rw [if_pos (by omega)]
      omega
    rw [hl]
    have key : ∀ v, v < 256 → v % 128 = opc % 128 → v ≤ dataMemoryLimit cpu → (128 ≤ v ∨ opc / 256 ≠ 0x7C) →
        ∃ op, Reads E addr (outAbsAddr .suffixh o 8 v) op ∧ acceptMode op.mode .MAM = true ∧
        ∀ a : Asm, (a.opc = 0x7C00 → opc / 256 = 0x7C) →
          encodeOperand cpu .MAM op a = { a with opc := a.opc ||| opc % 128 } := by
      intro v hv h1 h2 h3
      refine ⟨_, num_reads (outAbsAddr_num (pairs ho) v 8 hv (by decide) (by decide)), (accept_byte hv).2, ?_⟩
      intro a ha
      have hc := constant_mode v
      rw [encode_memory cpu ⟨hc.1, hc.2.1, hc.2.2.1⟩]
      dsimp only
      rw [Asm.noError, getUnsigned_num (by omega), h1, decide_eq_false (by omega), check_false,
        decide_eq_false (by intro hx; have := ha hx.1; omega), check_false]
      unfold embed
      rw [Nat.mod_eq_of_lt (show opc % 128 < 65536 by omega)]
    unfold outDirect at he ⊢
    by_cases h1 : opc / 256 = 0x7C
    · rw [if_pos h1] at he ⊢
      dsimp only at he ⊢
      by_cases h2 : opc % 128 + 128 > dataMemoryLimit cpu
      · rw [if_pos h2] at he
        exact absurd (setErrorIf_ok he).2 (by decide)
      · rw [if_neg h2]
        exact ⟨rfl, key _ (by omega) (by omega) (by omega) (Or.inl (by omega))⟩
    · rw [if_neg h1]
      refine ⟨rfl, key _ (by omega) (by omega) ?_ (Or.inr h1)⟩
      cases cpu
      · show opc % 128 ≤ 0x8F
        omega
      · show opc % 128 ≤ 0xFF
        omega

/-- The operand the next register is read as. -/
def nextOp (opc : Nat) : Operand := if Next opc then regOperand (.AR (opc % 2)) else {}

theorem next_encode (cpu : CpuType) (opc : Nat) (a : Asm) :
    encodeOperand cpu .NARP (nextOp opc) a =
      { a with opc := if Next opc then (a.opc - a.opc / 8 % 2 * 8) ||| opc % 2 else a.opc } := by
  unfold nextOp
  by_cases h : Next opc
  · rw [if_pos h, if_pos h]
    have e : encodeOperand cpu .NARP (regOperand (.AR (opc % 2))) a =
        embed { a.setErrorIf .OK with opc := a.opc - a.opc / 8 % 2 * 8 } (⟨opc % 2, .unsigned⟩ : Value).getUnsigned := rfl
    rw [e, getUnsigned_num (by omega), Asm.noError]
    unfold embed
    rw [Nat.mod_eq_of_lt (show opc % 2 < 65536 by omega)]
  · rw [if_neg h, if_neg h]
    have e : encodeOperand cpu .NARP {} a = a.setErrorIf .OK := rfl
    rw [e, Asm.noError]

theorem next_accept (opc : Nat) : acceptMode (nextOp opc).mode .NARP = true := by
  unfold nextOp
  split <;> rfl

/-- A register, nothing or the next one after an operand. -/
theorem next_list {o : Opts} {opc n : Nat} {t : List Char} {op : Operand} (h : Reads E addr t op) :
    ∃ ops, operandList (parseOperand (plug E addr)) (n + 2) (t ++ outNextArp o opc) = .ok (.ok (op :: ops, [])) ∧
      ∀ k, pad (k + 1) {} ops = nextOp opc :: pad k {} [] := by
  unfold outNextArp nextOp
  by_cases hn : Next opc
  · have hn' : opc / 128 % 2 = 1 ∧ opc / 8 % 2 = 0 := hn
    rw [if_pos hn', if_pos hn]
    exact ⟨_, list_cons h (list_one (reg_reads o (show regOk (.AR (opc % 2)) from Nat.mod_lt _ (by decide))) n), fun k => rfl⟩
  · have hn' : ¬ (opc / 128 % 2 = 1 ∧ opc / 8 % 2 = 0) := hn
    rw [if_neg hn', if_neg hn, List.append_nil]
    exact ⟨[], list_one h _, fun k => rfl⟩

/-- A shift count after an operand, if there is one, and the next register. -/
theorem shift_list {o : Opts} (ho : Readable o) {opc c : Nat} (hc : c < 16) {t : List Char} {op : Operand}
    (h : Reads E addr t op) :
    ∃ x ops, operandList (parseOperand (plug E addr)) 3 (t ++ outShiftCount o c opc ++ outNextArp o opc) =
        .ok (.ok (op :: ops, [])) ∧
      (x = { mode := constantType c, val := ⟨c, .unsigned⟩ } ∨ c = 0 ∧ x = ({} : Operand)) ∧
      pad 2 {} ops = [x, nextOp opc] := by
  unfold outShiftCount
  by_cases hn : c ≠ 0 ∨ (opc / 128 % 2 = 1 ∧ opc / 8 % 2 = 0)
  · rw [if_pos hn, List.append_assoc, List.append_assoc]
    have hnum : NumText .suffixh .intel (outDec .suffixh o c ((4 : Nat) : Int)) c :=
      outDec_num (pairs ho) c 4 (by omega) (by decide) (by decide)
    obtain ⟨ops, h1, h2⟩ := next_list (o := o) (opc := opc) (n := 0) (num_reads (E := E) (addr := addr) hnum)
    exact ⟨_, _, list_cons h h1, Or.inl rfl, by
      show _ :: pad 1 {} ops = _
      rw [h2 0]
      rfl⟩
  · rw [if_neg hn, List.append_nil]
    have hn' : ¬ Next opc := fun hx => hn (Or.inr hx)
    have hn'' : ¬ (opc / 128 % 2 = 1 ∧ opc / 8 % 2 = 0) := hn'
    unfold outNextArp nextOp
    rw [if_neg hn'', if_neg hn', List.append_nil]
    exact ⟨_, [], list_one h _, Or.inr ⟨by omega, rfl⟩, rfl⟩

end

end Libasm.Cpu.Tms32010
