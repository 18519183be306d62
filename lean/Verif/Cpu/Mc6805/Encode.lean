import Verif.Cpu.Ops
import Verif.Cpu.Mc6800.Encode
import Verif.Cpu.Mc6805.Model
/-
How the MC6805 assembler reads what its disassembler prints, and what it makes of it. The numbers are those
of the MC6800.
-/
namespace Libasm.Cpu.Mc6805
open Scan Number Number.Spec Eval
open Tables (Row)
open Mc6800 (Expr expr_num heads Head head_space head_append plain_head overflow_eq)

/-- The parsers at an address. -/
abbrev plug (E : Env) (addr : Nat) : Plugins Value := lexer.plugins E '\x00' addr

/-! ### Values -/

/-- How the value of an address without prefix is taken. -/
def kind (v : Nat) : Mode := if v < 8 then .BNO else if v < 256 then .DIR else .EXT

theorem address_kind {v : Nat} (h : v < 2 ^ 32) : addressMode 0 ⟨v, .unsigned⟩ = kind v := by
  unfold addressMode kind
  rw [if_pos rfl, overflow_eq h (by decide), overflow_eq h (by decide)]
  simp only [decide_eq_true_eq]
  split <;> split <;> (try split) <;> (try split) <;> first | rfl | omega

theorem zero_iff {v : Nat} : (⟨v, .unsigned⟩ : Value).isZero = decide (v = 0) := by
  show (true && v == 0) = _
  rw [Bool.true_and]
  rfl

theorem index_byte {v : Nat} (h : v < 256) (h0 : v ≠ 0) : indexMode 0 ⟨v, .unsigned⟩ = .IDX := by
  unfold indexMode
  rw [if_neg (by decide), if_neg (by decide), zero_iff, decide_eq_false h0, overflow_eq (by omega) (by decide)]
  simp
  omega

theorem index_word {v : Nat} (h : v < 65536) (h0 : 256 ≤ v) : indexMode 0 ⟨v, .unsigned⟩ = .IX2 := by
  unfold indexMode
  rw [if_neg (by decide), if_neg (by decide), zero_iff, decide_eq_false (by omega),
    overflow_eq (by omega) (by decide), decide_eq_true (by omega)]
  rfl

theorem getUnsigned_nat {v : Nat} (h : v < 65536) :
    (⟨v, .unsigned⟩ : Value).getUnsigned = v := getUnsigned_num (by omega)

/-! ### Operands -/

/-- How an operand begins. -/
def Hd (t : List Char) : Prop := ∃ c s, t = c :: s ∧ c ∈ '<' :: ',' :: heads

theorem hd_head {t : List Char} (h : Head t) (s : List Char) : Hd (t ++ s) := by
  obtain ⟨c, u, rfl, hc⟩ := h
  exact ⟨c, u ++ s, rfl, List.mem_cons_of_mem _ (List.mem_cons_of_mem _ hc)⟩

theorem hd_noreg {t : List Char} (h : Hd t) : parseRegName (skipSpaces t) = none := by
  obtain ⟨c, s, rfl, hc⟩ := h
  have h0 : ∀ c ∈ '<' :: ',' :: heads, Ctype.isSpace c = false ∧ Table.low c ≠ Table.low 'X' := by decide
  have e : skipSpaces (c :: s) = c :: s := by
    unfold skipSpaces trimStart
    rw [List.dropWhile_cons, (h0 c hc).1]
    rfl
  have hd := (h0 c hc).2
  have e1 : Table.strncasecmp (c :: s) ['X'] 1 = Table.low c - Table.low 'X' := by
    unfold Table.strncasecmp
    rw [if_neg hd]
  have : Table.iexpectText (c :: s) ['X'] = none := by
    show (if Table.strncasecmp (c :: s) ['X'] 1 = 0 then _ else none) = none
    rw [e1, if_neg (by omega)]
  rw [e]
  unfold parseRegName Table.iexpectWord
  rw [this]

section
variable {E : Env} {addr : Nat}

theorem after_stop {rest : List Char} (h : AfterHd Hd rest) : Sep rest ∧ Stop (plug E addr) rest := by
  rcases h with rfl | ⟨s, rfl, _⟩
  · exact ⟨Sep.nil, Mc6800.stop_nil ..⟩
  · exact ⟨Sep.cons (by decide) _, Mc6800.stop_comma ..⟩

theorem after_noindex {rest : List Char} (h : AfterHd Hd rest) : indexReg rest = none := by
  rcases h with rfl | ⟨t, rfl, ht⟩
  · rfl
  · have e : skipSpaces (' ' :: t) = skipSpaces t := rfl
    show parseRegName (skipSpaces (' ' :: t)) = none
    rw [e]
    exact hd_noreg ht

/-- The index register before what can follow. -/
theorem index_reg {rest : List Char} (h : AfterHd Hd rest) (up : Bool) :
    parseRegName (letter up 'X' :: rest) = some rest ∧ indexReg (',' :: letter up 'X' :: rest) = some rest := by
  rcases h with rfl | ⟨t, rfl, _⟩ <;> cases up <;> exact ⟨rfl, rfl⟩

theorem expr_rel {w tgt : Nat} {o : Opts} (hsym : o.relative = true → o.curSym = '*')
    (h0 : 1 ≤ w) (hw : w ≤ 16) (ha : addr < 2 ^ w) (ht : tgt < 2 ^ w) (hd : ((tgt : Int) - addr).natAbs < 256) :
    Expr E addr (outRelAddr .motorola o w tgt addr 8) tgt := by
  have h16 : 2 ^ w ≤ 2 ^ 16 := Nat.pow_le_pow_right (by decide) hw
  have hs' : o.relative = true → letter o.upper o.curSym = '*' := by
    intro h
    rw [hsym h]
    cases o.upper <;> rfl
  have key := fun rest hr hs => rel_reads (E := E) (delim := '\x00') (rest := rest) Mc6800.lexOk (Mc6800.pairs o)
    (Mc6800.ops E addr) (by show ∀ c ∈ firsts .motorola, c ≠ '\x00'; decide)
    (by intro h; rw [hs' h]; exact Mc6800.const_location E (by omega)) (width := w) (bits := 8)
    (by omega) h0 ha ht (by decide) (by decide) hd hr hs
  refine ⟨?_, fun rest hr hs => (key rest hr hs).1⟩
  obtain ⟨c, s, h1, h2⟩ := (key [] Sep.nil (Mc6800.stop_nil ..)).2
  have : ∀ c ∈ firsts .motorola, c ∈ heads ∧ c ≠ '#' ∧ c ≠ '>' := by decide
  refine ⟨c, s, h1, ?_⟩
  rcases h2 with h2 | ⟨h2, h3⟩
  · exact this c h2
  · rw [h3, hs' h2]
    decide

/-- An address without prefix. -/
theorem plain_start {t : List Char} {v : Nat} (h : Expr E addr t v) (s : List Char) :
    parseOperand (plug E addr) (t ++ s) = parseAddress (plug E addr) (t ++ s) 0 (t ++ s) := by
  obtain ⟨c, u, h1, h2, h3, h4⟩ := h.head
  obtain ⟨p1, p2, p3⟩ := plain_head (u ++ s) h2 h3 h4
  unfold parseOperand
  rw [head_space (head_append h.toHead s)]
  rw [h1, List.cons_append]
  dsimp only
  rw [p2]
  dsimp only
  rw [expect_none (by intro e he; injection he with he; exact he ▸ p1), p3]

/-- The index after an address. -/
theorem address_reads {t : List Char} {v : Nat} (h : Expr E addr t v) (start : Scan) (size : Nat)
    {rest : List Char} (hr : AfterHd Hd rest) :
    parseAddress (plug E addr) start size (t ++ rest) =
      .ok (.ok ({ mode := addressMode size ⟨v, .unsigned⟩, val := ⟨v, .unsigned⟩ }, rest)) := by
  obtain ⟨g1, g2⟩ := after_stop (E := E) (addr := addr) hr
  unfold parseAddress
  rw [h.reads rest g1 g2, Out.ok_bind]
  dsimp only
  rw [if_neg (by decide), after_noindex hr]

theorem indexed_reads {t : List Char} {v : Nat} (h : Expr E addr t v) (start : Scan) (size : Nat) (up : Bool)
    {rest : List Char} (hr : AfterHd Hd rest) :
    parseAddress (plug E addr) start size (t ++ (',' :: letter up 'X' :: rest)) =
      .ok (.ok ({ mode := indexMode size ⟨v, .unsigned⟩, val := ⟨v, .unsigned⟩ }, rest)) := by
  unfold parseAddress
  rw [h.reads _ (Sep.cons (by decide) _) (Mc6800.stop_comma ..), Out.ok_bind]
  dsimp only
  rw [if_neg (by decide), (index_reg hr up).2]

theorem imm_reads {t : List Char} {v : Nat} (h : Expr E addr t v) {rest : List Char} (hr : AfterHd Hd rest) :
    parseOperand (plug E addr) ('#' :: (t ++ rest)) =
      .ok (.ok ({ mode := .IMM, val := ⟨v, .unsigned⟩ }, rest)) := by
  obtain ⟨g1, g2⟩ := after_stop (E := E) (addr := addr) hr
  unfold parseOperand
  rw [show skipSpaces ('#' :: (t ++ rest)) = '#' :: (t ++ rest) from rfl]
  dsimp only
  rw [show expect '#' ('#' :: (t ++ rest)) = some (t ++ rest) from rfl]
  dsimp only
  rw [h.reads rest g1 g2, Out.ok_bind]
  rfl

theorem ix0_reads (up : Bool) {rest : List Char} (hr : AfterHd Hd rest) :
    parseOperand (plug E addr) (',' :: letter up 'X' :: rest) = .ok (.ok ({ mode := .IX0 }, rest)) := by
  unfold parseOperand
  rw [show skipSpaces (',' :: letter up 'X' :: rest) = ',' :: letter up 'X' :: rest from rfl]
  dsimp only
  rw [show expect '#' (',' :: letter up 'X' :: rest) = none from rfl,
    show expect ',' (',' :: letter up 'X' :: rest) = some (letter up 'X' :: rest) from rfl]
  dsimp only
  rw [(index_reg hr up).1]

/-- A prefix. -/
theorem sized_start (c : Char) (size : Nat) (h : c = '<' ∧ size = 8 ∨ c = '>' ∧ size = 16) (s : List Char) :
    parseOperand (plug E addr) (c :: s) = parseAddress (plug E addr) (c :: s) size s := by
  rcases h with ⟨rfl, rfl⟩ | ⟨rfl, rfl⟩ <;> rfl

/-! ### What is printed of an operand -/

/-- The modes an operand printed in the mode `s` may be read with. -/
def pmodes (s : Mode) : List Mode :=
  match s with
  | .DIR => [.BNO, .DIR]
  | .REL => [.BNO, .DIR, .EXT]
  | s => [s]

/-- The bytes and the value of an operand of the code `b` in the mode `s`; `n` bytes were read with it. -/
def Vals (b w addr n : Nat) (s : Mode) (bs : List Nat) (op : Operand) : Prop :=
  match s with
  | .DIR | .IDX | .IMM => ∃ v, v < 256 ∧ bs = [v] ∧ op.val = ⟨v, .unsigned⟩
  | .EXT => ∃ v, v < 65536 ∧ v < 2 ^ w ∧ bs = [v / 256, v % 256] ∧ op.val = ⟨v, .unsigned⟩
  | .IX2 => ∃ v, v < 65536 ∧ bs = [v / 256, v % 256] ∧ op.val = ⟨v, .unsigned⟩
  | .REL => ∃ v t : Nat, v < 256 ∧ t < 2 ^ w ∧ bs = [v] ∧ (t : Int) = ((addr + n : Nat) : Int) + int8 v ∧
      op.val = ⟨t, .unsigned⟩
  | .BNO => bs = [] ∧ op.val = ⟨b / 2 % 8, .unsigned⟩
  | _ => bs = []

/-- The operand `op` was decoded from `r` to `r'`. -/
structure Rel (b w addr : Nat) (m : Mode) (r r' : Rd) (op : Operand) : Prop where
  err : op.err = .OK
  mode : op.mode ∈ pmodes (select b m)
  len : r'.bytes.length ≤ 100
  vals : ∃ bs, Took r r' bs ∧ bs.length ≤ 10 ∧ Vals b w addr r'.bytes.length (select b m) bs op

theorem operand_mono {o : Opts} {w b : Nat} (m : Mode) (r : Rd)
    (h : (decodeOperand o w addr b m r).2.err = .OK) : r.err = .OK := by
  unfold decodeOperand at h
  generalize select b m = s at h
  cases s with
  | DIR | IDX | IMM => exact byte_err h
  | IX2 => exact byte_err (byte_err h)
  | EXT =>
    unfold decodeExtended at h
    exact byte_err (byte_err (setErrorIf_ok h).1)
  | REL =>
    unfold decodeRelative at h
    exact byte_err (setErrorIf_ok h).1
  | _ => exact h

theorem kind_modes {v : Nat} : kind v ∈ pmodes .REL ∧ (v < 256 → kind v ∈ pmodes .DIR) := by
  unfold kind
  refine ⟨?_, fun h => ?_⟩
  · split
    · decide
    · split <;> decide
  · split
    · decide
    · first | (rw [if_pos h]; decide) | decide

theorem operand_reads {o : Opts} (hsym : o.relative = true → o.curSym = '*') {w : Nat} (h0 : 8 ≤ w) (hw : w ≤ 16)
    (ha : addr < 2 ^ w) {m : Mode} {b k : Nat} {r : Rd}
    (hm : select b m ≠ .NONE ∧ select b m ≠ .UNDEF ∧ select b m ≠ .GEN ∧ select b m ≠ .MEM)
    (hroom : Room (k + 1) r) (h : (decodeOperand o w addr b m r).2.err = .OK) :
    ∃ op, Rel b w addr m r (decodeOperand o w addr b m r).2 op ∧
      (∀ rest, Hd ((decodeOperand o w addr b m r).1 ++ rest)) ∧
      ∀ rest, AfterHd Hd rest →
        parseOperand (plug E addr) ((decodeOperand o w addr b m r).1 ++ rest) = .ok (.ok (op, rest)) := by
  have hP := Mc6800.pairs o
  have h16 : 2 ^ w ≤ 2 ^ 16 := Nat.pow_le_pow_right (by decide) hw
  have hmem := hroom.mem
  have hlen := hroom.len
  have hlen' : ∀ {r' : Rd} {bs : List Nat}, Took r r' bs → bs.length ≤ 2 → r'.bytes.length ≤ 100 := by
    intro r' bs ht hl
    rw [ht.bytes, List.length_append]
    omega
  have hx : ∀ (c : Char) (s : List Char), c ∈ '<' :: ',' :: heads → Hd (c :: s) := fun c s hc => ⟨c, s, rfl, hc⟩
  suffices key : ∀ s, select b m = s → ∃ op : Operand, (op.err = .OK ∧ op.mode ∈ pmodes s ∧
      (decodeOperand o w addr b m r).2.bytes.length ≤ 100 ∧
      ∃ bs, Took r (decodeOperand o w addr b m r).2 bs ∧ bs.length ≤ 10 ∧
        Vals b w addr (decodeOperand o w addr b m r).2.bytes.length s bs op) ∧
      (∀ rest, Hd ((decodeOperand o w addr b m r).1 ++ rest)) ∧
      ∀ rest, AfterHd Hd rest →
        parseOperand (plug E addr) ((decodeOperand o w addr b m r).1 ++ rest) = .ok (.ok (op, rest)) by
    obtain ⟨op, ⟨k1, k2, k3, k4⟩, k5, k6⟩ := key _ rfl
    exact ⟨op, ⟨k1, k2, k3, k4⟩, k5, k6⟩
  intro s hs
  unfold decodeOperand at h ⊢
  rw [hs] at h hm ⊢
  cases s with
  | NONE => exact absurd rfl hm.1
  | UNDEF => exact absurd rfl hm.2.1
  | GEN => exact absurd rfl hm.2.2.1
  | MEM => exact absurd rfl hm.2.2.2
  | DIR =>
    dsimp only at h ⊢
    obtain ⟨g1, g2⟩ := byte_took hmem h
    have e := expr_num (E := E) (addr := addr) (outAbsAddr_num hP r.byte.1 8 g1 (by decide) (by decide))
    refine ⟨{ mode := kind r.byte.1, val := ⟨r.byte.1, .unsigned⟩ }, ⟨rfl, kind_modes.2 g1, hlen' g2 (by simp), _, g2,
      by simp, _, g1, rfl, rfl⟩, fun rest => hd_head e.toHead rest, fun rest hr => ?_⟩
    unfold decodeDirectPage
    rw [plain_start e, address_reads e _ _ hr, address_kind (by omega)]
  | EXT =>
    unfold decodeExtended at h ⊢
    dsimp only at h ⊢
    obtain ⟨g0, g3⟩ := setErrorIf_ok h
    obtain ⟨g1, g2⟩ := be16_took hmem g0
    have hv : r.be16.1 < 2 ^ w := by
      rw [Config.checkAddr_eq false (by omega) (by unfold Config.W; omega)] at g3
      split at g3
      · cases g3
      · rename_i hlt
        simpa using hlt
    rw [h, if_pos rfl]
    have e := expr_num (E := E) (addr := addr) (outAbsAddr_num hP r.be16.1 w hv (by omega) (by omega))
    refine ⟨{ mode := .EXT, val := ⟨r.be16.1, .unsigned⟩ }, ⟨rfl, List.mem_singleton.2 rfl,
      (hlen' g2 (by simp) : r.be16.2.bytes.length ≤ 100), _, ⟨g2.err, g2.mem, g2.bytes⟩, by simp, _, g1, hv, rfl, rfl⟩,
      fun rest => ?_, fun rest hr => ?_⟩
    · split
      · exact hx _ _ (by decide)
      · exact hd_head e.toHead rest
    · split
      · rw [List.append_assoc]
        exact (sized_start '>' 16 (Or.inr ⟨rfl, rfl⟩) _).trans (address_reads e _ _ hr)
      · rw [List.nil_append, plain_start e, address_reads e _ _ hr, address_kind (by omega)]
        unfold kind
        rw [if_neg (by omega), if_neg (by omega)]
  | IX0 =>
    dsimp only at h ⊢
    exact ⟨{ mode := .IX0 }, ⟨rfl, List.mem_singleton.2 rfl, by omega, [], Took.refl h, by decide, rfl⟩,
      fun rest => hx _ _ (by decide), fun rest hr => ix0_reads _ hr⟩
  | IX2 =>
    dsimp only at h ⊢
    obtain ⟨g1, g2⟩ := be16_took hmem h
    have e := expr_num (E := E) (addr := addr) (outAbsAddr_num hP r.be16.1 16 g1 (by decide) (by decide))
    refine ⟨{ mode := .IX2, val := ⟨r.be16.1, .unsigned⟩ }, ⟨rfl, List.mem_singleton.2 rfl, hlen' g2 (by simp), _, g2,
      by simp, _, g1, rfl, rfl⟩, fun rest => ?_, fun rest hr => ?_⟩
    · unfold decodeIndexed16
      dsimp only
      split
      · exact hx _ _ (by decide)
      · rw [List.nil_append, List.append_assoc]
        exact hd_head e.toHead _
    · unfold decodeIndexed16 indexX
      dsimp only
      split
      · rw [List.append_assoc, List.append_assoc]
        exact (sized_start '>' 16 (Or.inr ⟨rfl, rfl⟩) _).trans (indexed_reads e _ _ _ hr)
      · rw [List.nil_append, List.append_assoc, plain_start e]
        have := indexed_reads e (outAbsAddr .motorola o 16 r.be16.1 ++ ([',', letter o.upper 'X'] ++ rest)) 0 o.upper hr
        rw [index_word g1 (by omega)] at this
        exact this
  | IDX =>
    dsimp only at h ⊢
    obtain ⟨g1, g2⟩ := byte_took hmem h
    have e := expr_num (E := E) (addr := addr) (outDec_num hP r.byte.1 8 g1 (by decide) (by decide))
    refine ⟨{ mode := .IDX, val := ⟨r.byte.1, .unsigned⟩ }, ⟨rfl, List.mem_singleton.2 rfl, hlen' g2 (by simp), _, g2,
      by simp, _, g1, rfl, rfl⟩, fun rest => ?_, fun rest hr => ?_⟩
    · unfold decodeIndexed8
      dsimp only
      split
      · exact hx _ _ (by decide)
      · rw [List.nil_append, List.append_assoc]
        exact hd_head e.toHead _
    · unfold decodeIndexed8 indexX
      dsimp only
      split
      · rw [List.append_assoc, List.append_assoc]
        exact (sized_start '<' 8 (Or.inl ⟨rfl, rfl⟩) _).trans (indexed_reads e _ _ _ hr)
      · rename_i hz
        rw [List.nil_append, List.append_assoc]
        refine (plain_start e _).trans ?_
        have := indexed_reads e (outDec .motorola o r.byte.1 8 ++ ([',', letter o.upper 'X'] ++ rest)) 0 o.upper hr
        rw [index_byte g1 hz] at this
        exact this
  | IMM =>
    dsimp only at h ⊢
    obtain ⟨g1, g2⟩ := byte_took hmem h
    have e := expr_num (E := E) (addr := addr) (outHex_num hP r.byte.1 8 true g1 (by decide) (by decide))
    exact ⟨{ mode := .IMM, val := ⟨r.byte.1, .unsigned⟩ }, ⟨rfl, List.mem_singleton.2 rfl, hlen' g2 (by simp), _, g2,
      by simp, _, g1, rfl, rfl⟩, fun rest => hx _ _ (by decide), fun rest hr => imm_reads e hr⟩
  | BNO =>
    dsimp only at h ⊢
    have hv : b / 2 % 8 < 8 := Nat.mod_lt _ (by decide)
    have e := expr_num (E := E) (addr := addr) (outHex_num hP (b / 2 % 8) 3 true hv (by decide) (by decide))
    refine ⟨{ mode := .BNO, val := ⟨b / 2 % 8, .unsigned⟩ }, ⟨rfl, List.mem_singleton.2 rfl, by omega, [], Took.refl h,
      by decide, rfl, rfl⟩, fun rest => hd_head e.toHead rest, fun rest hr => ?_⟩
    refine (plain_start e _).trans ((address_reads e _ _ hr).trans ?_)
    rw [address_kind (by omega)]
    unfold kind
    rw [if_pos hv]
  | REL =>
    unfold decodeRelative at h ⊢
    dsimp only at h ⊢
    generalize hT : (((addr + r.byte.2.bytes.length : Nat) : Int) + int8 r.byte.1) % Config.W = T at *
    obtain ⟨g1, g2⟩ := setErrorIf_ok h
    obtain ⟨h1, h2⟩ := byte_took hmem g1
    have hi := int8_range _ h1
    have hl : r.byte.2.bytes.length = r.bytes.length + 1 := by rw [h2.bytes]; simp
    have hT' : T.toNat < 2 ^ w := by
      rw [Config.checkAddr_eq false (by omega) (by unfold Config.W at *; omega)] at g2
      split at g2
      · cases g2
      · rename_i hlt
        simpa using hlt
    have hsh : (T.toNat : Int) = ((addr + r.byte.2.bytes.length : Nat) : Int) + int8 r.byte.1 := by
      unfold Config.W at hT
      omega
    have e := expr_rel (E := E) (addr := addr) hsym (by omega) hw ha hT' (by omega)
    refine ⟨{ mode := kind T.toNat, val := ⟨T.toNat, .unsigned⟩ }, ⟨rfl, kind_modes.1,
      (hlen' h2 (by simp) : r.byte.2.bytes.length ≤ 100), _, ⟨h2.err, h2.mem, h2.bytes⟩, by simp,
      _, _, h1, hT', rfl, hsh, rfl⟩, fun rest => hd_head e.toHead rest, fun rest hr => ?_⟩
    rw [plain_start e, address_reads e _ _ hr, address_kind (by omega)]

/-! ### What is emitted for an operand -/

/-- The code after an operand of the mode. -/
def emb (b : Nat) (m : Mode) (c : Nat) : Nat :=
  match m with
  | .GEN | .MEM | .BNO => b
  | _ => c

/-- What the table has to say for the code `b` and its entry. -/
def rowOk (b : Nat) (row : Row) : Bool :=
  decide ((modes row).length ≤ 3) && (modes row).foldl (fun c m => emb b m c) row.opcode == b &&
  (modes row).all fun m =>
    decide (select b m ≠ .NONE ∧ select b m ≠ .UNDEF ∧ select b m ≠ .GEN ∧ select b m ≠ .MEM) &&
    [row.opcode, b].all fun c => (pmodes (select b m)).all fun x =>
      decide (place m x (b / 2 % 8) c = (emb b m c, select b m)) && decide (emb b m c = row.opcode ∨ emb b m c = b)

/-- The number matters for that of a bit only. -/
theorem place_num {m x : Mode} (h : m ≠ .BNO) (v v' c : Nat) : place m x v c = place m x v' c := by
  unfold place
  cases m <;> first | rfl | exact absurd rfl h

/-- The instruction so far. -/
structure Sync (b row : Nat) (a : Asm) (r : Rd) (c : Nat) : Prop where
  err : a.err = .OK
  opc : a.opc = c
  code : c = row ∨ c = b
  bytes : r.bytes = b :: a.ops

theorem emit_one {b w : Nat} {row : Row} {m : Mode} (hrow : rowOk b row = true) (hm : m ∈ modes row)
    (h0 : 8 ≤ w) (hw : w ≤ 16) (ha : addr < 2 ^ w) {r r' : Rd} {op : Operand} {a : Asm}
    {c : Nat} (h : Rel b w addr m r r' op) (hs : Sync b row.opcode a r c) :
    ∃ a', encodeOperand w addr m op a = .ok a' ∧ Sync b row.opcode a' r' (emb b m c) := by
  obtain ⟨k1, k2, k6, bs, k3, k4, k5⟩ := h
  obtain ⟨s1, s2, s3, s4⟩ := hs
  have h16 : 2 ^ w ≤ 2 ^ 16 := Nat.pow_le_pow_right (by decide) hw
  unfold rowOk at hrow
  simp only [Bool.and_eq_true, List.all_eq_true, decide_eq_true_eq] at hrow
  obtain ⟨_, q1⟩ := hrow
  obtain ⟨q2, q3⟩ := q1 m hm
  obtain ⟨q4, q5⟩ := q3 c (by rcases s3 with h | h <;> rw [h] <;> simp) op.mode k2
  have hplace : place m op.mode op.val.getUnsigned a.opc = (emb b m c, select b m) := by
    rw [s2]
    by_cases hb : m = .BNO
    · subst hb
      have k5 : bs = [] ∧ op.val = ⟨b / 2 % 8, .unsigned⟩ := k5
      rw [k5.2, getUnsigned_nat (by omega)]
      exact q4
    · rw [place_num hb _ (b / 2 % 8)]
      exact q4
  unfold encodeOperand
  rw [k1, Asm.noError]
  dsimp only
  rw [hplace]
  dsimp only
  generalize ha' : ({ a with opc := emb b m c } : Asm) = a'
  have s1' : a'.err = .OK := by rw [← ha']; exact s1
  have s2' : a'.opc = emb b m c := by rw [← ha']
  have s4' : r.bytes = b :: a'.ops := by rw [← ha']; exact s4
  have nop : ∀ {r' : Rd}, Took r r' [] → Sync b row.opcode a' r' (emb b m c) := fun t =>
    ⟨s1', s2', q5, by rw [t.bytes, List.append_nil]; exact s4'⟩
  have add : ∀ {bs : List Nat}, Took r r' bs → Sync b row.opcode { a' with ops := a'.ops ++ bs } r' (emb b m c) := fun t =>
    ⟨s1', s2', q5, by rw [t.bytes, s4']; rfl⟩
  have put : ∀ {v : Nat}, v < 256 → bs = [v] → op.val = ⟨v, .unsigned⟩ →
      Sync b row.opcode (a'.emit8 op.val.getUnsigned) r' (emb b m c) := by
    intro v hv hb ho
    subst hb
    rw [ho, getUnsigned_nat (by omega)]
    unfold Asm.emit8
    rw [show v % 256 = v by omega]
    exact add k3
  have put2 : ∀ {v : Nat}, v < 65536 → bs = [v / 256, v % 256] → op.val = ⟨v, .unsigned⟩ →
      Sync b row.opcode (a'.emit16be op.val.getUnsigned) r' (emb b m c) := by
    intro v hv hb ho
    subst hb
    rw [ho, getUnsigned_nat (by omega)]
    unfold Asm.emit16be
    rw [show v / 256 % 256 = v / 256 by omega]
    exact add k3
  unfold emitMode
  generalize select b m = s at *
  cases s with
  | DIR | IDX =>
    obtain ⟨v, h1, h2, h3⟩ := k5
    refine ⟨_, rfl, ?_⟩
    rw [show op.val.overflow 255 0 = false by rw [h3, overflow_eq (by omega) (by decide)]; simp; omega]
    exact put h1 h2 h3
  | IMM =>
    obtain ⟨v, h1, h2, h3⟩ := k5
    refine ⟨_, rfl, ?_⟩
    rw [show op.val.overflowUint8 = false by
      rw [h3]; unfold Value.overflowUint8; rw [overflow_eq (by omega) (by decide)]; simp; omega]
    exact put h1 h2 h3
  | IX2 =>
    obtain ⟨v, h1, h2, h3⟩ := k5
    exact ⟨_, rfl, put2 h1 h2 h3⟩
  | EXT =>
    obtain ⟨v, h1, h1', h2, h3⟩ := k5
    refine ⟨_, rfl, ?_⟩
    rw [show decide (Config.checkAddr w op.val.getUnsigned false ≠ .OK) = false by
      rw [h3, getUnsigned_nat h1, Config.checkAddr_eq false (by omega) (by unfold Config.W; omega), if_neg (by omega)]
      rfl]
    exact put2 h1 h2 h3
  | REL =>
    obtain ⟨v, t, h1, h2, h3, h4, h5⟩ := k5
    have hl : r'.bytes.length = a'.ops.length + 2 := by
      rw [k3.bytes, s4', h3]; simp
    have hbase : (addr + a'.length + (if a'.length = 0 then 2 else 1)) % Config.W = addr + r'.bytes.length := by
      unfold Asm.length Config.W
      by_cases h0 : a'.ops = []
      · rw [if_pos h0, if_pos rfl, hl, h0]
        simp only [List.length_nil]
        omega
      · rw [if_neg h0, if_neg (by omega), hl]
        omega
    refine ⟨{ a' with ops := a'.ops ++ [v] }, ?_, ?_⟩
    · show emitRelative w addr op a' = _
      unfold emitRelative
      rw [hbase, k1]
      dsimp only
      rw [if_neg (by simp), h5, getUnsigned_nat (by omega)]
      exact Asm.rel8_near h0 (by omega) h1 (by unfold Config.W; omega) h2 h4 s1'
    · rw [h3] at k3
      exact add k3
  | BNO =>
    have : bs = [] := k5.1
    subst this
    exact ⟨_, rfl, nop k3⟩
  | _ =>
    have : bs = [] := k5
    subst this
    exact ⟨_, rfl, nop k3⟩

end

/-! ### The table -/

/-- The modes the operands may be read with. -/
def choices (b : Nat) : List Mode → List (List Mode)
  | [] => [[]]
  | m :: ms => (pmodes (select b m)).flatMap fun x => (choices b ms).map (x :: ·)

theorem chain_choices {b w addr : Nat} : ∀ (ms : List Mode) (r r' : Rd) (ops : List Operand),
    Chain (Rel b w addr) ms r r' ops → ops.map (·.mode) ∈ choices b ms
  | [], r, r', [], _ => List.mem_singleton.2 rfl
  | m :: ms, r, r', op :: ops, hc => by
    obtain ⟨r1, h1, h2⟩ := hc
    unfold choices
    rw [List.mem_flatMap]
    exact ⟨op.mode, h1.mode, List.mem_map.2 ⟨_, chain_choices ms r1 r' ops h2, rfl⟩⟩

/-- The entry that is found is this one. -/
def rowIs (x : Out (Except Err Row)) (row : Row) : Bool :=
  match x with
  | .ok (.ok r) => decide (r = row)
  | _ => false

theorem rowIs_eq {x : Out (Except Err Row)} {row : Row} (h : rowIs x row = true) : x = .ok (.ok row) := by
  unfold rowIs at h
  split at h
  · rw [of_decide_eq_true h]
  · cases h

def nameOk (cpu : CpuType) (b : Nat) (row : Row) (up : Bool) : Bool :=
  nameB syntaxOf (row.name.map (letter up)) &&
  decide (hasOperand cpu (row.name.map (letter up)) = .ok (decide (modes row ≠ []))) &&
  (choices b (modes row)).all fun ms => rowIs (searchName cpu (row.name.map (letter up)) (pad 3 .NONE ms)) row

/-- What the table has to say for a code. -/
def codeOk (cpu : CpuType) (b : Nat) : Bool :=
  match searchOpCode cpu b with
  | none => true
  | some row => rowOk b row && nameOk cpu b row false && nameOk cpu b row true

theorem codes_ok (cpu : CpuType) : ∀ b < 256, codeOk cpu b = true := by
  cases cpu <;> decide +kernel

end Libasm.Cpu.Mc6805
