import Verif.Cpu.Ops
import Verif.Cpu.Mn1610.Model
/-
How the MN1610 assembler reads what its disassembler prints, and what it makes of it.
-/
namespace Libasm.Cpu.Mn1610
open Scan Number Number.Spec Eval
open Tables (Row)

/-- The parsers at an address. -/
abbrev plug (E : Env) (addr : Nat) (d : Char) : Plugins Value := lexer.plugins E d addr

/-- The numbers that are printed can be read: not octal ones in the notation of the manufacturer. -/
def Readable (o : Opts) : Prop := o.octal = true → o.cstyle = true ∨ o.intelHex = true

theorem pairs {o : Opts} (h : Readable o) : Pairs .surroundX .panasonic o :=
  ⟨by decide, by decide, fun ho => (h ho).elim Or.inl fun h => Or.inr (Or.inl h)⟩

theorem lexOk : LexOk lexer .surroundX := by
  apply lexOk_of
  intro c hc s
  simp only [firsts, leads, List.map, List.headD, List.mem_append, List.mem_cons, List.not_mem_nil,
    or_false] at hc
  rcases hc with (h | h | h | h | h | h | h | h | h | h) | (h | h) <;> subst h <;>
    exact ⟨rfl, rfl, fun _ _ => rfl⟩

/-- The delimiters the operands are read with. -/
def Delim (d : Char) : Prop := d = '\x00' ∨ d = ')'

theorem lex_ops (E : Env) (loc : Nat) {d : Char} (hd : Delim d) : Ops (plug E loc d) :=
  ⟨rfl, ⟨opUnaryMinus, rfl, rfl, rfl, fun _ _ _ => rfl⟩, fun _ => rfl, fun _ => rfl, fun _ _ _ => rfl,
    fun _ => rfl,
    by show d ≠ '-' ∧ d ≠ '+'; rcases hd with rfl | rfl <;> decide⟩

theorem stop_nil (E : Env) (loc : Nat) (d : Char) : Stop (plug E loc d) [] :=
  ⟨rfl, Or.inl rfl⟩

theorem stop_comma (E : Env) (loc : Nat) (d : Char) (s : List Char) : Stop (plug E loc d) (',' :: s) :=
  ⟨rfl, Or.inr (Or.inr ⟨rfl, Or.inr rfl⟩)⟩

theorem stop_open (E : Env) (loc : Nat) (d : Char) (s : List Char) : Stop (plug E loc d) ('(' :: s) :=
  ⟨rfl, Or.inr (Or.inr ⟨rfl, Or.inl (fun h => nomatch h)⟩)⟩

theorem stop_close (E : Env) (loc : Nat) (s : List Char) : Stop (plug E loc ')') (')' :: s) :=
  ⟨rfl, Or.inr (Or.inl rfl)⟩

theorem after_stop {E : Env} {loc : Nat} {d : Char} {rest : List Char} (h : AfterOp rest) :
    Sep rest ∧ Stop (plug E loc d) rest := by
  rcases h with rfl | ⟨s, rfl⟩
  · exact ⟨Sep.nil, stop_nil ..⟩
  · exact ⟨Sep.cons (by decide) _, stop_comma ..⟩

theorem const_location (E : Env) {loc : Nat} (d : Char) (hl : loc < 2 ^ 32) :
    Const (plug E loc d) ['*'] ⟨loc, .unsigned⟩ := by
  have hsep : ∀ s, Sep s → Eval.symbolLetter false (deref s) = false := by
    intro s hs
    cases s with
    | nil => rfl
    | cons d t =>
      have : ∀ d ∈ seps, Eval.symbolLetter false d = false := by decide
      exact this d (hs d rfl)
  apply const_loc
  · rfl
  · intro s hs
    refine ⟨rfl, rfl, ?_⟩
    have e : lexer.location ('*' :: s) = if Eval.symbolLetter false (deref s) then none else some s := rfl
    rw [e, hsep s hs]
    rfl
  · exact fun _ => rfl
  · exact fun _ => rfl
  · exact fun _ _ _ => rfl
  · exact hl

theorem regsOk : RegsOk regs := by decide
theorem regsNo : NoNumbers .surroundX regs := by decide
theorem ccsOk : RegsOk ccs := by decide
theorem ccsNo : NoNumbers .surroundX ccs := by decide

theorem skip_head {c : Char} (s : List Char) (h : Ctype.isSpace c = false) : skipSpaces (c :: s) = c :: s := by
  unfold skipSpaces trimStart
  rw [List.dropWhile_cons, h]
  rfl

theorem skip_skip (s : Scan) : skipSpaces (skipSpaces s) = skipSpaces s := by
  unfold skipSpaces trimStart
  induction s with
  | nil => rfl
  | cons c s ih =>
    rw [List.dropWhile_cons]
    split
    · exact ih
    · rw [List.dropWhile_cons, if_neg (by assumption)]

/-! ### Registers and conditions -/

/-- A register as it is printed; `n` is one of the table. -/
theorem reg_text (o : Opts) {n : Nat} (hk : n ∈ regs.map (·.2)) {rest : List Char} (hr : Sep rest) :
    searchText regs (outReg o n ++ rest) = .ok (some (n, rest)) ∧
    searchText ccs (outReg o n ++ rest) = .ok none ∧
    ∃ c s, outReg o n = c :: s ∧ Ctype.isAlpha c = true := by
  have h1 : ∀ (up : Bool), ∀ r ∈ regs.map (·.2), ((regText regs r).map (letter up)) ≠ [] ∧
      (∀ c ∈ (regText regs r).map (letter up), Table.isNameLetter c = true) ∧
      (regs.find? fun e => decide (Table.Spec.Same e.1 ((regText regs r).map (letter up)))).map (·.2) =
        some r ∧
      (ccs.find? fun e => decide (Table.Spec.Same e.1 ((regText regs r).map (letter up)))) = none ∧
      Ctype.isAlpha (((regText regs r).map (letter up)).headD '0') = true := by
    decide +kernel
  obtain ⟨g1, g2, g3, g5, g4⟩ := h1 o.upper n hk
  refine ⟨reg_found regsOk ⟨g1, g2⟩ hr g3, ?_, ?_⟩
  · obtain ⟨k1, k2⟩ := takeWhile_sep g2 (sep_name hr)
    have e : outReg o n = (regText regs n).map (letter o.upper) := rfl
    rw [searchText_eq ccsOk, e, k1, k2, if_neg g1, g5]
    rfl
  · obtain ⟨c, s, hc⟩ := List.exists_cons_of_ne_nil g1
    refine ⟨c, s, hc, ?_⟩
    rw [hc] at g4
    exact g4

/-- A condition as it is printed. -/
theorem cc_text (o : Opts) {n : Nat} (hk : n ∈ ccs.map (·.2)) {rest : List Char} (hr : Sep rest) :
    searchText ccs (outCc o n ++ rest) = .ok (some (n, rest)) ∧
    ∃ c s, outCc o n = c :: s ∧ Ctype.isAlpha c = true := by
  have h1 : ∀ (up : Bool), ∀ r ∈ ccs.map (·.2), ((regText ccs r).map (letter up)) ≠ [] ∧
      (∀ c ∈ (regText ccs r).map (letter up), Table.isNameLetter c = true) ∧
      (ccs.find? fun e => decide (Table.Spec.Same e.1 ((regText ccs r).map (letter up)))).map (·.2) =
        some r ∧ Ctype.isAlpha (((regText ccs r).map (letter up)).headD '0') = true := by
    decide +kernel
  obtain ⟨g1, g2, g3, g4⟩ := h1 o.upper n hk
  refine ⟨reg_found ccsOk ⟨g1, g2⟩ hr g3, ?_⟩
  obtain ⟨c, s, hc⟩ := List.exists_cons_of_ne_nil g1
  refine ⟨c, s, hc, ?_⟩
  rw [hc] at g4
  exact g4

theorem alpha_plain {c : Char} (h : Ctype.isAlpha c = true) :
    Ctype.isSpace c = false ∧ (c == '(') = false ∧ (c == '-') = false :=
  Ctype.ascii (p := fun c => Ctype.isAlpha c = true →
    Ctype.isSpace c = false ∧ (c == '(') = false ∧ (c == '-') = false) (by decide +kernel) c (alpha_ascii h) h

section
variable {E : Env} {addr : Nat}

/-- The text is read as the operand, whatever comes after it. -/
def Reads (E : Env) (addr : Nat) (t : List Char) (op : Operand) : Prop :=
  ∀ rest, AfterOp rest → parseOperand (plug E addr) (t ++ rest) = .ok (.ok (op, rest))

theorem after_skip {rest : List Char} (h : AfterOp rest) : skipSpaces rest = rest := by
  rcases h with rfl | ⟨s, rfl⟩ <;> rfl

theorem after_plus {rest : List Char} (h : AfterOp rest) : expect '+' rest = none := by
  rcases h with rfl | ⟨s, rfl⟩ <;> rfl

theorem after_ending {rest : List Char} (h : AfterOp rest) : ending (plug E addr '\x00') rest = some rest := by
  rcases h with rfl | ⟨s, rfl⟩ <;> rfl

theorem after_open {rest : List Char} (h : AfterOp rest) : expect '(' rest = none := by
  rcases h with rfl | ⟨s, rfl⟩ <;> rfl

theorem cc_reads (o : Opts) {n : Nat} (hk : n ∈ ccs.map (·.2)) :
    Reads E addr (outCc o n) { mode := ccMode n, cc := n } := by
  intro rest hr
  obtain ⟨h1, c, s, h2, h3⟩ := cc_text o hk (after_stop (E := E) (loc := addr) (d := '\x00') hr).1
  unfold parseOperand
  rw [h2, List.cons_append] at h1 ⊢
  rw [skip_head _ (alpha_plain h3).1]
  dsimp only
  rw [h1]
  rfl

theorem reg_reads (o : Opts) {n : Nat} (hk : n ∈ regs.map (·.2)) :
    Reads E addr (outReg o n) { mode := regMode n, reg := n } := by
  intro rest hr
  obtain ⟨h1, h2, c, s, h3, h4⟩ := reg_text o hk (after_stop (E := E) (loc := addr) (d := '\x00') hr).1
  obtain ⟨k1, k2, k3⟩ := alpha_plain h4
  unfold parseOperand
  rw [h3, List.cons_append] at h1 h2 ⊢
  rw [skip_head _ k1]
  dsimp only
  rw [h2, Out.ok_bind]
  rw [show deref (c :: (s ++ rest)) = c from rfl, k2, k3]
  simp only [Bool.false_and, Bool.or_false, Bool.false_eq_true, if_false]
  rw [h1, Out.ok_bind]
  dsimp only
  unfold registerOperand
  rw [after_skip hr]
  rfl

theorem paren_none (s : List Char) : searchText ccs ('(' :: s) = .ok none :=
  reg_none_head ccsOk (by intro d hd; injection hd with hd; subst hd; decide)

theorem minus_none (s : List Char) : searchText ccs ('-' :: s) = .ok none :=
  reg_none_head ccsOk (by intro d hd; injection hd with hd; subst hd; decide)

/-- A register in parentheses, alone or with a sign. -/
theorem indirect_reads (o : Opts) {n : Nat} {m : Mode} (hk : n ∈ regs.map (·.2)) (hm : indirectMode n = some m) :
    Reads E addr (['('] ++ outReg o n ++ [')']) { mode := m, reg := n } ∧
    Reads E addr (['('] ++ outReg o n ++ [')'] ++ ['+']) { mode := .RIAU, reg := n, val := Value.setUnsigned 1 } ∧
    Reads E addr (['-'] ++ ['('] ++ outReg o n ++ [')']) { mode := .RIAU, reg := n, val := Value.setS (-1) } := by
  have key : ∀ rest, searchText regs (outReg o n ++ ')' :: rest) = .ok (some (n, ')' :: rest)) :=
    fun rest => (reg_text o hk (Sep.cons (by decide) rest)).1
  have open_ : ∀ s, parseOperand (plug E addr) ('(' :: (outReg o n ++ ')' :: s)) =
      .ok (registerOperand ('(' :: (outReg o n ++ ')' :: s)) true false n (')' :: s)) := by
    intro s
    unfold parseOperand
    rw [skip_head _ (by decide)]
    dsimp only
    rw [paren_none, Out.ok_bind]
    show Out.bind (searchText regs (outReg o n ++ ')' :: s)) _ = _
    rw [key, Out.ok_bind]
    rfl
  refine ⟨fun rest hr => ?_, fun rest hr => ?_, fun rest hr => ?_⟩
  · simp only [List.append_assoc, List.cons_append, List.nil_append]
    rw [open_]
    unfold registerOperand
    rw [hm]
    show Out.ok (match expect '+' rest with
      | some t => _
      | none => _) = _
    rw [after_plus hr]
  · simp only [List.append_assoc, List.cons_append, List.nil_append]
    rw [open_]
    unfold registerOperand
    rw [hm]
    rfl
  · simp only [List.append_assoc, List.cons_append, List.nil_append]
    unfold parseOperand
    rw [skip_head _ (by decide)]
    dsimp only
    rw [minus_none, Out.ok_bind]
    show Out.bind (searchText regs (outReg o n ++ ')' :: rest)) _ = _
    rw [key, Out.ok_bind]
    show Out.ok (registerOperand _ false true n _) = _
    unfold registerOperand
    rw [hm]
    rfl

/-! ### Numbers -/

/-- How numbers and the location start. -/
theorem firsts_plain {c : Char} (h : c = '*' ∨ c ∈ firsts .surroundX) :
    Ctype.isSpace c = false ∧ (c == '(') = false ∧ (c == '-') = false := by
  have : ∀ c ∈ '*' :: firsts .surroundX, Ctype.isSpace c = false ∧ (c == '(') = false ∧ (c == '-') = false := by
    decide
  exact this c (List.mem_cons.2 h)

/-- A text that is read as a number, up to where it ends. -/
structure Expr (E : Env) (addr : Nat) (t : List Char) (v : Value) : Prop where
  head : ∃ c s, t = c :: s ∧ (c = '*' ∨ c ∈ firsts .surroundX)
  reg : ∀ rest, searchText regs (t ++ rest) = .ok none ∧ searchText ccs (t ++ rest) = .ok none
  evals : ∀ d, Delim d → ∀ rest, Sep rest → Stop (plug E addr d) rest →
    parseInteger (plug E addr d) (t ++ rest) .OK = .ok (v, .OK, rest)

/-- What is read after an operand is known to be no register. -/
theorem expr_start {t : List Char} {v : Value} (h : Expr E addr t v) (rest : List Char) :
    parseOperand (plug E addr) (t ++ rest) = valueOperand (plug E addr) (t ++ rest) false (t ++ rest) ∧
    parseOperand (plug E addr) ('(' :: (t ++ rest)) =
      valueOperand (plug E addr) ('(' :: (t ++ rest)) true (t ++ rest) := by
  obtain ⟨c, s, hc, hf⟩ := h.head
  obtain ⟨k1, k2, k3⟩ := firsts_plain hf
  obtain ⟨r1, r2⟩ := h.reg rest
  constructor
  · unfold parseOperand
    rw [hc, List.cons_append] at r1 r2 ⊢
    rw [skip_head _ k1]
    dsimp only
    rw [r2, Out.ok_bind]
    rw [show deref (c :: (s ++ rest)) = c from rfl, k2, k3]
    simp only [Bool.false_and, Bool.or_false, Bool.false_eq_true, if_false]
    rw [r1, Out.ok_bind]
  · unfold parseOperand
    rw [skip_head _ (by decide)]
    dsimp only
    rw [paren_none, Out.ok_bind]
    show Out.bind (searchText regs (t ++ rest)) _ = _
    rw [r1, Out.ok_bind]
    rfl

theorem value_reads {t : List Char} {v : Value} (h : Expr E addr t v) :
    Reads E addr t { mode := valueMode v, val := v } := by
  intro rest hr
  obtain ⟨g1, g2⟩ := after_stop (E := E) (loc := addr) (d := '\x00') hr
  rw [(expr_start h rest).1]
  unfold valueOperand
  rw [if_neg (by decide), h.evals _ (Or.inl rfl) rest g1 g2, Out.ok_bind]
  dsimp only
  rw [if_neg (by decide), after_ending hr]

theorem abs_reads {t : List Char} {v : Value} (h : Expr E addr t v) :
    Reads E addr (['('] ++ t ++ [')']) { mode := .IABS, val := v } := by
  intro rest hr
  simp only [List.append_assoc, List.cons_append, List.nil_append]
  rw [(expr_start h (')' :: rest)).2]
  unfold valueOperand
  rw [if_pos rfl, h.evals _ (Or.inr rfl) (')' :: rest) (Sep.cons (by decide) _) (stop_close ..), Out.ok_bind]
  dsimp only
  rw [if_neg (by decide)]
  rw [show ending (plug E addr '\x00') (')' :: rest) = none from rfl]
  dsimp only
  rw [skip_head _ (by decide)]
  rw [show expect '(' (')' :: rest) = none from rfl, if_pos rfl, show expect ')' (')' :: rest) = some rest from rfl]
  dsimp only
  rw [after_skip hr, after_open hr]
  dsimp only
  unfold absoluteOperand
  rw [after_ending hr]

theorem index_reads {t : List Char} {v : Value} (h : Expr E addr t v) (o : Opts) {n : Nat} (hk : n ∈ regs.map (·.2)) :
    Reads E addr (t ++ ['('] ++ outReg o n ++ [')']) { mode := .INDX, reg := n, val := v } ∧
    Reads E addr (['('] ++ (t ++ ['('] ++ outReg o n ++ [')']) ++ [')']) { mode := .IXID, reg := n, val := v } := by
  have key : ∀ rest, searchText regs (outReg o n ++ ')' :: rest) = .ok (some (n, ')' :: rest)) :=
    fun rest => (reg_text o hk (Sep.cons (by decide) rest)).1
  have hsp : ∀ rest, skipSpaces (outReg o n ++ rest) = outReg o n ++ rest := by
    intro rest
    obtain ⟨c, s, h3, h4⟩ := (reg_text o hk Sep.nil).2.2
    rw [h3]
    exact skip_head _ (alpha_plain h4).1
  refine ⟨fun rest hr => ?_, fun rest hr => ?_⟩
  · simp only [List.append_assoc, List.cons_append, List.nil_append]
    rw [(expr_start h _).1]
    unfold valueOperand
    rw [if_neg (by decide), h.evals _ (Or.inl rfl) _ (Sep.cons (by decide) _) (stop_open ..), Out.ok_bind]
    dsimp only
    rw [if_neg (by decide)]
    rw [show ending (plug E addr '\x00') ('(' :: (outReg o n ++ ')' :: rest)) = none from rfl]
    dsimp only
    rw [skip_head _ (by decide)]
    rw [show expect '(' ('(' :: (outReg o n ++ ')' :: rest)) = some (outReg o n ++ ')' :: rest) from rfl]
    dsimp only
    unfold indexOperand
    rw [hsp, key, Out.ok_bind]
    dsimp only
    rw [skip_head _ (by decide), show expect ')' (')' :: rest) = some rest from rfl]
    dsimp only
    rw [if_neg (by decide), after_skip hr]
  · simp only [List.append_assoc, List.cons_append, List.nil_append]
    rw [(expr_start h _).2]
    unfold valueOperand
    rw [if_pos rfl, h.evals _ (Or.inr rfl) _ (Sep.cons (by decide) _) (stop_open ..), Out.ok_bind]
    dsimp only
    rw [if_neg (by decide)]
    rw [show ending (plug E addr '\x00') ('(' :: (outReg o n ++ ')' :: ')' :: rest)) = none from rfl]
    dsimp only
    rw [skip_head _ (by decide)]
    rw [show expect '(' ('(' :: (outReg o n ++ ')' :: ')' :: rest)) = some (outReg o n ++ ')' :: ')' :: rest) from rfl]
    dsimp only
    unfold indexOperand
    rw [hsp, key, Out.ok_bind]
    rfl

theorem both_reads {t : List Char} {v : Value} (h : Expr E addr t v) (o : Opts) {n : Nat} (hk : n ∈ regs.map (·.2)) :
    Reads E addr (['('] ++ t ++ [')'] ++ ['('] ++ outReg o n ++ [')']) { mode := .IDIX, reg := n, val := v } := by
  have key : ∀ rest, searchText regs (outReg o n ++ ')' :: rest) = .ok (some (n, ')' :: rest)) :=
    fun rest => (reg_text o hk (Sep.cons (by decide) rest)).1
  have hsp : ∀ rest, skipSpaces (outReg o n ++ rest) = outReg o n ++ rest := by
    intro rest
    obtain ⟨c, s, h3, h4⟩ := (reg_text o hk Sep.nil).2.2
    rw [h3]
    exact skip_head _ (alpha_plain h4).1
  intro rest hr
  simp only [List.append_assoc, List.cons_append, List.nil_append]
  rw [(expr_start h _).2]
  unfold valueOperand
  rw [if_pos rfl, h.evals _ (Or.inr rfl) _ (Sep.cons (by decide) _) (stop_close ..), Out.ok_bind]
  dsimp only
  rw [if_neg (by decide)]
  rw [show ending (plug E addr '\x00') (')' :: '(' :: (outReg o n ++ ')' :: rest)) = none from rfl]
  dsimp only
  rw [skip_head _ (by decide)]
  rw [show expect '(' (')' :: '(' :: (outReg o n ++ ')' :: rest)) = none from rfl, if_pos rfl,
    show expect ')' (')' :: '(' :: (outReg o n ++ ')' :: rest)) = some ('(' :: (outReg o n ++ ')' :: rest)) from rfl]
  dsimp only
  rw [skip_head _ (by decide),
    show expect '(' ('(' :: (outReg o n ++ ')' :: rest)) = some (outReg o n ++ ')' :: rest) from rfl]
  dsimp only
  rw [hsp, key, Out.ok_bind]
  rfl

/-! ### The numbers that are printed -/

theorem expr_num {t : List Char} {v : Nat} (h : NumText .surroundX .panasonic t v) :
    Expr E addr t ⟨v, .unsigned⟩ := by
  obtain ⟨c, s, hc, hf⟩ := lead_first h.lead
  exact ⟨⟨c, s, hc, Or.inr hf⟩,
    fun rest => ⟨reg_none regsOk regsNo (h.lead.append rest), reg_none ccsOk ccsNo (h.lead.append rest)⟩,
    fun d _ rest hr hs => eval_const (const_of lexOk h E d addr) hr hs⟩

theorem star_none (s : List Char) : searchText regs ('*' :: s) = .ok none ∧ searchText ccs ('*' :: s) = .ok none :=
  ⟨reg_none_head regsOk (by intro d hd; injection hd with hd; subst hd; decide),
   reg_none_head ccsOk (by intro d hd; injection hd with hd; subst hd; decide)⟩

theorem letter_star (up : Bool) : letter up '*' = '*' := by cases up <;> rfl

theorem expr_rel {o : Opts} (ho : Readable o) (hsym : o.curSym = '*') {w tgt : Nat} (hw : w = 16 ∨ w = 18)
    (ha : addr < 2 ^ w) (ht : tgt < 2 ^ w) (hd : ((tgt : Int) - addr).natAbs < 2 ^ 8) :
    Expr E addr (outRelAddr .surroundX o w tgt addr 8) ⟨tgt, .unsigned⟩ := by
  have hw31 : w ≤ 31 := by omega
  have hw1 : 1 ≤ w := by omega
  have h18 : 2 ^ w ≤ 2 ^ 18 := Nat.pow_le_pow_right (by decide) (by omega)
  have key := outRelAddr_text (pairs ho) w tgt addr 8 ht hw31 hw1 ha (by decide) (by decide) hd
  refine ⟨?_, fun rest => ?_, fun d hdel rest hr hs => ?_⟩
  · rcases key with ⟨_, h⟩ | ⟨_, _, h⟩ | ⟨_, t, _, h⟩
    · obtain ⟨c, s, hc, hf⟩ := lead_first h.lead
      exact ⟨c, s, hc, Or.inr hf⟩
    · exact ⟨_, _, h, Or.inl (by rw [hsym, letter_star])⟩
    · exact ⟨_, _, h, Or.inl (by rw [hsym, letter_star])⟩
  · rcases key with ⟨_, h⟩ | ⟨_, _, h⟩ | ⟨_, t, _, h⟩
    · exact ⟨reg_none regsOk regsNo (h.lead.append rest), reg_none ccsOk ccsNo (h.lead.append rest)⟩
    · rw [h, hsym, letter_star]
      exact star_none _
    · rw [h, hsym, letter_star]
      exact star_none _
  · refine (rel_reads lexOk (pairs ho) (lex_ops E addr hdel) ?_ ?_ hw31 hw1 ha ht (by decide) (by decide) hd hr hs).1
    · show ∀ c ∈ firsts .surroundX, c ≠ d
      rcases hdel with rfl | rfl <;> decide
    · intro _
      rw [hsym, letter_star]
      exact const_location E d (by omega)

/-- One constant minus another. -/
theorem eval_diff {P : Plugins Value} {t u rest : List Char} {a v : Nat} (hP : Ops P)
    (hc : Const P u ⟨a, .unsigned⟩) (h : Const P t ⟨v, .unsigned⟩) (ha : a < 2 ^ 32)
    (hv : v < 2 ^ 32) (hd : ∃ d s, t = d :: s ∧ d ≠ P.delimitor ∧ d ≠ '+')
    (hrest : Sep rest) (hstop : Stop P rest) :
    parseInteger P (u ++ '-' :: (t ++ rest)) .OK = .ok (Value.setS (a - v), .OK, rest) := by
  have hf : subtract (⟨a, .unsigned⟩ : Value) ⟨v, .unsigned⟩ = .ok (.ok (Value.setS (a - v))) := by
    have na : ∀ n, (⟨n, .unsigned⟩ : Value).isNegative = false := fun _ => rfl
    have ab : ∀ n, (⟨n, .unsigned⟩ : Value).absolute = some n := fun _ => rfl
    unfold subtract lift Value.sub
    rw [negate_small hv, Option.bind_some]
    by_cases h0 : v = 0
    · subst h0
      have e0 : Value.setS (-((0 : Nat) : Int)) = ⟨0, .unsigned⟩ := rfl
      rw [e0]
      unfold Value.add
      rw [ab, ab, na, na]
      dsimp only
      rw [if_pos rfl, if_neg (by decide)]
      unfold Value.setU Value.setS Value.M
      rw [if_pos (by omega)]
      simp
      omega
    · have e1 : Value.setS (-(v : Int)) = ⟨Value.ofSigned (-(v : Int)), .signed⟩ := by
        unfold Value.setS; rw [if_neg (by omega)]
      have e2 : Value.asSigned (Value.ofSigned (-(v : Int))) = -(v : Int) := by
        unfold Value.asSigned Value.ofSigned Value.H Value.M
        have : (-(v : Int)) % 18446744073709551616 = 18446744073709551616 - v := by omega
        omega
      have e3 : (⟨Value.ofSigned (-(v : Int)), .signed⟩ : Value).isNegative = true := by
        unfold Value.isNegative Value.isSigned
        rw [e2]
        simp
        omega
      have e4 : (⟨Value.ofSigned (-(v : Int)), .signed⟩ : Value).absolute = some v := by
        unfold Value.absolute
        rw [e3, e2]
        unfold Value.negS Value.H
        rw [if_pos rfl, if_neg (by omega)]
        simp
      rw [e1]
      unfold Value.add
      rw [ab, na, e3, e4]
      dsimp only
      rw [if_neg (by decide)]
      by_cases hle : v ≤ a
      · rw [if_pos hle, if_neg (by decide)]
        unfold Value.setU Value.setS Value.M
        rw [if_pos (by omega)]
        have : (a - v) % 18446744073709551616 = ((a : Int) - v).toNat := by omega
        rw [this]
      · rw [if_neg hle, if_neg (by decide)]
        have hx : Value.asSigned (v - a) = ((v - a : Nat) : Int) := by
          unfold Value.asSigned Value.H; rw [if_pos (by omega)]
        unfold Value.setNegated
        rw [hx]
        unfold Value.negS Value.H
        rw [if_neg (by omega)]
        have : -((v - a : Nat) : Int) = (a : Int) - v := by omega
        rw [this]
        rfl
  have hl := len_pos h.ne
  have hu := len_pos hc.ne
  have hends : Sep ('-' :: (t ++ rest)) := Sep.cons (by decide) _
  refine eval_of (hc.space ('-' :: (t ++ rest))) (k := [.operand, .infix, .operand]) ?_
    (by rw [List.length_append, List.length_cons, List.length_append]; omega)
  show (step P _).bind _ = _
  have h0 := step_const hc hends (start P (u ++ '-' :: (t ++ rest)) .OK .r10) rfl rfl
    (Or.inl rfl) rfl (by simp [start]) rfl
  rw [h0, Out.ok_bind]
  dsimp only
  obtain ⟨n, hn⟩ : ∃ n, (u ++ '-' :: (t ++ rest)).length = n + 3 :=
    ⟨(u ++ '-' :: (t ++ rest)).length - 3, by
      rw [List.length_append, List.length_cons, List.length_append]; omega⟩
  rw [hn]
  show (step P _).bind _ = _
  have h1 : ∀ x : St Value, x.scan = '-' :: (t ++ rest) → x.endOfExpr = P.delimitor →
      x.maybePrefix = false → x.err = .OK → x.ost = [] → step P x = .ok (.cont
      { x with
        scan := t ++ rest, ost := [opSub], maybePrefix := true, trace := .infix :: x.trace }) := by
    intro x hx1 hx2 hx3 hx4 hx5
    unfold step
    rw [hx1, spaces_sign (Or.inl rfl)]
    dsimp only
    rw [if_neg (by rw [hP.minusEol]; simp), if_neg (by
      rw [hx2]; rintro ⟨h, _⟩; exact hP.delim.1 h.symm), hx3, hP.sub]
    have : hasError x.err = false := by rw [hx4]; rfl
    simp only [this, Bool.false_eq_true, if_false]
    unfold stepOperator
    rw [hx5]
    unfold reduceInfix
    rw [Out.ok_bind]
    dsimp only
    rw [if_neg (by decide), hx3]
    rfl
  rw [h1 _ rfl rfl rfl rfl rfl, Out.ok_bind]
  dsimp only
  show (step P _).bind _ = _
  rw [step_const h hrest _ rfl rfl (Or.inr (by
    obtain ⟨d, s, h1, h2, _⟩ := hd
    exact ⟨d, s, h1, h2⟩)) rfl (by simp [start]) rfl, Out.ok_bind]
  dsimp only
  rw [loop_stop hstop _ _ rfl (by simp) rfl rfl rfl rfl rfl (by omega)]
  unfold finish reduceAll
  dsimp only [start]
  rw [show opSub.isOpenParen = false from rfl, if_neg (by decide)]
  unfold evalOp Operator.eval
  rw [show opSub.kind = .bin subtract from rfl]
  dsimp only
  simp only [List.length_cons, List.length_nil]
  rw [show opSub.nargs = 2 from rfl, if_pos (by decide)]
  simp only [pop]
  rw [hf]
  rfl

/-- The address of an operand relative to the instruction counter: the target, and the location. -/
theorem expr_diff {o : Opts} (ho : Readable o) (hsym : o.curSym = '*') {w tgt : Nat} (hw : w = 16 ∨ w = 18)
    (ha : addr < 2 ^ w) (ht : tgt < 2 ^ w) :
    Expr E addr (outAbsAddr .surroundX o w tgt ++ ['-', letter o.upper o.curSym]) (Value.setS ((tgt : Int) - addr)) := by
  have h18 : 2 ^ w ≤ 2 ^ 18 := Nat.pow_le_pow_right (by decide) (by omega)
  have h := outAbsAddr_num (pairs ho) tgt w ht (by omega) (by omega)
  obtain ⟨c, s, hc, hf⟩ := lead_first h.lead
  refine ⟨⟨c, s ++ ['-', letter o.upper o.curSym], by rw [hc]; rfl, Or.inr hf⟩, fun rest => ?_, fun d hd rest hr hs => ?_⟩
  · rw [List.append_assoc]
    exact ⟨reg_none regsOk regsNo (h.lead.append _), reg_none ccsOk ccsNo (h.lead.append _)⟩
  · rw [hsym, letter_star, List.append_assoc]
    exact eval_diff (t := ['*']) (lex_ops E addr hd) (const_of lexOk h E d addr)
      (const_location E d (by omega)) (by omega) (by omega)
      ⟨'*', [], rfl, by show '*' ≠ d; rcases hd with rfl | rfl <;> decide, by decide⟩ hr hs

/-! ### Into the code -/

/-- The bits of the operand in the code. -/
def bitsOf : Mode → Nat → Nat
  | .GEN, c => c / 2048 % 8 * 2048 + c % 256
  | .RD, c | .RDG, c => c / 256 % 8 * 256
  | .RS, c | .RSG, c => c % 8
  | .RI, c => c % 4
  | .RIAU, c => c / 64 % 4 * 64 + c % 4
  | .SB, c => c / 16 % 4 * 16
  | .RB, c | .RBW, c | .RP, c | .RHR, c | .RHW, c => c / 16 % 8 * 16
  | .SKIP, c => c / 16 % 16 * 16
  | .IM8, c | .IOA, c => c % 256
  | .IM4, c | .BIT, c => c % 16
  | .ILVL, c | .EOP, c => c % 4
  | .COP, c => c / 8 % 2 * 8
  | _, _ => 0

/-- The modes an operand of the table can be read as. -/
def parsed : Mode → List Mode
  | .RD | .RS => [.R0, .RDG, .RD]
  | .RDG | .RSG => [.R0, .RDG]
  | .RI => [.RI1, .RI2, .RI]
  | .RIAU => [.RI1, .RI2, .RI, .RIAU]
  | .RB | .RBW => [.SB, .RB]
  | .RHR | .RHW => [.RHR]
  | .GEN => [.IM8, .IM16, .ABS, .IABS, .INDX, .IXID, .IDIX]
  | .ILVL | .BIT | .IM4 | .IM8 | .IM8W | .IOA => [.IM8]
  | .IM16 | .ABS => [.IM8, .IM16]
  | m => [m]

/-- The number of bytes of the operand. -/
def lenOf : Mode → Nat
  | .IM8W | .IM16 | .ABS | .IABS => 2
  | _ => 0

/-- The fields of the code for which the disassembler prints something that can be read. -/
def Ok (m : Mode) (c : Nat) : Prop :=
  match m with
  | .RD => c / 256 % 8 ≠ 7
  | .RDG => c / 256 % 8 < 6
  | .RS => c % 8 ≠ 7
  | .RSG => c % 8 < 6
  | .RIAU => c / 64 % 4 ≠ 0
  | .RBW => c / 16 % 8 ≠ 0
  | .RP => c / 16 % 8 < 3
  | .RHR | .RHW => c / 16 % 8 ≠ 7
  | .NONE | .INDX | .IXID | .IDIX | .UNDEF => False
  | _ => True

theorem or_bits {k x y : Nat} (hx : x % 2 ^ k = 0) (hy : y < 2 ^ k) : x ||| y = x + y := by
  have := Nat.two_pow_add_eq_or_of_lt (i := k) (b := y) hy (x / 2 ^ k)
  rw [Nat.mul_div_cancel' (Nat.dvd_of_mod_eq_zero hx)] at this
  exact this.symm

theorem check_false (a : Asm) (e : Err) : a.check false e = a := rfl

theorem embed_lt (a : Asm) {x : Nat} (h : x < 65536) : embed a x = { a with opc := a.opc ||| x } := by
  unfold embed
  rw [Nat.mod_eq_of_lt h]

theorem emit_lt (a : Asm) {x : Nat} (h : x < 65536) :
    a.emit16be x = { a with ops := a.ops ++ [x / 256, x % 256] } := by
  unfold Asm.emit16be
  rw [Nat.mod_eq_of_lt (show x / 256 < 256 by omega)]

/-- What an operand of the table is read as, and what it makes of it: the bits and bytes it was decoded from. Of
an immediate byte in a word of its own the most significant byte must be zero. -/
structure Back (cpu : CpuType) (addr opc : Nat) (m : Mode) (r r' : Rd) (op : Operand) : Prop where
  mode : op.mode ∈ parsed m
  enc : ∃ bs, Took r r' bs ∧ bs.length = lenOf m ∧ ((m = .IM8W → r.mem.headD 0 = 0) →
    ∀ a : Asm, a.err = .OK → encodeOperand cpu addr m op a = .ok ⟨.OK, a.opc ||| bitsOf m opc, a.ops ++ bs⟩)

variable {cpu : CpuType} {opc : Nat} {o : Opts} {r : Rd}

/-- An operand in the code. -/
theorem code_back {m : Mode} {op : Operand} (hr : r.err = .OK) (hp : op.mode ∈ parsed m) (hl : lenOf m = 0)
    (henc : ∀ a : Asm, a.err = .OK → encodeOperand cpu addr m op a = .ok (embed a (bitsOf m opc)))
    (hb : bitsOf m opc < 65536) : Back cpu addr opc m r r op := by
  refine ⟨hp, [], Took.refl hr, hl.symm, fun _ a ha => ?_⟩
  rw [henc a ha, embed_lt _ hb, List.append_nil]
  cases a
  have : _ = Err.OK := ha
  subst this
  rfl

theorem bits_lt (m : Mode) (c : Nat) : bitsOf m c < 65536 := by
  cases m <;> simp only [bitsOf] <;> omega

theorem setOk {a : Asm} (ha : a.err = .OK) (x : Nat) : embed (a.setErrorIf .OK) x = embed a x := by
  rw [Asm.noError]

/-- A register, with what the assembler makes of its number. -/
theorem register_back {m : Mode} {n : Nat} (hr : r.err = .OK) (hk : n ∈ regs.map (·.2))
    (hd : decodeOperand o cpu addr opc m r = (outReg o n, r)) (hp : regMode n ∈ parsed m) (hl : lenOf m = 0)
    (henc : ∀ a : Asm, a.err = .OK → encodeOperand cpu addr m { mode := regMode n, reg := n } a =
      .ok (embed (a.setErrorIf .OK) (bitsOf m opc))) :
    ∃ op, Back cpu addr opc m r (decodeOperand o cpu addr opc m r).2 op ∧
      Reads E addr (decodeOperand o cpu addr opc m r).1 op := by
  rw [hd]
  refine ⟨_, code_back hr hp hl (fun a ha => ?_) (bits_lt m opc), reg_reads o hk⟩
  rw [henc a ha, setOk ha]

/-- A condition. -/
theorem condition_back {m : Mode} {n : Nat} (hr : r.err = .OK) (hk : n ∈ ccs.map (·.2))
    (hd : decodeOperand o cpu addr opc m r = (outCc o n, r)) (hp : ccMode n ∈ parsed m) (hl : lenOf m = 0)
    (henc : ∀ a : Asm, a.err = .OK → encodeOperand cpu addr m { mode := ccMode n, cc := n } a =
      .ok (embed (a.setErrorIf .OK) (bitsOf m opc))) :
    ∃ op, Back cpu addr opc m r (decodeOperand o cpu addr opc m r).2 op ∧
      Reads E addr (decodeOperand o cpu addr opc m r).1 op := by
  rw [hd]
  refine ⟨_, code_back hr hp hl (fun a ha => ?_) (bits_lt m opc), cc_reads o hk⟩
  rw [henc a ha, setOk ha]

theorem overflow8 {v : Nat} (h : v < 256) : (⟨v, .unsigned⟩ : Value).overflowUint8 = false :=
  overflow_num (by omega) (by omega) (by omega)

theorem overflow16 {v : Nat} (h : v < 65536) : (⟨v, .unsigned⟩ : Value).overflowUint16 = false :=
  overflow_num (by omega) (by omega) (by omega)

theorem valueMode8 {v : Nat} (h : v < 256) : valueMode ⟨v, .unsigned⟩ = .IM8 := by
  unfold valueMode
  rw [overflow16 (by omega), overflow8 h]
  rfl

theorem valueMode16 {v : Nat} (h : v < 65536) : valueMode ⟨v, .unsigned⟩ ∈ [Mode.IM8, .IM16] := by
  unfold valueMode
  rw [overflow16 h]
  cases (⟨v, .unsigned⟩ : Value).overflowUint8 <;> decide

/-- A small number in the code. -/
theorem number_back {m : Mode} {v : Nat} {t : List Char} (hr : r.err = .OK)
    (hd : decodeOperand o cpu addr opc m r = (t, r)) (ht : NumText .surroundX .panasonic t v) (hv : v < 256)
    (hp : .IM8 ∈ parsed m) (hl : lenOf m = 0)
    (henc : ∀ a : Asm, a.err = .OK → encodeOperand cpu addr m { mode := .IM8, val := ⟨v, .unsigned⟩ } a =
      .ok (embed (a.setErrorIf .OK) (bitsOf m opc))) :
    ∃ op, Back cpu addr opc m r (decodeOperand o cpu addr opc m r).2 op ∧
      Reads E addr (decodeOperand o cpu addr opc m r).1 op := by
  rw [hd]
  have := value_reads (expr_num (E := E) (addr := addr) ht)
  rw [valueMode8 hv] at this
  refine ⟨_, code_back hr hp hl (fun a ha => ?_) (bits_lt m opc), this⟩
  rw [henc a ha, setOk ha]

/-- A number in a word of its own. -/
theorem word_back {m : Mode} {op : Operand} {t : List Char} {v : Nat} (hmem : ∀ b ∈ r.mem, b < 256)
    (he : r.be16.2.err = .OK) (hd : decodeOperand o cpu addr opc m r = (t, r.be16.2)) (hp : op.mode ∈ parsed m)
    (hl : lenOf m = 2) (hb : bitsOf m opc = 0) (ht : Reads E addr t op)
    (hv : (m = .IM8W → r.mem.headD 0 = 0) → v = r.be16.1)
    (henc : ∀ a : Asm, a.err = .OK → encodeOperand cpu addr m op a = .ok ((a.setErrorIf .OK).emit16be v)) :
    ∃ op, Back cpu addr opc m r (decodeOperand o cpu addr opc m r).2 op ∧
      Reads E addr (decodeOperand o cpu addr opc m r).1 op := by
  rw [hd]
  obtain ⟨g1, g2⟩ := be16_took hmem he
  refine ⟨op, ⟨hp, _, g2, hl.symm, fun hz a ha => ?_⟩, ht⟩
  rw [henc a ha, hv hz, Asm.noError, emit_lt _ g1, hb, Nat.or_zero]
  cases a
  have : _ = Err.OK := ha
  subst this
  rfl

theorem be16_high (hmem : ∀ b ∈ r.mem, b < 256) (he : r.be16.2.err = .OK) : r.be16.1 / 256 = r.mem.headD 0 := by
  obtain ⟨_, g2⟩ := be16_took hmem he
  rw [g2.mem]
  rfl

/-- The address of an instruction relative to the instruction counter is one of the address space, and one that is not
read as one of the first page. -/
structure Near (o : Opts) (cpu : CpuType) (addr opc : Nat) : Prop where
  low : 0 ≤ (addr : Int) + int8 (opc % 256)
  high : (addr : Int) + int8 (opc % 256) < 2 ^ width cpu
  page : o.relative = true → 256 ≤ (addr : Int) + int8 (opc % 256)

theorem diff_value : ∀ v < 256, (Value.setS (int8 v)).overflowInt8 = false ∧
    (Value.setS (int8 v)).getUnsigned % 256 = v := by decide +kernel

theorem overflow_far {v : Nat} {min : Int} (h : 256 ≤ v) (hv : v < 2 ^ 32) : (⟨v, .unsigned⟩ : Value).overflow 255 min = true := by
  have h1 : (⟨v, .unsigned⟩ : Value).overflowUint32 = false := by
    unfold Value.overflowUint32 Value.isUnsigned
    simp
    omega
  unfold Value.overflow
  rw [h1, getUnsigned_num hv]
  unfold Value.isUnsigned
  simp only [Bool.false_eq_true, if_false]
  simp
  omega

/-- The mode of a number that is read as an address relative to the instruction counter. -/
theorem valueMode_far {v : Nat} (h : 256 ≤ v) (hv : v < 2 ^ 32) :
    valueMode ⟨v, .unsigned⟩ = .IM16 ∨ valueMode ⟨v, .unsigned⟩ = .ABS := by
  have h8 : (⟨v, .unsigned⟩ : Value).overflowUint8 = true := overflow_far h hv
  unfold valueMode
  rw [h8]
  cases (⟨v, .unsigned⟩ : Value).overflowUint16
  · exact Or.inl rfl
  · exact Or.inr rfl

/-- Relative to the instruction counter. -/
theorem icRelative {op : Operand} {a : Asm} {tgt : Nat} (hw : width cpu = 16 ∨ width cpu = 18) (ha : addr < 2 ^ width cpu)
    (ht : tgt < 2 ^ width cpu) (hd : (tgt : Int) = addr + int8 (opc % 256)) (hv : op.val.getUnsigned = tgt)
    (he : a.err = .OK) :
    encodeIcRelative cpu addr op a = .ok (embed (embed a ((if op.mode = .IABS then 3 else 1) * 2048)) (opc % 256)) := by
  have hi := int8_range (opc % 256) (Nat.mod_lt _ (by decide))
  have h18 : 2 ^ width cpu ≤ 2 ^ 18 := Nat.pow_le_pow_right (by decide) (by omega)
  have h8 : 2 ^ 7 ≤ 2 ^ (width cpu - 1) := Nat.pow_le_pow_right (by decide) (by omega)
  unfold encodeIcRelative
  rw [hv, he, branch_near (by omega) (by omega) (by show addr < 4294967296; omega) ht (by omega) (by omega)]
  show Out.bind (.ok _) _ = _
  rw [Out.ok_bind]
  dsimp only
  rw [show (tgt : Int) - addr = int8 (opc % 256) by omega, Config.overflowDelta_eq (by decide) (by decide)]
  show Out.bind (.ok _) _ = _
  rw [Out.ok_bind, show (decide ¬(-((2 ^ (8 - 1) : Nat) : Int) ≤ int8 (opc % 256) ∧
      int8 (opc % 256) < ((2 ^ (8 - 1) : Nat) : Int))) = false by
    simp only [Nat.reduceSub, Nat.reducePow, decide_eq_false_iff_not]; omega, check_false]
  have hb : (int8 (opc % 256) % 256).toNat = opc % 256 := by
    unfold int8
    split <;> omega
  rw [hb]
  cases a
  have : _ = Err.OK := he
  subst this
  rfl

theorem embed_both (a : Asm) {k v n : Nat} (hk : k < 8) (hv : v < 256) (hn : n = k * 2048 + v) :
    embed (embed a (k * 2048)) v = embed a n ∧ embed (embed a v) (k * 2048) = embed a n := by
  have h : k * 2048 ||| v = n := by rw [or_bits (k := 8) (by omega) hv, hn]
  rw [embed_lt _ (show k * 2048 < 65536 by omega), embed_lt _ (show v < 65536 by omega),
    embed_lt _ (show v < 65536 by omega), embed_lt _ (show k * 2048 < 65536 by omega),
    embed_lt _ (show n < 65536 by omega)]
  dsimp only
  rw [Nat.or_assoc, Nat.or_assoc, Nat.or_comm v, h]
  exact ⟨rfl, rfl⟩

/-- Relative to an index register. -/
theorem index_enc {md : Mode} {n k : Nat}
    (h : md = .INDX ∧ n = 11 ∧ k = 4 ∨ md = .INDX ∧ n = 12 ∧ k = 5 ∨ md = .IDIX ∧ n = 11 ∧ k = 6 ∨
      md = .IDIX ∧ n = 12 ∧ k = 7) (val : Value) (a : Asm) :
    encodeGenericAddress cpu addr { mode := md, reg := n, val := val } a =
      .ok (embed (embed (a.check (val.overflow 255 0) .OVERFLOW_RANGE) (val.getUnsigned % 256)) (k * 2048)) := by
  rcases h with ⟨rfl, rfl, rfl⟩ | ⟨rfl, rfl, rfl⟩ | ⟨rfl, rfl, rfl⟩ | ⟨rfl, rfl, rfl⟩ <;>
    unfold encodeGenericAddress <;> dsimp only
  · rw [if_pos (by decide)]; simp [Asm.check, encodeIndex]
  · rw [if_pos (by decide)]; simp [Asm.check, encodeIndex]
  · rw [if_pos (by decide)]; simp [Asm.check, encodeIndex]
  · rw [if_pos (by decide)]; simp [Asm.check, encodeIndex]

/-- Relative to the instruction counter, with the displacement as it is. -/
theorem counter_enc {md : Mode} {k : Nat} (h : md = .INDX ∧ k = 1 ∨ md = .IXID ∧ k = 3) (val : Value) (a : Asm) :
    encodeGenericAddress cpu addr { mode := md, reg := 7, val := val } a =
      .ok (embed (embed (a.check val.overflowInt8 .OPERAND_TOO_FAR) (val.getUnsigned % 256)) (k * 2048)) := by
  rcases h with ⟨rfl, rfl⟩ | ⟨rfl, rfl⟩ <;> unfold encodeGenericAddress <;> dsimp only
  · rw [if_neg (by decide), if_pos rfl]; simp [Asm.check]
  · rw [if_neg (by decide), if_pos rfl]; simp [Asm.check]

theorem general_back (ho : Readable o) (hsym : o.curSym = '*') (ha : addr < 2 ^ width cpu) (hr : r.err = .OK)
    (hnear : opc / 2048 % 8 = 1 ∨ opc / 2048 % 8 = 3 → Near o cpu addr opc) :
    ∃ op, Back cpu addr opc .GEN r (decodeOperand o cpu addr opc .GEN r).2 op ∧
      Reads E addr (decodeOperand o cpu addr opc .GEN r).1 op := by
  have hw : width cpu = 16 ∨ width cpu = 18 := by cases cpu <;> decide
  have h18 : 2 ^ width cpu ≤ 2 ^ 18 := Nat.pow_le_pow_right (by decide) (by omega)
  have hi := int8_range (opc % 256) (Nat.mod_lt _ (by decide))
  have hv : opc % 256 < 256 := Nat.mod_lt _ (by decide)
  have hm : opc / 2048 % 8 < 8 := Nat.mod_lt _ (by decide)
  have habs := expr_num (E := E) (addr := addr) (outAbsAddr_num (pairs ho) (opc % 256) 8 hv (by decide) (by decide))
  have hdec := expr_num (E := E) (addr := addr) (outDec_num (pairs ho) (opc % 256) 8 hv (by decide) (by decide))
  have hgu : (⟨opc % 256, .unsigned⟩ : Value).getUnsigned = opc % 256 := getUnsigned_num (by omega)
  have hov : (⟨opc % 256, .unsigned⟩ : Value).overflow 255 0 = false := overflow_num (by omega) (by omega) (by omega)
  -- an operand, with what the assembler makes of it
  have fin : ∀ (t : List Char) (op : Operand), decodeOperand o cpu addr opc .GEN r = (t, r) →
      op.mode ∈ parsed .GEN → op.err = .OK → Reads E addr t op →
      (∀ a : Asm, a.err = .OK → encodeGenericAddress cpu addr op a = .ok (embed a (bitsOf .GEN opc))) →
      ∃ op, Back cpu addr opc .GEN r (decodeOperand o cpu addr opc .GEN r).2 op ∧
        Reads E addr (decodeOperand o cpu addr opc .GEN r).1 op := by
    intro t op hd hp hoe hrd henc
    rw [hd]
    refine ⟨op, code_back hr hp rfl (fun a ha => ?_) (bits_lt .GEN opc), hrd⟩
    show encodeGenericAddress cpu addr op (a.setErrorIf op.err) = _
    rw [hoe, Asm.noError]
    exact henc a ha
  -- relative to the instruction counter
  have rel : ∀ (k : Nat), k = 1 ∨ k = 3 → opc / 2048 % 8 = k → ∃ tgt : Nat,
      (((addr : Int) + int8 (opc % 256)) % (Config.W : Int)).toNat = tgt ∧ tgt < 2 ^ width cpu ∧
      (tgt : Int) = addr + int8 (opc % 256) ∧ (o.relative = true → 256 ≤ tgt) := by
    intro k hk h
    have hn := hnear (by omega)
    have n1 := hn.low
    have n2 := hn.high
    have n3 := hn.page
    have n2' : (addr : Int) + int8 (opc % 256) < ((2 ^ width cpu : Nat) : Int) := by rw [Int.natCast_pow]; exact n2
    have hW : (Config.W : Int) = 4294967296 := rfl
    refine ⟨((addr : Int) + int8 (opc % 256)).toNat, ?_, by omega, by omega, fun hx => by have := n3 hx; omega⟩
    rw [hW]
    omega
  have hdo : ∀ t, outGenericAddr o cpu opc addr = t → decodeOperand o cpu addr opc .GEN r = (t, r) := by
    intro t ht
    rw [← ht]
    rfl
  generalize hk : opc / 2048 % 8 = k at *
  have hbits : bitsOf .GEN opc = k * 2048 + opc % 256 := by rw [← hk]; rfl
  rcases (show k = 0 ∨ k = 1 ∨ k = 2 ∨ k = 3 ∨ k = 4 ∨ k = 5 ∨ k = 6 ∨ k = 7 by omega) with
    rfl | rfl | rfl | rfl | rfl | rfl | rfl | rfl
  · have := value_reads habs
    rw [valueMode8 hv] at this
    refine fin (outAbsAddr .surroundX o 8 (opc % 256)) _ (hdo _ (by unfold outGenericAddr; dsimp only; rw [hk]; try rfl)) (by simp [parsed]) rfl this ?_
    intro a ha
    show Out.ok (embed a (⟨opc % 256, .unsigned⟩ : Value).getUnsigned) = _
    rw [hgu, hbits, Nat.zero_mul, Nat.zero_add]
  · obtain ⟨tgt, t1, t2, t3, t4⟩ := rel 1 (Or.inl rfl) rfl
    cases hrel : o.relative with
    | true =>
      have h256 := t4 hrel
      refine fin (outRelAddr .surroundX o (width cpu) tgt addr 8) _ (hdo _ (by unfold outGenericAddr; dsimp only; rw [hk, t1, hrel, if_pos rfl]; try rfl)) ?_ rfl
        (value_reads (expr_rel ho hsym hw ha t2 (by rw [t3]; omega))) ?_
      · rcases valueMode_far h256 (by omega) with h | h <;> simp [h, parsed]
      · intro a hae
        have e := icRelative (opc := opc) (op := { mode := valueMode ⟨tgt, .unsigned⟩, val := ⟨tgt, .unsigned⟩ }) hw ha t2 t3
          (getUnsigned_num (by omega)) hae
        rcases valueMode_far h256 (by omega) with h | h
        all_goals
          rw [h] at e ⊢
          refine Eq.trans e ?_
          rw [if_neg (by simp), (embed_both a (by decide) hv hbits).1]
    | false =>
      refine fin (outAbsAddr .surroundX o (width cpu) tgt ++ ['-', letter o.upper o.curSym, '('] ++ outReg o 7 ++ [')']) { mode := .INDX, reg := 7, val := Value.setS ((tgt : Int) - addr) }
        (hdo _ (by unfold outGenericAddr; dsimp only; rw [hk, t1, hrel, if_neg (by decide)]; try rfl)) ?_ rfl ?_ ?_
      · simp [parsed]
      · have := (index_reads (expr_diff (E := E) ho hsym hw ha t2) o (n := 7) (by decide)).1
        simpa using this
      · intro a hae
        rw [counter_enc (k := 1) (by simp), show (tgt : Int) - addr = int8 (opc % 256) by omega, (diff_value _ hv).1, (diff_value _ hv).2, check_false,
          (embed_both a (by decide) hv hbits).2]
  · refine fin (['('] ++ outAbsAddr .surroundX o 8 (opc % 256) ++ [')']) _ (hdo _ (by unfold outGenericAddr; dsimp only; rw [hk]; try rfl)) (by simp [parsed]) rfl (abs_reads habs) ?_
    intro a ha
    show (if (⟨opc % 256, .unsigned⟩ : Value).overflow 255 0 = false then _ else _) = _
    rw [if_pos hov, hgu, Nat.mod_mod, (embed_both a (by decide) hv hbits).1]
  · obtain ⟨tgt, t1, t2, t3, t4⟩ := rel 3 (Or.inr rfl) rfl
    cases hrel : o.relative with
    | true =>
      have h256 := t4 hrel
      refine fin (['('] ++ outRelAddr .surroundX o (width cpu) tgt addr 8 ++ [')']) _ (hdo _ (by unfold outGenericAddr; dsimp only; rw [hk, t1, hrel, if_pos rfl]; try rfl)) (by simp [parsed]) rfl
        (abs_reads (expr_rel ho hsym hw ha t2 (by rw [t3]; omega))) ?_
      intro a hae
      have e := icRelative (opc := opc) (op := { mode := .IABS, val := ⟨tgt, .unsigned⟩ }) hw ha t2 t3
          (getUnsigned_num (by omega)) hae
      have hx : (⟨tgt, .unsigned⟩ : Value).overflow 255 0 = true := overflow_far h256 (by omega)
      show (if (⟨tgt, .unsigned⟩ : Value).overflow 255 0 = false then _ else _) = _
      rw [hx, if_neg (by decide), e, if_pos rfl, (embed_both a (by decide) hv hbits).1]
    | false =>
      refine fin (['('] ++ (outAbsAddr .surroundX o (width cpu) tgt ++ ['-', letter o.upper o.curSym, '('] ++ outReg o 7 ++ [')']) ++ [')']) { mode := .IXID, reg := 7, val := Value.setS ((tgt : Int) - addr) }
        (hdo _ (by unfold outGenericAddr; dsimp only; rw [hk, t1, hrel, if_neg (by decide)]; try rfl)) ?_ rfl ?_ ?_
      · simp [parsed]
      · have := (index_reads (expr_diff (E := E) ho hsym hw ha t2) o (n := 7) (by decide)).2
        simpa using this
      · intro a hae
        rw [counter_enc (k := 3) (by simp), show (tgt : Int) - addr = int8 (opc % 256) by omega, (diff_value _ hv).1, (diff_value _ hv).2, check_false,
          (embed_both a (by decide) hv hbits).2]
  · refine fin (outDec .surroundX o (opc % 256) 8 ++ ['('] ++ outReg o 11 ++ [')']) _ (hdo _ (by unfold outGenericAddr; dsimp only; rw [hk]; try rfl)) (by simp [parsed]) rfl
      (index_reads hdec o (n := 11) (by decide)).1 ?_
    intro a ha
    rw [index_enc (k := 4) (by simp), hov, hgu, Nat.mod_mod, check_false, (embed_both a (by decide) hv hbits).2]
  · refine fin (outDec .surroundX o (opc % 256) 8 ++ ['('] ++ outReg o 12 ++ [')']) _ (hdo _ (by unfold outGenericAddr; dsimp only; rw [hk]; try rfl)) (by simp [parsed]) rfl
      (index_reads hdec o (n := 12) (by decide)).1 ?_
    intro a ha
    rw [index_enc (k := 5) (by simp), hov, hgu, Nat.mod_mod, check_false, (embed_both a (by decide) hv hbits).2]
  · refine fin (['('] ++ outAbsAddr .surroundX o 8 (opc % 256) ++ [')'] ++ ['('] ++ outReg o 11 ++ [')']) _ (hdo _ (by unfold outGenericAddr; dsimp only; rw [hk]; try rfl)) (by simp [parsed]) rfl
      (both_reads habs o (n := 11) (by decide)) ?_
    intro a ha
    rw [index_enc (k := 6) (by simp), hov, hgu, Nat.mod_mod, check_false, (embed_both a (by decide) hv hbits).2]
  · refine fin (['('] ++ outAbsAddr .surroundX o 8 (opc % 256) ++ [')'] ++ ['('] ++ outReg o 12 ++ [')']) _ (hdo _ (by unfold outGenericAddr; dsimp only; rw [hk]; try rfl)) (by simp [parsed]) rfl
      (both_reads habs o (n := 12) (by decide)) ?_
    intro a ha
    rw [index_enc (k := 7) (by simp), hov, hgu, Nat.mod_mod, check_false, (embed_both a (by decide) hv hbits).2]

theorem ilvl_value : ∀ v < 4, ((⟨v, .unsigned⟩ : Value).overflow 3 0 = false ∧
    (⟨v, .unsigned⟩ : Value).overflow 15 0 = false ∧ (⟨v, .unsigned⟩ : Value).overflowUint8 = false ∧
    (⟨v, .unsigned⟩ : Value).getUnsigned % 256 = v) := by decide +kernel

theorem four_value : ∀ v < 16, ((⟨v, .unsigned⟩ : Value).overflow 15 0 = false ∧
    (⟨v, .unsigned⟩ : Value).overflowUint8 = false ∧ (⟨v, .unsigned⟩ : Value).getUnsigned % 256 = v ∧
    (⟨v, .unsigned⟩ : Value).getUnsigned % 16 = v) := by decide +kernel

/-- What is printed for an operand is read, accepted, and makes the bits and bytes it was decoded from. -/
theorem operand_back (ho : Readable o) (hsym : o.curSym = '*') (ha : addr < 2 ^ width cpu) {m : Mode}
    (hok : Ok m opc) (hkept : omitted opc m = false)
    (hnear : m = .GEN → opc / 2048 % 8 = 1 ∨ opc / 2048 % 8 = 3 → Near o cpu addr opc)
    (hmem : ∀ b ∈ r.mem, b < 256) (he : (decodeOperand o cpu addr opc m r).2.err = .OK) :
    ∃ op, Back cpu addr opc m r (decodeOperand o cpu addr opc m r).2 op ∧
      Reads E addr (decodeOperand o cpu addr opc m r).1 op := by
  cases m with
  | NONE | INDX | IXID | IDIX | UNDEF => exact absurd hok id
  | GEN => exact general_back ho hsym ha he (hnear rfl)
  | SKIP =>
    have hn : opc / 16 % 16 < 16 := Nat.mod_lt _ (by decide)
    have h0 : opc / 16 % 16 ≠ 0 := by simpa [omitted] using hkept
    have hx : ∀ n < 16, n ≠ 0 → n ∈ ccs.map (·.2) ∧ ccMode n = .SKIP ∧ n % 16 = n := by decide
    obtain ⟨x1, x2, x3⟩ := hx _ hn h0
    refine condition_back (n := opc / 16 % 16) he x1 rfl (by rw [x2]; decide) rfl ?_
    intro a hae
    rw [x2]
    show Out.ok (embed (a.setErrorIf .OK) (opc / 16 % 16 % 16 * 16)) = _
    rw [x3]
    rfl
  | EOP =>
    have hn : opc % 4 < 4 := Nat.mod_lt _ (by decide)
    have h0 : opc % 4 ≠ 0 := by simpa [omitted] using hkept
    have hx : ∀ n < 4, n ≠ 0 → n + 48 ∈ ccs.map (·.2) ∧ ccMode (n + 48) = .EOP ∧ n + 48 - 48 = n := by decide
    obtain ⟨x1, x2, x3⟩ := hx _ hn h0
    refine condition_back (n := opc % 4 + 48) he x1 ?_ (by rw [x2]; decide) rfl ?_
    · show (outCc o (decodeEop opc), r) = _
      unfold decodeEop
      rw [if_neg h0]
    · intro a hae
      rw [x2]
      show Out.ok (embed (a.setErrorIf .OK) (opc % 4 + 48 - 48)) = _
      rw [x3]
      rfl
  | COP =>
    have h0 : opc / 8 % 2 = 1 := by
      have : opc / 8 % 2 ≠ 0 := by simpa [omitted] using hkept
      omega
    refine condition_back (n := 32) he (by decide) ?_ (by decide) rfl ?_
    · show (outCc o (decodeCop (opc / 8)), r) = _
      unfold decodeCop
      rw [h0, if_neg (by decide)]
    · intro a hae
      show Out.ok (embed (a.setErrorIf .OK) 8) = _
      rw [show bitsOf .COP opc = 8 by simp only [bitsOf]; omega]
  | RD =>
    have hn : opc / 256 % 8 < 8 := Nat.mod_lt _ (by decide)
    have hx : ∀ n < 8, n ≠ 7 → n ∈ regs.map (·.2) ∧ regMode n ∈ parsed .RD ∧ encodeGeneric n = n := by decide
    obtain ⟨x1, x2, x3⟩ := hx _ hn hok
    refine register_back (n := opc / 256 % 8) he x1 ?_ x2 rfl ?_
    · show (outReg o (decodeRegNum (opc / 256)), r) = _
      unfold decodeRegNum
      rw [if_neg hok]
    · intro a hae
      show Out.ok (embed (a.setErrorIf .OK) (encodeGeneric (opc / 256 % 8) * 256)) = _
      rw [x3]
      rfl
  | RDG =>
    have hx : ∀ n < 6, n ∈ regs.map (·.2) ∧ regMode n ∈ parsed .RDG ∧ encodeGeneric n = n ∧ (n == 6) = false := by decide
    obtain ⟨x1, x2, x3, x4⟩ := hx _ hok
    refine register_back (n := opc / 256 % 8) he x1 ?_ x2 rfl ?_
    · show (outReg o (decodeRegNum (opc / 256)), r) = _
      unfold decodeRegNum
      have : opc / 256 % 8 < 6 := hok
      rw [if_neg (by omega)]
    · intro a hae
      show Out.ok (embed ((a.setErrorIf .OK).check (opc / 256 % 8 == 6) .REGISTER_NOT_ALLOWED)
        (encodeGeneric (opc / 256 % 8) * 256)) = _
      rw [x3, x4]
      rfl
  | RS =>
    have hn : opc % 8 < 8 := Nat.mod_lt _ (by decide)
    have hx : ∀ n < 8, n ≠ 7 → n ∈ regs.map (·.2) ∧ regMode n ∈ parsed .RS ∧ encodeGeneric n = n := by decide
    obtain ⟨x1, x2, x3⟩ := hx _ hn hok
    refine register_back (n := opc % 8) he x1 ?_ x2 rfl ?_
    · show (outReg o (decodeRegNum opc), r) = _
      unfold decodeRegNum
      rw [if_neg hok]
    · intro a hae
      show Out.ok (embed (a.setErrorIf .OK) (encodeGeneric (opc % 8))) = _
      rw [x3]
      rfl
  | RSG =>
    have hx : ∀ n < 6, n ∈ regs.map (·.2) ∧ regMode n ∈ parsed .RSG ∧ encodeGeneric n = n ∧ (n == 6) = false := by decide
    obtain ⟨x1, x2, x3, x4⟩ := hx _ hok
    refine register_back (n := opc % 8) he x1 ?_ x2 rfl ?_
    · show (outReg o (decodeRegNum opc), r) = _
      unfold decodeRegNum
      have : opc % 8 < 6 := hok
      rw [if_neg (by omega)]
    · intro a hae
      show Out.ok (embed ((a.setErrorIf .OK).check (opc % 8 == 6) .REGISTER_NOT_ALLOWED)
        (encodeGeneric (opc % 8))) = _
      rw [x3, x4]
      rfl
  | SB =>
    have hn : opc / 16 % 4 < 4 := Nat.mod_lt _ (by decide)
    have h0 : opc / 16 % 4 ≠ 0 := by simpa [omitted] using hkept
    have hx : ∀ n < 4, n + 16 ∈ regs.map (·.2) ∧ regMode (n + 16) ∈ parsed .SB ∧ encodeSegment (n + 16) = n := by decide
    obtain ⟨x1, x2, x3⟩ := hx _ hn
    refine register_back (n := opc / 16 % 4 + 16) he x1 ?_ x2 rfl ?_
    · show (if opc / 16 % 4 = 0 then _ else _, r) = _
      rw [if_neg h0]
    · intro a hae
      show Out.ok (embed (a.setErrorIf .OK) (encodeSegment (opc / 16 % 4 + 16) * 16)) = _
      rw [x3]
      rfl
  | RB =>
    have hn : opc / 16 % 8 < 8 := Nat.mod_lt _ (by decide)
    have hx : ∀ n < 8, n + 16 ∈ regs.map (·.2) ∧ regMode (n + 16) ∈ parsed .RB ∧ encodeSegment (n + 16) = n := by decide
    obtain ⟨x1, x2, x3⟩ := hx _ hn
    refine register_back (n := opc / 16 % 8 + 16) he x1 rfl x2 rfl ?_
    intro a hae
    show Out.ok (embed (a.setErrorIf .OK) (encodeSegment (opc / 16 % 8 + 16) * 16)) = _
    rw [x3]
    rfl
  | RBW =>
    have hn : opc / 16 % 8 < 8 := Nat.mod_lt _ (by decide)
    have hx : ∀ n < 8, n ≠ 0 → n + 16 ∈ regs.map (·.2) ∧ regMode (n + 16) ∈ parsed .RBW ∧
      encodeSegment (n + 16) = n ∧ (n + 16 == 16) = false := by decide
    obtain ⟨x1, x2, x3, x4⟩ := hx _ hn hok
    refine register_back (n := opc / 16 % 8 + 16) he x1 rfl x2 rfl ?_
    intro a hae
    show Out.ok (embed ((a.setErrorIf .OK).check (opc / 16 % 8 + 16 == 16) .REGISTER_NOT_ALLOWED)
      (encodeSegment (opc / 16 % 8 + 16) * 16)) = _
    rw [x3, x4]
    rfl
  | RP =>
    have hx : ∀ n < 3, n + 32 ∈ regs.map (·.2) ∧ regMode (n + 32) ∈ parsed .RP ∧ encodeSpecial (n + 32) = n := by decide
    obtain ⟨x1, x2, x3⟩ := hx _ hok
    refine register_back (n := opc / 16 % 8 + 32) he x1 ?_ x2 rfl ?_
    · show (outReg o (decodeSpecial (opc / 16)), r) = _
      unfold decodeSpecial
      have : opc / 16 % 8 < 3 := hok
      rw [if_neg (by omega)]
    · intro a hae
      show Out.ok (embed (a.setErrorIf .OK) (encodeSpecial (opc / 16 % 8 + 32) * 16)) = _
      rw [x3]
      rfl
  | RHR =>
    have hn : opc / 16 % 8 < 8 := Nat.mod_lt _ (by decide)
    have hx : ∀ n < 8, n ≠ 7 → n + 24 ∈ regs.map (·.2) ∧ regMode (n + 24) ∈ parsed .RHR ∧
      encodeHardware (n + 24) = n ∧ (n + 24 == 31) = false := by decide
    obtain ⟨x1, x2, x3, x4⟩ := hx _ hn hok
    refine register_back (n := opc / 16 % 8 + 24) he x1 ?_ x2 rfl ?_
    · show (outReg o (decodeHardware (opc / 16)), r) = _
      unfold decodeHardware
      rw [if_neg hok]
    · intro a hae
      show Out.ok (embed ((a.setErrorIf .OK).check (opc / 16 % 8 + 24 == 31) .REGISTER_NOT_ALLOWED)
        (encodeHardware (opc / 16 % 8 + 24) * 16)) = _
      rw [x3, x4]
      rfl
  | RHW =>
    have hn : opc / 16 % 8 < 8 := Nat.mod_lt _ (by decide)
    have hx : ∀ n < 8, n ≠ 7 → (if n + 24 = 29 then 31 else n + 24) ∈ regs.map (·.2) ∧
      regMode (if n + 24 = 29 then 31 else n + 24) ∈ parsed .RHW ∧
      encodeHardware (if n + 24 = 29 then 31 else n + 24) = n ∧ ((if n + 24 = 29 then 31 else n + 24) == 29) = false := by
      decide
    obtain ⟨x1, x2, x3, x4⟩ := hx _ hn hok
    refine register_back (n := if opc / 16 % 8 + 24 = 29 then 31 else opc / 16 % 8 + 24) he x1 ?_ x2 rfl ?_
    · show (outReg o (if decodeHardware (opc / 16) = 29 then 31 else decodeHardware (opc / 16)), r) = _
      unfold decodeHardware
      rw [if_neg hok]
    · intro a hae
      show Out.ok (embed ((a.setErrorIf .OK).check
        ((if opc / 16 % 8 + 24 = 29 then 31 else opc / 16 % 8 + 24) == 29) .REGISTER_NOT_ALLOWED)
        (encodeHardware (if opc / 16 % 8 + 24 = 29 then 31 else opc / 16 % 8 + 24) * 16)) = _
      rw [x3, x4]
      rfl
  | R0 =>
    refine register_back (n := 0) he (by decide) rfl (by decide) rfl ?_
    intro a hae
    show Out.ok (a.setErrorIf .OK) = Out.ok (embed (a.setErrorIf .OK) 0)
    unfold embed
    rw [Nat.zero_mod, Nat.or_zero]
  | DR0 =>
    refine register_back (n := 8) he (by decide) rfl (by decide) rfl ?_
    intro a hae
    show Out.ok (a.setErrorIf .OK) = Out.ok (embed (a.setErrorIf .OK) 0)
    unfold embed
    rw [Nat.zero_mod, Nat.or_zero]
  | RI1 =>
    refine ⟨_, code_back he (op := { mode := .RI1, reg := 1 }) (by decide) rfl (fun a hae => ?_) (bits_lt _ _),
      (indirect_reads o (n := 1) (m := .RI1) (by decide) rfl).1⟩
    show Out.ok (a.setErrorIf .OK) = Out.ok (embed a 0)
    rw [Asm.noError]
    unfold embed
    rw [Nat.zero_mod, Nat.or_zero]
  | RI2 =>
    refine ⟨_, code_back he (op := { mode := .RI2, reg := 2 }) (by decide) rfl (fun a hae => ?_) (bits_lt _ _),
      (indirect_reads o (n := 2) (m := .RI2) (by decide) rfl).1⟩
    show Out.ok (a.setErrorIf .OK) = Out.ok (embed a 0)
    rw [Asm.noError]
    unfold embed
    rw [Nat.zero_mod, Nat.or_zero]
  | RI =>
    have hn : opc % 4 < 4 := Nat.mod_lt _ (by decide)
    have hx : ∀ n < 4, n + 1 ∈ regs.map (·.2) ∧ (∃ m ∈ parsed .RI, indirectMode (n + 1) = some m) ∧
      encodeIndirect (n + 1) = n := by decide
    obtain ⟨x1, ⟨m, x2, x3⟩, x4⟩ := hx _ hn
    refine ⟨_, code_back he (op := { mode := m, reg := opc % 4 + 1 }) x2 rfl (fun a hae => ?_) (bits_lt _ _),
      (indirect_reads o x1 x3).1⟩
    show Out.ok (embed (a.setErrorIf .OK) (encodeIndirect (opc % 4 + 1))) = _
    rw [x4, Asm.noError]
    rfl
  | RIAU =>
    have hn : opc % 4 < 4 := Nat.mod_lt _ (by decide)
    have hk : opc / 64 % 4 < 4 := Nat.mod_lt _ (by decide)
    have hx : ∀ n < 4, n + 1 ∈ regs.map (·.2) ∧ (∃ m ∈ parsed .RI, indirectMode (n + 1) = some m ∧ m ∈ parsed .RIAU ∧
      m ≠ .RIAU) ∧ encodeIndirect (n + 1) = n := by decide
    obtain ⟨x1, ⟨m, x2, x3, x5, x6⟩, x4⟩ := hx _ hn
    obtain ⟨i1, i2, i3⟩ := indirect_reads (E := E) (addr := addr) o x1 x3
    have fin : ∀ (k : Nat) (op : Operand), opc / 64 % 4 = k → op.mode ∈ parsed .RIAU → op.err = .OK →
        op.reg = opc % 4 + 1 → (if op.mode = .RIAU then (if op.val.getUnsigned = 1 then 3 else 2) else 1) = k →
        Back cpu addr opc .RIAU r r op := by
      intro k op h1 h2 h3 h4 h5
      refine code_back he h2 rfl (fun a hae => ?_) (bits_lt _ _)
      show Out.ok (embed (embed (a.setErrorIf op.err)
        ((if op.mode = .RIAU then (if op.val.getUnsigned = 1 then 3 else 2) else 1) * 64)) (encodeIndirect op.reg)) = _
      rw [h3, h4, h5, x4, Asm.noError, embed_lt _ (show k * 64 < 65536 by omega), embed_lt _ (by omega), embed_lt _ (bits_lt _ _)]
      dsimp only
      rw [Nat.or_assoc, or_bits (k := 6) (x := k * 64) (y := opc % 4) (by omega) (by omega)]
      show _ = Out.ok ({ a with opc := a.opc ||| (opc / 64 % 4 * 64 + opc % 4) } : Asm)
      rw [h1]
    have h0 : opc / 64 % 4 ≠ 0 := hok
    show ∃ op, Back cpu addr opc .RIAU r r op ∧ Reads E addr (outIndirect o opc) op
    unfold outIndirect
    rcases (show opc / 64 % 4 = 1 ∨ opc / 64 % 4 = 2 ∨ opc / 64 % 4 = 3 by omega) with h | h | h
    · refine ⟨_, fin 1 { mode := m, reg := opc % 4 + 1 } h x5 rfl rfl (if_neg x6), ?_⟩
      rw [h, if_neg (by decide), if_neg (by decide), List.nil_append, List.append_nil]
      exact i1
    · refine ⟨_, fin 2 { mode := .RIAU, reg := opc % 4 + 1, val := Value.setS (-1) } h (by simp [parsed]) rfl rfl
        (by decide : (if Mode.RIAU = Mode.RIAU then (if (Value.setS (-1)).getUnsigned = 1 then 3 else 2) else 1) = 2), ?_⟩
      rw [h, if_pos rfl, if_neg (by decide), List.append_nil]
      exact i3
    · refine ⟨_, fin 3 { mode := .RIAU, reg := opc % 4 + 1, val := Value.setUnsigned 1 } h (by simp [parsed]) rfl rfl
        (by decide : (if Mode.RIAU = Mode.RIAU then (if (Value.setUnsigned 1).getUnsigned = 1 then 3 else 2) else 1) = 3), ?_⟩
      rw [h, if_neg (by decide), if_pos rfl, List.nil_append]
      exact i2
  | IM4 =>
    have hv : opc % 16 < 16 := Nat.mod_lt _ (by decide)
    obtain ⟨y1, y2, y3, y4⟩ := four_value _ hv
    refine number_back he rfl (outDec_num (pairs ho) (opc % 16) 4 hv (by decide) (by decide)) (by omega) (by decide) rfl ?_
    intro a hae
    unfold encodeOperand
    dsimp only
    rw [y1, y2, y3, if_neg (by decide), check_false, check_false]
    rfl
  | BIT =>
    have hv : opc % 16 < 16 := Nat.mod_lt _ (by decide)
    obtain ⟨y1, y2, y3, y4⟩ := four_value _ hv
    refine number_back he rfl (outDec_num (pairs ho) (opc % 16) 4 hv (by decide) (by decide)) (by omega) (by decide) rfl ?_
    intro a hae
    unfold encodeOperand
    dsimp only
    rw [y1, y4, check_false]
    rfl
  | ILVL =>
    have hv : opc % 4 < 4 := Nat.mod_lt _ (by decide)
    obtain ⟨y1, y2, y3, y4⟩ := ilvl_value _ hv
    refine number_back he rfl (outDec_num (pairs ho) (opc % 4) 2 hv (by decide) (by decide)) (by omega) (by decide) rfl ?_
    intro a hae
    unfold encodeOperand
    dsimp only
    rw [y1, y2, y3, y4, if_neg (by decide), if_neg (by decide), check_false, check_false, check_false]
    rfl
  | IM8 =>
    have hv : opc % 256 < 256 := Nat.mod_lt _ (by decide)
    refine number_back he rfl (outDec_num (pairs ho) (opc % 256) 8 hv (by decide) (by decide)) hv (by decide) rfl ?_
    intro a hae
    show Out.ok (embed ((a.setErrorIf .OK).check (⟨opc % 256, .unsigned⟩ : Value).overflowUint8 .OVERFLOW_RANGE)
      ((⟨opc % 256, .unsigned⟩ : Value).getUnsigned % 256)) = _
    rw [overflow8 hv, getUnsigned_num (by omega), Nat.mod_mod, check_false]
    rfl
  | IOA =>
    have hv : opc % 256 < 256 := Nat.mod_lt _ (by decide)
    refine number_back he rfl (outAbsAddr_num (pairs ho) (opc % 256) 8 hv (by decide) (by decide)) hv (by decide) rfl ?_
    intro a hae
    show Out.ok (embed ((a.setErrorIf .OK).check (⟨opc % 256, .unsigned⟩ : Value).overflowUint8 .OVERFLOW_RANGE)
      ((⟨opc % 256, .unsigned⟩ : Value).getUnsigned % 256)) = _
    rw [overflow8 hv, getUnsigned_num (by omega), Nat.mod_mod, check_false]
    rfl
  | IM8W =>
    have he' : r.be16.2.err = .OK := he
    obtain ⟨g1, _⟩ := be16_took hmem he'
    have hv : r.be16.1 % 256 < 256 := Nat.mod_lt _ (by decide)
    have hrd := value_reads (expr_num (E := E) (addr := addr)
      (outDec_num (pairs ho) (r.be16.1 % 256) 8 hv (by decide) (by decide)))
    rw [valueMode8 hv] at hrd
    refine word_back (v := r.be16.1 % 256) hmem he' rfl (by simp [parsed]) rfl rfl hrd ?_ ?_
    · intro hz
      have h1 := be16_high hmem he'
      rw [hz rfl] at h1
      omega
    · intro a hae
      show Out.ok (((a.setErrorIf .OK).check (⟨r.be16.1 % 256, .unsigned⟩ : Value).overflowUint16 .OVERFLOW_RANGE).emit16be
        (⟨r.be16.1 % 256, .unsigned⟩ : Value).getUnsigned) = _
      rw [overflow16 (by omega), getUnsigned_num (by omega), check_false]
  | IM16 =>
    have he' : r.be16.2.err = .OK := he
    obtain ⟨g1, _⟩ := be16_took hmem he'
    have hrd := value_reads (expr_num (E := E) (addr := addr)
      (outHex_num (pairs ho) r.be16.1 16 true g1 (by decide) (by decide)))
    refine word_back (v := r.be16.1) hmem he' rfl (valueMode16 g1) rfl rfl hrd (fun _ => rfl) ?_
    intro a hae
    show Out.ok (((a.setErrorIf .OK).check (⟨r.be16.1, .unsigned⟩ : Value).overflowUint16 .OVERFLOW_RANGE).emit16be
      (⟨r.be16.1, .unsigned⟩ : Value).getUnsigned) = _
    rw [overflow16 g1, getUnsigned_num (by omega), check_false]
  | ABS =>
    have he' : r.be16.2.err = .OK := he
    obtain ⟨g1, _⟩ := be16_took hmem he'
    have hw : width cpu = 16 ∨ width cpu = 18 := by cases cpu <;> decide
    have h16 : 2 ^ 16 ≤ 2 ^ width cpu := Nat.pow_le_pow_right (by decide) (by omega)
    have hrd := value_reads (expr_num (E := E) (addr := addr)
      (outAbsAddr_num (pairs ho) r.be16.1 16 g1 (by decide) (by decide)))
    refine word_back (v := r.be16.1) hmem he' rfl (valueMode16 g1) rfl rfl hrd (fun _ => rfl) ?_
    intro a hae
    show Out.ok (((a.setErrorIf .OK).setErrorIf
      (Config.checkAddr (width cpu) (⟨r.be16.1, .unsigned⟩ : Value).getUnsigned false)).emit16be
      (⟨r.be16.1, .unsigned⟩ : Value).getUnsigned) = _
    rw [getUnsigned_num (by omega), address_ok (by omega) (by omega), Asm.noError]
  | IABS =>
    have he' : r.be16.2.err = .OK := he
    obtain ⟨g1, _⟩ := be16_took hmem he'
    have hrd := abs_reads (expr_num (E := E) (addr := addr)
      (outAbsAddr_num (pairs ho) r.be16.1 16 g1 (by decide) (by decide)))
    refine word_back (v := r.be16.1) hmem he' rfl (by simp [parsed]) rfl rfl hrd (fun _ => rfl) ?_
    intro a hae
    show Out.ok ((a.setErrorIf .OK).emit16be (⟨r.be16.1, .unsigned⟩ : Value).getUnsigned) = _
    rw [getUnsigned_num (by omega)]

end
end Libasm.Cpu.Mn1610
