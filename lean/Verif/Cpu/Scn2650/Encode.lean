import Verif.Cpu.Ops
import Verif.Config.Props
import Verif.Table.Props
import Verif.Cpu.Scn2650.Model
import Verif.Cpu.Scn2650.Spec
/-
How the SCN2650 assembler reads what its disassembler prints, and what it makes of it.
-/
namespace Libasm.Cpu.Scn2650
open Scan Number Number.Spec Eval
open Tables (Row)

/-- The parsers at an address. -/
abbrev plug (E : Env) (addr : Nat) : Plugins Value := lexer.plugins E '\x00' addr

/-- Numbers that are printed so that the assembler reads them. -/
def Readable (o : Opts) : Prop := o.octal = true → o.cstyle = true ∨ o.intelHex = true

theorem pairs {o : Opts} (h : Readable o) : Pairs .surroundH .signetics o :=
  ⟨by decide, by decide, fun hx => (h hx).elim Or.inl (fun h => Or.inr (Or.inl h))⟩

theorem lexOk : LexOk lexer .surroundH := by
  apply lexOk_of
  intro c hc s
  simp only [firsts, leads, List.map, List.headD, List.mem_append, List.mem_cons, List.not_mem_nil,
    or_false] at hc
  rcases hc with (h | h | h | h | h | h | h | h | h | h) | (h | h) <;> subst h <;>
    exact ⟨rfl, rfl, fun _ _ => rfl⟩

theorem lex_ops (E : Env) (loc : Nat) : Ops (plug E loc) :=
  ⟨rfl, ⟨opUnaryMinus, rfl, rfl, rfl, fun _ _ _ => rfl⟩, fun _ => rfl, fun _ => rfl, fun _ _ _ => rfl,
    fun _ => rfl,
    by show '\x00' ≠ '-' ∧ '\x00' ≠ '+'; decide⟩

theorem stop_nil (E : Env) (loc : Nat) : Stop (plug E loc) [] :=
  ⟨rfl, Or.inl rfl⟩

theorem stop_comma (E : Env) (loc : Nat) (s : List Char) : Stop (plug E loc) (',' :: s) :=
  ⟨rfl, Or.inr (Or.inr ⟨rfl, Or.inr rfl⟩)⟩

theorem after_stop {E : Env} {loc : Nat} {rest : List Char} (h : AfterOp rest) :
    Sep rest ∧ Stop (plug E loc) rest := by
  rcases h with rfl | ⟨s, rfl⟩
  · exact ⟨Sep.nil, stop_nil ..⟩
  · exact ⟨Sep.cons (by decide) _, stop_comma ..⟩

theorem const_location (E : Env) {loc : Nat} (hl : loc < 2 ^ 32) : Const (plug E loc) ['$'] ⟨loc, .unsigned⟩ := by
  apply const_loc
  · rfl
  · intro s hs
    have h1 : Eval.symbolLetter false (deref s) = false := by
      cases s with
      | nil => rfl
      | cons d t =>
        have : ∀ d ∈ seps, Eval.symbolLetter false d = false := by decide
        exact this d (hs d rfl)
    refine ⟨rfl, rfl, ?_⟩
    show locationSymbol Eval.symbolLetter '$' ('$' :: s) = _
    rw [show locationSymbol Eval.symbolLetter '$' ('$' :: s) =
        if Eval.symbolLetter false (deref s) then none else some s from rfl, h1]
    rfl
  · exact fun _ => rfl
  · exact fun _ => rfl
  · exact fun _ _ _ => rfl
  · exact hl

theorem ccsOk : RegsOk ccs := by decide
theorem ccsNo : NoNumbers .surroundH ccs := by decide

theorem skip_head {c : Char} (s : List Char) (h : Ctype.isSpace c = false) : skipSpaces (c :: s) = c :: s := by
  unfold skipSpaces trimStart
  rw [List.dropWhile_cons, h]
  rfl

theorem skip_skip (s : Scan) : skipSpaces (skipSpaces s) = skipSpaces s := by
  unfold skipSpaces trimStart
  induction s with
  | nil => rfl
  | cons c s ih =>
    rw [List.dropWhile_cons]
    split
    · exact ih
    · rw [List.dropWhile_cons, if_neg (by assumption)]

section
variable {E : Env} {addr : Nat}

/-! ### Registers and conditions -/

/-- The text is at its end or goes on with a blank or a comma. -/
def Gap (rest : List Char) : Prop := ∀ c, rest.head? = some c → Ctype.isSpace c = true ∨ c = ','

theorem gap_char {c : Char} (h : Ctype.isSpace c = true ∨ c = ',') :
    Table.isNameLetter c = false ∧ ¬ Table.Spec.Ident c := by
  rcases h with h | rfl
  · exact Ctype.ascii (p := fun c => Ctype.isSpace c = true → Table.isNameLetter c = false ∧ ¬ Table.Spec.Ident c)
      (by decide +kernel) c (space_ascii h) h
  · decide

theorem reg_name (o : Opts) (n : Nat) {rest : List Char} (hr : Gap rest) :
    parseRegName (outReg o n ++ rest) = some (n % 4, rest) ∧
    ∃ s, outReg o n ++ rest = letter o.upper 'R' :: s := by
  have hn : n % 4 < 4 := Nat.mod_lt _ (by decide)
  have num : Table.parseRegNumber (fmtDec o.upper (n % 4) ++ rest) = some (n % 4, rest) := by
    have h1 : ∀ n < 4, ∀ up, Table.Spec.Canonical (fmtDec up n) ∧
        Table.Spec.decimal (fmtDec up n) = n := by decide +kernel
    obtain ⟨c1, c2⟩ := h1 _ hn o.upper
    have hnum := Libasm.Table.Props.C41_accepts (fmtDec o.upper (n % 4)) rest c1 (by rw [c2]; omega)
      (fun c hc => (gap_char (hr c hc)).2)
    rw [c2] at hnum
    exact hnum
  have e : outReg o n ++ rest = letter o.upper 'R' :: (fmtDec o.upper (n % 4) ++ rest) := rfl
  refine ⟨?_, _, e⟩
  rw [e]
  have hx : ∀ up s, iexpect 'R' (letter up 'R' :: s) = some s := by
    intro up s
    cases up <;> rfl
  unfold parseRegName
  rw [hx]
  dsimp only
  rw [num]
  dsimp only
  rw [if_pos hn]

theorem reg_head (up : Bool) (s : Scan) : skipSpaces (letter up 'R' :: s) = letter up 'R' :: s ∧
    endOfLine (letter up 'R' :: s) = false := by
  cases up <;> exact ⟨rfl, rfl⟩

/-- The mode of a register. -/
def regMode (n : Nat) : Mode := if n = 0 then .REG0 else .R123
/-- The mode of a condition. -/
def ccMode (n : Nat) : Mode := if n = 3 then .CCVN else .C012

theorem reg_reads (P : Plugins Value) (o : Opts) (n : Nat) {rest : List Char} (hr : Gap rest) :
    parseOperand P (outReg o n ++ rest) =
      .ok (.ok ({ mode := regMode (n % 4), reg := some (n % 4) }, rest)) := by
  obtain ⟨h1, s, h2⟩ := reg_name o n hr
  rw [h2] at h1 ⊢
  obtain ⟨k1, k2⟩ := reg_head o.upper s
  unfold parseOperand
  rw [k1]
  dsimp only
  rw [k2, h1]
  rfl

theorem cc_reads (P : Plugins Value) (o : Opts) (n : Nat) {rest : List Char} (hr : Gap rest) :
    parseOperand P (outCc o n ++ rest) =
      .ok (.ok ({ mode := ccMode (n % 4), cc := some (n % 4) }, rest)) := by
  have h0 : ∀ (up : Bool), ∀ n < 4, (regText ccs n).map (letter up) ≠ [] ∧
      (∀ c ∈ (regText ccs n).map (letter up), Table.isNameLetter c = true) ∧
      (ccs.find? fun e => decide (Table.Spec.Same e.1 ((regText ccs n).map (letter up)))).map (·.2) = some n := by
    decide +kernel
  obtain ⟨g1, g2, g3⟩ := h0 o.upper (n % 4) (Nat.mod_lt _ (by decide))
  have h1 : searchText ccs (outCc o n ++ rest) = .ok (some (n % 4, rest)) := by
    show searchText ccs ((regText ccs (n % 4)).map (letter o.upper) ++ rest) = _
    obtain ⟨t1, t2⟩ := takeWhile_sep (rest := rest) g2 (fun c hc => (gap_char (hr c hc)).1)
    rw [searchText_eq ccsOk, t1, t2, if_neg g1]
    cases hx : ccs.find? fun e => decide (Table.Spec.Same e.1 ((regText ccs (n % 4)).map (letter o.upper))) with
    | none => rw [hx] at g3; cases g3
    | some e =>
      rw [hx] at g3
      injection g3 with g3
      simp [g3]
  have h2 : ∀ (up : Bool), ∀ n < 4, ∀ s, skipSpaces ((regText ccs n).map (letter up) ++ s) =
      (regText ccs n).map (letter up) ++ s ∧ endOfLine ((regText ccs n).map (letter up) ++ s) = false ∧
      parseRegName ((regText ccs n).map (letter up) ++ s) = none := by
    intro up n hn s
    rcases (show n = 0 ∨ n = 1 ∨ n = 2 ∨ n = 3 by omega) with rfl | rfl | rfl | rfl <;> cases up <;>
      exact ⟨rfl, rfl, rfl⟩
  obtain ⟨k1, k2, k3⟩ := h2 o.upper (n % 4) (Nat.mod_lt _ (by decide)) rest
  unfold parseOperand
  rw [show skipSpaces (outCc o n ++ rest) = outCc o n ++ rest from k1]
  dsimp only
  rw [show endOfLine (outCc o n ++ rest) = false from k2, show parseRegName (outCc o n ++ rest) = none from k3]
  dsimp only
  rw [h1]
  rfl

/-! ### Values -/

/-- How numbers and the location start: no register starts so, and nothing else. -/
theorem heads {c : Char} (hc : c ∈ '$' :: firsts .surroundH) (s : Scan) :
    skipSpaces (c :: s) = c :: s ∧ endOfLine (c :: s) = false ∧ expect '*' (c :: s) = none ∧
    expect ',' (c :: s) = none ∧ parseRegName (c :: s) = none := by
  simp only [firsts, leads, List.map, List.headD, List.mem_append, List.mem_cons, List.not_mem_nil,
    or_false] at hc
  rcases hc with h | (h | h | h | h | h | h | h | h | h | h) | h | h <;> subst h <;>
    exact ⟨rfl, rfl, rfl, rfl, rfl⟩

/-- The text is read as the value, before the end or a comma. -/
structure Num (E : Env) (addr : Nat) (t : List Char) (w : Nat) : Prop where
  head : ∃ c s, t = c :: s ∧ c ∈ '$' :: firsts .surroundH
  value : ∀ rest, AfterOp rest → parseInteger (plug E addr) (t ++ rest) .OK = .ok (⟨w, .unsigned⟩, .OK, rest)
  cc : ∀ rest, searchText ccs (t ++ rest) = .ok none

theorem num_of {t : List Char} {w : Nat} (h : NumText .surroundH .signetics t w) : Num E addr t w := by
  constructor
  · obtain ⟨c, s, h1, h2⟩ := lead_first h.lead
    exact ⟨c, s, h1, List.mem_cons_of_mem _ h2⟩
  · intro rest hr
    obtain ⟨s1, s2⟩ := after_stop (E := E) (loc := addr) hr
    exact eval_const (const_of lexOk h E '\x00' addr) s1 s2
  · intro rest
    exact reg_none ccsOk ccsNo (h.lead.append rest)

theorem dollar_cc (s : Scan) : searchText ccs ('$' :: s) = .ok none :=
  reg_none_head ccsOk (by intro d hd; injection hd with hd; exact hd ▸ (by decide))
theorem star_cc (s : Scan) : searchText ccs ('*' :: s) = .ok none :=
  reg_none_head ccsOk (by intro d hd; injection hd with hd; exact hd ▸ (by decide))

/-- A target that is printed as it is. -/
theorem abs_text {o : Opts} (ho : Readable o) {w : Nat} (hw : w < 2 ^ 15) (hrel : o.relative = false) :
    Num E addr (outRelAddr .surroundH o 15 w addr 7) w := by
  have : outRelAddr .surroundH o 15 w addr 7 = outAbsAddr .surroundH o 15 w := by
    unfold outRelAddr
    rw [if_pos (by rw [hrel]; rfl)]
  rw [this]
  exact num_of (outAbsAddr_num (pairs ho) w 15 hw (by decide) (by decide))

theorem rel_text {o : Opts} (ho : Readable o) (hsym : o.relative = true → o.curSym = '$') {w : Nat}
    (ha : addr < 2 ^ 15) (hw : w < 2 ^ 15)
    (hd : ((w : Int) - addr).natAbs < 2 ^ 7) :
    Num E addr (outRelAddr .surroundH o 15 w addr 7) w := by
  have hlet : ∀ up, letter up '$' = '$' := by decide
  have hsym' : o.relative = true → Const (plug E addr) [letter o.upper o.curSym] ⟨addr, .unsigned⟩ := by
    intro hx
    rw [hsym hx, hlet]
    exact const_location E (Nat.lt_of_lt_of_le ha (by decide))
  have key := fun rest (hr : AfterOp rest) => rel_reads lexOk (pairs ho) (lex_ops E addr)
    (show ∀ c ∈ firsts .surroundH, c ≠ '\x00' by decide) hsym' (width := 15)
    (by decide) (by decide) ha hw (bits := 7) (by decide) (by decide) hd (after_stop (E := E) (loc := addr) hr).1 (after_stop hr).2
  refine ⟨?_, fun rest hr => (key rest hr).1, ?_⟩
  · obtain ⟨_, c, s, hcs, hc⟩ := key [] (Or.inl rfl)
    refine ⟨c, s, hcs, ?_⟩
    rcases hc with hc | ⟨h1, h2⟩
    · exact List.mem_cons_of_mem _ hc
    · rw [h2, hsym h1, hlet]
      exact List.mem_cons_self ..
  · intro rest
    rcases outRelAddr_text (pairs ho) 15 w addr 7 hw (by decide) (by decide) ha (by decide) (by decide) hd
      with ⟨_, h⟩ | ⟨h0, _, h⟩ | ⟨h0, t, _, h⟩
    · exact reg_none ccsOk ccsNo (h.lead.append rest)
    · rw [h, hsym h0, hlet]
      exact dollar_cc _
    · rw [h, hsym h0, hlet]
      exact dollar_cc _

/-- The asterisk of indirect addressing. -/
def star (i : Bool) : List Char := if i then ['*'] else []

/-- A value with what comes after it, up to where the operand is taken apart. -/
theorem value_reads (i : Bool) {t rest : List Char} {w : Nat} (h : Num E addr t w) (hr : AfterOp rest) :
    parseOperand (plug E addr) (star i ++ t ++ rest) =
      .ok (parseIndex (star i ++ t ++ rest) i ⟨w, .unsigned⟩ .OK rest) := by
  have e := h.value rest hr
  have hcc := h.cc rest
  obtain ⟨c, s, rfl, hc⟩ := h.head
  obtain ⟨h1, h2, h3, _, h5⟩ := heads hc (s ++ rest)
  cases i with
  | false =>
    rw [show star false ++ (c :: s) ++ rest = c :: (s ++ rest) from rfl]
    rw [List.cons_append] at e hcc
    unfold parseOperand
    rw [h1]
    dsimp only
    rw [h2, h5]
    dsimp only
    rw [hcc, Out.ok_bind]
    dsimp only
    rw [h3, show (none : Option Scan).getD (c :: (s ++ rest)) = c :: (s ++ rest) from rfl, h1, e, Out.ok_bind]
    rfl
  | true =>
    rw [show star true ++ (c :: s) ++ rest = '*' :: c :: (s ++ rest) from rfl]
    rw [List.cons_append] at e hcc
    unfold parseOperand
    rw [show skipSpaces ('*' :: c :: (s ++ rest)) = '*' :: c :: (s ++ rest) from rfl]
    dsimp only
    rw [show endOfLine ('*' :: c :: (s ++ rest)) = false from rfl,
      show parseRegName ('*' :: c :: (s ++ rest)) = none from rfl]
    dsimp only
    rw [star_cc, Out.ok_bind]
    dsimp only
    rw [show (expect '*' ('*' :: c :: (s ++ rest))).getD ('*' :: c :: (s ++ rest)) = c :: (s ++ rest) from rfl, h1, e, Out.ok_bind]
    rfl

theorem plain_reads (i : Bool) {t : List Char} {w : Nat} (h : Num E addr t w) :
    parseOperand (plug E addr) (star i ++ t) =
      .ok (.ok ({ mode := if i then .AB15 else .IMM8, indir := i, val := ⟨w, .unsigned⟩ }, [])) := by
  have := value_reads i h (Or.inl rfl)
  rw [List.append_nil] at this
  rw [this]
  rfl

theorem index_reads (i : Bool) {t : List Char} {w : Nat} (h : Num E addr t w) (o : Opts) (n : Nat) :
    parseOperand (plug E addr) (star i ++ t ++ ([',', ' '] ++ outReg o n)) =
      .ok (.ok ({ mode := if n % 4 = 3 then .IX15 else .IX13, reg := some (n % 4), indir := i, val := ⟨w, .unsigned⟩ }, [])) := by
  rw [value_reads i h (rest := [',', ' '] ++ outReg o n) (Or.inr ⟨_, rfl⟩)]
  generalize star i ++ t ++ ([',', ' '] ++ outReg o n) = start
  obtain ⟨h1, s, h2⟩ := reg_name o n (rest := []) (fun c hc => by cases hc)
  rw [List.append_nil] at h1 h2
  unfold parseIndex
  rw [show expect ',' ([',', ' '] ++ outReg o n) = some (' ' :: outReg o n) from rfl]
  dsimp only
  rw [show skipSpaces (' ' :: outReg o n) = skipSpaces (outReg o n) from rfl]
  rw [h2] at h1 ⊢
  rw [(reg_head _ _).1, h1]
  rfl

theorem auto_reads (i : Bool) {t : List Char} {w : Nat} (h : Num E addr t w) (o : Opts) (n : Nat) {c : Char}
    (hc : c = '+' ∨ c = '-') :
    parseOperand (plug E addr) (star i ++ t ++ ([',', ' '] ++ outReg o n ++ [',', ' ', c])) =
      .ok (.ok ({ mode := .IX13, reg := some (n % 4), indir := i, sign := some c, val := ⟨w, .unsigned⟩ }, [])) := by
  rw [value_reads i h (rest := [',', ' '] ++ outReg o n ++ [',', ' ', c]) (Or.inr ⟨_, rfl⟩)]
  generalize star i ++ t ++ ([',', ' '] ++ outReg o n ++ [',', ' ', c]) = start
  obtain ⟨h1, s, h2⟩ := reg_name o n (rest := [',', ' ', c]) (fun d hd => by
    injection hd with hd
    exact Or.inr hd.symm)
  unfold parseIndex
  rw [show expect ',' ([',', ' '] ++ outReg o n ++ [',', ' ', c]) = some (' ' :: (outReg o n ++ [',', ' ', c])) from rfl]
  dsimp only
  rw [show skipSpaces (' ' :: (outReg o n ++ [',', ' ', c])) = skipSpaces (outReg o n ++ [',', ' ', c]) from rfl]
  rw [h2] at h1 ⊢
  rw [(reg_head _ _).1, h1]
  rcases hc with rfl | rfl <;> rfl

end

/-! ### What becomes of the operands -/

theorem noSet (a : Asm) (h : a.err = .OK) (e : Err) (he : e = .OK) : a.setErrorIf e = a := by
  rw [he, Asm.noError]

theorem ofOption_some {α : Type} (x : α) : ofOption (some x) = Out.ok x := rfl

theorem noCheck (a : Asm) (e : Err) : a.check false e = a := rfl

theorem asm_eta {a : Asm} (h : a.err = .OK) : a = ⟨.OK, a.opc, a.ops⟩ := by
  cases a
  cases h
  rfl

theorem emit_imm {a : Asm} {addr w : Nat} {op : Operand} (ha : a.err = .OK) (he : op.err = .OK)
    (hv : op.val = ⟨w, .unsigned⟩) (hw : w < 256) :
    encodeOperand addr .IMM8 op a = .ok ⟨.OK, a.opc, a.ops ++ [w]⟩ := by
  unfold encodeOperand
  rw [noSet a ha _ he, hv]
  dsimp only
  rw [show (⟨w, .unsigned⟩ : Value).overflowUint8 = false from overflow_num (by omega) (by omega) (by omega),
    getUnsigned_num (by omega), noCheck, asm_eta ha]
  unfold Asm.emit8
  rw [Nat.mod_eq_of_lt hw]

theorem signed_disp (v : Nat) : signed7 v = Spec.disp v := rfl

/-- The target of a relative branch without going round the page. -/
theorem inpage_in {addr v : Nat} (h : Spec.InPage addr v) :
    ((inpage (inpage addr 2) (signed7 v) : Nat) : Int) = (inpage addr 2 : Nat) + signed7 v := by
  unfold Spec.InPage at h
  rw [signed_disp]
  generalize Spec.disp v = d at *
  unfold inpage page
  have h1 : (((addr : Int) + 2) % 8192).toNat = (addr + 2) % 8192 := by omega
  rw [h1]
  have h2 : (addr / 8192 * 8192 + (addr + 2) % 8192) / 8192 * 8192 = addr / 8192 * 8192 := by omega
  rw [h2]
  omega

theorem inpage_lt {addr : Nat} (d : Int) (ha : addr < 2 ^ 15) : inpage addr d < 2 ^ 15 := by
  unfold inpage page
  have h1 : (((addr : Int) + d) % 8192).toNat < 8192 := by omega
  omega

theorem inpage_page {addr : Nat} (d : Int) : inpage addr d / 2 ^ 13 = addr / 2 ^ 13 := by
  unfold inpage page
  have h1 : (((addr : Int) + d) % 8192).toNat < 8192 := by omega
  omega

theorem check_page {a : Asm} {addr w : Nat} (ha : a.err = .OK) (h1 : addr < 2 ^ 15) (h2 : w < 2 ^ 15)
    (h : w / 2 ^ 13 = addr / 2 ^ 13) : Asm.checkPage a w addr = .ok a := by
  obtain ⟨e, k1, k2, _⟩ := Config.C22_segment 15 w addr 13 false (by decide) (by omega) (by omega) (by decide)
  unfold Asm.checkPage
  rw [k1, k2.2 ⟨h2, (fun h => by cases h), h⟩]
  show Out.ok (a.setErrorIf .OK) = _
  rw [Asm.noError]

theorem disp_range (v : Nat) : -64 ≤ Spec.disp v ∧ Spec.disp v < 64 := by
  unfold Spec.disp
  split <;> omega

theorem disp_mod (v : Nat) : (Spec.disp v % 128).toNat = v % 128 := by
  unfold Spec.disp
  split <;> omega

theorem emit_rel {a : Asm} {addr v : Nat} {op : Operand} (ha : a.err = .OK) (he : op.err = .OK)
    (haddr : addr < 2 ^ 15) (hin : Spec.InPage addr v) (hb : v < 256)
    (hv : op.val = ⟨inpage (inpage addr 2) (signed7 v), .unsigned⟩) (hi : op.indir = decide (v / 128 % 2 = 1)) :
    encodeOperand addr .REL7 op a = .ok ⟨.OK, a.opc, a.ops ++ [v]⟩ := by
  have hb1 : inpage addr 2 < 2 ^ 15 := inpage_lt 2 haddr
  have ht := inpage_lt (addr := inpage addr 2) (signed7 v) hb1
  have hp : inpage (inpage addr 2) (signed7 v) / 2 ^ 13 = addr / 2 ^ 13 := by
    rw [inpage_page, inpage_page]
  have heq := inpage_in hin
  rw [signed_disp] at heq
  obtain ⟨d1, d2⟩ := disp_range v
  unfold encodeOperand
  rw [noSet a ha _ he]
  dsimp only
  unfold emitRelative
  dsimp only
  rw [if_neg (by rw [he]; exact fun h => h rfl), hv, getUnsigned_num (by omega), hi]
  rw [signed_disp] at *
  generalize inpage (inpage addr 2) (Spec.disp v) = w at *
  rw [check_page ha haddr ht hp, Out.ok_bind, ha]
  generalize inpage addr 2 = base at *
  have hW : Config.W = 4294967296 := rfl
  rw [branch_near (by decide) (by decide) (by rw [hW]; omega) ht (by simp; omega) (by simp; omega)]
  have hd : (w : Int) - base = Spec.disp v := by omega
  rw [hd]
  rw [ofOption_some, Out.ok_bind]
  dsimp only
  rw [Config.overflowDelta_eq (by decide) (by decide), decide_eq_false (by simp; omega), ofOption_some, Out.ok_bind]
  show Out.ok ((({ a with err := .OK } : Asm).check false .OPERAND_TOO_FAR).emit8
    ((Spec.disp v % 128).toNat + if decide (v / 128 % 2 = 1) = true then 128 else 0)) = _
  rw [disp_mod, noCheck]
  unfold Asm.emit8
  have : (v % 128 + if decide (v / 128 % 2 = 1) = true then 128 else 0) % 256 = v := by
    by_cases h : v / 128 % 2 = 1
    · rw [decide_eq_true h, if_pos rfl]; omega
    · rw [decide_eq_false h, if_neg (by decide)]; omega
  rw [this]

theorem emit_zero {a : Asm} {addr v : Nat} {op : Operand} (ha : a.err = .OK) (he : op.err = .OK)
    (hb : v < 256) (hv : op.val = ⟨(signed7 v % 8192).toNat, .unsigned⟩)
    (hi : op.indir = decide (v / 128 % 2 = 1)) :
    encodeOperand addr .ABS7 op a = .ok ⟨.OK, a.opc, a.ops ++ [v]⟩ := by
  obtain ⟨d1, d2⟩ := disp_range v
  have hm := disp_mod v
  have ht : (Spec.disp v % 8192).toNat < 8192 := by omega
  have hs : Config.signExtend (Spec.disp v % 8192).toNat 13 = some (Spec.disp v) := by
    rw [Config.signExtend_eq (by decide) (by decide)]
    congr 1
    show (if (Spec.disp v % 8192).toNat % 8192 < 4096 then (((Spec.disp v % 8192).toNat % 8192 : Nat) : Int) else
      (((Spec.disp v % 8192).toNat % 8192 : Nat) : Int) - (8192 : Nat)) = _
    split <;> omega
  unfold encodeOperand
  rw [noSet a ha _ he]
  dsimp only
  unfold emitZeroPage
  dsimp only
  rw [hv, getUnsigned_num (by rw [signed_disp]; omega), hi, signed_disp, hs]
  have hpg : (page ((Spec.disp v % 8192).toNat % 65536) != 0) = false := by
    have : page ((Spec.disp v % 8192).toNat % 65536) = 0 := by
      unfold page
      omega
    rw [this]
    rfl
  rw [hpg, noCheck]
  rw [ofOption_some, Out.ok_bind, Config.overflowDelta_eq (by decide) (by decide), decide_eq_false (by simp; omega), ofOption_some, Out.ok_bind]
  show Out.ok ((a.check false .OPERAND_TOO_FAR).emit8
    ((Spec.disp v % 8192).toNat % 128 + if decide (v / 128 % 2 = 1) = true then 128 else 0)) = _
  rw [noCheck]
  unfold Asm.emit8
  have : ((Spec.disp v % 8192).toNat % 128 + if decide (v / 128 % 2 = 1) = true then 128 else 0) % 256 = v := by
    by_cases h : v / 128 % 2 = 1
    · rw [decide_eq_true h, if_pos rfl]; omega
    · rw [decide_eq_false h, if_neg (by decide)]; omega
  rw [this, ha]

theorem or_bit {x k : Nat} (h : x < 2 ^ k) (y : Nat) : x ||| 2 ^ k * y = x + 2 ^ k * y := by
  rw [Nat.or_comm, ← Nat.two_pow_add_eq_or_of_lt h]
  omega

theorem or_8000 {x : Nat} (h : x < 0x8000) : x ||| 0x8000 = x + 0x8000 := or_bit (k := 15) h 1

theorem emit_abs {a : Asm} {addr opr : Nat} {m : Mode} {op : Operand} (ha : a.err = .OK) (he : op.err = .OK)
    (hm : m = .AB15 ∨ m = .IX15 ∧ op.reg = some 3)
    (hb : opr < 65536) (hv : op.val = ⟨opr % 32768, .unsigned⟩)
    (hi : op.indir = decide (opr / 32768 % 2 = 1)) :
    encodeOperand addr m op a =
      .ok ⟨.OK, if m = .IX15 then (a.opc ||| 3) % 256 else a.opc, a.ops ++ [opr / 256, opr % 256]⟩ := by
  have hx : (if decide (opr / 32768 % 2 = 1) = true then opr % 32768 ||| 0x8000 else opr % 32768) = opr := by
    by_cases h : opr / 32768 % 2 = 1
    · rw [decide_eq_true h, if_pos rfl, or_8000 (by omega)]; omega
    · rw [decide_eq_false h, if_neg (by decide)]; omega
  have key : ∀ m, m = .AB15 ∨ m = .IX15 → encodeOperand addr m op a = emitAbsolute addr m op (a.setErrorIf op.err) := by
    rintro m (rfl | rfl) <;> rfl
  rw [key m (hm.elim Or.inl (fun h => Or.inr h.1)), noSet a ha _ he]
  unfold emitAbsolute
  dsimp only
  rw [if_neg (show ¬ op.err ≠ .OK from fun h => h he), hv, getUnsigned_num (by omega), hi, hx,
    address_ok (by decide) (show opr % 32768 < 2 ^ 15 by omega), Asm.noError]
  have h16 : opr / 256 % 256 = opr / 256 := by omega
  rcases hm with rfl | ⟨rfl, hr⟩
  · rw [if_neg (by decide), if_neg (by decide)]
    unfold Asm.emit16be
    rw [ha, h16]
  · rw [if_pos rfl, if_pos rfl, hr]
    show Out.ok ((a.embed 3).emit16be opr) = _
    unfold Asm.emit16be Asm.embed
    dsimp only
    rw [ha, h16]

/-- The sign that goes with bits 13 and 14 of an indexed operand. -/
def signOf (idx : Nat) : Option Char := if idx = 1 then some '+' else if idx = 2 then some '-' else none

theorem emit_page {a : Asm} {addr opr : Nat} {op : Operand} (ha : a.err = .OK) (he : op.err = .OK)
    (haddr : addr < 2 ^ 15) (hb : opr < 65536) (hv : op.val = ⟨page addr + opr % 8192, .unsigned⟩)
    (hi : op.indir = decide (opr / 32768 % 2 = 1)) (h0 : opr / 8192 % 4 = 0) :
    encodeOperand addr .AB13 op a = .ok ⟨.OK, a.opc, a.ops ++ [opr / 256, opr % 256]⟩ := by
  have hp : page addr + opr % 8192 < 2 ^ 15 ∧ (page addr + opr % 8192) / 2 ^ 13 = addr / 2 ^ 13 ∧
      offset (page addr + opr % 8192) = opr % 8192 := by
    unfold page offset
    omega
  have hx : (if decide (opr / 32768 % 2 = 1) = true then opr % 8192 ||| 0x8000 else opr % 8192) = opr := by
    by_cases h : opr / 32768 % 2 = 1
    · rw [decide_eq_true h, if_pos rfl, or_8000 (by omega)]; omega
    · rw [decide_eq_false h, if_neg (by decide)]; omega
  unfold encodeOperand
  rw [noSet a ha _ he]
  dsimp only
  unfold emitIndexed
  dsimp only
  rw [if_neg (by rw [he]; exact fun h => h rfl), hv, getUnsigned_num (by omega),
    check_page ha haddr hp.1 hp.2.1, Out.ok_bind, hp.2.2, hi, hx, if_neg (by decide)]
  unfold Asm.emit16be
  rw [ha, show opr / 256 % 256 = opr / 256 by omega]

theorem emit_index {a : Asm} {addr opr n : Nat} {op : Operand} (ha : a.err = .OK) (he : op.err = .OK)
    (haddr : addr < 2 ^ 15) (hb : opr < 65536) (hv : op.val = ⟨page addr + opr % 8192, .unsigned⟩)
    (hi : op.indir = decide (opr / 32768 % 2 = 1)) (h0 : opr / 8192 % 4 ≠ 0)
    (hs : op.sign = signOf (opr / 8192 % 4)) (hr : op.reg = some n) :
    encodeOperand addr .IX13 op a = .ok ⟨.OK, (a.opc ||| n) % 256, a.ops ++ [opr / 256, opr % 256]⟩ := by
  have hp : page addr + opr % 8192 < 2 ^ 15 ∧ (page addr + opr % 8192) / 2 ^ 13 = addr / 2 ^ 13 ∧
      offset (page addr + opr % 8192) = opr % 8192 := by
    unfold page offset
    omega
  have hidx : (if signOf (opr / 8192 % 4) = some '+' then 0x2000 else
      if signOf (opr / 8192 % 4) = some '-' then 0x4000 else 0x6000) = 8192 * (opr / 8192 % 4) := by
    have h4 : opr / 8192 % 4 < 4 := Nat.mod_lt _ (by decide)
    generalize opr / 8192 % 4 = k at *
    rcases (show k = 1 ∨ k = 2 ∨ k = 3 by omega) with rfl | rfl | rfl <;> decide
  have hx : (if decide (opr / 32768 % 2 = 1) = true then opr % 8192 ||| 0x8000 else opr % 8192) |||
      8192 * (opr / 8192 % 4) = opr := by
    have h1 : opr % 8192 ||| 8192 * (opr / 8192 % 4) = opr % 8192 + 8192 * (opr / 8192 % 4) :=
      or_bit (k := 13) (by omega) _
    by_cases h : opr / 32768 % 2 = 1
    · rw [decide_eq_true h, if_pos rfl, Nat.or_assoc, Nat.or_comm 0x8000, ← Nat.or_assoc, h1, or_8000 (by omega)]; omega
    · rw [decide_eq_false h, if_neg (by decide), h1]; omega
  unfold encodeOperand
  rw [noSet a ha _ he]
  dsimp only
  unfold emitIndexed
  dsimp only
  rw [if_neg (by rw [he]; exact fun h => h rfl), hv, getUnsigned_num (by omega),
    check_page ha haddr hp.1 hp.2.1, Out.ok_bind, hp.2.2, hi, hs, hidx, hx, if_pos rfl, hr]
  unfold Asm.emit16be Asm.embed encodeReg
  dsimp only [Option.getD]
  rw [ha, show opr / 256 % 256 = opr / 256 by omega]

theorem emit_reg {a : Asm} {addr n : Nat} {m : Mode} {op : Operand} (ha : a.err = .OK) (he : op.err = .OK)
    (hm : m = .REGN ∨ m = .REG0 ∨ m = .R123) (hr : op.reg = some n) :
    encodeOperand addr m op a = .ok ⟨.OK, (a.opc ||| n) % 256, a.ops⟩ := by
  have key : encodeOperand addr m op a = .ok ((a.setErrorIf op.err).embed (encodeReg op.reg)) := by
    rcases hm with rfl | rfl | rfl <;> rfl
  rw [key, noSet a ha _ he, hr]
  unfold Asm.embed
  rw [ha]
  rfl

theorem emit_cc {a : Asm} {addr n : Nat} {m : Mode} {op : Operand} (ha : a.err = .OK) (he : op.err = .OK)
    (hm : m = .CCVN ∨ m = .C012) (hr : op.cc = some n) :
    encodeOperand addr m op a = .ok ⟨.OK, (a.opc ||| n) % 256, a.ops⟩ := by
  have key : encodeOperand addr m op a = .ok ((a.setErrorIf op.err).embed (encodeReg op.cc)) := by
    rcases hm with rfl | rfl <;> rfl
  rw [key, noSet a ha _ he, hr]
  unfold Asm.embed
  rw [ha]
  rfl

theorem emit_none (addr : Nat) (a : Asm) : encodeOperand addr .NONE {} a = .ok a := by
  unfold encodeOperand
  rw [Asm.noError]

end Libasm.Cpu.Scn2650
