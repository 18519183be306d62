import Verif.Cpu.Tlcs90.Model
import Verif.Cpu.Z80.Lemmas
/-
What the TLCS-90 assembler makes of the operands its disassembler prints.
-/
namespace Libasm.Cpu.Tlcs90
open Scan Number Number.Spec Eval Ctype
open Z80 (look search_word name_head meant_offset uint32_small)

/-- The parsers at an address. -/
abbrev plug (E : Env) (delim : Char) (addr : Nat) : Plugins Value := lexer.plugins E delim addr

theorem regsOk : RegsOk regs := by decide
theorem ccsOk : RegsOk ccs := by decide
theorem regsNo : NoNumbers .intel regs := by decide
theorem ccsNo : NoNumbers .intel ccs := by decide

/-! ### What is read back -/

/-- What is read of a register. -/
def regBack (r : Reg) : Operand :=
  if r = .C then { mode := .R .C, reg := some .C, cc := 7 } else { mode := registerMode r, reg := some r }

/-- What is read of an operand that is printed. -/
def opBack (addr : Nat) (m : Mode) (d : DOp) : Operand :=
  match m with
  | .IMM8 | .IMM16 | .BIT => { mode := .IMM16, val := ⟨d.val, .unsigned⟩ }
  | .DIR => { mode := .DIR, val := ⟨d.val ||| 0xff00, .unsigned⟩ }
  | .EXT => { mode := if 0xff00 ≤ d.val then .DIR else .EXT, val := ⟨d.val, .unsigned⟩ }
  | .REL8 => { mode := .IMM16, val := ⟨relTarget addr (int8 d.val), .unsigned⟩ }
  | .REL16 => { mode := .IMM16, val := ⟨relTarget addr (int16 d.val), .unsigned⟩ }
  | .IND => { mode := .IND, reg := d.reg }
  | .IDX => { mode := .IDX, reg := d.reg, val := Value.setS (int8 d.val) }
  | .IXPD => { mode := .IXPD, reg := d.reg, val := Value.setS (int8 d.val) }
  | .BASE => { mode := .BASE, reg := some .HL }
  | .HLPA => { mode := .HLPA, reg := some .HL }
  | .CC => if d.cc = 7 then { mode := .R .C, reg := some .C, cc := 7 } else { mode := .CC, cc := d.cc }
  | .STACK | .REG8 | .REG16 | .REGIX => (d.reg.map regBack).getD {}
  | .R r => regBack r
  | _ => {}

/-- The values a printed operand can have. -/
def Good (addr : Nat) (m : Mode) (d : DOp) : Prop :=
  match m with
  | .IMM8 | .DIR => d.val < 256
  | .IMM16 | .EXT => d.val < 65536
  | .BIT => d.val < 8
  | .REL8 => d.val < 256 ∧ (relTarget addr (int8 d.val) : Int) = ((addr + 2 : Nat) : Int) + int8 d.val ∧
      relTarget addr (int8 d.val) < 65536
  | .REL16 => d.val < 65536 ∧ (relTarget addr (int16 d.val) : Int) = ((addr + 2 : Nat) : Int) + int16 d.val ∧
      relTarget addr (int16 d.val) < 65536
  | .IND => ∃ r, d.reg = some r ∧ isReg16 r = true
  | .IDX | .IXPD => d.val < 256 ∧ ∃ r, d.reg = some r ∧ isRegIndex r = true
  | .BASE | .HLPA => True
  | .CC => d.cc < 16 ∧ d.cc ≠ 8
  | .STACK | .REG8 | .REG16 | .REGIX => ∃ r, d.reg = some r
  | .R r => [Reg.BC, .DE, .HL, .SP, .AF, .AFP, .A].contains r = true
  | _ => False

/-! ### Words -/

variable {E : Env} {addr : Nat}

theorem outText_map (o : Opts) (t : List Char) : outText o t = t.map (letter o.upper) := rfl

/-- All registers. -/
def allRegs : List Reg := [.BC, .DE, .HL, .IX, .IY, .SP, .AF, .AFP, .B, .C, .D, .E, .H, .L, .A]

theorem reg_word (o : Opts) (r : Reg) :
    (outReg o r ≠ [] ∧ ∀ c ∈ outReg o r, Table.isNameLetter c = true) ∧ look regs (outReg o r) = some r ∧
    look ccs (outReg o r) = if r = .C then some 7 else none := by
  have : ∀ up : Bool, ∀ r ∈ allRegs, (((regText regs r).map (letter up)) ≠ [] ∧
      ∀ c ∈ (regText regs r).map (letter up), Table.isNameLetter c = true) ∧
      look regs ((regText regs r).map (letter up)) = some r ∧
      look ccs ((regText regs r).map (letter up)) = if r = .C then some 7 else none := by decide +kernel
  exact this o.upper r (by cases r <;> decide)

theorem cc_word (o : Opts) {cc : Nat} (h : cc < 16) (h8 : cc ≠ 8) :
    (outText o (regText ccs cc) ≠ [] ∧ ∀ c ∈ outText o (regText ccs cc), Table.isNameLetter c = true) ∧
    look ccs (outText o (regText ccs cc)) = some cc := by
  have : ∀ up : Bool, ∀ cc < 16, cc ≠ 8 → (((regText ccs cc).map (letter up)) ≠ [] ∧
      ∀ c ∈ (regText ccs cc).map (letter up), Table.isNameLetter c = true) ∧
      look ccs ((regText ccs cc).map (letter up)) = some cc := by decide +kernel
  exact this o.upper cc h h8

theorem after_skip {rest : List Char} (h : AfterOp rest) :
    skipSpaces rest = rest ∧ deref rest ≠ '+' ∧ deref rest ≠ '-' := by
  rcases h with rfl | ⟨s, rfl⟩
  · exact ⟨rfl, by decide, by decide⟩
  · exact ⟨rfl, show ',' ≠ '+' by decide, show ',' ≠ '-' by decide⟩

theorem name_open {t rest : List Char} (ht : t ≠ [] ∧ ∀ c ∈ t, Table.isNameLetter c = true) :
    expect '(' (t ++ rest) = none := by
  obtain ⟨c, s, rfl⟩ := List.exists_cons_of_ne_nil ht.1
  have hc := ht.2 c (List.mem_cons_self ..)
  refine expect_none ?_
  intro d hd
  injection hd with hd
  subst hd
  intro h
  subst h
  exact absurd hc (by decide)

/-- What starts with a name that is no condition. -/
theorem name_reads {t rest : List Char} (ht : t ≠ [] ∧ ∀ c ∈ t, Table.isNameLetter c = true) (hs : Sep rest)
    {r : Reg} (hr : look regs t = some r) (hc : look ccs t = none) :
    parseOperand (fun delim => plug E delim addr) (t ++ rest) =
      parseAfter (fun delim => plug E delim addr) false r (t ++ rest) (skipSpaces rest) := by
  obtain ⟨n1, n2⟩ := name_head (rest := rest) ht
  unfold parseOperand
  rw [n1]
  dsimp only
  rw [show (plug E '\x00' addr).endOfLine (t ++ rest) = false from n2, if_neg (by decide),
    search_word ccsOk ht hs, hc, Out.ok_bind]
  dsimp only [Option.map]
  rw [name_open ht]
  dsimp only [Option.isSome, Option.getD]
  rw [n1, search_word regsOk ht hs, hr, Out.ok_bind]
  rfl

theorem cc_reads {t rest : List Char} (ht : t ≠ [] ∧ ∀ c ∈ t, Table.isNameLetter c = true) (hs : Sep rest)
    {cc : Nat} (hc : look ccs t = some cc) :
    parseOperand (fun delim => plug E delim addr) (t ++ rest) =
      .ok (.ok (if cc = 7 then { mode := .R .C, reg := some .C, cc := 7 } else { mode := .CC, cc := cc }, rest)) := by
  obtain ⟨n1, n2⟩ := name_head (rest := rest) ht
  unfold parseOperand
  rw [n1]
  dsimp only
  rw [show (plug E '\x00' addr).endOfLine (t ++ rest) = false from n2, if_neg (by decide),
    search_word ccsOk ht hs, hc, Out.ok_bind]
  dsimp only [Option.map]
  by_cases h : cc = 7
  · subst h; rfl
  · rw [if_neg h, if_neg h]

theorem reg_reads (o : Opts) (r : Reg) {rest : List Char} (h : AfterOp rest) :
    parseOperand (fun delim => plug E delim addr) (outReg o r ++ rest) = .ok (.ok (regBack r, rest)) := by
  obtain ⟨h1, h2, h3⟩ := reg_word o r
  have hs : Sep rest := (AfterOp.stop (sym := symbol) (E := E) (delim := '\x00') (loc := addr) h).1
  obtain ⟨a1, a2, a3⟩ := after_skip h
  unfold regBack
  by_cases hc : r = .C
  · rw [if_pos hc] at h3 ⊢
    rw [cc_reads h1 hs h3]
    rfl
  · rw [if_neg hc] at h3 ⊢
    rw [name_reads h1 hs h2 h3, a1]
    unfold parseAfter
    rw [if_neg (by decide)]
    dsimp only
    rw [if_neg (by rintro (h | h); exact a2 h; exact a3 h)]

theorem open_word {α : Type} {table : List (List Char × α)} (h : RegsOk table) (s : List Char) :
    searchText table ('(' :: s) = .ok none :=
  reg_none_head h (by intro d hd; injection hd with hd; subst hd; decide)

/-- What starts with a parenthesis. -/
theorem open_reads (s : List Char) :
    parseOperand (fun delim => plug E delim addr) ('(' :: s) =
      (searchText regs (skipSpaces s)).bind fun
      | none => parseNumber (fun delim => plug E delim addr) true ('(' :: s) (skipSpaces s)
      | some (reg, q) => parseAfter (fun delim => plug E delim addr) true reg ('(' :: s) (skipSpaces q) := by
  unfold parseOperand
  rw [show skipSpaces ('(' :: s) = '(' :: s from rfl]
  dsimp only
  rw [show (plug E '\x00' addr).endOfLine ('(' :: s) = false from rfl, if_neg (by decide),
    open_word ccsOk, Out.ok_bind]
  rfl

/-- What starts with a parenthesis and a register. -/
theorem open_reg (o : Opts) (r : Reg) {s : List Char} (hs : Sep s) :
    parseOperand (fun delim => plug E delim addr) ('(' :: (outReg o r ++ s)) =
      parseAfter (fun delim => plug E delim addr) true r ('(' :: (outReg o r ++ s)) (skipSpaces s) := by
  obtain ⟨h1, h2, h3⟩ := reg_word o r
  rw [open_reads, (name_head (rest := s) h1).1, search_word regsOk h1 hs, h2]
  rfl

theorem ind_reads (o : Opts) {r : Reg} (h : isReg16 r = true) (rest : List Char) :
    parseOperand (fun delim => plug E delim addr) ('(' :: (outReg o r ++ ')' :: rest)) =
      .ok (.ok ({ mode := .IND, reg := some r }, rest)) := by
  rw [open_reg o r (Sep.cons (by decide) _)]
  unfold parseAfter
  rw [show skipSpaces (')' :: rest) = ')' :: rest from rfl, if_pos rfl,
    show expect ')' (')' :: rest) = some rest from rfl]
  dsimp only
  rw [if_pos h]

/-! ### Offsets -/

theorem plus (delim : Char) (rest : List Char) (st : List Value) (r : Radix) :
    (plug E delim addr).ops.readPrefix ('+' :: rest) st r = .ok (some intelUnaryPlus, rest, st, r) := rfl

theorem offset_reads {o : Opts} {b : Nat} (hb : b < 256) {delim : Char} (hd : delim ≠ '-' ∧ delim ≠ '+')
    {rest : List Char} (hs : Sep rest) (hst : Stop (plug E delim addr) rest) :
    parseInteger (plug E delim addr) (outOffset o b ++ rest) .OK = .ok (Value.setS (int8 b), .OK, rest) := by
  have ht := outHex_text (intel_pairs o) (Config.uint32 (int8 b)) (-8) true (uint32_small _) (by decide) (by decide)
  rw [meant_offset hb] at ht
  unfold outOffset
  by_cases h : b < 128
  · rw [if_pos h]
    obtain ⟨u, h1, h2⟩ := ht.ex
    have hi : ¬ int8 b < 0 := by unfold int8; rw [if_pos h]; omega
    rw [if_neg hi] at h1
    rw [h1]
    have := eval_pos (rest := rest) (P := plug E delim addr) (o := intelUnaryPlus)
      ⟨rfl, rfl, rfl, fun rest st r => plus delim rest st r⟩ (intel_ops symbol E hd addr)
      (const_of (intel_lexOk symbol) h2 E delim addr) hs hst
    rw [show (⟨(int8 b).natAbs, .unsigned⟩ : Value) = Value.setS (int8 b) by
      unfold Value.setS
      rw [if_pos (by omega), show (int8 b).natAbs = (int8 b).toNat by omega]] at this
    exact this
  · rw [if_neg h, List.nil_append]
    exact eval_signed (intel_lexOk symbol) (intel_ops symbol E hd addr) ht hs hst

theorem offset_sign {o : Opts} {b : Nat} (hb : b < 256) :
    ∃ c s, outOffset o b = c :: s ∧ (c = '+' ∨ c = '-') := by
  unfold outOffset
  by_cases h : b < 128
  · rw [if_pos h]
    exact ⟨'+', _, rfl, Or.inl rfl⟩
  · have ht := outHex_text (intel_pairs o) (Config.uint32 (int8 b)) (-8) true (uint32_small _) (by decide) (by decide)
    rw [meant_offset hb] at ht
    obtain ⟨u, h1, h2⟩ := ht.ex
    have hi : int8 b < 0 := by unfold int8; rw [if_neg h]; omega
    rw [if_pos hi] at h1
    rw [if_neg h, h1]
    exact ⟨'-', _, rfl, Or.inr rfl⟩

/-- From the register on, an offset. -/
theorem after_offset {o : Opts} {b : Nat} (hb : b < 256) {r : Reg} (hr : isRegIndex r = true) (paren : Bool)
    (start s : Scan) :
    parseAfter (fun delim => plug E delim addr) paren r start (skipSpaces (outOffset o b ++ s)) =
      parseOffset (fun delim => plug E delim addr) paren r start (outOffset o b ++ s) := by
  obtain ⟨c, t, hc, hcs⟩ := offset_sign (o := o) hb
  have hs : skipSpaces (outOffset o b ++ s) = outOffset o b ++ s := by
    rw [hc]
    exact spaces_sign (by rcases hcs with h | h <;> simp [h]) _
  have hx : expect ')' (outOffset o b ++ s) = none := by
    rw [hc]
    exact expect_none (by intro d hd; injection hd with hd; subst hd; rcases hcs with rfl | rfl <;> decide)
  have hd : deref (outOffset o b ++ s) = c := by rw [hc]; rfl
  have hne : r ≠ .HL := by
    intro h
    subst h
    exact absurd hr (by decide)
  rw [hs]
  unfold parseAfter
  rw [hx, show (if paren = true then (none : Option Scan) else none) = none by split <;> rfl]
  dsimp only
  rw [hd, if_pos hcs, if_neg (fun h => hne h.1)]

theorem offset_sep {o : Opts} {b : Nat} (hb : b < 256) (s : List Char) : Sep (outOffset o b ++ s) := by
  obtain ⟨c, t, hc, hcs⟩ := offset_sign (o := o) hb
  rw [hc]
  exact Sep.cons (by rcases hcs with rfl | rfl <;> decide) _

theorem idx_reads (o : Opts) {b : Nat} (hb : b < 256) {r : Reg} (hr : isRegIndex r = true) (rest : List Char) :
    parseOperand (fun delim => plug E delim addr) ('(' :: (outReg o r ++ (outOffset o b ++ ')' :: rest))) =
      .ok (.ok ({ mode := .IDX, reg := some r, val := Value.setS (int8 b) }, rest)) := by
  rw [open_reg o r (offset_sep hb _), after_offset hb hr]
  unfold parseOffset
  rw [if_pos hr, if_pos rfl, offset_reads hb (by decide) (Sep.cons (by decide) _)
    (intel_stop_delim symbol E addr rest (by decide)), Out.ok_bind]
  rfl

theorem ixpd_reads (o : Opts) {b : Nat} (hb : b < 256) {r : Reg} (hr : isRegIndex r = true) {rest : List Char}
    (h : AfterOp rest) :
    parseOperand (fun delim => plug E delim addr) (outReg o r ++ (outOffset o b ++ rest)) =
      .ok (.ok ({ mode := .IXPD, reg := some r, val := Value.setS (int8 b) }, rest)) := by
  obtain ⟨h1, h2, h3⟩ := reg_word o r
  have hs := AfterOp.stop (sym := symbol) (E := E) (delim := '\x00') (loc := addr) h
  have hne : r ≠ .C := by
    intro h
    subst h
    exact absurd hr (by decide)
  rw [if_neg hne] at h3
  rw [name_reads h1 (offset_sep hb _) h2 h3, after_offset hb hr]
  unfold parseOffset
  rw [if_pos hr, if_neg (by decide), offset_reads hb (by decide) hs.1 hs.2, Out.ok_bind]
  rfl

/-- From HL on, a plus sign and A. -/
theorem after_base (o : Opts) (paren : Bool) (start : Scan) {s : List Char} (hs : Sep s) :
    parseAfter (fun delim => plug E delim addr) paren .HL start (skipSpaces ('+' :: (outReg o .A ++ s))) =
      if paren then
        match expect ')' (skipSpaces s) with
        | none => .ok (.error (.MISSING_CLOSING_PAREN, start))
        | some q => .ok (.ok ({ mode := .BASE, reg := some .HL }, q))
      else .ok (.ok ({ mode := .HLPA, reg := some .HL }, s)) := by
  obtain ⟨h1, h2, h3⟩ := reg_word o .A
  rw [show skipSpaces ('+' :: (outReg o .A ++ s)) = '+' :: (outReg o .A ++ s) from spaces_sign (Or.inr rfl) _]
  unfold parseAfter
  rw [show expect ')' ('+' :: (outReg o .A ++ s)) = none from rfl,
    show (if paren = true then (none : Option Scan) else none) = none by split <;> rfl]
  dsimp only
  rw [show deref ('+' :: (outReg o .A ++ s)) = '+' from rfl, if_pos (Or.inl rfl), if_pos ⟨rfl, rfl⟩,
    show List.drop 1 ('+' :: (outReg o .A ++ s)) = outReg o .A ++ s from rfl, (name_head (rest := s) h1).1,
    search_word regsOk h1 hs, h2, Out.ok_bind]
  rfl

theorem base_reads (o : Opts) (rest : List Char) :
    parseOperand (fun delim => plug E delim addr) ('(' :: (outReg o .HL ++ '+' :: (outReg o .A ++ ')' :: rest))) =
      .ok (.ok ({ mode := .BASE, reg := some .HL }, rest)) := by
  rw [open_reg o .HL (Sep.cons (by decide) _), after_base o true _ (Sep.cons (by decide) _)]
  rfl

theorem hlpa_reads (o : Opts) {rest : List Char} (h : AfterOp rest) :
    parseOperand (fun delim => plug E delim addr) (outReg o .HL ++ '+' :: (outReg o .A ++ rest)) =
      .ok (.ok ({ mode := .HLPA, reg := some .HL }, rest)) := by
  obtain ⟨h1, h2, h3⟩ := reg_word o .HL
  have hs := (AfterOp.stop (sym := symbol) (E := E) (delim := '\x00') (loc := addr) h).1
  rw [name_reads h1 (Sep.cons (by decide) _) h2 h3, after_base o false _ hs]
  rfl

/-! ### Numbers -/

/-- What the evaluator takes. -/
theorem plain_reads {text rest : List Char} {v : Value} {c : Char} {s : List Char} (hc : text = c :: s)
    (hf : c ∈ '$' :: firsts .intel) (hreg : searchText regs (text ++ rest) = .ok none)
    (hcc : searchText ccs (text ++ rest) = .ok none)
    (he : parseInteger (plug E '\x00' addr) (text ++ rest) .OK = .ok (v, .OK, rest)) :
    parseOperand (fun delim => plug E delim addr) (text ++ rest) =
      .ok (.ok ({ mode := .IMM16, val := v }, rest)) := by
  have h1 : ∀ c ∈ '$' :: firsts .intel, Ctype.isSpace c = false ∧ (c == '\x00' || c == ';') = false ∧ c ≠ '(' := by
    decide
  obtain ⟨h1, h2, h3⟩ := h1 c hf
  have k1 : skipSpaces (text ++ rest) = text ++ rest := by
    rw [hc]
    unfold skipSpaces trimStart
    rw [List.cons_append, List.dropWhile_cons, h1]
    rfl
  have k2 : (plug E '\x00' addr).endOfLine (text ++ rest) = false := by rw [hc]; exact h2
  have k3 : expect '(' (text ++ rest) = none := by
    rw [hc]
    exact expect_none (by intro d hd; injection hd with hd; exact hd ▸ h3)
  unfold parseOperand
  rw [k1]
  dsimp only
  rw [k2, if_neg (by decide), hcc, Out.ok_bind]
  dsimp only
  rw [k3]
  dsimp only [Option.isSome, Option.getD]
  rw [k1, hreg, Out.ok_bind]
  dsimp only
  unfold parseNumber
  rw [if_neg (by decide), he, Out.ok_bind]
  rfl

theorem num_reads {t rest : List Char} {v : Nat} (ht : NumText .intel .intel t v) (hr : AfterOp rest) :
    parseOperand (fun delim => plug E delim addr) (t ++ rest) =
      .ok (.ok ({ mode := .IMM16, val := ⟨v, .unsigned⟩ }, rest)) := by
  obtain ⟨h1, h2⟩ := AfterOp.stop (sym := symbol) (E := E) (delim := '\x00') (loc := addr) hr
  have he := eval_const (const_of (intel_lexOk symbol) ht E '\x00' addr) h1 h2
  obtain ⟨c, s, hc, hf⟩ := lead_first ht.lead
  have hl := ht.lead.append rest
  exact plain_reads hc (List.mem_cons_of_mem _ hf) (reg_none regsOk regsNo hl) (reg_none ccsOk ccsNo hl) he

theorem rel_operand {o : Opts} (hsym : o.relative = true → o.curSym = '$') {tgt bits : Nat}
    (ha : addr < 65536) (ht : tgt < 65536) (hb : bits ≤ 32) (hb0 : 1 ≤ bits)
    (hd : ((tgt : Int) - addr).natAbs < 2 ^ bits) {rest : List Char} (hr : AfterOp rest) :
    parseOperand (fun delim => plug E delim addr) (outRelAddr .intel o 16 tgt addr bits ++ rest) =
      .ok (.ok ({ mode := .IMM16, val := ⟨tgt, .unsigned⟩ }, rest)) := by
  obtain ⟨k1, k2⟩ := AfterOp.stop (sym := symbol) (E := E) (delim := '\x00') (loc := addr) hr
  obtain ⟨h1, c, s, h2, h3⟩ := intel_rel (sym := symbol) (by decide) (by decide) (E := E) hsym (delim := '\x00')
    (by decide) (width := 16) (by decide) (by decide) ha ht hb hb0 hd k1 k2
  have key : ∀ {α : Type} {table : List (List Char × α)}, RegsOk table → NoNumbers .intel table →
      searchText table (outRelAddr .intel o 16 tgt addr bits ++ rest) = .ok none := by
    intro α table g1 g2
    rw [h2, List.cons_append]
    rcases List.mem_cons.1 h3 with rfl | h3
    · exact reg_none_head g1 (by intro d hd; injection hd with hd; subst hd; decide)
    · refine reg_none g1 g2 (Or.inl ⟨c, s ++ rest, ?_, rfl⟩)
      simp only [firsts, leads, List.map, List.append_nil, List.mem_cons, List.not_mem_nil, or_false] at h3
      rcases h3 with h | h | h | h | h | h | h | h | h | h <;> subst h <;> decide
  exact plain_reads h2 h3 (key regsOk regsNo) (key ccsOk ccsNo) h1

theorem paren_num_reads {t rest : List Char} {v : Nat} (ht : NumText .intel .intel t v) (hv : v < 2 ^ 32) :
    parseOperand (fun delim => plug E delim addr) ('(' :: (t ++ ')' :: rest)) =
      .ok (.ok ({ mode := if 0xff00 ≤ v then .DIR else .EXT, val := ⟨v, .unsigned⟩ }, rest)) := by
  have he : parseInteger (plug E ')' addr) (t ++ ')' :: rest) .OK = .ok (⟨v, .unsigned⟩, .OK, ')' :: rest) :=
    eval_const (const_of (intel_lexOk symbol) ht E ')' addr) (Sep.cons (c := ')') (by decide) rest)
    (intel_stop_delim symbol E addr rest (by decide))
  have hl := ht.lead.append (')' :: rest)
  rw [open_reads, lead_space hl, reg_none regsOk regsNo hl, Out.ok_bind]
  dsimp only
  unfold parseNumber
  rw [if_pos rfl]
  dsimp only
  rw [he, Out.ok_bind]
  dsimp only
  rw [show skipSpaces (')' :: rest) = ')' :: rest from rfl, show expect ')' (')' :: rest) = some rest from rfl,
    if_neg (by decide), if_pos rfl, if_neg (by simp), getUnsigned_num hv]

/-! ### Operands -/

theorem int16_range (v : Nat) (h : v < 65536) : -32768 ≤ int16 v ∧ int16 v < 32768 := by
  unfold int16
  split <;> omega

/-- What is printed of an operand is read back. -/
theorem operand_reads {o : Opts} (hsym : o.relative = true → o.curSym = '$') (ha : addr < 65536) {m : Mode} {d : DOp}
    (h : Good addr m d) {rest : List Char} (hr : AfterOp rest) :
    parseOperand (fun delim => plug E delim addr) ((outOperand o addr m d).1 ++ rest) =
      .ok (.ok (opBack addr m d, rest)) := by
  have hP := intel_pairs o
  have regs : ∀ r, d.reg = some r → parseOperand (fun delim => plug E delim addr) (outReg? o d.reg ++ rest) =
      .ok (.ok ((d.reg.map regBack).getD {}, rest)) := by
    intro r hr'
    rw [hr']
    exact reg_reads o r hr
  unfold Good at h
  unfold outOperand opBack
  cases m with
  | IMM8 => exact num_reads (outHex_num hP _ 8 true h (by decide) (by decide)) hr
  | BIT => exact num_reads (outHex_num hP _ 8 true (by dsimp only at h; omega) (by decide) (by decide)) hr
  | IMM16 => exact num_reads (outHex_num hP _ 16 true h (by decide) (by decide)) hr
  | DIR =>
    dsimp only at h ⊢
    have hv : d.val ||| 0xff00 < 65536 ∧ 0xff00 ≤ d.val ||| 0xff00 :=
      (by decide +kernel : ∀ v < 256, v ||| 0xff00 < 65536 ∧ 0xff00 ≤ v ||| 0xff00) _ h
    have := paren_num_reads (E := E) (addr := addr) (rest := rest)
      (outHex_num hP (d.val ||| 0xff00) 16 true hv.1 (by decide) (by decide)) (by omega)
    rw [if_pos hv.2] at this
    rw [← this]
    simp only [List.cons_append, List.append_assoc, List.nil_append]
    rfl
  | EXT =>
    dsimp only at h ⊢
    have := paren_num_reads (E := E) (addr := addr) (rest := rest)
      (outHex_num hP d.val 16 true h (by decide) (by decide)) (by omega)
    rw [← this]
    simp only [List.cons_append, List.append_assoc, List.nil_append]
    rfl
  | REL8 =>
    obtain ⟨h1, h2, h3⟩ := h
    have := int8_range _ h1
    exact rel_operand hsym ha h3 (by decide) (by decide) (by omega) hr
  | REL16 =>
    obtain ⟨h1, h2, h3⟩ := h
    have := int16_range _ h1
    exact rel_operand hsym ha h3 (by decide) (by decide) (by omega) hr
  | IND =>
    obtain ⟨r, h1, h2⟩ := h
    rw [h1]
    have := ind_reads (E := E) (addr := addr) o h2 rest
    rw [← this]
    simp only [List.cons_append, List.append_assoc, List.nil_append]
    rfl
  | IDX =>
    obtain ⟨h0, r, h1, h2⟩ := h
    rw [h1]
    have := idx_reads (E := E) (addr := addr) o h0 h2 rest
    rw [← this]
    simp only [List.cons_append, List.append_assoc, List.nil_append]
    rfl
  | IXPD =>
    obtain ⟨h0, r, h1, h2⟩ := h
    rw [h1]
    have := ixpd_reads (E := E) (addr := addr) o h0 h2 hr
    rw [← this]
    simp only [List.append_assoc]
    rfl
  | BASE =>
    rw [← base_reads (E := E) (addr := addr) o rest]
    simp only [List.cons_append, List.append_assoc, List.nil_append]
  | HLPA =>
    rw [← hlpa_reads (E := E) (addr := addr) o hr]
    simp only [List.cons_append, List.append_assoc, List.nil_append]
  | CC =>
    obtain ⟨h1, h2⟩ := h
    obtain ⟨c1, c2⟩ := cc_word o h1 h2
    exact cc_reads c1 (AfterOp.stop (sym := symbol) (E := E) (delim := '\x00') (loc := addr) hr).1 c2
  | STACK | REG8 | REG16 | REGIX =>
    obtain ⟨r, h1⟩ := h
    exact regs r h1
  | R r =>
    cases r with
    | BC | DE | HL | SP | AF | AFP | A => exact reg_reads o _ hr
    | _ => exact absurd (show false = true from h) (by decide)
  | _ => exact h.elim

end Libasm.Cpu.Tlcs90
