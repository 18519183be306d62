import Verif.Cpu.Tlcs90.Props
import Verif.Cpu.Z80.Back
import Verif.Cpu.Mos6502.Back
/-
C29 for the TLCS-90: what is assembled without error is disassembled without error to the same bytes, with the name of
the line.
-/
namespace Libasm.Cpu.Tlcs90
open Scan Number Number.Spec Eval

/-! ### The tables -/

/-- How many bytes an operand has. -/
def tl (m : Mode) : Nat := (tail m 0).length

/-- The bits of the prefix or the code an operand takes. -/
def fields : Mode → List Nat
  | .BIT => [0, 1, 2, 3, 4, 5, 6, 7]
  | .IND | .REG16 | .STACK => [0, 1, 2, 4, 5, 6]
  | .IDX | .IXPD | .REGIX => [0, 1, 2]
  | .CC => [0, 1, 2, 3, 4, 5, 6, 7, 9, 10, 11, 12, 13, 14, 15]
  | .REG8 => [0, 1, 2, 3, 4, 5, 6]
  | _ => [0]

/-- The same as to the bytes. -/
def kindB (a b : Mode) : Bool := a == b || (tl a == 0 && tl b == 0)

/-- The register in the code is one. -/
def regOk (c : Nat) (m : Mode) : Bool :=
  match m with
  | .STACK => (decodeStackReg c).isSome
  | .REG8 => (decodeReg8 c).isSome
  | .REG16 => (decodeReg16 c).isSome
  | .REGIX => (decodeIndexReg c).isSome
  | _ => true

/-- The entry that is found for a code has the operands of the bytes. -/
def fitB (c : Nat) (e2 : Entry) (D S : Mode) : Bool :=
  e2.page != .REL8 && e2.page != .REL16 && regOk c e2.dst && regOk c e2.src &&
  e2.dst != .IDX && e2.dst != .IXPD && e2.src != .IDX && e2.src != .IXPD &&
  (e2.dst != .NONE || tl e2.src == 0) &&
  ((kindB D e2.dst && kindB S e2.src) || (tl e2.dst == 0 && tl S == 0 && kindB D e2.src))

/-- An entry is found for a code, of the same name. -/
def findB (pres : List Nat) (pre c : Nat) (e : Entry) (D S : Mode) : Bool :=
  match (hits pre).find? (matchOpCode c) with
  | some e2 => e2.name == e.name && fitB c (if e2.src = .SRC16 then { e2 with src := .SRC } else e2) D S && (e2.src != .SRC16 || pres.all fun p => !invalidCode p .REG16)
  | none => false

/-- The mode of the operand in the prefix, and those after the code. -/
def preMode (e : Entry) : Mode :=
  if (encShape e).dp then (encShape e).d else if (encShape e).sp then (encShape e).s else .NONE
/-- The first operand after the code. -/
def codeD (e : Entry) : Mode := if (encShape e).dp then .NONE else (encShape e).d
/-- The second operand after the code. -/
def codeS (e : Entry) : Mode := if (encShape e).sp then .NONE else (encShape e).s

/-- The prefixes of an entry of a page. -/
def presOf (q : Nat) (e : Entry) : List Nat :=
  if q = 0 then [0] else (fields (preMode e)).map fun f => (q ||| f) % 256

/-- The mode whose bits are in the code. -/
def bitsMode (e : Entry) : Mode :=
  if !(encShape e).dp && emits (encShape e).d then (encShape e).d
  else if !(encShape e).sp && emits (encShape e).s then (encShape e).s else .NONE

/-- The prefixes of the instructions on a condition, with the bytes that follow them. -/
def ccPre (p n : Nat) : Bool :=
  ([0xe8, 0xe9, 0xea, 0xec, 0xed, 0xee, 0xf7, 0xfe].contains p && n == 0) || ([0xf4, 0xf5, 0xf6].contains p && n == 1) ||
  (p == 0xeb && n == 2)

/-- What the tables have to say of an entry. -/
def backB (q : Nat) (e : Entry) : Bool :=
  decide ('\x00' ∉ e.name) && decide (e.name.length < 11) && decide ('=' ∉ e.name) &&
  (q != 0 || (!(encShape e).dp && !(encShape e).sp)) &&
  (q == 0 || emits (preMode e)) && preMode e != .REL8 && preMode e != .REL16 && preMode e != .CC &&
  (q == 0 || (presOf q e).all fun p => prefixes.contains p && tl ((pfx p).getD .NONE) == tl (preMode e)) &&
  (q != 0 || (fields (bitsMode e)).all fun f => (pfx ((e.opcode ||| f) % 256)).isNone) &&
  ((encShape e).s != .CC) &&
  ((encShape e).d != .CC || ((e.opcode == 0xc0 || e.opcode == 0xd0) && !(encShape e).dp &&
    (if q = 0 then e.opcode == 0xc0 && codeS e == .REL8 else
      tl (codeS e) == 0 && (presOf q e).all fun p => ccPre p (tl (preMode e))))) &&
  classes.all fun x => x.2 || !((presOf q e).any fun p => x.1.contains p) ||
    (fields (bitsMode e)).all fun f => findB (presOf q e) (x.1.headD 0) ((e.opcode ||| f) % 256) e (codeD e) (codeS e)

set_option maxRecDepth 20000 in
theorem back_ok : ∀ p ∈ fast, ∀ e ∈ p.entries, backB p.prefix_ e = true := by decide +kernel

/-! ### What an operand may be -/

/-- The mode, the register and the condition of an operand that was read. -/
def allOps : List (Mode × Option Reg × Nat) :=
  [(.NONE, none, 255), (.IMM16, none, 255), (.DIR, none, 255), (.EXT, none, 255), (.SYM, none, 255),
   (.R .BC, some .BC, 255), (.R .DE, some .DE, 255), (.R .HL, some .HL, 255), (.R .SP, some .SP, 255),
   (.R .AF, some .AF, 255), (.R .AFP, some .AFP, 255), (.R .A, some .A, 255), (.R .C, some .C, 255),
   (.R .C, some .C, 7), (.REGIX, some .IX, 255), (.REGIX, some .IY, 255), (.REG8, some .B, 255),
   (.REG8, some .D, 255), (.REG8, some .E, 255), (.REG8, some .H, 255), (.REG8, some .L, 255),
   (.IND, some .BC, 255), (.IND, some .DE, 255), (.IND, some .HL, 255), (.IND, some .IX, 255),
   (.IND, some .IY, 255), (.IND, some .SP, 255), (.IDX, some .IX, 255), (.IDX, some .IY, 255),
   (.IDX, some .SP, 255), (.IXPD, some .IX, 255), (.IXPD, some .IY, 255), (.IXPD, some .SP, 255),
   (.BASE, some .HL, 255), (.HLPA, some .HL, 255)] ++
  (ccs.filter fun x => x.2 != 7).map fun x => (.CC, none, x.2)

/-- The operand is one of those. -/
def Parsed (op : Operand) : Prop := (op.mode, op.reg, op.cc) ∈ allOps

/-- What the parser answers. -/
abbrev Answer := Out (Except (Err × Scan) (Operand × Scan))

theorem ok_parsed {x op : Operand} {p rest : Scan} (hx : Parsed x)
    (h : (Out.ok (Except.ok (x, p)) : Answer) = .ok (.ok (op, rest))) : Parsed op := by
  injection h with h
  injection h with h
  injection h with h1 h2
  exact h1 ▸ hx

theorem bad_parsed {op : Operand} {e : Err × Scan} {rest : Scan}
    (h : (Out.ok (Except.error e) : Answer) = .ok (.ok (op, rest))) : Parsed op := by
  injection h with h
  cases h

theorem hasError_ne {e : Err} (h : hasError e = true) : e ≠ .OK := by
  intro he
  rw [he] at h
  exact absurd h (by decide)

theorem good_err {e : Err} {x : Operand × Scan} {rest : Scan}
    (h : (Out.ok (Except.ok x) : Answer) = .ok (.error (e, rest))) : e ≠ .OK := by
  injection h with h
  cases h

theorem bad_err {e e' : Err} {p rest : Scan} (hx : e' ≠ .OK)
    (h : (Out.ok (Except.error (e', p)) : Answer) = .ok (.error (e, rest))) : e ≠ .OK := by
  injection h with h
  injection h with h
  injection h with h
  rw [← h]
  exact hx

section
variable {P : Char → Plugins Value}

theorem number_parsed {paren : Bool} {start p rest : Scan} {op : Operand}
    (h : parseNumber P paren start p = .ok (.ok (op, rest))) : Parsed op := by
  unfold parseNumber at h
  obtain ⟨⟨v, e, q⟩, h1, h2⟩ := bind_ok h
  dsimp only at h2
  split at h2
  · exact bad_parsed h2
  · split at h2
    · split at h2
      · exact bad_parsed h2
      · refine ok_parsed ?_ h2
        unfold Parsed
        dsimp only
        split
        · decide
        · split <;> decide
    · refine ok_parsed ?_ h2
      show (Mode.IMM16, none, 255) ∈ allOps
      decide

theorem number_err {paren : Bool} {start p rest : Scan} {e : Err}
    (h : parseNumber P paren start p = .ok (.error (e, rest))) : e ≠ .OK := by
  unfold parseNumber at h
  obtain ⟨⟨v, e, q⟩, h1, h2⟩ := bind_ok h
  dsimp only at h2
  split at h2
  · exact bad_err (hasError_ne (by assumption)) h2
  · split at h2
    · split at h2
      · exact bad_err (by decide) h2
      · exact good_err h2
    · exact good_err h2

theorem index_ops {reg : Reg} (h : isRegIndex reg = true) :
    (Mode.IDX, some reg, 255) ∈ allOps ∧ (Mode.IXPD, some reg, 255) ∈ allOps := by
  cases reg <;> first | decide | exact absurd h (by decide)

theorem offset_parsed {paren : Bool} {reg : Reg} {start p rest : Scan} {op : Operand}
    (h : parseOffset P paren reg start p = .ok (.ok (op, rest))) : Parsed op := by
  unfold parseOffset at h
  split at h
  · rename_i hr
    obtain ⟨⟨v, e, q⟩, h1, h2⟩ := bind_ok h
    dsimp only at h2
    split at h2
    · exact bad_parsed h2
    · split at h2
      · split at h2
        · exact bad_parsed h2
        · refine ok_parsed ?_ h2
          exact (index_ops hr).1
      · refine ok_parsed ?_ h2
        exact (index_ops hr).2
  · exact bad_parsed h

theorem offset_err {paren : Bool} {reg : Reg} {start p rest : Scan} {e : Err}
    (h : parseOffset P paren reg start p = .ok (.error (e, rest))) : e ≠ .OK := by
  unfold parseOffset at h
  split at h
  · obtain ⟨⟨v, e, q⟩, h1, h2⟩ := bind_ok h
    dsimp only at h2
    split at h2
    · exact bad_err (hasError_ne (by assumption)) h2
    · split at h2
      · split at h2
        · exact bad_err (by decide) h2
        · exact good_err h2
      · exact good_err h2
  · exact bad_err (by decide) h

theorem after_parsed {paren : Bool} {reg : Reg} {start p rest : Scan} {op : Operand}
    (h : parseAfter P paren reg start p = .ok (.ok (op, rest))) : Parsed op := by
  unfold parseAfter at h
  split at h
  · split at h
    · rename_i hr
      refine ok_parsed ?_ h
      show (Mode.IND, some reg, 255) ∈ allOps
      revert hr
      cases reg <;> decide
    · exact bad_parsed h
  · split at h
    · split at h
      · rename_i hr
        obtain ⟨x, h1, h2⟩ := bind_ok h
        split at h2
        · split at h2
          · exact bad_parsed h2
          · split at h2
            · split at h2
              · exact bad_parsed h2
              · refine ok_parsed ?_ h2
                show (Mode.BASE, some reg, 255) ∈ allOps
                rw [hr.1]
                decide
            · refine ok_parsed ?_ h2
              show (Mode.HLPA, some reg, 255) ∈ allOps
              rw [hr.1]
              decide
        · exact offset_parsed h2
      · exact offset_parsed h
    · refine ok_parsed ?_ h
      show (registerMode reg, some reg, 255) ∈ allOps
      cases reg <;> decide

theorem after_err {paren : Bool} {reg : Reg} {start p rest : Scan} {e : Err}
    (h : parseAfter P paren reg start p = .ok (.error (e, rest))) : e ≠ .OK := by
  unfold parseAfter at h
  split at h
  · split at h
    · exact good_err h
    · exact bad_err (by decide) h
  · split at h
    · split at h
      · obtain ⟨x, h1, h2⟩ := bind_ok h
        split at h2
        · split at h2
          · exact bad_err (by decide) h2
          · split at h2
            · split at h2
              · exact bad_err (by decide) h2
              · exact good_err h2
            · exact good_err h2
        · exact offset_err h2
      · exact offset_err h
    · exact good_err h

theorem parsed {scan rest : Scan} {op : Operand}
    (h : parseOperand P scan = .ok (.ok (op, rest))) : Parsed op := by
  unfold parseOperand at h
  dsimp only at h
  split at h
  · refine ok_parsed ?_ h
    show (Mode.NONE, none, 255) ∈ allOps
    decide
  · obtain ⟨x, h1, h2⟩ := bind_ok h
    split at h2
    · split at h2
      · rename_i cc q hc
        refine ok_parsed ?_ h2
        show (Mode.R .C, some Reg.C, cc) ∈ allOps
        rw [hc]
        decide
      · rename_i cc q hc
        refine ok_parsed ?_ h2
        obtain ⟨n, hn⟩ := searchText_mem h1
        show (Mode.CC, none, cc) ∈ allOps
        exact (by decide +kernel : ∀ x ∈ ccs, x.2 ≠ 7 → (Mode.CC, (none : Option Reg), x.2) ∈ allOps) (n, cc) hn hc
    · obtain ⟨y, h3, h4⟩ := bind_ok h2
      split at h4
      · exact number_parsed h4
      · exact after_parsed h4

/-- An address that is read without error is not one of the direct page if it is taken for an extended one. -/
def Near (op : Operand) : Prop := op.err = .OK → op.mode ≠ .SYM ∧ (op.mode = .EXT → op.val.getUnsigned < 0xff00)

theorem ok_near {x op : Operand} {p rest : Scan} (hx : Near x)
    (h : (Out.ok (Except.ok (x, p)) : Answer) = .ok (.ok (op, rest))) : Near op := by
  injection h with h
  injection h with h
  injection h with h1 h2
  exact h1 ▸ hx

theorem bad_near {op : Operand} {e : Err × Scan} {rest : Scan}
    (h : (Out.ok (Except.error e) : Answer) = .ok (.ok (op, rest))) : Near op := by
  injection h with h
  cases h

theorem mode_near {op : Operand} (h : op.mode ≠ .SYM ∧ op.mode ≠ .EXT) : Near op :=
  fun _ => ⟨h.1, fun h' => absurd h' h.2⟩

theorem number_near {paren : Bool} {start p rest : Scan} {op : Operand}
    (h : parseNumber P paren start p = .ok (.ok (op, rest))) : Near op := by
  unfold parseNumber at h
  obtain ⟨⟨v, e, q⟩, h1, h2⟩ := bind_ok h
  dsimp only at h2
  split at h2
  · exact bad_near h2
  · split at h2
    · split at h2
      · exact bad_near h2
      · refine ok_near ?_ h2
        intro he
        have he : e = .OK := he
        dsimp only
        rw [if_neg (fun h => h he)]
        split
        · exact ⟨by decide, fun h => nomatch h⟩
        · exact ⟨by decide, fun _ => by omega⟩
    · exact ok_near (mode_near ⟨Mode.noConfusion, Mode.noConfusion⟩) h2

theorem offset_near {paren : Bool} {reg : Reg} {start p rest : Scan} {op : Operand}
    (h : parseOffset P paren reg start p = .ok (.ok (op, rest))) : Near op := by
  unfold parseOffset at h
  split at h
  · obtain ⟨⟨v, e, q⟩, h1, h2⟩ := bind_ok h
    dsimp only at h2
    split at h2
    · exact bad_near h2
    · split at h2
      · split at h2
        · exact bad_near h2
        · exact ok_near (mode_near ⟨Mode.noConfusion, Mode.noConfusion⟩) h2
      · exact ok_near (mode_near ⟨Mode.noConfusion, Mode.noConfusion⟩) h2
  · exact bad_near h

theorem after_near {paren : Bool} {reg : Reg} {start p rest : Scan} {op : Operand}
    (h : parseAfter P paren reg start p = .ok (.ok (op, rest))) : Near op := by
  unfold parseAfter at h
  split at h
  · split at h
    · exact ok_near (mode_near ⟨Mode.noConfusion, Mode.noConfusion⟩) h
    · exact bad_near h
  · split at h
    · split at h
      · obtain ⟨x, h1, h2⟩ := bind_ok h
        split at h2
        · split at h2
          · exact bad_near h2
          · split at h2
            · split at h2
              · exact bad_near h2
              · exact ok_near (mode_near ⟨Mode.noConfusion, Mode.noConfusion⟩) h2
            · exact ok_near (mode_near ⟨Mode.noConfusion, Mode.noConfusion⟩) h2
        · exact offset_near h2
      · exact offset_near h
    · refine ok_near (mode_near ?_) h
      show registerMode reg ≠ .SYM ∧ registerMode reg ≠ .EXT
      cases reg <;> decide

theorem near {scan rest : Scan} {op : Operand}
    (h : parseOperand P scan = .ok (.ok (op, rest))) : Near op := by
  unfold parseOperand at h
  dsimp only at h
  split at h
  · exact ok_near (mode_near ⟨Mode.noConfusion, Mode.noConfusion⟩) h
  · obtain ⟨x, h1, h2⟩ := bind_ok h
    split at h2
    · split at h2
      · exact ok_near (mode_near ⟨Mode.noConfusion, Mode.noConfusion⟩) h2
      · exact ok_near (mode_near ⟨Mode.noConfusion, Mode.noConfusion⟩) h2
    · obtain ⟨y, h3, h4⟩ := bind_ok h2
      split at h4
      · exact number_near h4
      · exact after_near h4

theorem parse_err {scan rest : Scan} {e : Err}
    (h : parseOperand P scan = .ok (.error (e, rest))) : e ≠ .OK := by
  unfold parseOperand at h
  dsimp only at h
  split at h
  · exact good_err h
  · obtain ⟨x, h1, h2⟩ := bind_ok h
    split at h2
    · split at h2
      · exact good_err h2
      · exact good_err h2
    · obtain ⟨y, h3, h4⟩ := bind_ok h2
      split at h4
      · exact number_err h4
      · exact after_err h4

end

/-! ### Encoding -/

/-- The bits an operand that was read puts into the code. -/
def bitsOf (m : Mode) (x : Mode × Option Reg × Nat) : Nat :=
  match m with
  | .IND | .REG16 => encodeReg16 x.2.1
  | .IDX | .IXPD | .REGIX => encodeIndexReg x.2.1
  | .CC => encodeCcName x.2.2
  | .STACK => encodeStackReg x.2.1
  | .REG8 => encodeReg8 x.2.1
  | _ => 0

theorem bits_in : ∀ m ∈ [Mode.IND, .REG16, .IDX, .IXPD, .REGIX, .CC, .STACK, .REG8], ∀ x ∈ allOps,
    acceptMode x.1 m = true → bitsOf m x ∈ fields m ∨ (m = .CC ∧ bitsOf m x = 239) := by decide +kernel

/-- The mode, the register and the condition of an operand. -/
def keyOf (op : Operand) : Mode × Option Reg × Nat := (op.mode, op.reg, op.cc)

/-- The bits an operand that was read may put into the code. -/
def got (m : Mode) (x : Mode × Option Reg × Nat) : List Nat :=
  if m = .BIT then [0, 1, 2, 3, 4, 5, 6, 7] else [bitsOf m x]

theorem got_fields {m : Mode} {op : Operand} {f : Nat} (hp : Parsed op) (ha : acceptMode op.mode m = true)
    (h : f ∈ got m (keyOf op)) : f ∈ fields m ∨ (m = .CC ∧ f = 239) := by
  unfold got at h
  split at h
  · rename_i hm
    subst hm
    exact Or.inl h
  · have hf := List.mem_singleton.1 h
    by_cases hm : m ∈ [Mode.IND, .REG16, .IDX, .IXPD, .REGIX, .CC, .STACK, .REG8]
    · have := bits_in m hm _ hp ha
      rw [hf]
      exact this
    · refine Or.inl ?_
      cases m <;> first | exact absurd (by decide) hm | (rw [hf]; exact List.mem_singleton.2 rfl) | contradiction

/-- The value `v` of the bytes of an operand fits in them, and a branch stays in the memory. -/
structure Fit (addr : Nat) (m : Mode) (v : Nat) : Prop where
  range : Range m v
  rel8 : m = .REL8 → addr + 2 ≤ 65536 → relTarget addr (int8 v) < 65536
  rel16 : m = .REL16 → addr + 2 ≤ 65536 → relTarget addr (int16 v) < 65536

theorem fit_plain {addr : Nat} {m : Mode} (v : Nat) (h : tl m = 0) : Fit addr m v := by
  unfold tl at h
  refine ⟨⟨fun h' => by omega, fun h' => by omega⟩, ?_, ?_⟩
  · rintro rfl; exact absurd h (by decide)
  · rintro rfl; exact absurd h (by decide)

theorem setIf_inv {i : Ins} {e : Err} (h : (i.setErrorIf e).err = .OK) : i.err = .OK ∧ e = .OK ∧ i.setErrorIf e = i := by
  obtain ⟨h1, h2⟩ := setErrorIf_ok (show Config.setErrorIf i.err e = .OK from h)
  subst h2
  exact ⟨h1, rfl, ins_ok i h1⟩

theorem check_inv {i : Ins} {b : Bool} {e : Err} (he : e ≠ .OK) (h : (i.check b e).err = .OK) :
    i.err = .OK ∧ i.check b e = i ∧ b = false := by
  cases b with
  | false => exact ⟨h, rfl, rfl⟩
  | true => exact absurd (setIf_inv (show (i.setErrorIf e).err = .OK from h)).2.1 he

theorem emitInsn_err (i : Ins) (c : Nat) : (i.emitInsn c).err = i.err := by
  unfold Ins.emitInsn
  split <;> rfl

theorem emitInsn_ok (bs : List Nat) (pend : Bool) (c : Nat) :
    (⟨.OK, bs, pend⟩ : Ins).emitInsn c = ⟨.OK, bs ++ (if pend then [c % 256] else []), false⟩ := by
  cases pend
  · simp [Ins.emitInsn]
  · rfl

/-- What comes out of an operand. -/
def Gives (addr : Nat) (m : Mode) (op : Operand) (opc : Nat) (e0 : Err) (bs : List Nat) (pend : Bool) (i' : Ins) : Prop :=
  e0 = .OK ∧ op.err = .OK ∧ ∃ f v, f ∈ got m (keyOf op) ∧ (m = .EXT → v = op.val.getUnsigned % 65536) ∧ Fit addr m v ∧
    i' = ⟨.OK, bs ++ ((if pend && emits m then [(opc ||| f) % 256] else []) ++ tail m v), pend && !emits m⟩

theorem gives_plain {addr : Nat} {m : Mode} {op : Operand} {opc f : Nat} {e0 : Err} {bs : List Nat} {pend : Bool}
    (hm : emits m = true) (ht : tl m = 0) (hf : f ∈ got m (keyOf op))
    (h : (((⟨e0, bs, pend⟩ : Ins).setErrorIf op.err).emitInsn (opc ||| f)).err = .OK) :
    Gives addr m op opc e0 bs pend (((⟨e0, bs, pend⟩ : Ins).setErrorIf op.err).emitInsn (opc ||| f)) := by
  rw [emitInsn_err] at h
  obtain ⟨h1, h2, h3⟩ := setIf_inv h
  have h1 : e0 = .OK := h1
  subst h1
  refine ⟨rfl, h2, f, 0, hf, ?_, fit_plain 0 ht, ?_⟩
  · rintro rfl; exact absurd ht (by decide)
  rw [h3, emitInsn_ok, hm, List.eq_nil_of_length_eq_zero ht]
  simp

theorem gives_byte {addr : Nat} {m : Mode} {op : Operand} {opc f v : Nat} {e0 e' : Err} {b : Bool} {bs : List Nat} {pend : Bool}
    (hm : emits m = true) (ht : tl m = 1) (hr : m ≠ .REL8) (hf : f ∈ got m (keyOf op)) (he' : e' ≠ .OK)
    (h : (((((⟨e0, bs, pend⟩ : Ins).setErrorIf op.err).check b e').emitInsn (opc ||| f)).emitByte v).err = .OK) :
    Gives addr m op opc e0 bs pend
      (((((⟨e0, bs, pend⟩ : Ins).setErrorIf op.err).check b e').emitInsn (opc ||| f)).emitByte v) := by
  have h : (((⟨e0, bs, pend⟩ : Ins).setErrorIf op.err).check b e').err = .OK := by
    rw [← emitInsn_err _ (opc ||| f)]
    exact h
  obtain ⟨h4, h5, _⟩ := check_inv he' h
  obtain ⟨h1, h2, h3⟩ := setIf_inv h4
  have h1 : e0 = .OK := h1
  subst h1
  unfold tl at ht
  refine ⟨rfl, h2, f, v % 256, hf, ?_, ⟨⟨fun _ => ?_, fun h' => absurd h' (by omega)⟩, fun h' => absurd h' hr, ?_⟩, ?_⟩
  · rintro rfl; exact absurd ht (by decide)
  · omega
  · rintro rfl; exact absurd ht (by decide)
  · rw [h5, h3, emitInsn_ok, hm, tail_eq, if_pos ht]
    simp [Ins.emitByte]

theorem gives_word {addr : Nat} {m : Mode} {op : Operand} {opc : Nat} {e0 e' : Err} {b : Bool} {bs : List Nat} {pend : Bool}
    (hm : emits m = true) (ht : tl m = 2) (hr : m ≠ .REL16) (hf : 0 ∈ got m (keyOf op)) (he' : e' ≠ .OK)
    (h : (((((⟨e0, bs, pend⟩ : Ins).setErrorIf op.err).check b e').emitInsn opc).emit16 op.val.getUnsigned).err = .OK) :
    Gives addr m op opc e0 bs pend
      (((((⟨e0, bs, pend⟩ : Ins).setErrorIf op.err).check b e').emitInsn opc).emit16 op.val.getUnsigned) := by
  have h : (((⟨e0, bs, pend⟩ : Ins).setErrorIf op.err).check b e').err = .OK := by
    rw [← emitInsn_err _ opc]
    exact h
  obtain ⟨h4, h5, _⟩ := check_inv he' h
  obtain ⟨h1, h2, h3⟩ := setIf_inv h4
  have h1 : e0 = .OK := h1
  subst h1
  unfold tl at ht
  generalize hv : op.val.getUnsigned = v
  refine ⟨rfl, h2, 0, v % 65536, hf, fun _ => by rw [hv], ⟨⟨fun h' => absurd h' (by omega), fun _ => ?_⟩, ?_, fun h' => absurd h' hr⟩, ?_⟩
  · omega
  · rintro rfl; exact absurd ht (by decide)
  · rw [h5, h3, emitInsn_ok, hm, tail_eq, if_neg (show ¬(tail m 0).length = 1 by omega), if_pos ht, show v % 65536 % 256 = v % 256 by omega,
      show v % 65536 / 256 = v / 256 % 256 by omega]
    simp [Ins.emit16]

theorem rel_inv {addr target : Nat} {e e' : Err} {d : Int} (hb : addr + 2 ≤ 65536) (ht : target < 2 ^ 32)
    (h : Config.branchDelta 16 (addr + 2) target e = some (d, e')) (he : e' = .OK) :
    target < 65536 ∧ d = (target : Int) - (addr + 2 : Nat) ∧ -32768 ≤ d ∧ d < 32768 := by
  have hW : Config.W = 4294967296 := rfl
  have h1 : e = .OK := by
    by_cases hn : e = .OK
    · exact hn
    · exact absurd he (Config.branchDelta_err hn h)
  subst h1
  obtain ⟨d', e'', h2, h3, h4, _⟩ := Config.branchDelta_eq (w := 16) (base := addr + 2) (target := target) (by decide)
    (by decide) hb (by rw [hW]; omega) (by rw [hW]; omega)
  rw [h2] at h
  simp only [Option.some.injEq, Prod.mk.injEq] at h
  obtain ⟨rfl, rfl⟩ := h
  obtain ⟨k1, k2, k3⟩ := h3.1 he
  have := h4 he
  simp only [Nat.reducePow, Nat.reduceSub] at k1 k2 k3
  omega

theorem rel_lt {addr target : Nat} {d x : Int} (h1 : target < 65536) (h2 : d = (target : Int) - (addr + 2 : Nat))
    (hx : x = d) : relTarget addr x < 65536 := by
  have hW : Config.W = 4294967296 := rfl
  unfold relTarget
  rw [hW, hx, h2]
  omega

theorem gives_rel {addr : Nat} {m : Mode} {op : Operand} {opc : Nat} {e0 : Err} {bs : List Nat} {pend : Bool} {i' : Ins}
    (hm : m = .REL8 ∨ m = .REL16) (h32 : addr < 65536)
    (h : encodeRelative false addr m op opc ((⟨e0, bs, pend⟩ : Ins).setErrorIf op.err) = .ok i') (he : i'.err = .OK) :
    Gives addr m op opc e0 bs pend i' := by
  unfold encodeRelative at h
  dsimp only at h
  obtain ⟨⟨d, e1⟩, h1, h2⟩ := bind_ok h
  obtain ⟨far, h3, h4⟩ := bind_ok h2
  rw [Bool.false_and, if_neg (by decide)] at h4
  have hb : Config.branchDelta 16 (addr + 2) (if op.err ≠ .OK then addr + 2 else op.val.getUnsigned)
      ((⟨e0, bs, pend⟩ : Ins).setErrorIf op.err).err = some (d, e1) := by
    unfold ofOption at h1
    split at h1
    · rename_i h5
      injection h1 with h1
      rw [h5, h1]
    · cases h1
  have hT : (if op.err ≠ .OK then addr + 2 else op.val.getUnsigned) < 2 ^ 32 := by
    split
    · omega
    · exact Mos6502.getUnsigned_lt _
  have hok : e1 = .OK → e0 = .OK ∧ op.err = .OK := by
    intro h5
    by_cases hn : ((⟨e0, bs, pend⟩ : Ins).setErrorIf op.err).err = .OK
    · exact ⟨(setIf_inv hn).1, (setIf_inv hn).2.1⟩
    · exact absurd h5 (Config.branchDelta_err hn hb)
  have hfar : far = decide ¬(-((2 ^ (8 - 1) : Nat) : Int) ≤ d ∧ d < ((2 ^ (8 - 1) : Nat) : Int)) := by
    rw [Config.overflowDelta_eq (by decide) (by decide)] at h3
    injection h3 with h3
    exact h3.symm
  rcases hm with rfl | rfl
  · rw [if_pos rfl] at h4
    injection h4 with h4
    subst h4
    have h5 : ((⟨e1, bs, pend⟩ : Ins).check far .OPERAND_TOO_FAR).err = .OK := by
      rw [← emitInsn_err _ opc]
      exact he
    obtain ⟨h6, h7, h8⟩ := check_inv (by decide) h5
    have h6 : e1 = .OK := h6
    have hk : ((⟨e1, bs, pend⟩ : Ins).check far .OPERAND_TOO_FAR) = ⟨e1, bs, pend⟩ := h7
    refine ⟨(hok h6).1, (hok h6).2, 0, (d % 256).toNat, List.mem_singleton.2 rfl, (fun h' => nomatch h'), ⟨⟨fun _ => by omega, (fun h' => nomatch h')⟩, fun _ hb2 => ?_,
      (fun h' => nomatch h')⟩, ?_⟩
    · obtain ⟨g1, g2, _, _⟩ := rel_inv hb2 hT hb h6
      refine rel_lt g1 g2 ?_
      rw [h8] at hfar
      have := of_decide_eq_false hfar.symm
      have := Decidable.of_not_not this
      unfold int8
      split <;> omega
    · show ((((⟨e1, bs, pend⟩ : Ins).check far .OPERAND_TOO_FAR).emitInsn opc).emitByte (d % 256).toNat) = _
      rw [hk, h6, emitInsn_ok]
      have : (d % 256).toNat % 256 = (d % 256).toNat := by omega
      simp [Ins.emitByte, emits, tail, this]
  · rw [if_neg (by decide)] at h4
    injection h4 with h4
    subst h4
    have h6 : e1 = .OK := by
      have : ((⟨e1, bs, pend⟩ : Ins).emitInsn opc).err = .OK := he
      rwa [emitInsn_err] at this
    refine ⟨(hok h6).1, (hok h6).2, 0, (d % 65536).toNat, List.mem_singleton.2 rfl, (fun h' => nomatch h'), ⟨⟨(fun h' => nomatch h'), fun _ => by omega⟩, (fun h' => nomatch h'),
      fun _ hb2 => ?_⟩, ?_⟩
    · obtain ⟨g1, g2, _, _⟩ := rel_inv hb2 hT hb h6
      refine rel_lt g1 g2 ?_
      unfold int16
      split <;> omega
    · show (((⟨e1, bs, pend⟩ : Ins).emitInsn opc).emit16 (d % 65536).toNat) = _
      rw [h6, emitInsn_ok]
      have : (d % 65536).toNat / 256 % 256 = (d % 65536).toNat / 256 := by omega
      simp [Ins.emit16, emits, tail, this]

/-- What an operand that was accepted emits. -/
theorem enc_fit {addr : Nat} {m : Mode} {op : Operand} {opc : Nat} {e0 : Err} {bs : List Nat} {pend : Bool} {i' : Ins}
    (h32 : addr < 65536)
    (h : encodeOperand false addr m op opc ⟨e0, bs, pend⟩ = .ok i') (he : i'.err = .OK) :
    Gives addr m op opc e0 bs pend i' := by
  unfold encodeOperand at h
  dsimp only at h
  have zero : emits m = true → tl m = 0 → 0 ∈ got m (keyOf op) →
      (Out.ok (((⟨e0, bs, pend⟩ : Ins).setErrorIf op.err).emitInsn opc) : Out Ins) = .ok i' →
      Gives addr m op opc e0 bs pend i' := by
    intro h1 h2 h3 h4
    injection h4 with h4
    subst h4
    have := gives_plain (addr := addr) (f := 0) (opc := opc) (op := op) (e0 := e0) (bs := bs) (pend := pend) h1 h2 h3
    rw [Nat.or_zero] at this
    exact this he
  have reg : ∀ f, m ∈ [Mode.IND, .REG16, .IDX, .IXPD, .REGIX, .CC, .STACK, .REG8] →
      f = bitsOf m (keyOf op) → emits m = true → tl m = 0 →
      (Out.ok (((⟨e0, bs, pend⟩ : Ins).setErrorIf op.err).emitInsn (opc ||| f)) : Out Ins) = .ok i' →
      Gives addr m op opc e0 bs pend i' := by
    intro f h0 hf h1 h2 h4
    injection h4 with h4
    subst h4
    refine gives_plain h1 h2 ?_ he
    unfold got
    rw [if_neg (by rintro rfl; exact absurd h0 (by decide)), hf]
    exact List.mem_singleton.2 rfl
  cases m with
  | IMM8 =>
    injection h with h
    subst h
    have := gives_byte (addr := addr) (m := .IMM8) (opc := opc) (f := 0) (v := op.val.getUnsigned) (e0 := e0) (op := op)
      (e' := .OVERFLOW_RANGE) (b := op.val.overflowUint8) (bs := bs) (pend := pend) rfl rfl (by decide)
      (List.mem_singleton.2 rfl) (by decide)
    rw [Nat.or_zero] at this
    exact this he
  | DIR =>
    injection h with h
    subst h
    have := gives_byte (addr := addr) (m := .DIR) (opc := opc) (f := 0) (v := op.val.getUnsigned) (e0 := e0) (op := op)
      (e' := .OVERFLOW_RANGE) (b := false) (bs := bs) (pend := pend) rfl rfl (by decide)
      (List.mem_singleton.2 rfl) (by decide)
    rw [Nat.or_zero] at this
    exact this he
  | IMM16 =>
    injection h with h
    subst h
    exact gives_word rfl rfl (by decide) (List.mem_singleton.2 rfl) (by decide) he
  | EXT =>
    injection h with h
    subst h
    exact gives_word (b := false) (e' := .OVERFLOW_RANGE) rfl rfl (by decide) (List.mem_singleton.2 rfl) (by decide) he
  | BIT =>
    injection h with h
    subst h
    have h5 : (((⟨e0, bs, pend⟩ : Ins).setErrorIf op.err).check (op.val.overflow 7 0) .OVERFLOW_RANGE).err = .OK := by
      rw [← emitInsn_err _ (opc ||| op.val.getUnsigned % 8)]
      exact he
    obtain ⟨_, h6, _⟩ := check_inv (by decide) h5
    rw [h6] at he ⊢
    refine gives_plain rfl rfl ?_ he
    exact (by decide : ∀ k < 8, k ∈ fields .BIT) _ (Nat.mod_lt _ (by decide))
  | REL8 => exact gives_rel (Or.inl rfl) h32 h he
  | REL16 => exact gives_rel (Or.inr rfl) h32 h he
  | IND | REG16 | CC | STACK | REG8 | REGIX => exact reg _ (by decide) rfl rfl rfl h
  | IDX =>
    injection h with h
    subst h
    exact gives_byte rfl rfl (by decide) (List.mem_singleton.2 rfl) (by decide) he
  | IXPD =>
    injection h with h
    subst h
    exact gives_byte rfl rfl (by decide) (List.mem_singleton.2 rfl) (by decide) he
  | R r =>
    cases r with
    | A | HL =>
      injection h with h
      subst h
      obtain ⟨h1, h2, h3⟩ := setIf_inv he
      have h1 : e0 = .OK := h1
      subst h1
      refine ⟨rfl, h2, 0, 0, List.mem_singleton.2 rfl, (fun h' => nomatch h'), fit_plain 0 rfl, ?_⟩
      rw [h3]
      cases pend <;> simp [emits, tail]
    | _ => exact zero (by decide) rfl (List.mem_singleton.2 rfl) h
  | _ => exact zero (by decide) rfl (List.mem_singleton.2 rfl) h

/-- One operand, if it is not the one of the prefix. -/
theorem step {addr : Nat} {p : Prop} [Decidable p] {m : Mode} {op : Operand} {opc : Nat} {i i1 : Ins}
    (h32 : addr < 65536)
    (h : (if p then .ok i else encodeOperand false addr m op opc i) = .ok i1) (he : i1.err = .OK) :
    i.err = .OK ∧ (¬ p → op.err = .OK) ∧ ∃ f v, (¬ p → f ∈ got m (keyOf op)) ∧ Fit addr (if p then .NONE else m) v ∧
      i1 = ⟨.OK, i.bytes ++ ((if i.pending && (!decide p && emits m) then [(opc ||| f) % 256] else []) ++
        tail (if p then .NONE else m) v), i.pending && !(!decide p && emits m)⟩ := by
  by_cases hp' : p
  · rw [if_pos hp'] at h
    injection h with h
    subst h
    refine ⟨he, fun h => absurd hp' h, 0, 0, fun h => absurd hp' h, ?_, ?_⟩
    · rw [if_pos hp']
      exact fit_plain 0 rfl
    · rw [if_pos hp', decide_eq_true hp']
      obtain ⟨a, b, c⟩ := i
      have he : a = .OK := he
      subst he
      simp [tail]
  · rw [if_neg hp'] at h
    obtain ⟨e0, bs, pend⟩ := i
    obtain ⟨h1, h0, f, v, h2, _, h3, h4⟩ := enc_fit h32 h he
    refine ⟨h1, fun _ => h0, f, v, fun _ => h2, ?_, ?_⟩
    · rw [if_neg hp']
      exact h3
    · rw [if_neg hp', decide_eq_false hp', h4]
      rfl

theorem none_tail {m : Mode} (h : emits m = false) (v : Nat) : tail m v = [] := not_emits h v

/-- The operand in the prefix. -/
def preX {α : Type} (e : Entry) (x y : α) : α := if (encShape e).dp then x else y
/-- The operand whose bits are in the code. -/
def bitsX {α : Type} (e : Entry) (x y : α) : α := if !(encShape e).dp && emits (encShape e).d then x else y
/-- The bits of an operand, if there is one. -/
def gotB (m : Mode) (x : Mode × Option Reg × Nat) : List Nat := if m = .NONE then [0] else got m x

/-- The bytes of the code and what follows it. -/
theorem code_fit {addr : Nat} {e : Entry} {d s : Operand} {i0 i : Ins} (h32 : addr < 65536) (h : encodeCode false addr e d s i0 = .ok i) (he : i.err = .OK) :
    i0.err = .OK ∧ ((encShape e).dp = false → d.err = .OK) ∧ ((encShape e).sp = false → s.err = .OK) ∧
      ∃ f vD vS, f ∈ gotB (bitsMode e) (bitsX e (keyOf d) (keyOf s)) ∧ Fit addr (codeD e) vD ∧
      Fit addr (codeS e) vS ∧
      i.bytes = i0.bytes ++ ((e.opcode ||| f) % 256 :: (tail (codeD e) vD ++ tail (codeS e) vS)) := by
  unfold encodeCode at h
  dsimp only at h
  obtain ⟨i1, h1, h2⟩ := bind_ok h
  obtain ⟨i2, h3, h4⟩ := bind_ok h2
  injection h4 with h4
  subst h4
  rw [emitInsn_err] at he
  obtain ⟨k1, k0, f2, v2, k2, k3, k4⟩ := step h32 h3 he
  obtain ⟨j1, j0, f1, v1, j2, j3, j4⟩ := step h32 h1 k1
  refine ⟨j1, fun hx => j0 (of_decide_eq_false hx), fun hx => k0 (of_decide_eq_false hx), ?_⟩
  have eD : codeD e = if e.dst = .DST then .NONE else dstMode e := by
    unfold codeD encShape
    dsimp only
    by_cases hx : e.dst = .DST
    · rw [decide_eq_true hx, if_pos rfl, if_pos hx]
    · rw [decide_eq_false hx, if_neg (by decide), if_neg hx]
  have eS : codeS e = if e.dst ≠ .DST ∧ (e.src = .SRC ∨ e.src = .SRC16) then .NONE else srcMode e := by
    unfold codeS encShape
    dsimp only
    by_cases hx : e.dst ≠ .DST ∧ (e.src = .SRC ∨ e.src = .SRC16)
    · rw [decide_eq_true hx, if_pos rfl, if_pos hx]
    · rw [decide_eq_false hx, if_neg (by decide), if_neg hx]
  rw [← eD] at j3 j4
  rw [← eS] at k3 k4
  have hbits : bitsMode e = if (!decide (e.dst = .DST) && emits (dstMode e)) = true then dstMode e
      else if (!decide (e.dst ≠ .DST ∧ (e.src = .SRC ∨ e.src = .SRC16)) && emits (srcMode e)) = true then srcMode e
      else .NONE := rfl
  have hx : ∀ x y : Mode × Option Reg × Nat, bitsX e x y =
      if (!decide (e.dst = .DST) && emits (dstMode e)) = true then x else y := fun _ _ => rfl
  have gb : ∀ {m x f}, emits m = true → f ∈ got m x → f ∈ gotB m x := by
    intro m x f h1 h2
    unfold gotB
    split
    · rename_i hm
      rw [hm] at h2
      exact h2
    · exact h2
  have tD : (!decide (e.dst = .DST) && emits (dstMode e)) = false → tail (codeD e) v1 = [] := by
    intro hx
    rw [eD]
    split
    · rfl
    · rename_i hy
      rw [decide_eq_false hy] at hx
      exact none_tail hx _
  have tS : (!decide (e.dst ≠ .DST ∧ (e.src = .SRC ∨ e.src = .SRC16)) && emits (srcMode e)) = false →
      tail (codeS e) v2 = [] := by
    intro hx
    rw [eS]
    split
    · rfl
    · rename_i hy
      rw [decide_eq_false hy] at hx
      exact none_tail hx _
  rw [j4] at k4
  rw [k4]
  cases cD : (!decide (e.dst = .DST) && emits (dstMode e)) with
  | true =>
    rw [cD] at hbits
    rw [if_pos rfl] at hbits
    have hn : ¬ e.dst = .DST := by
      intro hx
      rw [decide_eq_true hx] at cD
      cases cD
    refine ⟨f1, v1, v2, by rw [hbits, hx, cD, if_pos rfl]; exact gb (Bool.and_eq_true _ _ ▸ cD).2 (j2 hn), j3, k3, ?_⟩
    simp [Ins.emitInsn]
  | false =>
    rw [cD, if_neg (by decide)] at hbits
    rw [tD cD]
    cases cS : (!decide (e.dst ≠ .DST ∧ (e.src = .SRC ∨ e.src = .SRC16)) && emits (srcMode e)) with
    | true =>
      rw [cS, if_pos rfl] at hbits
      have hn : ¬(e.dst ≠ .DST ∧ (e.src = .SRC ∨ e.src = .SRC16)) := by
        intro hx
        rw [decide_eq_true hx] at cS
        cases cS
      refine ⟨f2, v1, v2, by rw [hbits, hx, cD, if_neg (by decide)]; exact gb (Bool.and_eq_true _ _ ▸ cS).2 (k2 hn), j3, k3, ?_⟩
      rw [tD cD]
      simp [Ins.emitInsn]
    | false =>
      rw [cS, if_neg (by decide)] at hbits
      refine ⟨0, v1, v2, by rw [hbits]; exact List.mem_singleton.2 rfl, j3, k3, ?_⟩
      rw [tD cD, tS cS]
      simp [Ins.emitInsn]

/-- The bytes of the prefix. -/
theorem prefix_fit {addr q : Nat} {e : Entry} {d s : Operand} {i : Ins} (h32 : addr < 65536) (hq : q ≠ 0) (hem : emits (preMode e) = true)
    (h : encodePrefix false addr q e d s = .ok i) (he : i.err = .OK) :
    ((encShape e).dp = true → d.err = .OK) ∧ ((encShape e).dp = false → (encShape e).sp = true → s.err = .OK) ∧
    ∃ f v, f ∈ gotB (preMode e) (preX e (keyOf d) (keyOf s)) ∧
      (preMode e = .EXT → v = (preX e d s).val.getUnsigned % 65536) ∧ Fit addr (preMode e) v ∧
      i.bytes = (q ||| f) % 256 :: tail (preMode e) v := by
  have key : ∀ {m : Mode} {op : Operand}, preMode e = m → encodeOperand false addr m op q ⟨.OK, [], true⟩ = .ok i →
      op.err = .OK ∧ ∃ f v, f ∈ gotB (preMode e) (keyOf op) ∧ (preMode e = .EXT → v = op.val.getUnsigned % 65536) ∧
        Fit addr (preMode e) v ∧ i.bytes = (q ||| f) % 256 :: tail (preMode e) v := by
    intro m op h3 h4
    obtain ⟨_, g0, f, v, g1, gv, g2, g3⟩ := enc_fit h32 h4 he
    subst h3
    refine ⟨g0, f, v, ?_, gv, g2, ?_⟩
    · unfold gotB
      split
      · rename_i hm
        rw [hm] at g1
        exact g1
      · exact g1
    · rw [g3, hem]
      rfl
  unfold encodePrefix at h
  rw [if_neg hq] at h
  split at h
  · rename_i hx
    have hdp : (encShape e).dp = true := decide_eq_true hx
    have hm : preMode e = dstMode e := by
      unfold preMode
      rw [hdp]
      rfl
    obtain ⟨k1, k2⟩ := key hm h
    refine ⟨fun _ => k1, fun h => (by rw [hdp] at h; cases h), ?_⟩
    unfold preX
    rw [hdp]
    exact k2
  · rename_i hx
    have hdp : (encShape e).dp = false := decide_eq_false hx
    have hX : ∀ {α : Type} (x y : α), preX e x y = y := by
      intro α x y
      unfold preX
      rw [hdp]
      rfl
    refine ⟨fun h => (by rw [hdp] at h; cases h), ?_⟩
    rw [hX, hX]
    split at h
    · rename_i hy
      have hsp : (encShape e).sp = true := decide_eq_true ⟨hx, hy⟩
      have hm : preMode e = srcMode e := by
        unfold preMode
        rw [hdp, hsp]
        rfl
      obtain ⟨k1, k2⟩ := key hm h
      exact ⟨fun _ _ => k1, k2⟩
    · rename_i hy
      injection h with h
      subst h
      have hsp : (encShape e).sp = false := decide_eq_false (fun h => hy h.2)
      have hp : preMode e = .NONE := by
        unfold preMode
        rw [hdp, hsp]
        rfl
      rw [hp]
      refine ⟨fun _ h => (by rw [hsp] at h; cases h), 0, 0, List.mem_singleton.2 rfl, (fun h => nomatch h),
        fit_plain 0 rfl, ?_⟩
      rw [Nat.or_zero]
      rfl

theorem bits_fields {e : Entry} {d s : Operand} {f : Nat} (hd : Parsed d) (hs : Parsed s)
    (ha : acceptModes d.mode s.mode e = true) (h : f ∈ gotB (bitsMode e) (bitsX e (keyOf d) (keyOf s))) :
    f ∈ fields (bitsMode e) ∨ (bitsMode e = .CC ∧ f = 239) := by
  unfold acceptModes at ha
  rw [Bool.and_eq_true] at ha
  unfold gotB at h
  split at h
  · rename_i hm
    rw [hm]
    exact Or.inl h
  · rename_i hm
    unfold bitsX at h
    unfold bitsMode at h hm ⊢
    split at h
    · rename_i hc
      rw [if_pos hc]
      exact got_fields hd ha.1 h
    · rename_i hc
      rw [if_neg hc] at hm ⊢
      split at h
      · rename_i hc2
        rw [if_pos hc2]
        exact got_fields hs ha.2 h
      · rename_i hc2
        rw [if_neg hc2] at hm
        exact absurd rfl hm

theorem pre_fields {e : Entry} {d s : Operand} {f : Nat} (hd : Parsed d) (hs : Parsed s)
    (ha : acceptModes d.mode s.mode e = true) (hcc : preMode e ≠ .CC)
    (h : f ∈ gotB (preMode e) (preX e (keyOf d) (keyOf s))) : f ∈ fields (preMode e) := by
  unfold acceptModes at ha
  rw [Bool.and_eq_true] at ha
  unfold gotB at h
  split at h
  · rename_i hm
    rw [hm]
    exact h
  · rename_i hm
    unfold preX at h
    unfold preMode at h hm hcc ⊢
    split at h
    · rename_i hc
      rw [if_pos hc] at hcc ⊢
      exact (got_fields hd ha.1 h).resolve_right (fun h => hcc h.1)
    · rename_i hc
      rw [if_neg hc] at hm hcc ⊢
      split at h
      · rename_i hc2
        rw [if_pos hc2] at hcc ⊢
        exact (got_fields hs ha.2 h).resolve_right (fun h => hcc h.1)
      · rename_i hc2
        rw [if_neg hc2] at hm
        exact absurd rfl hm

/-! ### Second encodings -/

/-- The entry is the one that is found for two operands. -/
def foundB (q : Nat) (e : Entry) (d s : Mode) : Bool :=
  match searchFast e.name d s with
  | some (.ok (q', e')) => q' == q && e' == e
  | _ => false

/-- Another entry is found for the operands that would make a second encoding of this one. -/
def secondB (q : Nat) (e : Entry) : Bool :=
  ((presOf q e).all fun pre => (fields (bitsMode e)).all fun f => !twinB pre ((e.opcode ||| f) % 256) true) ||
  allOps.all fun x => x.1 == .SYM || !acceptMode x.1 (dstMode e) ||
  allOps.all fun y => y.1 == .SYM || !acceptMode y.1 (srcMode e) ||
    ((if q = 0 then [0] else (gotB (preMode e) (preX e x y)).map fun f => (q ||| f) % 256).all fun pre =>
      (gotB (bitsMode e) (bitsX e x y)).all fun f =>
        !twinB pre ((e.opcode ||| f) % 256) ((preX e x y).1 != .EXT)) || !foundB q e x.1 y.1

set_option maxRecDepth 20000 in
theorem second_ok : ∀ p ∈ fast, ∀ e ∈ p.entries, secondB p.prefix_ e = true := by decide +kernel

theorem twin_mono {pre c : Nat} {b : Bool} (h : twinB pre c b = true) : twinB pre c true = true := by
  cases b with
  | true => exact h
  | false =>
    unfold twinB at h ⊢
    split at h
    all_goals first
      | exact h
      | rfl
      | (rw [Bool.and_comm, Bool.and_false, Bool.or_false] at h
         rw [h]
         rfl)
      | (rw [Bool.false_and, Bool.or_false] at h
         rw [h]
         rfl)

theorem twin_plain {c : Nat} {rest : List Nat} (hc : pfx c = none) (h : Spec.Twin (c :: rest) = true) :
    twinB 0 c true = true := by
  show (c == 0x2e || c == 0x4a) = true
  unfold Spec.Twin at h
  split at h
  · rename_i h1
    injection h1 with h1 h2
    subst h1
    rfl
  · rename_i h1
    injection h1 with h1 h2
    subst h1
    rfl
  all_goals first
    | (rename_i h1
       injection h1 with h1 h2
       subst h1
       exact absurd hc (by decide))
    | cases h
    | (rename_i h1
       injection h1 with h1 h2
       subst h1
       simp only [Bool.and_eq_true, Bool.or_eq_true, beq_iff_eq] at h
       rcases h.1 with (((rfl | rfl) | rfl) | rfl) | rfl <;> exact absurd hc (by decide))

theorem twin_pre {pre c : Nat} {t rest : List Nat} (hp : pre ∈ prefixes)
    (ht : t.length = tl ((pfx pre).getD .NONE)) (h : Spec.Twin (pre :: (t ++ c :: rest)) = true) :
    twinB pre c (t[1]? == some 0xff) = true := by
  have key : (t = [] ∨ (∃ a, t = [a]) ∨ ∃ a b, t = [a, b]) := by
    match t with
    | [] => exact Or.inl rfl
    | [a] => exact Or.inr (Or.inl ⟨a, rfl⟩)
    | [a, b] => exact Or.inr (Or.inr ⟨a, b, rfl⟩)
    | a :: b :: c :: t =>
      exfalso
      have := (by decide +kernel : ∀ p ∈ prefixes, tl ((pfx p).getD .NONE) ≤ 2) pre hp
      simp only [List.length_cons] at ht
      omega
  simp only [prefixes, List.mem_cons, List.not_mem_nil, or_false] at hp
  rcases key with rfl | ⟨a, rfl⟩ | ⟨a, b, rfl⟩ <;>
  rcases hp with rfl | rfl | rfl | rfl | rfl | rfl | rfl | rfl | rfl | rfl | rfl | rfl | rfl | rfl | rfl | rfl |
    rfl | rfl | rfl | rfl | rfl | rfl | rfl | rfl | rfl | rfl | rfl | rfl | rfl | rfl | rfl <;> first
    | exact absurd (show 0 = _ from ht) (by decide)
    | exact absurd (show 1 = _ from ht) (by decide)
    | exact absurd (show 2 = _ from ht) (by decide)
    | exact h

theorem cmp_congr : ∀ {a b : List Char}, '\x00' ∉ a → '\x00' ∉ b → Table.strcasecmp a b = 0 → ∀ c,
    Table.strcasecmp a c = Table.strcasecmp b c := by
  have pos : ∀ c : Char, c ≠ '\x00' → Table.low c ≠ 0 := by
    intro c hc h
    have := (Table.strcasecmp_zero (a := [c]) (b := []) (fun h => hc (List.mem_singleton.1 h).symm) (fun h => nomatch h)).1
      (show Table.low c - 0 = 0 by omega)
    have := congrArg List.length this
    rw [Table.key_length, Table.key_length] at this
    cases this
  intro a
  induction a with
  | nil =>
    intro b _ hb h c
    cases b with
    | nil => rfl
    | cons y b =>
      have h : 0 - Table.low y = 0 := h
      exact absurd (show Table.low y = 0 by omega) (pos y (fun hx => hb (by rw [hx]; simp)))
  | cons x a ih =>
    intro b ha hb h c
    cases b with
    | nil =>
      have h : Table.low x - 0 = 0 := h
      exact absurd (show Table.low x = 0 by omega) (pos x (fun hx => ha (by rw [hx]; simp)))
    | cons y b =>
      have h : (if Table.low x = Table.low y then Table.strcasecmp a b else Table.low x - Table.low y) = 0 := h
      by_cases hxy : Table.low x = Table.low y
      · rw [if_pos hxy] at h
        have := ih (fun hx => ha (List.mem_cons_of_mem _ hx)) (fun hx => hb (List.mem_cons_of_mem _ hx)) h
        cases c with
        | nil => simp only [Table.strcasecmp, hxy]
        | cons z c => simp only [Table.strcasecmp, hxy, this]
      · rw [if_neg hxy] at h
        exact absurd (show Table.low x = Table.low y by omega) hxy

/-- The entry that is found for the name of a line is found for its own name. -/
theorem found_own {word : List Char} {q : Nat} {e : Entry} {d s : Mode} (hw : '\x00' ∉ word) (hn : '\x00' ∉ e.name)
    (hc : Table.strcasecmp word e.name = 0)
    (h : Table.searchName (fun e : Entry => Table.strcasecmp word e.name) (fun _ e => acceptModes d s e) pages false =
      some (.ok (q, e))) : foundB q e d s = true := by
  unfold foundB searchFast
  rw [← pages_eq, ← funext (fun x : Entry => cmp_congr hw hn hc x.name), h]
  simp

/-- What is assembled is no second encoding. -/
theorem not_twin {q f0 f v0 : Nat} {e : Entry} {d s : Operand} {bytes rest : List Nat} (hok : secondB q e = true)
    (hd : Parsed d) (hs : Parsed s) (ha : acceptModes d.mode s.mode e = true) (hfound : foundB q e d.mode s.mode = true)
    (hdn : Near d) (hsn : Near s) (hde : d.err = .OK) (hse : s.err = .OK)
    (hpf : if q = 0 then 0 ∈ presOf q e else (q ||| f0) % 256 ∈ presOf q e)
    (hf : f ∈ fields (bitsMode e)) (hgot : f ∈ gotB (bitsMode e) (bitsX e (keyOf d) (keyOf s)))
    (hgot0 : q ≠ 0 → f0 ∈ gotB (preMode e) (preX e (keyOf d) (keyOf s)))
    (hv : preMode e = .EXT → v0 = (preX e d s).val.getUnsigned % 65536)
    (hfirst : q = 0 → pfx ((e.opcode ||| f) % 256) = none)
    (hpre : q ≠ 0 → (q ||| f0) % 256 ∈ prefixes ∧ tl ((pfx ((q ||| f0) % 256)).getD .NONE) = tl (preMode e))
    (hb : bytes = (if q = 0 then [] else (q ||| f0) % 256 :: tail (preMode e) v0) ++ ((e.opcode ||| f) % 256 :: rest)) :
    Spec.Twin bytes = false := by
  have ha' := ha
  unfold acceptModes at ha'
  rw [Bool.and_eq_true] at ha'
  cases ht : Spec.Twin bytes with
  | false => rfl
  | true =>
    exfalso
    rw [hb] at ht
    have hX : (preX e (keyOf d) (keyOf s)).1 = (preX e d s).mode := by
      unfold preX
      split <;> rfl
    -- the prefix and the code are those of a second encoding
    have key : ∃ pre, pre ∈ presOf q e ∧
        pre ∈ (if q = 0 then [0] else (gotB (preMode e) (preX e (keyOf d) (keyOf s))).map fun f => (q ||| f) % 256) ∧
        twinB pre ((e.opcode ||| f) % 256) ((preX e (keyOf d) (keyOf s)).1 != .EXT) = true := by
      by_cases h0 : q = 0
      · rw [if_pos h0] at ht hpf
        refine ⟨0, hpf, by rw [if_pos h0]; simp, ?_⟩
        exact twin_plain (hfirst h0) ht
      · rw [if_neg h0] at ht hpf
        refine ⟨(q ||| f0) % 256, hpf, by rw [if_neg h0]; exact List.mem_map.2 ⟨f0, hgot0 h0, rfl⟩, ?_⟩
        obtain ⟨p1, p2⟩ := hpre h0
        have := twin_pre p1 (t := tail (preMode e) v0) (by
          rw [p2]
          unfold tl
          rw [tail_eq (preMode e) v0, tail_eq (preMode e) 0]
          split
          · rfl
          · split <;> rfl) ht
        by_cases hm : (preX e d s).mode = .EXT
        · rw [hX, hm]
          have hlow : (preX e d s).val.getUnsigned < 0xff00 := by
            unfold preX at hm ⊢
            split at hm
            · rename_i h; rw [if_pos h]; exact (hdn hde).2 hm
            · rename_i h; rw [if_neg h]; exact (hsn hse).2 hm
          have hmode : preMode e = .EXT ∨ preMode e = .NONE := by
            have hE : ∀ m, acceptMode .EXT m = true → m = .EXT := by
              intro m h
              unfold acceptMode at h
              split at h
              · rename_i h'; exact h'.symm
              · cases h
            unfold preX at hm
            unfold preMode
            split at hm
            · rename_i h
              rw [if_pos h]
              rw [hm] at ha'
              exact Or.inl (hE _ ha'.1)
            · rename_i h
              rw [if_neg h]
              split
              · rw [hm] at ha'
                exact Or.inl (hE _ ha'.2)
              · exact Or.inr rfl
          rcases hmode with hm | hm
          · have hv := hv hm
            rw [hm] at this
            have hne : ([v0 % 256, v0 / 256][1]? == some 0xff) = false := by
              show (v0 / 256 == 0xff) = false
              rw [beq_eq_false_iff_ne]
              omega
            have this : twinB _ _ ([v0 % 256, v0 / 256][1]? == some 0xff) = true := this
            rw [hne] at this
            exact this
          · rw [hm] at this
            exact this
        · rw [hX, show ((preX e d s).mode != .EXT) = true by simpa using hm]
          exact twin_mono this
    obtain ⟨pre, k1, k2, k3⟩ := key
    unfold secondB at hok
    rw [Bool.or_eq_true] at hok
    rcases hok with hok | hok
    · have := List.all_eq_true.1 (List.all_eq_true.1 hok pre k1) f hf
      rw [twin_mono k3] at this
      cases this
    · have h1 := List.all_eq_true.1 hok (keyOf d) hd
      have hsym : ∀ {op : Operand}, op.mode ≠ .SYM → ((keyOf op).1 == Mode.SYM) = false :=
        fun h => beq_eq_false_iff_ne.2 h
      rw [show acceptMode (keyOf d).1 (dstMode e) = true from ha'.1, hsym (hdn hde).1, Bool.not_true, Bool.false_or,
        Bool.false_or] at h1
      have h2 := List.all_eq_true.1 h1 (keyOf s) hs
      rw [show acceptMode (keyOf s).1 (srcMode e) = true from ha'.2, hsym (hsn hse).1, Bool.not_true, Bool.false_or,
        Bool.false_or, show foundB q e (keyOf d).1 (keyOf s).1 = true from hfound, Bool.not_true, Bool.or_false] at h2
      have h3 := List.all_eq_true.1 (List.all_eq_true.1 h2 pre k2) f hgot
      rw [k3] at h3
      cases h3

/-! ### Decoding -/

theorem one_back {o : Opts} {addr c : Nat} {own pm m : Mode} {P : DOp} {v : Nat} {rest bs : List Nat}
    (hb : tl m ≠ 0 → addr + 2 ≤ 65536) (hf : Fit addr m v) (hr : regOk c m = true) (hm : m ≠ .IDX ∧ m ≠ .IXPD)
    (hpm : pm ≠ .REL8 ∧ pm ≠ .REL16) (hown : tl own = 0) :
    (decodeOne o addr c own pm P m ⟨tail m v ++ rest, bs, .OK⟩).2 = ⟨rest, bs ++ tail m v, .OK⟩ := by
  have ok : ∀ r : Rd, r.err = .OK → r.setErrorIf .OK = r := by
    rintro ⟨a, b, c⟩ h
    have h : c = .OK := h
    subst h
    rfl
  unfold decodeOne
  split
  · rename_i h
    subst h
    rw [List.eq_nil_of_length_eq_zero (show (tail m v).length = 0 by
      have := hown
      unfold tl at this
      rw [tail_eq, if_neg (by omega), if_neg (by omega)]
      rfl), out_err hpm, ok _ rfl]
    simp
  · have reg : ∀ {x : Option Reg}, x.isSome = true → ∀ r, checkReg x r = r := by
      intro x hx r
      unfold checkReg
      rw [if_neg (by intro h; rw [h] at hx; cases hx)]
    have target : ∀ x, relTarget addr x < 65536 → Config.checkAddr 16 (relTarget addr x) false = .OK :=
      fun x h => Config.checkAddr_ok (by decide) h
    unfold regOk at hr
    unfold readOperand
    cases m with
    | IDX => exact absurd rfl hm.1
    | IXPD => exact absurd rfl hm.2
    | IMM8 | DIR =>
      have h1 := hf.range.1 rfl
      dsimp only [tail, List.cons_append, List.nil_append, Rd.byte]
      rw [Nat.mod_eq_of_lt h1, out_err (by decide), ok _ rfl]
    | REL8 =>
      have h1 := hf.range.1 rfl
      have h2 := hf.rel8 rfl (hb (by decide))
      dsimp only [tail, List.cons_append, List.nil_append, Rd.byte]
      rw [Nat.mod_eq_of_lt h1]
      dsimp only [outOperand]
      rw [target _ h2, ok _ rfl]
    | IMM16 | EXT =>
      have h1 := hf.range.2 rfl
      dsimp only [tail, List.cons_append, List.nil_append, Rd.byte, Rd.le16]
      rw [Nat.mod_mod, Nat.mod_eq_of_lt (show v / 256 < 256 by omega), out_err (by decide), ok _ rfl]
      simp
    | REL16 =>
      have h1 := hf.range.2 rfl
      have h2 := hf.rel16 rfl (hb (by decide))
      dsimp only [tail, List.cons_append, List.nil_append, Rd.byte, Rd.le16]
      rw [Nat.mod_mod, Nat.mod_eq_of_lt (show v / 256 < 256 by omega), show v / 256 * 256 + v % 256 = v by omega]
      dsimp only [outOperand]
      rw [target _ h2, ok _ rfl]
      simp
    | STACK | REG8 | REG16 | REGIX =>
      dsimp only [tail, List.nil_append]
      rw [reg hr, out_err (by decide), ok _ rfl]
      simp
    | R r =>
      dsimp only [tail, List.nil_append]
      rw [out_err (M := .R r) ⟨Mode.noConfusion, Mode.noConfusion⟩, ok _ rfl]
      simp
    | _ =>
      dsimp only [tail, List.nil_append]
      rw [out_err (by decide), ok _ rfl]
      simp

theorem kind_fit {addr : Nat} {a b : Mode} {v : Nat} (h : kindB a b = true) (hf : Fit addr a v) :
    Fit addr b v ∧ tail b v = tail a v ∧ tl b = tl a := by
  unfold kindB at h
  rw [Bool.or_eq_true, Bool.and_eq_true, beq_iff_eq, beq_iff_eq, beq_iff_eq] at h
  rcases h with rfl | ⟨h1, h2⟩
  · exact ⟨hf, rfl, rfl⟩
  · exact ⟨fit_plain v h2, tail_len (show tl b = tl a by omega) v, by omega⟩

theorem tail_nil {m : Mode} (h : tl m = 0) (v : Nat) : tail m v = [] := by
  unfold tl at h
  rw [tail_eq, if_neg (by omega), if_neg (by omega)]

/-- The operands of the entry that is found. -/
theorem dec_back {o : Opts} {addr c : Nat} {e2 : Entry} {P : DOp} {D S : Mode} {v w : Nat} {more bs : List Nat}
    (h : fitB c e2 D S = true) (hD : Fit addr D v) (hS : Fit addr S w)
    (hb : tl D ≠ 0 ∨ tl S ≠ 0 → addr + 2 ≤ 65536) :
    (decodeOperands o addr c e2 P ⟨tail D v ++ (tail S w ++ more), bs, .OK⟩).2 =
      ⟨more, bs ++ (tail D v ++ tail S w), .OK⟩ := by
  unfold fitB at h
  simp only [Bool.and_eq_true, bne_iff_ne, Bool.or_eq_true, beq_iff_eq, ne_eq] at h
  obtain ⟨⟨⟨⟨⟨⟨⟨⟨⟨p1, p2⟩, r1⟩, r2⟩, d1⟩, d2⟩, s1⟩, s2⟩, hn⟩, hk⟩ := h
  -- what the first and the second operand read
  have key : ∃ x y, Fit addr e2.dst x ∧ Fit addr e2.src y ∧ tail D v ++ tail S w = tail e2.dst x ++ tail e2.src y ∧
      (tl e2.dst ≠ 0 ∨ tl e2.src ≠ 0 → addr + 2 ≤ 65536) := by
    rcases hk with ⟨k1, k2⟩ | ⟨⟨k1, k2⟩, k3⟩
    · obtain ⟨a1, a2, a3⟩ := kind_fit k1 hD
      obtain ⟨b1, b2, b3⟩ := kind_fit k2 hS
      exact ⟨v, w, a1, b1, by rw [a2, b2], by rw [a3, b3]; exact hb⟩
    · obtain ⟨a1, a2, a3⟩ := kind_fit k3 hD
      refine ⟨0, v, fit_plain 0 k1, a1, ?_, ?_⟩
      · rw [tail_nil k2, tail_nil k1, a2]
        simp
      · rw [a3]
        rintro (h | h)
        · exact absurd k1 h
        · exact hb (Or.inl h)
  obtain ⟨x, y, fx, fy, hxy, hb2⟩ := key
  rw [← List.append_assoc, hxy, List.append_assoc]
  unfold decodeOperands
  split
  · rename_i h0
    have h1 : tl e2.src = 0 := hn.resolve_left (fun h => h h0)
    rw [h0, tail_nil h1]
    simp [tail]
  · dsimp only
    have o1 := one_back (o := o) (c := c) (own := .DST) (pm := e2.page) (P := P) (rest := tail e2.src y ++ more) (bs := bs)
      (fun h => hb2 (Or.inl h)) fx r1 ⟨d1, d2⟩ ⟨p1, p2⟩ rfl
    split
    · rename_i h0
      rw [o1, h0]
      simp [tail]
    · rw [o1]
      dsimp only
      have o2 := one_back (o := o) (c := c) (own := .SRC) (pm := e2.page) (P := P) (rest := more) (bs := bs ++ tail e2.dst x)
        (fun h => hb2 (Or.inr h)) fy r2 ⟨s1, s2⟩ ⟨p1, p2⟩ rfl
      rw [o2, List.append_assoc]

theorem prefix_read {addr pre : Nat} {m pm : Mode} {v : Nat} {rest bs : List Nat} (hp : pfx pre = some m)
    (ht : tl m = tl pm) (hf : Fit addr pm v) :
    (readPrefix pre m ⟨tail pm v ++ rest, bs, .OK⟩).2 = ⟨rest, bs ++ tail pm v, .OK⟩ := by
  have hm : m ∈ [Mode.DIR, .EXT, .IND, .BASE, .IDX, .REG8] := by
    unfold pfx at hp
    split at hp <;> first | (injection hp with hp; subst hp; decide) | cases hp
  rw [← tail_len ht v]
  unfold readPrefix
  cases m with
  | DIR | IDX =>
    have h1 := hf.range.1 ht.symm
    dsimp only [tail, List.cons_append, List.nil_append, Rd.byte]
    rw [Nat.mod_eq_of_lt h1]
  | EXT =>
    have h1 := hf.range.2 ht.symm
    dsimp only [tail, List.cons_append, List.nil_append, Rd.byte, Rd.le16]
    rw [Nat.mod_mod, Nat.mod_eq_of_lt (show v / 256 < 256 by omega)]
    simp
  | IND | BASE | REG8 => simp [tail]
  | _ => simp at hm

/-! ### Instructions -/

/-- What the check of an entry says. -/
structure Backs (q : Nat) (e : Entry) : Prop where
  nul : '\x00' ∉ e.name
  short : e.name.length < 11
  eqs : '=' ∉ e.name
  plain : q = 0 → (encShape e).dp = false ∧ (encShape e).sp = false
  emit : q ≠ 0 → emits (preMode e) = true
  cc : preMode e ≠ .CC
  pres : q ≠ 0 → ∀ p ∈ presOf q e, p ∈ prefixes ∧ tl ((pfx p).getD .NONE) = tl (preMode e)
  first : q = 0 → ∀ f ∈ fields (bitsMode e), pfx ((e.opcode ||| f) % 256) = none
  second : (encShape e).s ≠ .CC
  cond : (encShape e).d = .CC → (e.opcode = 0xc0 ∨ e.opcode = 0xd0) ∧ (encShape e).dp = false ∧
    (q = 0 → e.opcode = 0xc0 ∧ codeS e = .REL8) ∧
    (q ≠ 0 → tl (codeS e) = 0 ∧ ∀ p ∈ presOf q e, ccPre p (tl (preMode e)) = true)
  find : ∀ x ∈ classes, x.2 = false → ∀ p ∈ presOf q e, p ∈ x.1 → ∀ f ∈ fields (bitsMode e),
    findB (presOf q e) (x.1.headD 0) ((e.opcode ||| f) % 256) e (codeD e) (codeS e) = true

theorem backs_of {q : Nat} {e : Entry} (h : backB q e = true) : Backs q e := by
  unfold backB at h
  simp only [Bool.and_eq_true, Bool.or_eq_true, bne_iff_ne, beq_iff_eq, decide_eq_true_eq, Bool.not_eq_true',
    List.all_eq_true, ne_eq, List.contains_iff_mem, Option.isNone_iff_eq_none] at h
  obtain ⟨⟨⟨⟨⟨⟨⟨⟨⟨⟨⟨⟨a1, a2⟩, a3⟩, a4⟩, a5⟩, a6⟩, a7⟩, a8⟩, a9⟩, a10⟩, a11⟩, a12⟩, a13⟩ := h
  refine ⟨a1, a2, a3, fun h => ?_, fun h => ?_, a8, fun h => ?_, fun h => ?_, a11, fun h => ?_, ?_⟩
  · exact a4.resolve_left (fun h' => h' h)
  · exact a5.resolve_left h
  · exact a9.resolve_left h
  · exact a10.resolve_left (fun h' => h' h)
  · obtain ⟨⟨b1, b2⟩, b3⟩ := a12.resolve_left (fun h' => h' h)
    refine ⟨b1, b2, fun hq => ?_, fun hq => ?_⟩
    · rw [if_pos hq] at b3
      simpa using b3
    · rw [if_neg hq] at b3
      simpa using b3
  · intro x hx h2 p hp hpx f hf
    rcases a13 x hx with (h | h) | h
    · rw [h2] at h; cases h
    · rw [Bool.eq_false_iff] at h
      exact absurd (List.any_eq_true.2 ⟨p, hp, List.contains_iff_mem.2 hpx⟩) h
    · exact h f hf

/-- The code that is found, and its operands. -/
theorem insn_fit {o : Opts} {addr q pre f : Nat} {e : Entry} {p : DOp} {v w : Nat} {more bs : List Nat} (hB : Backs q e)
    (hq : pre ∈ presOf q e) (hp : pre ∈ 0 :: prefixes) (hf : f ∈ fields (bitsMode e))
    (hD : Fit addr (codeD e) v) (hS : Fit addr (codeS e) w)
    (hb : tl (codeD e) ≠ 0 ∨ tl (codeS e) ≠ 0 → addr + 2 ≤ 65536) {d : Dis}
    (hd : d = decodeInsn o addr pre ((e.opcode ||| f) % 256) p
      ⟨tail (codeD e) v ++ (tail (codeS e) w ++ more), bs, .OK⟩) :
    d.err = .OK ∧ d.bytes = bs ++ (tail (codeD e) v ++ tail (codeS e) w) ∧ d.name = outText o e.name := by
  obtain ⟨x, hx, h1, h2⟩ := classes_all pre hp false (fun h => nomatch h)
  have hfind := hB.find x hx h2 pre hq h1 f hf
  unfold findB at hfind
  rw [← classes_same x hx pre h1] at hfind
  rw [hd]
  unfold decodeInsn
  rw [search_eq hp]
  cases hs : (hits pre).find? (matchOpCode ((e.opcode ||| f) % 256)) with
  | none => rw [hs] at hfind; cases hfind
  | some e2 =>
    rw [hs] at hfind
    dsimp only at hfind ⊢
    rw [Bool.and_eq_true, Bool.and_eq_true, beq_iff_eq] at hfind
    obtain ⟨⟨g1, g2⟩, g3⟩ := hfind
    by_cases h16 : e2.src = .SRC16
    · rw [if_pos h16]
      rw [if_pos h16] at g2
      rw [h16] at g3
      have hi : invalidCode pre .REG16 = false := by
        rcases Bool.or_eq_true _ _ ▸ g3 with h | h
        · exact absurd h (by decide)
        · simpa using List.all_eq_true.1 h pre hq
      rw [hi, if_neg (by decide), dec_back g2 hD hS hb, g1]
      exact ⟨rfl, rfl, rfl⟩
    · rw [if_neg h16]
      rw [if_neg h16] at g2
      rw [dec_back g2 hD hS hb, g1]
      exact ⟨rfl, rfl, rfl⟩

theorem tail_length (m : Mode) (v : Nat) : (tail m v).length = tl m := by
  unfold tl
  rw [tail_eq m v, tail_eq m 0]
  split
  · rfl
  · split <;> rfl

/-- A condition that is none. -/
theorem garbled {q pre v0 v w : Nat} {e : Entry} (hB : Backs q e) (hc : bitsMode e = .CC) (hq : pre ∈ presOf q e)
    {bytes : List Nat} (hb : bytes = (if q = 0 then [] else pre :: tail (preMode e) v0) ++
      ((e.opcode ||| 239) % 256 :: (tail (codeD e) v ++ tail (codeS e) w))) : Spec.Garbled bytes = true := by
  have hd : (encShape e).d = .CC := by
    unfold bitsMode at hc
    split at hc
    · exact hc
    · split at hc
      · exact absurd hc hB.second
      · cases hc
  obtain ⟨c1, c2, c3, c4⟩ := hB.cond hd
  have hD : codeD e = .CC := by
    unfold codeD
    rw [c2, if_neg (by decide), hd]
  rw [hD] at hb
  by_cases h0 : q = 0
  · obtain ⟨h1, h2⟩ := c3 h0
    rw [h1, h2, if_pos h0] at hb
    subst hb
    rfl
  · obtain ⟨h1, h2⟩ := c4 h0
    rw [if_neg h0, tail_nil h1] at hb
    have hp := h2 pre hq
    have hlen := tail_length (preMode e) v0
    have hcode : ((e.opcode ||| 239) % 256 == 0xef || (e.opcode ||| 239) % 256 == 0xff) = true := by
      rcases c1 with h | h <;> rw [h] <;> rfl
    unfold ccPre at hp
    rw [Bool.or_eq_true, Bool.or_eq_true, Bool.and_eq_true, Bool.and_eq_true, Bool.and_eq_true, beq_iff_eq, beq_iff_eq,
      beq_iff_eq, beq_iff_eq] at hp
    generalize (e.opcode ||| 239) % 256 = c at hb hcode
    generalize tail (preMode e) v0 = t at hb hlen
    rcases hp with (⟨p1, p2⟩ | ⟨p1, p2⟩) | ⟨p1, p2⟩
    · rw [p2] at hlen
      rw [List.eq_nil_of_length_eq_zero hlen] at hb
      have hb : bytes = [pre, c] := hb
      rw [hb]
      unfold Spec.Garbled
      split <;> simp_all
    · rw [p2] at hlen
      obtain ⟨y, rfl⟩ := List.length_eq_one_iff.1 hlen
      have hb : bytes = [pre, y, c] := hb
      rw [hb]
      unfold Spec.Garbled
      simp_all
    · rw [p2] at hlen
      obtain ⟨y, z, rfl⟩ : ∃ y z, t = [y, z] := by
        match t, hlen with
        | [y, z], _ => exact ⟨y, z, rfl⟩
      have hb : bytes = [pre, y, z, c] := hb
      rw [hb]
      unfold Spec.Garbled
      simp_all

theorem alnum (c : Char) (h : Ctype.isAlnum c = true) : syntaxOf.instructionLetter c = true :=
  show prefixSymbol none (some ['_', '?']) false c = true from prefixSymbol_alnum h

/-- What is known of a line that was assembled. -/
theorem line_back {E : Env} {addr : Nat} {line : List Char} {bytes : List Nat} {rest : Scan}
    (h32 : addr < 2 ^ 32)
    (h : assemble E false addr line = .ok (.insn ⟨.OK, bytes, rest⟩))
    (hgar : Spec.Garbled bytes = false)
    (hend : addr + bytes.length ≤ 2 ^ 16) (o : Opts) (more : List Nat) :
    bytes ≠ [] ∧ Spec.Twin bytes = false ∧ (disassemble o addr (bytes ++ more)).err = .OK ∧
    (disassemble o addr (bytes ++ more)).bytes = bytes ∧
    WrittenAs line (disassemble o addr (bytes ++ more)).name := by
  obtain ⟨word, scan, hi, haddr, hw, blanks, tl', hline, hblank⟩ :=
    encode_line_inv (by decide) rfl h
  have ha := Z80.checkAddr_lt haddr (by unfold Config.W; omega)
  unfold encodeImpl at hi
  obtain ⟨x, d1, d2⟩ := bind_ok hi
  cases x with
  | error e =>
    obtain ⟨e, p⟩ := e
    injection d2 with d2
    injection d2 with d2
    exact absurd d2 (operands_err (fun s e p h => parse_err h) _ _ _ _ d1)
  | ok x =>
    obtain ⟨ops, s⟩ := x
    dsimp only at d2
    obtain ⟨hpar, hl⟩ := operands_all (fun s op p h => parsed h) _ _ _ _ d1
    obtain ⟨hnear, _⟩ := operands_all (fun s op p h => near h) _ _ _ _ d1
    have hnear : ∀ n : Nat, Near ((ops[n]?).getD ({} : Operand)) := by
      intro n
      cases hn : ops[n]? with
      | none => exact mode_near (op := {}) ⟨Mode.noConfusion, Mode.noConfusion⟩
      | some op => exact hnear op (List.mem_of_getElem? hn)
    have hget : ∀ n : Nat, Parsed ((ops[n]?).getD ({} : Operand)) := by
      intro n
      cases hn : ops[n]? with
      | none => exact (by decide : (Mode.NONE, (none : Option Reg), 255) ∈ allOps)
      | some op => exact hpar op (List.mem_of_getElem? hn)
    obtain ⟨x, f1, f2⟩ := bind_ok d2
    unfold searchName at f1
    split at f1
    · rename_i x' hs
      injection f1 with f1
      subst f1
      cases x' with
      | error e =>
        injection f2 with f2
        injection f2 with f2 f3 f4
        exact absurd f2 (searchName_err hs)
      | ok x' =>
        obtain ⟨q, e⟩ := x'
        dsimp only at f2
        obtain ⟨i0, g1, f3⟩ := bind_ok f2
        obtain ⟨i, g2, f4⟩ := bind_ok f3
        injection f4 with f4
        injection f4 with f4 f5 f6
        subst f5
        obtain ⟨p, hp, rfl, hrow, hcmp, hacc⟩ := searchName_mem hs
        rw [pages_eq] at hp
        have hB : Backs p.prefix_ e := backs_of (back_ok p hp e hrow)
        have hT := second_ok p hp e hrow
        have hF := found_own (fun h => hw (List.mem_of_mem_take h)) hB.nul hcmp hs
        generalize p.prefix_ = q at hB g1 hT hF
        have hname : WrittenAs line e.name := written alnum (fun c h => by cases h) hw hB.nul hB.short hcmp hB.eqs hline
          hblank
        have hdis : disassemble o addr (i.bytes ++ more) = decodeImpl o addr (i.bytes ++ more) := by
          unfold disassemble decode
          rw [haddr]
          rfl
        rw [hdis]
        obtain ⟨k1, kd, ks, f, v, w, hgot, hD, hS, hbytes⟩ := code_fit ha g2 f4
        have hf := bits_fields (hget 0) (hget 1) hacc hgot
        have key : Spec.Twin i.bytes = false ∧ (decodeImpl o addr (i.bytes ++ more)).err = .OK ∧
            (decodeImpl o addr (i.bytes ++ more)).bytes = i.bytes ∧
            (decodeImpl o addr (i.bytes ++ more)).name = outText o e.name := by
          by_cases h0 : q = 0
          · have hi0 : i0 = ⟨.OK, [], false⟩ := by
              unfold encodePrefix at g1
              rw [if_pos h0] at g1
              injection g1 with g1
              exact g1.symm
            have hpre : 0 ∈ presOf q e := by
              unfold presOf
              rw [if_pos h0]
              exact List.mem_singleton.2 rfl
            rw [hi0] at hbytes
            have hb0 : i.bytes = (e.opcode ||| f) % 256 :: (tail (codeD e) v ++ tail (codeS e) w) := hbytes
            have hf' : f ∈ fields (bitsMode e) := by
              refine hf.resolve_right fun hx => ?_
              have := garbled (v0 := 0) hB hx.1 hpre (bytes := i.bytes) (by rw [hb0, if_pos h0, hx.2]; rfl)
              rw [this] at hgar
              cases hgar
            have hlen : tl (codeD e) ≠ 0 ∨ tl (codeS e) ≠ 0 → addr + 2 ≤ 65536 := by
              intro hx
              have := congrArg List.length hb0
              rw [List.length_cons, List.length_append, tail_length, tail_length] at this
              omega
            have hc : (e.opcode ||| f) % 256 < 256 := Nat.mod_lt _ (by decide)
            have hnp := hB.first h0 f hf'
            obtain ⟨r1, r2, r3⟩ := insn_fit (o := o) (more := more) (bs := [(e.opcode ||| f) % 256]) (p := {}) hB hpre
              (List.mem_cons_self ..) hf' hD hS hlen rfl
            have hdec : decodeImpl o addr (i.bytes ++ more) = decodeInsn o addr 0 ((e.opcode ||| f) % 256) {}
                ⟨tail (codeD e) v ++ (tail (codeS e) w ++ more), [(e.opcode ||| f) % 256], .OK⟩ := by
              rw [hb0]
              unfold decodeImpl
              dsimp only [List.cons_append, Rd.byte]
              rw [Nat.mod_mod, (pfx_eq _ hc).1, hnp, List.append_assoc]
              rfl
            rw [hdec]
            refine ⟨?_, r1, by rw [r2, hb0]; rfl, r3⟩
            exact not_twin (f0 := 0) (v0 := (preX e ((ops[0]?).getD ({} : Operand)) ((ops[1]?).getD ({} : Operand))).val.getUnsigned % 65536) hT
              (hget 0) (hget 1) hacc hF (hnear 0) (hnear 1) (kd (hB.plain h0).1) (ks (hB.plain h0).2)
              (by rw [if_pos h0]; exact hpre) hf' hgot (fun h => absurd h0 h) (fun _ => rfl) (fun _ => hB.first h0 f hf')
              (fun h => absurd h0 h) (by rw [if_pos h0]; exact hb0)
          · obtain ⟨pd, ps, f0, v0, hgot0, hv0, hF0, hi0⟩ := prefix_fit ha h0 (hB.emit h0) g1 k1
            have hpre : (q ||| f0) % 256 ∈ presOf q e := by
              unfold presOf
              rw [if_neg h0]
              exact List.mem_map.2 ⟨f0, pre_fields (hget 0) (hget 1) hacc hB.cc hgot0, rfl⟩
            have hpre' := hB.pres h0 _ hpre
            have hdp : (encShape e).sp = true → (encShape e).dp = false := by
              intro h
              exact decide_eq_false (of_decide_eq_true h).1
            have hde : ((ops[0]?).getD ({} : Operand)).err = .OK := by
              cases hc : (encShape e).dp with
              | true => exact pd hc
              | false => exact kd hc
            have hse : ((ops[1]?).getD ({} : Operand)).err = .OK := by
              cases hc : (encShape e).sp with
              | true => exact ps (hdp hc) hc
              | false => exact ks hc
            have htw : f ∈ fields (bitsMode e) → Spec.Twin i.bytes = false := fun hf' =>
              not_twin hT (hget 0) (hget 1) hacc hF (hnear 0) (hnear 1) hde hse (by rw [if_neg h0]; exact hpre) hf' hgot
                (fun _ => hgot0) hv0 (fun h => absurd h h0) (fun _ => hpre') (by rw [if_neg h0, hbytes, hi0])
            generalize (q ||| f0) % 256 = pre at hpre hi0 hpre'
            rw [hi0] at hbytes
            have hf' : f ∈ fields (bitsMode e) := by
              refine hf.resolve_right fun hx => ?_
              have := garbled (v0 := v0) hB hx.1 hpre (bytes := i.bytes) (by rw [hbytes, if_neg h0, hx.2])
              rw [this] at hgar
              cases hgar
            obtain ⟨p1, p2⟩ := hB.pres h0 pre hpre
            have hlen : tl (codeD e) ≠ 0 ∨ tl (codeS e) ≠ 0 → addr + 2 ≤ 65536 := by
              intro hx
              have := congrArg List.length hbytes
              rw [List.length_append, List.length_cons, List.length_cons] at this
              omega
            have hc : (e.opcode ||| f) % 256 < 256 := Nat.mod_lt _ (by decide)
            have hp256 : pre < 256 := (by decide : ∀ p ∈ prefixes, p < 256) pre p1
            obtain ⟨m, hm⟩ : ∃ m, pfx pre = some m :=
              Option.isSome_iff_exists.1 ((by decide +kernel : ∀ p ∈ prefixes, (pfx p).isSome = true) pre p1)
            rw [hm] at p2
            have hrd := prefix_read (addr := addr) (rest := (e.opcode ||| f) % 256 :: (tail (codeD e) v ++ (tail (codeS e) w ++ more)))
              (bs := [pre]) hm p2 hF0
            generalize hP : (readPrefix pre m ⟨tail (preMode e) v0 ++ (e.opcode ||| f) % 256 ::
              (tail (codeD e) v ++ (tail (codeS e) w ++ more)), [pre], .OK⟩).1 = P
            obtain ⟨r1, r2, r3⟩ := insn_fit (o := o) (more := more)
              (bs := [pre] ++ tail (preMode e) v0 ++ [(e.opcode ||| f) % 256]) (p := P) hB hpre
              (List.mem_cons_of_mem _ p1) hf' hD hS hlen rfl
            have hdec : decodeImpl o addr (i.bytes ++ more) = decodeInsn o addr pre ((e.opcode ||| f) % 256) P
                ⟨tail (codeD e) v ++ (tail (codeS e) w ++ more),
                  [pre] ++ tail (preMode e) v0 ++ [(e.opcode ||| f) % 256], .OK⟩ := by
              rw [show i.bytes ++ more = pre :: (tail (preMode e) v0 ++ (e.opcode ||| f) % 256 ::
                (tail (codeD e) v ++ (tail (codeS e) w ++ more))) by rw [hbytes]; simp]
              unfold decodeImpl
              rw [show (⟨pre :: (tail (preMode e) v0 ++ (e.opcode ||| f) % 256 ::
                (tail (codeD e) v ++ (tail (codeS e) w ++ more))), [], .OK⟩ : Rd).byte = (pre, ⟨tail (preMode e) v0 ++
                (e.opcode ||| f) % 256 :: (tail (codeD e) v ++ (tail (codeS e) w ++ more)), [pre], .OK⟩) by
                  dsimp only [Rd.byte]
                  rw [Nat.mod_eq_of_lt hp256]
                  rfl]
              dsimp only
              rw [(pfx_eq _ hp256).1, hm]
              dsimp only
              rw [hrd, hP]
              dsimp only [Rd.byte]
              rw [Nat.mod_mod]
              rfl
            rw [hdec]
            exact ⟨htw hf', r1, by rw [r2, hbytes]; simp, r3⟩
        obtain ⟨k0, k1, k2, k3⟩ := key
        refine ⟨by rw [hbytes]; simp, k0, k1, k2, ?_⟩
        rw [k3]
        exact WrittenAs.letters hname (outText_same o _)
    · cases f1

/-- Whatever line is assembled without error and without `smart-branch`, at any address and with any symbols, and does
not run past the end of the memory: the disassembler, with any options, reads the bytes of it, whatever follows them,
as one instruction, without error. It has the name written in the line. Excepted is what is made of a condition `C`
after an open parenthesis. What is missing of C29: that the operands are those of the line, the option `smart-branch`,
and the exceptions `C29_violated_tlcs90`. -/
theorem C29_tlcs90_partial {E : Env} {addr : Nat} {line : List Char} {bytes : List Nat} {rest : Scan}
    (h32 : addr < 2 ^ 32)
    (h : assemble E false addr line = .ok (.insn ⟨.OK, bytes, rest⟩))
    (hgar : Spec.Garbled bytes = false)
    (hend : addr + bytes.length ≤ 2 ^ 16) (o : Opts) (more : List Nat) :
    (disassemble o addr (bytes ++ more)).err = .OK ∧
    (disassemble o addr (bytes ++ more)).bytes = bytes ∧
    WrittenAs line (disassemble o addr (bytes ++ more)).name :=
  (line_back h32 h hgar hend o more).2.2

/-- `C29_tlcs90_partial` has something to say of operands of several kinds. -/
example :
    assemble noEnv false 0x3fe "  set 5, (iy - 12) ; comment".toList =
      .ok (.insn ⟨.OK, [0xf1, 0xf4, 0xbd], "; comment".toList⟩) ∧
    assemble noEnv false 0x8000 "jr nc, $+5".toList = .ok (.insn ⟨.OK, [0xcf, 3], []⟩) ∧
    assemble noEnv false 0 "call c, 1234h".toList = .ok (.insn ⟨.OK, [0xeb, 0x34, 0x12, 0xd7], []⟩) ∧
    assemble noEnv false 0 "ld (0ff34h), hl".toList = .ok (.insn ⟨.OK, [0x4f, 0x34], []⟩) ∧
    assemble noEnv false 0 "ldw (hl + a), -1".toList = .ok (.insn ⟨.OK, [0xf7, 0x3f, 0xff, 0xff], []⟩) ∧
    Spec.Garbled [0xf1, 0xf4, 0xbd] = false ∧ Spec.Garbled [0xcf, 3] = false ∧
    Spec.Garbled [0xeb, 0x34, 0x12, 0xd7] = false := by
  decide +kernel

/-- The exceptions: a register `C` after a parenthesis that is not closed is a condition without a number. The line is
assembled without error, and the bytes are no such instruction. -/
theorem C29_violated_tlcs90 :
    (assemble noEnv false 0x100 "JR (C, 104H".toList = .ok (.insn ⟨.OK, [0xef, 2], []⟩) ∧
      (disassemble (.default '$') 0x100 [0xef, 2]).err = .NO_MEMORY) ∧
    (assemble noEnv false 0x100 "RET (C".toList = .ok (.insn ⟨.OK, [0xfe, 0xff], []⟩) ∧
      (disassemble (.default '$') 0x100 [0xfe, 0xff]).err = .UNKNOWN_INSTRUCTION) ∧
    (assemble noEnv false 0x100 "JP (C, HL".toList = .ok (.insn ⟨.OK, [0xea, 0xef], []⟩) ∧
      (disassemble (.default '$') 0x100 [0xea, 0xef]).err = .UNKNOWN_INSTRUCTION) := by
  decide +kernel

/-- The name is all that C29 keeps here: the stack pointer cannot be pushed, but `PUSH SP` is taken, and is `PUSH AF`. -/
theorem push_sp :
    assemble noEnv false 0x100 "PUSH SP".toList = .ok (.insn ⟨.OK, [0x56], []⟩) ∧
    assemble noEnv false 0x100 "PUSH AF".toList = .ok (.insn ⟨.OK, [0x56], []⟩) ∧
    assemble noEnv false 0x100 "POP SP".toList = .ok (.insn ⟨.OK, [0x5e], []⟩) := by
  decide +kernel

end Libasm.Cpu.Tlcs90
