import Verif.Cpu.Back
import Verif.Cpu.Ins8060.Props
/-
C29 for the INS8060: whatever line the assembler takes, the disassembler reads the bytes of it as one
instruction of the same name.
-/
namespace Libasm.Cpu.Ins8060
open Scan Number Eval
open Tables (Row)

/-! ### What an operand may be -/

/-- The part of the code that an operand takes. -/
def fields : Mode → List Nat
  | .PNTR | .REL8 | .DISP => [0, 1, 2, 3]
  | .INDX => [0, 1, 2, 3, 4, 5, 6, 7]
  | _ => [0]

/-- The bytes after the code that an operand takes. -/
def size : Mode → Nat
  | .IMM8 | .REL8 | .DISP | .INDX => 1
  | _ => 0

/-- What an operand is: a register is a pointer where there is one. -/
def Parsed (op : Operand) : Prop :=
  op.mode ≠ .IMM8 ∧ op.mode ≠ .UNDEF ∧
  ((op.mode = .PNTR ∨ op.mode = .DISP ∨ op.mode = .INDX) → encodePointerReg op.reg ∈ fields .PNTR)

theorem parse_base {scan p rest : Scan} {auto : Bool} {op op' : Operand} (hm : op.mode = .NONE)
    (h : parseBase scan p auto op = .ok (op', rest)) : Parsed op' := by
  have none : ∀ e : Err, Parsed { op with err := e } := by
    intro e
    unfold Parsed
    simp [hm]
  unfold parseBase at h
  split at h
  · obtain ⟨⟨base, q⟩, h1, h2⟩ := bind_ok h
    dsimp only at h2
    split at h2
    · injection h2 with h2
      injection h2 with h2 h3
      subst h2
      exact none _
    · rename_i hb
      split at h2
      · injection h2 with h2
        injection h2 with h2 h3
        subst h2
        exact none _
      · injection h2 with h2
        injection h2 with h2 h3
        subst h2
        unfold Parsed
        dsimp only
        have hr : encodePointerReg base ∈ fields .PNTR := by
          revert hb
          cases base with
          | none => decide
          | some r => cases r <;> decide
        cases auto <;> simp [hr]
  · split at h
    · injection h with h
      injection h with h h3
      subst h
      exact none _
    · injection h with h
      injection h with h h3
      subst h
      unfold Parsed
      simp

theorem parsed {P : Plugins Value} {scan rest : Scan} {op : Operand}
    (h : parseOperand P scan = .ok (op, rest)) : Parsed op := by
  unfold parseOperand at h
  dsimp only at h
  split at h
  · injection h with h
    injection h with h h3
    subst h
    unfold Parsed
    simp
  · obtain ⟨⟨reg, q⟩, h1, h2⟩ := bind_ok h
    dsimp only at h2
    cases reg with
    | some r =>
      cases r with
      | E => exact parse_base rfl h2
      | _ =>
        dsimp only at h2
        injection h2 with h2
        injection h2 with h2 h3
        subst h2
        unfold Parsed
        simp [encodePointerReg, fields]
    | none =>
      dsimp only at h2
      obtain ⟨⟨val, err, q⟩, h3, h4⟩ := bind_ok h2
      dsimp only at h4
      split at h4
      · injection h4 with h4
        injection h4 with h4 h5
        subst h4
        unfold Parsed
        simp
      · exact parse_base rfl h4

/-! ### Encoding -/

theorem fields_lt {m : Mode} {x : Nat} (h : x ∈ fields m) : x < 256 := by
  revert x
  cases m <;> simp only [fields] <;> decide

/-- The bytes: the code with a field, and those of the operand. -/
def Emitted (opc : Nat) (m : Mode) (a : Asm) : Prop :=
  ∃ x ∈ fields m, ∃ bs, a.bytes = (opc ||| x) :: bs ∧ bs.length = size m ∧ ∀ b ∈ bs, b < 256

theorem emit2 {opc x : Nat} {d : Int} {m : Mode} {e : Err} (ho : opc < 256) (hx : x ∈ fields m)
    (hs : size m = 1) : Emitted opc m (((Asm.mk e opc []).embed x).emitInsn.emitByte d) := by
  refine ⟨x, hx, [(d % 256).toNat], ?_, hs.symm, ?_⟩
  · show [] ++ [(opc ||| x) % 256 % 256] ++ [(d % 256).toNat] = _
    rw [Nat.mod_mod, Nat.mod_eq_of_lt (Nat.or_lt_two_pow (n := 8) ho (fields_lt hx))]
    rfl
  · intro b hb
    rw [List.mem_singleton.1 hb]
    omega

theorem encoded_rel {addr : Nat} {m : Mode} {op : Operand} {opc : Nat} {e : Err} {a : Asm}
    (hp : op.mode = .DISP → encodePointerReg op.reg ∈ fields .PNTR) (hm : m = .REL8 ∨ m = .DISP ∨ m = .INDX)
    (ho : opc < 256) (h : encodeRel8 addr m op ⟨e, opc, []⟩ = .ok a) : Emitted opc m a := by
  have hs : size m = 1 := by rcases hm with rfl | rfl | rfl <;> rfl
  have hf : ∀ x, x ∈ fields .PNTR → x ∈ fields m := by
    rcases hm with rfl | rfl | rfl <;> decide
  have err : ∀ (c : Prop) [Decidable c] (e' : Err), ∃ e'', (if c then (Asm.mk e opc []).setErrorIf e' else ⟨e, opc, []⟩) =
      ⟨e'', opc, []⟩ := by
    intro c _ e'
    by_cases h : c
    · rw [if_pos h]; exact ⟨_, rfl⟩
    · rw [if_neg h]; exact ⟨_, rfl⟩
  unfold encodeRel8 at h
  split at h
  · rename_i hd
    dsimp only at h
    split at h
    · injection h with h
      subst h
      obtain ⟨e', he⟩ := err (op.reg = some .PC ∨ op.reg = some .P0) .REGISTER_NOT_ALLOWED
      rw [he]
      exact emit2 ho (hf _ (hp hd)) hs
    · obtain ⟨far, h1, h2⟩ := bind_ok h
      injection h2 with h2
      subst h2
      obtain ⟨e', he⟩ := err ((far || !decide (op.reg = some .PC ∨ op.reg = some .P0) && int16 op.val.getSigned == -128) = true) .OVERFLOW_RANGE
      rw [he]
      exact emit2 ho (hf _ (hp hd)) hs
  · dsimp only at h
    obtain ⟨e1, h1, h2⟩ := bind_ok h
    obtain ⟨d, h3, h4⟩ := bind_ok h2
    obtain ⟨far, h5, h6⟩ := bind_ok h4
    injection h6 with h6
    subst h6
    split
    · exact emit2 ho (hf _ (by decide)) hs
    · exact emit2 ho (hf _ (by decide)) hs

theorem encoded {addr : Nat} {op : Operand} {row : Row} {e : Err} {a : Asm} (hp : Parsed op)
    (hm : acceptMode op.mode row = true) (ho : row.opcode < 256)
    (h : encodeMode addr (mode row) op ⟨e, row.opcode, []⟩ = .ok a) : Emitted row.opcode (mode row) a := by
  obtain ⟨p1, p2, p3⟩ := hp
  unfold acceptMode at hm
  dsimp only at hm
  generalize mode row = m at *
  generalize row.opcode = opc at *
  have hlt : ∀ x ∈ fields .PNTR, opc ||| x < 256 := fun x hx => Nat.or_lt_two_pow (n := 8) ho (fields_lt hx)
  have indx : (m = .DISP ∨ m = .INDX) → encodeIndx addr m op ⟨e, opc, []⟩ = .ok a →
      Emitted opc m a := by
    intro hmm h
    unfold encodeIndx at h
    split at h
    · rename_i hr
      exact encoded_rel (fun h => by rw [hr] at h; cases h) (Or.inr hmm) ho h
    · rename_i hr
      have hreg : encodePointerReg op.reg ∈ fields .PNTR := by
        apply p3
        revert hm
        rcases hmm with rfl | rfl <;> cases hom : op.mode <;> simp_all
      have hs : size m = 1 := by rcases hmm with rfl | rfl <;> rfl
      -- the code
      obtain ⟨e', x, hx, hc⟩ : ∃ e' x, x ∈ fields m ∧
          (if op.mode = .INDX then
            (if m ≠ .INDX then ((Asm.mk e opc []).embed (encodePointerReg op.reg)).setErrorIf .OPERAND_NOT_ALLOWED
              else (Asm.mk e opc []).embed (encodePointerReg op.reg)).embed 4
          else (Asm.mk e opc []).embed (encodePointerReg op.reg)) = (Asm.mk e' opc []).embed x := by
        by_cases hi : op.mode = .INDX
        · have : m = .INDX := by
            rw [hi] at hm
            revert hm
            cases m <;> decide
          subst this
          rw [if_pos hi, if_neg (by decide)]
          refine ⟨e, encodePointerReg op.reg ||| 4, ?_, ?_⟩
          · revert hreg
            generalize encodePointerReg op.reg = x
            revert x
            decide
          · unfold Asm.embed
            dsimp only
            rw [Nat.mod_eq_of_lt (hlt _ hreg), Nat.or_assoc]
        · rw [if_neg hi]
          refine ⟨e, _, ?_, rfl⟩
          rcases hmm with rfl | rfl
          · exact hreg
          · revert hreg
            generalize encodePointerReg op.reg = x
            revert x
            decide
      dsimp only at h
      rw [hc] at h
      split at h
      · injection h with h
        subst h
        split
        · exact emit2 (e := Config.setErrorIf e' .REGISTER_NOT_ALLOWED) ho hx hs
        · exact emit2 ho hx hs
      · obtain ⟨far, h1, h2⟩ := bind_ok h
        injection h2 with h2
        subst h2
        split
        · exact emit2 (e := Config.setErrorIf e' .OVERFLOW_RANGE) ho hx hs
        · exact emit2 ho hx hs
  cases m with
  | NONE =>
    injection h with h
    subst h
    exact ⟨0, by decide, [], by rw [Nat.or_zero]; show [] ++ [opc % 256] = _; rw [Nat.mod_eq_of_lt ho]; rfl, rfl, by simp⟩
  | PNTR =>
    have hreg : encodePointerReg op.reg ∈ fields .PNTR := by
      apply p3
      revert hm
      cases op.mode <;> simp
    injection h with h
    subst h
    refine ⟨_, hreg, [], ?_, rfl, by simp⟩
    show [] ++ [(opc ||| encodePointerReg op.reg) % 256 % 256] = _
    rw [Nat.mod_mod, Nat.mod_eq_of_lt (hlt _ hreg)]
    rfl
  | IMM8 =>
    injection h with h
    subst h
    refine ⟨0, by decide, [((op.val.getUnsigned : Int) % 256).toNat], ?_, rfl, ?_⟩
    · rw [Nat.or_zero]
      split <;>
      · show [] ++ [opc % 256] ++ _ = _
        rw [Nat.mod_eq_of_lt ho]
        rfl
    · intro b hb
      rw [List.mem_singleton.1 hb]
      omega
  | REL8 => exact encoded_rel (fun h => p3 (Or.inr (Or.inl h))) (Or.inl rfl) ho h
  | DISP => exact indx (Or.inl rfl) h
  | INDX => exact indx (Or.inr rfl) h
  | UNDEF =>
    exfalso
    revert hm
    cases hom : op.mode <;> simp_all

/-! ### Decoding -/

theorem byte_some {b : Nat} {mem bytes : List Nat} (hb : b < 256) :
    (⟨b :: mem, bytes, .OK⟩ : Rd).byte = (b, ⟨mem, bytes ++ [b], .OK⟩) := by
  unfold Rd.byte
  dsimp only
  rw [Nat.mod_eq_of_lt hb]

theorem decodeIndx_rd (o : Opts) (addr opc : Nat) (m : Mode) (hasMode : Bool) (r : Rd) :
    (decodeIndx o addr opc m hasMode r).2 = r.byte.2 := by
  unfold decodeIndx
  dsimp only
  split
  · generalize (if m = .REL8 then (1 : Int) else 0) = f
    split <;> rfl
  · rfl

/-! ### The instruction table -/

/-- The instructions with a memory operand. -/
def memory : List (List Char) :=
  [['L', 'D'], ['S', 'T'], ['A', 'N', 'D'], ['O', 'R'], ['X', 'O', 'R'], ['D', 'A', 'D'], ['A', 'D', 'D'],
   ['C', 'A', 'D']]

/-- What the row can be encoded to is read as a row of the same name and length; with automatic displacement of the
program counter the name may be another one, and a store is not read. -/
def rowB (r : Row) : Bool :=
  decide (r.opcode < 256) && decide ('\x00' ∉ r.name) && decide (r.name.length < 11) && decide ('=' ∉ r.name) &&
  (fields (mode r)).all fun x =>
    mode r == .UNDEF || (r.name == ['S', 'T'] && (r.opcode ||| x) == 0xCC) ||
    match searchOpCode (r.opcode ||| x) with
    | none => false
    | some r' => size (mode r') == size (mode r) &&
      (memory.contains r.name && (r.opcode ||| x) % 8 == 4 || r'.name == r.name)

theorem rows_ok : (Tables.Ins8060.INS8060_PAGES.all fun p => p.entries.all rowB) = true := by
  decide +kernel

theorem alnum (c : Char) (h : Ctype.isAlnum c = true) : syntaxOf.instructionLetter c = true := by
  show (prefixSymbol (some ['$']) none false c || c == '=' || c == '.') = true
  rw [prefixSymbol_alnum h]
  rfl

theorem terminator (c : Char) (h : syntaxOf.instructionTerminator c = true) : c = '=' := by
  simpa [syntaxOf] using h

/-- The bytes of a line come back as one instruction, but for a store with automatic displacement of the program
counter; the name is the one of the line but for all the instructions with a memory operand of this mode. -/
theorem line_back {E : Env} {addr : Nat} {line : List Char} {bytes : List Nat} {rest : Scan}
    (h : assemble E addr line = .ok (.insn ⟨.OK, bytes, rest⟩))
    (hst : bytes.head? = some 0xCC → ¬ WrittenAs line "ST".toList) (o : Opts) (more : List Nat) :
    (disassemble o addr (bytes ++ more)).err = .OK ∧
    (disassemble o addr (bytes ++ more)).bytes = bytes ∧
    ((∀ opc, bytes.head? = some opc → opc % 8 = 4 →
      ∀ name ∈ ["LD", "ST", "AND", "OR", "XOR", "DAD", "ADD", "CAD"], ¬ WrittenAs line name.toList) →
      WrittenAs line (disassemble o addr (bytes ++ more)).name) := by
  obtain ⟨word, scan, hi, haddr, hw, blanks, tail, hline, hblank⟩ :=
    encode_line_inv (by decide) rfl h
  unfold encodeImpl at hi
  obtain ⟨⟨op, s1⟩, d1, d2⟩ := bind_ok hi
  have hop := parsed d1
  dsimp only at d2
  split at d2
  · rename_i he
    injection d2 with d2
    injection d2 with d2
    rw [d2] at he
    exact absurd he (by decide)
  · obtain ⟨x, f1, f2⟩ := bind_ok d2
    unfold searchName at f1
    split at f1
    · rename_i pre row hs
      injection f1 with f1
      subst f1
      dsimp only at f2
      obtain ⟨a, g1, g2⟩ := bind_ok f2
      obtain ⟨p, hp, rfl, hrow, hcmp, hacc⟩ := searchName_mem hs
      have hB : rowB row = true := List.all_eq_true.1 (List.all_eq_true.1 rows_ok p hp) row hrow
      unfold rowB at hB
      simp only [Bool.and_eq_true, decide_eq_true_eq] at hB
      obtain ⟨⟨⟨⟨b1, b2⟩, b3⟩, beq⟩, b5⟩ := hB
      obtain ⟨x, hx, bs, hbytes, hl, hb⟩ := encoded hop hacc b1 g1
      have hnu : mode row ≠ .UNDEF := by
        intro hu
        obtain ⟨p1, p2, p3⟩ := hop
        unfold acceptMode at hacc
        dsimp only at hacc
        rw [hu] at hacc
        revert hacc
        cases hom : op.mode <;> simp_all
      have b5 := List.all_eq_true.1 b5 x hx
      simp only [Bool.or_eq_true, beq_iff_eq] at b5
      have hname : WrittenAs line row.name := written alnum terminator hw b2 b3 hcmp beq hline hblank
      -- the checks of the assembler
      have hbnil : a.bytes.length > 0 := by rw [hbytes]; simp
      obtain ⟨c1, c2⟩ : a.bytes = bytes ∧ page addr = page (addr + a.bytes.length + 65535) := by
        by_cases hpg : page addr = page (addr + a.bytes.length + 65535)
        · rw [if_neg (fun h => h.2 hpg)] at g2
          injection g2 with g2
          injection g2 with g2 g3 g4
          exact ⟨g3, hpg⟩
        · rw [if_pos ⟨hbnil, hpg⟩] at g2
          injection g2 with g2
          injection g2 with g2 g3 g4
          exact absurd (show Err.OVERWRAP_SEGMENT = .OK from (setErrorIf_ok g2).2) (by decide)
      rw [c1] at c2 hbytes
      have hns : ¬ (row.name = ['S', 'T'] ∧ (row.opcode ||| x) = 0xCC) := by
        rintro ⟨n1, n2⟩
        rw [hbytes, n2] at hst
        exact hst rfl (by rw [n1] at hname; exact hname)
      have hnx : (∀ opc, bytes.head? = some opc → opc % 8 = 4 →
          ∀ name ∈ ["LD", "ST", "AND", "OR", "XOR", "DAD", "ADD", "CAD"], ¬ WrittenAs line name.toList) →
          ¬ (memory.contains row.name = true ∧ (row.opcode ||| x) % 8 = 4) := by
        rintro hx' ⟨n1, n2⟩
        rw [hbytes] at hx'
        have n3 := hx' _ rfl n2
        have n4 : row.name ∈ ["LD", "ST", "AND", "OR", "XOR", "DAD", "ADD", "CAD"].map String.toList :=
          List.contains_iff_mem.1 n1
        obtain ⟨n, n5, n6⟩ := List.mem_map.1 n4
        exact n3 n n5 (by rw [n6]; exact hname)
      have b5 := b5.resolve_left (fun h => h.elim hnu (fun h => hns (by simpa using h)))
      have hopc : row.opcode ||| x < 256 := Nat.or_lt_two_pow (n := 8) b1 (fields_lt hx)
      generalize row.opcode ||| x = opc at *
      cases hso : searchOpCode opc with
      | none => rw [hso] at b5; cases b5
      | some row' =>
        rw [hso] at b5
        simp only [Bool.and_eq_true, beq_iff_eq, Bool.or_eq_true] at b5
        have hdis : ∀ mem, disassemble o addr mem = decodeImpl o addr mem := by
          intro mem
          unfold disassemble decode
          rw [haddr]
          rfl
        rw [hdis]
        rw [hbytes] at c2 ⊢
        unfold decodeImpl
        rw [List.cons_append, byte_some hopc]
        dsimp only
        rw [hso]
        dsimp only
        have hsz : bs.length = size (mode row') := by rw [b5.1, hl]
        rw [hbytes] at hnx
        have hnm := fun hx' =>
          WrittenAs.letters (by rw [b5.2.resolve_left (hnx hx')]; exact hname) (outText_same o row'.name)
        -- the instruction read
        have fin : ∀ (t : List Char) (r : Rd), r.err = .OK → r.bytes = opc :: bs →
            (if page addr ≠ page (addr + r.bytes.length + 65535) then r.setErrorIf .OVERWRAP_SEGMENT else r).err = .OK ∧
            (if page addr ≠ page (addr + r.bytes.length + 65535) then r.setErrorIf .OVERWRAP_SEGMENT else r).bytes = opc :: bs ∧
            ((∀ c, (opc :: bs).head? = some c → c % 8 = 4 →
              ∀ name ∈ ["LD", "ST", "AND", "OR", "XOR", "DAD", "ADD", "CAD"], ¬ WrittenAs line name.toList) →
              WrittenAs line (outText o row'.name)) := by
          intro t r r1 r2
          rw [r2, if_neg (not_not_intro c2)]
          exact ⟨r1, r2, hnm⟩
        have one : bs.length = 1 → (⟨bs ++ more, [] ++ [opc], .OK⟩ : Rd).byte.2 = ⟨more, opc :: bs, .OK⟩ := by
          intro h
          obtain ⟨b, rfl⟩ := List.length_eq_one_iff.1 h
          rw [List.singleton_append, byte_some (hb b (List.mem_cons_self ..))]
          rfl
        have none : bs.length = 0 → [] ++ [opc] = opc :: bs := by
          intro h
          rw [List.length_eq_zero_iff.1 h]
          rfl
        cases hmr : mode row' with
        | NONE => rw [hmr] at hsz; exact fin [] ⟨bs ++ more, [] ++ [opc], .OK⟩ rfl (none hsz)
        | UNDEF => rw [hmr] at hsz; exact fin [] ⟨bs ++ more, [] ++ [opc], .OK⟩ rfl (none hsz)
        | PNTR => rw [hmr] at hsz; exact fin [] ⟨bs ++ more, [] ++ [opc], .OK⟩ rfl (none hsz)
        | IMM8 =>
          rw [hmr] at hsz
          dsimp only
          rw [one hsz]
          exact fin [] ⟨more, opc :: bs, .OK⟩ rfl rfl
        | REL8 | DISP | INDX =>
          rw [hmr] at hsz
          dsimp only
          rw [decodeIndx_rd, one hsz]
          exact fin [] ⟨more, opc :: bs, .OK⟩ rfl rfl
    · rename_i e hs
      injection f1 with f1
      subst f1
      injection f2 with f2
      injection f2 with f2 f3 f4
      exact absurd f2 (searchName_err hs)
    · cases f1

/-- Whatever line is assembled without error, at any address and with any symbols: the disassembler, with
any options, reads the bytes of it, whatever follows them, as one instruction, without error. It has the
name written in the line.

Except for the instructions with a memory operand where the code has mode 1 (automatic displacement) and
pointer 0 (the program counter): see `C29_violated_load` and `C29_violated_store`. -/
theorem C29_ins8060_partial {E : Env} {addr : Nat} {line : List Char} {bytes : List Nat} {rest : Scan}
    (h : assemble E addr line = .ok (.insn ⟨.OK, bytes, rest⟩))
    (hx' : ∀ opc, bytes.head? = some opc → opc % 8 = 4 →
      ∀ name ∈ ["LD", "ST", "AND", "OR", "XOR", "DAD", "ADD", "CAD"], ¬ WrittenAs line name.toList)
    (o : Opts) (more : List Nat) :
    (disassemble o addr (bytes ++ more)).err = .OK ∧
    (disassemble o addr (bytes ++ more)).bytes = bytes ∧
    WrittenAs line (disassemble o addr (bytes ++ more)).name := by
  have hst : bytes.head? = some 0xCC → ¬ WrittenAs line "ST".toList := fun h1 => hx' _ h1 (by decide) _ (by decide)
  obtain ⟨h1, h2, h3⟩ := line_back h hst o more
  exact ⟨h1, h2, h3 hx'⟩

/-- `C29_ins8060_partial` has something to say of operands of several kinds. -/
example :
    assemble noEnv 0x100 "  ld @-2(p1) ".toList = .ok (.insn ⟨.OK, [0xc5, 0xfe], []⟩) ∧
    assemble noEnv 0x100 "jmp X'120 ; comment".toList = .ok (.insn ⟨.OK, [0x90, 0x1e], "; comment".toList⟩) := by
  decide +kernel

/-- The exception: a load by way of the program counter with automatic displacement is a load of a
constant. -/
theorem C29_violated_load :
    assemble noEnv 0 "LD @5(PC)".toList = .ok (.insn ⟨.OK, [0xc4, 5], []⟩) ∧
    (disassemble (.default '.') 0 [0xc4, 5]).name = "LDI".toList := by
  decide +kernel

/-- The exception: a store of that kind is no instruction at all. -/
theorem C29_violated_store :
    assemble noEnv 0 "ST @5(PC)".toList = .ok (.insn ⟨.OK, [0xcc, 5], []⟩) ∧
    (disassemble (.default '.') 0 [0xcc, 5]).err = .UNKNOWN_INSTRUCTION := by
  decide +kernel

end Libasm.Cpu.Ins8060
