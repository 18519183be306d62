import Verif.Cpu.I8051.Back
/-
C62: the option `smart-branch` of the i8051 assembler changes the length of a jump or a call, not its target.
-/
namespace Libasm.Cpu.I8051
open Scan Number Eval
open Tables (Row)

/-- The names of the long and the short form. -/
def jumpName (call long : Bool) : List Char :=
  if call then (if long then ['L', 'C', 'A', 'L', 'L'] else ['A', 'C', 'A', 'L', 'L'])
  else if long then ['L', 'J', 'M', 'P'] else ['A', 'J', 'M', 'P']

/-- Their entries. -/
def jumpRow (call long : Bool) : Row :=
  ⟨(if call then 0x10 else 0) + (if long then 2 else 1), jumpName call long, ["E1", if long then "M_ADR16" else "M_ADR11"]⟩

theorem jump_found : ∀ call long, nameB syntaxOf (jumpName call long) = true ∧
    rowIs (searchName (jumpName call long) [.ADR16, .NONE, .NONE]) (jumpRow call long) = true := by
  decide +kernel

theorem jump_only : ∀ call, (pages.all fun p => p.entries.all fun r =>
    decide (Table.strcasecmp (jumpName call true) r.name ≠ 0) || decide (r = jumpRow call true)) = true := by
  decide +kernel

theorem accept_jump {call : Bool} {ops : List Mode} (hl : ops.length = 3)
    (h : acceptModes ops (jumpRow call true) = true) : ops = [.ADR16, .NONE, .NONE] := by
  obtain ⟨a, b, c, rfl⟩ := length_three hl
  have h : (acceptMode a .ADR16 && (acceptMode b .NONE && (acceptMode c .NONE && true))) = true := by
    cases call <;> exact h
  simp only [Bool.and_eq_true] at h
  have h1 : ∀ m, acceptMode m .ADR16 = true → m = .ADR16 := by intro m; cases m <;> decide
  have h2 : ∀ m, acceptMode m .NONE = true → m = .NONE := by intro m; cases m <;> decide
  rw [h1 a h.1, h2 b h.2.1, h2 c h.2.2.1]

theorem jump_operands {smart : Bool} {addr : Nat} {call long : Bool} {op1 op2 op3 : Operand} :
    encodeOperands smart addr (jumpRow call long) [op1, op2, op3] ⟨.OK, (jumpRow call long).opcode, []⟩ =
      .ok (((encodeJump smart addr (if long then .ADR16 else .ADR11) op1
        (Asm.setErrorIf ⟨.OK, (jumpRow call long).opcode, []⟩ op1.err)).setErrorIf op2.err).setErrorIf op3.err) := by
  cases call <;> cases long <;> rfl

/-- The bytes of a jump or a call from `addr` to `hi * 256 + lo`: the short form, if the target is in the
block of 2048 bytes of the next instruction, else the long form. -/
def best (addr : Nat) (call : Bool) (hi lo : Nat) : List Nat :=
  if (addr + 2) % 65536 / 2048 = (hi * 256 + lo) / 2048 then [hi % 8 * 32 + (if call then 0x11 else 0x01), lo]
  else [if call then 0x12 else 0x02, hi, lo]

theorem jump_code : ∀ call, searchOpCode (if call then 0x12 else 0x02) = some (jumpRow call true) ∧
    ∀ k < 8, searchOpCode (k * 32 + (if call then 0x11 else 0x01)) = some (jumpRow call false) := by
  decide +kernel

theorem long_read {addr hi lo : Nat} (o : Opts) (more : List Nat) (haddr : Config.checkAddr 16 addr false = .OK)
    (call : Bool) (hh : hi < 256) (hl : lo < 256) :
    (disassemble o addr ([if call then 0x12 else 0x02, hi, lo] ++ more)).err = .OK ∧
    (disassemble o addr ([if call then 0x12 else 0x02, hi, lo] ++ more)).bytes = [if call then 0x12 else 0x02, hi, lo] ∧
    (disassemble o addr ([if call then 0x12 else 0x02, hi, lo] ++ more)).operands = outAbsAddr .intel o 16 (hi * 256 + lo) := by
  have hb : (if call then 0x12 else 0x02) < 256 := by cases call <;> decide
  generalize hc : (if call then 0x12 else 0x02) = c at *
  have hdis : disassemble o addr ([c, hi, lo] ++ more) = decodeImpl o addr ([c, hi, lo] ++ more) := by
    unfold disassemble decode
    rw [haddr]
    rfl
  rw [hdis]
  unfold decodeImpl
  rw [List.cons_append, byte_some hb]
  dsimp only [List.nil_append]
  have := (jump_code call).1
  rw [hc] at this
  rw [this]
  have hm : modes (jumpRow call true) = [.ADR16] := by cases call <;> rfl
  have hd : ¬ (dst (jumpRow call true) = .ADR8 ∧ src (jumpRow call true) = .ADR8) := by cases call <;> decide
  dsimp only
  rw [if_neg hd, hm]
  have hr : (⟨hi :: lo :: more, [c], .OK⟩ : Rd).be16 = (hi * 256 + lo, ⟨more, [c, hi, lo], .OK⟩) := by
    unfold Rd.be16
    rw [byte_some hh]
    dsimp only
    rw [byte_some hl]
    rfl
  have hl : decodeList (decodeOperand o addr c) [.ADR16] ⟨[hi, lo] ++ more, [c], .OK⟩ =
      (outAbsAddr .intel o 16 (hi * 256 + lo), ⟨more, [c, hi, lo], .OK⟩) := by
    show (outAbsAddr .intel o 16 (⟨hi :: lo :: more, [c], .OK⟩ : Rd).be16.1, (⟨hi :: lo :: more, [c], .OK⟩ : Rd).be16.2) = _
    rw [hr]
  rw [hl]
  exact ⟨rfl, rfl, rfl⟩

theorem best_read {addr hi lo : Nat} (o : Opts) (more : List Nat) (ha : addr < 2 ^ 16)
    (call : Bool) (hh : hi < 256) (hl : lo < 256) :
    (disassemble o addr (best addr call hi lo ++ more)).err = .OK ∧
    (disassemble o addr (best addr call hi lo ++ more)).bytes = best addr call hi lo ∧
    (disassemble o addr (best addr call hi lo ++ more)).operands = outAbsAddr .intel o 16 (hi * 256 + lo) := by
  have haddr := address_ok (width := 16) (by decide) ha
  unfold best
  by_cases hx : (addr + 2) % 65536 / 2048 = (hi * 256 + lo) / 2048
  · rw [if_pos hx]
    have hb : hi % 8 * 32 + (if call then 0x11 else 0x01) < 256 := by cases call <;> simp only [if_true, Bool.false_eq_true, if_false] <;> omega
    have hq : (hi % 8 * 32 + (if call then 0x11 else 0x01)) / 32 = hi % 8 := by
      cases call <;> simp only [if_true, Bool.false_eq_true, if_false] <;> omega
    have hs := (jump_code call).2 (hi % 8) (Nat.mod_lt _ (by decide))
    generalize hc : hi % 8 * 32 + (if call then 0x11 else 0x01) = c at *
    have hdis : disassemble o addr ([c, lo] ++ more) = decodeImpl o addr ([c, lo] ++ more) := by
      unfold disassemble decode
      rw [haddr]
      rfl
    rw [hdis]
    unfold decodeImpl
    rw [List.cons_append, byte_some hb]
    dsimp only [List.nil_append]
    rw [hs]
    have hm : modes (jumpRow call false) = [.ADR11] := by cases call <;> rfl
    have hd : ¬ (dst (jumpRow call false) = .ADR8 ∧ src (jumpRow call false) = .ADR8) := by cases call <;> decide
    dsimp only
    rw [if_neg hd, hm]
    have hl : decodeList (decodeOperand o addr c) [.ADR11] ⟨[lo] ++ more, [c], .OK⟩ =
        (outAbsAddr .intel o 16 (hi * 256 + lo), ⟨more, [c, lo], .OK⟩) := by
      show decodeOperand o addr c .ADR11 ⟨lo :: more, [c], .OK⟩ = _
      unfold decodeOperand
      dsimp only
      rw [byte_some hl, hq]
      show (outAbsAddr .intel o 16 ((addr + 2) % 65536 / 2048 * 2048 + hi % 8 * 256 + lo), _) = _
      rw [hx, show (hi * 256 + lo) / 2048 * 2048 + hi % 8 * 256 + lo = hi * 256 + lo by omega]
      rfl
    rw [hl]
    exact ⟨rfl, rfl, rfl⟩
  · rw [if_neg hx]
    exact long_read o more haddr call hh hl

/-- Whatever the operand is, with any symbols: when the long form of the jump (or call) assembles without
error, to the code and the address, then with `smart-branch` both the short and the long name assemble
without error to the best form for this address. The disassembler reads both as a jump (or call) to the
same address. -/
theorem C62 {E : Env} {addr : Nat} {call : Bool} {sep operands : List Char} {bytes : List Nat} {rest : Scan}
    (ha : addr < 2 ^ 16) (hsep : sep ≠ [] ∧ ∀ c ∈ sep, Ctype.isSpace c = true)
    (h : assemble E false addr ((if call then "LCALL" else "LJMP").toList ++ sep ++ operands) =
      .ok (.insn ⟨.OK, bytes, rest⟩)) :
    ∃ hi lo, hi < 256 ∧ lo < 256 ∧ bytes = [if call then 0x12 else 0x02, hi, lo] ∧
      (∀ name ∈ (if call then ["LCALL", "ACALL"] else ["LJMP", "AJMP"]),
        assemble E true addr (name.toList ++ sep ++ operands) =
          .ok (.insn ⟨.OK, best addr call hi lo, rest⟩)) ∧
      ∀ o more, (disassemble o addr (best addr call hi lo ++ more)).err = .OK ∧
        (disassemble o addr (best addr call hi lo ++ more)).bytes = best addr call hi lo ∧
        (disassemble o addr (best addr call hi lo ++ more)).operands = (disassemble o addr (bytes ++ more)).operands := by
  have hname : (if call then "LCALL" else "LJMP").toList = jumpName call true := by cases call <;> decide
  have haddr := address_ok (width := 16) (by decide) ha
  rw [hname] at h
  unfold assemble at h
  rw [encode_operands_eq syntaxOk (jump_found call true).1 hsep (impl_skip _ _ _ _ _) haddr] at h
  obtain ⟨r, h1, h2⟩ := bind_ok h
  injection h2 with h2
  injection h2 with h2
  subst h2
  unfold encodeImpl at h1
  obtain ⟨x, d1, d2⟩ := bind_ok h1
  cases x with
  | error e =>
    obtain ⟨e, p⟩ := e
    injection d2 with d2
    injection d2 with d2
    exact absurd d2 (operands_err (fun s e p h => parse_err h) _ _ _ _ d1)
  | ok x =>
    obtain ⟨ops, s⟩ := x
    dsimp only at d2
    obtain ⟨x, f1, f2⟩ := bind_ok d2
    unfold searchName at f1
    split at f1
    · rename_i pre row hs
      injection f1 with f1
      subst f1
      obtain ⟨p, hp, rfl, hrow, hcmp, hacc⟩ := searchName_mem hs
      have hrow' : row = jumpRow call true := by
        have := List.all_eq_true.1 (List.all_eq_true.1 (jump_only call) p hp) row hrow
        simp only [Bool.or_eq_true, decide_eq_true_eq] at this
        exact this.resolve_left (not_not_intro hcmp)
      subst hrow'
      have hmodes := accept_jump (by rw [List.length_map, pad_length]) hacc
      obtain ⟨op1, op2, op3, hops⟩ := length_three (pad_length ({} : Operand) 3 ops)
      rw [hops] at hmodes
      dsimp only at f2
      rw [hops, jump_operands, Out.ok_bind] at f2
      injection f2 with f2
      injection f2 with g1 g2 g3
      obtain ⟨g4, e3⟩ := setErrorIf_ok g1
      obtain ⟨g5, e2⟩ := setErrorIf_ok g4
      have g5 : (Asm.setErrorIf ⟨.OK, (jumpRow call true).opcode, []⟩ op1.err).err = .OK := g5
      obtain ⟨_, e1⟩ := setErrorIf_ok g5
      rw [e1, e2, e3] at g2
      simp only [Asm.noError] at g2
      generalize hv : op1.val.getUnsigned = v at *
      have hb : bytes = [if call then 0x12 else 0x02, v / 256 % 256, v % 256] := by
        rw [← g2, ← hv]
        cases call <;> rfl
      refine ⟨v / 256 % 256, v % 256, Nat.mod_lt _ (by decide), Nat.mod_lt _ (by decide), hb, ?_, ?_⟩
      · have key : ∀ long, assemble E true addr (jumpName call long ++ sep ++ operands) =
            .ok (.insn ⟨.OK, best addr call (v / 256 % 256) (v % 256), rest⟩) := by
          intro long
          refine encode_operands syntaxOk (jump_found call long).1 hsep (impl_skip _ _ _ _ _) haddr ?_
          unfold encodeImpl
          rw [d1, Out.ok_bind]
          dsimp only
          rw [hops]
          have hmodes : List.map (fun x : Operand => x.mode) [op1, op2, op3] = [.ADR16, .NONE, .NONE] := hmodes
          rw [hmodes, rowIs_eq (jump_found call long).2, Out.ok_bind]
          dsimp only
          rw [jump_operands, Out.ok_bind, e1, e2, e3]
          simp only [Asm.noError]
          have hj : encodeJump true addr (if long = true then .ADR16 else .ADR11) op1 ⟨.OK, (jumpRow call long).opcode, []⟩ =
              if block (addr + 2) ≠ block v then ⟨.OK, if call then 0x12 else 0x02, [v / 256 % 256, v % 256]⟩
              else ⟨.OK, ((if call then 0x11 else 0x01) ||| v / 256 % 8 * 32) % 256, [v % 256]⟩ := by
            unfold encodeJump
            rw [e1, hv]
            dsimp only
            rw [if_neg (not_not_intro (rfl : Err.OK = .OK))]
            have hmay : maySmartBranch (jumpRow call long).opcode = true := by cases call <;> cases long <;> rfl
            rw [hmay, if_neg (by simp), if_neg (by simp)]
            by_cases hx : block (addr + 2) ≠ block v
            · rw [if_pos (Or.inr hx), if_pos hx]
              cases call <;> cases long <;> rfl
            · rw [if_neg (by simpa using hx), if_neg hx]
              cases call <;> cases long <;> rfl
          rw [hj]
          have hblock : (block (addr + 2) ≠ block v) ↔ ¬ (addr + 2) % 65536 / 2048 = (v / 256 % 256 * 256 + v % 256) / 2048 := by
            unfold block
            omega
          rw [g3]
          unfold best
          by_cases hx : block (addr + 2) ≠ block v
          · rw [if_pos hx, if_neg (hblock.1 hx)]
            cases call <;> rfl
          · rw [if_neg hx, if_pos (Classical.not_not.1 (fun hn => hx (hblock.2 hn))),
              show v / 256 % 256 % 8 = v / 256 % 8 by omega]
            have hk : ∀ k < 8, ((0x11 ||| k * 32) % 256) % 256 = k * 32 + 0x11 ∧ ((0x01 ||| k * 32) % 256) % 256 = k * 32 + 0x01 := by
              decide
            have := hk (v / 256 % 8) (Nat.mod_lt _ (by decide))
            unfold Asm.bytes
            cases call
            · exact congrArg (fun c => Out.ok (⟨.OK, [c, v % 256], rest⟩ : Res)) this.2
            · exact congrArg (fun c => Out.ok (⟨.OK, [c, v % 256], rest⟩ : Res)) this.1
        intro name hn
        have : name.toList = jumpName call true ∨ name.toList = jumpName call false := by
          cases call <;> simp only [Bool.false_eq_true, if_false, if_true, List.mem_cons, List.not_mem_nil, or_false] at hn <;>
            rcases hn with rfl | rfl <;> decide
        rcases this with hx | hx <;> rw [hx] <;> exact key _
      · intro o more
        obtain ⟨l1, l2, l3⟩ := long_read o more haddr call (Nat.mod_lt (v / 256) (by decide : 0 < 256))
          (Nat.mod_lt v (by decide : 0 < 256))
        obtain ⟨k1, k2, k3⟩ := best_read o more ha call (Nat.mod_lt (v / 256) (by decide : 0 < 256))
          (Nat.mod_lt v (by decide : 0 < 256))
        exact ⟨k1, k2, by rw [k3, hb, l3]⟩
    · rename_i e hs
      injection f1 with f1
      subst f1
      injection f2 with f2
      injection f2 with f2 f3 f4
      exact absurd f2 (searchName_err hs)
    · cases f1

/-- The hypotheses of `C62` hold of a jump to an expression; with `smart-branch` it is short near its target
and long elsewhere. -/
example :
    assemble noEnv false 0x17fe ("LJMP".toList ++ " ".toList ++ "1800h + 2*12h ; there".toList) =
      .ok (.insn ⟨.OK, [0x02, 0x18, 0x24], "; there".toList⟩) ∧
    assemble noEnv true 0x17fe "LJMP 1800h + 2*12h".toList = .ok (.insn ⟨.OK, [0x01, 0x24], []⟩) ∧
    assemble noEnv true 0x17fd "AJMP 1800h + 2*12h".toList = .ok (.insn ⟨.OK, [0x02, 0x18, 0x24], []⟩) ∧
    assemble noEnv true 0 "ACALL 0ff34h".toList = .ok (.insn ⟨.OK, [0x12, 0xff, 0x34], []⟩) := by
  decide +kernel

end Libasm.Cpu.I8051
