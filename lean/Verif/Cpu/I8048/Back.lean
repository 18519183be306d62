import Verif.Cpu.Back
import Verif.Cpu.I8048.Props
/-
C29 for the i8048: whatever line the assembler takes, the disassembler reads the bytes of it as one
instruction of the same name.
-/
namespace Libasm.Cpu.I8048
open Scan Number Eval
open Tables (Row)

/-! ### What an operand may be -/

/-- The numbers of the registers a mode allows. -/
def numbers : Mode → Option (List Reg)
  | .R => some [0, 1, 2, 3, 4, 5, 6, 7]
  | .IR => some [0, 1]
  | .IR3 => some [3]
  | .P12 => some []
  | .P1 => some [REG_P1]
  | .P2 => some [REG_P2]
  | .PEXT => some [REG_P4, REG_P5, REG_P6, REG_P7]
  | _ => none

/-- The register of an operand is one its mode allows. -/
def Parsed (op : Operand) : Prop := ∀ l, numbers op.mode = some l → ∃ r ∈ l, op.reg = some r

theorem parsed_other {op : Operand} (h : numbers op.mode = none) : Parsed op := by
  intro l hl
  rw [h] at hl
  cases hl

theorem parsed_indirect {reg : Reg} {m : Mode} (hk : reg ∈ regs.map (·.2)) (h : indirectMode reg = some m) :
    Parsed { mode := m, reg := some reg } := by
  intro l hl
  refine ⟨reg, ?_, rfl⟩
  exact (by decide +kernel : ∀ reg ∈ regs.map (·.2), ∀ m ∈ indirectMode reg, ∀ l ∈ numbers m, reg ∈ l) reg hk m h l hl

theorem parsed_register {reg : Reg} {m : Mode} (hk : reg ∈ regs.map (·.2)) (h : registerMode reg = some m) :
    Parsed { mode := m, reg := some reg } := by
  intro l hl
  refine ⟨reg, ?_, rfl⟩
  exact (by decide +kernel : ∀ reg ∈ regs.map (·.2), ∀ m ∈ registerMode reg, ∀ l ∈ numbers m, reg ∈ l) reg hk m h l hl

theorem parsed {P : Plugins Value} {scan : Scan} {op : Operand} {rest : Scan}
    (h : parseOperand P scan = .ok (.ok (op, rest))) : Parsed op := by
  have take : ∀ {x : Operand} {p : Scan}, Parsed x →
      (Out.ok (Except.ok (x, p)) : Out (Except (Err × Scan) (Operand × Scan))) = .ok (.ok (op, rest)) → Parsed op := by
    intro x p hx h
    injection h with h
    injection h with h
    injection h with h1 h2
    exact h1 ▸ hx
  have bad : ∀ {e : Err × Scan}, (Out.ok (Except.error e) : Out (Except (Err × Scan) (Operand × Scan))) =
      .ok (.ok (op, rest)) → Parsed op := by
    intro e h
    injection h with h
    cases h
  unfold parseOperand at h
  dsimp only at h
  split at h
  · exact take (parsed_other rfl) h
  · split at h
    · obtain ⟨⟨v, e, p⟩, h1, h2⟩ := bind_ok h
      dsimp only at h2
      split at h2
      · exact bad h2
      · exact take (parsed_other rfl) h2
    · split at h
      · exact bad h
      · obtain ⟨x, h1, h2⟩ := bind_ok h
        cases x with
        | some x =>
          obtain ⟨reg, p⟩ := x
          have hk : reg ∈ regs.map (·.2) := by
            obtain ⟨n, hn⟩ := searchText_mem h1
            exact List.mem_map.2 ⟨_, hn, rfl⟩
          dsimp only at h2
          split at h2
          · split at h2
            · exact take (parsed_indirect hk (by assumption)) h2
            · exact bad h2
          · split at h2
            · exact take (parsed_register hk (by assumption)) h2
            · exact bad h2
        | none =>
          dsimp only at h2
          split at h2
          · exact bad h2
          · obtain ⟨⟨v, e, p⟩, h3, h4⟩ := bind_ok h2
            dsimp only at h4
            split at h4
            · exact bad h4
            · exact take (parsed_other rfl) h4

theorem hasError_ne {e : Err} (h : hasError e = true) : e ≠ .OK := by
  intro he
  rw [he] at h
  exact absurd h (by decide)

theorem parse_err {P : Plugins Value} {scan : Scan} {e : Err} {rest : Scan}
    (h : parseOperand P scan = .ok (.error (e, rest))) : e ≠ .OK := by
  have good : ∀ {x : Operand × Scan}, (Out.ok (Except.ok x) : Out (Except (Err × Scan) (Operand × Scan))) =
      .ok (.error (e, rest)) → e ≠ .OK := by
    intro x h
    injection h with h
    cases h
  have bad : ∀ {e' : Err} {p : Scan}, e' ≠ .OK → (Out.ok (Except.error (e', p)) : Out (Except (Err × Scan) (Operand × Scan))) =
      .ok (.error (e, rest)) → e ≠ .OK := by
    intro e' p hx h
    injection h with h
    injection h with h
    injection h with h
    rw [← h]
    exact hx
  unfold parseOperand at h
  dsimp only at h
  split at h
  · exact good h
  · split at h
    · obtain ⟨⟨v, e, p⟩, h1, h2⟩ := bind_ok h
      dsimp only at h2
      split at h2
      · exact bad (hasError_ne (by assumption)) h2
      · exact good h2
    · split at h
      · exact bad (by decide) h
      · obtain ⟨x, h1, h2⟩ := bind_ok h
        cases x with
        | some x =>
          obtain ⟨reg, p⟩ := x
          dsimp only at h2
          split at h2
          · split at h2
            · exact good h2
            · exact bad (by decide) h2
          · split at h2
            · exact good h2
            · exact bad (by decide) h2
        | none =>
          dsimp only at h2
          split at h2
          · exact bad (by decide) h2
          · obtain ⟨⟨v, e, p⟩, h3, h4⟩ := bind_ok h2
            dsimp only at h4
            split at h4
            · exact bad (hasError_ne (by assumption)) h4
            · exact good h4

/-! ### Encoding -/

/-- The bits of the code an operand takes. -/
def fields : Mode → List Nat
  | .R => [0, 1, 2, 3, 4, 5, 6, 7]
  | .IR => [0, 1]
  | .IR3 => [3]
  | .P12 => [1, 2]
  | .PEXT => [4, 5, 6, 7]
  | .AD11 | .BITN => [0, 32, 64, 96, 128, 160, 192, 224]
  | .F => [0, 32]
  | .RB | .MB => [0, 16]
  | _ => [0]

/-- The codes that may become of one. -/
def reach : List Mode → Nat → List Nat
  | [], c => [c]
  | m :: ms, c => (fields m).flatMap fun f => reach ms ((c ||| f) % 256)

/-- The bytes `x` an operand may have. -/
def Fits (m : Mode) (_ : Nat) (x : List Nat) : Prop :=
  match m with
  | .IMM8 | .BIT8 | .AD08 | .AD11 => ∃ v, v < 256 ∧ x = [v]
  | _ => x = []

/-- What is known of the instruction when some modes are still to come. -/
def Known (ms : List Mode) (opc : Nat) (rem : List Mode) (a : Asm) : Prop :=
  a.opc < 256 ∧ ∀ c ∈ reach rem a.opc, c ∈ reach ms opc

theorem check_any {a : Asm} {c : Bool} {e : Err} (h : (a.check c e).err = .OK) (he : e ≠ .OK) :
    c = false ∧ a.check c e = a := (Asm.check_ok he h).2

theorem setErr_any {a : Asm} {e : Err} (h : (a.setErrorIf e).err = .OK) :
    a.err = .OK ∧ e = .OK ∧ a.setErrorIf e = a := by
  obtain ⟨h1, h2⟩ := setErrorIf_ok h
  exact ⟨h1, h2, by rw [h2]; exact Asm.noError a⟩

theorem emitted {addr : Nat} {m : Mode} {op : Operand} {a a' : Asm}
    (h : encodeOperand addr m op a = .ok a') (he : a'.err = .OK) :
    a.err = .OK ∧ op.err = .OK ∧ a.setErrorIf op.err = a := by
  have key : ∀ b : Asm, b = a.setErrorIf op.err → b.err = .OK →
      a.err = .OK ∧ op.err = .OK ∧ a.setErrorIf op.err = a := by
    intro b hb h1
    rw [hb] at h1
    exact setErr_any h1
  unfold encodeOperand at h
  generalize hb : a.setErrorIf op.err = b at h
  have key := key b hb.symm
  rw [hb] at key
  dsimp only at h
  cases m with
  | IMM8 | BIT8 | BITN =>
    injection h with h
    subst h
    exact key (Asm.check_ok (by decide) he).1
  | AD08 =>
    injection h with h
    subst h
    unfold encodeAddress at he
    rw [if_pos rfl] at he
    exact key (Asm.check_ok (by decide) he).1
  | AD11 =>
    injection h with h
    subst h
    unfold encodeAddress at he
    rw [if_neg (by decide)] at he
    exact key (Asm.check_ok (by decide) he).1
  | _ =>
    injection h with h
    subst h
    exact key he

theorem fitted {addr opc : Nat} {ms : List Mode} {m : Mode} {rem : List Mode} {op : Operand}
    {a a' : Asm} (hq : Parsed op ∧ acceptMode op.mode m = true) (hp : Known ms opc (m :: rem) a)
    (h : encodeOperand addr m op a = .ok a') (he : a'.err = .OK) :
    Known ms opc rem a' ∧ ∃ x, a'.ops = a.ops ++ x ∧ Fits m (1 + a.ops.length) x := by
  obtain ⟨e1, e2, e3⟩ := emitted h he
  have embed : ∀ {a' : Asm} (f : Nat), f ∈ fields m → a'.opc = (a.opc ||| f) % 256 → Known ms opc rem a' := by
    intro a' f h2 h3
    refine ⟨by rw [h3]; exact Nat.mod_lt _ (by decide), ?_⟩
    intro c hc
    apply hp.2
    unfold reach
    rw [List.mem_flatMap]
    exact ⟨f, h2, by rwa [← h3]⟩
  have same : ∀ {a' : Asm}, 0 ∈ fields m → a'.opc = a.opc → Known ms opc rem a' := by
    intro a' h1 h2
    exact embed 0 h1 (by rw [h2, Nat.or_zero, Nat.mod_eq_of_lt hp.1])
  have b8 : ∀ v, v % 256 < 256 := fun v => Nat.mod_lt _ (by decide)
  have put : ∀ (f : Nat), f ∈ fields m → Out.ok (a.embed f) = Out.ok a' →
      Known ms opc rem a' ∧ ∃ x, a'.ops = a.ops ++ x ∧ x = [] := by
    intro f h1 h2
    injection h2 with h2
    subst h2
    exact ⟨embed f h1 rfl, [], by rw [List.append_nil]; rfl, rfl⟩
  have nothing : 0 ∈ fields m → Out.ok a = Out.ok a' → Known ms opc rem a' ∧ ∃ x, a'.ops = a.ops ++ x ∧ x = [] := by
    intro h1 h2
    injection h2 with h2
    subst h2
    exact ⟨same h1 rfl, [], by rw [List.append_nil], rfl⟩
  have octal : ∀ u : Nat, u % 8 * 32 ∈ ([0, 32, 64, 96, 128, 160, 192, 224] : List Nat) := by
    intro u
    exact (by decide : ∀ u < 8, u * 32 ∈ ([0, 32, 64, 96, 128, 160, 192, 224] : List Nat)) _ (Nat.mod_lt u (by decide))
  have only : ∀ m' : Mode, (∀ k, acceptMode k m = true → k = m') → op.mode = m' :=
    fun m' h => h _ hq.2
  unfold encodeOperand at h
  rw [e3] at h
  dsimp only at h
  cases m with
  | IMM8 | BIT8 =>
    injection h with h
    subst h
    obtain ⟨_, h2⟩ := check_any (show (a.check _ _).err = .OK from he) (by decide)
    rw [h2]
    exact ⟨same (List.mem_singleton.2 rfl) rfl, _, rfl, _, b8 _, rfl⟩
  | BITN =>
    injection h with h
    have he' := he
    rw [← h] at he'
    obtain ⟨_, h2⟩ := check_any (show (a.check _ _).err = .OK from he') (by decide)
    rw [h2] at h
    exact put _ (octal _) (congrArg _ h)
  | AD08 =>
    injection h with h
    unfold encodeAddress at h
    dsimp only at h
    rw [if_pos rfl] at h
    subst h
    obtain ⟨_, h2⟩ := check_any (show (a.check _ _).err = .OK from he) (by decide)
    rw [h2]
    exact ⟨same (List.mem_singleton.2 rfl) rfl, _, rfl, _, b8 _, rfl⟩
  | AD11 =>
    injection h with h
    unfold encodeAddress at h
    dsimp only at h
    rw [if_neg (by decide)] at h
    subst h
    obtain ⟨_, h2⟩ := check_any (show (a.check _ _).err = .OK from he) (by decide)
    rw [h2]
    exact ⟨embed _ (octal _) rfl, _, rfl, _, b8 _, rfl⟩
  | R =>
    obtain ⟨r, h1, h2⟩ := hq.1 _ (by rw [only .R (by intro k; cases k <;> decide)]; rfl)
    refine put (regNum op) ?_ h
    unfold regNum
    rw [h2]
    exact h1
  | IR =>
    obtain ⟨r, h1, h2⟩ := hq.1 _ (by rw [only .IR (by intro k; cases k <;> decide)]; rfl)
    refine put (regNum op) ?_ h
    unfold regNum
    rw [h2]
    exact h1
  | IR3 =>
    obtain ⟨r, h1, h2⟩ := hq.1 _ (by rw [only .IR3 (by intro k; cases k <;> decide)]; rfl)
    refine put (regNum op) ?_ h
    unfold regNum
    rw [h2]
    exact h1
  | PEXT =>
    obtain ⟨r, h1, h2⟩ := hq.1 _ (by rw [only .PEXT (by intro k; cases k <;> decide)]; rfl)
    refine put ((regNum op + 256 - REG_BUS) % 256) ?_ h
    unfold regNum
    rw [h2]
    exact (by decide : ∀ r ∈ [REG_P4, REG_P5, REG_P6, REG_P7], (r + 256 - REG_BUS) % 256 ∈ fields .PEXT) r h1
  | P12 =>
    have hm : op.mode = .P1 ∨ op.mode = .P2 ∨ op.mode = .P12 := by
      have := hq.2
      revert this
      cases op.mode <;> decide
    rcases hm with hm | hm | hm
    · obtain ⟨r, h1, h2⟩ := hq.1 _ (by rw [hm]; rfl)
      refine put ((regNum op + 256 - REG_BUS) % 256) ?_ h
      unfold regNum
      rw [h2, List.mem_singleton.1 h1]
      decide
    · obtain ⟨r, h1, h2⟩ := hq.1 _ (by rw [hm]; rfl)
      refine put ((regNum op + 256 - REG_BUS) % 256) ?_ h
      unfold regNum
      rw [h2, List.mem_singleton.1 h1]
      decide
    · obtain ⟨r, h1, h2⟩ := hq.1 _ (by rw [hm]; rfl)
      cases h1
  | F =>
    refine put _ ?_ h
    split <;> decide
  | RB | MB =>
    refine put _ ?_ h
    split <;> decide
  | _ => exact nothing (List.mem_singleton.2 rfl) h

/-! ### Decoding -/

theorem decoded {addr c : Nat} (o : Opts) (m : Mode)
    (x rest bytes : List Nat) (h : Fits m bytes.length x) :
    (decodeOperand o addr c m ⟨x ++ rest, bytes, .OK⟩).2 = ⟨rest, bytes ++ x, .OK⟩ := by
  have none : x = [] → (⟨x ++ rest, bytes, .OK⟩ : Rd) = ⟨rest, bytes ++ x, .OK⟩ := by
    intro h
    rw [h, List.nil_append, List.append_nil]
  have one : (∃ v, v < 256 ∧ x = [v]) → (⟨x ++ rest, bytes, .OK⟩ : Rd).byte.2 = ⟨rest, bytes ++ x, .OK⟩ := by
    rintro ⟨v, h1, rfl⟩
    rw [List.singleton_append, byte_some h1]
  unfold decodeOperand
  cases m with
  | IMM8 | BIT8 | AD08 | AD11 => exact one h
  | _ => exact none h

/-! ### The instruction table -/

/-- What a row can be encoded to is read as that row. -/
def rowB (cpu : CpuType) (r : Row) : Bool :=
  decide ('\x00' ∉ r.name) && decide (r.name.length < 11) && decide ('=' ∉ r.name) &&
  decide ((modes r).length ≤ 2) && decide (r.opcode < 256) &&
  (reach (pad 2 .NONE (modes r)) r.opcode).all (fun c =>
    decide (c < 256) && decide (searchOpCode cpu c = some r))

theorem rows_8039 : ((pages .I8039).all fun p => p.entries.all (rowB .I8039)) = true := by decide +kernel
theorem rows_80C39 : ((pages .I80C39).all fun p => p.entries.all (rowB .I80C39)) = true := by decide +kernel
theorem rows_MSM80C39 : ((pages .MSM80C39).all fun p => p.entries.all (rowB .MSM80C39)) = true := by decide +kernel
theorem rows_8048 : ((pages .I8048).all fun p => p.entries.all (rowB .I8048)) = true := by decide +kernel
theorem rows_80C48 : ((pages .I80C48).all fun p => p.entries.all (rowB .I80C48)) = true := by decide +kernel
theorem rows_MSM80C48 : ((pages .MSM80C48).all fun p => p.entries.all (rowB .MSM80C48)) = true := by decide +kernel

theorem rows_ok (cpu : CpuType) : ((pages cpu).all fun p => p.entries.all (rowB cpu)) = true := by
  cases cpu
  · exact rows_8048
  · exact rows_8039
  · exact rows_80C48
  · exact rows_80C39
  · exact rows_MSM80C48
  · exact rows_MSM80C39

theorem alnum (c : Char) (h : Ctype.isAlnum c = true) : syntaxOf.instructionLetter c = true :=
  show prefixSymbol none (some ['_', '?']) false c = true from prefixSymbol_alnum h

/-- From the operands to the bytes of an entry, and back. -/
theorem insn_back {cpu : CpuType} {addr : Nat} {row : Row} {ops : List Operand} {a : Asm} (hB : rowB cpu row = true)
    (hpar : ∀ op ∈ ops, Parsed op) (hlen : ops.length = 2)
    (hacc : acceptModes (ops.map (·.mode)) row = true)
    (h : emitList (encodeOperand addr) ((pad 2 .NONE (modes row)).zip ops) ⟨.OK, row.opcode, []⟩ = .ok a)
    (he : a.err = .OK) (o : Opts) (more : List Nat) :
    ∃ c, c < 256 ∧ searchOpCode cpu c = some row ∧ a.bytes = c :: a.ops ∧
      (decodeList (decodeOperand o addr c) (modes row) ⟨a.ops ++ more, [c], .OK⟩).2 = ⟨more, c :: a.ops, .OK⟩ := by
  unfold rowB at hB
  simp only [Bool.and_eq_true, decide_eq_true_eq, List.all_eq_true] at hB
  obtain ⟨⟨⟨⟨⟨b1, b2⟩, b3⟩, b4⟩, b5⟩, b7⟩ := hB
  have hmono : ∀ (m : Mode) (op : Operand) (a a' : Asm), encodeOperand addr m op a = .ok a' → a'.err = .OK →
      a.err = .OK := fun m op a a' h1 h2 => (emitted h1 h2).1
  have hl : (pad 2 .NONE (modes row)).length = ops.length := by rw [pad_length, hlen]
  obtain ⟨_, k1, x, k2, k3⟩ := emit_fit (P := Known (pad 2 .NONE (modes row)) row.opcode)
    (Q := fun m op => Parsed op ∧ acceptMode op.mode m = true)
    (Fits := Fits) hmono (fun m rem op a a' hq hp h1 h2 => fitted hq hp h1 h2)
    _ _ _
    (by
      intro p hp
      exact ⟨hpar _ (List.of_mem_zip hp).2, zip_all (f := acceptMode) _ _ hacc p hp⟩)
    (by
      rw [zip_fst _ _ hl]
      exact ⟨b5, fun _ h => h⟩) h he
  rw [zip_fst _ _ hl] at k3
  have hx : a.ops = x := k2
  obtain ⟨f1, f3⟩ := b7 a.opc (k1.2 _ (List.mem_singleton.2 rfl))
  refine ⟨a.opc, f1, f3, ?_, ?_⟩
  · unfold Asm.bytes
    rw [Nat.mod_eq_of_lt f1]
  · rw [hx]
    have k4 := fit_pad (m0 := Mode.NONE) (fun n x h => h) 2 _ _ _ b4 k3
    exact list_decoded (Fits := Fits) (1 + x.length) _ x more [a.opc]
      (fun m _ x' rest bytes _ hf => decoded o m x' rest bytes hf) (Nat.le_refl _) k4

/-- Whatever line is assembled without error, at any address and with any symbols: the disassembler, with any
options, reads the bytes of it, whatever follows them, as one instruction, without error. It has the name
written in the line. -/
theorem C29_i8048 {E : Env} {cpu : CpuType} {addr : Nat} {line : List Char} {bytes : List Nat} {rest : Scan}
    (h : assemble E cpu addr line = .ok (.insn ⟨.OK, bytes, rest⟩)) (o : Opts) (more : List Nat) :
    (disassemble o cpu addr (bytes ++ more)).err = .OK ∧
    (disassemble o cpu addr (bytes ++ more)).bytes = bytes ∧
    WrittenAs line (disassemble o cpu addr (bytes ++ more)).name := by
  obtain ⟨word, scan, hi, haddr, hw, blanks, tail, hline, hblank⟩ :=
    encode_line_inv (by decide) rfl h
  unfold encodeImpl at hi
  obtain ⟨x, d1, d2⟩ := bind_ok hi
  cases x with
  | error e =>
    obtain ⟨e, p⟩ := e
    injection d2 with d2
    injection d2 with d2
    exact absurd d2 (operands_err (fun s e p h => parse_err h) _ _ _ _ d1)
  | ok x =>
    obtain ⟨ops, s⟩ := x
    dsimp only at d2
    obtain ⟨hpar, hl⟩ := operands_all (fun s op p h => parsed h) _ _ _ _ d1
    obtain ⟨x, f1, f2⟩ := bind_ok d2
    unfold searchName at f1
    split at f1
    · rename_i pre row hs
      injection f1 with f1
      subst f1
      dsimp only at f2
      obtain ⟨a, g1, g2⟩ := bind_ok f2
      injection g2 with g2
      injection g2 with g2 g3 g4
      obtain ⟨p, hp, rfl, hrow, hcmp, hacc⟩ := searchName_mem hs
      have hB : rowB cpu row = true := List.all_eq_true.1 (List.all_eq_true.1 (rows_ok cpu) p hp) row hrow
      subst g3
      obtain ⟨c, k1, k2, k3, k4⟩ := insn_back hB (pad_all (parsed_other rfl) 2 ops hpar)
        (pad_length _ _ _) hacc g1 g2 o more
      have hdis : disassemble o cpu addr (a.bytes ++ more) = decodeImpl o cpu addr (a.bytes ++ more) := by
        unfold disassemble decode
        rw [haddr]
        rfl
      rw [hdis, k3]
      unfold decodeImpl
      rw [List.cons_append, byte_some k1]
      dsimp only [List.nil_append]
      rw [k2]
      dsimp only
      rw [k4]
      unfold rowB at hB
      simp only [Bool.and_eq_true, decide_eq_true_eq] at hB
      obtain ⟨⟨⟨⟨⟨b1, b2⟩, b3⟩, _⟩, _⟩, _⟩ := hB
      have hname : WrittenAs line row.name := written alnum (fun c h => by cases h) hw b1 b2 hcmp b3 hline hblank
      exact ⟨rfl, rfl, WrittenAs.letters hname (outText_same o _)⟩
    · rename_i e hs
      injection f1 with f1
      subst f1
      injection f2 with f2
      injection f2 with f2 f3 f4
      exact absurd f2 (searchName_err hs)
    · cases f1

/-- `C29_i8048` has something to say of operands of several kinds. -/
example :
    assemble noEnv .I8048 0x3fe "  jb 5, 312h ; comment".toList =
      .ok (.insn ⟨.OK, [0xb2, 0x12], "; comment".toList⟩) ∧
    assemble noEnv .I8039 0 "anl p2, #0f0h".toList = .ok (.insn ⟨.OK, [0x9a, 0xf0], []⟩) ∧
    assemble noEnv .I8048 0 "call 734h".toList = .ok (.insn ⟨.OK, [0xf4, 0x34], []⟩) ∧
    assemble noEnv .MSM80C48 0 "mov p1, @r3".toList = .ok (.insn ⟨.OK, [0xf3], []⟩) ∧
    assemble noEnv .I8048 0 "sel mb1".toList = .ok (.insn ⟨.OK, [0xf5], []⟩) := by
  decide +kernel

/-- The operands need not be those of the line: a jump to the upper half of the memory is one to the lower half. -/
theorem jump_to_lower_half :
    assemble noEnv .I8048 0 "JMP 0834H".toList = .ok (.insn ⟨.OK, [0x04, 0x34], []⟩) ∧
    (disassemble (.default '$') .I8048 0 [0x04, 0x34]).operands = "034H".toList := by
  decide +kernel

/-- A target in the page that is no address, for it has more than 16 bits, is accepted. -/
theorem jump_past_memory :
    assemble noEnv .I8048 0x300 "JZ 10312H".toList = .ok (.insn ⟨.OK, [0xc6, 0x12], []⟩) ∧
    (disassemble (.default '$') .I8048 0x300 [0xc6, 0x12]).operands = "312H".toList := by
  decide +kernel

end Libasm.Cpu.I8048
