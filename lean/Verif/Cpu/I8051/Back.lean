import Verif.Cpu.Back
import Verif.Cpu.I8051.Props
/-
C29 for the i8051: whatever line the assembler takes, the disassembler reads the bytes of it as one
instruction of the same name.
-/
namespace Libasm.Cpu.I8051
open Scan Number Eval
open Tables (Row)

/-! ### What an operand may be -/

/-- The register of an operand is one its mode allows. -/
def Parsed (op : Operand) : Prop :=
  (op.mode = .RREG → ∃ n : Fin 8, op.reg = some (.R n)) ∧
  (op.mode = .IDIRR → ∃ n : Fin 8, n.val < 2 ∧ op.reg = some (.R n))

theorem parsed_other {op : Operand} (h : op.mode ≠ .RREG ∧ op.mode ≠ .IDIRR) : Parsed op :=
  ⟨fun hx => absurd hx h.1, fun hx => absurd hx h.2⟩

theorem parsed_register {indir : Bool} {reg : Reg} {start p : Scan} {op : Operand} {rest : Scan}
    (h : registerOperand indir reg start p = .ok (.ok (op, rest))) : Parsed op := by
  have take : ∀ {x : Operand} {p : Scan}, Parsed x →
      (Out.ok (Except.ok (x, p)) : Out (Except (Err × Scan) (Operand × Scan))) = .ok (.ok (op, rest)) → Parsed op := by
    intro x p hx h
    injection h with h
    injection h with h
    injection h with h1 h2
    exact h1 ▸ hx
  have bad : ∀ {e : Err × Scan}, (Out.ok (Except.error e) : Out (Except (Err × Scan) (Operand × Scan))) =
      .ok (.ok (op, rest)) → Parsed op := by
    intro e h
    injection h with h
    cases h
  unfold registerOperand at h
  cases indir with
  | false =>
    cases reg with
    | R n => exact take ⟨fun _ => ⟨n, rfl⟩, by intro h; cases h⟩ h
    | PC => exact bad h
    | A | C | DPTR | AB => exact take (parsed_other (by decide)) h
  | true =>
    cases reg with
    | R n =>
      dsimp only at h
      rw [if_neg (by simp), if_pos rfl] at h
      split at h
      · rename_i hn
        exact take ⟨by (intro h; cases h), fun _ => ⟨n, hn, rfl⟩⟩ h
      · exact bad h
    | A =>
      dsimp only at h
      rw [if_pos ⟨rfl, rfl⟩] at h
      split at h
      · obtain ⟨x, h1, h2⟩ := bind_ok h
        split at h2
        · exact take (parsed_other (by decide)) h2
        · exact take (parsed_other (by decide)) h2
        · exact bad h2
      · exact bad h
    | DPTR => exact take (parsed_other (by decide)) h
    | C | PC | AB => exact bad h

theorem parsed {P : Char → Plugins Value} {scan : Scan} {op : Operand} {rest : Scan}
    (h : parseOperand P scan = .ok (.ok (op, rest))) : Parsed op := by
  have take : ∀ {x : Operand} {p : Scan}, x.mode ≠ .RREG ∧ x.mode ≠ .IDIRR →
      (Out.ok (Except.ok (x, p)) : Out (Except (Err × Scan) (Operand × Scan))) = .ok (.ok (op, rest)) → Parsed op := by
    intro x p hx h
    injection h with h
    injection h with h
    injection h with h1 h2
    exact h1 ▸ parsed_other hx
  have bad : ∀ {e : Err × Scan}, (Out.ok (Except.error e) : Out (Except (Err × Scan) (Operand × Scan))) =
      .ok (.ok (op, rest)) → Parsed op := by
    intro e h
    injection h with h
    cases h
  unfold parseOperand at h
  dsimp only at h
  split at h
  · exact take (by decide) h
  · split at h
    · obtain ⟨⟨v, e, p⟩, h1, h2⟩ := bind_ok h
      dsimp only at h2
      split at h2
      · exact bad h2
      · exact take ⟨by simp, by simp⟩ h2
    · split at h
      · exact bad h
      · obtain ⟨x, h1, h2⟩ := bind_ok h
        cases x with
        | some x => exact parsed_register h2
        | none =>
          dsimp only at h2
          split at h2
          · exact bad h2
          · unfold addressOperand at h2
            dsimp only at h2
            obtain ⟨⟨v, e, p⟩, h3, h4⟩ := bind_ok h2
            dsimp only at h4
            split at h4
            · exact bad h4
            · split at h4
              · obtain ⟨⟨v', e', p'⟩, h5, h6⟩ := bind_ok h4
                dsimp only at h6
                split at h6
                · exact bad h6
                · split at h6
                  · refine take ⟨?_, ?_⟩ h6 <;> (dsimp only; split <;> decide)
                  · exact bad h6
              · refine take ⟨?_, ?_⟩ h4 <;> (dsimp only; split <;> decide)

theorem hasError_ne {e : Err} (h : hasError e = true) : e ≠ .OK := by
  intro he
  rw [he] at h
  exact absurd h (by decide)

theorem register_err {indir : Bool} {reg : Reg} {start p : Scan} {e : Err} {rest : Scan}
    (h : registerOperand indir reg start p = .ok (.error (e, rest))) : e ≠ .OK := by
  have good : ∀ {x : Operand × Scan}, (Out.ok (Except.ok x) : Out (Except (Err × Scan) (Operand × Scan))) =
      .ok (.error (e, rest)) → e ≠ .OK := by
    intro x h
    injection h with h
    cases h
  have bad : ∀ {p : Scan}, (Out.ok (Except.error (Err.UNKNOWN_OPERAND, p)) : Out (Except (Err × Scan) (Operand × Scan))) =
      .ok (.error (e, rest)) → e ≠ .OK := by
    intro p h
    injection h with h
    injection h with h
    injection h with h
    rw [← h]
    decide
  unfold registerOperand at h
  cases indir with
  | false =>
    cases reg with
    | PC => exact bad h
    | A | C | DPTR | AB | R n => exact good h
  | true =>
    cases reg with
    | R n =>
      dsimp only at h
      rw [if_neg (by simp), if_pos rfl] at h
      split at h
      · exact good h
      · exact bad h
    | A =>
      dsimp only at h
      rw [if_pos ⟨rfl, rfl⟩] at h
      split at h
      · obtain ⟨x, h1, h2⟩ := bind_ok h
        split at h2
        · exact good h2
        · exact good h2
        · exact bad h2
      · exact bad h
    | DPTR => exact good h
    | C | PC | AB => exact bad h

theorem parse_err {P : Char → Plugins Value} {scan : Scan} {e : Err} {rest : Scan}
    (h : parseOperand P scan = .ok (.error (e, rest))) : e ≠ .OK := by
  have good : ∀ {x : Operand × Scan}, (Out.ok (Except.ok x) : Out (Except (Err × Scan) (Operand × Scan))) =
      .ok (.error (e, rest)) → e ≠ .OK := by
    intro x h
    injection h with h
    cases h
  have bad : ∀ {e' : Err} {p : Scan}, e' ≠ .OK → (Out.ok (Except.error (e', p)) : Out (Except (Err × Scan) (Operand × Scan))) =
      .ok (.error (e, rest)) → e ≠ .OK := by
    intro e' p hx h
    injection h with h
    injection h with h
    injection h with h
    rw [← h]
    exact hx
  unfold parseOperand at h
  dsimp only at h
  split at h
  · exact good h
  · split at h
    · obtain ⟨⟨v, e, p⟩, h1, h2⟩ := bind_ok h
      dsimp only at h2
      split at h2
      · exact bad (hasError_ne (by assumption)) h2
      · exact good h2
    · split at h
      · exact bad (by decide) h
      · obtain ⟨x, h1, h2⟩ := bind_ok h
        cases x with
        | some x => exact register_err h2
        | none =>
          dsimp only at h2
          split at h2
          · exact bad (by decide) h2
          · unfold addressOperand at h2
            dsimp only at h2
            obtain ⟨⟨v, e, p⟩, h3, h4⟩ := bind_ok h2
            dsimp only at h4
            split at h4
            · exact bad (hasError_ne (by assumption)) h4
            · split at h4
              · obtain ⟨⟨v', e', p'⟩, h5, h6⟩ := bind_ok h4
                dsimp only at h6
                split at h6
                · exact bad (by decide) h6
                · split at h6
                  · exact good h6
                  · exact bad (by decide) h6
              · exact good h4

/-! ### Encoding -/

/-- The bits of the code an operand takes. -/
def fields : Mode → List Nat
  | .RREG => [0, 1, 2, 3, 4, 5, 6, 7]
  | .IDIRR => [0, 1]
  | .ADR11 => [0, 32, 64, 96, 128, 160, 192, 224]
  | _ => []

/-- The codes that may become of one. -/
def reach : List Mode → Nat → List Nat
  | [], c => [c]
  | m :: ms, c => if emb m then (fields m).flatMap fun f => reach ms ((c ||| f) % 256) else reach ms c

/-- The bytes `x` an operand may have; `n` bytes come before, `opc` is the code in the table. -/
def Fits (addr opc : Nat) (m : Mode) (n : Nat) (x : List Nat) : Prop :=
  match m with
  | .ADR8 => ∃ v, v < 256 ∧ x = [v] ∧ (opc = 0xE5 → v ≠ 0xE0)
  | .BITAD | .NOTAD | .IMM8 | .ADR11 => ∃ v, v < 256 ∧ x = [v]
  | .ADR16 | .IMM16 => ∃ v w, v < 256 ∧ w < 256 ∧ x = [v, w]
  | .REL => ∃ v, v < 256 ∧ x = [v] ∧ (addr + n + 1 ≤ 65536 →
    0 ≤ ((addr + n + 1 : Nat) : Int) + int8 v ∧ ((addr + n + 1 : Nat) : Int) + int8 v < 65536)
  | _ => x = []

/-- What is known of the instruction when some modes are still to come. -/
def Known (ms : List Mode) (opc : Nat) (rem : List Mode) (a : Asm) : Prop :=
  (∀ c ∈ reach rem a.opc, c ∈ reach ms opc) ∧ (opc = 0xE5 → rem.all (fun m => !emb m) = true ∧ a.opc = 0xE5)

theorem check_any {a : Asm} {c : Bool} {e : Err} (h : (a.check c e).err = .OK) (he : e ≠ .OK) :
    c = false ∧ a.check c e = a := (Asm.check_ok he h).2

theorem setErr_any {a : Asm} {e : Err} (h : (a.setErrorIf e).err = .OK) :
    a.err = .OK ∧ e = .OK ∧ a.setErrorIf e = a := by
  obtain ⟨h1, h2⟩ := setErrorIf_ok h
  exact ⟨h1, h2, by rw [h2]; exact Asm.noError a⟩

theorem getUnsigned_lt (v : Value) : v.getUnsigned < 2 ^ 32 := by
  unfold Value.getUnsigned
  omega

theorem overflow_small {v : Value} (h : v.overflow 255 0 = false) : v.getUnsigned ≤ 255 := by
  unfold Value.overflow at h
  split at h
  · cases h
  · split at h
    · simp at h; exact h
    · split at h
      · simp at h; exact h
      · simp at h
        unfold Value.getSigned at h
        unfold Value.getUnsigned
        dsimp only at h
        split at h <;> omega

theorem emitted {addr : Nat} {m : Mode} {op : Operand} {a a' : Asm}
    (h : encodeOperand false addr m op a = .ok a') (he : a'.err = .OK) :
    a.err = .OK ∧ op.err = .OK ∧ a.setErrorIf op.err = a := by
  have key : ∀ b : Asm, b = a.setErrorIf op.err → b.err = .OK →
      a.err = .OK ∧ op.err = .OK ∧ a.setErrorIf op.err = a := by
    intro b hb h1
    rw [hb] at h1
    exact setErr_any h1
  unfold encodeOperand at h
  generalize hb : a.setErrorIf op.err = b at h
  have key := key b hb.symm
  rw [hb] at key
  dsimp only at h
  have two : ∀ {c d : Bool} {e : Err} {v : Nat}, e ≠ .OK →
      Out.ok (((b.check c e).check d .OPERAND_NOT_ALLOWED).emit8 v) = Out.ok a' → b.err = .OK := by
    intro c d e v hx h
    injection h with h
    subst h
    exact (Asm.check_ok hx (Asm.check_ok (by decide) he).1).1
  cases m with
  | NONE | UNDEF | AREG | CREG | DREG | ABREG | IDIRD | INDXD | INDXP | RREG | IDIRR | IMM16 =>
    injection h with h
    subst h
    exact key he
  | IMM8 =>
    injection h with h
    subst h
    exact key (Asm.check_ok (by decide) he).1
  | ADR8 => exact key (two (by decide) h)
  | BITAD => exact key (two (by decide) h)
  | NOTAD => exact key (two (by decide) h)
  | REL =>
    unfold encodeRelative at h
    exact key (Asm.rel8_back (by decide) (by decide) h he).1
  | ADR11 =>
    injection h with h
    subst h
    unfold encodeJump at he
    dsimp only [Bool.false_and, Bool.not_false] at he
    rw [if_pos ⟨rfl, rfl⟩] at he
    exact key (Asm.check_ok (by decide) he).1
  | ADR16 =>
    injection h with h
    subst h
    unfold encodeJump at he
    dsimp only [Bool.false_and, Bool.not_false] at he
    rw [if_neg (by simp), if_pos ⟨rfl, rfl⟩] at he
    exact key he

theorem fitted {addr opc : Nat} {ms : List Mode} (ha : addr < 65536) {m : Mode} {rem : List Mode} {op : Operand}
    {a a' : Asm} (hq : Parsed op ∧ acceptMode op.mode m = true) (hp : Known ms opc (m :: rem) a)
    (h : encodeOperand false addr m op a = .ok a') (he : a'.err = .OK) :
    Known ms opc rem a' ∧ ∃ x, a'.ops = a.ops ++ x ∧ Fits addr opc m (1 + a.ops.length) x := by
  obtain ⟨e1, e2, e3⟩ := emitted h he
  have same : ∀ {a' : Asm}, emb m = false → a'.opc = a.opc → Known ms opc rem a' := by
    intro a' h1 h2
    refine ⟨?_, ?_⟩
    · have hr : reach (m :: rem) a.opc = reach rem a.opc := by simp [reach, h1]
      rw [h2, ← hr]
      exact hp.1
    · intro h3
      obtain ⟨h4, h5⟩ := hp.2 h3
      rw [List.all_cons, Bool.and_eq_true] at h4
      exact ⟨h4.2, h2.trans h5⟩
  have embed : ∀ {a' : Asm} (f : Nat), emb m = true → f ∈ fields m → a'.opc = (a.opc ||| f) % 256 →
      Known ms opc rem a' := by
    intro a' f h1 h2 h3
    refine ⟨?_, ?_⟩
    · intro c hc
      apply hp.1
      unfold reach
      rw [h1, if_pos rfl, List.mem_flatMap]
      exact ⟨f, h2, by rwa [← h3]⟩
    · intro h4
      have := (hp.2 h4).1
      rw [List.all_cons, h1] at this
      cases this
  have b8 : ∀ v, v % 256 < 256 := fun v => Nat.mod_lt _ (by decide)
  have nothing : emb m = false → Out.ok a = Out.ok a' → Known ms opc rem a' ∧ ∃ x, a'.ops = a.ops ++ x ∧ x = [] := by
    intro h1 h2
    injection h2 with h2
    subst h2
    exact ⟨same h1 rfl, [], by rw [List.append_nil], rfl⟩
  unfold encodeOperand at h
  rw [e3] at h
  dsimp only at h
  cases m with
  | NONE | UNDEF | AREG | CREG | DREG | ABREG | IDIRD | INDXD | INDXP => exact nothing rfl h
  | RREG =>
    have hm : op.mode = .RREG := by
      have := hq.2
      revert this
      cases op.mode <;> decide
    obtain ⟨n, hn⟩ := hq.1.1 hm
    rw [hn] at h
    injection h with h
    subst h
    refine ⟨embed n.val rfl ?_ rfl, [], by rw [List.append_nil]; rfl, rfl⟩
    exact (by decide : ∀ n : Fin 8, n.val ∈ fields .RREG) n
  | IDIRR =>
    have hm : op.mode = .IDIRR := by
      have := hq.2
      revert this
      cases op.mode <;> decide
    obtain ⟨n, hn0, hn⟩ := hq.1.2 hm
    rw [hn] at h
    injection h with h
    subst h
    refine ⟨embed n.val rfl ?_ rfl, [], by rw [List.append_nil]; rfl, rfl⟩
    exact (by decide : ∀ n : Fin 8, n.val < 2 → n.val ∈ fields .IDIRR) n hn0
  | IMM8 =>
    injection h with h
    subst h
    obtain ⟨_, h2⟩ := check_any (show (a.check _ _).err = .OK from he) (by decide)
    rw [h2]
    exact ⟨same rfl rfl, _, rfl, _, b8 _, rfl⟩
  | IMM16 =>
    injection h with h
    subst h
    exact ⟨same rfl rfl, _, rfl, _, _, b8 _, b8 _, rfl⟩
  | ADR16 =>
    injection h with h
    unfold encodeJump at h
    dsimp only [Bool.false_and, Bool.not_false] at h
    rw [if_neg (by simp), if_pos ⟨rfl, rfl⟩] at h
    subst h
    exact ⟨same rfl rfl, _, rfl, _, _, b8 _, b8 _, rfl⟩
  | ADR11 =>
    injection h with h
    unfold encodeJump at h
    dsimp only [Bool.false_and, Bool.not_false] at h
    rw [if_pos ⟨rfl, rfl⟩] at h
    subst h
    obtain ⟨_, h2⟩ := check_any (show (a.check _ _).err = .OK from he) (by decide)
    rw [h2]
    refine ⟨embed _ rfl ?_ rfl, _, rfl, _, b8 _, rfl⟩
    generalize (if op.err ≠ .OK then block (addr + 2) else op.val.getUnsigned) / 256 = t
    have : t % 8 < 8 := Nat.mod_lt _ (by decide)
    exact (by decide : ∀ u < 8, u * 32 ∈ fields .ADR11) _ this
  | ADR8 =>
    injection h with h
    subst h
    obtain ⟨h1, h2⟩ := check_any (show (Asm.check _ _ _).err = .OK from he) (by decide)
    obtain ⟨h3, h4⟩ := check_any (show (Asm.check _ _ _).err = .OK from (Asm.check_ok (by decide) he).1)
      (by decide)
    rw [h2]
    rw [h4] at h1 ⊢
    refine ⟨same rfl rfl, _, rfl, _, b8 _, rfl, ?_⟩
    intro h5 h6
    have h7 := (hp.2 h5).2
    have h8 := overflow_small h3
    unfold invalidDirect at h1
    rw [h7] at h1
    simp at h1
    omega
  | BITAD =>
    injection h with h
    subst h
    obtain ⟨h1, h2⟩ := check_any (show (Asm.check _ _ _).err = .OK from he) (by decide)
    obtain ⟨h3, h4⟩ := check_any (show (Asm.check _ _ _).err = .OK from (Asm.check_ok (by decide) he).1)
      (by decide)
    rw [h2, h4]
    exact ⟨same rfl rfl, _, rfl, _, b8 _, rfl⟩
  | NOTAD =>
    injection h with h
    subst h
    obtain ⟨h1, h2⟩ := check_any (show (Asm.check _ _ _).err = .OK from he) (by decide)
    obtain ⟨h3, h4⟩ := check_any (show (Asm.check _ _ _).err = .OK from (Asm.check_ok (by decide) he).1)
      (by decide)
    rw [h2, h4]
    exact ⟨same rfl rfl, _, rfl, _, b8 _, rfl⟩
  | REL =>
    unfold encodeRelative at h
    dsimp only at h
    rw [e2, if_neg (not_not_intro (rfl : Err.OK = .OK))] at h
    obtain ⟨_, h1, v, h2, h3, h4⟩ := Asm.rel8_back (by decide) (by decide) h he
    refine ⟨same rfl h1, [v], h3, v, h2, rfl, ?_⟩
    intro h5
    have hbase : (addr + (if a.length = 0 then 1 else a.length) + 1) % Config.W = addr + (1 + a.ops.length) + 1 := by
      unfold Asm.length Config.W
      by_cases h0 : a.ops = []
      · rw [if_pos h0, if_pos rfl, h0]
        simp only [List.length_nil]
        omega
      · rw [if_neg h0, if_neg (by omega)]
        omega
    rw [hbase] at h4
    obtain ⟨h6, h7⟩ := h4 (by omega) (by unfold Config.W; omega) (getUnsigned_lt _)
    rw [← h7]
    omega

/-! ### Decoding -/

theorem decoded {addr opc c T : Nat} (o : Opts) (hc : c = 0xE5 → opc = 0xE5) (hT : addr + T ≤ 65536) (m : Mode)
    (x rest bytes : List Nat) (hl : bytes.length + x.length ≤ T) (h : Fits addr opc m bytes.length x) :
    (decodeOperand o addr c m ⟨x ++ rest, bytes, .OK⟩).2 = ⟨rest, bytes ++ x, .OK⟩ := by
  have none : x = [] → (⟨x ++ rest, bytes, .OK⟩ : Rd) = ⟨rest, bytes ++ x, .OK⟩ := by
    intro h
    rw [h, List.nil_append, List.append_nil]
  have one : (∃ v, v < 256 ∧ x = [v]) → (⟨x ++ rest, bytes, .OK⟩ : Rd).byte.2 = ⟨rest, bytes ++ x, .OK⟩ := by
    rintro ⟨v, h1, rfl⟩
    rw [List.singleton_append, byte_some h1]
  have two : (∃ v w, v < 256 ∧ w < 256 ∧ x = [v, w]) →
      (⟨x ++ rest, bytes, .OK⟩ : Rd).be16.2 = ⟨rest, bytes ++ x, .OK⟩ := by
    rintro ⟨v, w, h1, h2, rfl⟩
    exact two_bytes (by simp [h1, h2]) rfl
  unfold decodeOperand
  cases m with
  | NONE | UNDEF | AREG | RREG | CREG | DREG | ABREG | IDIRR | IDIRD | INDXD | INDXP => exact none h
  | IMM8 | BITAD | NOTAD | ADR11 => exact one h
  | ADR16 | IMM16 => exact two h
  | ADR8 =>
    obtain ⟨v, h1, rfl, h3⟩ := h
    dsimp only
    rw [List.singleton_append, byte_some h1]
    dsimp only
    have : invalidDirect c v = false := by
      unfold invalidDirect
      by_cases hc5 : c = 0xE5
      · have := h3 (hc hc5)
        simp only [Bool.and_eq_false_iff, beq_eq_false_iff_ne]
        right; omega
      · simp [hc5]
    rw [this]
    rfl
  | REL =>
    obtain ⟨v, h1, rfl, h3⟩ := h
    unfold decodeRelative
    rw [List.singleton_append, byte_some h1]
    dsimp only
    have hl : bytes.length + 1 ≤ T := hl
    have hlen : (bytes ++ [v]).length = bytes.length + 1 := by simp
    obtain ⟨h4, h5⟩ := h3 (by omega)
    have hlt : ((((addr + (bytes ++ [v]).length : Nat) : Int) + int8 v) % Config.W).toNat < 65536 := by
      unfold Config.W
      rw [hlen]
      omega
    rw [Config.checkAddr_eq false (by decide) (by unfold Config.W; omega), if_neg (by omega)]
    rfl

/-! ### The instruction table -/

/-- What a row can be encoded to is read as that row. -/
def rowB (r : Row) : Bool :=
  decide ('\x00' ∉ r.name) && decide (r.name.length < 11) && decide ('=' ∉ r.name) &&
  decide ((modes r).length ≤ 3) && (r.opcode != 0xE5 || (modes r).all (!emb ·)) &&
  (!(decide (dst r = .ADR8 ∧ src r = .ADR8)) || decide (modes r = [.ADR8, .ADR8])) &&
  (reach (pad 3 .NONE (modes r)) r.opcode).all (fun c =>
    decide (c < 256) && (c != 0xE5 || r.opcode == 0xE5) && decide (searchOpCode c = some r))

theorem rows_ok : (pages.all fun p => p.entries.all rowB) = true := by decide +kernel

theorem alnum (c : Char) (h : Ctype.isAlnum c = true) : syntaxOf.instructionLetter c = true :=
  show prefixSymbol none (some ['_', '?']) false c = true from prefixSymbol_alnum h

theorem known_start (ms : List Mode) (c : Nat) (h : c = 0xE5 → ms.all (!emb ·) = true) :
    Known ms c ms ⟨.OK, c, []⟩ := ⟨fun _ h => h, fun hc => ⟨h hc, hc⟩⟩

/-- From the operands to the bytes of an entry, and back. -/
theorem insn_back {addr : Nat} {row : Row} {ops : List Operand} {a : Asm} (ha : addr < 65536) (hB : rowB row = true)
    (hpar : ∀ op ∈ ops, Parsed op) (hlen : ops.length = 3)
    (hacc : acceptModes (ops.map (·.mode)) row = true)
    (h : encodeOperands false addr row ops ⟨.OK, row.opcode, []⟩ = .ok a) (he : a.err = .OK)
    (hend : addr + a.bytes.length ≤ 65536) (o : Opts) (more : List Nat) :
    ∃ c, c < 256 ∧ searchOpCode c = some row ∧ a.bytes = c :: a.ops ∧
      (if dst row = .ADR8 ∧ src row = .ADR8 then decodeMove o ⟨a.ops ++ more, [c], .OK⟩
        else decodeList (decodeOperand o addr c) (modes row) ⟨a.ops ++ more, [c], .OK⟩).2 =
        ⟨more, c :: a.ops, .OK⟩ := by
  unfold rowB at hB
  simp only [Bool.and_eq_true, decide_eq_true_eq, Bool.or_eq_true, beq_iff_eq, bne_iff_ne, ne_eq,
    List.all_eq_true] at hB
  obtain ⟨⟨⟨⟨⟨⟨b1, b2⟩, b3⟩, b4⟩, b5⟩, b6⟩, b7⟩ := hB
  have hmono : ∀ (m : Mode) (op : Operand) (a a' : Asm), encodeOperand false addr m op a = .ok a' → a'.err = .OK →
      a.err = .OK := fun m op a a' h1 h2 => (emitted h1 h2).1
  have fin : ∀ c, c ∈ reach (pad 3 .NONE (modes row)) row.opcode → a.opc = c →
      c < 256 ∧ (c = 0xE5 → row.opcode = 0xE5) ∧ searchOpCode c = some row ∧ a.bytes = c :: a.ops := by
    intro c hc hac
    obtain ⟨⟨k1, k2⟩, k3⟩ := b7 c hc
    refine ⟨k1, ?_, k3, ?_⟩
    · intro h5
      rcases k2 with k2 | k2
      · exact absurd h5 k2
      · exact k2
    · unfold Asm.bytes
      rw [hac, Nat.mod_eq_of_lt k1]
  unfold encodeOperands at h
  by_cases h2 : dst row = .ADR8 ∧ src row = .ADR8
  · rw [if_pos h2] at h
    have hms : modes row = [.ADR8, .ADR8] := b6.resolve_left (by simp [h2])
    obtain ⟨op1, op2, op3, rfl⟩ := length_three hlen
    have hac : acceptMode op1.mode .ADR8 = true ∧ acceptMode op2.mode .ADR8 = true := by
      unfold acceptModes at hacc
      rw [hms] at hacc
      simp only [pad, List.map, List.zip_cons_cons, List.all_cons, Bool.and_eq_true] at hacc
      exact ⟨hacc.1, hacc.2.1⟩
    have hst : (Asm.setErrorIf ⟨.OK, row.opcode, []⟩ op1.err).err = .OK := emit_mono hmono _ _ _ h he
    have hst := (setErr_any hst).2.2
    have h : emitList (encodeOperand false addr) [(Mode.ADR8, op2), (Mode.ADR8, op1)]
      (Asm.setErrorIf ⟨.OK, row.opcode, []⟩ op1.err) = .ok a := h
    rw [hst] at h
    obtain ⟨_, k1, x, k2, k3⟩ := emit_fit (P := Known [.ADR8, .ADR8] row.opcode)
      (Q := fun m op => Parsed op ∧ acceptMode op.mode m = true)
      (Fits := Fits addr row.opcode) hmono (fun m rem op a a' hq hp h1 h2 => fitted ha hq hp h1 h2)
      [(Mode.ADR8, op2), (Mode.ADR8, op1)] _ _
      (by
        intro p hp
        rcases List.mem_cons.1 hp with rfl | hp
        · exact ⟨hpar op2 (by simp), hac.2⟩
        · rw [List.mem_singleton.1 hp]
          exact ⟨hpar op1 (by simp), hac.1⟩)
      (known_start _ _ (fun _ => rfl)) h he
    have hx : a.ops = x := k2
    have hreach : a.opc ∈ reach (pad 3 .NONE (modes row)) row.opcode := by
      rw [hms]
      exact k1.1 _ (List.mem_singleton.2 rfl)
    obtain ⟨f1, f2, f3, f4⟩ := fin _ hreach rfl
    refine ⟨a.opc, f1, f3, f4, ?_⟩
    rw [if_pos h2, hx]
    obtain ⟨x1, y1, rfl, ⟨v, g1, rfl, _⟩, x2, y2, rfl, ⟨w, g2, rfl, _⟩, g3⟩ := k3
    have : y2 = [] := g3
    subst this
    unfold decodeMove
    rw [show [v] ++ ([w] ++ []) ++ more = v :: w :: more from rfl, byte_some g1]
    dsimp only
    rw [byte_some g2]
    rfl
  · rw [if_neg h2] at h
    have hl : (pad 3 .NONE (modes row)).length = ops.length := by rw [pad_length, hlen]
    obtain ⟨_, k1, x, k2, k3⟩ := emit_fit (P := Known (pad 3 .NONE (modes row)) row.opcode)
      (Q := fun m op => Parsed op ∧ acceptMode op.mode m = true)
      (Fits := Fits addr row.opcode) hmono (fun m rem op a a' hq hp h1 h2 => fitted ha hq hp h1 h2)
      _ _ _
      (by
        intro p hp
        exact ⟨hpar _ (List.of_mem_zip hp).2, zip_all (f := acceptMode) _ _ hacc p hp⟩)
      (by
        rw [zip_fst _ _ hl]
        refine known_start _ _ ?_
        intro hc
        rw [List.all_eq_true]
        exact pad_all (f := fun m => (!emb m) = true) rfl 3 _ (b5.resolve_left (not_not_intro hc))) h he
    rw [zip_fst _ _ hl] at k3
    have hx : a.ops = x := k2
    have hreach : a.opc ∈ reach (pad 3 .NONE (modes row)) row.opcode := k1.1 _ (List.mem_singleton.2 rfl)
    obtain ⟨f1, f2, f3, f4⟩ := fin _ hreach rfl
    refine ⟨a.opc, f1, f3, f4, ?_⟩
    rw [if_neg h2, hx]
    have k4 := fit_pad (m0 := Mode.NONE) (fun n x h => h) 3 _ _ _ b4 k3
    refine list_decoded (Fits := Fits addr row.opcode) (1 + x.length) _ x more [a.opc] ?_ (Nat.le_refl _) k4
    intro m _ x' rest bytes hT hf
    refine decoded o f2 ?_ m x' rest bytes hT hf
    rw [f4, hx, List.length_cons] at hend
    omega

/-- Whatever line is assembled without error, with `smart-branch` off, at any address and with any symbols, and
does not run past the end of the memory: the disassembler, with any options, reads the bytes of it, whatever
follows them, as one instruction, without error. It has the name written in the line.
What is missing of C29: that the operands are those of the line, and the exception `C29_violated_wrap`. -/
theorem C29_i8051_partial {E : Env} {addr : Nat} {line : List Char} {bytes : List Nat} {rest : Scan}
    (h : assemble E false addr line = .ok (.insn ⟨.OK, bytes, rest⟩))
    (hend : addr + bytes.length ≤ 2 ^ 16) (o : Opts) (more : List Nat) :
    (disassemble o addr (bytes ++ more)).err = .OK ∧
    (disassemble o addr (bytes ++ more)).bytes = bytes ∧
    WrittenAs line (disassemble o addr (bytes ++ more)).name := by
  obtain ⟨word, scan, hi, haddr, hw, blanks, tail, hline, hblank⟩ :=
    encode_line_inv (by decide) rfl h
  unfold encodeImpl at hi
  obtain ⟨x, d1, d2⟩ := bind_ok hi
  cases x with
  | error e =>
    obtain ⟨e, p⟩ := e
    injection d2 with d2
    injection d2 with d2
    exact absurd d2 (operands_err (fun s e p h => parse_err h) _ _ _ _ d1)
  | ok x =>
    obtain ⟨ops, s⟩ := x
    dsimp only at d2
    obtain ⟨hpar, hl⟩ := operands_all (fun s op p h => parsed h) _ _ _ _ d1
    obtain ⟨x, f1, f2⟩ := bind_ok d2
    unfold searchName at f1
    split at f1
    · rename_i pre row hs
      injection f1 with f1
      subst f1
      dsimp only at f2
      obtain ⟨a, g1, g2⟩ := bind_ok f2
      injection g2 with g2
      injection g2 with g2 g3 g4
      obtain ⟨p, hp, rfl, hrow, hcmp, hacc⟩ := searchName_mem hs
      have hB : rowB row = true := List.all_eq_true.1 (List.all_eq_true.1 rows_ok p hp) row hrow
      subst g3
      have ha : addr < 65536 := by
        have : a.bytes.length = a.ops.length + 1 := rfl
        omega
      obtain ⟨c, k1, k2, k3, k4⟩ := insn_back ha hB (pad_all (parsed_other (by decide)) 3 ops hpar) (pad_length _ _ _) hacc g1 g2 hend o more
      have hdis : disassemble o addr (a.bytes ++ more) = decodeImpl o addr (a.bytes ++ more) := by
        unfold disassemble decode
        rw [haddr]
        rfl
      rw [hdis, k3]
      unfold decodeImpl
      rw [List.cons_append, byte_some k1]
      dsimp only [List.nil_append]
      rw [k2]
      dsimp only
      rw [k4]
      unfold rowB at hB
      simp only [Bool.and_eq_true, decide_eq_true_eq] at hB
      obtain ⟨⟨⟨⟨⟨⟨b1, b2⟩, b3⟩, _⟩, _⟩, _⟩, _⟩ := hB
      have hname : WrittenAs line row.name := written alnum (fun c h => by cases h) hw b1 b2 hcmp b3 hline hblank
      exact ⟨rfl, rfl, WrittenAs.letters hname (outText_same o _)⟩
    · rename_i e hs
      injection f1 with f1
      subst f1
      injection f2 with f2
      injection f2 with f2 f3 f4
      exact absurd f2 (searchName_err hs)
    · cases f1

/-- `C29_i8051_partial` has something to say of operands of several kinds. -/
example :
    assemble noEnv false 0x1000 "  cjne @r1, #12h, $+3 ; comment".toList =
      .ok (.insn ⟨.OK, [0xb7, 0x12, 0x00], "; comment".toList⟩) ∧
    assemble noEnv false 0 "mov 0F0H, 12H".toList = .ok (.insn ⟨.OK, [0x85, 0x12, 0xf0], []⟩) ∧
    assemble noEnv false 0x17fe "acall 1f34h".toList = .ok (.insn ⟨.OK, [0xf1, 0x34], []⟩) ∧
    assemble noEnv false 0 "orl c, /0e0h.7".toList = .ok (.insn ⟨.OK, [0xa0, 0xe7], []⟩) := by
  decide +kernel

/-- The exception: a branch at the end of the memory to its begin is accepted, and no address for the
disassembler. -/
theorem C29_violated_wrap :
    assemble noEnv false 0xfffe "DJNZ 12H, 0".toList = .ok (.insn ⟨.OK, [0xd5, 0x12, 0xff], []⟩) ∧
    (disassemble (.default '$') 0xfffe [0xd5, 0x12, 0xff]).err = .OVERFLOW_RANGE := by
  decide +kernel

end Libasm.Cpu.I8051
