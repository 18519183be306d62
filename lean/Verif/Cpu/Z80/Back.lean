import Verif.Cpu.Back
import Verif.Cpu.Z80.Props
/-
C29 for the Z80: whatever line the assembler takes, the disassembler reads the bytes of it as one
instruction of the same name, unless the two index registers are added.
-/
namespace Libasm.Cpu.Z80
open Scan Number Eval
open Tables (Row)

/-! ### What an operand may be -/

/-- The registers a mode allows. -/
def registers : Mode → Option (List Reg)
  | .SR8 => some [.B, .D, .E, .H, .L]
  | .R r => some [r]
  | .I r => some [r]
  | .PTR => some [.BC, .DE]
  | .IIDX | .RIDX | .IDX => some [.IX, .IY]
  | .R16 | .NOHL | .R16X | .STK | .SRC | .DST | .DR8 | .IXB | .BIT | .VEC | .IMMD | .REL | .IM8 | .IOA => some []
  | _ => none

/-- The register of an operand is one its mode allows, and so is the number of a condition. -/
structure Parsed (op : Operand) : Prop where
  reg : ∀ l, registers op.mode = some l → ∃ r ∈ l, op.reg = some r
  cc4 : op.mode = .CC4 ∨ op.mode = .R .C → op.val.getUnsigned < 4
  cc8 : op.mode = .CC8 → op.val.getUnsigned < 8

theorem parsed_other {op : Operand} (h : registers op.mode = none) (h4 : op.mode ≠ .CC4) (h8 : op.mode ≠ .CC8) : Parsed op := by
  refine ⟨fun l hl => ?_, fun hc => ?_, fun hc => absurd hc h8⟩
  · rw [h] at hl; cases hl
  · rcases hc with hc | hc
    · exact absurd hc h4
    · rw [hc] at h; cases h

theorem parsed_indirect {reg : Reg} {m : Mode} (h : indirectMode reg = some m) : Parsed { mode := m, reg := some reg } := by
  refine ⟨fun l hl => ⟨reg, ?_, rfl⟩, ?_, ?_⟩
  · revert m; cases reg <;> intro m h hl <;> simp_all [indirectMode] <;> subst h <;> simp_all [registers] <;> subst hl <;> simp
  · intro hc; revert m; cases reg <;> intro m h hc <;> simp_all [indirectMode] <;> subst h <;> simp_all
  · intro hc; revert m; cases reg <;> intro m h hc <;> simp_all [indirectMode]

theorem parsed_register {reg : Reg} (hc : reg ≠ .C) : Parsed { mode := registerMode reg, reg := some reg } := by
  refine ⟨fun l hl => ⟨reg, ?_, rfl⟩, ?_, ?_⟩
  · revert hl; cases reg <;> simp [registerMode, registers] <;> intro h <;> subst h <;> simp
  · cases reg <;> simp_all [registerMode]
  · cases reg <;> simp_all [registerMode]

theorem ccnum : ∀ cc : Cc, (Value.setUnsigned cc.num).getUnsigned = cc.num ∧ cc.num < 8 := by
  intro cc; cases cc <;> decide +kernel

section
variable {P : Char → Plugins Value}

abbrev Answer := Out (Except (Err × Scan) (Operand × Scan))

theorem ok_parsed {x op : Operand} {p rest : Scan} (hx : Parsed x)
    (h : (Out.ok (Except.ok (x, p)) : Answer) = .ok (.ok (op, rest))) : Parsed op := by
  injection h with h
  injection h with h
  injection h with h1 h2
  exact h1 ▸ hx

theorem bad_parsed {op : Operand} {e : Err × Scan} {rest : Scan}
    (h : (Out.ok (Except.error e) : Answer) = .ok (.ok (op, rest))) : Parsed op := by
  injection h with h
  cases h

theorem paren_parsed {start p rest : Scan} {op : Operand}
    (h : parseParen P start p = .ok (.ok (op, rest))) : Parsed op := by
  unfold parseParen at h
  obtain ⟨x, h1, h2⟩ := bind_ok h
  cases x with
  | none =>
    obtain ⟨⟨v, e, q⟩, h3, h4⟩ := bind_ok h2
    dsimp only at h4
    split at h4
    · exact bad_parsed h4
    · split at h4
      · exact bad_parsed h4
      · exact ok_parsed (parsed_other rfl (by simp) (by simp)) h4
  | some x =>
    obtain ⟨reg, q⟩ := x
    dsimp only at h2
    split at h2
    · split at h2
      · exact ok_parsed (parsed_indirect (by assumption)) h2
      · exact bad_parsed h2
    · split at h2
      · rename_i hcond
        obtain ⟨⟨v, e, q⟩, h3, h4⟩ := bind_ok h2
        dsimp only at h4
        split at h4
        · exact bad_parsed h4
        · split at h4
          · exact bad_parsed h4
          · refine ok_parsed ⟨fun l hl => ⟨reg, ?_, rfl⟩, ?_, ?_⟩ h4
            · injection hl with hl
              subst hl
              rcases hcond.2 with h | h <;> simp [h]
            · rintro (h | h) <;> cases h
            · intro h; cases h
      · exact bad_parsed h2

theorem parsed {scan rest : Scan} {op : Operand}
    (h : parseOperand P scan = .ok (.ok (op, rest))) : Parsed op := by
  unfold parseOperand at h
  dsimp only at h
  split at h
  · exact ok_parsed (parsed_other rfl (by decide) (by decide)) h
  · obtain ⟨reg, h1, h2⟩ := bind_ok h
    split at h2
    · refine ok_parsed ⟨fun l hl => ⟨.C, ?_, rfl⟩, fun _ => ?_, ?_⟩ h2
      · injection hl with hl; subst hl; simp
      · exact (by decide +kernel : (Value.setUnsigned Cc.C.num).getUnsigned < 4)
      · intro h; cases h
    · rename_i hnc
      obtain ⟨x, h3, h4⟩ := bind_ok h2
      cases x with
      | some x =>
        obtain ⟨cc, q⟩ := x
        refine ok_parsed ⟨fun l hl => ?_, fun hm => ?_, fun hm => ?_⟩ h4
        · dsimp only at hl; split at hl <;> cases hl
        · dsimp only at hm ⊢
          rw [(ccnum cc).1]
          split at hm
          · rename_i h5
            exact of_decide_eq_true h5
          · rcases hm with hm | hm <;> cases hm
        · dsimp only
          rw [(ccnum cc).1]
          exact (ccnum cc).2
      | none =>
        dsimp only at h4
        split at h4
        · rename_i r q
          refine ok_parsed (parsed_register ?_) h4
          rintro rfl
          exact hnc rfl
        · split at h4
          · exact paren_parsed h4
          · obtain ⟨⟨v, e, q⟩, h5, h6⟩ := bind_ok h4
            dsimp only at h6
            split at h6
            · exact bad_parsed h6
            · exact ok_parsed (parsed_other rfl (by simp) (by simp)) h6

theorem hasError_ne {e : Err} (h : hasError e = true) : e ≠ .OK := by
  intro he
  rw [he] at h
  exact absurd h (by decide)

theorem good_err {e : Err} {x : Operand × Scan} {rest : Scan}
    (h : (Out.ok (Except.ok x) : Answer) = .ok (.error (e, rest))) : e ≠ .OK := by
  injection h with h
  cases h

theorem bad_err {e e' : Err} {p rest : Scan} (hx : e' ≠ .OK)
    (h : (Out.ok (Except.error (e', p)) : Answer) = .ok (.error (e, rest))) : e ≠ .OK := by
  injection h with h
  injection h with h
  injection h with h
  rw [← h]
  exact hx

theorem parse_err {scan rest : Scan} {e : Err}
    (h : parseOperand P scan = .ok (.error (e, rest))) : e ≠ .OK := by
  unfold parseOperand at h
  dsimp only at h
  split at h
  · exact good_err h
  · obtain ⟨reg, h1, h2⟩ := bind_ok h
    split at h2
    · exact good_err h2
    · obtain ⟨x, h3, h4⟩ := bind_ok h2
      cases x with
      | some x => exact good_err h4
      | none =>
        dsimp only at h4
        split at h4
        · exact good_err h4
        · split at h4
          · unfold parseParen at h4
            obtain ⟨x, h1, h2⟩ := bind_ok h4
            cases x with
            | none =>
              obtain ⟨⟨v, e, q⟩, h3, h4⟩ := bind_ok h2
              dsimp only at h4
              split at h4
              · exact bad_err (hasError_ne (by assumption)) h4
              · split at h4
                · exact bad_err (by decide) h4
                · exact good_err h4
            | some x =>
              obtain ⟨reg, q⟩ := x
              dsimp only at h2
              split at h2
              · split at h2
                · exact good_err h2
                · exact bad_err (by decide) h2
              · split at h2
                · obtain ⟨⟨v, e, q⟩, h3, h4⟩ := bind_ok h2
                  dsimp only at h4
                  split at h4
                  · exact bad_err (hasError_ne (by assumption)) h4
                  · split at h4
                    · exact bad_err (by decide) h4
                    · exact good_err h4
                · exact bad_err (by decide) h2
          · obtain ⟨⟨v, e, q⟩, h5, h6⟩ := bind_ok h4
            dsimp only at h6
            split at h6
            · exact bad_err (hasError_ne (by assumption)) h6
            · exact good_err h6

end

/-! ### Encoding -/

/-- The bits of the code an operand takes. -/
def fields : Mode → List Nat
  | .CC4 => [0, 8, 16, 24]
  | .CC8 | .VEC | .BIT | .DST => [0, 8, 16, 24, 32, 40, 48, 56]
  | .DR8 => [0, 8, 16, 24, 32, 40, 56]
  | .R16 | .STK | .R16X => [0, 16, 32, 48]
  | .NOHL => [0, 16, 48]
  | .PTR => [0, 16]
  | .SRC => [0, 1, 2, 3, 4, 5, 6, 7]
  | .SR8 => [0, 1, 2, 3, 4, 5, 7]
  | .R .R => [8]
  | .IMMD => [0, 16, 24]
  | _ => [0]

/-- The bytes `x` an operand may have, `n` bytes come before. -/
def Fits (addr : Nat) (m : Mode) (n : Nat) (x : List Nat) : Prop :=
  match m with
  | .IM8 | .IOA | .IDX => ∃ v, v < 256 ∧ x = [v]
  | .IM16 | .ABS => ∃ v w, v < 256 ∧ w < 256 ∧ x = [v, w]
  | .REL => n = 1 ∧ ∃ v, v < 256 ∧ x = [v] ∧ (addr + 2 ≤ 65536 →
      0 ≤ ((addr + 2 : Nat) : Int) + int8 v ∧ ((addr + 2 : Nat) : Int) + int8 v < 65536)
  | _ => x = []

theorem setErr_any {a : Asm} {e : Err} (h : (a.setErrorIf e).err = .OK) :
    a.err = .OK ∧ e = .OK ∧ a.setErrorIf e = a := by
  obtain ⟨h1, h2⟩ := setErrorIf_ok h
  exact ⟨h1, h2, by rw [h2]; exact Asm.noError a⟩

/-- What became of the code, the bytes and the prefix. -/
structure Step (addr : Nat) (m : Mode) (i i' : Ins) : Prop where
  err : i.asm.err = .OK
  code : i.asm.opc < 256 → ∃ f ∈ fields m, i'.asm.opc = (i.asm.opc ||| f) % 256
  ops : ∃ x, i'.asm.ops = i.asm.ops ++ x ∧ ∀ n, (m = .REL → n = 1) → Fits addr m n x
  pre : i'.pre = if isIdx m then i'.pre else i.pre
  idx : isIdx m = true → i'.pre = 0xdd ∨ i'.pre = 0xfd

theorem getUnsigned_lt (v : Value) : v.getUnsigned < Config.W := by
  unfold Value.getUnsigned Config.W
  omega

/-- The bits the registers of the mode `k` give are of the mode `m`. -/
def regsB (f : Reg → Nat) (m k : Mode) : Bool :=
  match registers k with
  | some l => l.all fun r => decide (f r ∈ fields m)
  | none => false

theorem regs_of {f : Reg → Nat} {m : Mode} {op : Operand} (hp : Parsed op) (h : regsB f m op.mode = true) :
    ∃ r, op.reg = some r ∧ f r ∈ fields m := by
  unfold regsB at h
  split at h
  · rename_i l hl
    obtain ⟨r, h1, h2⟩ := hp.reg l hl
    exact ⟨r, h2, of_decide_eq_true (List.all_eq_true.1 h r h1)⟩
  · cases h

theorem fields_r16 (k : Mode) : acceptMode k .R16 = true → regsB (fun r => r.num * 16) .R16 k = true := by
  cases k <;> first | decide | (rename_i r; cases r <;> decide)
theorem fields_nohl (k : Mode) : acceptMode k .NOHL = true → regsB (fun r => r.num * 16) .NOHL k = true := by
  cases k <;> first | decide | (rename_i r; cases r <;> decide)
theorem fields_r16x (k : Mode) : acceptMode k .R16X = true → k ≠ .RIDX → regsB (fun r => r.num * 16) .R16X k = true ∧
    registers k ≠ none ∧ ∀ l ∈ registers k, Reg.IX ∉ l ∧ Reg.IY ∉ l := by
  cases k <;> first | decide | (rename_i r; cases r <;> decide)
theorem fields_stk (k : Mode) : acceptMode k .STK = true → regsB (fun r => encodeStackReg (some r) * 16) .STK k = true := by
  cases k <;> first | decide | (rename_i r; cases r <;> decide)
theorem fields_ptr (k : Mode) : acceptMode k .PTR = true → regsB (fun r => r.num * 16) .PTR k = true := by
  cases k <;> first | decide | (rename_i r; cases r <;> decide)
theorem fields_src (k : Mode) : acceptMode k .SRC = true → regsB (fun r => encodeDataReg (some r)) .SRC k = true := by
  cases k <;> first | decide | (rename_i r; cases r <;> decide)
theorem fields_sr8 (k : Mode) : acceptMode k .SR8 = true → regsB (fun r => encodeDataReg (some r)) .SR8 k = true := by
  cases k <;> first | decide | (rename_i r; cases r <;> decide)
theorem fields_dst (k : Mode) : acceptMode k .DST = true → regsB (fun r => encodeDataReg (some r) * 8) .DST k = true := by
  cases k <;> first | decide | (rename_i r; cases r <;> decide)
theorem fields_dr8 (k : Mode) : acceptMode k .DR8 = true → regsB (fun r => encodeDataReg (some r) * 8) .DR8 k = true := by
  cases k <;> first | decide | (rename_i r; cases r <;> decide)
theorem modes_cc4 (k : Mode) : acceptMode k .CC4 = true → k = .CC4 ∨ k = .R .C := by
  cases k <;> first | decide | (rename_i r; cases r <;> decide)
theorem modes_cc8 (k : Mode) : acceptMode k .CC8 = true → k = .CC4 ∨ k = .R .C ∨ k = .CC8 := by
  cases k <;> first | decide | (rename_i r; cases r <;> decide)

/-- A number without the bits of `~0x38`. -/
theorem vec_bits {v : Nat} (hv : v < Config.W) (h : v &&& notVec = 0) : v % 8 = 0 ∧ v < 64 := by
  have h1 : v % 8 = 0 := by
    rw [show v % 8 = v &&& 7 from (Nat.and_two_pow_sub_one_eq_mod v 3).symm, show (7 : Nat) = notVec &&& 7 from rfl,
      ← Nat.and_assoc, h, Nat.zero_and]
  have h2 : v / 64 = 0 := by
    have e : (v &&& notVec) >>> 6 = 0 := by rw [h]; rfl
    rw [Nat.shiftRight_and_distrib, show notVec >>> 6 = 2 ^ 26 - 1 from rfl, Nat.and_two_pow_sub_one_eq_mod,
      Nat.shiftRight_eq_div_pow] at e
    unfold Config.W at hv
    omega
  omega

theorem embed_step {addr : Nat} {m : Mode} {i : Ins} {f : Nat} (he : i.asm.err = .OK) (hf : f ∈ fields m)
    (hn : ∀ n, (m = .REL → n = 1) → Fits addr m n []) (hi : isIdx m = false) : Step addr m i { i with asm := i.asm.embed f } :=
  ⟨he, fun _ => ⟨f, hf, rfl⟩, ⟨[], by rw [List.append_nil]; rfl, hn⟩, by rw [hi]; rfl, fun h => by rw [hi] at h; cases h⟩

theorem fitted {addr : Nat} {m : Mode} {op other : Operand} {i i' : Ins} (hp : Parsed op)
    (ha : acceptMode op.mode m = true) (h32 : addr < 65536)
    (hx : m = .R16X → op.mode = .RIDX → op.reg = other.reg)
    (h : encodeOperand addr false m op other i = .ok i') (he : i'.asm.err = .OK) : Step addr m i i' := by
  have b8 : ∀ v, v % 256 < 256 := fun v => Nat.mod_lt _ (by decide)
  have zero : ∀ {a' : Nat}, 0 ∈ fields m → a' = i.asm.opc → i.asm.opc < 256 → ∃ f ∈ fields m, a' = (i.asm.opc ||| f) % 256 :=
    fun h1 h2 ho => ⟨0, h1, by rw [h2, Nat.or_zero, Nat.mod_eq_of_lt ho]⟩
  -- the operand as such is without error
  have clean : ∀ a : Asm, a = i.asm.setErrorIf op.err → a.err = .OK → i.asm.err = .OK ∧ op.err = .OK ∧ a = i.asm := by
    intro a h1 h2
    rw [h1] at h2 ⊢
    exact setErr_any h2
  have put : ∀ (f : Nat), f ∈ fields m → (∀ n, (m = .REL → n = 1) → Fits addr m n []) → isIdx m = false →
      Out.ok { i with asm := (i.asm.setErrorIf op.err).embed f } = Out.ok i' → Step addr m i i' := by
    intro f h1 h2 h3 h4
    injection h4 with h4
    subst h4
    obtain ⟨k1, _, k3⟩ := clean _ rfl (show (i.asm.setErrorIf op.err).err = .OK from he)
    rw [k3]
    exact embed_step k1 h1 h2 h3
  have nothing : 0 ∈ fields m → (∀ n, (m = .REL → n = 1) → Fits addr m n []) → isIdx m = false →
      Out.ok { i with asm := i.asm.setErrorIf op.err } = Out.ok i' → Step addr m i i' := by
    intro h1 h2 h3 h4
    injection h4 with h4
    subst h4
    obtain ⟨k1, _, k3⟩ := clean _ rfl he
    rw [k3]
    exact ⟨k1, zero h1 rfl, ⟨[], by rw [List.append_nil], h2⟩, by rw [h3]; rfl, fun h => by rw [h3] at h; cases h⟩
  have one : ∀ (c : Bool) (v : Nat) (p : Nat) (hf : 0 ∈ fields m) (hb : ∀ n v, v < 256 → Fits addr m n [v])
      (hpre : if isIdx m then p = 0xdd ∨ p = 0xfd else p = i.pre),
      Out.ok ⟨((i.asm.setErrorIf op.err).check c .OVERFLOW_RANGE).emit8 v, p⟩ = Out.ok i' → Step addr m i i' := by
    intro c v p hf hb hpre h4
    injection h4 with h4
    subst h4
    obtain ⟨k0, _, k2⟩ := Asm.check_ok (by decide) (show ((i.asm.setErrorIf op.err).check c .OVERFLOW_RANGE).err = .OK from he)
    obtain ⟨k1, _, k3⟩ := clean _ rfl k0
    rw [k2, k3]
    refine ⟨k1, zero hf rfl, ⟨[v % 256], rfl, fun n _ => hb n _ (b8 v)⟩, ?_, ?_⟩
    · split
      · rfl
      · rename_i hi
        rw [if_neg hi] at hpre
        exact hpre
    · intro hi
      rw [if_pos hi] at hpre
      exact hpre
  have prefixed : ∀ r : Option Reg, indexPrefix r = 0xdd ∨ indexPrefix r = 0xfd := by
    intro r
    unfold indexPrefix
    split
    · exact Or.inl rfl
    · exact Or.inr rfl
  have byReg : ∀ (f : Reg → Nat) (g : Nat), regsB f m op.mode = true → (∀ r, op.reg = some r → g = f r) → g ∈ fields m := by
    intro f g h1 h2
    obtain ⟨r, h3, h4⟩ := regs_of hp h1
    rw [h2 r h3]
    exact h4
  have eights : ∀ v < 8, v * 8 ∈ ([0, 8, 16, 24, 32, 40, 48, 56] : List Nat) := by decide
  unfold encodeOperand at h
  dsimp only at h
  cases m with
  | IM8 => exact one _ _ _ (List.mem_singleton.2 rfl) (fun n v hv => ⟨v, hv, rfl⟩) rfl h
  | IOA => exact one _ _ _ (List.mem_singleton.2 rfl) (fun n v hv => ⟨v, hv, rfl⟩) rfl h
  | IDX => exact one _ _ _ (List.mem_singleton.2 rfl) (fun n v hv => ⟨v, hv, rfl⟩) (prefixed _) h
  | RIDX | IIDX =>
    injection h with h
    subst h
    obtain ⟨k1, _, k3⟩ := clean _ rfl (show (i.asm.setErrorIf op.err).err = .OK from he)
    rw [k3]
    exact ⟨k1, zero (List.mem_singleton.2 rfl) rfl, ⟨[], by rw [List.append_nil], fun n _ => rfl⟩, rfl, fun _ => prefixed _⟩
  | IM16 | ABS =>
    injection h with h
    subst h
    obtain ⟨k1, _, k3⟩ := clean _ rfl (show (i.asm.setErrorIf op.err).err = .OK from he)
    rw [k3]
    exact ⟨k1, zero (List.mem_singleton.2 rfl) rfl, ⟨_, rfl, fun n _ => ⟨_, _, b8 _, b8 _, rfl⟩⟩, rfl, fun h => nomatch h⟩
  | REL =>
    obtain ⟨a, h1, h2⟩ := bind_ok h
    injection h2 with h2
    subst h2
    obtain ⟨k1, k2, v, k3, k4, k5⟩ := Asm.rel8_back (by decide) (by decide) h1 he
    obtain ⟨e1, e2, e3⟩ := clean _ rfl k1
    rw [e3] at k2 k4
    refine ⟨e1, zero (List.mem_singleton.2 rfl) k2, ⟨[v], k4, fun n hn => ⟨hn rfl, v, k3, rfl, fun hend => ?_⟩⟩, rfl, fun h => nomatch h⟩
    obtain ⟨m1, m2⟩ := k5 hend (by unfold Config.W; omega) (by
      split
      · unfold Config.W; omega
      · exact getUnsigned_lt _)
    omega
  | CC4 =>
    refine put _ ?_ (fun _ _ => rfl) rfl h
    have hv := hp.cc4 (modes_cc4 _ ha)
    rw [Nat.mod_eq_of_lt (show op.val.getUnsigned < 256 by omega)]
    exact (by decide : ∀ v < 4, v * 8 ∈ fields .CC4) _ hv
  | CC8 =>
    refine put _ ?_ (fun _ _ => rfl) rfl h
    have hv : op.val.getUnsigned < 8 := by
      rcases modes_cc8 _ ha with h | h | h
      · have := hp.cc4 (Or.inl h); omega
      · have := hp.cc4 (Or.inr h); omega
      · exact hp.cc8 h
    rw [Nat.mod_eq_of_lt (show op.val.getUnsigned < 256 by omega)]
    exact eights _ hv
  | R16 =>
    refine put _ (byReg _ _ (fields_r16 _ ha) (fun r hr => ?_)) (fun _ _ => rfl) rfl h
    rw [hr]; rfl
  | NOHL =>
    refine put _ (byReg _ _ (fields_nohl _ ha) (fun r hr => ?_)) (fun _ _ => rfl) rfl h
    rw [hr]; rfl
  | R16X =>
    refine put _ ?_ (fun _ _ => rfl) rfl h
    unfold encodePointerRegIx
    by_cases hi : op.mode = .RIDX
    · rw [if_pos (hx rfl hi)]
      decide
    · split
      · decide
      · refine byReg _ _ (fields_r16x _ ha hi).1 (fun r hr => ?_)
        rw [hr]; rfl
  | STK =>
    refine put _ (byReg _ _ (fields_stk _ ha) (fun r hr => ?_)) (fun _ _ => rfl) rfl h
    rw [hr]
  | PTR =>
    refine put _ (byReg _ _ (fields_ptr _ ha) (fun r hr => ?_)) (fun _ _ => rfl) rfl h
    rw [hr]; rfl
  | SRC =>
    refine put _ (byReg _ _ (fields_src _ ha) (fun r hr => ?_)) (fun _ _ => rfl) rfl h
    rw [hr]
  | SR8 =>
    refine put _ (byReg _ _ (fields_sr8 _ ha) (fun r hr => ?_)) (fun _ _ => rfl) rfl h
    rw [hr]
  | DST =>
    refine put _ (byReg _ _ (fields_dst _ ha) (fun r hr => ?_)) (fun _ _ => rfl) rfl h
    rw [hr]
  | DR8 =>
    refine put _ (byReg _ _ (fields_dr8 _ ha) (fun r hr => ?_)) (fun _ _ => rfl) rfl h
    rw [hr]
  | R r =>
    cases r with
    | R => exact put _ (List.mem_singleton.2 rfl) (fun _ _ => rfl) rfl h
    | _ => exact nothing (List.mem_singleton.2 rfl) (fun _ _ => rfl) rfl h
  | VEC =>
    replace h : (if op.val.getUnsigned &&& notVec ≠ 0 then
        Out.ok { i with asm := ((i.asm.setErrorIf op.err).setErrorIf .ILLEGAL_OPERAND).embed (op.val.getUnsigned &&& notVec) }
      else Out.ok { i with asm := (i.asm.setErrorIf op.err).embed op.val.getUnsigned }) = .ok i' := h
    split at h
    · injection h with h
      subst h
      exact absurd (setErrorIf_ok (show Config.setErrorIf _ _ = .OK from he)).2 (by decide)
    · rename_i hv
      refine put _ ?_ (fun _ _ => rfl) rfl h
      obtain ⟨h1, h2⟩ := vec_bits (getUnsigned_lt _) (Decidable.of_not_not hv)
      have := eights (op.val.getUnsigned / 8) (by omega)
      rwa [show op.val.getUnsigned / 8 * 8 = op.val.getUnsigned by omega] at this
  | BIT =>
    injection h with h
    have he' := he
    rw [← h] at he'
    obtain ⟨k0, _, k2⟩ := Asm.check_ok (by decide) (show ((i.asm.setErrorIf op.err).check _ .ILLEGAL_BIT_NUMBER).err = .OK from he')
    rw [k2] at h
    exact put _ (eights _ (Nat.mod_lt _ (by decide))) (fun _ _ => rfl) rfl (congrArg _ h)
  | IMMD =>
    replace h : (if op.val.getUnsigned = 0 then Out.ok { i with asm := i.asm.setErrorIf op.err }
      else if op.val.getUnsigned = 1 then Out.ok { i with asm := (i.asm.setErrorIf op.err).embed 16 }
      else if op.val.getUnsigned = 2 then Out.ok { i with asm := (i.asm.setErrorIf op.err).embed 24 }
      else Out.ok { i with asm := (i.asm.setErrorIf op.err).setErrorIf .ILLEGAL_OPERAND }) = .ok i' := h
    split at h
    · exact nothing (by decide) (fun _ _ => rfl) rfl h
    · split at h
      · exact put _ (by decide) (fun _ _ => rfl) rfl h
      · split at h
        · exact put _ (by decide) (fun _ _ => rfl) rfl h
        · injection h with h
          subst h
          exact absurd (setErrorIf_ok (show Config.setErrorIf _ _ = .OK from he)).2 (by decide)
  | _ => exact nothing (List.mem_singleton.2 rfl) (fun _ _ => rfl) rfl h

/-! ### Decoding -/

theorem decoded {addr pre c T : Nat} (o : Opts) (hT : addr + T ≤ 65536) (m : Mode)
    (x rest bytes : List Nat) (hl : bytes.length + x.length ≤ T) (h : Fits addr m bytes.length x) :
    (decodeOperand o addr pre c m ⟨x ++ rest, bytes, .OK⟩).2 = ⟨rest, bytes ++ x, .OK⟩ := by
  have none : x = [] → (⟨x ++ rest, bytes, .OK⟩ : Rd) = ⟨rest, bytes ++ x, .OK⟩ := by
    intro h
    rw [h, List.nil_append, List.append_nil]
  have one : (∃ v, v < 256 ∧ x = [v]) → (⟨x ++ rest, bytes, .OK⟩ : Rd).byte.2 = ⟨rest, bytes ++ x, .OK⟩ := by
    rintro ⟨v, h1, rfl⟩
    rw [List.singleton_append, byte_some h1]
  have two : (∃ v w, v < 256 ∧ w < 256 ∧ x = [v, w]) →
      (⟨x ++ rest, bytes, .OK⟩ : Rd).le16.2 = ⟨rest, bytes ++ x, .OK⟩ := by
    rintro ⟨v, w, h1, h2, rfl⟩
    unfold Rd.le16
    rw [List.cons_append, byte_some h1]
    dsimp only
    rw [List.singleton_append, byte_some h2]
    dsimp only
    rw [List.append_assoc]
    rfl
  unfold decodeOperand
  cases m with
  | IM8 | IOA | IDX => exact one h
  | IM16 | ABS => exact two h
  | R r => cases r <;> exact none h
  | I r => cases r <;> exact none h
  | REL =>
    obtain ⟨h0, v, h1, rfl, h3⟩ := h
    unfold decodeRelative
    dsimp only
    rw [List.singleton_append, byte_some h1]
    dsimp only
    have hl : bytes.length + 1 ≤ T := hl
    have hlen : (bytes ++ [v]).length = 2 := by simp [h0]
    obtain ⟨h4, h5⟩ := h3 (by omega)
    have hlt : ((((addr + (bytes ++ [v]).length : Nat) : Int) + int8 v) % Config.W).toNat < 65536 := by
      unfold Config.W
      rw [hlen]
      omega
    rw [Config.checkAddr_eq false (by decide) (by unfold Config.W; omega), if_neg (by omega)]
    rfl
  | _ => exact none h

theorem fits_none {addr n : Nat} {m : Mode} {x : List Nat} (hm : byteMode m = false) : Fits addr m n x ↔ x = [] := by
  unfold Fits
  cases m <;> first | exact Iff.rfl | cases hm

/-- Operands without bytes may be left out, or come in. -/
theorem fit_filter {addr : Nat} : ∀ (ms : List Mode) (n : Nat) (x : List Nat),
    Fit (Fits addr) ms n x ↔ Fit (Fits addr) (ms.filter byteMode) n x
  | [], _, _ => Iff.rfl
  | m :: ms, n, x => by
    by_cases hm : byteMode m = true
    · rw [List.filter_cons_of_pos hm]
      constructor
      · rintro ⟨x, y, rfl, h1, h2⟩
        exact ⟨x, y, rfl, h1, (fit_filter ms _ _).1 h2⟩
      · rintro ⟨x, y, rfl, h1, h2⟩
        exact ⟨x, y, rfl, h1, (fit_filter ms _ _).2 h2⟩
    · rw [List.filter_cons_of_neg hm]
      have hm' : byteMode m = false := by simpa using hm
      constructor
      · rintro ⟨x, y, rfl, h1, h2⟩
        have := (fits_none hm').1 h1
        subst this
        exact (fit_filter ms _ _).1 h2
      · intro h
        exact ⟨[], x, rfl, (fits_none hm').2 rfl, (fit_filter ms _ _).2 h⟩

/-! ### The instruction table -/

/-- The prefixes a row of a page may come out with. -/
def prefixes_of (p : Nat) (row : Row) : List Nat :=
  if isIdx (dst row) || isIdx (src row) then [0xdd, 0xfd] else [p]

/-- The codes a row may come out with. -/
def codes_of (row : Row) : List Nat :=
  (fields (dst row)).flatMap fun f => (fields (src row)).map fun g => ((row.opcode ||| f) % 256 ||| g) % 256

/-- What a row can be encoded to is read as a row of the same name with operands that have as many bytes. -/
def plainB (p : Nat) (row : Row) : Bool :=
  decide (.R16X ∉ modes row ∨ modes row = [.RIDX, .R16X] ∧ row.opcode = 9) && 
  (prefixes_of p row).all fun pre => relOk pre row && (codes_of row).all fun c =>
    decide (if pre = 0 then isPrefix c = false else isPrefix pre = true ∧ pre < 256) &&
    match searchOpCode pre c with
    | some r => decide (r.name = row.name) && decide (dst r ≠ .IXB) &&
        decide ((modes r).filter byteMode = (modes row).filter byteMode)
    | none => false

/-- What a row of the operations on bits of indexed bytes can be encoded to is read as a row of the same name. -/
def bitsB (p : Nat) (row : Row) : Bool :=
  decide (p = 0xcb) && decide (modes row = [.IDX] ∨ modes row = [.BIT, .IDX]) &&
  (codes_of row).all fun c => decide (decodeDataReg c = .HL) &&
    match searchOpCode 0xcb c with
    | some r => decide (r.name = row.name)
    | none => false

def rowB (p : Nat) (row : Row) : Bool :=
  decide ('\x00' ∉ row.name) && decide (row.name.length < 11) && decide ('=' ∉ row.name) &&
  decide ((modes row).length ≤ 2) && decide (.NONE ∉ modes row) && decide (row.opcode < 256) &&
  (decide (dst row = .IXB) || if indexBit row then bitsB p row else plainB p row)

theorem rows_ok : (pages.all fun p => p.entries.all (rowB p.prefix_)) = true := by decide +kernel

/-- After the prefix of an index register the code CB leads to the operations on bits. -/
theorem bits_page : ∀ pre ∈ [0xdd, 0xfd], (searchOpCode pre 0xcb).any (fun r => decide (dst r = .IXB)) = true ∧
    isPrefix pre = true := by decide +kernel

theorem alnum (c : Char) (h : Ctype.isAlnum c = true) : syntaxOf.instructionLetter c = true :=
  show prefixSymbol none (some ['_', '?']) false c = true from prefixSymbol_alnum h

/-- An operand that names the other index register. -/
def Mixed (row : Row) (op1 op2 : Operand) : Prop := src row = .R16X ∧ op2.mode = .RIDX ∧ op2.reg ≠ op1.reg

/-- From the operands to the bytes of an entry, and back. -/
theorem plain_back {addr p : Nat} {row : Row} {op1 op2 : Operand} {i1 i2 : Ins} (hP : plainB p row = true)
    (hms : (modes row).length ≤ 2) (hnone : .NONE ∉ modes row) (hopc : row.opcode < 256)
    (h1 : Parsed op1) (h2 : Parsed op2) (ha : acceptModes op1.mode op2.mode row = true) (haddr : addr < 65536)
    (hmix : ¬ Mixed row op1 op2)
    (e1 : encodeOperand addr false (dst row) op1 op2 ⟨⟨.OK, row.opcode, []⟩, p⟩ = .ok i1)
    (e2 : encodeOperand addr false (src row) op2 op1 i1 = .ok i2) (he : i2.asm.err = .OK)
    (hend : addr + i2.bytes.length ≤ 65536) (o : Opts) (more : List Nat) :
    (decodeImpl o addr (i2.bytes ++ more)).err = .OK ∧ (decodeImpl o addr (i2.bytes ++ more)).bytes = i2.bytes ∧
    (decodeImpl o addr (i2.bytes ++ more)).name = outText o row.name := by
  unfold plainB at hP
  simp only [Bool.and_eq_true, decide_eq_true_eq, List.all_eq_true] at hP
  obtain ⟨w1, w2⟩ := hP
  unfold acceptModes at ha
  rw [Bool.and_eq_true] at ha
  have hdx : dst row ≠ .R16X := by
    intro hd
    unfold dst at hd
    rcases w1 with w1 | ⟨w1, _⟩
    · apply w1
      cases hm : modes row with
      | nil => rw [hm] at hd; cases hd
      | cons m ms => rw [hm] at hd; rw [← show m = .R16X from hd]; exact List.mem_cons_self ..
    · rw [w1] at hd; cases hd
  have s2 := fitted h2 ha.2 haddr (fun hx hr => Decidable.of_not_not fun hne => hmix ⟨hx, hr, hne⟩) e2 he
  have s1 := fitted h1 ha.1 haddr (fun hx => absurd hx hdx) e1 s2.err
  obtain ⟨f, hf, c1⟩ := s1.code hopc
  obtain ⟨g, hg, c2⟩ := s2.code (by rw [c1]; exact Nat.mod_lt _ (by decide))
  have hc : i2.asm.opc ∈ codes_of row := by
    unfold codes_of
    rw [List.mem_flatMap]
    refine ⟨f, hf, List.mem_map.2 ⟨g, hg, ?_⟩⟩
    rw [c2, c1]
  have hc256 : i2.asm.opc < 256 := by rw [c2]; exact Nat.mod_lt _ (by decide)
  have hpre : i2.pre ∈ prefixes_of p row := by
    unfold prefixes_of
    by_cases k2 : isIdx (src row) = true
    · rw [k2, Bool.or_true, if_pos rfl]
      rcases s2.idx k2 with h | h <;> rw [h] <;> decide
    · have q2 := s2.pre
      rw [if_neg k2] at q2
      by_cases k1 : isIdx (dst row) = true
      · rw [k1, Bool.true_or, if_pos rfl, q2]
        rcases s1.idx k1 with h | h <;> rw [h] <;> decide
      · have q1 := s1.pre
        rw [if_neg k1] at q1
        rw [if_neg (by simp [k1, k2]), q2, q1]
        exact List.mem_singleton.2 rfl
  obtain ⟨w3, w4⟩ := w2 _ hpre
  obtain ⟨w5, w6⟩ := w4 _ hc
  -- the bytes of the operands
  obtain ⟨x1, o1, t1⟩ := s1.ops
  obtain ⟨x2, o2, t2⟩ := s2.ops
  have hops : i2.asm.ops = x1 ++ x2 := by rw [o2, o1]; rfl
  have hfit : Fit (Fits addr) (modes row) (codeBytes i2.pre i2.asm.opc).length (x1 ++ x2) := by
    have hlen : i2.pre = 0 → (codeBytes i2.pre i2.asm.opc).length = 1 := by
      intro h0
      unfold codeBytes
      rw [if_pos h0]
      rfl
    match hm : modes row with
    | [] =>
      have hd : dst row = .NONE := by unfold dst; rw [hm]; rfl
      have hs : src row = .NONE := by unfold src; rw [hm]; rfl
      have y1 := t1 1 (fun h => rfl)
      have y2 := t2 1 (fun h => rfl)
      rw [hd] at y1
      rw [hs] at y2
      have y1 : x1 = [] := y1
      have y2 : x2 = [] := y2
      rw [y1, y2]
      rfl
    | [m] =>
      have hd : dst row = m := by unfold dst; rw [hm]; rfl
      have hs : src row = .NONE := by unfold src; rw [hm]; rfl
      have y2 := t2 1 (fun h => rfl)
      rw [hs] at y2
      have y2 : x2 = [] := y2
      subst y2
      refine ⟨x1, [], rfl, ?_, rfl⟩
      rw [← hd]
      refine t1 _ (fun hr => hlen ?_)
      unfold relOk at w3
      rw [hm, ← hd, hr] at w3
      exact of_decide_eq_true w3
    | [m1, m2] =>
      have hd : dst row = m1 := by unfold dst; rw [hm]; rfl
      have hs : src row = m2 := by unfold src; rw [hm]; rfl
      refine ⟨x1, x2, rfl, ?_, x2, [], (List.append_nil _).symm, ?_, rfl⟩
      · rw [← hd]
        refine t1 _ (fun hr => ?_)
        exfalso
        unfold relOk at w3
        rw [hm, ← hd, hr] at w3
        cases m2 <;> simp_all [byteMode]
      · rw [← hs]
        refine t2 _ (fun hr => ?_)
        unfold relOk at w3
        rw [hm, ← hs, hr] at w3
        have w3 : (decide (i2.pre = 0) && !byteMode m1) = true := by
          cases m1 <;> first | exact w3 | cases w3
        rw [Bool.and_eq_true, Bool.not_eq_true'] at w3
        have hb := w3.2
        rw [← hd] at hb
        have y1 := t1 1 (fun h => rfl)
        rw [fits_none hb] at y1
        rw [y1, hlen (of_decide_eq_true w3.1)]
        rfl
    | _ :: _ :: _ :: _ => rw [hm] at hms; simp at hms
  cases hs : searchOpCode i2.pre i2.asm.opc with
  | none => rw [hs] at w6; cases w6
  | some r =>
    rw [hs] at w6
    simp only [Bool.and_eq_true, decide_eq_true_eq] at w6
    obtain ⟨⟨r1, r2⟩, r3⟩ := w6
    have hfit' : Fit (Fits addr) (modes r) (codeBytes i2.pre i2.asm.opc).length (x1 ++ x2) := by
      rw [fit_filter, r3, ← fit_filter]
      exact hfit
    have hb : i2.bytes = codeBytes i2.pre i2.asm.opc ++ (x1 ++ x2) := by
      have hp256 : i2.pre < 256 := by
        split at w5
        · rename_i h0; rw [h0]; decide
        · exact w5.2
      obtain ⟨⟨e, c, ops⟩, pre⟩ := i2
      have he : e = .OK := he
      subst he
      rw [bytes_eq hp256 hc256]
      rw [show ops = x1 ++ x2 from hops]
    have hdec := list_decoded (dec := decodeOperand o addr i2.pre i2.asm.opc) (Fits := Fits addr) (i2.bytes.length) (modes r) (x1 ++ x2) more
      (codeBytes i2.pre i2.asm.opc)
      (fun m _ x' rest bytes hT hf => decoded o hend m x' rest bytes hT hf)
      (by rw [hb, List.length_append (as := codeBytes _ _)]; exact Nat.le_refl _) hfit'
    have insn : decodeInsn o addr i2.pre i2.asm.opc ⟨(x1 ++ x2) ++ more, codeBytes i2.pre i2.asm.opc, .OK⟩ =
        ⟨.OK, outText o row.name, (decodeList (decodeOperand o addr i2.pre i2.asm.opc) (modes r)
          ⟨(x1 ++ x2) ++ more, codeBytes i2.pre i2.asm.opc, .OK⟩).1, codeBytes i2.pre i2.asm.opc ++ (x1 ++ x2)⟩ := by
      unfold decodeInsn
      rw [hs]
      dsimp only
      rw [if_neg r2, hdec, r1]
    have himpl : decodeImpl o addr (i2.bytes ++ more) =
        decodeInsn o addr i2.pre i2.asm.opc ⟨(x1 ++ x2) ++ more, codeBytes i2.pre i2.asm.opc, .OK⟩ := by
      rw [hb]
      unfold decodeImpl codeBytes
      by_cases h0 : i2.pre = 0
      · rw [if_pos h0] at w5 ⊢
        rw [List.singleton_append, List.cons_append, byte_some hc256]
        dsimp only
        rw [if_neg (by rw [w5]; decide), h0]
        rfl
      · rw [if_neg h0] at w5 ⊢
        rw [List.cons_append, List.singleton_append, List.cons_append, byte_some w5.2]
        dsimp only
        rw [if_pos w5.1, List.cons_append, byte_some hc256]
        dsimp only
        rw [if_neg (by simp)]
        rfl
    rw [himpl, insn, hb]
    exact ⟨rfl, rfl, rfl⟩

/-- The same for an operation on a bit of an indexed byte. -/
theorem bit_back {addr p : Nat} {row : Row} {op1 op2 : Operand} {i1 i2 : Ins} (hP : bitsB p row = true)
    (hopc : row.opcode < 256)
    (h1 : Parsed op1) (h2 : Parsed op2) (ha : acceptModes op1.mode op2.mode row = true) (haddr : addr < 65536)
    (e1 : encodeOperand addr true (dst row) op1 op2 ⟨⟨.OK, row.opcode, []⟩, p⟩ = .ok i1)
    (e2 : encodeOperand addr true (src row) op2 op1 i1 = .ok i2) (he : i2.asm.err = .OK) (o : Opts) (more : List Nat) :
    (decodeImpl o addr (i2.bytes ++ more)).err = .OK ∧ (decodeImpl o addr (i2.bytes ++ more)).bytes = i2.bytes ∧
    (decodeImpl o addr (i2.bytes ++ more)).name = outText o row.name := by
  unfold bitsB at hP
  simp only [Bool.and_eq_true, decide_eq_true_eq, List.all_eq_true] at hP
  obtain ⟨⟨rfl, w1⟩, w2⟩ := hP
  unfold acceptModes at ha
  rw [Bool.and_eq_true] at ha
  -- the operand with the index register
  have idx : ∀ (op other : Operand) (i i' : Ins), encodeOperand addr true .IDX op other i = .ok i' → i'.asm.err = .OK →
      i.asm.err = .OK ∧ ∃ v, v < 256 ∧ i'.asm.ops = i.asm.ops ++ [v, i.asm.opc] ∧ i'.asm.opc = i.pre ∧
        (i'.pre = 0xdd ∨ i'.pre = 0xfd) := by
    intro op other i i' k1 k2
    unfold encodeOperand at k1
    dsimp only at k1
    rw [if_pos rfl] at k1
    injection k1 with k1
    subst k1
    obtain ⟨m0, _, m2⟩ := Asm.check_ok (by decide) (show ((i.asm.setErrorIf op.err).check op.val.overflowInt8 .OVERFLOW_RANGE).err = .OK from k2)
    obtain ⟨n1, _, n3⟩ := setErr_any m0
    unfold encodeIndexedBitOp
    dsimp only
    rw [m2, n3]
    refine ⟨n1, _, Nat.mod_lt _ (by decide), rfl, rfl, ?_⟩
    unfold indexPrefix
    split
    · exact Or.inl rfl
    · exact Or.inr rfl
  have fin : ∀ (v c : Nat), v < 256 → c ∈ codes_of row → c < 256 → i2.asm.ops = [v, c] → i2.asm.opc = 0xcb →
      (i2.pre = 0xdd ∨ i2.pre = 0xfd) →
      (decodeImpl o addr (i2.bytes ++ more)).err = .OK ∧ (decodeImpl o addr (i2.bytes ++ more)).bytes = i2.bytes ∧
      (decodeImpl o addr (i2.bytes ++ more)).name = outText o row.name := by
    intro v c hv hc hc256 k1 k2 k3
    obtain ⟨w3, w4⟩ := w2 c hc
    obtain ⟨p1, p2⟩ := bits_page i2.pre (by rcases k3 with h | h <;> rw [h] <;> decide)
    have p3 : i2.pre < 256 := by rcases k3 with h | h <;> rw [h] <;> decide
    have p4 : i2.pre ≠ 0 := by rcases k3 with h | h <;> rw [h] <;> decide
    have hb : i2.bytes = [i2.pre, 0xcb, v, c] := by
      obtain ⟨⟨e, cc, ops⟩, pre⟩ := i2
      have he : e = .OK := he
      have k1 : ops = [v, c] := k1
      have k2 : cc = 0xcb := k2
      subst he k1 k2
      rw [bytes_eq p3 (by decide)]
      unfold codeBytes
      rw [if_neg p4]
      rfl
    rw [hb]
    unfold decodeImpl
    rw [List.cons_append, byte_some p3]
    dsimp only
    rw [if_pos p2, List.cons_append, byte_some (by decide)]
    dsimp only
    rw [if_neg (by simp)]
    unfold decodeInsn
    cases hs : searchOpCode i2.pre 0xcb with
    | none => rw [hs] at p1; cases p1
    | some r =>
      rw [hs] at p1
      dsimp only
      rw [if_pos (of_decide_eq_true p1)]
      unfold decodeIndexedBitOp
      rw [List.cons_append, byte_some hv]
      dsimp only
      rw [List.singleton_append, byte_some hc256]
      dsimp only
      cases hs2 : searchOpCode 0xcb c with
      | none => rw [hs2] at w4; cases w4
      | some r2 =>
        rw [hs2] at w4
        dsimp only
        rw [if_pos w3, of_decide_eq_true w4]
        exact ⟨rfl, rfl, rfl⟩
  rcases w1 with hm | hm
  · have hd : dst row = .IDX := by unfold dst; rw [hm]; rfl
    have hs : src row = .NONE := by unfold src; rw [hm]; rfl
    rw [hd] at e1
    rw [hs] at e2
    unfold encodeOperand at e2
    dsimp only at e2
    injection e2 with e2
    subst e2
    obtain ⟨n1, n2, n3⟩ := setErr_any he
    obtain ⟨_, v, q1, q2, q3, q4⟩ := idx _ _ _ _ e1 n1
    refine fin v row.opcode q1 ?_ hopc ?_ ?_ q4
    · unfold codes_of
      rw [hd, hs]
      simp [fields, Nat.mod_eq_of_lt hopc]
    · dsimp only
      rw [n3]
      exact q2
    · dsimp only
      rw [n3]
      exact q3
  · have hd : dst row = .BIT := by unfold dst; rw [hm]; rfl
    have hs : src row = .IDX := by unfold src; rw [hm]; rfl
    rw [hd] at e1
    rw [hs] at e2
    obtain ⟨n1, v, q1, q2, q3, q4⟩ := idx _ _ _ _ e2 he
    have e1 : encodeOperand addr false .BIT op1 op2 ⟨⟨.OK, row.opcode, []⟩, 0xcb⟩ = .ok i1 := e1
    have s1 := fitted (m := .BIT) h1 (hd ▸ ha.1) haddr (fun h => nomatch h) e1 n1
    obtain ⟨f, hf, c1⟩ := s1.code hopc
    obtain ⟨x, o1, t1⟩ := s1.ops
    have hx : x = [] := t1 1 (fun h => nomatch h)
    subst hx
    refine fin v i1.asm.opc q1 ?_ (by rw [c1]; exact Nat.mod_lt _ (by decide)) ?_ ?_ q4
    · unfold codes_of
      rw [hd, hs, List.mem_flatMap]
      refine ⟨f, hf, List.mem_map.2 ⟨0, List.mem_singleton.2 rfl, ?_⟩⟩
      rw [c1, Nat.or_zero, Nat.mod_mod]
    · rw [q2, o1]
      rfl
    · rw [q3]
      exact s1.pre

/-- Adding the other index register. -/
theorem mixed_bytes {addr p : Nat} {row : Row} {op1 op2 : Operand} {i1 i2 : Ins} (hP : plainB p row = true)
    (h1 : Parsed op1) (h2 : Parsed op2) (ha : acceptModes op1.mode op2.mode row = true)
    (hmix : Mixed row op1 op2)
    (e1 : encodeOperand addr false (dst row) op1 op2 ⟨⟨.OK, row.opcode, []⟩, p⟩ = .ok i1)
    (e2 : encodeOperand addr false (src row) op2 op1 i1 = .ok i2) (he : i2.asm.err = .OK) :
    i2.bytes = [0xdd, 0x59] ∨ i2.bytes = [0xfd, 0x49] := by
  unfold plainB at hP
  rw [Bool.and_eq_true, decide_eq_true_eq] at hP
  obtain ⟨k1, k2, k3⟩ := hmix
  have hm : modes row = [.RIDX, .R16X] ∧ row.opcode = 9 := by
    rcases hP.1 with h | h
    · exfalso
      apply h
      unfold src at k1
      match hm : modes row with
      | [] => rw [hm] at k1; cases k1
      | [m] => rw [hm] at k1; cases k1
      | m :: m' :: ms =>
        rw [hm] at k1
        rw [show m' = .R16X from k1]
        simp
    · exact h
  have hd : dst row = .RIDX := by unfold dst; rw [hm.1]; rfl
  rw [hd] at e1
  rw [k1] at e2
  unfold acceptModes at ha
  rw [Bool.and_eq_true, hd] at ha
  have hm1 : op1.mode = .RIDX := by
    revert ha
    cases op1.mode <;> first | (intro h; rfl) | (intro h; exact absurd h.1 (by decide)) |
      (rename_i r; intro h; exact absurd h.1 (by cases r <;> decide))
  obtain ⟨r1, g1, g2⟩ := h1.reg _ (by rw [hm1]; rfl)
  obtain ⟨r2, g3, g4⟩ := h2.reg _ (by rw [k2]; rfl)
  unfold encodeOperand at e1 e2
  dsimp only at e1 e2
  injection e1 with e1
  injection e2 with e2
  subst e1
  subst e2
  obtain ⟨n1, n2, n3⟩ := setErr_any (show ((Asm.setErrorIf ⟨.OK, row.opcode, []⟩ op1.err).setErrorIf op2.err).err = .OK from he)
  obtain ⟨n4, n5, n6⟩ := setErr_any n1
  dsimp only
  rw [n3, n6, g2, g4, hm.2]
  rw [g2, g4] at k3
  simp only [List.mem_cons, List.not_mem_nil, or_false] at g1 g3
  rcases g1 with rfl | rfl <;> rcases g3 with rfl | rfl
  · exact absurd rfl k3
  · exact Or.inl rfl
  · exact Or.inr rfl
  · exact absurd rfl k3

/-- Whatever line is assembled without error, at any address and with any symbols, and does not run past the end of
the memory: the disassembler, with any options, reads the bytes of it, whatever follows them, as one instruction,
without error. It has the name written in the line. Excepted is the addition of one index register to the other.
What is missing of C29: that the operands are those of the line, and the exceptions `C29_violated_add` and
`C29_violated_wrap`. -/
theorem C29_z80_partial {E : Env} {addr : Nat} {line : List Char} {bytes : List Nat} {rest : Scan}
    (h32 : addr < 2 ^ 32)
    (h : assemble E addr line = .ok (.insn ⟨.OK, bytes, rest⟩))
    (hmix : bytes ≠ [0xdd, 0x59] ∧ bytes ≠ [0xfd, 0x49])
    (hend : addr + bytes.length ≤ 2 ^ 16) (o : Opts) (more : List Nat) :
    (disassemble o addr (bytes ++ more)).err = .OK ∧
    (disassemble o addr (bytes ++ more)).bytes = bytes ∧
    WrittenAs line (disassemble o addr (bytes ++ more)).name := by
  obtain ⟨word, scan, hi, haddr, hw, blanks, tail, hline, hblank⟩ :=
    encode_line_inv (by decide) rfl h
  have ha := checkAddr_lt haddr (by unfold Config.W; omega)
  unfold encodeImpl at hi
  obtain ⟨x, d1, d2⟩ := bind_ok hi
  cases x with
  | error e =>
    obtain ⟨e, p⟩ := e
    injection d2 with d2
    injection d2 with d2
    exact absurd d2 (operands_err (fun s e p h => parse_err h) _ _ _ _ d1)
  | ok x =>
    obtain ⟨ops, s⟩ := x
    dsimp only at d2
    obtain ⟨hpar, hl⟩ := operands_all (fun s op p h => parsed h) _ _ _ _ d1
    have hget : ∀ n : Nat, Parsed ((ops[n]?).getD ({} : Operand)) := by
      intro n
      cases hn : ops[n]? with
      | none => exact parsed_other rfl (by decide) (by decide)
      | some op => exact hpar op (List.mem_of_getElem? hn)
    obtain ⟨x, f1, f2⟩ := bind_ok d2
    unfold searchName at f1
    split at f1
    · rename_i x' hs
      injection f1 with f1
      subst f1
      cases x' with
      | error e =>
        injection f2 with f2
        injection f2 with f2 f3 f4
        exact absurd f2 (searchName_err hs)
      | ok x' =>
        obtain ⟨pre, row⟩ := x'
        dsimp only at f2
        obtain ⟨i1, g1, f3⟩ := bind_ok f2
        obtain ⟨i2, g2, f4⟩ := bind_ok f3
        injection f4 with f4
        injection f4 with f4 f5 f6
        subst f5
        obtain ⟨p, hp, rfl, hrow, hcmp, hacc⟩ := searchName_mem hs
        have hB : rowB p.prefix_ row = true := List.all_eq_true.1 (List.all_eq_true.1 rows_ok p hp) row hrow
        unfold rowB at hB
        rw [Bool.and_eq_true, Bool.and_eq_true, Bool.and_eq_true, Bool.and_eq_true, Bool.and_eq_true, Bool.and_eq_true] at hB
        obtain ⟨⟨⟨⟨⟨⟨b1, b2⟩, b3⟩, b4⟩, b5⟩, b6⟩, b7⟩ := hB
        have hdis : disassemble o addr (i2.bytes ++ more) = decodeImpl o addr (i2.bytes ++ more) := by
          unfold disassemble decode
          rw [haddr]
          rfl
        rw [hdis]
        have hname : WrittenAs line row.name := written alnum (fun c h => by cases h) hw (of_decide_eq_true b1)
          (of_decide_eq_true b2) hcmp (of_decide_eq_true b3) hline hblank
        have hixb : dst row ≠ .IXB := by
          intro hx
          unfold acceptModes at hacc
          rw [Bool.and_eq_true, hx] at hacc
          have hm : ((ops[0]?).getD ({} : Operand)).mode = .IXB := by
            have := hacc.1
            revert this
            generalize ((ops[0]?).getD ({} : Operand)).mode = k
            cases k <;> first | decide | (rename_i r; cases r <;> decide)
          obtain ⟨r, hr, _⟩ := (hget 0).reg [] (by rw [hm]; rfl)
          cases hr
        rw [Bool.or_eq_true] at b7
        rcases b7 with b7 | b7
        · exact absurd (of_decide_eq_true b7) hixb
        · have key : (decodeImpl o addr (i2.bytes ++ more)).err = .OK ∧
              (decodeImpl o addr (i2.bytes ++ more)).bytes = i2.bytes ∧
              (decodeImpl o addr (i2.bytes ++ more)).name = outText o row.name := by
            cases hbit : indexBit row with
            | true =>
              rw [hbit] at g1 g2 b7
              exact bit_back b7 (of_decide_eq_true b6) (hget 0) (hget 1) hacc ha g1 g2 f4 o more
            | false =>
              rw [hbit] at g1 g2 b7
              refine plain_back b7 (of_decide_eq_true b4) (of_decide_eq_true b5) (of_decide_eq_true b6) (hget 0) (hget 1)
                hacc ha ?_ g1 g2 f4 hend o more
              intro hx
              rcases mixed_bytes b7 (hget 0) (hget 1) hacc hx g1 g2 f4 with hb | hb
              · exact hmix.1 hb
              · exact hmix.2 hb
          obtain ⟨k1, k2, k3⟩ := key
          refine ⟨k1, k2, ?_⟩
          rw [k3]
          exact WrittenAs.letters hname (outText_same o _)
    · cases f1

/-- `C29_z80_partial` has something to say of operands of several kinds. -/
example :
    assemble noEnv 0x3fe "  set 5, (iy - 12) ; comment".toList =
      .ok (.insn ⟨.OK, [0xfd, 0xcb, 0xf4, 0xee], "; comment".toList⟩) ∧
    assemble noEnv 0 "add ix,ix".toList = .ok (.insn ⟨.OK, [0xdd, 0x29], []⟩) ∧
    assemble noEnv 0x8000 "jr nc, $+5".toList = .ok (.insn ⟨.OK, [0x30, 3], []⟩) ∧
    assemble noEnv 0 "sub (hl)".toList = .ok (.insn ⟨.OK, [0x96], []⟩) ∧
    assemble noEnv 0 "ex hl, de".toList = .ok (.insn ⟨.OK, [0xeb], []⟩) ∧
    assemble noEnv 0 "ld (ix+7fh), -1".toList = .ok (.insn ⟨.OK, [0xdd, 0x36, 0x7f, 0xff], []⟩) ∧
    assemble noEnv 0 "rst 38h".toList = .ok (.insn ⟨.OK, [0xff], []⟩) := by
  decide +kernel

/-- The first exception: adding one index register to the other is no instruction, but it is accepted. -/
theorem C29_violated_add :
    assemble noEnv 0 "ADD IX, IY".toList = .ok (.insn ⟨.OK, [0xdd, 0x59], []⟩) ∧
    assemble noEnv 0 "ADD IY, IX".toList = .ok (.insn ⟨.OK, [0xfd, 0x49], []⟩) ∧
    (disassemble (.default '$') 0 [0xdd, 0x59]).err = .UNKNOWN_INSTRUCTION ∧
    (disassemble (.default '$') 0 [0xfd, 0x49]).err = .UNKNOWN_INSTRUCTION := by
  decide +kernel

/-- The second exception: a branch at the end of the memory to its begin is accepted, and no address for the
disassembler. -/
theorem C29_violated_wrap :
    assemble noEnv 0xffff "JR 0".toList = .ok (.insn ⟨.OK, [0x18, 0xff], []⟩) ∧
    (disassemble (.default '$') 0xffff [0x18, 0xff]).err = .OVERFLOW_RANGE := by
  decide +kernel

/-- The operands need not be those of the line: numbers of 16 bits are not checked. -/
theorem load_wide :
    assemble noEnv 0 "LD HL, 12345H".toList = .ok (.insn ⟨.OK, [0x21, 0x45, 0x23], []⟩) ∧
    (disassemble (.default '$') 0 [0x21, 0x45, 0x23]).operands = "HL, 2345H".toList := by
  decide +kernel

end Libasm.Cpu.Z80
