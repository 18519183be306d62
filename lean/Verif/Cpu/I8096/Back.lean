import Verif.Cpu.Back
import Verif.Cpu.I8096.Props
/-
C29 for the i8096: whatever line the assembler takes, the disassembler reads the bytes of it as one
instruction of the same name.
-/
namespace Libasm.Cpu.I8096
open Scan Number Eval
open Tables (Row)

theorem hasError_ne {e : Err} (h : hasError e = true) : e ≠ .OK := by
  intro he
  rw [he] at h
  exact absurd h (by decide)

theorem indirect_err {P : Plugins Value} {scan : Scan} {op : Operand} {e : Err}
    (h : parseIndirect P scan op = .ok (.error e)) : e ≠ .OK := by
  unfold parseIndirect at h
  obtain ⟨⟨v, e', p⟩, _, h2⟩ := bind_ok h
  dsimp only at h2
  split at h2
  · cases Out.ok.inj h2
  · cases Out.ok.inj h2
    decide

theorem parse_err {P : Plugins Value} {scan : Scan} {e : Err} {rest : Scan}
    (h : parseOperand P scan = .ok (.error (e, rest))) : e ≠ .OK := by
  unfold parseOperand at h
  dsimp only at h
  split at h
  · cases Out.ok.inj h
  · split at h
    · obtain ⟨⟨v, e', p⟩, _, h2⟩ := bind_ok h
      dsimp only at h2
      split at h2
      · rename_i he
        cases Out.ok.inj h2
        exact hasError_ne he
      · cases Out.ok.inj h2
    · split at h
      · obtain ⟨x, h1, h2⟩ := bind_ok h
        cases x with
        | error e' =>
          cases Out.ok.inj h2
          exact indirect_err h1
        | ok x => cases Out.ok.inj h2
      · obtain ⟨⟨v, e', p⟩, _, h2⟩ := bind_ok h
        dsimp only at h2
        split at h2
        · rename_i he
          cases Out.ok.inj h2
          exact hasError_ne he
        · split at h2
          · obtain ⟨x, h3, h4⟩ := bind_ok h2
            cases x with
            | error e' =>
              cases Out.ok.inj h4
              exact indirect_err h3
            | ok x => cases Out.ok.inj h4
          · cases Out.ok.inj h2

/-! ### One operand -/

/-- The disassembler reads the bytes `x` of an operand with the code `c` without error. -/
def Reads (addr c : Nat) (m : Mode) (x : List Nat) : Prop :=
  ∀ (o : Opts) (abs : Bool) (rest bytes : List Nat),
    (readOperand c m ⟨x ++ rest, bytes, .OK⟩).2 = ⟨rest, bytes ++ x, .OK⟩ ∧
    (readOperand c m ⟨x ++ rest, bytes, .OK⟩).1.err = .OK ∧
    (outOperand o abs addr c (readOperand c m ⟨x ++ rest, bytes, .OK⟩).1).2 = .OK

/-- The codes that an operand may make of one. -/
def codes (m : Mode) (c : Nat) : List Nat :=
  match m with
  | .BAOP | .WAOP => [0, 1, 2, 3].map fun k => (c ||| k) % 256
  | .REL11 | .BITNO => (List.range 8).map fun k => (c ||| k) % 256
  | _ => [c]

/-- The codes that may become of one. -/
def reach : List Mode → Nat → List Nat
  | [], c => [c]
  | m :: ms, c => (codes m c).flatMap (reach ms)

theorem check_any {a : Asm} {c : Bool} {e : Err} (h : (a.check c e).err = .OK) (he : e ≠ .OK) :
    a.err = .OK ∧ c = false ∧ a.check c e = a := Asm.check_ok he h

theorem setErr_any {a : Asm} {e : Err} (h : (a.setErrorIf e).err = .OK) :
    a.err = .OK ∧ e = .OK ∧ a.setErrorIf e = a := by
  obtain ⟨h1, h2⟩ := setErrorIf_ok h
  exact ⟨h1, h2, by rw [h2]; exact Asm.noError a⟩

theorem low4 {c k : Nat} (hc : c < 256) (h : c % 4 = 0) (hk : k < 4) : (c ||| k) % 256 % 4 = k :=
  (by decide +kernel : ∀ c < 256, c % 4 = 0 → ∀ k < 4, (c ||| k) % 256 % 4 = k) c hc h k hk

theorem low8 {c k : Nat} (hc : c < 256) (h : c % 8 = 0) (hk : k < 8) : (c ||| k) % 256 % 8 = k :=
  (by decide +kernel : ∀ c < 256, c % 8 = 0 → ∀ k < 8, (c ||| k) % 256 % 8 = k) c hc h k hk

theorem byte_of {v : Nat} (hv : v < 256) (rest bytes : List Nat) :
    (⟨[v] ++ rest, bytes, .OK⟩ : Rd).byte = (v, ⟨rest, bytes ++ [v], .OK⟩) := byte_some hv

theorem le16_of {v w : Nat} (hv : v < 256) (hw : w < 256) (rest bytes : List Nat) :
    (⟨[v, w] ++ rest, bytes, .OK⟩ : Rd).le16 = (v + 256 * w, ⟨rest, bytes ++ [v, w], .OK⟩) := by
  unfold Rd.le16
  dsimp only
  rw [show [v, w] ++ rest = v :: w :: rest from rfl, byte_some hv]
  dsimp only
  rw [byte_some hw]
  dsimp only
  rw [List.append_assoc, Nat.add_comm, Nat.mul_comm]
  rfl

theorem mod_even {n : Nat} (h : isWreg n = true) : isWreg (n % 256) = true := by
  unfold isWreg at h ⊢
  simp at h ⊢
  omega

/-- What the bytes of an operand with an addressing mode are read as. -/
theorem reads_reg {addr c v : Nat} {w : Bool} (hv : v < 256) (hc : c % 4 = 0) (hw : w = true → isWreg v = true) :
    Reads addr c (if w then .WAOP else .BAOP) [v] := by
  intro o abs rest bytes
  cases w
  · show (readAop false c _).2 = _ ∧ (readAop false c _).1.err = _ ∧ (outOperand o abs addr c (readAop false c _).1).2 = _
    rw [aop0 hc, byte_of hv]
    exact ⟨rfl, rfl, rfl⟩
  · show (readAop true c _).2 = _ ∧ (readAop true c _).1.err = _ ∧ (outOperand o abs addr c (readAop true c _).1).2 = _
    rw [aop0 hc, byte_of hv]
    refine ⟨rfl, ?_, rfl⟩
    show aligned (isWreg v) = .OK
    rw [hw rfl]
    rfl

theorem reads_imm8 {addr c v : Nat} (hv : v < 256) (hc : c % 4 = 1) : Reads addr c .BAOP [v] := by
  intro o abs rest bytes
  show (readAop false c _).2 = _ ∧ (readAop false c _).1.err = _ ∧ (outOperand o abs addr c (readAop false c _).1).2 = _
  rw [aop1 hc, byte_of hv]
  exact ⟨rfl, rfl, rfl⟩

theorem reads_imm16 {addr c v u : Nat} (hv : v < 256) (hu : u < 256) (hc : c % 4 = 1) : Reads addr c .WAOP [v, u] := by
  intro o abs rest bytes
  show (readAop true c _).2 = _ ∧ (readAop true c _).1.err = _ ∧ (outOperand o abs addr c (readAop true c _).1).2 = _
  rw [aop1 hc, le16_of hv hu]
  exact ⟨rfl, rfl, rfl⟩

theorem reads_indir {addr c v : Nat} {w : Bool} (hv : v < 256) (hc : c % 4 = 2) (hw : isWreg v = true) :
    Reads addr c (if w then .WAOP else .BAOP) [v] := by
  intro o abs rest bytes
  have : readOperand c (if w then .WAOP else .BAOP) ⟨[v] ++ rest, bytes, .OK⟩ = readAop w c ⟨[v] ++ rest, bytes, .OK⟩ := by
    cases w <;> rfl
  rw [this, aop2 hc, byte_of hv]
  refine ⟨rfl, ?_, rfl⟩
  show aligned (isWreg v) = .OK
  rw [hw]
  rfl

theorem reads_idx8 {addr c r v : Nat} {w : Bool} (hr : r < 256) (hv : v < 256) (hc : c % 4 = 3) (hw : isWreg r = true)
    (hz : w = true → r = 0 → v % 2 = 0) : Reads addr c (if w then .WAOP else .BAOP) [r, v] := by
  intro o abs rest bytes
  have : readOperand c (if w then .WAOP else .BAOP) ⟨[r, v] ++ rest, bytes, .OK⟩ = readAop w c ⟨[r, v] ++ rest, bytes, .OK⟩ := by
    cases w <;> rfl
  rw [this, aop3 hc, show [r, v] ++ rest = r :: v :: rest from rfl, byte_some hr]
  dsimp only
  rw [if_pos hw, byte_some hv]
  refine ⟨by rw [List.append_assoc]; rfl, ?_, rfl⟩
  show (if (w && r == 0) = true then aligned (isWreg v) else .OK) = .OK
  split
  · rename_i h
    simp only [Bool.and_eq_true, beq_iff_eq] at h
    have := hz h.1 h.2
    unfold isWreg
    rw [this]
    rfl
  · rfl

theorem reads_idx16 {addr c r v u : Nat} {w : Bool} (hr : r < 256) (hv : v < 256) (hu : u < 256) (hc : c % 4 = 3)
    (hw : r % 2 = 1) (hz : w = true → r = 1 → v % 2 = 0) : Reads addr c (if w then .WAOP else .BAOP) [r, v, u] := by
  intro o abs rest bytes
  have : readOperand c (if w then .WAOP else .BAOP) ⟨[r, v, u] ++ rest, bytes, .OK⟩ = readAop w c ⟨[r, v, u] ++ rest, bytes, .OK⟩ := by
    cases w <;> rfl
  rw [this, aop3 hc, show [r, v, u] ++ rest = r :: ([v, u] ++ rest) from rfl, byte_some hr]
  dsimp only
  rw [if_neg (by unfold isWreg; simp; omega), le16_of hv hu]
  refine ⟨by rw [List.append_assoc]; rfl, ?_, rfl⟩
  show (if (w && r / 2 * 2 == 0) = true then aligned (isWreg (v + 256 * u)) else .OK) = .OK
  split
  · rename_i h
    simp only [Bool.and_eq_true, beq_iff_eq] at h
    have := hz h.1 (by omega)
    unfold isWreg
    rw [show (v + 256 * u) % 2 = 0 by omega]
    rfl
  · rfl

/-- What was emitted for an operand with an addressing mode. -/
theorem aop_fitted {addr : Nat} {w : Bool} {op : Operand} {a : Asm} (he : (emitAop w op a).err = .OK)
    (hc : a.opc < 256) (h4 : a.opc % 4 = 0) (hword : w = true → ∀ k < 4, Spec.Word ((a.opc ||| k) % 256)) :
    a.err = .OK ∧ (emitAop w op a).opc ∈ codes .BAOP a.opc ∧
    ∃ x, (emitAop w op a).ops = a.ops ++ x ∧
      (¬ Spec.Misaligned ((emitAop w op a).opc :: x) → Reads addr (emitAop w op a).opc (if w then .WAOP else .BAOP) x) := by
  have b8 : ∀ v, v % 256 < 256 := fun v => Nat.mod_lt _ (by decide)
  have mem : ∀ k < 4, (a.opc ||| k) % 256 ∈ codes .BAOP a.opc := by
    intro k hk
    exact List.mem_map.2 ⟨k, (by decide : ∀ k < 4, k ∈ [0, 1, 2, 3]) k hk, rfl⟩
  have indir : (emitIndir op a).err = .OK → a.err = .OK ∧ (emitIndir op a).opc ∈ codes .BAOP a.opc ∧
      ∃ x, (emitIndir op a).ops = a.ops ++ x ∧
        (¬ Spec.Misaligned ((emitIndir op a).opc :: x) → Reads addr (emitIndir op a).opc (if w then .WAOP else .BAOP) x) := by
    intro he
    obtain ⟨g1, g2, g3⟩ := check_any (show (Asm.check (a.embed 2) _ _).err = .OK from he) (by decide)
    unfold emitIndir
    rw [g3]
    refine ⟨g1, mem 2 (by decide), _, rfl, fun _ => ?_⟩
    exact reads_indir (b8 _) (low4 hc h4 (by decide)) (mod_even (by simpa using g2))
  have absolute : (emitAbsolute w op a).err = .OK → a.err = .OK ∧ (emitAbsolute w op a).opc ∈ codes .BAOP a.opc ∧
      ∃ x, (emitAbsolute w op a).ops = a.ops ++ x ∧
        (¬ Spec.Misaligned ((emitAbsolute w op a).opc :: x) → Reads addr (emitAbsolute w op a).opc (if w then .WAOP else .BAOP) x) := by
    intro he
    have h0 : (a.check (w && !isWreg op.val.getUnsigned) .OPERAND_NOT_ALIGNED).err = .OK := by
      unfold emitAbsolute at he
      dsimp only at he
      split at he <;> exact he
    obtain ⟨g1, g2, g3⟩ := check_any h0 (by decide)
    have hw : w = true → isWreg op.val.getUnsigned = true := by
      intro h
      rw [h] at g2
      simpa using g2
    unfold emitAbsolute
    dsimp only
    rw [g3]
    split
    · refine ⟨g1, mem 0 (by decide), _, rfl, fun _ => ?_⟩
      exact reads_reg (b8 _) (low4 hc h4 (by decide)) (fun h => mod_even (hw h))
    · refine ⟨g1, mem 3 (by decide), [1 % 256, op.val.getUnsigned % 256, op.val.getUnsigned / 256 % 256],
        by show a.ops ++ [1 % 256] ++ [_, _] = _; rw [List.append_assoc]; rfl, fun _ => ?_⟩
      refine reads_idx16 (by decide) (b8 _) (b8 _) (low4 hc h4 (by decide)) rfl (fun h _ => ?_)
      have := hw h
      unfold isWreg at this
      simp at this
      omega
  have imm : ∀ {a'}, a' = (if w then (a.embed 1).emit16le op.val.getUnsigned else (a.embed 1).emit8 op.val.getUnsigned) →
      a'.err = .OK → a.err = .OK ∧ a'.opc ∈ codes .BAOP a.opc ∧
      ∃ x, a'.ops = a.ops ++ x ∧ (¬ Spec.Misaligned (a'.opc :: x) → Reads addr a'.opc (if w then .WAOP else .BAOP) x) := by
    intro a' h he
    subst h
    cases w
    · exact ⟨he, mem 1 (by decide), _, rfl, fun _ => reads_imm8 (b8 _) (low4 hc h4 (by decide))⟩
    · exact ⟨he, mem 1 (by decide), _, rfl, fun _ => reads_imm16 (b8 _) (b8 _) (low4 hc h4 (by decide))⟩
  have index : ∀ {a'}, a' = (let a := (a.embed 3).check (!isWreg op.regno.getUnsigned) .OPERAND_NOT_ALIGNED
      if op.err = .OK ∧ op.val.overflowInt8 = false then (a.emit8 op.regno.getUnsigned).emit8 op.val.getUnsigned
      else (a.emit8 (op.regno.getUnsigned ||| 1)).emit16le op.val.getUnsigned) →
      a'.err = .OK → a.err = .OK ∧ a'.opc ∈ codes .BAOP a.opc ∧
      ∃ x, a'.ops = a.ops ++ x ∧ (¬ Spec.Misaligned (a'.opc :: x) → Reads addr a'.opc (if w then .WAOP else .BAOP) x) := by
    intro a' h he
    have h0 : ((a.embed 3).check (!isWreg op.regno.getUnsigned) .OPERAND_NOT_ALIGNED).err = .OK := by
      rw [h] at he
      dsimp only at he
      split at he <;> exact he
    obtain ⟨g1, g2, g3⟩ := check_any h0 (by decide)
    have hw : isWreg op.regno.getUnsigned = true := by simpa using g2
    have he2 : op.regno.getUnsigned % 2 = 0 := by unfold isWreg at hw; simpa using hw
    dsimp only at h
    rw [g3] at h
    subst h
    split
    · refine ⟨g1, mem 3 (by decide), [op.regno.getUnsigned % 256, op.val.getUnsigned % 256],
        by show a.ops ++ [_] ++ [_] = _; rw [List.append_assoc]; rfl, fun hm => ?_⟩
      refine reads_idx8 (b8 _) (b8 _) (low4 hc h4 (by decide)) (mod_even hw) (fun h h0 => ?_)
      apply Decidable.byContradiction
      intro hodd
      exact hm ⟨hword h 3 (by decide), low4 hc h4 (by decide), by omega, by omega⟩
    · refine ⟨g1, mem 3 (by decide), [(op.regno.getUnsigned ||| 1) % 256, op.val.getUnsigned % 256, op.val.getUnsigned / 256 % 256],
        by show a.ops ++ [_] ++ [_, _] = _; rw [List.append_assoc]; rfl, fun hm => ?_⟩
      refine reads_idx16 (b8 _) (b8 _) (b8 _) (low4 hc h4 (by decide)) (by rw [or_one he2]; omega) (fun h h0 => ?_)
      apply Decidable.byContradiction
      intro hodd
      exact hm ⟨hword h 3 (by decide), low4 hc h4 (by decide), by omega, by omega⟩
  unfold emitAop at he ⊢
  split
  · rename_i hm
    rw [hm] at he
    exact imm rfl he
  · rename_i hm
    rw [hm] at he
    exact indir he
  · rename_i hm
    rw [hm] at he
    dsimp only at he
    split
    · rename_i h1
      rw [if_pos h1] at he
      exact indir he
    · rename_i h1
      rw [if_neg h1] at he
      split
      · rename_i h2
        rw [if_pos h2] at he
        exact absolute he
      · rename_i h2
        rw [if_neg h2] at he
        exact index rfl he
  · rename_i h1 h2 h3
    split at he
    · exact absurd (by assumption) h1
    · exact absurd (by assumption) h2
    · exact absurd (by assumption) h3
    · exact absolute he

/-- The modes that are a displacement. -/
def isRel : Mode → Bool
  | .REL8 | .REL11 | .REL16 => true
  | _ => false

/-- The bytes of an operand without an addressing mode. -/
def size : Mode → Nat
  | .BREG | .WREG | .LREG | .COUNT | .INDIR | .REL8 | .REL11 => 1
  | .REL16 => 2
  | _ => 0

theorem some_of {α : Type} {x : Option α} {y : α} (h : ofOption x = .ok y) : x = some y := by
  cases x with
  | none => cases h
  | some z => rw [Out.ok.inj h]

/-- What was emitted for a displacement. -/
theorem rel_fitted {addr : Nat} {m : Mode} {op : Operand} {a a' : Asm} (hm : isRel m = true) (ho : op.err = .OK)
    (h : emitRelative addr m op a = .ok a') (he : a'.err = .OK) (hc : a.opc < 256) (h8 : m = .REL11 → a.opc % 8 = 0)
    (hend : addr + relLen a.opc m ≤ 65536) (hlen : ∀ c ∈ codes m a.opc, relLen c m = relLen a.opc m) :
    a.err = .OK ∧ a'.opc ∈ codes m a.opc ∧ ∃ x, a'.ops = a.ops ++ x ∧ x.length = size m ∧ Reads addr a'.opc m x := by
  have hW : Config.W = 4294967296 := rfl
  have b8 : ∀ v, v % 256 < 256 := fun v => Nat.mod_lt _ (by decide)
  unfold emitRelative at h
  dsimp only at h
  rw [ho, if_neg (not_not_intro (rfl : Err.OK = .OK))] at h
  obtain ⟨⟨d, e⟩, h1, h2⟩ := bind_ok h
  have h1 := some_of h1
  dsimp only at h2
  -- the target is an address
  have target : e = .OK → a.err = .OK ∧ op.val.getUnsigned < 65536 ∧
      d = (op.val.getUnsigned : Int) - ((addr + relLen a.opc m : Nat) : Int) := by
    intro e0
    have ht : op.val.getUnsigned < Config.W := by unfold Value.getUnsigned; rw [hW]; omega
    exact branch_back (by decide) (by decide) hend (by rw [hW]; omega) ht h1 e0
  have good : ∀ {c : Nat} {v : Nat} {bits : Nat}, relBits m = bits → relLen c m = relLen a.opc m →
      signed bits v = d → e = .OK → Config.checkAddr 16 (relTarget addr c ⟨m, 0, v, .OK⟩) false = .OK := by
    intro c v bits hb hl hs e0
    obtain ⟨_, t1, t2⟩ := target e0
    have : relTarget addr c ⟨m, 0, v, .OK⟩ = op.val.getUnsigned := by
      unfold relTarget
      dsimp only
      rw [hb, hs, hl, hW]
      omega
    rw [this]
    exact address_ok (by decide) t1
  cases m with
  | REL8 =>
    dsimp only at h2
    obtain ⟨far, h3, h4⟩ := bind_ok h2
    have h3 := some_of h3
    have h4 := Out.ok.inj h4
    subst h4
    obtain ⟨k1, k2, k3⟩ := check_any (show (Asm.check { a with err := e } far _).err = .OK from he) (by decide)
    have k1 : e = .OK := k1
    rw [k3]
    rw [Config.overflowDelta_eq (by decide) (by decide), k2] at h3
    injection h3 with h3
    simp only [Nat.reduceSub, Nat.reducePow, decide_eq_false_iff_not, Decidable.not_not] at h3
    refine ⟨(target k1).1, List.mem_singleton.2 rfl, [(d % 256).toNat % 256], rfl, rfl, ?_⟩
    intro o abs rest bytes
    show (Rd.byte _).2 = _ ∧ _ ∧ Config.checkAddr 16 (relTarget addr a.opc ⟨.REL8, 0, (Rd.byte _).1, .OK⟩) false = .OK
    rw [byte_of (b8 _)]
    refine ⟨rfl, rfl, good (bits := 8) rfl rfl ?_ k1⟩
    unfold signed
    simp only [Nat.reduceSub, Nat.reducePow]
    split <;> omega
  | REL11 =>
    dsimp only at h2
    obtain ⟨far, h3, h4⟩ := bind_ok h2
    have h3 := some_of h3
    have h4 := Out.ok.inj h4
    subst h4
    obtain ⟨k1, k2, k3⟩ := check_any (show (Asm.check { a with err := e } far _).err = .OK from he) (by decide)
    have k1 : e = .OK := k1
    rw [k3]
    rw [Config.overflowDelta_eq (by decide) (by decide), k2] at h3
    injection h3 with h3
    simp only [Nat.reduceSub, Nat.reducePow, decide_eq_false_iff_not, Decidable.not_not] at h3
    have hk : (d / 256 % 8).toNat < 8 := by omega
    have hmem : (a.opc ||| (d / 256 % 8).toNat) % 256 ∈ codes .REL11 a.opc :=
      List.mem_map.2 ⟨_, List.mem_range.2 hk, rfl⟩
    refine ⟨(target k1).1, hmem, [(d % 256).toNat % 256], rfl, rfl, ?_⟩
    intro o abs rest bytes
    show (Rd.byte _).2 = _ ∧ _ ∧ Config.checkAddr 16 (relTarget addr ((a.opc ||| (d / 256 % 8).toNat) % 256)
      ⟨.REL11, 0, (a.opc ||| (d / 256 % 8).toNat) % 256 % 8 * 256 + (Rd.byte _).1, .OK⟩) false = .OK
    rw [byte_of (b8 _)]
    refine ⟨rfl, rfl, good (bits := 11) rfl rfl ?_ k1⟩
    rw [low8 hc (h8 rfl) hk]
    unfold signed
    simp only [Nat.reduceSub, Nat.reducePow]
    split <;> omega
  | REL16 =>
    have h2 := Out.ok.inj h2
    subst h2
    have k1 : e = .OK := he
    obtain ⟨t0, t1, t2⟩ := target k1
    refine ⟨t0, List.mem_singleton.2 rfl, [(d % 65536).toNat % 256, (d % 65536).toNat / 256 % 256], rfl, rfl, ?_⟩
    intro o abs rest bytes
    have e' : ∀ v w, readOperand a.opc .REL16 ⟨[v % 256, w % 256] ++ rest, bytes, .OK⟩ =
        (⟨.REL16, 0, v % 256 + 256 * (w % 256), .OK⟩, ⟨rest, bytes ++ [v % 256, w % 256], .OK⟩) := by
      intro v w
      unfold readOperand
      dsimp only
      rw [le16_of (b8 _) (b8 _)]
    show (readOperand a.opc .REL16 _).2 = _ ∧ (readOperand a.opc .REL16 _).1.err = _ ∧
      (outOperand o abs addr a.opc (readOperand a.opc .REL16 _).1).2 = _
    rw [e']
    refine ⟨rfl, rfl, good (bits := 16) rfl rfl ?_ k1⟩
    have hr : -32768 ≤ d ∧ d < 32768 := by
      have := Config.branchDelta_eq (w := 16) (base := addr + relLen a.opc .REL16) (target := op.val.getUnsigned)
        (by decide) (by decide) hend (by rw [hW]; omega) (by rw [hW]; omega)
      obtain ⟨d', e', q1, q2, q3, _⟩ := this
      rw [t0, q1] at h1
      injection h1 with h1
      injection h1 with h1 h1'
      rw [h1'] at q2
      have := q2.1 k1
      simp only [Nat.reduceSub, Nat.reducePow] at this
      omega
    unfold signed
    simp only [Nat.reduceSub, Nat.reducePow]
    split <;> omega
  | _ => exact absurd hm Bool.false_ne_true

/-- What was emitted for an operand. -/
theorem fitted {addr : Nat} {m : Mode} {op : Operand} {a a' : Asm}
    (h : emitOperand addr m op a = .ok a') (he : a'.err = .OK) (hc : a.opc < 256)
    (h4 : m = .BAOP ∨ m = .WAOP → a.opc % 4 = 0) (h8 : m = .REL11 → a.opc % 8 = 0)
    (hword : m = .WAOP → ∀ k < 4, Spec.Word ((a.opc ||| k) % 256))
    (hend : isRel m = true → addr + relLen a.opc m ≤ 65536) :
    a.err = .OK ∧ a'.opc ∈ codes m a.opc ∧
    ∃ x, a'.ops = a.ops ++ x ∧ (¬ (m = .BAOP ∨ m = .WAOP) → x.length = size m) ∧
      ((m = .BAOP ∨ m = .WAOP → ¬ Spec.Misaligned (a'.opc :: x)) → Reads addr a'.opc m x) := by
  have b8 : ∀ v, v % 256 < 256 := fun v => Nat.mod_lt _ (by decide)
  have key : ∀ {b : Asm}, b = a.setErrorIf op.err → b.err = .OK → a.err = .OK ∧ op.err = .OK ∧ b = a := by
    intro b hb h1
    rw [hb] at h1 ⊢
    exact setErr_any h1
  unfold emitOperand at h
  generalize hb : a.setErrorIf op.err = b at h
  have key := key hb.symm
  dsimp only at h
  have reg : ∀ {a1 : Asm}, (m = .BREG ∨ m = .COUNT) ∨ ((m = .WREG ∨ m = .INDIR) ∧ isWreg op.val.getUnsigned = true) ∨
      (m = .LREG ∧ isLreg op.val.getUnsigned = true) → a1 = a → (a.err = .OK) →
      Out.ok (a1.emit8 op.val.getUnsigned) = Out.ok a' →
      a.err = .OK ∧ a'.opc ∈ codes m a.opc ∧ ∃ x, a'.ops = a.ops ++ x ∧ (¬ (m = .BAOP ∨ m = .WAOP) → x.length = size m) ∧
        ((m = .BAOP ∨ m = .WAOP → ¬ Spec.Misaligned (a'.opc :: x)) → Reads addr a'.opc m x) := by
    intro a1 hk ha1 hok h
    have h := Out.ok.inj h
    subst h ha1
    refine ⟨hok, ?_, [op.val.getUnsigned % 256], rfl, ?_, ?_⟩
    · rcases hk with (rfl | rfl) | ⟨rfl | rfl, _⟩ | ⟨rfl, _⟩ <;> exact List.mem_singleton.2 rfl
    · rcases hk with (rfl | rfl) | ⟨rfl | rfl, _⟩ | ⟨rfl, _⟩ <;> exact fun _ => rfl
    · intro _ o abs rest bytes
      have hb := byte_of (b8 op.val.getUnsigned) rest bytes
      rcases hk with (rfl | rfl) | ⟨rfl | rfl, hw⟩ | ⟨rfl, hw⟩
      · show (Rd.byte _).2 = _ ∧ _ ∧ _
        rw [hb]
        exact ⟨rfl, rfl, rfl⟩
      · show (Rd.byte _).2 = _ ∧ _ ∧ (outOperand o abs addr _ ⟨.COUNT, (Rd.byte _).1, 0, .OK⟩).2 = _
        rw [hb]
        refine ⟨rfl, rfl, ?_⟩
        unfold outOperand
        dsimp only
        split <;> rfl
      · show (Rd.byte _).2 = _ ∧ aligned (isWreg (Rd.byte _).1) = _ ∧ _
        rw [hb]
        exact ⟨rfl, by rw [mod_even hw]; rfl, rfl⟩
      · show (Rd.byte _).2 = _ ∧ aligned (isWreg (Rd.byte _).1) = _ ∧ _
        rw [hb]
        exact ⟨rfl, by rw [mod_even hw]; rfl, rfl⟩
      · show (Rd.byte _).2 = _ ∧ aligned (isLreg (Rd.byte _).1) = _ ∧ _
        rw [hb]
        refine ⟨rfl, ?_, rfl⟩
        have : isLreg (op.val.getUnsigned % 256) = true := by
          unfold isLreg at hw ⊢
          simp at hw ⊢
          omega
        show aligned (isLreg (op.val.getUnsigned % 256)) = .OK
        rw [this]
        rfl
  have nothing : codes m a.opc = [a.opc] → size m = 0 → (∀ c, Reads addr c m []) → Out.ok b = Out.ok a' →
      a.err = .OK ∧ a'.opc ∈ codes m a.opc ∧ ∃ x, a'.ops = a.ops ++ x ∧ (¬ (m = .BAOP ∨ m = .WAOP) → x.length = size m) ∧
        ((m = .BAOP ∨ m = .WAOP → ¬ Spec.Misaligned (a'.opc :: x)) → Reads addr a'.opc m x) := by
    intro h1 h2 h3 h
    have h := Out.ok.inj h
    subst h
    obtain ⟨k1, _, k3⟩ := key he
    rw [k3]
    exact ⟨k1, by rw [h1]; exact List.mem_singleton.2 rfl, [], by rw [List.append_nil], fun _ => h2.symm, fun _ => h3 _⟩
  have silent : ∀ m, (∀ c r, readOperand c m r = (⟨m, 0, 0, .OK⟩, r)) → (∀ o abs c, (outOperand o abs addr c ⟨m, 0, 0, .OK⟩).2 = .OK) →
      ∀ c, Reads addr c m [] := by
    intro m h1 h2 c o abs rest bytes
    rw [h1]
    refine ⟨by rw [List.append_nil]; rfl, rfl, h2 _ _ _⟩
  cases m with
  | LREG =>
    have he' := he
    rw [← Out.ok.inj h] at he'
    obtain ⟨p1, p2, p3⟩ := check_any (show (Asm.check _ _ _).err = .OK from he') (by decide)
    obtain ⟨q1, q2, q3⟩ := check_any p1 (by decide)
    obtain ⟨r1, r2, r3⟩ := check_any q1 (by decide)
    obtain ⟨k1, _, k3⟩ := key r1
    exact reg (Or.inr (Or.inr ⟨rfl, by simpa using r2⟩)) (p3.trans (q3.trans (r3.trans k3))) k1 h
  | WREG | INDIR =>
    have he' := he
    rw [← Out.ok.inj h] at he'
    obtain ⟨p1, p2, p3⟩ := check_any (show (Asm.check _ _ _).err = .OK from he') (by decide)
    obtain ⟨q1, q2, q3⟩ := check_any p1 (by decide)
    obtain ⟨k1, _, k3⟩ := key q1
    exact reg (Or.inr (Or.inl ⟨by first | exact Or.inl rfl | exact Or.inr rfl, by simpa using q2⟩)) (p3.trans (q3.trans k3)) k1 h
  | BREG | COUNT =>
    have he' := he
    rw [← Out.ok.inj h] at he'
    obtain ⟨p1, p2, p3⟩ := check_any (show (Asm.check _ _ _).err = .OK from he') (by decide)
    obtain ⟨k1, _, k3⟩ := key p1
    exact reg (Or.inl (by first | exact Or.inl rfl | exact Or.inr rfl)) (p3.trans k3) k1 h
  | BAOP =>
    have h := Out.ok.inj h
    subst h
    have hbo : b.opc = a.opc := by rw [← hb]; rfl
    obtain ⟨g1, _⟩ := aop_fitted (addr := addr) he (by rw [hbo]; exact hc) (by rw [hbo]; exact h4 (Or.inl rfl)) (fun h => by cases h)
    obtain ⟨k1, _, k3⟩ := key g1
    subst k3
    obtain ⟨_, g2, x, g3, g4⟩ := aop_fitted (addr := addr) he hc (h4 (Or.inl rfl)) (fun h => by cases h)
    exact ⟨k1, g2, x, g3, fun h => absurd (Or.inl rfl) h, fun h => g4 (h (Or.inl rfl))⟩
  | WAOP =>
    have h := Out.ok.inj h
    subst h
    have hbo : b.opc = a.opc := by rw [← hb]; rfl
    obtain ⟨g1, _⟩ := aop_fitted (addr := addr) he (by rw [hbo]; exact hc) (by rw [hbo]; exact h4 (Or.inr rfl))
      (by rw [hbo]; exact fun _ => hword rfl)
    obtain ⟨k1, _, k3⟩ := key g1
    subst k3
    obtain ⟨_, g2, x, g3, g4⟩ := aop_fitted (addr := addr) he hc (h4 (Or.inr rfl)) (fun _ => hword rfl)
    exact ⟨k1, g2, x, g3, fun h => absurd (Or.inr rfl) h, fun h => g4 (h (Or.inr rfl))⟩
  | BITNO =>
    have h := Out.ok.inj h
    subst h
    obtain ⟨p1, p2, p3⟩ := check_any (show (Asm.check _ _ _).err = .OK from he) (by decide)
    obtain ⟨k1, _, k3⟩ := key p1
    rw [p3, k3]
    refine ⟨k1, List.mem_map.2 ⟨op.val.getUnsigned % 8, List.mem_range.2 (Nat.mod_lt _ (by decide)), rfl⟩, [],
      by rw [List.append_nil]; rfl, fun _ => rfl, fun _ o abs rest bytes => ?_⟩
    exact ⟨by rw [List.append_nil]; rfl, rfl, rfl⟩
  | REL8 | REL11 | REL16 =>
    have ho : op.err = .OK ∧ b = a := by
      apply Decidable.byContradiction
      intro hn
      have hbe : b.err ≠ .OK := fun hx => hn ⟨(key hx).2.1, (key hx).2.2⟩
      unfold emitRelative at h
      dsimp only at h
      obtain ⟨⟨d, e⟩, h1, h2⟩ := bind_ok h
      have hee := Config.branchDelta_err hbe (some_of h1)
      first
        | (dsimp only at h2
           obtain ⟨far, _, h4⟩ := bind_ok h2
           rw [← Out.ok.inj h4] at he
           exact hee (check_any (show (Asm.check { b with err := e } far _).err = .OK from he) (by decide)).1)
        | (rw [← Out.ok.inj h2] at he
           exact hee he)
    obtain ⟨ho, hba⟩ := ho
    subst hba
    obtain ⟨g1, g2, x, g3, g4, g5⟩ := rel_fitted rfl ho h he hc h8 (hend rfl) (by
      intro c hm
      first
        | rw [List.mem_singleton.1 hm]
        | rfl)
    exact ⟨g1, g2, x, g3, fun _ => g4, fun _ => g5⟩
  | NONE | IMM8 | IMM16 | IDX8 | IDX16 | ADDR | UNDEF =>
    exact nothing rfl rfl (silent _ (fun _ _ => rfl) (fun _ _ _ => rfl)) h

/-! ### All operands -/

/-- The bytes of operands, one after the other. -/
def Fit (addr c : Nat) : List Mode → List Nat → Prop
  | [], x => x = []
  | m :: ms, x => ∃ y z, x = y ++ z ∧ Reads addr c m y ∧ Fit addr c ms z

/-- The operand does not change the code. -/
def keeps (m : Mode) : Bool := !([Mode.BAOP, .WAOP, .REL11, .BITNO].contains m)

/-- The operand is read in the same way whatever the code is. -/
def indep (m : Mode) : Bool := [Mode.BREG, .WREG, .LREG, .COUNT, .INDIR, .BITNO, .NONE].contains m

/-- What is needed of the modes that are still to come, with the code `c` and `n` bytes so far. -/
def lowB : List Mode → Nat → Nat → Bool
  | [], _, _ => true
  | m :: ms, c, n =>
    (!(m == .BAOP || m == .WAOP) || (c % 4 == 0 && n == 1)) && (!(m == .REL11) || c % 8 == 0) &&
    (!(m == .WAOP) || (List.range 4).all fun k => decide (Spec.Word ((c ||| k) % 256))) &&
    (!isRel m || relLen c m == n + size m) &&
    (ms.all keeps || indep m) &&
    (codes m c).all fun c' => decide (c' < 256) && lowB ms c' (if m == .BAOP || m == .WAOP then 100 else n + size m)

theorem reach_keeps : ∀ (ms : List Mode) (c : Nat), ms.all keeps = true → reach ms c = [c]
  | [], _, _ => rfl
  | m :: ms, c, h => by
    rw [List.all_cons, Bool.and_eq_true] at h
    have h1 : codes m c = [c] := by
      have := h.1
      cases m <;> first | rfl | exact absurd this (by decide)
    unfold reach
    rw [h1, List.flatMap_cons, List.flatMap_nil, reach_keeps ms c h.2]
    rfl

theorem reads_indep {addr c c' : Nat} {m : Mode} {x : List Nat} (hm : indep m = true) (h : Reads addr c m x) :
    Reads addr c' m x := by
  intro o abs rest bytes
  have k := h o abs rest bytes
  cases m with
  | BREG | WREG | LREG | COUNT | INDIR | NONE => exact k
  | BITNO => exact ⟨k.1, rfl, rfl⟩
  | _ => exact absurd hm (by decide)

theorem misaligned_more {c : Nat} {x y : List Nat} (h : Spec.Misaligned (c :: x)) : Spec.Misaligned (c :: (x ++ y)) := by
  rcases x with _ | ⟨r, _ | ⟨d, x⟩⟩
  · exact False.elim h
  · exact False.elim h
  · exact h

/-- An error stays. -/
theorem emit_err {addr : Nat} {m : Mode} {op : Operand} {a a' : Asm} (h : emitOperand addr m op a = .ok a')
    (he : a'.err = .OK) : a.err = .OK := by
  have key : (a.setErrorIf op.err).err = .OK → a.err = .OK := fun h => (setErr_any h).1
  unfold emitOperand at h
  generalize a.setErrorIf op.err = b at h key
  dsimp only at h
  have aop : ∀ w, (emitAop w op b).err = .OK → b.err = .OK := by
    intro w he
    have indir : (emitIndir op b).err = .OK → b.err = .OK := fun he =>
      (check_any (show (Asm.check (b.embed 2) _ _).err = .OK from he) (by decide)).1
    have absolute : (emitAbsolute w op b).err = .OK → b.err = .OK := by
      intro he
      have h0 : (b.check (w && !isWreg op.val.getUnsigned) .OPERAND_NOT_ALIGNED).err = .OK := by
        unfold emitAbsolute at he
        dsimp only at he
        split at he <;> exact he
      exact (check_any h0 (by decide)).1
    unfold emitAop at he
    split at he
    · split at he <;> exact he
    · exact indir he
    · split at he
      · exact indir he
      · split at he
        · exact absolute he
        · have h0 : ((b.embed 3).check (!isWreg op.regno.getUnsigned) .OPERAND_NOT_ALIGNED).err = .OK := by
            dsimp only at he
            split at he <;> exact he
          exact (check_any h0 (by decide)).1
    · exact absolute he
  have rel : ∀ m, emitRelative addr m op b = .ok a' → b.err = .OK := by
    intro m h
    apply Decidable.byContradiction
    intro hbe
    unfold emitRelative at h
    dsimp only at h
    obtain ⟨⟨d, e⟩, h1, h2⟩ := bind_ok h
    have hee := Config.branchDelta_err hbe (some_of h1)
    dsimp only at h2
    split at h2
    · obtain ⟨far, _, h4⟩ := bind_ok h2
      rw [← Out.ok.inj h4] at he
      exact hee (check_any (show (Asm.check { b with err := e } far _).err = .OK from he) (by decide)).1
    · obtain ⟨far, _, h4⟩ := bind_ok h2
      rw [← Out.ok.inj h4] at he
      exact hee (check_any (show (Asm.check { b with err := e } far _).err = .OK from he) (by decide)).1
    · rw [← Out.ok.inj h2] at he
      exact hee he
  cases m with
  | LREG =>
    rw [← Out.ok.inj h] at he
    exact key (check_any (check_any (check_any (show (Asm.check _ _ _).err = .OK from he) (by decide)).1 (by decide)).1 (by decide)).1
  | WREG | INDIR =>
    rw [← Out.ok.inj h] at he
    exact key (check_any (check_any (show (Asm.check _ _ _).err = .OK from he) (by decide)).1 (by decide)).1
  | BREG | COUNT | BITNO =>
    rw [← Out.ok.inj h] at he
    exact key (check_any (show (Asm.check _ _ _).err = .OK from he) (by decide)).1
  | BAOP | WAOP =>
    rw [← Out.ok.inj h] at he
    exact key (aop _ he)
  | REL8 | REL11 | REL16 => exact key (rel _ h)
  | NONE | IMM8 | IMM16 | IDX8 | IDX16 | ADDR | UNDEF =>
    rw [← Out.ok.inj h] at he
    exact key he

theorem emits_ops {addr : Nat} {m : Mode} {op : Operand} {a a' : Asm} (h : emitOperand addr m op a = .ok a') :
    ∃ x, a'.ops = a.ops ++ x := by
  have keep : ∀ (a : Asm) (c : Bool) (e : Err), (a.check c e).ops = a.ops := by
    intro a c e
    cases c <;> rfl
  have one : ∀ {b : Asm} {x : List Nat}, b.ops = a.ops ++ x → ∀ y, ∃ x, b.ops ++ y = a.ops ++ x :=
    fun h y => ⟨_, by rw [h, List.append_assoc]⟩
  have same : ∀ {b : Asm}, b.ops = a.ops → ∀ y, ∃ x, b.ops ++ y = a.ops ++ x := fun h y => ⟨y, by rw [h]⟩
  unfold emitOperand at h
  have hb : (a.setErrorIf op.err).ops = a.ops := rfl
  generalize a.setErrorIf op.err = b at h hb
  dsimp only at h
  have aop : ∀ w, ∃ x, (emitAop w op b).ops = a.ops ++ x := by
    intro w
    have indir : ∃ x, (emitIndir op b).ops = a.ops ++ x := by
      unfold emitIndir
      exact same (by rw [keep]; exact hb) _
    have absolute : ∃ x, (emitAbsolute w op b).ops = a.ops ++ x := by
      unfold emitAbsolute
      dsimp only
      split
      · exact same (show (Asm.check _ _ _).ops = _ by rw [keep]; exact hb) _
      · show ∃ x, (Asm.check _ _ _).ops ++ _ ++ _ = a.ops ++ x
        rw [keep, hb, List.append_assoc]
        exact ⟨_, rfl⟩
    unfold emitAop
    split
    · split <;> exact same hb _
    · exact indir
    · split
      · exact indir
      · split
        · exact absolute
        · dsimp only
          split
          · show ∃ x, (Asm.check _ _ _).ops ++ _ ++ _ = a.ops ++ x
            rw [keep]
            show ∃ x, b.ops ++ _ ++ _ = a.ops ++ x
            rw [hb, List.append_assoc]
            exact ⟨_, rfl⟩
          · show ∃ x, (Asm.check _ _ _).ops ++ _ ++ _ = a.ops ++ x
            rw [keep]
            show ∃ x, b.ops ++ _ ++ _ = a.ops ++ x
            rw [hb, List.append_assoc]
            exact ⟨_, rfl⟩
    · exact absolute
  have rel : ∀ m, emitRelative addr m op b = .ok a' → ∃ x, a'.ops = a.ops ++ x := by
    intro m h
    unfold emitRelative at h
    dsimp only at h
    obtain ⟨⟨d, e⟩, h1, h2⟩ := bind_ok h
    dsimp only at h2
    split at h2
    · obtain ⟨far, _, h4⟩ := bind_ok h2
      rw [← Out.ok.inj h4]
      exact same (show (Asm.check _ _ _).ops = _ by rw [keep]; exact hb) _
    · obtain ⟨far, _, h4⟩ := bind_ok h2
      rw [← Out.ok.inj h4]
      exact same (show (Asm.check _ _ _).ops = _ by rw [keep]; exact hb) _
    · rw [← Out.ok.inj h2]
      exact same hb _
  cases m with
  | LREG =>
    rw [← Out.ok.inj h]
    exact same (by rw [keep, keep, keep, hb]) _
  | WREG | INDIR =>
    rw [← Out.ok.inj h]
    exact same (by rw [keep, keep, hb]) _
  | BREG | COUNT =>
    rw [← Out.ok.inj h]
    exact same (by rw [keep, hb]) _
  | BITNO =>
    rw [← Out.ok.inj h]
    exact ⟨[], by show (Asm.check _ _ _).ops = _; rw [keep, hb, List.append_nil]⟩
  | BAOP | WAOP =>
    rw [← Out.ok.inj h]
    exact aop _
  | REL8 | REL11 | REL16 => exact rel _ h
  | NONE | IMM8 | IMM16 | IDX8 | IDX16 | ADDR | UNDEF =>
    rw [← Out.ok.inj h]
    exact ⟨[], by rw [List.append_nil, hb]⟩

theorem emits_rel {addr : Nat} {m : Mode} {op : Operand} {a a' : Asm} (hm : isRel m = true)
    (h : emitOperand addr m op a = .ok a') : a'.ops.length = a.ops.length + size m := by
  have keep : ∀ (a : Asm) (c : Bool) (e : Err), (a.check c e).ops = a.ops := by
    intro a c e
    cases c <;> rfl
  have rel : ∀ m, isRel m = true → emitRelative addr m op (a.setErrorIf op.err) = .ok a' → a'.ops.length = a.ops.length + size m := by
    intro m hm h
    unfold emitRelative at h
    dsimp only at h
    obtain ⟨⟨d, e⟩, h1, h2⟩ := bind_ok h
    cases m with
    | REL8 | REL11 =>
      obtain ⟨far, _, h4⟩ := bind_ok h2
      rw [← Out.ok.inj h4]
      show ((Asm.check _ _ _).ops ++ [_]).length = _
      rw [keep, List.length_append]
      rfl
    | REL16 =>
      rw [← Out.ok.inj h2]
      show (_ ++ [_, _]).length = _
      rw [List.length_append]
      rfl
    | _ => exact absurd hm (by decide)
  cases m with
  | REL8 | REL11 | REL16 => exact rel _ rfl h
  | _ => exact absurd hm (by decide)

theorem list_ops {addr : Nat} : ∀ (l : List (Mode × Operand)) (a a' : Asm),
    emitList (emitOperand addr) l a = .ok a' → ∃ x, a'.ops = a.ops ++ x
  | [], a, a', h => by
    have := Out.ok.inj h
    subst this
    exact ⟨[], by rw [List.append_nil]⟩
  | (m, op) :: l, a, a', h => by
    obtain ⟨a1, h1, h2⟩ := bind_ok h
    obtain ⟨x, hx⟩ := emits_ops h1
    obtain ⟨y, hy⟩ := list_ops l a1 a' h2
    exact ⟨x ++ y, by rw [hy, hx, List.append_assoc]⟩

theorem list_fit {addr : Nat} : ∀ (l : List (Mode × Operand)) (a a' : Asm) (n : Nat),
    emitList (emitOperand addr) l a = .ok a' → a'.err = .OK → a.opc < 256 → lowB (l.map (·.1)) a.opc n = true →
    (n < 100 → 1 + a.ops.length = n) → addr + (1 + a'.ops.length) ≤ 65536 → ¬ Spec.Misaligned (a'.opc :: a'.ops) →
    a.err = .OK ∧ a'.opc ∈ reach (l.map (·.1)) a.opc ∧ ∃ x, a'.ops = a.ops ++ x ∧ Fit addr a'.opc (l.map (·.1)) x
  | [], a, a', n, h, he, _, _, _, _, _ => by
    have := Out.ok.inj h
    subst this
    exact ⟨he, List.mem_singleton.2 rfl, [], by rw [List.append_nil], rfl⟩
  | (m, op) :: l, a, a', n, h, he, hc, hlow, hn, hend, hmis => by
    obtain ⟨a1, h1, h2⟩ := bind_ok h
    rw [List.map_cons] at hlow ⊢
    unfold lowB at hlow
    simp only [Bool.and_eq_true, Bool.or_eq_true, Bool.not_eq_true', beq_iff_eq, Bool.or_eq_false_iff, beq_eq_false_iff_ne,
      List.all_eq_true (p := fun c' => _ && _), decide_eq_true_eq, ne_eq] at hlow
    obtain ⟨⟨⟨⟨⟨l1, l2⟩, l3⟩, l4⟩, l5⟩, l6⟩ := hlow
    have he1 : a1.err = .OK := emit_mono (fun m op a a' h he => emit_err h he) l a1 a' h2 he
    obtain ⟨y, hy⟩ := list_ops l a1 a' h2
    obtain ⟨x0, hx0⟩ := emits_ops h1
    -- the operand is small enough
    have hrel : isRel m = true → addr + relLen a.opc m ≤ 65536 := by
      intro hr
      have e1 : relLen a.opc m = n + size m := by
        rcases l4 with h | h
        · rw [hr] at h; cases h
        · exact h
      have : relLen a.opc m ≤ 3 := by
        unfold relLen
        split
        · split <;> omega
        · omega
        · omega
      have e2 := hn (by omega)
      have e3 := emits_rel hr h1
      rw [hy, List.length_append, e3] at hend
      omega
    obtain ⟨k1, k2, x, k3, k4, k5⟩ := fitted h1 he1 hc
      (by
        rintro (rfl | rfl)
        · rcases l1 with h | h
          · exact absurd rfl h.1
          · exact h.1
        · rcases l1 with h | h
          · exact absurd rfl h.2
          · exact h.1)
      (by
        rintro rfl
        rcases l2 with h | h
        · exact absurd rfl h
        · exact h)
      (by
        rintro rfl k hk
        rcases l3 with h | h
        · exact absurd rfl h
        · rw [List.all_eq_true] at h
          have := h k (List.mem_range.2 hk)
          simpa using this)
      hrel
    obtain ⟨l7, l8⟩ := l6 a1.opc k2
    obtain ⟨g1, g2, z, g3, g4⟩ := list_fit l a1 a' _ h2 he l7 l8 (by
      intro h100
      split at h100
      · omega
      · rename_i hno
        rw [if_neg hno]
        have hno' : ¬ (m = .BAOP ∨ m = .WAOP) := by simpa using hno
        rw [k3, List.length_append, k4 hno']
        have := hn (by omega)
        omega) hend hmis
    refine ⟨k1, ?_, x ++ z, by rw [g3, k3, List.append_assoc], x, z, rfl, ?_, g4⟩
    · unfold reach
      exact List.mem_flatMap.2 ⟨a1.opc, k2, g2⟩
    · rcases l5 with hk | hi
      · have : a'.opc = a1.opc := by
          rw [reach_keeps _ _ hk] at g2
          exact List.mem_singleton.1 g2
        rw [this]
        refine k5 (fun hm hmis' => hmis ?_)
        have hn1 : n = 1 := by
          rcases l1 with h | h
          · exact absurd hm (by rintro (rfl | rfl) <;> simp at h)
          · exact h.2
        have h0 : a.ops = [] := by
          have := hn (by omega)
          exact List.eq_nil_of_length_eq_zero (by omega)
        rw [this, g3, k3, h0]
        exact misaligned_more hmis'
      · exact reads_indep hi (k5 (fun hm => by rcases hm with rfl | rfl <;> exact absurd hi (by decide)))

/-! ### Decoding -/

theorem fit_filter {addr c : Nat} : ∀ (ms : List Mode) (x : List Nat), Fit addr c ms x →
    Fit addr c (ms.filter fun m => !decide (m = .NONE)) x
  | [], _, h => h
  | m :: ms, x, h => by
    obtain ⟨y, z, h1, h2, h3⟩ := h
    have ih := fit_filter ms z h3
    by_cases hm : m = .NONE
    · rw [List.filter_cons, if_neg (by simp [hm])]
      subst hm
      have := (h2 (.default '$') false [] []).1
      have hy : y = [] := by
        have h4 := congrArg Rd.bytes this
        have h5 : (readOperand c .NONE ⟨y ++ [], [], .OK⟩).2.bytes = [] := rfl
        rw [h5] at h4
        simpa using h4.symm
      rw [h1, hy]
      exact ih
    · rw [List.filter_cons, if_pos (by simp [hm])]
      exact ⟨y, z, h1, h2, ih⟩

/-- What fits is read without error. -/
theorem fit_reads {addr c : Nat} (o : Opts) (abs : Bool) (rest : List Nat) : ∀ (ms : List Mode) (x bytes : List Nat), Fit addr c ms x →
    (readList c ms ⟨x ++ rest, bytes, .OK⟩).2 = ⟨rest, bytes ++ x, .OK⟩ ∧
    ∀ d ∈ (readList c ms ⟨x ++ rest, bytes, .OK⟩).1, d.err = .OK ∧ (outOperand o abs addr c d).2 = .OK
  | [], x, bytes, h => by
    have : x = [] := h
    subst this
    exact ⟨by rw [List.append_nil]; rfl, fun d hd => by cases hd⟩
  | m :: ms, x, bytes, h => by
    obtain ⟨y, z, h1, h2, h3⟩ := h
    subst h1
    obtain ⟨k1, k2, k3⟩ := h2 o abs (z ++ rest) bytes
    obtain ⟨g1, g2⟩ := fit_reads o abs rest ms z (bytes ++ y) h3
    have e : (readList c (m :: ms) ⟨y ++ z ++ rest, bytes, .OK⟩) =
        ((readOperand c m ⟨y ++ (z ++ rest), bytes, .OK⟩).1 :: (readList c ms ⟨z ++ rest, bytes ++ y, .OK⟩).1,
          (readList c ms ⟨z ++ rest, bytes ++ y, .OK⟩).2) := by
      rw [← k1, List.append_assoc]
      rfl
    rw [e]
    refine ⟨by rw [← List.append_assoc bytes]; exact g1, fun d hd => ?_⟩
    rcases List.mem_cons.1 hd with rfl | hd
    · exact ⟨k2, k3⟩
    · exact g2 d hd

theorem shows {o : Opts} {abs : Bool} {addr c : Nat} : ∀ (ds : List DOp) (r : Rd), r.err = .OK →
    (∀ d ∈ ds, d.err = .OK ∧ (outOperand o abs addr c d).2 = .OK) → (decodeList (showOperand o abs addr c) ds r).2 = r := by
  have one : ∀ (d : DOp) (r : Rd), r.err = .OK → d.err = .OK ∧ (outOperand o abs addr c d).2 = .OK →
      (showOperand o abs addr c d r).2 = r := by
    intro d r hr hd
    unfold showOperand Rd.setErrorIf
    dsimp only
    rw [hd.1, hd.2]
    cases r
    cases hr
    rfl
  intro ds
  induction ds with
  | nil => intro r _ _; rfl
  | cons d ds ih =>
    intro r hr h
    have hd := one d r hr (h d (List.mem_cons_self ..))
    cases ds with
    | nil => exact hd
    | cons d' ds =>
      show (decodeList (showOperand o abs addr c) (d' :: ds) (showOperand o abs addr c d r).2).2 = r
      rw [hd]
      exact ih r hr (fun x hx => h x (List.mem_cons_of_mem _ hx))

theorem fit_decodes {addr c : Nat} (o : Opts) (abs : Bool) (rest : List Nat) : ∀ (ms : List Mode) (x bytes : List Nat), Fit addr c ms x →
    (decodeList (decodeOperand o abs addr c) ms ⟨x ++ rest, bytes, .OK⟩).2 = ⟨rest, bytes ++ x, .OK⟩ := by
  have one : ∀ (m : Mode) (y rest bytes : List Nat), Reads addr c m y →
      (decodeOperand o abs addr c m ⟨y ++ rest, bytes, .OK⟩).2 = ⟨rest, bytes ++ y, .OK⟩ := by
    intro m y rest bytes h
    obtain ⟨k1, k2, k3⟩ := h o abs rest bytes
    unfold decodeOperand showOperand Rd.setErrorIf
    dsimp only
    rw [k2, k3, k1]
    rfl
  intro ms
  induction ms with
  | nil =>
    intro x bytes h
    have : x = [] := h
    subst this
    rw [List.append_nil]
    rfl
  | cons m ms ih =>
    intro x bytes h
    obtain ⟨y, z, rfl, h2, h3⟩ := h
    have k := one m y (z ++ rest) bytes h2
    rw [List.append_assoc]
    cases ms with
    | nil =>
      have : z = [] := h3
      subst this
      rw [List.append_nil]
      exact k
    | cons m' ms =>
      show (decodeList (decodeOperand o abs addr c) (m' :: ms) (decodeOperand o abs addr c m ⟨y ++ (z ++ rest), bytes, .OK⟩).2).2 = _
      rw [k, ih z (bytes ++ y) h3, List.append_assoc]

/-! ### The instruction table -/

/-- The modes of three operands in the order of their bytes. -/
def order3 (row : Row) : List Mode :=
  if jbx row then pad 3 .NONE (modes row) else (pad 3 .NONE (modes row)).reverse

/-- The code `c` of a row is read as that row, or as one of the same name and operands. -/
def readsB (pre : Nat) (r : Row) (c : Nat) : Bool :=
  c == 0xC1 || c == 0xC5 || c == 0xCD || ((pre != 0 || c != 0xFE) &&
  match searchOpCode pre c with
  | none => false
  | some r' => decide (r.name = r'.name) && decide (order r' = order r) && jbx r' == jbx r)

/-- What a row can be encoded to is read as that row. -/
def rowB (pre : Nat) (r : Row) : Bool :=
  decide ('\x00' ∉ r.name) && decide (r.name.length < 11) && decide ('=' ∉ r.name) && decide (r.opcode < 256) &&
  decide ((order3 r).filter (fun m => !decide (m = .NONE)) = order r) && lowB (order3 r) r.opcode 1 &&
  (reach (order3 r) r.opcode).all fun c => decide (c < 256) && readsB pre r c

theorem rows_ok : (pages.all fun p => (p.prefix_ == 0 || p.prefix_ == 0xFE) &&
    p.entries.all fun r => undefined r || rowB p.prefix_ r) = true := by decide +kernel

theorem alnum (c : Char) (h : Ctype.isAlnum c = true) : syntaxOf.instructionLetter c = true :=
  show prefixSymbol none (some ['_', '?']) false c = true from prefixSymbol_alnum h

theorem setErr_opc (a : Asm) (e : Err) : (a.setErrorIf e).opc = a.opc := rfl

theorem setErr_ops (a : Asm) (e : Err) : (a.setErrorIf e).ops = a.ops := rfl

/-- From the operands to the bytes of an entry, and back. -/
theorem row_back {addr pre : Nat} {row : Row} {ops : List Operand} {a : Asm} (hB : rowB pre row = true)
    (hlen : ops.length = 3) (h : emitOperands addr row ops ⟨.OK, row.opcode, []⟩ = .ok a) (he : a.err = .OK)
    (hend : addr + (1 + a.ops.length) ≤ 65536) (hmis : ¬ Spec.Misaligned (a.opc :: a.ops)) :
    a.opc < 256 ∧ readsB pre row a.opc = true ∧ Fit addr a.opc (order row) a.ops := by
  unfold rowB at hB
  simp only [Bool.and_eq_true, decide_eq_true_eq, List.all_eq_true (l := reach _ _)] at hB
  obtain ⟨⟨⟨⟨⟨⟨b1, b2⟩, b3⟩, b4⟩, b5⟩, b6⟩, b7⟩ := hB
  have hl : (pad 3 .NONE (modes row)).length = ops.length := by rw [pad_length, hlen]
  have key : ∀ (l : List (Mode × Operand)) (a0 : Asm), l.map (·.1) = order3 row → a0.opc = row.opcode → a0.ops = [] →
      emitList (emitOperand addr) l a0 = .ok a → 
      a.opc < 256 ∧ readsB pre row a.opc = true ∧ Fit addr a.opc (order row) a.ops := by
    intro l a0 h1 h2 h3 h4
    obtain ⟨_, k2, x, k3, k4⟩ := list_fit l a0 a 1 h4 he (by rw [h2]; exact b4) (by rw [h1, h2]; exact b6)
      (fun _ => by rw [h3]; rfl) hend hmis
    rw [h1, h2] at k2
    rw [h1] at k4
    rw [h3, List.nil_append] at k3
    have := b7 _ k2
    have k5 := fit_filter _ _ k4
    rw [b5] at k5
    rw [k3]
    exact ⟨this.1, this.2, k5⟩
  unfold emitOperands at h
  dsimp only at h
  split at h
  · rename_i hj
    exact key _ _ (by unfold order3; rw [if_pos hj]; exact zip_fst _ _ hl) rfl rfl h
  · rename_i hj
    refine key _ _ (by unfold order3; rw [if_neg hj, List.map_reverse]; rw [zip_fst _ _ hl]) ?_ ?_ h
    · rw [setErr_opc, setErr_opc]
    · rw [setErr_ops, setErr_ops]

/-- The bytes of an entry are read as one of the same name. -/
theorem decode_back {addr pre : Nat} {row : Row} {c : Nat} {x : List Nat} (hc : readsB pre row c = true)
    (hst : ¬ Spec.StoresImmediate (c :: x)) (hf : Fit addr c (order row) x) (o : Opts) (abs : Bool) (bytes more : List Nat) :
    (pre ≠ 0 ∨ c ≠ 0xFE) ∧
    ∃ t, decodeInsn o abs addr pre c ⟨x ++ more, bytes, .OK⟩ = ⟨.OK, outText o row.name, t, bytes ++ x⟩ := by
  unfold readsB at hc
  simp only [Bool.and_eq_true, Bool.or_eq_true, beq_iff_eq, bne_iff_ne, ne_eq] at hc
  rcases hc with hc | ⟨h1, h2⟩
  · exact absurd (by rcases hc with (h | h) | h <;> simp [Spec.StoresImmediate, h]) hst
  · refine ⟨h1, ?_⟩
    unfold decodeInsn
    split at h2
    · cases h2
    · rename_i row' hs
      simp only [Bool.and_eq_true, decide_eq_true_eq, beq_iff_eq] at h2
      obtain ⟨⟨h3, h4⟩, h5⟩ := h2
      rw [hs]
      dsimp only
      rw [← h4] at hf
      have hd : (decodeOperands o abs addr c row' ⟨x ++ more, bytes, .OK⟩).2 = ⟨more, bytes ++ x, .OK⟩ := by
        unfold decodeOperands
        unfold order at hf
        split
        · rename_i hj
          rw [if_pos hj] at hf
          exact fit_decodes o abs more _ x bytes hf
        · rename_i hj
          rw [if_neg hj] at hf
          obtain ⟨g1, g2⟩ := fit_reads o abs more _ x bytes hf
          dsimp only
          rw [g1]
          exact shows _ _ rfl (fun d hd => g2 d (List.mem_reverse.1 hd))
      refine ⟨(decodeOperands o abs addr c row' ⟨x ++ more, bytes, .OK⟩).1, ?_⟩
      rw [hd, h3]

theorem not_prefix {c : Nat} (h : c ≠ 0xFE) : isPrefix c = false := by
  have e : isPrefix c = (pages.map (·.prefix_)).any fun p => p != 0 && p == c := by
    unfold isPrefix
    rw [List.any_map]
    rfl
  rw [e, show pages.map (·.prefix_) = [0, 0xFE] by decide +kernel]
  simp
  omega

/-- See `C29_i8096_partial`. -/
theorem line_back {E : Env} {addr : Nat} {line : List Char} {bytes : List Nat} {rest : Scan}
    (h : assemble E addr line = .ok (.insn ⟨.OK, bytes, rest⟩)) (hend : addr + bytes.length ≤ 2 ^ 16)
    (hst : ¬ Spec.StoresImmediate (Spec.body bytes)) (hmis : ¬ Spec.Misaligned (Spec.body bytes))
    (o : Opts) (abs : Bool) (more : List Nat) :
    bytes ≠ [] ∧ (disassemble o abs addr (bytes ++ more)).err = .OK ∧
    (disassemble o abs addr (bytes ++ more)).bytes = bytes ∧
    WrittenAs line (disassemble o abs addr (bytes ++ more)).name := by
  obtain ⟨word, scan, hi, haddr, hw, blanks, tail, hline, hblank⟩ :=
    encode_line_inv (by decide) rfl h
  unfold encodeImpl at hi
  obtain ⟨x, d1, d2⟩ := bind_ok hi
  cases x with
  | error e =>
    obtain ⟨e, p⟩ := e
    injection d2 with d2
    injection d2 with d2
    exact absurd d2 (operands_err (fun s e p h => parse_err h) _ _ _ _ d1)
  | ok x =>
    obtain ⟨ops, s⟩ := x
    dsimp only at d2
    obtain ⟨x, f1, f2⟩ := bind_ok d2
    unfold searchName at f1
    split at f1
    · rename_i pre row hs
      have f1 := Out.ok.inj f1
      by_cases hu : undefined row = true
      · rw [if_pos hu] at f1
        subst f1
        have := Out.ok.inj f2
        injection this with h1
        cases h1
      · rw [if_neg hu] at f1
        subst f1
        dsimp only at f2
        obtain ⟨a, g1, g2⟩ := bind_ok f2
        injection g2 with g2
        injection g2 with g2 g3 g4
        obtain ⟨p, hp, rfl, hrow, hcmp, hacc⟩ := searchName_mem hs
        have hP := List.all_eq_true.1 rows_ok p hp
        simp only [Bool.and_eq_true, Bool.or_eq_true, beq_iff_eq, List.all_eq_true (l := p.entries)] at hP
        have hB : rowB p.prefix_ row = true := (hP.2 row hrow).resolve_left hu
        have hdis : disassemble o abs addr (bytes ++ more) = decodeImpl o abs addr (bytes ++ more) := by
          unfold disassemble decode
          rw [haddr]
          rfl
        rw [hdis]
        have hB' := hB
        unfold rowB at hB'
        simp only [Bool.and_eq_true, decide_eq_true_eq] at hB'
        obtain ⟨⟨⟨⟨⟨⟨b1, b2⟩, b3⟩, _⟩, _⟩, _⟩, _⟩ := hB'
        have hname : WrittenAs line row.name := written alnum (fun c h => by cases h) hw b1 b2 hcmp b3 hline hblank
        have hwr : WrittenAs line (outText o row.name) := hname.letters (outText_same o _)
        subst g3
        generalize hpre : p.prefix_ = pre at *
        have hlen : (1 + a.ops.length) ≤ (bytesOf pre a).length := by
          unfold bytesOf Asm.bytes
          split <;> simp <;> omega
        have hbody : a.opc % 256 ≠ 0xFE ∨ pre ≠ 0 → Spec.body (bytesOf pre a) = a.opc % 256 :: a.ops := by
          intro hor
          unfold bytesOf Asm.bytes
          rcases hP.1 with h0 | h0
          · rw [if_pos h0]
            exact if_neg (hor.resolve_right (fun h => h h0))
          · rw [if_neg (by rw [h0]; decide), h0]
            rfl
        have hmis' : ¬ Spec.Misaligned (a.opc :: a.ops) := by
          intro hm
          have hw : Spec.Word a.opc := by
            cases ho : a.ops with
            | nil => rw [ho] at hm; exact hm.elim
            | cons r l =>
              cases l with
              | nil => rw [ho] at hm; exact hm.elim
              | cons d l => rw [ho] at hm; exact hm.1
          unfold Spec.Word at hw
          have e : a.opc % 256 = a.opc := Nat.mod_eq_of_lt (by omega)
          rw [hbody (Or.inl (by omega)), e] at hmis
          exact hmis hm
        obtain ⟨q1, q2, q3⟩ := row_back hB (pad_length _ _ _) g1 g2 (by have : (2 : Nat) ^ 16 = 65536 := rfl; omega) hmis'
        have e : a.opc % 256 = a.opc := Nat.mod_eq_of_lt q1
        have hne : pre ≠ 0 ∨ a.opc ≠ 0xFE := by
          unfold readsB at q2
          simp only [Bool.and_eq_true, Bool.or_eq_true, beq_iff_eq, bne_iff_ne, ne_eq] at q2
          omega
        rw [hbody (by rw [e]; exact hne.symm), e] at hst
        unfold decodeImpl bytesOf Asm.bytes
        rcases hP.1 with h0 | h0
        · subst h0
          rw [if_pos rfl, e, List.cons_append, byte_some q1]
          dsimp only
          rw [if_neg (by rw [not_prefix (hne.resolve_left (fun h => h rfl))]; decide)]
          obtain ⟨_, t, ht⟩ := decode_back q2 hst q3 o abs ([] ++ [a.opc]) more
          rw [ht]
          exact ⟨by simp, rfl, rfl, hwr⟩
        · subst h0
          rw [if_neg (by decide : ¬ (0xFE : Nat) = 0), e, List.cons_append, byte_some (by decide : (0xFE : Nat) % 256 < 256)]
          dsimp only
          rw [if_pos (by decide +kernel : isPrefix (0xFE % 256) = true), List.cons_append, byte_some q1]
          dsimp only
          rw [if_neg (fun h => h rfl)]
          obtain ⟨_, t, ht⟩ := decode_back q2 hst q3 o abs ([] ++ [254 % 256] ++ [a.opc]) more
          rw [show (254 % 256 : Nat) = 254 from rfl] at ht ⊢
          rw [ht]
          exact ⟨by simp, rfl, rfl, hwr⟩
    · rename_i e hs
      have f1 := Out.ok.inj f1
      subst f1
      injection f2 with f2
      injection f2 with f2 f3 f4
      exact absurd f2 (searchName_err hs)
    · cases f1

/-- Whatever line is assembled without error, with any symbols, to an instruction that ends within the address space,
is no store to an immediate operand and has no word at an odd displacement from the register 0: the disassembler, with
any options, reads the bytes of it, whatever follows them, as one instruction, without error. It has the name written in
the line. -/
theorem C29_i8096_partial {E : Env} {addr : Nat} {line : List Char} {bytes : List Nat} {rest : Scan}
    (h : assemble E addr line = .ok (.insn ⟨.OK, bytes, rest⟩)) (hend : addr + bytes.length ≤ 2 ^ 16)
    (hst : ¬ Spec.StoresImmediate (Spec.body bytes)) (hmis : ¬ Spec.Misaligned (Spec.body bytes))
    (o : Opts) (abs : Bool) (more : List Nat) :
    (disassemble o abs addr (bytes ++ more)).err = .OK ∧
    (disassemble o abs addr (bytes ++ more)).bytes = bytes ∧
    WrittenAs line (disassemble o abs addr (bytes ++ more)).name :=
  (line_back h hend hst hmis o abs more).2

/-- `C29_i8096_partial` has something to say of operands of several kinds. -/
example :
    assemble noEnv 0 "  divb 20, 5[10] ; comment".toList =
      .ok (.insn ⟨.OK, [0xFE, 0x9F, 10, 5, 20], "; comment".toList⟩) ∧
    assemble noEnv 0x1000 "jbs 30, 3, 1010H".toList = .ok (.insn ⟨.OK, [0x3B, 30, 0x0D], []⟩) ∧
    assemble noEnv 0 "add 10, 12, #1234H".toList = .ok (.insn ⟨.OK, [0x45, 0x34, 0x12, 12, 10], []⟩) ∧
    assemble noEnv 0 "st 10, 1234H".toList = .ok (.insn ⟨.OK, [0xC3, 1, 0x34, 0x12, 10], []⟩) := by
  decide +kernel

example : ¬ Spec.StoresImmediate (Spec.body [0xFE, 0x9F, 10, 5, 20]) ∧ ¬ Spec.Misaligned (Spec.body [0xFE, 0x9F, 10, 5, 20]) := by
  simp [Spec.body, Spec.StoresImmediate, Spec.Misaligned, Spec.Word]

example : ¬ Spec.StoresImmediate (Spec.body [0xC3, 1, 0x34, 0x12, 10]) ∧ ¬ Spec.Misaligned (Spec.body [0xC3, 1, 0x34, 0x12, 10]) := by
  simp [Spec.body, Spec.StoresImmediate, Spec.Misaligned]

/-- A store of a byte to an immediate operand is assembled, and not disassembled. -/
theorem C29_violated_i8096_store :
    assemble noEnv 0 "STB 1, #5".toList = .ok (.insn ⟨.OK, [0xC5, 5, 1], []⟩) ∧
    (disassemble (.default '$') false 0 [0xC5, 5, 1]).err = .UNKNOWN_INSTRUCTION := by
  decide +kernel

/-- An index register of more than 8 bits is taken modulo 256; that it is then the register 0 and the address of the word
is odd is reported by the disassembler only. -/
theorem C29_violated_i8096_aligned :
    assemble noEnv 0 "LD 10, 201H[256]".toList = .ok (.insn ⟨.OK, [0xA3, 1, 1, 2, 10], []⟩) ∧
    (disassemble (.default '$') false 0 [0xA3, 1, 1, 2, 10]).err = .OPERAND_NOT_ALIGNED := by
  decide +kernel

/-- At the end of the address space a jump to 0 is assembled, and disassembled as a jump out of it. -/
theorem C29_violated_i8096_end :
    assemble noEnv 0xFFFF "SJMP 0".toList = .ok (.insn ⟨.OK, [0x27, 0xFF], []⟩) ∧
    (disassemble (.default '$') false 0xFFFF [0x27, 0xFF]).err = .OVERFLOW_RANGE ∧
    assemble noEnv 0xFFFF "LJMP 0".toList = .ok (.insn ⟨.OK, [0xE7, 0xFE, 0xFF], []⟩) ∧
    (disassemble (.default '$') false 0xFFFF [0xE7, 0xFE, 0xFF]).err = .OVERFLOW_RANGE := by
  decide +kernel

/-- The operands need not be those of the line: a number of bits to shift by that is not below 16 is a register, and a
register below 16 that holds it is a number; of an immediate byte, and of the number of a register, the upper bits are lost
without error. -/
theorem operands_lost :
    assemble noEnv 0 "SHL 10, #20".toList = .ok (.insn ⟨.OK, [9, 20, 10], []⟩) ∧
    (disassemble (.default '$') false 0 [9, 20, 10]).operands = "10, 20".toList ∧
    assemble noEnv 0 "SHL 10, 5".toList = .ok (.insn ⟨.OK, [9, 5, 10], []⟩) ∧
    (disassemble (.default '$') false 0 [9, 5, 10]).operands = "10, #5".toList ∧
    assemble noEnv 0 "LDB 1, #300".toList = .ok (.insn ⟨.OK, [0xB1, 44, 1], []⟩) ∧
    assemble noEnv 0 "LD 10, [300]".toList = .ok (.insn ⟨.OK, [0xA2, 44, 10], []⟩) := by
  decide +kernel

end Libasm.Cpu.I8096
