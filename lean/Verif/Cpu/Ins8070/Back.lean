import Verif.Cpu.Back
import Verif.Cpu.Ins8060.Back
import Verif.Cpu.Ins8070.Props
/-
C29 for the ins8070: whatever line the assembler takes, the disassembler reads the bytes of it as one
instruction of the same name, or of a name with the same code.
-/
namespace Libasm.Cpu.Ins8070
open Scan Number Eval
open Tables (Row)

/-! ### Names for the same code -/

/-- Names for the same code; of these the disassembler prints the second. -/
def synonyms : List (String × List String) := [("LD", ["JMP"])]

/-- The line has the name of the instruction or another one for the same code. -/
def WrittenLike (line name : List Char) : Prop :=
  WrittenAs line name ∨
  ∃ s ∈ synonyms, ∃ b ∈ s.2, WrittenAs line s.1.toList ∧ Table.Spec.Same b.toList name

def alike (a b : List Char) : Bool :=
  a == b || synonyms.any fun s => s.1.toList == a && (s.2.map String.toList).contains b

theorem written_alike {line a b c : List Char} (h : WrittenAs line a) (hab : alike a b = true)
    (hbc : Table.Spec.Same b c) : WrittenLike line c := by
  unfold alike at hab
  simp only [Bool.or_eq_true, beq_iff_eq, List.any_eq_true, Bool.and_eq_true, List.contains_iff_mem] at hab
  rcases hab with rfl | ⟨g, hg, h1, h2⟩
  · exact Or.inl (h.letters hbc)
  · obtain ⟨y, y1, y2⟩ := List.mem_map.1 h2
    exact Or.inr ⟨g, hg, y, y1, by rw [h1]; exact h, by rw [y2]; exact hbc⟩

/-! ### Operands -/

theorem hasError_ne {e : Err} (h : hasError e = true) : e ≠ .OK := by
  intro he
  rw [he] at h
  exact absurd h (by decide)

/-- What goes with the mode of an operand. -/
def opOk (op : Operand) : Bool :=
  match op.mode, op.reg, op.auto with
  | .P23, some .P2, _ | .P23, some .P3, _ | .SP, some .SP, _ | .PTR, some .PC, _ => true
  | .IDX, some .P2, false | .IDX, some .P3, false => true
  | .GEN, some .PC, false | .GEN, some .SP, false | .GEN, some .P2, true | .GEN, some .P3, true => true
  | .ADR, none, _ | .VEC, none, _ => true
  | .NONE, _, _ | .AR, _, _ | .ER, _, _ | .EA, _, _ | .TR, _, _ | .SR, _, _ | .IMM, _, _ => true
  | _, _, _ => false

theorem register_ok (r : Reg) : opOk { mode := registerMode r, reg := some r } = true := by
  cases r <;> rfl

theorem index_ok {r : Reg} {auto : Bool} {e : Err} {v : Value} (h1 : isPointerReg r = true)
    (h2 : (auto && (r == .PC || r == .SP)) = false) :
    opOk { err := e, reg := some r, auto := auto, val := v,
           mode := if auto || r == .SP || r == .PC then .GEN else .IDX } = true := by
  cases auto <;> cases r <;> first | rfl | (exfalso; revert h1; decide) | (exfalso; revert h2; decide)

/-- What is known of an operand that was read, or of the error. -/
def Parsed : Except (Err × Scan) (Operand × Scan) → Prop
  | .error (e, _) => e ≠ .OK
  | .ok (op, _) => opOk op = true

/-- What an operand is read as, and the errors. -/
theorem parsed {P : Plugins Value} {scan : Scan} {x : Except (Err × Scan) (Operand × Scan)}
    (h : parseOperand P scan = .ok x) : Parsed x := by
  have good : ∀ {y : Operand × Scan}, opOk y.1 = true →
      (Out.ok (Except.ok y) : Out (Except (Err × Scan) (Operand × Scan))) = .ok x →
      Parsed x := by
    intro y hy h
    injection h with h
    subst h
    exact hy
  have bad : ∀ {e' : Err} {p : Scan}, e' ≠ .OK →
      (Out.ok (Except.error (e', p)) : Out (Except (Err × Scan) (Operand × Scan))) = .ok x →
      Parsed x := by
    intro e' p hy h
    injection h with h
    subst h
    exact hy
  have number : ∀ {start p : Scan} {auto : Bool}, parseNumber P start auto p = .ok x →
      Parsed x := by
    intro start p auto h
    unfold parseNumber at h
    obtain ⟨⟨v, e', p⟩, h3, h4⟩ := bind_ok h
    dsimp only at h4
    split at h4
    · rename_i he
      exact bad (hasError_ne he) h4
    · split at h4
      · exact bad (by decide) h4
      · split at h4
        · unfold parseIndex at h4
          dsimp only at h4
          generalize (if auto = true then (true, skipSpaces _) else _ : Bool × Scan) = q at h4
          obtain ⟨auto', p'⟩ := q
          dsimp only at h4
          obtain ⟨y, h5, h6⟩ := bind_ok h4
          split at h6
          · exact bad (by decide) h6
          · split at h6
            · exact bad (by decide) h6
            · split at h6
              · exact bad (by decide) h6
              · rename_i h7 h8
                exact good (index_ok (by simpa using h7) (Bool.eq_false_iff.2 h8)) h6
        · refine good ?_ h4
          dsimp only
          split <;> rfl
  unfold parseOperand at h
  dsimp only at h
  split at h
  · exact good rfl h
  · split at h
    · obtain ⟨⟨v, e', p⟩, h3, h4⟩ := bind_ok h
      dsimp only at h4
      split at h4
      · rename_i he
        exact bad (hasError_ne he) h4
      · exact good rfl h4
    · obtain ⟨y, h3, h4⟩ := bind_ok h
      split at h4
      · exact good (register_ok _) h4
      · split at h4 <;> exact number h4

/-! ### Encoding -/

/-- The bytes of an operand: none, one, two, or the distance to a target, which is meant to be one further
when the program goes there. -/
inductive Shape | none | one | two | rel (f : Nat)
deriving DecidableEq

def immShape (row : Row) : Shape := if word row then .two else .one

/-- The codes that an operand read as `opm` may make of one, with the bytes that go with it. -/
def outcomes (row : Row) (opm m : Mode) (c : Nat) : List (Nat × Shape) :=
  match m with
  | .P23 => [((c ||| 2) % 256, .none), ((c ||| 3) % 256, .none)]
  | .PTR =>
    match opm with
    | .PTR => [((c ||| 0) % 256, .none)]
    | .SP => [((c ||| 1) % 256, .none)]
    | _ => [((c ||| 2) % 256, .none), ((c ||| 3) % 256, .none)]
  | .VEC => (List.range 16).map fun v => ((c ||| v) % 256, .none)
  | .IMM => [(c, immShape row)]
  | .ADR => [(c, .two)]
  | .IDX => [((c ||| 2) % 256, .one), ((c ||| 3) % 256, .one)]
  | .PCR => [(c, .rel (fetch row))]
  | .GEN =>
    match opm with
    | .IMM => [((c ||| 4) % 256, immShape row)]
    | .ADR | .VEC => [(c, .rel (fetch row)), ((c ||| 5) % 256, .one)]
    | .IDX => [((c ||| 2) % 256, .one), ((c ||| 3) % 256, .one)]
    | _ => [(c, .rel (fetch row)), ((c ||| 1) % 256, .one), (((c ||| 2) % 256 ||| 4) % 256, .one),
            (((c ||| 3) % 256 ||| 4) % 256, .one)]
  | _ => [(c, .none)]

/-- The bytes `x` of an operand. -/
def Fits (addr : Nat) : Shape → List Nat → Prop
  | .none, x => x = []
  | .one, x => ∃ v, v < 256 ∧ x = [v]
  | .two, x => ∃ v w, v < 256 ∧ w < 256 ∧ x = [v, w]
  | .rel f, x => ∃ v, v < 256 ∧ x = [v] ∧ (addr < 65536 →
      f ≤ ((addr + 1 + f : Nat) : Int) + int8 v ∧ ((addr + 1 + f : Nat) : Int) + int8 v < 65536 + f)

/-- An offset from a pointer. -/
theorem index_op {op : Operand} (h : opOk op = true) (hm : op.mode = .IDX ∨ op.mode = .GEN) (hp : op.reg ≠ some .PC) :
    op.mode = .GEN ∧ op.auto = false ∧ op.reg = some .SP ∨
    op.mode = .GEN ∧ op.auto = true ∧ (op.reg = some .P2 ∨ op.reg = some .P3) ∨
    op.mode = .IDX ∧ op.auto = false ∧ (op.reg = some .P2 ∨ op.reg = some .P3) := by
  obtain ⟨e, mode, reg, auto, val⟩ := op
  dsimp only at hm hp ⊢
  revert h hm hp
  cases mode <;> first | (intro _ h; exfalso; revert h; decide) | skip
  all_goals (rcases reg with _ | reg <;> (try cases reg) <;> cases auto <;> intro h _ hp <;> first | (exact absurd h Bool.false_ne_true) | (exact absurd rfl hp) | simp)

theorem setErr_any {a : Asm} {e : Err} (h : (a.setErrorIf e).err = .OK) :
    a.err = .OK ∧ e = .OK ∧ a.setErrorIf e = a := by
  obtain ⟨h1, h2⟩ := setErrorIf_ok h
  exact ⟨h1, h2, by rw [h2]; exact Asm.noError a⟩

theorem b8 (v : Nat) : v % 256 < 256 := Nat.mod_lt _ (by decide)

theorem immediate {addr : Nat} {row : Row} {op : Operand} {a : Asm} (he : (emitImmediate row op a).err = .OK) :
    a.err = .OK ∧ (emitImmediate row op a).opc = a.opc ∧
    ∃ x, (emitImmediate row op a).ops = a.ops ++ x ∧ Fits addr (immShape row) x := by
  unfold emitImmediate at he ⊢
  unfold immShape
  split at he
  · rename_i hw
    rw [if_pos hw, if_pos hw]
    exact ⟨he, rfl, _, rfl, _, _, b8 _, b8 _, rfl⟩
  · rename_i hw
    rw [if_neg hw, if_neg hw]
    have hc := Asm.check_ok (a := a) (by decide) he
    rw [hc.2.2]
    exact ⟨hc.1, rfl, _, rfl, _, b8 _, rfl⟩

theorem relative {addr : Nat} {row : Row} {op : Operand} {a a' : Asm}
    (h : emitRelative addr row op a = .ok a') (he : a'.err = .OK) (ho : op.err = .OK) :
    a.err = .OK ∧ a'.opc = a.opc ∧ ∃ x, a'.ops = a.ops ++ x ∧ Fits addr (.rel (fetch row)) x := by
  unfold emitRelative at h
  dsimp only at h
  rw [ho, if_neg (by simp)] at h
  obtain ⟨h0, h1, v, h2, h3, h4⟩ := Asm.rel8_back (by decide) (by decide) h he
  refine ⟨h0, h1, [v], h3, v, h2, rfl, ?_⟩
  intro h5
  have hW : Config.W = 4294967296 := rfl
  have hf : fetch row = 0 ∨ fetch row = 1 := by unfold fetch; split <;> simp
  rw [hW] at h4
  obtain ⟨h6, h7⟩ := h4 (by omega) (by omega) (by omega)
  omega

theorem emitted {addr : Nat} {row : Row} {m : Mode} {op : Operand} {a a' : Asm} (hop : opOk op = true)
    (hacc : acceptMode op.mode m = true)
    (h : encodeOperand addr row m op a = .ok a') (he : a'.err = .OK) :
    a.err = .OK ∧ ∃ s x, (a'.opc, s) ∈ outcomes row op.mode m a.opc ∧ a'.ops = a.ops ++ x ∧ Fits addr s x := by
  have key : ∀ {b : Asm}, b.err = .OK → a.setErrorIf op.err = b → a.err = .OK ∧ op.err = .OK ∧ b = a := by
    intro b h1 h2
    rw [← h2] at h1
    obtain ⟨g1, g2, g3⟩ := setErr_any h1
    exact ⟨g1, g2, h2.symm.trans g3⟩
  unfold encodeOperand at h
  generalize hb : a.setErrorIf op.err = b at h
  dsimp only at h
  have index : ∀ {k : Nat}, (({ b with opc := k } : Asm).check op.val.overflowInt8 .OVERFLOW_RANGE).emit8
      (op.val.getSigned % 256).toNat = a' → a.err = .OK ∧ b = a ∧ a'.opc = k ∧ ∃ x, a'.ops = a.ops ++ x ∧ Fits addr .one x := by
    intro k h
    subst h
    have hc := Asm.check_ok (a := { b with opc := k }) (by decide) he
    obtain ⟨g1, g2, g3⟩ := key (b := b) hc.1 hb
    rw [hc.2.2]
    exact ⟨g1, g3, rfl, _, by rw [← g3]; rfl, _, b8 _, rfl⟩
  have generic : emitGeneric addr row op b = .ok a' → (m = .GEN ∨ m = .IDX ∧ op.mode = .IDX) →
      a.err = .OK ∧ ∃ s x, (a'.opc, s) ∈ outcomes row op.mode .GEN a.opc ∧ a'.ops = a.ops ++ x ∧ Fits addr s x := by
    intro h hm
    have hmode : op.mode = .IMM ∨ op.mode = .ADR ∨ op.mode = .VEC ∨ op.mode = .IDX ∨ op.mode = .GEN := by
      rcases hm with rfl | ⟨_, hm⟩
      · revert hacc
        cases op.mode <;> simp [acceptMode]
      · simp [hm]
    unfold emitGeneric at h
    by_cases c1 : op.mode = .IMM
    · rw [if_pos c1] at h
      injection h with h
      subst h
      obtain ⟨g1, g2, x, g3, g4⟩ := immediate (addr := addr) he
      obtain ⟨k1, k2, k3⟩ := key (b := b) g1 hb
      subst k3
      exact ⟨k1, _, x, by rw [c1, g2]; exact List.mem_singleton.2 rfl, g3, g4⟩
    rw [if_neg c1] at h
    by_cases c2 : op.mode = .ADR ∨ op.mode = .VEC
    · have hreg : op.reg = none := by
        unfold opOk at hop
        rcases c2 with c2 | c2 <;> rw [c2] at hop <;> (split at hop <;> first | assumption | contradiction | cases hop)
      rw [if_pos ⟨c2, hreg⟩] at h
      have hout : outcomes row op.mode .GEN a.opc = [(a.opc, .rel (fetch row)), ((a.opc ||| 5) % 256, .one)] := by
        rcases c2 with c2 | c2 <;> rw [c2] <;> rfl
      rw [hout]
      dsimp only at h
      have direct : ∀ t : Nat, Out.ok ((b.embed 5).emit8 t) = .ok a' →
          a.err = .OK ∧ ∃ s x, (a'.opc, s) ∈ [(a.opc, Shape.rel (fetch row)), ((a.opc ||| 5) % 256, .one)] ∧
            a'.ops = a.ops ++ x ∧ Fits addr s x := by
        intro t h
        injection h with h
        subst h
        obtain ⟨k1, k2, k3⟩ := key (b := b) he hb
        subst k3
        exact ⟨k1, .one, _, List.mem_cons_of_mem _ (List.mem_singleton.2 rfl), rfl, _, b8 _, rfl⟩
      by_cases ho : op.err = .OK
      · rw [if_neg (not_not_intro ho)] at h
        split at h
        · obtain ⟨g1, g2, x, g3, g4⟩ := relative h he ho
          obtain ⟨k1, k2, k3⟩ := key (b := b) g1 hb
          subst k3
          exact ⟨k1, _, x, by rw [g2]; exact List.mem_cons_self .., g3, g4⟩
        · exact direct _ h
      · rw [if_pos ho, if_neg (Nat.lt_irrefl _)] at h
        exact direct _ h
    rw [if_neg (fun hc => c2 hc.1)] at h
    have c3 : op.mode = .IDX ∨ op.mode = .GEN := by
      rcases hmode with h | h | h | h | h
      · exact absurd h c1
      · exact absurd (Or.inl h) c2
      · exact absurd (Or.inr h) c2
      · exact Or.inl h
      · exact Or.inr h
    by_cases c4 : op.reg = some .PC
    · have c5 : op.mode = .GEN := by
        rcases c3 with c3 | c3
        · unfold opOk at hop
          rw [c3, c4] at hop
          cases hop
        · exact c3
      rw [if_pos c4] at h
      have hb' : b.err = .OK := by
        unfold emitRelative at h
        exact (Asm.rel8_back (by decide) (by decide) h he).1
      obtain ⟨k1, k2, k3⟩ := key (b := b) hb' hb
      subst k3
      obtain ⟨g1, g2, x, g3, g4⟩ := relative h he k2
      exact ⟨k1, _, x, by rw [g2, c5]; exact List.mem_cons_self .., g3, g4⟩
    rw [if_neg c4] at h
    injection h with h
    have at_ : ∀ {k : Nat}, (({ b with opc := k } : Asm).check op.val.overflowInt8 .OVERFLOW_RANGE).emit8
        (op.val.getSigned % 256).toNat = a' → (b = a → (k, Shape.one) ∈ outcomes row op.mode .GEN a.opc) →
        a.err = .OK ∧ ∃ s x, (a'.opc, s) ∈ outcomes row op.mode .GEN a.opc ∧ a'.ops = a.ops ++ x ∧ Fits addr s x := by
      intro k h hk
      obtain ⟨g1, g2, g3, x, g4, g5⟩ := index h
      exact ⟨g1, .one, x, by rw [g3]; exact hk g2, g4, g5⟩
    have c5 := index_op hop c3 c4
    rcases c5 with ⟨c5, c6, c7⟩ | ⟨c5, c6, c7 | c7⟩ | ⟨c5, c6, c7 | c7⟩ <;> rw [c6, c7] at h <;>
      refine at_ h ?_ <;> rintro rfl <;> rw [c5]
    · exact List.mem_cons_of_mem _ (List.mem_cons_self ..)
    · exact List.mem_cons_of_mem _ (List.mem_cons_of_mem _ (List.mem_cons_self ..))
    · exact List.mem_cons_of_mem _ (List.mem_cons_of_mem _ (List.mem_cons_of_mem _ (List.mem_cons_self ..)))
    · exact List.mem_cons_self ..
    · exact List.mem_cons_of_mem _ (List.mem_cons_self ..)
  have keep : Out.ok b = Out.ok a' → a.err = .OK ∧ a' = a := by
    intro h
    injection h with h
    subst h
    obtain ⟨k1, k2, k3⟩ := key he hb
    exact ⟨k1, k3⟩
  have plain : Out.ok b = Out.ok a' → outcomes row op.mode m a.opc = [(a.opc, .none)] →
      a.err = .OK ∧ ∃ s x, (a'.opc, s) ∈ outcomes row op.mode m a.opc ∧ a'.ops = a.ops ++ x ∧ Fits addr s x := by
    intro h ho
    obtain ⟨k1, k2⟩ := keep h
    exact ⟨k1, .none, [], by rw [ho, k2]; exact List.mem_singleton.2 rfl, by rw [k2, List.append_nil], rfl⟩
  have embedded : ∀ {v : Nat}, Out.ok (b.embed v) = Out.ok a' →
      ((a.opc ||| v) % 256, Shape.none) ∈ outcomes row op.mode m a.opc →
      a.err = .OK ∧ ∃ s x, (a'.opc, s) ∈ outcomes row op.mode m a.opc ∧ a'.ops = a.ops ++ x ∧ Fits addr s x := by
    intro v h ho
    injection h with h
    subst h
    obtain ⟨k1, k2, k3⟩ := key (b := b) he hb
    subst k3
    exact ⟨k1, .none, [], ho, by rw [List.append_nil]; rfl, rfl⟩
  have pointer : (op.mode = .P23 → op.reg = some .P2 ∨ op.reg = some .P3) ∧ (op.mode = .SP → op.reg = some .SP) ∧
      (op.mode = .PTR → op.reg = some .PC) := by
    obtain ⟨e, mode, reg, auto, val⟩ := op
    dsimp only
    refine ⟨?_, ?_, ?_⟩ <;> intro hm <;> subst hm <;>
      (rcases reg with _ | reg <;> (try cases reg) <;> first | (exact absurd hop Bool.false_ne_true) | simp)
  cases m with
  | P23 =>
    have hm : op.mode = .P23 := by
      revert hacc
      cases op.mode <;> simp [acceptMode]
    refine embedded h ?_
    rcases pointer.1 hm with hr | hr <;> rw [hr]
    · exact List.mem_cons_self ..
    · exact List.mem_cons_of_mem _ (List.mem_cons_self ..)
  | PTR =>
    have hm : op.mode = .P23 ∨ op.mode = .SP ∨ op.mode = .PTR := by
      revert hacc
      cases op.mode <;> simp [acceptMode]
    refine embedded h ?_
    rcases hm with hm | hm | hm <;> rw [hm]
    · rcases pointer.1 hm with hr | hr <;> rw [hr]
      · exact List.mem_cons_self ..
      · exact List.mem_cons_of_mem _ (List.mem_cons_self ..)
    · rw [pointer.2.1 hm]
      exact List.mem_cons_self ..
    · rw [pointer.2.2 hm]
      exact List.mem_cons_self ..
  | VEC =>
    exact embedded h (List.mem_map.2 ⟨_, List.mem_range.2 (Nat.mod_lt _ (by decide)), rfl⟩)
  | IMM =>
    injection h with h
    subst h
    obtain ⟨g1, g2, x, g3, g4⟩ := immediate (addr := addr) he
    obtain ⟨k1, k2, k3⟩ := key g1 hb
    subst k3
    exact ⟨k1, _, x, by rw [g2]; exact List.mem_singleton.2 rfl, g3, g4⟩
  | ADR =>
    injection h with h
    subst h
    obtain ⟨k1, k2, k3⟩ := key (b := b) he hb
    subst k3
    exact ⟨k1, .two, _, List.mem_singleton.2 rfl, rfl, _, _, b8 _, b8 _, rfl⟩
  | PCR =>
    have hb' : b.err = .OK := by
      unfold emitRelative at h
      exact (Asm.rel8_back (by decide) (by decide) h he).1
    obtain ⟨k1, k2, k3⟩ := key (b := b) hb' hb
    subst k3
    obtain ⟨g1, g2, x, g3, g4⟩ := relative h he k2
    exact ⟨k1, _, x, by rw [g2]; exact List.mem_singleton.2 rfl, g3, g4⟩
  | GEN => exact generic h (Or.inl rfl)
  | IDX =>
    have hm : op.mode = .IDX := by
      revert hacc
      cases op.mode <;> simp [acceptMode]
    have := generic h (Or.inr ⟨rfl, hm⟩)
    rw [hm] at this ⊢
    exact this
  | _ => exact plain h rfl

/-! ### Decoding -/

/-- The bytes of an operand of an entry, `c` is the code. -/
def shape (row : Row) (c : Nat) (m : Mode) : Shape :=
  match m with
  | .IMM => immShape row
  | .ADR => .two
  | .IDX => .one
  | .PCR => .rel (fetch row)
  | .GEN =>
    match c % 8 with
    | 0 => .rel (fetch row)
    | 4 => immShape row
    | _ => .one
  | _ => .none

theorem decoded {addr c : Nat} (o : Opts) (sharp : Bool) (row : Row) (m : Mode) (x rest bytes : List Nat)
    (ha : addr < 65536)
    (hbr : ∀ v, x = [v] → shape row c m = .rel 1 → (addr : Int) + 2 + int8 v ≠ 65536)
    (h : Fits addr (shape row c m) x) :
    (decodeOperand o sharp addr c row m ⟨x ++ rest, bytes, .OK⟩).2 = ⟨rest, bytes ++ x, .OK⟩ := by
  have none : x = [] → (⟨x ++ rest, bytes, .OK⟩ : Rd) = ⟨rest, bytes ++ x, .OK⟩ := by
    intro h
    rw [h, List.nil_append, List.append_nil]
  have one : (∃ v, v < 256 ∧ x = [v]) → (⟨x ++ rest, bytes, .OK⟩ : Rd).byte.2 = ⟨rest, bytes ++ x, .OK⟩ := by
    rintro ⟨v, h1, rfl⟩
    rw [List.singleton_append, byte_some h1]
  have two : (∃ v w, v < 256 ∧ w < 256 ∧ x = [v, w]) →
      (⟨x ++ rest, bytes, .OK⟩ : Rd).le16.2 = ⟨rest, bytes ++ x, .OK⟩ := by
    rintro ⟨v, w, h1, h2, rfl⟩
    unfold Rd.le16
    rw [List.cons_append, List.singleton_append, byte_some h1]
    dsimp only
    rw [byte_some h2, List.append_assoc]
    rfl
  have imm : Fits addr (immShape row) x → (decodeImmediate o sharp row ⟨x ++ rest, bytes, .OK⟩).2 = ⟨rest, bytes ++ x, .OK⟩ := by
    intro h
    unfold decodeImmediate
    unfold immShape at h
    cases hw : word row <;> rw [hw] at h
    · exact one h
    · exact two h
  have tgt : shape row c m = .rel (fetch row) →
      (decodeTarget o addr row ⟨x ++ rest, bytes, .OK⟩).2 = ⟨rest, bytes ++ x, .OK⟩ := by
    intro hs
    rw [hs] at h hbr
    obtain ⟨v, h1, rfl, h3⟩ := h
    obtain ⟨h4, h5⟩ := h3 ha
    have hf : fetch row = 0 ∨ fetch row = 1 := by unfold fetch; split <;> simp
    unfold decodeTarget
    rw [List.singleton_append, byte_some h1]
    dsimp only
    have hlt : ((((addr + 1 + fetch row : Nat) : Int) + int8 v) % Config.W).toNat < 65536 := by
      unfold Config.W
      rcases hf with hf | hf
      · omega
      · have := hbr v rfl (by rw [hf])
        omega
    rw [Config.checkAddr_eq false (by decide) (by unfold Config.W; omega), if_neg (by omega)]
    rfl
  unfold decodeOperand
  cases m with
  | IMM => exact imm h
  | ADR => exact two h
  | IDX => exact one h
  | PCR => exact tgt rfl
  | GEN =>
    dsimp only
    unfold shape at h tgt
    unfold decodeGeneric
    have h8 : c % 8 = 0 ∨ c % 8 = 1 ∨ c % 8 = 2 ∨ c % 8 = 3 ∨ c % 8 = 4 ∨ c % 8 = 5 ∨ c % 8 = 6 ∨ c % 8 = 7 := by omega
    rcases h8 with h8 | h8 | h8 | h8 | h8 | h8 | h8 | h8 <;> rw [h8] at h tgt ⊢
    · exact tgt rfl
    · exact one h
    · exact one h
    · exact one h
    · exact imm h
    · exact one h
    · exact one h
    · exact one h
  | _ => exact none h

/-! ### The instruction table -/

/-- The code `c` of a row is read as that row, or as one of another name with the same bytes. -/
def readsB (r : Row) (c : Nat) (s : Shape) : Bool :=
  decide (c < 256) && (s != .rel 1 || branches.contains c) && (!branches.contains c || s == .rel 1) &&
  match searchOpCode c with
  | none => false
  | some r' => alike r.name r'.name &&
    match modes r' with
    | [] => s == .none
    | [m] => shape r' c m == s
    | [m1, m2] => isReg m1 && shape r' c m2 == s
    | _ => false

/-- The modes of operands. -/
def allModes : List Mode :=
  [.NONE, .AR, .ER, .EA, .TR, .SR, .P23, .SP, .PTR, .IMM, .ADR, .VEC, .IDX, .PCR, .GEN, .UNDEF]

theorem all_modes (m : Mode) : m ∈ allModes := by cases m <;> decide

/-- What two operands may make of a row. -/
def reach (r : Row) (x y m1 m2 : Mode) : List (Nat × Shape × Shape) :=
  (outcomes r x m1 r.opcode).flatMap fun p => (outcomes r y m2 p.1).map fun q => (q.1, p.2, q.2)

/-- What a row can be encoded to is read as that row. -/
def rowB (r : Row) : Bool :=
  decide ('\x00' ∉ r.name) && decide (r.name.length < 11) && decide ('=' ∉ r.name) &&
  match pad 2 .NONE (modes r) with
  | [m1, m2] =>
    allModes.all fun x => !acceptMode x m1 || allModes.all fun y => !acceptMode y m2 ||
      !rowIs (searchName r.name [x, y]) r ||
      (reach r x y m1 m2).all fun p => (p.2.1 == .none || p.2.2 == .none) &&
        readsB r p.1 (if p.2.1 = .none then p.2.2 else p.2.1)
  | _ => false

theorem rows_ok : (pages.all fun p => p.entries.all rowB) = true := by decide +kernel

/-- From the operands to the bytes of an entry, and back. -/
theorem insn_back {addr : Nat} {word : List Char} {row : Row} {op1 op2 : Operand} {a : Asm} (hB : rowB row = true)
    (h1 : opOk op1 = true) (h2 : opOk op2 = true) (hw : '\x00' ∉ word) (hcmp : Table.strcasecmp word row.name = 0)
    (hacc : acceptModes [op1.mode, op2.mode] row = true) (hs : searchName word [op1.mode, op2.mode] = .ok (.ok row))
    (h : emitList (encodeOperand addr row) ((pad 2 .NONE (modes row)).zip [op1, op2]) ⟨.OK, row.opcode, []⟩ = .ok a)
    (he : a.err = .OK) (ha : addr < 65536)
    (hbr : ∀ b d, a.bytes = [b, d] → b ∈ branches → (addr : Int) + 2 + int8 d ≠ 65536)
    (o : Opts) (sharp : Bool) (more : List Nat) :
    ∃ c row', c < 256 ∧ searchOpCode c = some row' ∧ alike row.name row'.name = true ∧ a.bytes = c :: a.ops ∧
      (decodeList (decodeOperand o sharp addr c row') (modes row') ⟨a.ops ++ more, [c], .OK⟩).2 = ⟨more, c :: a.ops, .OK⟩ ∧
      (∀ d, a.ops = [d] → c ∈ branches → (addr : Int) + 2 + int8 d ≠ 0) := by
  unfold rowB at hB
  simp only [Bool.and_eq_true, decide_eq_true_eq] at hB
  obtain ⟨⟨⟨b1, b2⟩, b3⟩, b4⟩ := hB
  obtain ⟨m1, m2, hm⟩ : ∃ m1 m2, pad 2 .NONE (modes row) = [m1, m2] := by
    match modes row with
    | [] => exact ⟨_, _, rfl⟩
    | [m] => exact ⟨_, _, rfl⟩
    | m :: n :: _ => exact ⟨_, _, rfl⟩
  rw [hm] at b4 h
  unfold acceptModes at hacc
  rw [hm] at hacc
  simp only [List.zip_cons_cons, List.zip_nil_left, List.all_cons, List.all_nil, Bool.and_true, Bool.and_eq_true] at hacc
  simp only [List.all_eq_true, Bool.or_eq_true, Bool.not_eq_true', Bool.and_eq_true, beq_iff_eq] at b4
  have hs' : searchName row.name [op1.mode, op2.mode] = .ok (.ok row) := by
    rw [← hs]
    unfold searchName
    have : (fun r : Row => Table.strcasecmp row.name r.name) = fun r : Row => Table.strcasecmp word r.name :=
      funext fun r => (strcasecmp_same hw b1 hcmp r.name).symm
    rw [this]
  have hr : rowIs (searchName row.name [op1.mode, op2.mode]) row = true := by
    rw [hs']
    exact decide_eq_true rfl
  have b5 : ∀ p ∈ reach row op1.mode op2.mode m1 m2, (p.2.1 = .none ∨ p.2.2 = .none) ∧
      readsB row p.1 (if p.2.1 = .none then p.2.2 else p.2.1) = true := by
    rcases b4 _ (all_modes op1.mode) with h | h
    · rw [hacc.1] at h; cases h
    · rcases h _ (all_modes op2.mode) with (h | h) | h
      · rw [hacc.2] at h; cases h
      · rw [hr] at h; cases h
      · exact h
  have h : (encodeOperand addr row m1 op1 ⟨.OK, row.opcode, []⟩).bind (fun a =>
      (encodeOperand addr row m2 op2 a).bind fun a => .ok a) = .ok a := h
  obtain ⟨a1, g1, g2⟩ := bind_ok h
  obtain ⟨a2, g3, g4⟩ := bind_ok g2
  injection g4 with g4
  subst g4
  obtain ⟨e1, s2, x2, k1, k2, k3⟩ := emitted h2 hacc.2 g3 he
  obtain ⟨_, s1, x1, l1, l2, l3⟩ := emitted h1 hacc.1 g1 e1
  have f := b5 (a2.opc, s1, s2) (List.mem_flatMap.2 ⟨_, l1, List.mem_map.2 ⟨_, k1, rfl⟩⟩)
  dsimp only at f
  obtain ⟨f0, f⟩ := f
  -- one of the operands has no bytes
  obtain ⟨s, hs0, x, hx, hfit⟩ : ∃ s, (if s1 = Shape.none then s2 else s1) = s ∧ ∃ x, a2.ops = x ∧ Fits addr s x := by
    refine ⟨_, rfl, _, rfl, ?_⟩
    rw [k2, l2]
    by_cases h : s1 = .none
    · rw [if_pos h]
      subst h
      have : x1 = [] := l3
      rw [this]
      exact k3
    · rw [if_neg h]
      have h' : s2 = .none := f0.resolve_left h
      subst h'
      have : x2 = [] := k3
      rw [this, List.append_nil]
      exact l3
  rw [hs0] at f
  unfold readsB at f
  simp only [Bool.and_eq_true, decide_eq_true_eq, Bool.or_eq_true, bne_iff_ne, ne_eq, Bool.not_eq_true', beq_iff_eq] at f
  obtain ⟨⟨⟨f1, f2⟩, f6⟩, f3⟩ := f
  split at f3
  · cases f3
  · rename_i row' hrow'
    simp only [Bool.and_eq_true] at f3
    obtain ⟨f4, f5⟩ := f3
    have hbytes : a2.bytes = a2.opc :: a2.ops := by
      unfold Asm.bytes
      rw [Nat.mod_eq_of_lt f1]
    refine ⟨a2.opc, row', f1, hrow', f4, hbytes, ?_, ?_⟩
    rotate_left
    · intro d hd hbn
      rcases f6 with f6 | f6
      · rw [List.contains_iff_mem.2 hbn] at f6
        cases f6
      · rw [f6] at hfit
        obtain ⟨v, _, hv, h3⟩ := hfit
        obtain ⟨h4, _⟩ := h3 ha
        rw [hx, hv] at hd
        injection hd with hd
        subst hd
        omega
    rw [hx]
    rw [hbytes, hx] at hbr
    have dec : ∀ m, shape row' a2.opc m = s →
        (decodeOperand o sharp addr a2.opc row' m ⟨x ++ more, [a2.opc], .OK⟩).2 = ⟨more, a2.opc :: x, .OK⟩ := by
      intro m hm
      refine decoded o sharp row' m x more [a2.opc] ha ?_ (by rw [hm]; exact hfit)
      intro v hv hr
      rw [hm] at hr
      refine hbr _ v (by rw [hv]) ?_
      rcases f2 with f2 | f2
      · exact absurd hr f2
      · exact List.contains_iff_mem.1 f2
    split at f5
    · rename_i h0
      rw [h0]
      rw [beq_iff_eq] at f5
      rw [f5] at hfit
      have : x = [] := hfit
      rw [this]
      rfl
    · rename_i m h0
      rw [h0]
      exact dec m (beq_iff_eq.1 f5)
    · rename_i n1 n2 h0
      rw [h0]
      simp only [Bool.and_eq_true, beq_iff_eq] at f5
      have hr1 : ∀ r, (decodeOperand o sharp addr a2.opc row' n1 r).2 = r := by
        intro r
        have := f5.1
        cases n1 <;> first | rfl | cases this
      show (decodeOperand o sharp addr a2.opc row' n2 (decodeOperand o sharp addr a2.opc row' n1 _).2).2 = _
      rw [hr1]
      exact dec n2 f5.2
    · cases f5

/-- A branch has two bytes. -/
theorem branch_length (o : Opts) (sharp : Bool) (addr : Nat) {b d : Nat} {rest : List Nat} (hb : b ∈ branches)
    (h : (disassemble o sharp addr (b :: d :: rest)).err = .OK)
    (h1 : (disassemble o sharp addr (b :: d :: rest)).bytes = b :: d :: rest) : rest = [] := by
  have hrow : ∀ b ∈ branches, ∃ row, searchOpCode b = some row ∧ modes row = [.PCR] ∧ b < 256 := by
    have : (branches.all fun b => (match searchOpCode b with | some row => modes row == [.PCR] | none => false) &&
        decide (b < 256)) = true := by decide +kernel
    intro b hb
    have := List.all_eq_true.1 this b hb
    simp only [Bool.and_eq_true, decide_eq_true_eq] at this
    cases hs : searchOpCode b with
    | none => rw [hs] at this; exact absurd this.1 (by decide)
    | some row =>
      rw [hs] at this
      exact ⟨row, rfl, by simpa using this.1, this.2⟩
  obtain ⟨row, h2, h3, h4⟩ := hrow b hb
  unfold disassemble decode at h h1
  split at h
  · rename_i hc
    exact absurd h hc
  · rename_i hc
    rw [if_neg hc] at h1
    unfold decodeImpl at h1
    rw [byte_some h4] at h1
    dsimp only at h1
    rw [h2] at h1
    dsimp only at h1
    rw [h3] at h1
    have h1 : ((⟨d :: rest, [b], .OK⟩ : Rd).byte.2).bytes = b :: d :: rest := h1
    have h5 := congrArg List.length h1
    unfold Rd.byte at h5
    simp at h5
    exact h5

theorem pad_two : ∀ {ops : List Operand}, (∀ op ∈ ops, opOk op = true) → ops.length ≤ 2 →
    ∃ op1 op2, pad 2 {} ops = [op1, op2] ∧ opOk op1 = true ∧ opOk op2 = true
  | [], _, _ => ⟨_, _, rfl, rfl, rfl⟩
  | [op], h, _ => ⟨_, _, rfl, h op (List.mem_cons_self ..), rfl⟩
  | [op, op'], h, _ => ⟨_, _, rfl, h op (List.mem_cons_self ..), h op' (List.mem_cons_of_mem _ (List.mem_cons_self ..))⟩
  | _ :: _ :: _ :: _, _, hl => by simp at hl

/-- The bytes of a line come back; and no line is assembled to a branch to the address 0. -/
theorem line_back {E : Env} {addr : Nat} {line : List Char} {bytes : List Nat} {rest : Scan}
    (h : assemble E addr line = .ok (.insn ⟨.OK, bytes, rest⟩))
    (ha : addr < 2 ^ 16)
    (hbr : ∀ b d, bytes = [b, d] → b ∈ branches →
      (addr : Int) + 2 + (if d < 128 then (d : Int) else d - 256) ≠ 2 ^ 16)
    (o : Opts) (sharp : Bool) (more : List Nat) :
    ((disassemble o sharp addr (bytes ++ more)).err = .OK ∧
      (disassemble o sharp addr (bytes ++ more)).bytes = bytes ∧
      WrittenLike line (disassemble o sharp addr (bytes ++ more)).name) ∧
    ∀ b d, bytes = [b, d] → b ∈ branches →
      (addr : Int) + 2 + (if d < 128 then (d : Int) else d - 256) ≠ 0 := by
  obtain ⟨word, scan, hi, haddr, hw, blanks, tail, hline, hblank⟩ :=
    encode_line_inv (by decide) rfl h
  unfold encodeImpl at hi
  obtain ⟨x, d1, d2⟩ := bind_ok hi
  cases x with
  | error e =>
    obtain ⟨e, p⟩ := e
    injection d2 with d2
    injection d2 with d2
    exact absurd d2 (operands_err (fun s e p h => show Parsed (.error (e, p)) from parsed h) _ _ _ _ d1)
  | ok x =>
    obtain ⟨ops, s⟩ := x
    dsimp only at d2
    obtain ⟨hops, hlen⟩ := operands_all (Q := fun op => opOk op = true) 
      (fun s op p h => show Parsed (.ok (op, p)) from parsed h) _ _ _ _ d1
    obtain ⟨op1, op2, hpad, ho1, ho2⟩ := pad_two hops hlen
    rw [hpad] at d2
    obtain ⟨x, f1, f2⟩ := bind_ok d2
    have f1 : searchName (word.take 11) [op1.mode, op2.mode] = .ok x := f1
    cases x with
    | error e =>
      injection f2 with f2
      injection f2 with f2 f3 f4
      subst f2
      unfold searchName at f1
      split at f1
      · injection f1 with f1
        split at f1
        · injection f1 with f1
          cases f1
        · cases f1
      · rename_i e hs
        injection f1 with f1
        injection f1 with f1
        exact absurd f1 (searchName_err hs)
      · cases f1
    | ok row =>
      dsimp only at f2
      obtain ⟨a, g1, g2⟩ := bind_ok f2
      injection g2 with g2
      injection g2 with g2 g3 g4
      have hf := f1
      unfold searchName at f1
      split at f1
      · rename_i pre row0 hs
        injection f1 with f1
        split at f1
        · cases f1
        · injection f1 with f1
          subst f1
          obtain ⟨p, hp, rfl, hrow, hcmp, hacc⟩ := searchName_mem hs
          have hB : rowB row0 = true := List.all_eq_true.1 (List.all_eq_true.1 rows_ok p hp) row0 hrow
          subst g3
          obtain ⟨c, row', k1, k2, k0, k3, k4, k5⟩ := insn_back hB ho1 ho2 (fun h => hw (List.mem_of_mem_take h)) hcmp hacc hf
            g1 g2 ha (by
              intro b d h1 h2
              rw [show int8 d = if d < 128 then (d : Int) else d - 256 from rfl]
              exact hbr b d h1 h2) o sharp more
          have hdis : disassemble o sharp addr (a.bytes ++ more) = decodeImpl o sharp addr (a.bytes ++ more) := by
            unfold disassemble decode
            rw [haddr]
            rfl
          refine ⟨?_, ?_⟩
          rotate_left
          · intro b d h1 h2
            rw [k3] at h1
            injection h1 with h1 h3
            subst h1
            exact k5 d h3 h2
          rw [hdis, k3]
          unfold decodeImpl
          rw [List.cons_append, byte_some k1]
          dsimp only [List.nil_append]
          rw [k2]
          dsimp only
          rw [k4]
          unfold rowB at hB
          simp only [Bool.and_eq_true, decide_eq_true_eq] at hB
          obtain ⟨⟨⟨b1, b2⟩, b3⟩, _⟩ := hB
          have hname : WrittenAs line row0.name := written Ins8060.alnum Ins8060.terminator hw b1 b2 hcmp b3 hline hblank
          exact ⟨rfl, rfl, written_alike hname k0 (outText_same o _)⟩
      · cases f1
      · cases f1

/-- Whatever line is assembled without error, at any address and with any symbols, and is not a branch to just
behind the end of the memory: the disassembler, with any options, reads the bytes of it, whatever
follows them, as one instruction, without error. It has the name written in the line, or another name for the same
code.
What is missing of C29: that the operands are those of the line, and the exception `C29_violated_end`. -/
theorem C29_ins8070_partial {E : Env} {addr : Nat} {line : List Char} {bytes : List Nat} {rest : Scan}
    (h : assemble E addr line = .ok (.insn ⟨.OK, bytes, rest⟩))
    (ha : addr < 2 ^ 16)
    (hbr : ∀ b d, bytes = [b, d] → b ∈ branches →
      (addr : Int) + 2 + (if d < 128 then (d : Int) else d - 256) ≠ 2 ^ 16)
    (o : Opts) (sharp : Bool) (more : List Nat) :
    (disassemble o sharp addr (bytes ++ more)).err = .OK ∧
    (disassemble o sharp addr (bytes ++ more)).bytes = bytes ∧
    WrittenLike line (disassemble o sharp addr (bytes ++ more)).name :=
  (line_back h ha hbr o sharp more).1

/-- `C29_ins8070_partial` has something to say of operands of all kinds. -/
example :
    assemble noEnv 0x1000 "  ld a, @-2,p3 ; comment".toList = .ok (.insn ⟨.OK, [0xc7, 0xfe], "; comment".toList⟩) ∧
    assemble noEnv 0x1000 "ld ea, 0x1012,pc".toList = .ok (.insn ⟨.OK, [0x80, 0x11], []⟩) ∧
    assemble noEnv 0x1000 "add a, X'FF80".toList = .ok (.insn ⟨.OK, [0xf5, 0x80], []⟩) ∧
    assemble noEnv 0x1000 "add a, $".toList = .ok (.insn ⟨.OK, [0xf0, 0xff], []⟩) ∧
    assemble noEnv 0x1000 "call 12".toList = .ok (.insn ⟨.OK, [0x1c], []⟩) ∧
    assemble noEnv 0x1000 "jmp X'1234".toList = .ok (.insn ⟨.OK, [0x24, 0x33, 0x12], []⟩) ∧
    assemble noEnv 0x1000 "bra $".toList = .ok (.insn ⟨.OK, [0x74, 0xfe], []⟩) ∧
    assemble noEnv 0x1000 "bz 3,p2".toList = .ok (.insn ⟨.OK, [0x6e, 0x03], []⟩) ∧
    assemble noEnv 0x1000 "st a, =5".toList = .ok (.insn ⟨.OPERAND_NOT_ALLOWED, [], []⟩) := by
  decide +kernel

/-- The name need not be that of the line. -/
theorem another_name :
    assemble noEnv 0x1000 "LD PC, =X'1234".toList = .ok (.insn ⟨.OK, [0x24, 0x34, 0x12], []⟩) ∧
    (disassemble (.default '$') false 0x1000 [0x24, 0x34, 0x12]).name = "JMP".toList := by
  decide +kernel

/-- The operands need not be those of the line: an address beyond the memory is taken without error for one of the
last page, and of immediate data the upper bits are lost. -/
theorem address_truncated :
    assemble noEnv 0 "LD A, X'12345".toList = .ok (.insn ⟨.OK, [0xc5, 0x45], []⟩) ∧
    (disassemble (.default '$') false 0 [0xc5, 0x45]).operands = "A, X'FF45".toList ∧
    assemble noEnv 0 "LD EA, =X'12345".toList = .ok (.insn ⟨.OK, [0x84, 0x45, 0x23], []⟩) ∧
    (disassemble (.default '$') false 0 [0x84, 0x45, 0x23]).operands = "EA, =X'2345".toList := by
  decide +kernel

/-- The exception: a branch to just behind the end of the memory is accepted, and no address for the
disassembler. -/
theorem C29_violated_end :
    assemble noEnv 0xfff0 "BRA X'10000".toList = .ok (.insn ⟨.OK, [0x74, 0x0e], []⟩) ∧
    (disassemble (.default '$') false 0xfff0 [0x74, 0x0e]).err = .OVERFLOW_RANGE := by
  decide +kernel

end Libasm.Cpu.Ins8070
