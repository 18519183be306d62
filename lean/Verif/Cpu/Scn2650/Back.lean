import Verif.Cpu.Back
import Verif.Cpu.Scn2650.Props
/-
C29 for the scn2650: whatever line the assembler takes, the disassembler reads the bytes of it as one
instruction of the same name, or of a name with the same code.
-/
namespace Libasm.Cpu.Scn2650
open Scan Number Eval
open Tables (Row)

/-! ### Names for the same code -/

/-- The line has the name of the instruction, or it is the inclusive or of register 0 with itself, which is the
same as to load it. -/
def WrittenLike (line name : List Char) : Prop :=
  WrittenAs line name ∨ WrittenAs line "IORZ".toList ∧ Table.Spec.Same "LODZ".toList name

def alike (a b : List Char) : Bool := a == b || a == "IORZ".toList && b == "LODZ".toList

theorem written_alike {line a b c : List Char} (h : WrittenAs line a) (hab : alike a b = true)
    (hbc : Table.Spec.Same b c) : WrittenLike line c := by
  unfold alike at hab
  simp only [Bool.or_eq_true, beq_iff_eq, Bool.and_eq_true] at hab
  rcases hab with rfl | ⟨rfl, rfl⟩
  · exact Or.inl (h.letters hbc)
  · exact Or.inr ⟨h, hbc⟩

/-! ### Reading -/

theorem hasError_ne {e : Err} (h : hasError e = true) : e ≠ .OK := by
  intro he
  rw [he] at h
  exact absurd h (by decide)

/-- What is known of an operand that is read. -/
def OpOk (op : Operand) : Prop :=
  match op.mode with
  | .REG0 => op.reg = some 0
  | .R123 => ∃ n, op.reg = some n ∧ 0 < n ∧ n < 4
  | .C012 => ∃ n, op.cc = some n ∧ n < 3
  | .CCVN => op.cc = some 3
  | .IX13 => ∃ n, op.reg = some n ∧ n < 4
  | .IX15 => op.reg = some 3
  | .NONE | .IMM8 | .AB15 => True
  | _ => False

theorem reg_small {s p : Scan} {n : Nat} (h : parseRegName s = some (n, p)) : n < 4 := by
  unfold parseRegName at h
  split at h
  · cases h
  · split at h
    · cases h
    · split at h
      · rename_i hn
        injection h with h
        injection h with h _
        rw [← h]
        exact hn
      · cases h

/-- What reading an operand may give. -/
def ParsedOk : Except (Err × Scan) (Operand × Scan) → Prop
  | .error (e, _) => e ≠ .OK
  | .ok (op, _) => OpOk op

theorem index_ok (start : Scan) (i : Bool) (v : Value) (e : Err) (p : Scan) : ParsedOk (parseIndex start i v e p) := by
  unfold parseIndex
  split
  · split
    · exact (by decide : Err.UNKNOWN_OPERAND ≠ .OK)
    · rename_i reg q hq
      have hn := reg_small hq
      split
      · split
        · exact ⟨reg, rfl, hn⟩
        · exact ⟨reg, rfl, hn⟩
        · exact (by decide : Err.UNKNOWN_OPERAND ≠ .OK)
      · show OpOk _
        by_cases h3 : reg = 3
        · unfold OpOk
          rw [if_pos h3, h3]
        · unfold OpOk
          rw [if_neg h3]
          exact ⟨reg, rfl, hn⟩
  · show OpOk _
    unfold OpOk
    cases i <;> trivial

theorem parse_ok {P : Plugins Value} {scan : Scan} {x : Except (Err × Scan) (Operand × Scan)}
    (h : parseOperand P scan = .ok x) : ParsedOk x := by
  unfold parseOperand at h
  dsimp only at h
  split at h
  · injection h with h
    subst h
    exact trivial
  · split at h
    · rename_i reg p hq
      injection h with h
      subst h
      have hn := reg_small hq
      show OpOk _
      unfold OpOk
      by_cases h0 : reg = 0
      · rw [if_pos h0, h0]
      · rw [if_neg h0]
        exact ⟨reg, rfl, by omega, hn⟩
    · obtain ⟨y, h1, h2⟩ := bind_ok h
      cases y with
      | some y =>
        obtain ⟨cc, p⟩ := y
        injection h2 with h2
        subst h2
        obtain ⟨n, hn⟩ := searchText_mem h1
        have hc : cc < 4 := (by decide : ∀ e ∈ ccs, e.2 < 4) _ hn
        show OpOk _
        unfold OpOk
        by_cases h3 : cc = 3
        · rw [if_pos h3, h3]
        · rw [if_neg h3]
          exact ⟨cc, rfl, by omega⟩
      | none =>
        dsimp only at h2
        obtain ⟨⟨v, e', p⟩, h3, h4⟩ := bind_ok h2
        dsimp only at h4
        split at h4
        · rename_i he
          injection h4 with h4
          subst h4
          exact hasError_ne he
        · injection h4 with h4
          subst h4
          exact index_ok ..

/-- What reading the operands may give. -/
def ListOk : Except (Err × Scan) (Operand × Operand × Scan) → Prop
  | .error (e, _) => e ≠ .OK
  | .ok (op1, op2, _) => OpOk op1 ∧ OpOk op2

theorem none_ok : OpOk {} := trivial

theorem operands_ok {P : Plugins Value} {ms : Mode × Mode} {scan : Scan}
    {x : Except (Err × Scan) (Operand × Operand × Scan)} (h : parseOperands P ms scan = .ok x) : ListOk x := by
  unfold parseOperands at h
  dsimp only at h
  split at h
  · injection h with h
    subst h
    exact ⟨none_ok, none_ok⟩
  · obtain ⟨y, h1, h2⟩ := bind_ok h
    have k1 := parse_ok h1
    cases y with
    | error e =>
      injection h2 with h2
      subst h2
      exact k1
    | ok y =>
      obtain ⟨op1, s1⟩ := y
      dsimp only at h2
      split at h2
      · injection h2 with h2
        subst h2
        exact ⟨k1, none_ok⟩
      · split at h2
        · injection h2 with h2
          subst h2
          exact ⟨k1, none_ok⟩
        · obtain ⟨z, h3, h4⟩ := bind_ok h2
          have k2 := parse_ok h3
          cases z with
          | error e =>
            injection h4 with h4
            subst h4
            exact k2
          | ok z =>
            injection h4 with h4
            subst h4
            exact ⟨k1, k2⟩

/-! ### Encoding -/

/-- The codes that an operand may make of one. -/
def codes (m : Mode) (c : Nat) : List Nat :=
  match m with
  | .REGN | .CCVN | .IX13 => (List.range 4).map fun f => (c ||| f) % 256
  | .R123 => [1, 2, 3].map fun f => (c ||| f) % 256
  | .C012 => (List.range 3).map fun f => (c ||| f) % 256
  | .REG0 => [(c ||| 0) % 256]
  | .IX15 => [(c ||| 3) % 256]
  | _ => [c]

/-- The bytes of an operand. -/
def size (m : Mode) : Nat :=
  match m with
  | .IMM8 | .REL7 | .ABS7 => 1
  | .AB13 | .IX13 | .AB15 | .IX15 => 2
  | _ => 0

/-- The bytes `x` an operand may have. -/
structure Fits (addr : Nat) (m : Mode) (x : List Nat) : Prop where
  len : x.length = size m
  byte : ∀ b ∈ x, b < 256
  page : m = .REL7 → ∀ v s, x = v :: s → Spec.InPage addr v

theorem check_any {a : Asm} {c : Bool} {e : Err} (h : (a.check c e).err = .OK) (he : e ≠ .OK) :
    a.err = .OK ∧ c = false ∧ a.check c e = a := Asm.check_ok he h

theorem setErr_any {a : Asm} {e : Err} (h : (a.setErrorIf e).err = .OK) :
    a.err = .OK ∧ e = .OK ∧ a.setErrorIf e = a := by
  obtain ⟨h1, h2⟩ := setErrorIf_ok h
  exact ⟨h1, h2, by rw [h2]; exact Asm.noError a⟩

theorem page_back {a a' : Asm} {w addr : Nat} (hw : w < 2 ^ 32) (ha : addr < 2 ^ 15)
    (h : Asm.checkPage a w addr = .ok a') (he : a'.err = .OK) :
    a.err = .OK ∧ a' = a ∧ w < 2 ^ 15 ∧ w / 2 ^ 13 = addr / 2 ^ 13 := by
  obtain ⟨e, k1, k2, _⟩ := Config.C22_segment 15 w addr 13 false (by decide) hw (by omega) (by decide)
  unfold Asm.checkPage at h
  rw [k1, ofOption_some, Out.ok_bind] at h
  injection h with h
  rw [← h] at he
  obtain ⟨h1, h2, h3⟩ := setErr_any he
  obtain ⟨g1, _, g2⟩ := k2.1 h2
  exact ⟨h1, by rw [← h, h3], g1, g2⟩

theorem byte_two (x : Nat) : ∀ b ∈ [x / 256 % 256, x % 256], b < 256 := by
  intro b hb
  simp only [List.mem_cons, List.not_mem_nil, or_false] at hb
  rcases hb with rfl | rfl <;> omega

theorem disp_of {d : Int} (h1 : -64 ≤ d) (h2 : d < 64) (k : Nat) (hk : k = 0 ∨ k = 128) :
    Spec.disp (((d % 128).toNat + k) % 256) = d := by
  unfold Spec.disp
  split <;> omega

theorem fitted {addr : Nat} {m : Mode} {op : Operand} {a a' : Asm} (ha : addr < 2 ^ 15) (ho : OpOk op)
    (hacc : acceptMode op.mode m = true)
    (h : encodeOperand addr m op a = .ok a') (he : a'.err = .OK) :
    a.err = .OK ∧ a'.opc ∈ codes m a.opc ∧ ∃ x, a'.ops = a.ops ++ x ∧ Fits addr m x := by
  -- an operand without bytes
  have embed : ∀ n, (a.opc ||| n) % 256 ∈ codes m a.opc → size m = 0 → m ≠ .REL7 →
      Out.ok ((a.setErrorIf op.err).embed n) = Out.ok a' →
      a.err = .OK ∧ a'.opc ∈ codes m a.opc ∧ ∃ x, a'.ops = a.ops ++ x ∧ Fits addr m x := by
    intro n h1 h2 h3 h4
    injection h4 with h4
    subst h4
    obtain ⟨k1, _, _⟩ := setErr_any (show (a.setErrorIf op.err).err = .OK from he)
    exact ⟨k1, h1, [], by rw [List.append_nil]; rfl, ⟨h2.symm, fun b hb => (by cases hb), fun hx => absurd hx h3⟩⟩
  have mem4 : ∀ n < 4, (a.opc ||| n) % 256 ∈ (List.range 4).map fun f => (a.opc ||| f) % 256 := fun n hn =>
    List.mem_map.2 ⟨n, List.mem_range.2 hn, rfl⟩
  have u32 : op.val.getUnsigned < 2 ^ 32 := by
    unfold Value.getUnsigned
    omega
  unfold OpOk at ho
  unfold acceptMode at hacc
  unfold encodeOperand at h
  dsimp only at h
  generalize hop : op.mode = om at ho hacc
  cases m with
  | NONE =>
    injection h with h
    subst h
    obtain ⟨k1, _, k2⟩ := setErr_any he
    rw [k2]
    exact ⟨k1, List.mem_singleton.2 rfl, [], by rw [List.append_nil], ⟨rfl, fun b hb => (by cases hb), fun hx => by cases hx⟩⟩
  | UNDEF =>
    injection h with h
    subst h
    obtain ⟨k1, _, k2⟩ := setErr_any he
    rw [k2]
    exact ⟨k1, List.mem_singleton.2 rfl, [], by rw [List.append_nil], ⟨rfl, fun b hb => (by cases hb), fun hx => by cases hx⟩⟩
  | REG0 =>
    have hr : op.reg = some 0 := by
      cases om <;> first | exact ho | exact absurd hacc (by decide)
    rw [hr] at h
    exact embed _ (List.mem_singleton.2 rfl) rfl (by decide) h
  | R123 =>
    have hr : ∃ n, op.reg = some n ∧ 0 < n ∧ n < 4 := by
      cases om <;> first | exact ho | exact absurd hacc (by decide)
    obtain ⟨n, hr, h1, h2⟩ := hr
    rw [hr] at h
    refine embed _ (List.mem_map.2 ⟨n, ?_, rfl⟩) rfl (by decide) h
    exact (by decide : ∀ n < 4, 0 < n → n ∈ [1, 2, 3]) n h2 h1
  | REGN =>
    have hr : ∃ n, op.reg = some n ∧ n < 4 := by
      cases om <;> first | exact absurd hacc (by decide) | exact ⟨0, ho, by decide⟩ |
        (obtain ⟨n, k1, _, k2⟩ := ho; exact ⟨n, k1, k2⟩) | exact ho.elim
    obtain ⟨n, hr, h1⟩ := hr
    rw [hr] at h
    exact embed _ (mem4 n h1) rfl (by decide) h
  | C012 =>
    have hr : ∃ n, op.cc = some n ∧ n < 3 := by
      cases om <;> first | exact ho | exact absurd hacc (by decide)
    obtain ⟨n, hr, h1⟩ := hr
    rw [hr] at h
    exact embed _ (List.mem_map.2 ⟨n, List.mem_range.2 h1, rfl⟩) rfl (by decide) h
  | CCVN =>
    have hr : ∃ n, op.cc = some n ∧ n < 4 := by
      cases om <;> first | exact absurd hacc (by decide) | exact ⟨3, ho, by decide⟩ |
        (obtain ⟨n, k1, k2⟩ := ho; exact ⟨n, k1, by omega⟩)
    obtain ⟨n, hr, h1⟩ := hr
    rw [hr] at h
    exact embed _ (mem4 n h1) rfl (by decide) h
  | IMM8 =>
    injection h with h
    subst h
    obtain ⟨h1, _, h2⟩ := check_any (show (Asm.check _ _ _).err = .OK from he) (by decide)
    obtain ⟨k1, _, k2⟩ := setErr_any h1
    rw [h2, k2]
    refine ⟨k1, List.mem_singleton.2 rfl, _, rfl, ⟨rfl, ?_, fun hx => by cases hx⟩⟩
    intro b hb
    rw [List.mem_singleton.1 hb]
    exact Nat.mod_lt _ (by decide)
  | ABS7 =>
    unfold emitZeroPage at h
    dsimp only at h
    obtain ⟨off, _, h⟩ := bind_ok h
    obtain ⟨far, _, h⟩ := bind_ok h
    injection h with h
    subst h
    obtain ⟨h1, _, h2⟩ := check_any (show (Asm.check _ _ _).err = .OK from he) (by decide)
    obtain ⟨h3, _, h4⟩ := check_any h1 (by decide)
    obtain ⟨k1, _, k2⟩ := setErr_any h3
    rw [h2, h4, k2]
    refine ⟨k1, List.mem_singleton.2 rfl, _, rfl, ⟨rfl, ?_, fun hx => by cases hx⟩⟩
    intro b hb
    rw [List.mem_singleton.1 hb]
    exact Nat.mod_lt _ (by decide)
  | REL7 =>
    unfold emitRelative at h
    dsimp only at h
    obtain ⟨a1, h1, q1⟩ := bind_ok h
    obtain ⟨⟨delta, err⟩, h2, q2⟩ := bind_ok q1
    obtain ⟨far, h3, q3⟩ := bind_ok q2
    clear h q1 q2
    have h5 : ((⟨err, a1.opc, a1.ops⟩ : Asm).check far .OPERAND_TOO_FAR).emit8
        ((delta % 128).toNat + if op.indir = true then 128 else 0) = a' := Out.ok.inj q3
    clear q3
    have he' := he
    rw [← h5] at he'
    obtain ⟨g1, g2, g3⟩ := check_any (show (Asm.check _ _ _).err = .OK from he') (by decide)
    have g1' : err = .OK := g1
    have hbr : Config.branchDelta 15 (inpage addr 2) (if op.err ≠ .OK then inpage addr 2 else op.val.getUnsigned) a1.err =
        some (delta, err) := by
      cases hx : Config.branchDelta 15 (inpage addr 2) (if op.err ≠ .OK then inpage addr 2 else op.val.getUnsigned) a1.err with
      | none => rw [hx] at h2; cases h2
      | some y => rw [hx, ofOption_some] at h2; rw [Out.ok.inj h2]
    have hb1 : inpage addr 2 < 2 ^ 15 := inpage_lt 2 ha
    have htgt : (if op.err ≠ .OK then inpage addr 2 else op.val.getUnsigned) < 2 ^ 32 := by
      split
      · omega
      · exact u32
    have hW : Config.W = 4294967296 := rfl
    generalize (if op.err ≠ .OK then inpage addr 2 else op.val.getUnsigned) = tgt at *
    obtain ⟨f1, f2, f3⟩ := branch_back (by decide) (by decide) (show inpage addr 2 ≤ 2 ^ 15 by omega)
      (by rw [hW]; omega) (by rw [hW]; omega) hbr g1'
    obtain ⟨p1, p2, p3, p4⟩ := page_back htgt ha h1 f1
    obtain ⟨k1, _, k2⟩ := setErr_any p1
    rw [Config.overflowDelta_eq (by decide) (by decide), ofOption_some] at h3
    injection h3 with h3
    rw [g2] at h3
    have hd : -64 ≤ delta ∧ delta < 64 := by simpa using h3
    rw [g3, p2, k2] at h5
    subst h5
    refine ⟨k1, List.mem_singleton.2 rfl, _, rfl, ⟨rfl, ?_, ?_⟩⟩
    · intro b hb
      rw [List.mem_singleton.1 hb]
      exact Nat.mod_lt _ (by decide)
    · intro _ v s hv
      injection hv with hv _
      rw [← hv]
      unfold Spec.InPage
      rw [disp_of hd.1 hd.2 _ (by split; exact Or.inr rfl; exact Or.inl rfl), f3]
      have hb2 : inpage addr 2 = addr / 8192 * 8192 + (addr + 2) % 8192 := by
        unfold inpage page
        omega
      rw [hb2]
      have p4' : tgt / 8192 = addr / 8192 := p4
      omega
  | AB13 =>
    unfold emitIndexed at h
    dsimp only at h
    obtain ⟨a1, h1, h⟩ := bind_ok h
    rw [if_neg (by decide)] at h
    injection h with h
    subst h
    have htgt : (if op.err ≠ .OK then addr else op.val.getUnsigned) < 2 ^ 32 := by
      split
      · omega
      · exact u32
    obtain ⟨p1, p2, _, _⟩ := page_back htgt ha h1 he
    obtain ⟨k1, _, k2⟩ := setErr_any p1
    rw [p2, k2]
    exact ⟨k1, List.mem_singleton.2 rfl, _, rfl, ⟨rfl, byte_two _, fun hx => by cases hx⟩⟩
  | IX13 =>
    have hr : ∃ n, op.reg = some n ∧ n < 4 := by
      cases om <;> first | exact absurd hacc (by decide) | exact ho | exact ⟨3, ho, by decide⟩
    obtain ⟨n, hr, hn⟩ := hr
    unfold emitIndexed at h
    dsimp only at h
    obtain ⟨a1, h1, h⟩ := bind_ok h
    rw [if_pos rfl, hr] at h
    injection h with h
    subst h
    have htgt : (if op.err ≠ .OK then addr else op.val.getUnsigned) < 2 ^ 32 := by
      split
      · omega
      · exact u32
    obtain ⟨p1, p2, _, _⟩ := page_back htgt ha h1 he
    obtain ⟨k1, _, k2⟩ := setErr_any p1
    rw [p2, k2]
    exact ⟨k1, mem4 n hn, _, rfl, ⟨rfl, byte_two _, fun hx => by cases hx⟩⟩
  | AB15 =>
    unfold emitAbsolute at h
    dsimp only at h
    rw [if_neg (by decide)] at h
    injection h with h
    subst h
    obtain ⟨p1, _, p2⟩ := setErr_any (show (Asm.setErrorIf _ _).err = .OK from he)
    obtain ⟨k1, _, k2⟩ := setErr_any p1
    rw [p2, k2]
    exact ⟨k1, List.mem_singleton.2 rfl, _, rfl, ⟨rfl, byte_two _, fun hx => by cases hx⟩⟩
  | IX15 =>
    unfold emitAbsolute at h
    dsimp only at h
    rw [if_pos rfl] at h
    injection h with h
    subst h
    obtain ⟨q1, _, q2⟩ := check_any (show (Asm.check _ _ _).err = .OK from he) (by decide)
    obtain ⟨p1, _, p2⟩ := setErr_any q1
    obtain ⟨k1, _, k2⟩ := setErr_any p1
    rw [q2, p2, k2]
    exact ⟨k1, List.mem_singleton.2 rfl, _, rfl, ⟨rfl, byte_two _, fun hx => by cases hx⟩⟩

/-! ### Decoding -/

/-- What is added to a name starts with a comma. -/
def Sfx (s : List Char) : Prop := s = [] ∨ s.head? = some ','

theorem decoded {addr c : Nat} (o : Opts) (m2 m : Mode) (x rest bytes : List Nat) (hl : x.length = size m)
    (hb : ∀ b ∈ x, b < 256) :
    (decodeOperand o addr c m2 m ⟨x ++ rest, bytes, .OK⟩).rd = ⟨rest, bytes ++ x, .OK⟩ ∧
    Sfx (decodeOperand o addr c m2 m ⟨x ++ rest, bytes, .OK⟩).name := by
  have none : size m = 0 → (⟨x ++ rest, bytes, .OK⟩ : Rd) = ⟨rest, bytes ++ x, .OK⟩ := by
    intro h
    rw [h] at hl
    rw [List.length_eq_zero_iff.1 hl, List.nil_append, List.append_nil]
  unfold decodeOperand
  cases m with
  | REG0 | R123 | REGN =>
    dsimp only
    split
    · exact ⟨none rfl, Or.inl rfl⟩
    · exact ⟨none rfl, Or.inr rfl⟩
  | C012 | CCVN => exact ⟨none rfl, Or.inr rfl⟩
  | IMM8 => exact ⟨one_byte hb hl, Or.inl rfl⟩
  | REL7 | ABS7 =>
    dsimp only
    unfold decodeRelative
    dsimp only
    split
    · exact ⟨one_byte hb hl, Or.inl rfl⟩
    · exact ⟨one_byte hb hl, Or.inl rfl⟩
  | IX13 | AB13 => exact ⟨two_bytes hb hl, Or.inr rfl⟩
  | IX15 | AB15 => exact ⟨two_bytes hb hl, Or.inl rfl⟩
  | NONE | UNDEF => exact ⟨none rfl, Or.inl rfl⟩

/-- The code `c` of a row is read as that row, or as one of a name for the same with the same bytes. -/
def readsB (r : Row) (c : Nat) : Bool :=
  decide (c < 256) &&
  match searchOpCode c with
  | none => false
  | some r' => alike r.name r'.name && !(r'.name.map (letter true) ++ r'.name.map (letter false)).contains ',' &&
    decide (size (modes r').1 = size (modes r).1 ∧ size (modes r').2 = size (modes r).2) &&
    decide ((modes r).1 ≠ .REL7) &&
    (decide ((modes r).2 = .REL7) || !decide (c / 4 % 4 = 2 ∧ c ≠ 0x9B ∧ c ≠ 0xBB)) &&
    decide ((modes r).2 = .REL7 → size (modes r).1 = 0)

/-- What a row can be encoded to is read as that row. -/
def rowB (r : Row) : Bool :=
  decide ('\x00' ∉ r.name) && decide (r.name.length < 11) && decide ('=' ∉ r.name) && decide (r.opcode < 256) &&
  ((codes (modes r).1 r.opcode).all fun c => decide (c < 256) && (codes (modes r).2 c).all (readsB r))

theorem rows_ok : (pages.all fun p => p.entries.all rowB) = true := by decide +kernel

theorem alnum (c : Char) (h : Ctype.isAlnum c = true) : syntaxOf.instructionLetter c = true :=
  show Eval.symbolLetter false c = true by
    unfold Eval.symbolLetter
    unfold Ctype.isAlnum at h
    rw [Bool.not_false, Bool.true_and, h]
    rfl

theorem take_name {n s t : List Char} (hn : ',' ∉ n) (hs : Sfx s) (ht : Sfx t) :
    (n ++ s ++ t).takeWhile (· ≠ ',') = n := by
  rw [List.append_assoc]
  refine (takeWhile_sep (p := fun c => decide (c ≠ ',')) ?_ ?_).1
  · intro c hc
    rw [decide_eq_true_eq]
    exact fun h => hn (h ▸ hc)
  · intro c hc
    rcases hs with rfl | hs
    · rcases ht with rfl | ht
      · cases hc
      · rw [List.nil_append, ht] at hc
        injection hc with hc
        rw [← hc]
        decide
    · cases s with
      | nil => cases hs
      | cons d s =>
        have e1 : d = c := by injection hc
        have e2 : d = ',' := by injection hs
        rw [← e1, e2]
        decide

/-- From the operands to the bytes of an entry, and back. -/
theorem insn_back {addr : Nat} {row : Row} {op1 op2 : Operand} {a1 a : Asm} (ha : addr < 2 ^ 15) (hB : rowB row = true)
    (ho1 : OpOk op1) (ho2 : OpOk op2) (hacc : acceptModes op1.mode op2.mode row = true)
    (h1 : encodeOperand addr (modes row).1 op1 ⟨.OK, row.opcode, []⟩ = .ok a1)
    (h2 : encodeOperand addr (modes row).2 op2 a1 = .ok a) (he : a.err = .OK) :
    ∃ c row' x y, c < 256 ∧ searchOpCode c = some row' ∧ alike row.name row'.name = true ∧ (∀ o, ',' ∉ outText o row'.name) ∧
      a.bytes = c :: (x ++ y) ∧ x.length = size (modes row').1 ∧ y.length = size (modes row').2 ∧
      (∀ b ∈ x, b < 256) ∧ (∀ b ∈ y, b < 256) ∧
      (∀ v s, Spec.Relative c → x ++ y = v :: s → Spec.InPage addr v) := by
  unfold acceptModes at hacc
  simp only [Bool.and_eq_true] at hacc
  unfold rowB at hB
  simp only [Bool.and_eq_true, decide_eq_true_eq, List.all_eq_true] at hB
  obtain ⟨⟨⟨⟨b1, b2⟩, b3⟩, b4⟩, b5⟩ := hB
  have he1 : a1.err = .OK := (fitted ha ho2 hacc.2 h2 he).1
  obtain ⟨_, k1, x, k2, k3⟩ := fitted ha ho1 hacc.1 h1 he1
  obtain ⟨b6, b7⟩ := b5 _ k1
  obtain ⟨_, j1, y, j2, j3⟩ := fitted ha ho2 hacc.2 h2 he
  have f := b7 _ j1
  unfold readsB at f
  simp only [Bool.and_eq_true, decide_eq_true_eq] at f
  obtain ⟨f1, f2⟩ := f
  split at f2
  · exact absurd f2 Bool.false_ne_true
  · rename_i row' hrow'
    simp only [Bool.and_eq_true, decide_eq_true_eq, Bool.or_eq_true, Bool.not_eq_true', decide_eq_false_iff_not] at f2
    obtain ⟨⟨⟨⟨⟨g1, g2⟩, g3, g4⟩, g5⟩, g6⟩, g7⟩ := f2
    refine ⟨a.opc, row', x, y, f1, hrow', g1, ?_, ?_, by rw [k3.len, g3], by rw [j3.len, g4], k3.byte, j3.byte, ?_⟩
    · intro o hx
      have : ',' ∈ row'.name.map (letter true) ++ row'.name.map (letter false) := by
        unfold outText at hx
        cases ho : o.upper with
        | true => rw [ho] at hx; exact List.mem_append_left _ hx
        | false => rw [ho] at hx; exact List.mem_append_right _ hx
      rw [List.contains_iff_mem.2 this] at g2
      cases g2
    · unfold Asm.bytes
      rw [Nat.mod_eq_of_lt f1, j2, k2]
      rfl
    · intro v s hr hv
      have hm := g6.resolve_right (fun h => h hr)
      have hx : x = [] := by
        have := k3.len
        rw [g7 hm] at this
        exact List.length_eq_zero_iff.1 this
      rw [hx] at hv
      exact j3.page hm v s hv

/-- What is assembled, and what the disassembler makes of it. -/
theorem line_back {E : Env} {addr : Nat} {line : List Char} {bytes : List Nat} {rest : Scan} (ha : addr < 2 ^ 15)
    (h : assemble E addr line = .ok (.insn ⟨.OK, bytes, rest⟩)) :
    (∀ (o : Opts) (more : List Nat), (disassemble o addr (bytes ++ more)).err = .OK ∧
      (disassemble o addr (bytes ++ more)).bytes = bytes ∧
      WrittenLike line ((disassemble o addr (bytes ++ more)).name.takeWhile (· ≠ ','))) ∧
    (∀ b ∈ bytes, b < 256) ∧ (∀ b d s, bytes = b :: d :: s → Spec.Relative b → Spec.InPage addr d) := by
  obtain ⟨word, scan, hi, haddr, hw, blanks, tail, hline, hblank⟩ :=
    encode_line_inv (by decide) rfl h
  unfold encodeImpl at hi
  obtain ⟨ms, _, hi⟩ := bind_ok hi
  obtain ⟨x, d1, d2⟩ := bind_ok hi
  have kops := operands_ok d1
  cases x with
  | error e =>
    obtain ⟨e, p⟩ := e
    injection d2 with d2
    injection d2 with d2
    exact absurd d2 kops
  | ok x =>
    obtain ⟨op1, op2, s⟩ := x
    dsimp only at d2
    obtain ⟨x, f1, f2⟩ := bind_ok d2
    unfold searchName searchWith at f1
    split at f1
    · rename_i pre row hs
      injection f1 with f1
      subst f1
      dsimp only at f2
      obtain ⟨a1, g0, f2⟩ := bind_ok f2
      obtain ⟨a, g1, g2⟩ := bind_ok f2
      injection g2 with g2
      injection g2 with g2 g3 g4
      obtain ⟨p, hp, rfl, hrow, hcmp, hacc⟩ := searchName_mem hs
      have hB : rowB row = true := List.all_eq_true.1 (List.all_eq_true.1 rows_ok p hp) row hrow
      subst g3
      obtain ⟨c, row', x, y, k1, k2, k0, kc, k3, kx, ky, bx, bY, kr⟩ := insn_back ha hB kops.1 kops.2 hacc g0 g1 g2
      refine ⟨?_, ?_, ?_⟩
      · intro o more
        have hdis : disassemble o addr (a.bytes ++ more) = decodeImpl o addr (a.bytes ++ more) := by
          unfold disassemble decode
          rw [haddr]
          rfl
        obtain ⟨e1, e2⟩ := decoded (addr := addr) (c := c) o (modes row').2 (modes row').1 x (y ++ more) [c] kx bx
        obtain ⟨e3, e4⟩ := decoded (addr := addr) (c := c) o (modes row').2 (modes row').2 y more ([c] ++ x) ky bY
        rw [hdis, k3]
        unfold decodeImpl
        rw [List.cons_append, byte_some k1]
        dsimp only [List.nil_append]
        rw [k2]
        dsimp only
        rw [List.append_assoc, e1, e3]
        unfold rowB at hB
        simp only [Bool.and_eq_true, decide_eq_true_eq] at hB
        obtain ⟨⟨⟨⟨b1, b2⟩, b3⟩, _⟩, _⟩ := hB
        have hname : WrittenAs line row.name := written alnum (fun c h => by cases h) hw b1 b2 hcmp b3 hline hblank
        refine ⟨rfl, rfl, ?_⟩
        rw [take_name (kc o) e2 e4]
        exact written_alike hname k0 (outText_same o _)
      · intro b hb
        rw [k3, List.mem_cons, List.mem_append] at hb
        rcases hb with rfl | hb | hb
        · exact k1
        · exact bx b hb
        · exact bY b hb
      · intro b d t hbt hr
        rw [k3] at hbt
        injection hbt with h1 h2
        subst h1
        exact kr d t hr h2
    · rename_i e hs
      injection f1 with f1
      subst f1
      injection f2 with f2
      injection f2 with f2 f3 f4
      exact absurd f2 (searchName_err hs)
    · cases f1

/-- Whatever line is assembled without error, at any address and with any symbols: the disassembler, with any
options, reads the bytes of it, whatever follows them, as one instruction, without error. What it prints before the
first comma is the name written in the line, or that of the same code. -/
theorem C29_scn2650 {E : Env} {addr : Nat} {line : List Char} {bytes : List Nat} {rest : Scan} (ha : addr < 2 ^ 15)
    (h : assemble E addr line = .ok (.insn ⟨.OK, bytes, rest⟩)) (o : Opts) (more : List Nat) :
    (disassemble o addr (bytes ++ more)).err = .OK ∧
    (disassemble o addr (bytes ++ more)).bytes = bytes ∧
    WrittenLike line ((disassemble o addr (bytes ++ more)).name.takeWhile (· ≠ ',')) :=
  (line_back ha h).1 o more

/-- `C29_scn2650` has something to say of operands of several kinds. -/
example :
    assemble noEnv 0x100 "lodi,r2 h'12'".toList = .ok (.insn ⟨.OK, [0x06, 0x12], []⟩) ∧
    assemble noEnv 0x100 "BCTR,EQ *$+4 ; forward".toList = .ok (.insn ⟨.OK, [0x18, 0x82], "; forward".toList⟩) ∧
    assemble noEnv 0x100 "STRA,R0 *H'234',R2,+".toList = .ok (.insn ⟨.OK, [0xCE, 0xA2, 0x34], []⟩) ∧
    assemble noEnv 0x100 "IORZ,R0".toList = .ok (.insn ⟨.OK, [0x60], []⟩) := by
  decide +kernel

/-- The operands are not always those of the line. An index that the instruction does not have is dropped: the
bytes of `LODA,R1 H'100',R3` would be those of `LODA,R1 H'100'`, those of `BCTA,EQ H'100',R3` those of
`BCTA,EQ H'100'`. -/
theorem index_dropped :
    assemble noEnv 0x100 "LODA,R1 H'100',R3".toList = assemble noEnv 0x100 "LODA,R1 H'100'".toList ∧
    assemble noEnv 0x100 "LODA,R1 H'100'".toList = .ok (.insn ⟨.OK, [0x0D, 0x01, 0x00], []⟩) ∧
    assemble noEnv 0x100 "BCTA,EQ H'100',R3".toList = assemble noEnv 0x100 "BCTA,EQ H'100'".toList ∧
    assemble noEnv 0x100 "BCTA,EQ H'100'".toList = .ok (.insn ⟨.OK, [0x1C, 0x01, 0x00], []⟩) := by
  decide +kernel

/-- Nor is every operand in the memory: a target in page zero is only looked at modulo 65536. -/
theorem target_narrowed :
    assemble noEnv 0x100 "ZBRR 65541".toList = .ok (.insn ⟨.OK, [0x9B, 0x05], []⟩) ∧
    assemble noEnv 0x100 "ZBRR 65541".toList = assemble noEnv 0x100 "ZBRR 5".toList := by
  decide +kernel

end Libasm.Cpu.Scn2650
