import Verif.Cpu.Back
import Verif.Cpu.F3850.Props
/-
C29 for the f3850: whatever line the assembler takes, the disassembler reads the bytes of it as one
instruction of the same name, or of a name with the same code.
-/
namespace Libasm.Cpu.F3850
open Scan Number Eval
open Tables (Row)

/-! ### Names for the same code -/

/-- A name that may be written, and those which the disassembler may print of its codes. -/
def synonyms : List (String × List String) :=
  [("LIS", ["CLR"]), ("BT", ["BP", "BC", "BZ"]), ("BF", ["BR", "BM", "BNC", "BNZ", "BNO"])]

/-- The line has the name of the instruction or a more general one. -/
def WrittenLike (line name : List Char) : Prop :=
  WrittenAs line name ∨
  ∃ s ∈ synonyms, ∃ b ∈ s.2, WrittenAs line s.1.toList ∧ Table.Spec.Same b.toList name

def alike (a b : List Char) : Bool :=
  a == b || synonyms.any fun s => s.1.toList == a && (s.2.map String.toList).contains b

theorem written_alike {line a b c : List Char} (h : WrittenAs line a) (hab : alike a b = true)
    (hbc : Table.Spec.Same b c) : WrittenLike line c := by
  unfold alike at hab
  simp only [Bool.or_eq_true, beq_iff_eq, List.any_eq_true, Bool.and_eq_true, List.contains_iff_mem] at hab
  rcases hab with rfl | ⟨g, hg, h1, h2⟩
  · exact Or.inl (h.letters hbc)
  · obtain ⟨y, y1, y2⟩ := List.mem_map.1 h2
    exact Or.inr ⟨g, hg, y, y1, by rw [h1]; exact h, by rw [y2]; exact hbc⟩

/-! ### Encoding -/

theorem hasError_ne {e : Err} (h : hasError e = true) : e ≠ .OK := by
  intro he
  rw [he] at h
  exact absurd h (by decide)

theorem parse_err {P : Plugins Value} {scan : Scan} {e : Err} {rest : Scan}
    (h : parseOperand P scan = .ok (.error (e, rest))) : e ≠ .OK := by
  have good : ∀ {x : Operand × Scan}, (Out.ok (Except.ok x) : Out (Except (Err × Scan) (Operand × Scan))) =
      .ok (.error (e, rest)) → e ≠ .OK := by
    intro x h
    injection h with h
    cases h
  unfold parseOperand at h
  dsimp only at h
  obtain ⟨x, h1, h2⟩ := bind_ok h
  cases x with
  | some x => exact good h2
  | none =>
    dsimp only at h2
    obtain ⟨⟨v, e', p⟩, h3, h4⟩ := bind_ok h2
    dsimp only at h4
    split at h4
    · rename_i he
      injection h4 with h4
      injection h4 with h4
      injection h4 with h4
      rw [← h4]
      exact hasError_ne he
    · split at h4 <;> exact good h4

/-- The codes that an operand may make of one. -/
def codes (m : Mode) (c : Nat) : List Nat :=
  match m with
  | .REG => (List.range 15).map fun f => (c ||| f) % 256
  | .IOS => [0, 1, 4, 5, 6, 7, 8, 9, 10, 11, 12, 13, 14, 15].map fun f => (c ||| f) % 256
  | .IM4 => (List.range 16).map fun f => (c ||| f) % 256
  | .IM3 => (List.range 8).map fun f => (c ||| f) % 256
  | .C1 => [c, (c + 2) % 256]
  | _ => [c]

/-- The codes that may become of one. -/
def reach : List Mode → Nat → List Nat
  | [], c => [c]
  | m :: ms, c => (codes m c).flatMap (reach ms)

/-- The bytes `x` an operand may have. -/
def Fits (addr : Nat) (m : Mode) (_ : Nat) (x : List Nat) : Prop :=
  match m with
  | .IM8 => ∃ v, v < 256 ∧ x = [v]
  | .IOA => ∃ v, v < 256 ∧ 4 ≤ v ∧ x = [v]
  | .ADDR => ∃ v w, v < 256 ∧ w < 256 ∧ x = [v, w]
  | .REL => ∃ v, v < 256 ∧ x = [v] ∧ (((addr + 1 : Nat) : Int) + int8 v) % Config.W < 65536
  | _ => x = []

/-- What is known of the instruction when some modes are still to come. -/
def Known (ms : List Mode) (opc : Nat) (rem : List Mode) (a : Asm) : Prop :=
  a.opc < 256 ∧ ∀ c ∈ reach rem a.opc, c ∈ reach ms opc

theorem check_any {a : Asm} {c : Bool} {e : Err} (h : (a.check c e).err = .OK) (he : e ≠ .OK) :
    c = false ∧ a.check c e = a := (Asm.check_ok he h).2

theorem setErr_any {a : Asm} {e : Err} (h : (a.setErrorIf e).err = .OK) :
    a.err = .OK ∧ e = .OK ∧ a.setErrorIf e = a := by
  obtain ⟨h1, h2⟩ := setErrorIf_ok h
  exact ⟨h1, h2, by rw [h2]; exact Asm.noError a⟩

theorem emitted {addr : Nat} {m : Mode} {op : Operand} {a a' : Asm}
    (h : encodeOperand addr m op a = .ok a') (he : a'.err = .OK) :
    a.err = .OK ∧ op.err = .OK ∧ a.setErrorIf op.err = a := by
  have key : ∀ b : Asm, b = a.setErrorIf op.err → b.err = .OK →
      a.err = .OK ∧ op.err = .OK ∧ a.setErrorIf op.err = a := by
    intro b hb h1
    rw [hb] at h1
    exact setErr_any h1
  unfold encodeOperand at h
  generalize hb : a.setErrorIf op.err = b at h
  have key := key b hb.symm
  rw [hb] at key
  dsimp only at h
  cases m with
  | REG | IOS | IOA =>
    injection h with h
    subst h
    exact key (Asm.check_ok (by decide) (Asm.check_ok (by decide) he).1).1
  | IM3 | IM4 | IM8 =>
    injection h with h
    subst h
    exact key (Asm.check_ok (by decide) he).1
  | C1 =>
    dsimp only at h
    split at h
    · injection h with h
      subst h
      exact key he
    · split at h
      · injection h with h
        subst h
        exact key he
      · injection h with h
        subst h
        exact key (setErr_any he).1
  | REL =>
    unfold encodeRelative at h
    exact key (Asm.rel8_back (by decide) (by decide) h he).1
  | _ =>
    injection h with h
    subst h
    exact key he

/-- A byte that is not a small number. -/
theorem port_byte {v : Value} (h3 : v.overflow 3 0 = true) (h8 : v.overflowUint8 = false) :
    4 ≤ v.getUnsigned % 256 := by
  unfold Value.overflowUint8 at h8
  unfold Value.overflow at h3 h8
  split at h8
  · cases h8
  · rename_i hu
    rw [if_neg hu] at h3
    split at h8
    · rename_i ht
      rw [if_pos ht] at h3
      simp only [Bool.or_eq_true, Bool.and_eq_true, decide_eq_true_eq, Bool.or_eq_false_iff, Bool.and_eq_false_iff,
        decide_eq_false_iff_not] at h3 h8
      omega
    · rename_i ht
      rw [if_neg ht] at h3
      split at h8
      · rename_i hs
        rw [if_pos hs] at h3
        simp only [Bool.or_eq_true, Bool.and_eq_true, decide_eq_true_eq, Bool.or_eq_false_iff, Bool.and_eq_false_iff,
          decide_eq_false_iff_not] at h3 h8
        omega
      · simp only [Bool.or_eq_false_iff, Bool.and_eq_false_iff, decide_eq_false_iff_not] at h8
        unfold Value.overflowUint32 at hu
        rw [if_neg ht] at hu
        simp only [Bool.or_eq_true, decide_eq_true_eq] at hu
        rename_i hs
        unfold Value.getSigned at h8
        unfold Value.getUnsigned
        unfold Value.asSigned at *
        have hM : Value.M = 18446744073709551616 := rfl
        have hH : Value.H = 9223372036854775808 := rfl
        dsimp only at h8
        split at h8 <;> split at hs <;> omega

theorem fitted {addr opc : Nat} {ms : List Mode} {m : Mode} {rem : List Mode} {op : Operand}
    {a a' : Asm} (ha : addr < 65536) (hp : Known ms opc (m :: rem) a)
    (h : encodeOperand addr m op a = .ok a') (he : a'.err = .OK) :
    Known ms opc rem a' ∧ ∃ x, a'.ops = a.ops ++ x ∧ Fits addr m (1 + a.ops.length) x := by
  obtain ⟨e1, e2, e3⟩ := emitted h he
  have known : ∀ {a' : Asm}, a'.opc ∈ codes m a.opc → a'.opc < 256 → Known ms opc rem a' := by
    intro a' h2 h3
    refine ⟨h3, ?_⟩
    intro c hc
    apply hp.2
    unfold reach
    rw [List.mem_flatMap]
    exact ⟨a'.opc, h2, hc⟩
  have same : ∀ {a' : Asm}, a.opc ∈ codes m a.opc → a'.opc = a.opc → Known ms opc rem a' := by
    intro a' h1 h2
    exact known (by rw [h2]; exact h1) (by rw [h2]; exact hp.1)
  have b8 : ∀ v, v % 256 < 256 := fun v => Nat.mod_lt _ (by decide)
  have put : ∀ (f : Nat), (a.opc ||| f) % 256 ∈ codes m a.opc → a.embed f = a' →
      Known ms opc rem a' ∧ ∃ x, a'.ops = a.ops ++ x ∧ x = [] := by
    intro f h1 h2
    subst h2
    exact ⟨known h1 (b8 _), [], by rw [List.append_nil]; rfl, rfl⟩
  have nothing : a.opc ∈ codes m a.opc → Out.ok a = Out.ok a' →
      Known ms opc rem a' ∧ ∃ x, a'.ops = a.ops ++ x ∧ x = [] := by
    intro h1 h2
    injection h2 with h2
    subst h2
    exact ⟨same h1 rfl, [], by rw [List.append_nil], rfl⟩
  unfold encodeOperand at h
  rw [e3] at h
  dsimp only at h
  cases m with
  | REG =>
    injection h with h
    have he' := he
    rw [← h] at he'
    obtain ⟨h1, h2⟩ := check_any (show (Asm.check _ _ _).err = .OK from he') (by decide)
    rw [h2] at h he'
    obtain ⟨h3, h4⟩ := check_any (show (Asm.check _ _ _).err = .OK from he') (by decide)
    rw [h4] at h
    have := overflow_le (by decide) h3
    refine put _ (List.mem_map.2 ⟨op.val.getUnsigned % 16, List.mem_range.2 ?_, rfl⟩) h
    have : op.val.getUnsigned ≠ 15 := by simpa using h1
    omega
  | IOS =>
    injection h with h
    have he' := he
    rw [← h] at he'
    obtain ⟨h1, h2⟩ := check_any (show (Asm.check _ _ _).err = .OK from he') (by decide)
    rw [h2] at h he'
    obtain ⟨h3, h4⟩ := check_any (show (Asm.check _ _ _).err = .OK from he') (by decide)
    rw [h4] at h
    have hle := overflow_le (by decide) h1
    refine put _ (List.mem_map.2 ⟨op.val.getUnsigned % 16, ?_, rfl⟩) h
    simp only [Bool.or_eq_false_iff, beq_eq_false_iff_ne] at h3
    rw [Nat.mod_eq_of_lt (by omega)]
    exact (by decide : ∀ v < 16, v ≠ 2 ∧ v ≠ 3 → v ∈ [0, 1, 4, 5, 6, 7, 8, 9, 10, 11, 12, 13, 14, 15]) _ (by omega) h3
  | IM4 =>
    injection h with h
    have he' := he
    rw [← h] at he'
    obtain ⟨h1, h2⟩ := check_any (show (Asm.check _ _ _).err = .OK from he') (by decide)
    rw [h2] at h
    exact put _ (List.mem_map.2 ⟨op.val.getUnsigned % 16, List.mem_range.2 (Nat.mod_lt _ (by decide)), rfl⟩) h
  | IM3 =>
    injection h with h
    have he' := he
    rw [← h] at he'
    obtain ⟨h1, h2⟩ := check_any (show (Asm.check _ _ _).err = .OK from he') (by decide)
    rw [h2] at h
    exact put _ (List.mem_map.2 ⟨op.val.getUnsigned % 8, List.mem_range.2 (Nat.mod_lt _ (by decide)), rfl⟩) h
  | C1 =>
    dsimp only at h
    split at h
    · exact nothing (List.mem_cons_self ..) h
    · split at h
      · injection h with h
        subst h
        exact ⟨known (List.mem_cons_of_mem _ (List.mem_singleton.2 rfl)) (b8 _), [], by rw [List.append_nil], rfl⟩
      · injection h with h
        subst h
        exact absurd (setErr_any he).2.1 (by decide)
  | IM8 =>
    injection h with h
    subst h
    obtain ⟨_, h2⟩ := check_any (show (Asm.check _ _ _).err = .OK from he) (by decide)
    rw [h2]
    exact ⟨same (List.mem_singleton.2 rfl) rfl, _, rfl, _, b8 _, rfl⟩
  | IOA =>
    injection h with h
    subst h
    obtain ⟨h1, h2⟩ := check_any (show (Asm.check _ _ _).err = .OK from he) (by decide)
    obtain ⟨h3, h4⟩ := check_any (show (Asm.check _ _ _).err = .OK from (Asm.check_ok (by decide) he).1) (by decide)
    rw [h2, h4]
    rw [e2] at h3
    exact ⟨same (List.mem_singleton.2 rfl) rfl, _, rfl, _, b8 _, port_byte (by simpa using h3) h1, rfl⟩
  | ADDR =>
    injection h with h
    subst h
    exact ⟨same (List.mem_singleton.2 rfl) rfl, _, rfl, _, _, b8 _, b8 _, rfl⟩
  | REL =>
    unfold encodeRelative at h
    dsimp only at h
    rw [e2, if_neg (not_not_intro (rfl : Err.OK = .OK))] at h
    obtain ⟨_, h1, v, h2, h3, h4⟩ := Asm.rel8_back (by decide) (by decide) h he
    refine ⟨same (List.mem_singleton.2 rfl) h1, [v], h3, v, h2, rfl, ?_⟩
    have hbase : (addr + 1) % Config.W = addr + 1 := by unfold Config.W; omega
    rw [hbase] at h4
    obtain ⟨h6, h7⟩ := h4 (by omega) (by unfold Config.W; omega) (by unfold Value.getUnsigned Config.W; omega)
    have h7' : (op.val.getUnsigned : Int) = ((addr + 1 : Nat) : Int) + int8 v := h7
    rw [← h7']
    unfold Config.W
    omega
  | _ => exact nothing (List.mem_singleton.2 rfl) h

/-! ### Decoding -/

/-- The code `c` has no bits that the mode forbids. -/
def clean (c : Nat) (m : Mode) : Bool :=
  match m with
  | .REG => c % 16 != 15
  | .IOS => c % 16 != 2 && c % 16 != 3
  | _ => true

/-- The mode has bytes of its own. -/
def takes : Mode → Bool
  | .IM8 | .IOA | .ADDR | .REL => true
  | _ => false

theorem decoded {addr c : Nat} (o : Opts) (m : Mode) (hc : clean c m = true)
    (x rest bytes : List Nat) (h : Fits addr m bytes.length x) :
    (decodeOperand o addr c m ⟨x ++ rest, bytes, .OK⟩).2 = ⟨rest, bytes ++ x, .OK⟩ := by
  have none : x = [] → (⟨x ++ rest, bytes, .OK⟩ : Rd) = ⟨rest, bytes ++ x, .OK⟩ := by
    intro h
    rw [h, List.nil_append, List.append_nil]
  unfold decodeOperand
  cases m with
  | REG =>
    have : c % 16 ≠ 15 := by simpa [clean] using hc
    dsimp only
    rw [if_neg this]
    split <;> exact none h
  | IOS =>
    have : c % 16 ≠ 2 ∧ c % 16 ≠ 3 := by simpa [clean] using hc
    dsimp only
    rw [if_neg (by omega)]
    exact none h
  | IM8 =>
    obtain ⟨v, h1, rfl⟩ := h
    dsimp only
    rw [List.singleton_append, byte_some h1]
  | IOA =>
    obtain ⟨v, h1, h2, rfl⟩ := h
    dsimp only
    rw [List.singleton_append, byte_some h1]
    dsimp only
    rw [if_neg (by omega)]
  | ADDR =>
    obtain ⟨v, w, h1, h2, rfl⟩ := h
    exact two_bytes (bs := [v, w]) (by simp [h1, h2]) rfl
  | REL =>
    obtain ⟨v, h1, rfl, h3⟩ := h
    unfold decodeRelative
    rw [List.singleton_append, byte_some h1]
    dsimp only
    generalize hT : (((addr + 1 : Nat) : Int) + int8 v) % Config.W = T at *
    have h0 : 0 ≤ T := by rw [← hT]; exact Int.emod_nonneg _ (by decide)
    rw [address_ok (by decide) (by omega)]
    rfl
  | _ => exact none h

theorem fit_takes {addr : Nat} : ∀ (ms : List Mode) (n : Nat) (x : List Nat),
    Fit (Fits addr) ms n x ↔ Fit (Fits addr) (ms.filter takes) n x
  | [], _, _ => Iff.rfl
  | m :: ms, n, x => by
    have ih := fit_takes (addr := addr) ms
    by_cases ht : takes m = true
    · rw [List.filter_cons, if_pos ht]
      constructor
      · rintro ⟨y, z, h1, h2, h3⟩
        exact ⟨y, z, h1, h2, (ih _ _).1 h3⟩
      · rintro ⟨y, z, h1, h2, h3⟩
        exact ⟨y, z, h1, h2, (ih _ _).2 h3⟩
    · rw [List.filter_cons, if_neg ht, ← ih]
      have hf : ∀ n y, Fits addr m n y ↔ y = [] := by
        intro n y
        cases m <;> first
          | exact Iff.rfl
          | exact absurd rfl ht
      constructor
      · rintro ⟨y, z, h1, h2, h3⟩
        have := (hf _ _).1 h2
        subst this
        rw [h1]
        exact h3
      · intro h
        exact ⟨[], x, rfl, (hf _ _).2 rfl, h⟩

/-! ### The instruction table -/

/-- The code `c` of a row is read as that row, or as one of a more special name with the same bytes. -/
def readsB (r : Row) (c : Nat) : Bool :=
  decide (c < 256) &&
  match searchOpCode c with
  | none => false
  | some r' => alike r.name r'.name && decide ((modes r').filter takes = (modes r).filter takes) &&
      (modes r').all (clean c)

/-- What a row can be encoded to is read as that row. -/
def rowB (r : Row) : Bool :=
  decide ('\x00' ∉ r.name) && decide (r.name.length < 11) && decide ('=' ∉ r.name) &&
  decide ((modes r).length ≤ 2) && decide (r.opcode < 256) &&
  (reach (pad 2 .NONE (modes r)) r.opcode).all (readsB r)

theorem rows_ok : (pages.all fun p => p.entries.all rowB) = true := by decide +kernel

theorem alnum (c : Char) (h : Ctype.isAlnum c = true) : syntaxOf.instructionLetter c = true :=
  show Eval.symbolLetter false c = true by
    unfold Eval.symbolLetter
    unfold Ctype.isAlnum at h
    rw [Bool.not_false, Bool.true_and, h]
    rfl

/-- From the operands to the bytes of an entry, and back. -/
theorem insn_back {addr : Nat} {row : Row} {ops : List Operand} {a : Asm} (ha : addr < 65536) (hB : rowB row = true)
    (hlen : ops.length = 2)
    (h : emitList (encodeOperand addr) ((pad 2 .NONE (modes row)).zip ops) ⟨.OK, row.opcode, []⟩ = .ok a)
    (he : a.err = .OK) (o : Opts) (more : List Nat) :
    ∃ c row', c < 256 ∧ searchOpCode c = some row' ∧ alike row.name row'.name = true ∧ a.bytes = c :: a.ops ∧
      (decodeList (decodeOperand o addr c) (modes row') ⟨a.ops ++ more, [c], .OK⟩).2 = ⟨more, c :: a.ops, .OK⟩ := by
  unfold rowB at hB
  simp only [Bool.and_eq_true, decide_eq_true_eq, List.all_eq_true] at hB
  obtain ⟨⟨⟨⟨⟨b1, b2⟩, b3⟩, b4⟩, b5⟩, b7⟩ := hB
  have hmono : ∀ (m : Mode) (op : Operand) (a a' : Asm), encodeOperand addr m op a = .ok a' → a'.err = .OK →
      a.err = .OK := fun m op a a' h1 h2 => (emitted h1 h2).1
  have hl : (pad 2 .NONE (modes row)).length = ops.length := by rw [pad_length, hlen]
  obtain ⟨_, k1, x, k2, k3⟩ := emit_fit (P := Known (pad 2 .NONE (modes row)) row.opcode)
    (Q := fun m op => True)
    (Fits := Fits addr) hmono (fun m rem op a a' hq hp h1 h2 => fitted ha hp h1 h2)
    _ _ _ (fun p hp => trivial)
    (by
      rw [zip_fst _ _ hl]
      exact ⟨b5, fun _ h => h⟩) h he
  rw [zip_fst _ _ hl] at k3
  have hx : a.ops = x := k2
  have f := b7 a.opc (k1.2 _ (List.mem_singleton.2 rfl))
  unfold readsB at f
  simp only [Bool.and_eq_true, decide_eq_true_eq] at f
  obtain ⟨f1, f2⟩ := f
  split at f2
  · cases f2
  · rename_i row' hrow'
    simp only [Bool.and_eq_true, decide_eq_true_eq, List.all_eq_true] at f2
    obtain ⟨⟨f3, f4⟩, f5⟩ := f2
    refine ⟨a.opc, row', f1, hrow', f3, ?_, ?_⟩
    · unfold Asm.bytes
      rw [Nat.mod_eq_of_lt f1]
    · rw [hx]
      have k4 := fit_pad (m0 := Mode.NONE) (fun n x h => h) 2 _ _ _ b4 k3
      rw [fit_takes, ← f4, ← fit_takes] at k4
      exact list_decoded (Fits := Fits addr) (1 + x.length) _ x more [a.opc]
        (fun m hm x' rest bytes _ hf => decoded o m (f5 m hm) x' rest bytes hf) (Nat.le_refl _) k4

/-- Whatever line is assembled without error, at any address and with any symbols: the disassembler, with any
options, reads the bytes of it, whatever follows them, as one instruction, without error. It has the name
written in the line, or it is a special case of what is written. -/
theorem C29_f3850 {E : Env} {addr : Nat} {line : List Char} {bytes : List Nat} {rest : Scan} (ha : addr < 2 ^ 16)
    (h : assemble E addr line = .ok (.insn ⟨.OK, bytes, rest⟩)) (o : Opts) (more : List Nat) :
    (disassemble o addr (bytes ++ more)).err = .OK ∧
    (disassemble o addr (bytes ++ more)).bytes = bytes ∧
    WrittenLike line (disassemble o addr (bytes ++ more)).name := by
  obtain ⟨word, scan, hi, haddr, hw, blanks, tail, hline, hblank⟩ :=
    encode_line_inv (by decide) rfl h
  unfold encodeImpl at hi
  obtain ⟨has, _, hi⟩ := bind_ok hi
  obtain ⟨x, d1, d2⟩ := bind_ok hi
  cases x with
  | error e =>
    obtain ⟨e, p⟩ := e
    injection d2 with d2
    injection d2 with d2
    cases has with
    | true => exact absurd d2 (operands_err (fun s e p h => parse_err h) _ _ _ _ d1)
    | false => cases d1
  | ok x =>
    obtain ⟨ops, s⟩ := x
    dsimp only at d2
    obtain ⟨x, f1, f2⟩ := bind_ok d2
    unfold searchName searchWith at f1
    split at f1
    · rename_i pre row hs
      injection f1 with f1
      subst f1
      dsimp only at f2
      obtain ⟨a, g1, g2⟩ := bind_ok f2
      injection g2 with g2
      injection g2 with g2 g3 g4
      obtain ⟨p, hp, rfl, hrow, hcmp, hacc⟩ := searchName_mem hs
      have hB : rowB row = true := List.all_eq_true.1 (List.all_eq_true.1 rows_ok p hp) row hrow
      subst g3
      obtain ⟨c, row', k1, k2, k0, k3, k4⟩ := insn_back ha hB (pad_length _ _ _) g1 g2 o more
      have hdis : disassemble o addr (a.bytes ++ more) = decodeImpl o addr (a.bytes ++ more) := by
        unfold disassemble decode
        rw [haddr]
        rfl
      rw [hdis, k3]
      unfold decodeImpl
      rw [List.cons_append, byte_some k1]
      dsimp only [List.nil_append]
      rw [k2]
      dsimp only
      rw [k4]
      unfold rowB at hB
      simp only [Bool.and_eq_true, decide_eq_true_eq] at hB
      obtain ⟨⟨⟨⟨⟨b1, b2⟩, b3⟩, _⟩, _⟩, _⟩ := hB
      have hname : WrittenAs line row.name := written alnum (fun c h => by cases h) hw b1 b2 hcmp b3 hline hblank
      exact ⟨rfl, rfl, written_alike hname k0 (outText_same o _)⟩
    · rename_i e hs
      injection f1 with f1
      subst f1
      injection f2 with f2
      injection f2 with f2 f3 f4
      exact absurd f2 (searchName_err hs)
    · cases f1

/-- `C29_f3850` has something to say of operands of several kinds. -/
example :
    assemble noEnv 0x1000 "  bt 5, h'0f81' ; comment".toList =
      .ok (.insn ⟨.OK, [0x85, 0x80], "; comment".toList⟩) ∧
    assemble noEnv 0 "sl 4".toList = .ok (.insn ⟨.OK, [0x15], []⟩) ∧
    assemble noEnv 0 "lr a, hl".toList = .ok (.insn ⟨.OK, [0x4b], []⟩) ∧
    assemble noEnv 0 "lr a, 8".toList = .ok (.insn ⟨.OK, [0x48], []⟩) ∧
    assemble noEnv 0 "out -1".toList = .ok (.insn ⟨.OK, [0x27, 0xff], []⟩) ∧
    assemble noEnv 0 "dci *+1234".toList = .ok (.insn ⟨.OK, [0x2a, 0x04, 0xd2], []⟩) := by
  decide +kernel

/-- The name need not be that of the line: a branch on no bit of the status is one on every status. -/
theorem branch_always :
    assemble noEnv 0x1000 "BF 0, H'1010'".toList = .ok (.insn ⟨.OK, [0x90, 0x0f], []⟩) ∧
    (disassemble (.default '$') 0x1000 [0x90, 0x0f]).name = "BR".toList := by
  decide +kernel

/-- The operands need not be those of the line: of an address with more than 16 bits the upper ones are lost
without error. -/
theorem address_truncated :
    assemble noEnv 0 "DCI H'12345'".toList = .ok (.insn ⟨.OK, [0x2a, 0x23, 0x45], []⟩) ∧
    (disassemble (.default '$') 0 [0x2a, 0x23, 0x45]).operands = "H'2345'".toList := by
  decide +kernel

end Libasm.Cpu.F3850
