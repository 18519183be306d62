import Verif.Cpu.Back
import Verif.Cpu.Tms7000.Props
/-
C29 for the tms7000: whatever line the assembler takes, the disassembler reads the bytes of it as one
instruction of the same name, or of a name with the same code.
-/
namespace Libasm.Cpu.Tms7000
open Scan Number Eval
open Tables (Row)

/-! ### Names for the same code -/

/-- Names for the same code; of these the disassembler prints the second. -/
def synonyms : List (String × List String) :=
  [("CLRC", ["TSTA"]), ("JLT", ["JN"]), ("JEQ", ["JZ"]), ("JHS", ["JC"]), ("JGT", ["JP"]), ("JGE", ["JPZ"]),
    ("JNE", ["JNZ"]), ("JL", ["JNC"])]

/-- The line has the name of the instruction or another one for the same code. -/
def WrittenLike (line name : List Char) : Prop :=
  WrittenAs line name ∨
  ∃ s ∈ synonyms, ∃ b ∈ s.2, WrittenAs line s.1.toList ∧ Table.Spec.Same b.toList name

def alike (a b : List Char) : Bool :=
  a == b || synonyms.any fun s => s.1.toList == a && (s.2.map String.toList).contains b

theorem written_alike {line a b c : List Char} (h : WrittenAs line a) (hab : alike a b = true)
    (hbc : Table.Spec.Same b c) : WrittenLike line c := by
  unfold alike at hab
  simp only [Bool.or_eq_true, beq_iff_eq, List.any_eq_true, Bool.and_eq_true, List.contains_iff_mem] at hab
  rcases hab with rfl | ⟨g, hg, h1, h2⟩
  · exact Or.inl (h.letters hbc)
  · obtain ⟨y, y1, y2⟩ := List.mem_map.1 h2
    exact Or.inr ⟨g, hg, y, y1, by rw [h1]; exact h, by rw [y2]; exact hbc⟩

/-! ### Encoding -/

theorem hasError_ne {e : Err} (h : hasError e = true) : e ≠ .OK := by
  intro he
  rw [he] at h
  exact absurd h (by decide)

theorem parse_err {P : Plugins Value} {scan : Scan} {e : Err} {rest : Scan}
    (h : parseOperand P scan = .ok (.error (e, rest))) : e ≠ .OK := by
  have good : ∀ {x : Operand × Scan}, (Out.ok (Except.ok x) : Out (Except (Err × Scan) (Operand × Scan))) =
      .ok (.error (e, rest)) → e ≠ .OK := by
    intro x h
    injection h with h
    cases h
  have bad : ∀ {e' : Err} {p : Scan}, (Out.ok (Except.error (e', p)) : Out (Except (Err × Scan) (Operand × Scan))) =
      .ok (.error (e, rest)) → e' ≠ .OK → e ≠ .OK := by
    intro e' p h h1
    injection h with h
    injection h with h
    injection h with h
    rw [← h]
    exact h1
  have index : ∀ {s : Scan} {e' : Err}, hasIndexB s = .error e' → e' ≠ .OK := by
    intro s e' h
    unfold hasIndexB at h
    split at h
    · cases h
    · split at h
      · split at h
        · cases h
        · injection h with h; rw [← h]; decide
      · injection h with h; rw [← h]; decide
      · injection h with h; rw [← h]; decide
  have address : ∀ {start p : Scan} {i a : Bool}, parseAddress P start i a p = .ok (.error (e, rest)) → e ≠ .OK := by
    intro start p i a h
    unfold parseAddress at h
    obtain ⟨⟨v, e', p⟩, h3, h4⟩ := bind_ok h
    dsimp only at h4
    split at h4
    · rename_i he
      exact bad h4 (hasError_ne he)
    · split at h4
      · rename_i he
        exact bad h4 (index he)
      · split at h4
        · exact good h4
        · exact bad h4 (by decide)
      · split at h4
        · split at h4
          · exact bad h4 (by decide)
          · exact good h4
        · split at h4 <;> exact good h4
  have memory : ∀ {start p : Scan} {i : Bool}, parseMemory P start i p = .ok (.error (e, rest)) → e ≠ .OK := by
    intro start p i h
    unfold parseMemory at h
    split at h
    · split at h
      · exact good h
      · split at h
        · exact good h
        · exact bad h (by decide)
    · split at h
      · split at h
        · exact bad h (by decide)
        · exact address h
      · exact address h
  unfold parseOperand at h
  dsimp only at h
  split at h
  · obtain ⟨⟨v, e', p⟩, h3, h4⟩ := bind_ok h
    dsimp only at h4
    split at h4
    · rename_i he
      exact bad h4 (hasError_ne he)
    · split at h4
      · rename_i he
        exact bad h4 (index he)
      · exact good h4
      · exact good h4
  · split at h <;> exact memory h

/-- The codes that an operand may make of one. -/
def codes (m : Mode) (c : Nat) : List Nat :=
  match m with
  | .TRAP => (List.range 24).map fun f => (c + f) % 256
  | _ => [c]

/-- The codes that may become of one. -/
def reach : List Mode → Nat → List Nat
  | [], c => [c]
  | m :: ms, c => (codes m c).flatMap (reach ms)

/-- The bytes `x` an operand may have, after `n` others. -/
def Fits (addr : Nat) (m : Mode) (n : Nat) (x : List Nat) : Prop :=
  match m with
  | .RN | .PN | .IM8 | .IDIR => ∃ v, v < 256 ∧ x = [v]
  | .ABS | .BIDX | .IM16 | .BIMM => ∃ v w, v < 256 ∧ w < 256 ∧ x = [v, w]
  | .REL => ∃ v, v < 256 ∧ x = [v] ∧ (addr + n + 1 ≤ 65536 →
    0 ≤ ((addr + n + 1 : Nat) : Int) + int8 v ∧ ((addr + n + 1 : Nat) : Int) + int8 v < 65536)
  | _ => x = []

/-- What is known of the instruction when some modes are still to come. -/
def Known (ms : List Mode) (opc : Nat) (rem : List Mode) (a : Asm) : Prop :=
  a.opc < 256 ∧ ∀ c ∈ reach rem a.opc, c ∈ reach ms opc

theorem check_any {a : Asm} {c : Bool} {e : Err} (h : (a.check c e).err = .OK) (he : e ≠ .OK) :
    c = false ∧ a.check c e = a := (Asm.check_ok he h).2

theorem setErr_any {a : Asm} {e : Err} (h : (a.setErrorIf e).err = .OK) :
    a.err = .OK ∧ e = .OK ∧ a.setErrorIf e = a := by
  obtain ⟨h1, h2⟩ := setErrorIf_ok h
  exact ⟨h1, h2, by rw [h2]; exact Asm.noError a⟩

theorem emitted {addr : Nat} {m : Mode} {op : Operand} {a a' : Asm}
    (h : encodeOperand addr m op a = .ok a') (he : a'.err = .OK) :
    a.err = .OK ∧ op.err = .OK ∧ a.setErrorIf op.err = a := by
  have key : ∀ b : Asm, b = a.setErrorIf op.err → b.err = .OK →
      a.err = .OK ∧ op.err = .OK ∧ a.setErrorIf op.err = a := by
    intro b hb h1
    rw [hb] at h1
    exact setErr_any h1
  unfold encodeOperand at h
  generalize hb : a.setErrorIf op.err = b at h
  have key := key b hb.symm
  rw [hb] at key
  dsimp only at h
  cases m with
  | TRAP =>
    dsimp only at h
    split at h
    · injection h with h
      subst h
      cases he
    · injection h with h
      subst h
      exact key he
  | REL =>
    unfold encodeRelative at h
    exact key (Asm.rel8_back (by decide) (by decide) h he).1
  | _ =>
    injection h with h
    subst h
    exact key he

theorem fitted {addr opc : Nat} {ms : List Mode} {m : Mode} {rem : List Mode} {op : Operand}
    {a a' : Asm} (hp : Known ms opc (m :: rem) a)
    (h : encodeOperand addr m op a = .ok a') (he : a'.err = .OK) :
    Known ms opc rem a' ∧ ∃ x, a'.ops = a.ops ++ x ∧ Fits addr m (1 + a.ops.length) x := by
  obtain ⟨e1, e2, e3⟩ := emitted h he
  have known : ∀ {a' : Asm}, a'.opc ∈ codes m a.opc → a'.opc < 256 → Known ms opc rem a' := by
    intro a' h2 h3
    refine ⟨h3, ?_⟩
    intro c hc
    apply hp.2
    unfold reach
    rw [List.mem_flatMap]
    exact ⟨a'.opc, h2, hc⟩
  have same : ∀ {a' : Asm}, a.opc ∈ codes m a.opc → a'.opc = a.opc → Known ms opc rem a' := by
    intro a' h1 h2
    exact known (by rw [h2]; exact h1) (by rw [h2]; exact hp.1)
  have b8 : ∀ v, v % 256 < 256 := fun v => Nat.mod_lt _ (by decide)
  have nothing : a.opc ∈ codes m a.opc → Out.ok a = Out.ok a' →
      Known ms opc rem a' ∧ ∃ x, a'.ops = a.ops ++ x ∧ x = [] := by
    intro h1 h2
    injection h2 with h2
    subst h2
    exact ⟨same h1 rfl, [], by rw [List.append_nil], rfl⟩
  unfold encodeOperand at h
  rw [e3] at h
  dsimp only at h
  cases m with
  | TRAP =>
    dsimp only at h
    split at h
    · injection h with h
      subst h
      cases he
    · rename_i hv
      injection h with h
      subst h
      have := overflow_le (by decide) (Bool.eq_false_iff.2 hv)
      refine ⟨known (List.mem_map.2 ⟨23 - op.val.getUnsigned, List.mem_range.2 (by omega), ?_⟩) (b8 _), [],
        by rw [List.append_nil], rfl⟩
      dsimp only
      unfold Config.W
      omega
  | RN | PN | IM8 | IDIR =>
    injection h with h
    subst h
    exact ⟨same (List.mem_singleton.2 rfl) rfl, _, rfl, _, b8 _, rfl⟩
  | ABS | BIDX | IM16 | BIMM =>
    injection h with h
    subst h
    exact ⟨same (List.mem_singleton.2 rfl) rfl, _, rfl, _, _, b8 _, b8 _, rfl⟩
  | REL =>
    unfold encodeRelative at h
    dsimp only at h
    rw [e2, if_neg (not_not_intro (rfl : Err.OK = .OK))] at h
    obtain ⟨_, h1, v, h2, h3, h4⟩ := Asm.rel8_back (by decide) (by decide) h he
    refine ⟨same (List.mem_singleton.2 rfl) h1, [v], h3, v, h2, rfl, ?_⟩
    intro h5
    have hbase : (addr + (if a.length = 0 then 2 else a.length + 1)) % Config.W = addr + (1 + a.ops.length) + 1 := by
      unfold Asm.length Config.W
      by_cases h0 : a.ops = []
      · rw [if_pos h0, if_pos rfl, h0]
        simp only [List.length_nil]
        omega
      · rw [if_neg h0, if_neg (by omega)]
        omega
    rw [hbase] at h4
    obtain ⟨h6, h7⟩ := h4 (by omega) (by unfold Config.W; omega) (by unfold Value.getUnsigned Config.W; omega)
    rw [← h7]
    omega
  | _ => exact nothing (List.mem_singleton.2 rfl) h

/-! ### Decoding -/

/-- The mode has bytes of its own. -/
def takes : Mode → Bool
  | .RN | .PN | .IM8 | .IDIR | .ABS | .BIDX | .IM16 | .BIMM | .REL => true
  | _ => false

theorem decoded {addr c T : Nat} (o : Opts) (hT : addr + T ≤ 65536) (m : Mode)
    (x rest bytes : List Nat) (hl : bytes.length + x.length ≤ T) (h : Fits addr m bytes.length x) :
    (decodeOperand o addr c m ⟨x ++ rest, bytes, .OK⟩).2 = ⟨rest, bytes ++ x, .OK⟩ := by
  have none : x = [] → (⟨x ++ rest, bytes, .OK⟩ : Rd) = ⟨rest, bytes ++ x, .OK⟩ := by
    intro h
    rw [h, List.nil_append, List.append_nil]
  have one : (∃ v, v < 256 ∧ x = [v]) → (⟨x ++ rest, bytes, .OK⟩ : Rd).byte.2 = ⟨rest, bytes ++ x, .OK⟩ := by
    rintro ⟨v, h1, rfl⟩
    rw [List.singleton_append, byte_some h1]
  have two : (∃ v w, v < 256 ∧ w < 256 ∧ x = [v, w]) →
      (⟨x ++ rest, bytes, .OK⟩ : Rd).be16.2 = ⟨rest, bytes ++ x, .OK⟩ := by
    rintro ⟨v, w, h1, h2, rfl⟩
    exact two_bytes (by simp [h1, h2]) rfl
  unfold decodeOperand
  cases m with
  | RN =>
    have h1 := one h
    unfold decodeRegister
    dsimp only
    split <;> exact h1
  | PN | IDIR | IM8 => exact one h
  | IM16 | BIMM | ABS | BIDX => exact two h
  | REL =>
    obtain ⟨v, h1, rfl, h3⟩ := h
    unfold decodeRelative
    rw [List.singleton_append, byte_some h1]
    dsimp only
    have hl : bytes.length + 1 ≤ T := hl
    have hlen : (bytes ++ [v]).length = bytes.length + 1 := by simp
    obtain ⟨h4, h5⟩ := h3 (by omega)
    have hlt : ((((addr + (bytes ++ [v]).length : Nat) : Int) + int8 v) % Config.W).toNat < 65536 := by
      unfold Config.W
      rw [hlen]
      omega
    rw [Config.checkAddr_eq false (by decide) (by unfold Config.W; omega), if_neg (by omega)]
    rfl
  | _ => exact none h

theorem fit_takes {addr : Nat} : ∀ (ms : List Mode) (n : Nat) (x : List Nat),
    Fit (Fits addr) ms n x ↔ Fit (Fits addr) (ms.filter takes) n x
  | [], _, _ => Iff.rfl
  | m :: ms, n, x => by
    have ih := fit_takes (addr := addr) ms
    by_cases ht : takes m = true
    · rw [List.filter_cons, if_pos ht]
      constructor
      · rintro ⟨y, z, h1, h2, h3⟩
        exact ⟨y, z, h1, h2, (ih _ _).1 h3⟩
      · rintro ⟨y, z, h1, h2, h3⟩
        exact ⟨y, z, h1, h2, (ih _ _).2 h3⟩
    · rw [List.filter_cons, if_neg ht, ← ih]
      have hf : ∀ n y, Fits addr m n y ↔ y = [] := by
        intro n y
        cases m <;> first
          | exact Iff.rfl
          | exact absurd rfl ht
      constructor
      · rintro ⟨y, z, h1, h2, h3⟩
        have := (hf _ _).1 h2
        subst this
        rw [h1]
        exact h3
      · intro h
        exact ⟨[], x, rfl, (hf _ _).2 rfl, h⟩

/-! ### The instruction table -/

/-- The code `c` of a row is read as that row, or as one of another name with the same bytes. -/
def readsB (r : Row) (c : Nat) : Bool :=
  decide (c < 256) &&
  match searchOpCode c with
  | none => false
  | some r' => alike r.name r'.name && decide ((modes r').filter takes = (modes r).filter takes)

/-- What a row can be encoded to is read as that row. -/
def rowB (r : Row) : Bool :=
  decide ('\x00' ∉ r.name) && decide (r.name.length < 11) && decide ('=' ∉ r.name) &&
  decide ((modes r).length ≤ 3) && decide (r.opcode < 256) &&
  (reach (pad 3 .NONE (modes r)) r.opcode).all (readsB r)

theorem rows_ok : (pages.all fun p => p.entries.all rowB) = true := by decide +kernel

theorem alnum (c : Char) (h : Ctype.isAlnum c = true) : syntaxOf.instructionLetter c = true :=
  show Eval.symbolLetter false c = true by
    unfold Eval.symbolLetter
    unfold Ctype.isAlnum at h
    rw [Bool.not_false, Bool.true_and, h]
    rfl

/-- From the operands to the bytes of an entry, and back. -/
theorem insn_back {addr : Nat} {row : Row} {ops : List Operand} {a : Asm} (hB : rowB row = true)
    (hlen : ops.length = 3)
    (h : emitList (encodeOperand addr) ((pad 3 .NONE (modes row)).zip ops) ⟨.OK, row.opcode, []⟩ = .ok a)
    (he : a.err = .OK) (hend : addr + a.bytes.length ≤ 65536) (o : Opts) (more : List Nat) :
    ∃ c row', c < 256 ∧ searchOpCode c = some row' ∧ alike row.name row'.name = true ∧ a.bytes = c :: a.ops ∧
      (decodeList (decodeOperand o addr c) (modes row') ⟨a.ops ++ more, [c], .OK⟩).2 = ⟨more, c :: a.ops, .OK⟩ := by
  unfold rowB at hB
  simp only [Bool.and_eq_true, decide_eq_true_eq, List.all_eq_true] at hB
  obtain ⟨⟨⟨⟨⟨b1, b2⟩, b3⟩, b4⟩, b5⟩, b7⟩ := hB
  have hmono : ∀ (m : Mode) (op : Operand) (a a' : Asm), encodeOperand addr m op a = .ok a' → a'.err = .OK →
      a.err = .OK := fun m op a a' h1 h2 => (emitted h1 h2).1
  have hl : (pad 3 .NONE (modes row)).length = ops.length := by rw [pad_length, hlen]
  obtain ⟨_, k1, x, k2, k3⟩ := emit_fit (P := Known (pad 3 .NONE (modes row)) row.opcode)
    (Q := fun m op => True)
    (Fits := Fits addr) hmono (fun m rem op a a' hq hp h1 h2 => fitted hp h1 h2)
    _ _ _ (fun p hp => trivial)
    (by
      rw [zip_fst _ _ hl]
      exact ⟨b5, fun _ h => h⟩) h he
  rw [zip_fst _ _ hl] at k3
  have hx : a.ops = x := k2
  have f := b7 a.opc (k1.2 _ (List.mem_singleton.2 rfl))
  unfold readsB at f
  simp only [Bool.and_eq_true, decide_eq_true_eq] at f
  obtain ⟨f1, f2⟩ := f
  split at f2
  · cases f2
  · rename_i row' hrow'
    simp only [Bool.and_eq_true, decide_eq_true_eq] at f2
    obtain ⟨f3, f4⟩ := f2
    have hbytes : a.bytes = a.opc :: a.ops := by
      unfold Asm.bytes
      rw [Nat.mod_eq_of_lt f1]
    refine ⟨a.opc, row', f1, hrow', f3, hbytes, ?_⟩
    rw [hx]
    have k4 := fit_pad (m0 := Mode.NONE) (fun n x h => h) 3 _ _ _ b4 k3
    rw [fit_takes, ← f4, ← fit_takes] at k4
    refine list_decoded (Fits := Fits addr) (1 + x.length) _ x more [a.opc] ?_ (Nat.le_refl _) k4
    intro m _ x' rest bytes hT hf
    refine decoded o ?_ m x' rest bytes hT hf
    rw [hbytes, hx, List.length_cons] at hend
    omega

/-- Whatever line is assembled without error, at any address and with any symbols, and does not run past the end
of the memory: the disassembler, with any options, reads the bytes of it, whatever follows them, as one
instruction, without error. It has the name written in the line, or another name for the same code.
What is missing of C29: that the operands are those of the line, and the exception `C29_violated_wrap`. -/
theorem C29_tms7000_partial {E : Env} {addr : Nat} {line : List Char} {bytes : List Nat} {rest : Scan}
    (h : assemble E addr line = .ok (.insn ⟨.OK, bytes, rest⟩))
    (hend : addr + bytes.length ≤ 2 ^ 16) (o : Opts) (more : List Nat) :
    (disassemble o addr (bytes ++ more)).err = .OK ∧
    (disassemble o addr (bytes ++ more)).bytes = bytes ∧
    WrittenLike line (disassemble o addr (bytes ++ more)).name := by
  obtain ⟨word, scan, hi, haddr, hw, blanks, tail, hline, hblank⟩ :=
    encode_line_inv (by decide) rfl h
  unfold encodeImpl at hi
  obtain ⟨has, _, hi⟩ := bind_ok hi
  obtain ⟨x, d1, d2⟩ := bind_ok hi
  cases x with
  | error e =>
    obtain ⟨e, p⟩ := e
    injection d2 with d2
    injection d2 with d2
    cases has with
    | true => exact absurd d2 (operands_err (fun s e p h => parse_err h) _ _ _ _ d1)
    | false => cases d1
  | ok x =>
    obtain ⟨ops, s⟩ := x
    dsimp only at d2
    obtain ⟨x, f1, f2⟩ := bind_ok d2
    unfold searchName searchWith at f1
    split at f1
    · rename_i pre row hs
      injection f1 with f1
      subst f1
      dsimp only at f2
      obtain ⟨a, g1, g2⟩ := bind_ok f2
      injection g2 with g2
      injection g2 with g2 g3 g4
      obtain ⟨p, hp, rfl, hrow, hcmp, hacc⟩ := searchName_mem hs
      have hB : rowB row = true := List.all_eq_true.1 (List.all_eq_true.1 rows_ok p hp) row hrow
      subst g3
      obtain ⟨c, row', k1, k2, k0, k3, k4⟩ := insn_back hB (pad_length _ _ _) g1 g2 hend o more
      have hdis : disassemble o addr (a.bytes ++ more) = decodeImpl o addr (a.bytes ++ more) := by
        unfold disassemble decode
        rw [haddr]
        rfl
      rw [hdis, k3]
      unfold decodeImpl
      rw [List.cons_append, byte_some k1]
      dsimp only [List.nil_append]
      rw [k2]
      dsimp only
      rw [k4]
      unfold rowB at hB
      simp only [Bool.and_eq_true, decide_eq_true_eq] at hB
      obtain ⟨⟨⟨⟨⟨b1, b2⟩, b3⟩, _⟩, _⟩, _⟩ := hB
      have hname : WrittenAs line row.name := written alnum (fun c h => by cases h) hw b1 b2 hcmp b3 hline hblank
      exact ⟨rfl, rfl, written_alike hname k0 (outText_same o _)⟩
    · rename_i e hs
      injection f1 with f1
      subst f1
      injection f2 with f2
      injection f2 with f2 f3 f4
      exact absurd f2 (searchName_err hs)
    · cases f1

/-- `C29_tms7000_partial` has something to say of operands of several kinds. -/
example :
    assemble noEnv 0x1000 "  btjop %5, p6, $-1 ; comment".toList =
      .ok (.insn ⟨.OK, [0xa6, 0x05, 0x06, 0xfb], "; comment".toList⟩) ∧
    assemble noEnv 0 "dec r0".toList = .ok (.insn ⟨.OK, [0xd2, 0x00], []⟩) ∧
    assemble noEnv 0 "dec a".toList = .ok (.insn ⟨.OK, [0xb2], []⟩) ∧
    assemble noEnv 0 "movd %>1234(b), r5".toList = .ok (.insn ⟨.OK, [0xa8, 0x12, 0x34, 0x05], []⟩) ∧
    assemble noEnv 0 "lda *r18".toList = .ok (.insn ⟨.OK, [0x9a, 0x12], []⟩) ∧
    assemble noEnv 0 "trap 23".toList = .ok (.insn ⟨.OK, [0xe8], []⟩) := by
  decide +kernel

/-- The name need not be that of the line. -/
theorem another_name :
    assemble noEnv 0x1000 "JL $".toList = .ok (.insn ⟨.OK, [0xe7, 0xfe], []⟩) ∧
    (disassemble (.default '$') 0x1000 [0xe7, 0xfe]).name = "JNC".toList := by
  decide +kernel

/-- The operands need not be those of the line: of an address with more than 16 bits the upper ones are lost
without error. -/
theorem address_truncated :
    assemble noEnv 0 "BR @>12345".toList = .ok (.insn ⟨.OK, [0x8c, 0x23, 0x45], []⟩) ∧
    (disassemble (.default '$') 0 [0x8c, 0x23, 0x45]).operands = "@>2345".toList := by
  decide +kernel

/-- The exception: a branch at the end of the memory to its begin is accepted, and no address for the
disassembler. -/
theorem C29_violated_wrap :
    assemble noEnv 0xfffe "DJNZ R5, 0".toList = .ok (.insn ⟨.OK, [0xda, 0x05, 0xff], []⟩) ∧
    (disassemble (.default '$') 0xfffe [0xda, 0x05, 0xff]).err = .OVERFLOW_RANGE := by
  decide +kernel

end Libasm.Cpu.Tms7000
