import Verif.Cpu.Back
import Verif.Cpu.Mc6805.Props
/-
C29 for the mc6805: whatever line the assembler takes, the disassembler reads the bytes of it as one
instruction of the same name, or of a name with the same code.
-/
namespace Libasm.Cpu.Mc6805
open Scan Number Eval
open Tables (Row)

/-! ### Names for the same code -/

/-- Names for the same code; of these the disassembler prints the second. -/
def synonyms : List (String × List String) :=
  [("BCC", ["BHS"]), ("BCS", ["BLO"]), ("LSL", ["ASL"]), ("LSLA", ["ASLA"]), ("LSLX", ["ASLX"])]

/-- The line has the name of the instruction or another one for the same code. -/
def WrittenLike (line name : List Char) : Prop :=
  WrittenAs line name ∨
  ∃ s ∈ synonyms, ∃ b ∈ s.2, WrittenAs line s.1.toList ∧ Table.Spec.Same b.toList name

def alike (a b : List Char) : Bool :=
  a == b || synonyms.any fun s => s.1.toList == a && (s.2.map String.toList).contains b

theorem written_alike {line a b c : List Char} (h : WrittenAs line a) (hab : alike a b = true)
    (hbc : Table.Spec.Same b c) : WrittenLike line c := by
  unfold alike at hab
  simp only [Bool.or_eq_true, beq_iff_eq, List.any_eq_true, Bool.and_eq_true, List.contains_iff_mem] at hab
  rcases hab with rfl | ⟨g, hg, h1, h2⟩
  · exact Or.inl (h.letters hbc)
  · obtain ⟨y, y1, y2⟩ := List.mem_map.1 h2
    exact Or.inr ⟨g, hg, y, y1, by rw [h1]; exact h, by rw [y2]; exact hbc⟩

/-! ### Encoding -/

theorem hasError_ne {e : Err} (h : hasError e = true) : e ≠ .OK := by
  intro he
  rw [he] at h
  exact absurd h (by decide)

theorem parse_err {P : Plugins Value} {scan : Scan} {e : Err} {rest : Scan}
    (h : parseOperand P scan = .ok (.error (e, rest))) : e ≠ .OK := by
  have good : ∀ {x : Operand × Scan}, (Out.ok (Except.ok x) : Out (Except (Err × Scan) (Operand × Scan))) =
      .ok (.error (e, rest)) → e ≠ .OK := by
    intro x h
    injection h with h
    cases h
  have bad : ∀ {e' : Err} {p : Scan}, (Out.ok (Except.error (e', p)) : Out (Except (Err × Scan) (Operand × Scan))) =
      .ok (.error (e, rest)) → e' ≠ .OK → e ≠ .OK := by
    intro e' p h h1
    injection h with h
    injection h with h
    injection h with h
    rw [← h]
    exact h1
  unfold parseOperand at h
  dsimp only at h
  split at h
  · obtain ⟨⟨v, e', p⟩, h3, h4⟩ := bind_ok h
    dsimp only at h4
    split at h4
    · rename_i he
      exact bad h4 (hasError_ne he)
    · exact good h4
  · split at h
    · split at h
      · exact good h
      · exact bad h (by decide)
    · unfold parseAddress at h
      obtain ⟨⟨v, e', p⟩, h3, h4⟩ := bind_ok h
      dsimp only at h4
      split at h4
      · rename_i he
        exact bad h4 (hasError_ne he)
      · split at h4 <;> exact good h4

/-- The bytes `x` an operand may have, after `n` others, in a mode that is not generic. -/
def Fits (w addr : Nat) (m : Mode) (n : Nat) (x : List Nat) : Prop :=
  match m with
  | .DIR | .IDX | .IMM => ∃ v, v < 256 ∧ x = [v]
  | .IX2 => ∃ v w, v < 256 ∧ w < 256 ∧ x = [v, w]
  | .EXT => ∃ v, v < 65536 ∧ v < 2 ^ w ∧ x = [v / 256, v % 256]
  | .REL => ∃ v, v < 256 ∧ x = [v] ∧ (addr + n + 1 ≤ 2 ^ w →
    0 ≤ ((addr + n + 1 : Nat) : Int) + int8 v ∧ ((addr + n + 1 : Nat) : Int) + int8 v < 2 ^ w)
  | _ => x = []

theorem check_any {a : Asm} {c : Bool} {e : Err} (h : (a.check c e).err = .OK) (he : e ≠ .OK) :
    c = false ∧ a.check c e = a := (Asm.check_ok he h).2

theorem setErr_any {a : Asm} {e : Err} (h : (a.setErrorIf e).err = .OK) :
    a.err = .OK ∧ e = .OK ∧ a.setErrorIf e = a := by
  obtain ⟨h1, h2⟩ := setErrorIf_ok h
  exact ⟨h1, h2, by rw [h2]; exact Asm.noError a⟩

/-- What is emitted for an operand, in a mode that is not generic. -/
def emitPlain (w addr : Nat) (m : Mode) (op : Operand) (a : Asm) : Out Asm :=
  emitMode w addr m op (a.setErrorIf op.err)

theorem encode_plain (w addr : Nat) (m : Mode) (op : Operand) (a : Asm) :
    encodeOperand w addr m op a = emitPlain w addr (place m op.mode op.val.getUnsigned a.opc).2 op
      { a with opc := (place m op.mode op.val.getUnsigned a.opc).1 } := rfl

/-- A mode that is not generic. -/
def plain : Mode → Bool
  | .GEN | .MEM | .BNO => false
  | _ => true

theorem encode_same (w addr : Nat) {m : Mode} (hm : plain m = true) (op : Operand) (a : Asm) :
    encodeOperand w addr m op a = emitPlain w addr m op a := by
  rw [encode_plain]
  cases m <;> first | rfl | cases hm

theorem emitted {w addr : Nat} (hw : w ≤ 32) (h0 : 0 < w) {m : Mode} {op : Operand} {a a' : Asm}
    (h : emitPlain w addr m op a = .ok a') (he : a'.err = .OK) :
    a.err = .OK ∧ op.err = .OK ∧ a.setErrorIf op.err = a := by
  have key : ∀ b : Asm, b = a.setErrorIf op.err → b.err = .OK →
      a.err = .OK ∧ op.err = .OK ∧ a.setErrorIf op.err = a := by
    intro b hb h1
    rw [hb] at h1
    exact setErr_any h1
  unfold emitPlain emitMode at h
  generalize hb : a.setErrorIf op.err = b at h
  have key := key b hb.symm
  rw [hb] at key
  dsimp only at h
  have chk : ∀ {c : Bool} {v : Nat}, Out.ok ((b.check c .OVERFLOW_RANGE).emit8 v) = Out.ok a' →
      a.err = .OK ∧ op.err = .OK ∧ b = a := by
    intro c v h
    injection h with h
    rw [← h] at he
    have he : (b.check c .OVERFLOW_RANGE).err = .OK := he
    exact key ((check_any he (by decide)).2 ▸ he)
  cases m with
  | REL =>
    unfold emitRelative at h
    exact key (Asm.rel8_back h0 hw h he).1
  | DIR | IDX | IMM => exact chk h
  | EXT =>
    injection h with h
    rw [← h] at he
    have he : (b.check (decide (Config.checkAddr w op.val.getUnsigned false ≠ .OK)) .OVERFLOW_RANGE).err = .OK := he
    exact key ((check_any he (by decide)).2 ▸ he)
  | _ =>
    injection h with h
    subst h
    exact key he

/-- What is known of the instruction: its code. -/
def Known (c : Nat) (_ : List Mode) (a : Asm) : Prop := a.opc = c

theorem fitted {w addr c : Nat} (hw : w ≤ 16) (h0 : 0 < w) {m : Mode} {rem : List Mode} {op : Operand}
    {a a' : Asm} (hp : Known c (m :: rem) a)
    (h : emitPlain w addr m op a = .ok a') (he : a'.err = .OK) :
    Known c rem a' ∧ ∃ x, a'.ops = a.ops ++ x ∧ Fits w addr m (1 + a.ops.length) x := by
  obtain ⟨e1, e2, e3⟩ := emitted (by omega) h0 h he
  have h16 : 2 ^ w ≤ 2 ^ 16 := Nat.pow_le_pow_right (by decide) hw
  have b8 : ∀ v, v % 256 < 256 := fun v => Nat.mod_lt _ (by decide)
  unfold emitPlain emitMode at h
  rw [e3] at h
  dsimp only at h
  have one : ∀ {c' : Bool} {v : Nat}, Out.ok ((a.check c' .OVERFLOW_RANGE).emit8 v) = Out.ok a' →
      Known c rem a' ∧ ∃ x, a'.ops = a.ops ++ x ∧ ∃ v, v < 256 ∧ x = [v] := by
    intro c' v h
    injection h with h
    subst h
    have he : (a.check c' .OVERFLOW_RANGE).err = .OK := he
    rw [(check_any he (by decide)).2]
    exact ⟨hp, _, rfl, _, b8 _, rfl⟩
  cases m with
  | DIR | IDX | IMM => exact one h
  | IX2 =>
    injection h with h
    subst h
    exact ⟨hp, _, rfl, _, _, b8 _, b8 _, rfl⟩
  | EXT =>
    injection h with h
    subst h
    have he : (a.check (decide (Config.checkAddr w op.val.getUnsigned false ≠ .OK)) .OVERFLOW_RANGE).err = .OK := he
    obtain ⟨k1, k2⟩ := check_any he (by decide)
    rw [k2]
    have k1 := Decidable.of_not_not (of_decide_eq_false k1)
    have hlt : op.val.getUnsigned < 2 ^ w := by
      rw [Config.checkAddr_eq false (by omega) (by unfold Value.getUnsigned Config.W; omega)] at k1
      split at k1
      · cases k1
      · rename_i hlt
        simpa using hlt
    refine ⟨hp, [op.val.getUnsigned / 256, op.val.getUnsigned % 256], ?_, _, by omega, hlt, rfl⟩
    unfold Asm.emit16be
    rw [show op.val.getUnsigned / 256 % 256 = op.val.getUnsigned / 256 by omega]
  | REL =>
    unfold emitRelative at h
    dsimp only at h
    rw [e2, if_neg (not_not_intro (rfl : Err.OK = .OK))] at h
    obtain ⟨_, h1, v, h2, h3, h4⟩ := Asm.rel8_back h0 (by omega) h he
    refine ⟨h1.trans hp, [v], h3, v, h2, rfl, ?_⟩
    intro h5
    have hbase : (addr + a.length + (if a.length = 0 then 2 else 1)) % Config.W = addr + (1 + a.ops.length) + 1 := by
      unfold Asm.length Config.W
      by_cases h0 : a.ops = []
      · rw [if_pos h0, if_pos rfl, h0]
        simp only [List.length_nil]
        omega
      · rw [if_neg h0, if_neg (by omega)]
        omega
    rw [hbase] at h4
    obtain ⟨h6, h7⟩ := h4 h5 (by unfold Config.W; omega) (by unfold Value.getUnsigned Config.W; omega)
    rw [← h7]
    have : ((2 ^ w : Nat) : Int) = 2 ^ w := by push_cast; rfl
    omega
  | _ =>
    injection h with h
    subst h
    exact ⟨hp, [], by rw [List.append_nil], rfl⟩

/-! ### Decoding -/

/-- The mode has bytes of its own. -/
def takes : Mode → Bool
  | .DIR | .IDX | .IMM | .IX2 | .EXT | .REL => true
  | _ => false

theorem decoded {w addr c T : Nat} (hw : w ≤ 16) (o : Opts) (hT : addr + T ≤ 2 ^ w) (m : Mode)
    (x rest bytes : List Nat) (hl : bytes.length + x.length ≤ T) (h : Fits w addr (select c m) bytes.length x) :
    (decodeOperand o w addr c m ⟨x ++ rest, bytes, .OK⟩).2 = ⟨rest, bytes ++ x, .OK⟩ := by
  have h16 : 2 ^ w ≤ 2 ^ 16 := Nat.pow_le_pow_right (by decide) hw
  have none : x = [] → (⟨x ++ rest, bytes, .OK⟩ : Rd) = ⟨rest, bytes ++ x, .OK⟩ := by
    intro h
    rw [h, List.nil_append, List.append_nil]
  have one : (∃ v, v < 256 ∧ x = [v]) → (⟨x ++ rest, bytes, .OK⟩ : Rd).byte.2 = ⟨rest, bytes ++ x, .OK⟩ := by
    rintro ⟨v, h1, rfl⟩
    rw [List.singleton_append, byte_some h1]
  unfold decodeOperand
  generalize select c m = s at *
  cases s with
  | DIR | IDX | IMM => exact one h
  | IX2 =>
    obtain ⟨v, w, h1, h2, rfl⟩ := h
    exact two_bytes (bs := [v, w]) (by simp [h1, h2]) rfl
  | EXT =>
    obtain ⟨v, h1, h2, rfl⟩ := h
    have e : (⟨[v / 256, v % 256] ++ rest, bytes, .OK⟩ : Rd).be16 = (v, ⟨rest, bytes ++ [v / 256, v % 256], .OK⟩) := by
      have e2 := two_bytes (bs := [v / 256, v % 256]) (mem := rest) (bytes := bytes) (by simp; omega) rfl
      have e1 : (⟨[v / 256, v % 256] ++ rest, bytes, .OK⟩ : Rd).be16.1 = v := by
        unfold Rd.be16
        rw [List.cons_append, byte_some (by omega)]
        dsimp only
        rw [List.cons_append, byte_some (by omega)]
        dsimp only
        omega
      exact Prod.ext e1 e2
    unfold decodeExtended
    rw [e]
    dsimp only
    rw [Config.checkAddr_eq false (by omega) (by unfold Config.W; omega), if_neg (by omega)]
    rfl
  | REL =>
    obtain ⟨v, h1, rfl, h3⟩ := h
    unfold decodeRelative
    rw [List.singleton_append, byte_some h1]
    dsimp only
    have hl : bytes.length + 1 ≤ T := hl
    have hlen : (bytes ++ [v]).length = bytes.length + 1 := by simp
    obtain ⟨h4, h5⟩ := h3 (by omega)
    have hcast : ((2 ^ w : Nat) : Int) = 2 ^ w := by push_cast; rfl
    have hlt : ((((addr + (bytes ++ [v]).length : Nat) : Int) + int8 v) % Config.W).toNat < 2 ^ w := by
      unfold Config.W
      rw [hlen]
      omega
    rw [Config.checkAddr_eq false (by omega) (by unfold Config.W; omega), if_neg (by omega)]
    rfl
  | _ => exact none h

theorem fit_takes {w addr : Nat} : ∀ (ms : List Mode) (n : Nat) (x : List Nat),
    Fit (Fits w addr) ms n x ↔ Fit (Fits w addr) (ms.filter takes) n x
  | [], _, _ => Iff.rfl
  | m :: ms, n, x => by
    have ih := fit_takes (w := w) (addr := addr) ms
    by_cases ht : takes m = true
    · rw [List.filter_cons, if_pos ht]
      constructor
      · rintro ⟨y, z, h1, h2, h3⟩
        exact ⟨y, z, h1, h2, (ih _ _).1 h3⟩
      · rintro ⟨y, z, h1, h2, h3⟩
        exact ⟨y, z, h1, h2, (ih _ _).2 h3⟩
    · rw [List.filter_cons, if_neg ht, ← ih]
      have hf : ∀ n y, Fits w addr m n y ↔ y = [] := by
        intro n y
        cases m <;> first
          | exact Iff.rfl
          | exact absurd rfl ht
      constructor
      · rintro ⟨y, z, h1, h2, h3⟩
        have := (hf _ _).1 h2
        subst this
        rw [h1]
        exact h3
      · intro h
        exact ⟨[], x, rfl, (hf _ _).2 rfl, h⟩

/-! ### The instruction table -/

/-- All modes. -/
def all : List Mode := [.NONE, .DIR, .EXT, .IDX, .REL, .IMM, .IX0, .IX2, .BNO, .GEN, .MEM, .UNDEF]

theorem mem_all (m : Mode) : m ∈ all := by cases m <;> decide

/-- The code `c` of a row, the first mode of which has become `s`, is read as that row, or as one of another name
with the same bytes. -/
def readsB (cpu : CpuType) (r : Row) (c : Nat) (s : Mode) : Bool :=
  decide (c < 256) &&
  match searchOpCode cpu c with
  | none => false
  | some r' => alike r.name r'.name &&
    decide (((modes r').map (select c)).filter takes = (s :: (pad 3 .NONE (modes r)).drop 1).filter takes)

/-- What a row can be encoded to is read as that row. -/
def rowB (cpu : CpuType) (r : Row) : Bool :=
  decide ('\x00' ∉ r.name) && decide (r.name.length < 11) && decide ('=' ∉ r.name) &&
  decide ((modes r).length ≤ 3) && ((pad 3 .NONE (modes r)).drop 1).all plain &&
  (all.filter fun x => acceptMode x ((pad 3 .NONE (modes r)).getD 0 .NONE)).all fun x =>
    (all.filter fun y => acceptMode y ((pad 3 .NONE (modes r)).getD 1 .NONE)).all fun y =>
    (all.filter fun z => acceptMode z ((pad 3 .NONE (modes r)).getD 2 .NONE)).all fun z =>
      ((if (pad 3 .NONE (modes r)).getD 0 .NONE = .BNO then List.range 8 else [0]).all fun v =>
        readsB cpu r (place ((pad 3 .NONE (modes r)).getD 0 .NONE) x v r.opcode).1
          (place ((pad 3 .NONE (modes r)).getD 0 .NONE) x v r.opcode).2) ||
      !rowIs (searchName cpu r.name [x, y, z]) r

theorem rows_ok (cpu : CpuType) : ((pages cpu).all fun p => p.entries.all (rowB cpu)) = true := by
  cases cpu <;> decide +kernel

theorem alnum (c : Char) (h : Ctype.isAlnum c = true) : syntaxOf.instructionLetter c = true :=
  show prefixSymbol (some ['.']) (some ['_', '.', '$']) false c = true from prefixSymbol_alnum h

theorem searchName_same {cpu : CpuType} {a b : List Char} (ha : '\x00' ∉ a) (hb : '\x00' ∉ b)
    (h : Table.strcasecmp a b = 0) (ops : List Mode) : searchName cpu a ops = searchName cpu b ops := by
  unfold searchName
  rw [show (fun r : Row => Table.strcasecmp a r.name) = fun r => Table.strcasecmp b r.name from
    funext fun r => strcasecmp_same ha hb h r.name]

theorem place_mod (m x : Mode) (v c : Nat) :
    ∃ n ∈ (if m = .BNO then List.range 8 else [0]), place m x v c = place m x n c := by
  by_cases h : m = .BNO
  · subst h
    rw [if_pos rfl]
    refine ⟨v % 8, List.mem_range.2 (Nat.mod_lt _ (by decide)), ?_⟩
    unfold place
    dsimp only
    rw [Nat.mod_mod]
  · rw [if_neg h]
    refine ⟨0, by simp, ?_⟩
    cases m <;> first | rfl | exact absurd rfl h

/-- From the operands to the bytes of an entry, and back. -/
theorem insn_back {cpu : CpuType} {w addr : Nat} {row : Row} {ops : List Operand} {a : Asm} (h0 : 0 < w) (hw : w ≤ 16)
    (hB : rowB cpu row = true) (hlen : ops.length = 3)
    (hs : searchName cpu row.name (ops.map (·.mode)) = .ok (.ok row))
    (hacc : acceptModes (ops.map (·.mode)) row = true)
    (h : emitList (encodeOperand w addr) ((pad 3 .NONE (modes row)).zip ops) ⟨.OK, row.opcode, []⟩ = .ok a)
    (he : a.err = .OK) (hend : addr + a.bytes.length ≤ 2 ^ w) (o : Opts) (more : List Nat) :
    ∃ c row', c < 256 ∧ searchOpCode cpu c = some row' ∧ alike row.name row'.name = true ∧ a.bytes = c :: a.ops ∧
      (decodeList (decodeOperand o w addr c) (modes row') ⟨a.ops ++ more, [c], .OK⟩).2 = ⟨more, c :: a.ops, .OK⟩ := by
  unfold rowB at hB
  simp only [Bool.and_eq_true, decide_eq_true_eq, List.all_eq_true] at hB
  obtain ⟨⟨⟨⟨⟨b1, b2⟩, b3⟩, b4⟩, b5⟩, b7⟩ := hB
  unfold acceptModes at hacc
  obtain ⟨m1, m2, m3, hms⟩ := length_three (pad_length Mode.NONE 3 (modes row))
  obtain ⟨o1, o2, o3, hops⟩ := length_three hlen
  subst hops
  rw [hms] at b5 b7 h hacc
  simp only [List.map, List.zip_cons_cons, List.zip_nil_left, List.all_cons, List.all_nil, Bool.and_true,
    Bool.and_eq_true] at hacc
  have c2 : plain m2 = true := b5 m2 (by simp)
  have c3 : plain m3 = true := b5 m3 (by simp)
  have key := b7 o1.mode (List.mem_filter.2 ⟨mem_all _, hacc.1⟩) o2.mode (List.mem_filter.2 ⟨mem_all _, hacc.2.1⟩)
    o3.mode (List.mem_filter.2 ⟨mem_all _, hacc.2.2⟩)
  have hr : rowIs (searchName cpu row.name [o1.mode, o2.mode, o3.mode]) row = true := by
    rw [show [o1.mode, o2.mode, o3.mode] = [o1, o2, o3].map (·.mode) from rfl, hs]
    unfold rowIs
    exact decide_eq_true rfl
  rw [hr] at key
  simp only [Bool.not_true, Bool.or_false, List.all_eq_true] at key
  obtain ⟨n, hn, hv⟩ := place_mod m1 o1.mode o1.val.getUnsigned row.opcode
  have f := key n hn
  rw [show ([m1, m2, m3].getD 0 Mode.NONE) = m1 from rfl, ← hv] at f
  generalize hpl : place m1 o1.mode o1.val.getUnsigned row.opcode = pl at f
  obtain ⟨c, s⟩ := pl
  dsimp only at f
  have hem : emitList (emitPlain w addr) ([s, m2, m3].zip [o1, o2, o3]) ⟨.OK, c, []⟩ = .ok a := by
    rw [← h]
    simp only [List.zip_cons_cons, List.zip_nil_left, emitList]
    rw [encode_plain w addr m1]
    dsimp only
    rw [hpl]
    dsimp only
    simp only [encode_same w addr c2, encode_same w addr c3]
  have hmono : ∀ (m : Mode) (op : Operand) (a a' : Asm), emitPlain w addr m op a = .ok a' → a'.err = .OK →
      a.err = .OK := fun m op a a' h1 h2 => (emitted (by omega) h0 h1 h2).1
  have hk : Known c (([s, m2, m3].zip [o1, o2, o3]).map (·.1)) ⟨.OK, c, []⟩ := rfl
  obtain ⟨_, k1, x, k2, k3⟩ := emit_fit (P := Known c) (Q := fun m op => True)
    (Fits := Fits w addr) hmono (fun m rem op a a' hq hp h1 h2 => fitted hw h0 hp h1 h2)
    _ _ _ (fun p hp => trivial) hk hem he
  rw [show List.map (fun x => x.1) ([s, m2, m3].zip [o1, o2, o3]) = [s, m2, m3] from rfl] at k3
  have hx : a.ops = x := k2
  have k1 : a.opc = c := k1
  unfold readsB at f
  simp only [Bool.and_eq_true, decide_eq_true_eq] at f
  obtain ⟨f1, f2⟩ := f
  split at f2
  · cases f2
  · rename_i row' hrow'
    simp only [Bool.and_eq_true, decide_eq_true_eq] at f2
    obtain ⟨f3, f4⟩ := f2
    have hbytes : a.bytes = c :: a.ops := by
      unfold Asm.bytes
      rw [k1, Nat.mod_eq_of_lt f1]
    refine ⟨c, row', f1, hrow', f3, hbytes, ?_⟩
    rw [hx]
    rw [hms] at f4
    rw [fit_takes, show [s, m2, m3] = s :: [m1, m2, m3].drop 1 from rfl, ← f4, ← fit_takes] at k3
    have k4 : Fit (fun m => Fits w addr (select c m)) (modes row') (1 + ([] : List Nat).length) x := by
      have gen : ∀ (l : List Mode) (n : Nat) (x : List Nat), Fit (Fits w addr) (l.map (select c)) n x →
          Fit (fun m => Fits w addr (select c m)) l n x := by
        intro l
        induction l with
        | nil => intro n x h; exact h
        | cons m l ih =>
          intro n x h
          obtain ⟨y, z, h1, h2, h3⟩ := h
          exact ⟨y, z, h1, h2, ih _ _ h3⟩
      exact gen _ _ _ k3
    refine list_decoded (Fits := fun m => Fits w addr (select c m)) (1 + x.length) _ x more [c] ?_ (Nat.le_refl _) k4
    intro m _ x' rest bytes hT hf
    refine decoded hw o ?_ m x' rest bytes hT hf
    rw [hbytes, hx, List.length_cons] at hend
    omega

/-- Whatever line is assembled without error, for any of the processors, with any number of bits of the program
counter, at any address and with any symbols, and does not run past the end of the memory: the disassembler, with any
options, reads the bytes of it, whatever follows them, as one instruction, without error. It has the name
written in the line, or another name for the same code.
What is missing of C29: that the operands are those of the line, and the exception `C29_violated_wrap`. -/
theorem C29_mc6805_partial {E : Env} {cpu : CpuType} {pcBits addr : Nat} {line : List Char} {bytes : List Nat}
    {rest : Scan} (hpc : pcBits ≤ 16) (h : assemble E cpu pcBits addr line = .ok (.insn ⟨.OK, bytes, rest⟩))
    (hend : addr + bytes.length ≤ 2 ^ (if pcBits = 0 then 13 else pcBits)) (o : Opts) (more : List Nat) :
    (disassemble o cpu pcBits addr (bytes ++ more)).err = .OK ∧
    (disassemble o cpu pcBits addr (bytes ++ more)).bytes = bytes ∧
    WrittenLike line (disassemble o cpu pcBits addr (bytes ++ more)).name := by
  unfold assemble at h
  unfold disassemble
  have hend : addr + bytes.length ≤ 2 ^ addressWidth pcBits := hend
  have h0 : 0 < addressWidth pcBits := by unfold addressWidth; split <;> omega
  have hw16 : addressWidth pcBits ≤ 16 := by unfold addressWidth; split <;> omega
  generalize addressWidth pcBits = w at *
  obtain ⟨word, scan, hi, haddr, hw, blanks, tail, hline, hblank⟩ :=
    encode_line_inv (by decide) rfl h
  unfold encodeImpl at hi
  obtain ⟨has, _, hi⟩ := bind_ok hi
  obtain ⟨x, d1, d2⟩ := bind_ok hi
  cases x with
  | error e =>
    obtain ⟨e, p⟩ := e
    injection d2 with d2
    injection d2 with d2
    cases has with
    | true => exact absurd d2 (operands_err (fun s e p h => parse_err h) _ _ _ _ d1)
    | false => cases d1
  | ok x =>
    obtain ⟨ops, s⟩ := x
    dsimp only at d2
    obtain ⟨x, f1, f2⟩ := bind_ok d2
    have f1' := f1
    unfold searchName at f1
    split at f1
    · rename_i pre row hs
      split at f1
      · injection f1 with f1
        subst f1
        injection f2 with f2
        injection f2 with f2
        exact absurd f2 (by decide)
      injection f1 with f1
      subst f1
      dsimp only at f2
      obtain ⟨a, g1, g2⟩ := bind_ok f2
      injection g2 with g2
      injection g2 with g2 g3 g4
      obtain ⟨p, hp, rfl, hrow, hcmp, hacc⟩ := searchName_mem hs
      have hB : rowB cpu row = true := List.all_eq_true.1 (List.all_eq_true.1 (rows_ok cpu) p hp) row hrow
      subst g3
      have hB' := hB
      unfold rowB at hB'
      simp only [Bool.and_eq_true, decide_eq_true_eq] at hB'
      obtain ⟨⟨⟨⟨⟨b1, b2⟩, b3⟩, _⟩, _⟩, _⟩ := hB'
      rw [searchName_same (fun h => hw (List.mem_of_mem_take h)) b1 hcmp] at f1'
      obtain ⟨c, row', k1, k2, k0, k3, k4⟩ := insn_back h0 hw16 hB (pad_length _ _ _) f1' hacc g1 g2 hend o more
      have hdis : decode w (decodeImpl o cpu w) addr (a.bytes ++ more) = decodeImpl o cpu w addr (a.bytes ++ more) := by
        unfold decode
        rw [haddr]
        rfl
      rw [hdis, k3]
      unfold decodeImpl
      rw [List.cons_append, byte_some k1]
      dsimp only [List.nil_append]
      rw [k2]
      dsimp only
      rw [k4]
      have hname : WrittenAs line row.name := written alnum (fun c h => by cases h) hw b1 b2 hcmp b3 hline hblank
      exact ⟨rfl, rfl, written_alike hname k0 (outText_same o _)⟩
    · rename_i e hs
      injection f1 with f1
      subst f1
      injection f2 with f2
      injection f2 with f2 f3 f4
      exact absurd f2 (searchName_err hs)
    · cases f1

/-- `C29_mc6805_partial` has something to say of operands of several kinds. -/
example :
    assemble noEnv .MC6805 0 0x100 "  brclr 3, 4, *-1 ; comment".toList =
      .ok (.insn ⟨.OK, [0x07, 0x04, 0xfc], "; comment".toList⟩) ∧
    assemble noEnv .MC6805 0 0 "lda 0,x".toList = .ok (.insn ⟨.OK, [0xf6], []⟩) ∧
    assemble noEnv .MC6805 0 0 "lda <0,x".toList = .ok (.insn ⟨.OK, [0xe6, 0x00], []⟩) ∧
    assemble noEnv .MC6805 0 0 "lda >0,x".toList = .ok (.insn ⟨.OK, [0xd6, 0x00, 0x00], []⟩) ∧
    assemble noEnv .MC6805 0 0 "jmp $1fff".toList = .ok (.insn ⟨.OK, [0xcc, 0x1f, 0xff], []⟩) ∧
    assemble noEnv .MC6805 0 0 "jmp $2000".toList = .ok (.insn ⟨.OVERFLOW_RANGE, [0xcc, 0x20, 0x00], []⟩) ∧
    assemble noEnv .MC6805 0 0 "jsr #1".toList = .ok (.insn ⟨.OPERAND_NOT_ALLOWED, [], []⟩) := by
  decide +kernel

/-- The name need not be that of the line. -/
theorem another_name :
    assemble noEnv .MC6805 0 0x100 "BCC *".toList = .ok (.insn ⟨.OK, [0x24, 0xfe], []⟩) ∧
    (disassemble (.default '*') .MC6805 0 0x100 [0x24, 0xfe]).name = "BHS".toList := by
  decide +kernel

/-- The operands need not be those of the line: of an offset with more than 16 bits the upper ones are lost
without error. -/
theorem offset_truncated :
    assemble noEnv .MC6805 0 0 "LDA $12345,X".toList = .ok (.insn ⟨.OK, [0xd6, 0x23, 0x45], []⟩) ∧
    (disassemble (.default '*') .MC6805 0 0 [0xd6, 0x23, 0x45]).operands = "$2345,X".toList := by
  decide +kernel

/-- The exception: a branch at the end of the memory to its begin is accepted, and no address for the
disassembler. -/
theorem C29_violated_wrap :
    assemble noEnv .MC6805 0 0x1ffe "BRSET 1, 2, 0".toList = .ok (.insn ⟨.OK, [0x02, 0x02, 0xff], []⟩) ∧
    (disassemble (.default '*') .MC6805 0 0x1ffe [0x02, 0x02, 0xff]).err = .OVERFLOW_RANGE := by
  decide +kernel

end Libasm.Cpu.Mc6805
