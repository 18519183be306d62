import Verif.Cpu.Back
import Verif.Cpu.Mn1610.Props
/-
C29 for the MN1610: whatever line the assembler takes, the disassembler reads the bytes of it as one
instruction of the same name.
-/
namespace Libasm.Cpu.Mn1610
open Scan Number Eval
open Tables (Row)

/-! ### The code and the table -/

/-- The field of an operand that is tested: where it is, its bits, and the values it does not have. -/
def guardOf : Mode → Option (Nat × Nat × List Nat)
  | .RD => some (8, 7, [7])
  | .RDG => some (8, 7, [6, 7])
  | .RS => some (0, 7, [7])
  | .RSG => some (0, 7, [6, 7])
  | .RBW => some (4, 7, [0])
  | .RP => some (4, 7, [3, 4, 5, 6, 7])
  | .RHR | .RHW => some (4, 7, [7])
  | .RIAU => some (6, 3, [0])
  | _ => none

/-- The number of bytes of the operands. -/
def lenAll : List Mode → Nat
  | [] => 0
  | m :: ms => lenOf m + lenAll ms

/-- The tests that the operands of `ms` pass. -/
def fieldsFine (ms : List Mode) : List Field → Nat → Bool
  | [], _ => true
  | f :: fs, g =>
    (f.bad == [] || ((g >>> f.shift) &&& f.ones == f.ones && ms.any fun m => guardOf m == some (f.shift, f.ones, f.bad))) &&
      fieldsFine ms fs (g &&& (0xFFFF ^^^ f.mask))

/-- The bits of the operands are not those of one another. -/
def disjoint : List Mode → Bool
  | [] => true
  | m :: ms => maskOf m &&& maskAll ms == 0 && disjoint ms

/-- A register that changes, without the test that it does: LR and STR with two operands, which are only assembled. -/
def untested (r : Row) : Bool := (modes r).contains .RIAU && !tested (rowFields r) 0xFFFF 6 2 [0]

/-- What is assembled of `r` is found as `s`. -/
def fits (r s : Row) : Bool :=
  !untested s &&
  keepAll (rowFields s) 0xFFFF &&& maskAll (modes r) == 0 && r.opcode &&& keepAll (rowFields s) 0xFFFF == s.opcode &&
  lenAll (modes r) == lenAll (modes s) && s.name == r.name && fieldsFine (modes r) (rowFields s) 0xFFFF

/-- What the proofs need of a row. -/
def backOk (cpu : CpuType) (r : Row) : Bool :=
  r.opcode < 65536 && !r.name.contains '\x00' && r.name.length < 11 && !r.name.contains '=' &&
  disjoint (modes r) && r.opcode &&& maskAll (modes r) == 0 && !(modes r).contains .UNDEF && (rows cpu).any (fits r)

set_option maxRecDepth 100000 in
theorem back_all : ([CpuType.MN1610, .MN1613].all fun cpu => (rows cpu).all (backOk cpu)) = true := by
  decide +kernel

/-- All the tests there are. -/
def tests : List (Nat × Nat × List Nat) :=
  [(8, 3, [7]), (8, 3, [6, 7]), (0, 3, [7]), (0, 3, [6, 7]), (6, 2, [0]), (4, 3, [0]), (4, 3, [3, 4, 5, 6, 7]), (4, 3, [7])]

/-- The bits that are compared, the code, the tests, the name, the number of bytes after the code, and `untested`. -/
structure Key where
  keep : Nat
  code : Nat
  tests : List (Nat × Nat × List Nat)
  name : List Char
  len : Nat
  untested : Bool
deriving DecidableEq

def keyOf (r : Row) : Key :=
  ⟨keepAll (rowFields r) 0xFFFF, r.opcode, tests.filter fun t => tested (rowFields r) 0xFFFF t.1 t.2.1 t.2.2, r.name,
    lenAll (modes r), untested r⟩

/-- A test of `a` that no code of `b` passes. -/
def conflict (a b : Key) : Bool :=
  a.tests.any fun t => ((b.keep >>> t.1) &&& (2 ^ t.2.1 - 1) == 2 ^ t.2.1 - 1) && t.2.2.contains (b.code / 2 ^ t.1 % 2 ^ t.2.1)

/-- No code is found as both, unless they have the same name, or it is that of H or of LPSW. -/
def apart (a b : Key) : Bool :=
  a.code &&& b.keep != b.code &&& a.keep || conflict a b || conflict b a || (a.name == b.name && a.len == b.len) ||
  a.untested || (b.untested && a.keep ||| b.keep == 0xFFFF && [0x2000, 0x2004].contains (a.code ||| b.code))

set_option maxRecDepth 100000 in
theorem keys_apart : ([CpuType.MN1610, .MN1613].all fun cpu => ((rows cpu).map keyOf).all fun a =>
    ((rows cpu).map keyOf).all (apart a)) = true := by decide +kernel

/-- The rows that are only assembled are not found for the codes of H and LPSW. -/
theorem untested_rows : ∀ cpu ∈ [CpuType.MN1610, .MN1613], ∀ opc ∈ [0x2000, 0x2004],
    ((searchOpCode cpu opc).all fun r => !untested r) = true := by decide +kernel

/-- The processors with the same table. -/
def tableOf : CpuType → CpuType
  | .MN1610 => .MN1610
  | _ => .MN1613

theorem table_mem (cpu : CpuType) : tableOf cpu ∈ [CpuType.MN1610, .MN1613] := by cases cpu <;> decide
theorem table_rows (cpu : CpuType) : rows cpu = rows (tableOf cpu) := by cases cpu <;> rfl
theorem table_search (cpu : CpuType) (opc : Nat) : searchOpCode cpu opc = searchOpCode (tableOf cpu) opc := by
  cases cpu <;> rfl

theorem back_ok (cpu : CpuType) {r : Row} (h : r ∈ rows cpu) : backOk (tableOf cpu) r = true :=
  List.all_eq_true.1 (List.all_eq_true.1 back_all _ (table_mem cpu)) r (table_rows cpu ▸ h)

theorem apart_ok (cpu : CpuType) {r s : Row} (h : r ∈ rows cpu) (h' : s ∈ rows cpu) : apart (keyOf r) (keyOf s) = true :=
  List.all_eq_true.1 (List.all_eq_true.1 (List.all_eq_true.1 keys_apart _ (table_mem cpu)) _
    (List.mem_map_of_mem (table_rows cpu ▸ h))) _ (List.mem_map_of_mem (table_rows cpu ▸ h'))

theorem match_mem {cpu : CpuType} {opc : Nat} {r : Row} (h : r ∈ rows cpu)
    (hm : takeAll (rowFields r) opc = some r.opcode) : ∃ r', searchOpCode cpu opc = some r' := by
  unfold searchOpCode
  rw [Table.Props.C24_searchOpCode]
  obtain ⟨p, hp, hr⟩ := List.mem_flatMap.1 h
  split
  · exact ⟨_, rfl⟩
  · rename_i hf
    have := List.find?_eq_none.1 hf (p, r) (List.mem_flatMap.2 ⟨p, List.mem_filter.2 ⟨hp, rfl⟩,
      List.mem_map.2 ⟨r, hr, rfl⟩⟩)
    exact absurd (beq_iff_eq.2 hm) this

/-- What a field of a code is, of which the bits are compared. -/
theorem field_keep {c k x s n : Nat} (h : x = c &&& k) (hk : (k >>> s) &&& (2 ^ n - 1) = 2 ^ n - 1) :
    x / 2 ^ s % 2 ^ n = c / 2 ^ s % 2 ^ n := by
  rw [h, ← Nat.and_two_pow_sub_one_eq_mod, ← Nat.and_two_pow_sub_one_eq_mod, ← Nat.shiftRight_eq_div_pow,
    ← Nat.shiftRight_eq_div_pow, Nat.shiftRight_and_distrib, Nat.and_assoc, hk]

theorem and_code {opc : Nat} (hlt : opc < 65536) : opc &&& 0xFFFF = opc := by
  rw [Nat.and_two_pow_sub_one_eq_mod opc 16]
  exact Nat.mod_eq_of_lt hlt

theorem no_conflict {a b : Row} {opc : Nat} (hlt : opc < 65536) (ha : takeAll (rowFields a) opc = some a.opcode)
    (hb : takeAll (rowFields b) opc = some b.opcode) : conflict (keyOf a) (keyOf b) = false := by
  rw [← and_code hlt] at ha hb
  rw [Bool.eq_false_iff]
  intro hc
  unfold conflict at hc
  rw [List.any_eq_true] at hc
  obtain ⟨t, h1, h2⟩ := hc
  rw [Bool.and_eq_true, beq_iff_eq] at h2
  have h3 := (List.mem_filter.1 h1).2
  have h4 := take_tested _ _ _ _ t.1 t.2.1 t.2.2 h3 ha
  rw [← field_keep (take_keep _ _ _ _ hb) h2.1] at h4
  exact h4 (List.contains_iff_mem.1 h2.2)

/-- A code that is that of a row is found as one of the same name. -/
theorem search_back {cpu : CpuType} {opc : Nat} {s : Row} (hlt : opc < 65536) (hs : s ∈ rows cpu)
    (hu : untested s = false) (hm : takeAll (rowFields s) opc = some s.opcode) :
    ∃ row, searchOpCode cpu opc = some row ∧ row ∈ rows cpu ∧ s.name = row.name ∧ lenAll (modes s) = lenAll (modes row) := by
  obtain ⟨row, h⟩ := match_mem hs hm
  obtain ⟨h1, h2⟩ := found h
  refine ⟨row, h, h1, ?_⟩
  have hand := and_code hlt
  have k1 := take_keep (rowFields s) opc 0xFFFF s.opcode (by rw [hand]; exact hm)
  have k2 := take_keep (rowFields row) opc 0xFFFF row.opcode (by rw [hand]; exact h2)
  have k := apart_ok cpu hs h1
  unfold apart at k
  rw [no_conflict hlt hm h2, no_conflict hlt h2 hm] at k
  have e : ((keyOf s).code &&& (keyOf row).keep != (keyOf row).code &&& (keyOf s).keep) = false := by
    rw [bne_eq_false_iff_eq]
    show s.opcode &&& keepAll (rowFields row) 0xFFFF = row.opcode &&& keepAll (rowFields s) 0xFFFF
    rw [k1, k2, Nat.and_assoc, Nat.and_assoc, Nat.and_comm (keepAll (rowFields s) 0xFFFF)]
  rw [e] at k
  simp only [Bool.or_false, Bool.or_eq_true, Bool.and_eq_true, beq_iff_eq, Bool.false_eq_true, false_or] at k
  rcases k with (k | k) | k
  · exact k
  · exact absurd (show untested s = true from k) (by rw [hu]; decide)
  · obtain ⟨⟨k3, k4⟩, k5⟩ := k
    have k3 : untested row = true := k3
    have k4 : keepAll (rowFields s) 0xFFFF ||| keepAll (rowFields row) 0xFFFF = 0xFFFF := k4
    have hopc : s.opcode ||| row.opcode = opc := by
      rw [k1, k2, ← Nat.and_or_distrib_left, k4, hand]
    have k5 : [0x2000, 0x2004].contains (s.opcode ||| row.opcode) = true := k5
    rw [hopc, List.contains_iff_mem] at k5
    have ht := untested_rows _ (table_mem cpu) opc k5
    rw [← table_search, h] at ht
    simp only [Option.all_some, k3] at ht
    cases ht

/-- The field of an operand has none of the values it may not have. -/
def Fine (m : Mode) (c : Nat) : Prop :=
  ∀ s n bad, guardOf m = some (s, n, bad) → bad.contains ((c >>> s) &&& n) = false

theorem fine_bits {m : Mode} {c d : Nat} (h : c &&& maskOf m = d &&& maskOf m) (hf : Fine m c) : Fine m d := by
  intro s n bad hg
  have hn : (maskOf m >>> s) &&& n = n := by
    cases m <;> first
      | cases hg; done
      | (cases hg; decide)
  have e : ∀ x : Nat, (x >>> s) &&& n = ((x &&& maskOf m) >>> s) &&& n := by
    intro x
    rw [Nat.shiftRight_and_distrib, Nat.and_assoc, hn]
  rw [e, ← h, ← e]
  exact hf s n bad hg

theorem take_fine {ms : List Mode} {c : Nat} (hm : ∀ m ∈ ms, Fine m c) : ∀ (fs : List Field) (g : Nat),
    fieldsFine ms fs g = true → takeAll fs (c &&& g) = some (c &&& keepAll fs g)
  | [], g, _ => rfl
  | f :: fs, g, h => by
    unfold fieldsFine at h
    rw [Bool.and_eq_true, Bool.or_eq_true, Bool.and_eq_true, beq_iff_eq, beq_iff_eq, List.any_eq_true] at h
    have hb : f.bad.contains (((c &&& g) >>> f.shift) &&& f.ones) = false := by
      rcases h.1 with h1 | ⟨h1, m, h2, h3⟩
      · rw [h1]
        rfl
      · rw [Nat.shiftRight_and_distrib, Nat.and_assoc, h1]
        exact hm m h2 _ _ _ (eq_of_beq h3)
    unfold takeAll Field.take
    rw [hb, if_neg (by decide), Option.bind_some, Nat.and_assoc]
    exact take_fine hm fs _ h.2

/-! ### Operands -/

/-- What an operand may be. -/
def OpOk (op : Operand) : Prop :=
  match op.mode with
  | .EOP => 49 ≤ op.cc ∧ op.cc ≤ 51
  | .R0 => op.reg = 0
  | .RDG => op.reg ≤ 5 ∨ op.reg = 11 ∨ op.reg = 12
  | .RD => op.reg = 6
  | .SB => 16 ≤ op.reg ∧ op.reg ≤ 19
  | .RB => 20 ≤ op.reg ∧ op.reg ≤ 23
  | .RP => 32 ≤ op.reg ∧ op.reg ≤ 34
  | .RHR => 24 ≤ op.reg ∧ op.reg ≤ 31
  | .RI1 => op.reg = 1
  | .RI2 => op.reg = 2
  | .RI | .RIAU => (1 ≤ op.reg ∧ op.reg ≤ 4) ∨ op.reg = 11 ∨ op.reg = 12
  | .IM8 => op.val.overflowUint8 = false
  | .RS | .RSG | .RBW | .RHW => False
  | _ => True

theorem opOk_none : OpOk {} := trivial

/-- What the parser gives. -/
def ParsedOk : Except (Err × Scan) (Operand × Scan) → Prop
  | .ok (op, _) => OpOk op
  | .error (e, _) => e ≠ .OK

theorem hasError_ne {e : Err} (h : hasError e = true) : e ≠ .OK := by
  intro he
  rw [he] at h
  exact absurd h (by decide)

theorem cc_ok {cc : Nat} (h : ∃ n, (n, cc) ∈ ccs) : OpOk { mode := ccMode cc, cc := cc } := by
  obtain ⟨n, h⟩ := h
  have key : ∀ p ∈ ccs, ccMode p.2 = .EOP → 49 ≤ p.2 ∧ p.2 ≤ 51 := by decide
  have h1 := key _ h
  have h2 : ccMode cc = .SKIP ∨ ccMode cc = .COP ∨ ccMode cc = .EOP ∨ ccMode cc = .NONE := by
    unfold ccMode
    split
    · exact Or.inl rfl
    · split
      · exact Or.inr (Or.inl rfl)
      · split
        · exact Or.inr (Or.inr (Or.inl rfl))
        · exact Or.inr (Or.inr (Or.inr rfl))
  unfold OpOk
  dsimp only
  rcases h2 with h2 | h2 | h2 | h2
  · rw [h2]; trivial
  · rw [h2]; trivial
  · rw [h2]; exact h1 h2
  · rw [h2]; trivial

instance (op : Operand) : Decidable (OpOk op) := by
  unfold OpOk
  split <;> infer_instance

theorem reg_ok {n : Nat} (h : ∃ t, (t, n) ∈ regs) : OpOk { mode := regMode n, reg := n } ∧
    ∀ m, indirectMode n = some m → OpOk { mode := m, reg := n } ∧ ∀ v, OpOk { mode := .RIAU, reg := n, val := v } := by
  obtain ⟨t, h⟩ := h
  have key : ∀ p ∈ regs, OpOk { mode := regMode p.2, reg := p.2 } := by decide
  have key2 : ∀ p ∈ regs, ∀ m ∈ indirectMode p.2, OpOk { mode := m, reg := p.2 } ∧
    ((1 ≤ p.2 ∧ p.2 ≤ 4) ∨ p.2 = 11 ∨ p.2 = 12) := by decide
  refine ⟨key _ h, fun m hm => ⟨(key2 _ h m hm).1, fun v => (key2 _ h m hm).2⟩⟩

theorem register_ok {start t : Scan} {indir preDec : Bool} {n : Nat} (h : ∃ t, (t, n) ∈ regs) :
    ParsedOk (registerOperand start indir preDec n t) := by
  obtain ⟨h1, h2⟩ := reg_ok h
  unfold registerOperand
  dsimp only
  split
  · split
    · exact fun h => nomatch h
    · rename_i m hm
      obtain ⟨h3, h4⟩ := h2 m hm
      split
      · exact fun h => nomatch h
      · split
        · exact h4 _
        · split
          · exact h4 _
          · exact h3
  · exact h1

theorem absolute_ok (P : Plugins Value) (start : Scan) (val : Value) (err : Err) (p : Scan) :
    ParsedOk (absoluteOperand P start val err p) := by
  unfold absoluteOperand
  split
  · trivial
  · exact fun h => nomatch h

theorem index_ok {start p : Scan} {indir : Bool} {val : Value} {err : Err} {x : Except (Err × Scan) (Operand × Scan)}
    (h : indexOperand start indir val err p = .ok x) : ParsedOk x := by
  unfold indexOperand at h
  obtain ⟨y, h1, h2⟩ := bind_ok h
  split at h2
  · injection h2 with h2
    subst h2
    exact fun h => nomatch h
  · split at h2
    · injection h2 with h2
      subst h2
      exact fun h => nomatch h
    · dsimp only at h2
      split at h2
      · split at h2
        · injection h2 with h2
          subst h2
          exact fun h => nomatch h
        · injection h2 with h2
          subst h2
          trivial
      · injection h2 with h2
        subst h2
        trivial

theorem value_ok {P : Char → Plugins Value} {start q : Scan} {indir : Bool} {x : Except (Err × Scan) (Operand × Scan)}
    (h : valueOperand P start indir q = .ok x) : ParsedOk x := by
  unfold valueOperand at h
  obtain ⟨⟨v, e, p⟩, _, h2⟩ := bind_ok h
  dsimp only at h2
  split at h2
  · rename_i he
    injection h2 with h2
    subst h2
    exact hasError_ne he
  · split at h2
    · injection h2 with h2
      subst h2
      show OpOk _
      have hm : valueMode v = .ABS ∨ valueMode v = .IM16 ∨ (valueMode v = .IM8 ∧ v.overflowUint8 = false) := by
        unfold valueMode
        cases v.overflowUint16
        · cases v.overflowUint8
          · exact Or.inr (Or.inr ⟨rfl, rfl⟩)
          · exact Or.inr (Or.inl rfl)
        · exact Or.inl rfl
      unfold OpOk
      dsimp only
      rcases hm with hm | hm | ⟨hm, hv⟩
      · rw [hm]; trivial
      · rw [hm]; trivial
      · rw [hm]; exact hv
    · split at h2
      · exact index_ok h2
      · split at h2
        · injection h2 with h2
          subst h2
          exact fun h => nomatch h
        · split at h2
          · injection h2 with h2
            subst h2
            exact absolute_ok _ _ _ _ _
          · obtain ⟨y, _, h4⟩ := bind_ok h2
            split at h4
            · injection h4 with h4
              subst h4
              exact absolute_ok _ _ _ _ _
            · split at h4
              · injection h4 with h4
                subst h4
                exact fun h => nomatch h
              · injection h4 with h4
                subst h4
                trivial

theorem parse_ok {P : Char → Plugins Value} {s : Scan} {x : Except (Err × Scan) (Operand × Scan)}
    (h : parseOperand P s = .ok x) : ParsedOk x := by
  unfold parseOperand at h
  dsimp only at h
  obtain ⟨y, h1, h2⟩ := bind_ok h
  split at h2
  · injection h2 with h2
    subst h2
    exact cc_ok (searchText_mem h1)
  · obtain ⟨z, h3, h4⟩ := bind_ok h2
    split at h4
    · injection h4 with h4
      subst h4
      exact register_ok (searchText_mem h3)
    · split at h4
      · injection h4 with h4
        subst h4
        exact fun h => nomatch h
      · exact value_ok h4

/-! ### Encoding -/

theorem set_ok {a : Asm} {e : Err} (h : (a.setErrorIf e).err = .OK) : a.err = .OK ∧ a.setErrorIf e = a := by
  have := setErrorIf_ok h
  exact ⟨this.1, by rw [this.2, Asm.noError]⟩

theorem check_ok {a : Asm} {c : Bool} {e : Err} (he : e ≠ .OK) (h : (a.check c e).err = .OK) :
    a.err = .OK ∧ a.check c e = a ∧ c = false := by
  cases c with
  | false => exact ⟨h, rfl, rfl⟩
  | true => exact absurd (setErrorIf_ok h).2 he

/-- What an operand does to the instruction. The number of a memory address that is negative goes into all of the
code. -/
def Step (m : Mode) (a a' : Asm) : Prop :=
  ∃ x bs, a.err = .OK ∧ a' = ⟨.OK, a.opc ||| x, a.ops ++ bs⟩ ∧ x < 65536 ∧
    (0xFF80 ≤ x ∧ m = .GEN ∨ (bitsOf m x = x ∧ Fine m x)) ∧ bs.length = lenOf m ∧ ∀ b ∈ bs, b < 256

theorem fine_no {m : Mode} (h : guardOf m = none) (x : Nat) : Fine m x := by
  intro s n bad hg
  rw [h] at hg
  cases hg

theorem asm_eta {a : Asm} (h : a.err = .OK) : a = ⟨.OK, a.opc, a.ops⟩ := by
  rw [← h]

theorem code_step {m : Mode} {a a' : Asm} {x : Nat} (h : embed a x = a') (he : a'.err = .OK) (hx : x < 65536)
    (hb : bitsOf m x = x) (hf : Fine m x) (hl : lenOf m = 0) : Step m a a' := by
  subst h
  refine ⟨x, [], he, ?_, hx, Or.inr ⟨hb, hf⟩, hl.symm, fun b h => nomatch h⟩
  rw [embed_lt _ hx, List.append_nil]
  have he : a.err = .OK := he
  rw [he]

theorem none_step {m : Mode} {a : Asm} (he : a.err = .OK) (hb : bitsOf m 0 = 0) (hf : Fine m 0) (hl : lenOf m = 0) :
    Step m a a := by
  refine ⟨0, [], he, ?_, by decide, Or.inr ⟨hb, hf⟩, hl.symm, fun b h => nomatch h⟩
  rw [Nat.or_zero, List.append_nil]
  exact asm_eta he

theorem word_step {m : Mode} {a a' : Asm} {v : Nat} (h : a.emit16be v = a') (he : a'.err = .OK)
    (hb : bitsOf m 0 = 0) (hf : Fine m 0) (hl : lenOf m = 2) : Step m a a' := by
  subst h
  refine ⟨0, [v / 256 % 256, v % 256], he, ?_, by decide, Or.inr ⟨hb, hf⟩, hl.symm, ?_⟩
  · rw [Nat.or_zero]
    have he : a.err = .OK := he
    show (⟨a.err, _, _⟩ : Asm) = _
    rw [he]
  · intro b hb
    simp only [List.mem_cons, List.not_mem_nil, or_false] at hb
    omega

theorem byte_value {v : Value} (h : v.overflowUint8 = false) : v.getUnsigned ≤ 255 ∨ 0xFF80 ≤ v.getUnsigned % 65536 := by
  unfold Value.overflowUint8 Value.overflow at h
  split at h
  · cases h
  · have hd : ∀ a : Nat, (decide (a > 255) || (decide ((-128 : Int) > 0) && decide (a < (-128 : Int).toNat))) = false → a ≤ 255 := by
      intro a h
      simpa using h
    split at h
    · exact Or.inl (hd _ h)
    · split at h
      · exact Or.inl (hd _ h)
      · simp only [Bool.or_eq_false_iff, Bool.and_eq_false_iff, decide_eq_false_iff_not] at h
        unfold Value.getSigned at h
        unfold Value.getUnsigned
        dsimp only at h
        split at h <;> omega

theorem bits_gen {k d : Nat} (hk : k < 8) (hd : d < 256) :
    (k * 2048 ||| d) < 65536 ∧ bitsOf .GEN (k * 2048 ||| d) = k * 2048 ||| d := by
  have h : k * 2048 ||| d = k * 2048 + d := or_bits (k := 11) (by omega) (by omega)
  rw [h]
  refine ⟨by omega, ?_⟩
  show (k * 2048 + d) / 2048 % 8 * 2048 + (k * 2048 + d) % 256 = _
  omega

theorem embed_two (a : Asm) (x y : Nat) : embed (embed a x) y = embed a (x % 65536 ||| y % 65536) := by
  unfold embed
  dsimp only
  have h1 : x % 65536 ||| y % 65536 < 2 ^ 16 := Nat.or_lt_two_pow (by omega) (by omega)
  rw [Nat.mod_eq_of_lt h1, Nat.or_assoc]

section
variable {cpu : CpuType} {addr : Nat}

/-- The mode and the address, in this order or the other. -/
theorem gen_step {a a' : Asm} {k d : Nat} (hk : k < 8) (hd : d < 256)
    (h : embed (embed a (k * 2048)) d = a' ∨ embed (embed a d) (k * 2048) = a') (he : a'.err = .OK) : Step .GEN a a' := by
  obtain ⟨h1, h2⟩ := bits_gen hk hd
  have h : embed a (k * 2048 ||| d) = a' := by
    rcases h with h | h
    · rw [embed_two, Nat.mod_eq_of_lt (by omega), Nat.mod_eq_of_lt (by omega)] at h
      exact h
    · rw [embed_two, Nat.mod_eq_of_lt (by omega), Nat.mod_eq_of_lt (by omega), Nat.or_comm] at h
      exact h
  exact code_step h he h1 h2 (fine_no rfl _) rfl

theorem relative_step {op : Operand} {a a' : Asm} (h : encodeIcRelative cpu addr op a = .ok a') (he : a'.err = .OK) :
    Step .GEN a a' := by
  unfold encodeIcRelative at h
  obtain ⟨⟨d, e⟩, h1, h2⟩ := bind_ok h
  obtain ⟨far, h3, h4⟩ := bind_ok h2
  injection h4 with h4
  have hb : Config.branchDelta (width cpu) addr op.val.getUnsigned a.err = some (d, e) := by
    cases hx : Config.branchDelta (width cpu) addr op.val.getUnsigned a.err with
    | none => rw [hx] at h1; cases h1
    | some x => rw [hx] at h1; injection h1 with h1; rw [h1]
  have he' : (Asm.check { a with err := e } far .OPERAND_TOO_FAR).err = .OK := by
    rw [← h4] at he
    exact he
  obtain ⟨c1, c2, c3⟩ := check_ok (by decide) he'
  have c1 : e = .OK := c1
  subst c1
  have ha : a.err = .OK := Decidable.of_not_not fun hn => Config.branchDelta_err hn hb rfl
  have hae : ({ a with err := .OK } : Asm) = a := by rw [← ha]
  rw [c2, hae] at h4
  exact gen_step (k := if op.mode = .IABS then 3 else 1) (by split <;> omega) (by omega) (Or.inl h4) he

theorem generic_step {op : Operand} {a a' : Asm} (hop : OpOk op) (hacc : acceptMode op.mode .GEN = true)
    (h : encodeGenericAddress cpu addr op a = .ok a') (he : a'.err = .OK) : Step .GEN a a' := by
  have hm : op.mode = .IM8 ∨ op.mode = .IM16 ∨ op.mode = .ABS ∨ op.mode = .IABS ∨ op.mode = .INDX ∨ op.mode = .IXID ∨
      op.mode = .IDIX ∨ op.mode = .GEN := by
    generalize op.mode = m at hacc
    cases m <;> first | (simp; done) | exact absurd hacc (by decide)
  have ix : op.mode = .INDX ∨ op.mode = .IXID ∨ op.mode = .IDIX → Step .GEN a a' := by
    intro hm
    have e : encodeGenericAddress cpu addr op a =
        if isIndex op.reg then
          .ok (embed (embed ((a.check (op.mode == .IXID) .REGISTER_NOT_ALLOWED).check (op.val.overflow 255 0) .OVERFLOW_RANGE)
            (op.val.getUnsigned % 256)) (((if op.mode = .IDIX then 2 else 0) ||| encodeIndex op.reg) * 2048))
        else if op.reg = 7 then
          .ok (embed (embed ((a.check (op.mode == .IDIX) .REGISTER_NOT_ALLOWED).check op.val.overflowInt8 .OPERAND_TOO_FAR)
            (op.val.getUnsigned % 256)) ((if op.mode = .INDX then 1 else 3) * 2048))
        else .ok (a.setErrorIf .REGISTER_NOT_ALLOWED) := by
      unfold encodeGenericAddress
      dsimp only
      rcases hm with hm | hm | hm <;> rw [hm]
    rw [e] at h
    split at h
    · injection h with h
      have he' := he
      rw [← h] at he'
      obtain ⟨c1, c2, _⟩ := check_ok (by decide)
        (show ((a.check (op.mode == .IXID) .REGISTER_NOT_ALLOWED).check (op.val.overflow 255 0) .OVERFLOW_RANGE).err = .OK from he')
      obtain ⟨_, c3, _⟩ := check_ok (by decide) c1
      rw [c2, c3] at h
      refine gen_step (k := (if op.mode = .IDIX then 2 else 0) ||| encodeIndex op.reg) ?_ (by omega) (Or.inr h) he
      unfold encodeIndex
      split <;> split <;> decide
    · split at h
      · injection h with h
        have he' := he
        rw [← h] at he'
        obtain ⟨c1, c2, _⟩ := check_ok (by decide)
          (show ((a.check (op.mode == .IDIX) .REGISTER_NOT_ALLOWED).check op.val.overflowInt8 .OPERAND_TOO_FAR).err = .OK from he')
        obtain ⟨_, c3, _⟩ := check_ok (by decide) c1
        rw [c2, c3] at h
        exact gen_step (k := if op.mode = .INDX then 1 else 3) (by split <;> decide) (by omega) (Or.inr h) he
      · injection h with h
        subst h
        exact absurd (setErrorIf_ok he).2 (by decide)
  rcases hm with hm | hm | hm | hm | hm | hm | hm | hm
  · unfold encodeGenericAddress at h
    dsimp only at h
    rw [hm] at h
    have h : Out.ok (embed a op.val.getUnsigned) = .ok a' := h
    injection h with h
    unfold OpOk at hop
    rw [hm] at hop
    rcases byte_value hop with hv | hv
    · exact code_step h he (by omega) (by show op.val.getUnsigned / 2048 % 8 * 2048 + op.val.getUnsigned % 256 = _; omega)
        (fine_no rfl _) rfl
    · subst h
      refine ⟨op.val.getUnsigned % 65536, [], he, ?_, by omega, Or.inl ⟨hv, rfl⟩, rfl, fun b h => nomatch h⟩
      have he : a.err = .OK := he
      unfold embed
      rw [he, List.append_nil]
  · unfold encodeGenericAddress at h
    dsimp only at h
    rw [hm] at h
    exact relative_step h he
  · unfold encodeGenericAddress at h
    dsimp only at h
    rw [hm] at h
    exact relative_step h he
  · unfold encodeGenericAddress at h
    dsimp only at h
    rw [hm] at h
    dsimp only at h
    split at h
    · injection h with h
      exact gen_step (k := 2) (by decide) (by omega) (Or.inl h) he
    · exact relative_step h he
  · exact ix (Or.inl hm)
  · exact ix (Or.inr (Or.inl hm))
  · exact ix (Or.inr (Or.inr hm))
  · unfold encodeGenericAddress at h
    dsimp only at h
    rw [hm] at h
    have h : Out.ok a = .ok a' := h
    injection h with h
    subst h
    exact none_step he rfl (fine_no rfl _) rfl

theorem fine_of {m : Mode} {s n x : Nat} {bad : List Nat} (hg : guardOf m = some (s, n, bad))
    (h : bad.contains ((x >>> s) &&& n) = false) : Fine m x := by
  intro s' n' bad' hg'
  rw [hg] at hg'
  cases hg'
  exact h

theorem generic_reg {op : Operand} (hop : OpOk op) (hm : op.mode = .R0 ∨ op.mode = .RDG ∨ op.mode = .RD) :
    encodeGeneric op.reg < 7 ∧ ((op.reg == 6) = false → encodeGeneric op.reg < 6) := by
  unfold OpOk at hop
  unfold encodeGeneric
  rw [beq_eq_false_iff_ne]
  rcases hm with hm | hm | hm
  · rw [hm] at hop
    have hop : op.reg = 0 := hop
    rw [hop]
    decide
  · rw [hm] at hop
    have hop : op.reg ≤ 5 ∨ op.reg = 11 ∨ op.reg = 12 := hop
    split <;> omega
  · rw [hm] at hop
    have hop : op.reg = 6 := hop
    rw [hop]
    decide

theorem indirect_reg {op : Operand} (hop : OpOk op) (hm : op.mode = .RI1 ∨ op.mode = .RI2 ∨ op.mode = .RI ∨ op.mode = .RIAU) :
    encodeIndirect op.reg < 4 := by
  unfold OpOk at hop
  unfold encodeIndirect encodeGeneric
  rcases hm with hm | hm | hm | hm
  · rw [hm] at hop
    have hop : op.reg = 1 := hop
    rw [hop]
    decide
  · rw [hm] at hop
    have hop : op.reg = 2 := hop
    rw [hop]
    decide
  all_goals
    rw [hm] at hop
    have hop : (1 ≤ op.reg ∧ op.reg ≤ 4) ∨ op.reg = 11 ∨ op.reg = 12 := hop
    split <;> omega

/-- Every operand of the table, after the error of the operand. -/
theorem core_step {m : Mode} {op : Operand} {a a' : Asm} (hop : OpOk op) (hm : m ≠ .UNDEF)
    (hacc : acceptMode op.mode m = true) (h : encodeOperand cpu addr m { op with err := .OK } a = .ok a') (he : a'.err = .OK) :
    Step m a a' := by
  have hop0 := hop
  unfold OpOk at hop
  have hardware : ∀ {m : Mode} (c : Bool), 24 ≤ op.reg ∧ op.reg ≤ 31 → guardOf m = some (4, 7, [7]) → lenOf m = 0 →
      (∀ x, bitsOf m x = x / 16 % 8 * 16) →
      Out.ok (embed ((a.setErrorIf .OK).check c .REGISTER_NOT_ALLOWED) (encodeHardware op.reg * 16)) = .ok a' → Step m a a' := by
    intro m c hr hg hl hb h
    rw [Asm.noError] at h
    injection h with h
    have he' := he
    rw [← h] at he'
    obtain ⟨_, c2, _⟩ := check_ok (by decide) (show (a.check c .REGISTER_NOT_ALLOWED).err = .OK from he')
    rw [c2] at h
    have hn : encodeHardware op.reg < 7 := by
      unfold encodeHardware
      split <;> omega
    clear he' c2
    generalize encodeHardware op.reg = n at *
    refine code_step h he (by omega) (by rw [hb]; omega) (fine_of hg ?_) hl
    rw [Nat.shiftRight_eq_div_pow, show n * 16 / 2 ^ 4 = n by omega]
    rcases (show n = 0 ∨ n = 1 ∨ n = 2 ∨ n = 3 ∨ n = 4 ∨ n = 5 ∨ n = 6 by omega) with
      rfl | rfl | rfl | rfl | rfl | rfl | rfl <;> rfl
  cases m with
  | UNDEF => exact absurd rfl hm
  | NONE | R0 | DR0 | RI1 | RI2 | INDX | IXID | IDIX =>
    have h : Out.ok (a.setErrorIf .OK) = .ok a' := h
    rw [Asm.noError] at h
    injection h with h
    subst h
    exact none_step he rfl (fine_no rfl _) rfl
  | GEN =>
    have h : encodeGenericAddress cpu addr { op with err := .OK } (a.setErrorIf .OK) = .ok a' := h
    rw [Asm.noError] at h
    exact generic_step (op := { op with err := .OK }) hop0 hacc h he
  | RD =>
    have hr : op.mode = .R0 ∨ op.mode = .RDG ∨ op.mode = .RD := by
      generalize op.mode = k at hacc
      cases k <;> first | (simp; done) | exact absurd hacc (by decide)
    have hn := (generic_reg hop0 hr).1
    have h : Out.ok (embed (a.setErrorIf .OK) (encodeGeneric op.reg * 256)) = .ok a' := h
    rw [Asm.noError] at h
    injection h with h
    generalize encodeGeneric op.reg = n at *
    refine code_step h he (by omega) (show n * 256 / 256 % 8 * 256 = _ by omega) (fine_of rfl ?_) rfl
    clear h
    revert n
    decide
  | RDG =>
    have hr : op.mode = .R0 ∨ op.mode = .RDG ∨ op.mode = .RD := by
      generalize op.mode = k at hacc
      cases k <;> first | (simp; done) | exact absurd hacc (by decide)
    have hn := (generic_reg hop0 hr).2
    have h : Out.ok (embed ((a.setErrorIf .OK).check (op.reg == 6) .REGISTER_NOT_ALLOWED) (encodeGeneric op.reg * 256)) = .ok a' := h
    rw [Asm.noError] at h
    injection h with h
    have he' := he
    rw [← h] at he'
    obtain ⟨_, c2, c3⟩ := check_ok (by decide) (show (a.check (op.reg == 6) .REGISTER_NOT_ALLOWED).err = .OK from he')
    rw [c2] at h
    replace hn := hn c3
    clear he' c3 c2
    generalize encodeGeneric op.reg = n at *
    refine code_step h he (by omega) (show n * 256 / 256 % 8 * 256 = _ by omega) (fine_of rfl ?_) rfl
    clear h
    revert n
    decide
  | RS =>
    have hr : op.mode = .R0 ∨ op.mode = .RDG ∨ op.mode = .RD := by
      generalize op.mode = k at hacc hop
      cases k <;> first | (simp; done) | exact absurd hacc (by decide) | exact absurd hop id
    have hn := (generic_reg hop0 hr).1
    have h : Out.ok (embed (a.setErrorIf .OK) (encodeGeneric op.reg)) = .ok a' := h
    rw [Asm.noError] at h
    injection h with h
    generalize encodeGeneric op.reg = n at *
    refine code_step h he (by omega) (show n % 8 = _ by omega) (fine_of rfl ?_) rfl
    clear h
    revert n
    decide
  | RSG =>
    have hr : op.mode = .R0 ∨ op.mode = .RDG ∨ op.mode = .RD := by
      generalize op.mode = k at hacc hop
      cases k <;> first | (simp; done) | exact absurd hacc (by decide) | exact absurd hop id
    have hn := (generic_reg hop0 hr).2
    have h : Out.ok (embed ((a.setErrorIf .OK).check (op.reg == 6) .REGISTER_NOT_ALLOWED) (encodeGeneric op.reg)) = .ok a' := h
    rw [Asm.noError] at h
    injection h with h
    have he' := he
    rw [← h] at he'
    obtain ⟨_, c2, c3⟩ := check_ok (by decide) (show (a.check (op.reg == 6) .REGISTER_NOT_ALLOWED).err = .OK from he')
    rw [c2] at h
    replace hn := hn c3
    clear he' c3 c2
    generalize encodeGeneric op.reg = n at *
    refine code_step h he (by omega) (show n % 8 = _ by omega) (fine_of rfl ?_) rfl
    clear h
    revert n
    decide
  | RI =>
    have hr : op.mode = .RI1 ∨ op.mode = .RI2 ∨ op.mode = .RI := by
      generalize op.mode = k at hacc hop
      cases k <;> first | (simp; done) | exact absurd hacc (by decide) | exact absurd hop id
    have hn := indirect_reg hop0 (by simp only [← or_assoc] at hr ⊢; exact Or.inl hr)
    have h : Out.ok (embed (a.setErrorIf .OK) (encodeIndirect op.reg)) = .ok a' := h
    rw [Asm.noError] at h
    injection h with h
    exact code_step h he (by omega) (Nat.mod_eq_of_lt hn) (fine_no rfl _) rfl
  | RIAU =>
    have hr : op.mode = .RI1 ∨ op.mode = .RI2 ∨ op.mode = .RI ∨ op.mode = .RIAU := by
      generalize op.mode = k at hacc hop
      cases k <;> first | (simp; done) | exact absurd hacc (by decide) | exact absurd hop id
    have hn := indirect_reg hop0 hr
    have h : Out.ok (embed (embed (a.setErrorIf .OK)
      ((if op.mode = .RIAU then (if op.val.getUnsigned = 1 then 3 else 2) else 1) * 64)) (encodeIndirect op.reg)) = .ok a' := h
    rw [Asm.noError] at h
    injection h with h
    have hk : 1 ≤ (if op.mode = .RIAU then (if op.val.getUnsigned = 1 then 3 else 2) else 1) ∧
        (if op.mode = .RIAU then (if op.val.getUnsigned = 1 then 3 else 2) else 1) < 4 := by
      split
      · split <;> decide
      · decide
    generalize encodeIndirect op.reg = n at *
    generalize (if op.mode = .RIAU then (if op.val.getUnsigned = 1 then 3 else 2) else 1) = k at *
    rw [embed_two, Nat.mod_eq_of_lt (by omega), Nat.mod_eq_of_lt (by omega),
      or_bits (k := 6) (by omega) (by omega)] at h
    refine code_step h he (by omega) (show (k * 64 + n) / 64 % 4 * 64 + (k * 64 + n) % 4 = _ by omega) (fine_of rfl ?_) rfl
    rw [Nat.shiftRight_eq_div_pow, show (k * 64 + n) / 2 ^ 6 = k by omega]
    rcases (show k = 1 ∨ k = 2 ∨ k = 3 by omega) with rfl | rfl | rfl <;> rfl
  | SB =>
    have hr : 16 ≤ op.reg ∧ op.reg ≤ 19 := by
      generalize op.mode = k at hacc hop
      cases k <;> first | exact hop | exact absurd hacc (by decide)
    have h : Out.ok (embed (a.setErrorIf .OK) (encodeSegment op.reg * 16)) = .ok a' := h
    rw [Asm.noError] at h
    injection h with h
    unfold encodeSegment at h
    exact code_step h he (by omega) (show (op.reg - 16) * 16 / 16 % 4 * 16 = _ by omega) (fine_no rfl _) rfl
  | RB =>
    have hr : 16 ≤ op.reg ∧ op.reg ≤ 23 := by
      generalize op.mode = k at hacc hop
      cases k <;> first
        | exact absurd hacc (by decide)
        | exact ⟨by have := (show 20 ≤ op.reg ∧ op.reg ≤ 23 from hop).1; omega, hop.2⟩
        | exact ⟨hop.1, by have := (show 16 ≤ op.reg ∧ op.reg ≤ 19 from hop).2; omega⟩
    have h : Out.ok (embed (a.setErrorIf .OK) (encodeSegment op.reg * 16)) = .ok a' := h
    rw [Asm.noError] at h
    injection h with h
    unfold encodeSegment at h
    exact code_step h he (by omega) (show (op.reg - 16) * 16 / 16 % 8 * 16 = _ by omega) (fine_no rfl _) rfl
  | RBW =>
    have hr : 16 ≤ op.reg ∧ op.reg ≤ 23 := by
      generalize op.mode = k at hacc hop
      cases k <;> first
        | exact absurd hacc (by decide)
        | exact absurd hop id
        | exact ⟨by have := (show 20 ≤ op.reg ∧ op.reg ≤ 23 from hop).1; omega, hop.2⟩
        | exact ⟨hop.1, by have := (show 16 ≤ op.reg ∧ op.reg ≤ 19 from hop).2; omega⟩
    have h : Out.ok (embed ((a.setErrorIf .OK).check (op.reg == 16) .REGISTER_NOT_ALLOWED) (encodeSegment op.reg * 16)) = .ok a' := h
    rw [Asm.noError] at h
    injection h with h
    have he' := he
    rw [← h] at he'
    obtain ⟨_, c2, c3⟩ := check_ok (by decide) (show (a.check (op.reg == 16) .REGISTER_NOT_ALLOWED).err = .OK from he')
    rw [c2] at h
    rw [beq_eq_false_iff_ne] at c3
    unfold encodeSegment at h
    have hn : 1 ≤ op.reg - 16 ∧ op.reg - 16 < 8 := by omega
    clear he' c3 c2 hr
    generalize op.reg - 16 = n at *
    refine code_step h he (by omega) (show n * 16 / 16 % 8 * 16 = _ by omega) (fine_of rfl ?_) rfl
    rw [Nat.shiftRight_eq_div_pow, show n * 16 / 2 ^ 4 = n by omega]
    rcases (show n = 1 ∨ n = 2 ∨ n = 3 ∨ n = 4 ∨ n = 5 ∨ n = 6 ∨ n = 7 by omega) with rfl | rfl | rfl | rfl | rfl | rfl | rfl <;> rfl
  | RP =>
    have hr : 32 ≤ op.reg ∧ op.reg ≤ 34 := by
      generalize op.mode = k at hacc hop
      cases k <;> first | exact hop | exact absurd hacc (by decide)
    have h : Out.ok (embed (a.setErrorIf .OK) (encodeSpecial op.reg * 16)) = .ok a' := h
    rw [Asm.noError] at h
    injection h with h
    unfold encodeSpecial at h
    have hn : op.reg - 32 < 3 := by omega
    clear hr
    generalize op.reg - 32 = n at *
    refine code_step h he (by omega) (show n * 16 / 16 % 8 * 16 = _ by omega) (fine_of rfl ?_) rfl
    rcases (show n = 0 ∨ n = 1 ∨ n = 2 by omega) with rfl | rfl | rfl <;> rfl
  | RHR =>
    have hr : 24 ≤ op.reg ∧ op.reg ≤ 31 := by
      generalize op.mode = k at hacc hop
      cases k <;> first | exact hop | exact absurd hacc (by decide)
    have h : Out.ok (embed ((a.setErrorIf .OK).check (op.reg == 31) .REGISTER_NOT_ALLOWED) (encodeHardware op.reg * 16)) = .ok a' := h
    exact hardware _ hr rfl rfl (fun _ => rfl) h
  | RHW =>
    have hr : 24 ≤ op.reg ∧ op.reg ≤ 31 := by
      generalize op.mode = k at hacc hop
      cases k <;> first | exact hop | exact absurd hacc (by decide) | exact absurd hop id
    have h : Out.ok (embed ((a.setErrorIf .OK).check (op.reg == 29) .REGISTER_NOT_ALLOWED) (encodeHardware op.reg * 16)) = .ok a' := h
    exact hardware _ hr rfl rfl (fun _ => rfl) h
  | SKIP =>
    have h : Out.ok (if op.mode = .SKIP then embed (a.setErrorIf .OK) (op.cc % 16 * 16) else a.setErrorIf .OK) = .ok a' := h
    rw [Asm.noError] at h
    injection h with h
    split at h
    · exact code_step h he (by omega) (show op.cc % 16 * 16 / 16 % 16 * 16 = _ by omega) (fine_no rfl _) rfl
    · subst h
      exact none_step he rfl (fine_no rfl _) rfl
  | EOP =>
    have hr : 49 ≤ op.cc ∧ op.cc ≤ 51 := by
      generalize op.mode = k at hacc hop
      cases k <;> first | exact hop | exact absurd hacc (by decide)
    have h : Out.ok (embed (a.setErrorIf .OK) (op.cc - 48)) = .ok a' := h
    rw [Asm.noError] at h
    injection h with h
    exact code_step h he (by omega) (show (op.cc - 48) % 4 = _ by omega) (fine_no rfl _) rfl
  | COP =>
    unfold encodeOperand at h
    dsimp only at h
    rw [Asm.noError] at h
    split at h
    · injection h with h
      exact code_step h he (by decide) rfl (fine_no rfl _) rfl
    · injection h with h
      have he' := he
      rw [← h] at he'
      obtain ⟨_, c2, _⟩ := check_ok (by decide) (show (a.check (op.val.overflow 1 0) .ILLEGAL_CONSTANT).err = .OK from he')
      rw [c2] at h
      exact code_step h he (by omega) (show op.val.getUnsigned % 2 * 8 / 8 % 2 * 8 = _ by omega) (fine_no rfl _) rfl
  | IM8W | IM16 =>
    have h : Out.ok (((a.setErrorIf .OK).check op.val.overflowUint16 .OVERFLOW_RANGE).emit16be op.val.getUnsigned) = .ok a' := h
    rw [Asm.noError] at h
    injection h with h
    have he' := he
    rw [← h] at he'
    obtain ⟨_, c2, _⟩ := check_ok (by decide) (show (a.check op.val.overflowUint16 .OVERFLOW_RANGE).err = .OK from he')
    rw [c2] at h
    exact word_step h he rfl (fine_no rfl _) rfl
  | IABS =>
    have h : Out.ok ((a.setErrorIf .OK).emit16be op.val.getUnsigned) = .ok a' := h
    rw [Asm.noError] at h
    injection h with h
    exact word_step h he rfl (fine_no rfl _) rfl
  | ABS =>
    have h : Out.ok (((a.setErrorIf .OK).setErrorIf (Config.checkAddr (width cpu) op.val.getUnsigned false)).emit16be
      op.val.getUnsigned) = .ok a' := h
    rw [Asm.noError] at h
    injection h with h
    have he' := he
    rw [← h] at he'
    obtain ⟨_, c2⟩ := set_ok (show (a.setErrorIf (Config.checkAddr (width cpu) op.val.getUnsigned false)).err = .OK from he')
    rw [c2] at h
    exact word_step h he rfl (fine_no rfl _) rfl
  | BIT =>
    have h : Out.ok (embed ((a.setErrorIf .OK).check (op.val.overflow 15 0) .ILLEGAL_BIT_NUMBER) (op.val.getUnsigned % 16)) = .ok a' := h
    rw [Asm.noError] at h
    injection h with h
    have he' := he
    rw [← h] at he'
    obtain ⟨_, c2, _⟩ := check_ok (by decide) (show (a.check (op.val.overflow 15 0) .ILLEGAL_BIT_NUMBER).err = .OK from he')
    rw [c2] at h
    exact code_step h he (by omega) (show op.val.getUnsigned % 16 % 16 = _ by omega) (fine_no rfl _) rfl
  | IM8 | IOA =>
    have h : Out.ok (embed ((a.setErrorIf .OK).check op.val.overflowUint8 .OVERFLOW_RANGE) (op.val.getUnsigned % 256)) = .ok a' := h
    rw [Asm.noError] at h
    injection h with h
    have he' := he
    rw [← h] at he'
    obtain ⟨_, c2, _⟩ := check_ok (by decide) (show (a.check op.val.overflowUint8 .OVERFLOW_RANGE).err = .OK from he')
    rw [c2] at h
    exact code_step h he (by omega) (show op.val.getUnsigned % 256 % 256 = _ by omega) (fine_no rfl _) rfl
  | IM4 =>
    have h : Out.ok (embed (((a.setErrorIf .OK).check (op.val.overflow 15 0) .OVERFLOW_RANGE).check op.val.overflowUint8
      .OVERFLOW_RANGE) (if op.val.overflow 15 0 then op.val.getUnsigned % 16 else op.val.getUnsigned % 256)) = .ok a' := h
    rw [Asm.noError] at h
    injection h with h
    have he' := he
    rw [← h] at he'
    obtain ⟨c1, c2, _⟩ := check_ok (by decide)
      (show ((a.check (op.val.overflow 15 0) .OVERFLOW_RANGE).check op.val.overflowUint8 .OVERFLOW_RANGE).err = .OK from he')
    obtain ⟨_, c3, c4⟩ := check_ok (by decide) c1
    have hv := overflow_le (by decide) c4
    rw [c2, c3, c4, if_neg (by decide)] at h
    exact code_step h he (by omega) (show op.val.getUnsigned % 256 % 16 = _ by omega) (fine_no rfl _) rfl
  | ILVL =>
    unfold encodeOperand at h
    dsimp only at h
    rw [Asm.noError] at h
    injection h with h
    have he' := he
    rw [← h] at he'
    obtain ⟨c1, c2, _⟩ := check_ok (by decide) (show (Asm.check (Asm.check (a.check (op.val.overflow 3 0) .ILLEGAL_CONSTANT)
      (op.val.overflow 15 0) .OVERFLOW_RANGE) op.val.overflowUint8 .OVERFLOW_RANGE).err = .OK from he')
    obtain ⟨c3, c4, c5⟩ := check_ok (by decide) c1
    obtain ⟨_, c6, c7⟩ := check_ok (by decide) c3
    have hv := overflow_le (by decide) c7
    rw [c2, c4, c6, c5, c7, if_neg (by decide), if_neg (by decide)] at h
    exact code_step h he (by omega) (show op.val.getUnsigned % 256 % 4 = _ by omega) (fine_no rfl _) rfl

/-- Every operand of the table. -/
theorem operand_step {m : Mode} {op : Operand} {a a' : Asm} (hop : OpOk op) (hm : m ≠ .UNDEF)
    (hacc : acceptMode op.mode m = true) (h : encodeOperand cpu addr m op a = .ok a') (he : a'.err = .OK) :
    Step m a a' := by
  have h' : encodeOperand cpu addr m { op with err := .OK } (a.setErrorIf op.err) = .ok a' := by
    rw [← h]
    unfold encodeOperand
    dsimp only
    rw [Asm.noError]
    rfl
  have st := core_step hop hm hacc h' he
  have h1 : (a.setErrorIf op.err).err = .OK := by
    obtain ⟨_, _, h1, _⟩ := st
    exact h1
  rw [(set_ok h1).2] at st
  exact st

end

/-! ### The instruction -/

theorem bits_le {m : Mode} {x : Nat} (h : bitsOf m x = x) : x &&& maskOf m = x := by
  rw [← bits_mask, h]

theorem sub_or {x a b : Nat} (h : x &&& a = x) : x &&& (a ||| b) = x := by
  rw [Nat.and_or_distrib_left, h]
  apply Nat.eq_of_testBit_eq
  intro i
  rw [Nat.testBit_or, Nat.testBit_and]
  cases x.testBit i <;> simp

theorem mask_le {m : Mode} : ∀ {ms : List Mode}, m ∈ ms → maskOf m &&& maskAll ms = maskOf m
  | k :: ms, h => by
    rcases List.mem_cons.1 h with rfl | h
    · exact sub_or (Nat.and_self _)
    · show maskOf m &&& (maskOf k ||| maskAll ms) = maskOf m
      rw [Nat.or_comm]
      exact sub_or (mask_le h)

/-- What all the operands do. -/
theorem emit_code {cpu : CpuType} {addr : Nat} : ∀ (l : List (Mode × Operand)) (a a' : Asm),
    (∀ p ∈ l, OpOk p.2 ∧ p.1 ≠ .UNDEF ∧ acceptMode p.2.mode p.1 = true) →
    emitList (encodeOperand cpu addr) l a = .ok a' → a'.err = .OK →
    ∃ x bs, a.err = .OK ∧ a' = ⟨.OK, a.opc ||| x, a.ops ++ bs⟩ ∧ x < 65536 ∧ bs.length = lenAll (l.map (·.1)) ∧
      (∀ b ∈ bs, b < 256) ∧ (0xFF80 ≤ x ∧ Mode.GEN ∈ l.map (·.1) ∨ (x &&& maskAll (l.map (·.1)) = x ∧
        (disjoint (l.map (·.1)) = true → ∀ m ∈ l.map (·.1), Fine m x)))
  | [], a, a', _, h, he => by
    have h : Out.ok a = .ok a' := h
    injection h with h
    subst h
    refine ⟨0, [], he, ?_, by decide, rfl, (fun b h => nomatch h), Or.inr ⟨rfl, (fun _ m h => nomatch h)⟩⟩
    rw [Nat.or_zero, List.append_nil]
    exact asm_eta he
  | (m, op) :: l, a, a', hl, h, he => by
    obtain ⟨a1, h1, h2⟩ := bind_ok h
    obtain ⟨x, bs, k1, k2, k3, k4, k5, k6⟩ := emit_code l a1 a' (fun p hp => hl p (List.mem_cons_of_mem _ hp)) h2 he
    obtain ⟨l1, l2, l3⟩ := hl (m, op) (List.mem_cons_self ..)
    obtain ⟨y, cs, j1, j2, j3, j4, j5, j6⟩ := operand_step l1 l2 l3 h1 k1
    subst j2
    refine ⟨y ||| x, cs ++ bs, j1, ?_, Nat.or_lt_two_pow (n := 16) j3 k3, ?_, ?_, ?_⟩
    · rw [k2]
      dsimp only
      rw [Nat.or_assoc, List.append_assoc]
    · rw [List.length_append, j5, k4]
      rfl
    · intro b hb
      rcases List.mem_append.1 hb with hb | hb
      · exact j6 b hb
      · exact k5 b hb
    · rcases j4 with j4 | ⟨j4, j7⟩
      · exact Or.inl ⟨Nat.le_trans j4.1 Nat.left_le_or, List.mem_cons.2 (Or.inl j4.2.symm)⟩
      · rcases k6 with k6 | ⟨k6, k7⟩
        · exact Or.inl ⟨Nat.le_trans k6.1 Nat.right_le_or, List.mem_cons_of_mem _ k6.2⟩
        · have hy := bits_le j4
          refine Or.inr ⟨?_, ?_⟩
          · show (y ||| x) &&& (maskOf m ||| maskAll (l.map (·.1))) = y ||| x
            rw [Nat.and_or_distrib_right, sub_or hy, Nat.or_comm (maskOf m), sub_or k6]
          · intro hd m' hm'
            have hd : (maskOf m &&& maskAll (l.map (·.1)) == 0 && disjoint (l.map (·.1))) = true := hd
            rw [Bool.and_eq_true, beq_iff_eq] at hd
            rcases List.mem_cons.1 hm' with rfl | hm'
            · refine fine_bits ?_ j7
              rw [Nat.and_or_distrib_right, ← k6, Nat.and_assoc, Nat.and_comm (maskAll _), hd.1, Nat.and_zero, Nat.or_zero]
            · refine fine_bits ?_ (k7 hd.2 m' hm')
              rw [Nat.and_or_distrib_right, ← hy, ← mask_le hm', Nat.and_assoc, Nat.and_comm (maskOf m'),
                ← Nat.and_assoc (maskOf m), hd.1, Nat.zero_and, Nat.and_zero, Nat.zero_or]

theorem pad_masks : ∀ (n : Nat) (ms : List Mode), ms.length ≤ n → maskAll (pad n .NONE ms) = maskAll ms ∧
    lenAll (pad n .NONE ms) = lenAll ms ∧ (disjoint ms = true → disjoint (pad n .NONE ms) = true) ∧
    ∀ m ∈ ms, m ∈ pad n .NONE ms
  | 0, [], _ => ⟨rfl, rfl, fun _ => rfl, fun m h => nomatch h⟩
  | n + 1, [], _ => by
    obtain ⟨h1, h2, h3, _⟩ := pad_masks n [] (Nat.zero_le _)
    refine ⟨?_, ?_, ?_, fun m h => nomatch h⟩
    · show maskOf .NONE ||| maskAll (pad n .NONE []) = 0
      rw [h1]
      rfl
    · show lenOf .NONE + lenAll (pad n .NONE []) = 0
      rw [h2]
      rfl
    · intro _
      show (maskOf .NONE &&& maskAll (pad n .NONE []) == 0 && disjoint (pad n .NONE [])) = true
      rw [h1, h3 rfl]
      rfl
  | n + 1, m :: ms, h => by
    obtain ⟨h1, h2, h3, h4⟩ := pad_masks n ms (Nat.le_of_succ_le_succ h)
    refine ⟨?_, ?_, ?_, ?_⟩
    · show maskOf m ||| maskAll (pad n .NONE ms) = _
      rw [h1]
      rfl
    · show lenOf m + lenAll (pad n .NONE ms) = _
      rw [h2]
      rfl
    · intro hd
      have hd : (maskOf m &&& maskAll ms == 0 && disjoint ms) = true := hd
      rw [Bool.and_eq_true] at hd
      show (maskOf m &&& maskAll (pad n .NONE ms) == 0 && disjoint (pad n .NONE ms)) = true
      rw [h1, h3 hd.2, hd.1]
      rfl
    · intro k hk
      rcases List.mem_cons.1 hk with rfl | hk
      · exact List.mem_cons_self ..
      · exact List.mem_cons_of_mem _ (h4 k hk)

/-- An operand is read from as many bytes as it has. -/
theorem operand_read (o : Opts) (cpu : CpuType) (addr opc : Nat) (m : Mode) {bs : List Nat} (more pre : List Nat)
    (hl : bs.length = lenOf m) (hb : ∀ b ∈ bs, b < 256) :
    (decodeOperand o cpu addr opc m ⟨bs ++ more, pre, .OK⟩).2 = ⟨more, pre ++ bs, .OK⟩ := by
  have none : lenOf m = 0 → bs = [] := fun h => List.length_eq_zero_iff.1 (hl.trans h)
  have two : lenOf m = 2 → (⟨bs ++ more, pre, .OK⟩ : Rd).be16.2 = ⟨more, pre ++ bs, .OK⟩ := fun h => two_bytes hb (hl.trans h)
  cases m with
  | IM8W | IM16 | ABS | IABS => exact two rfl
  | _ =>
    rw [none rfl, List.append_nil]
    rfl

theorem more_read (o : Opts) (cpu : CpuType) (addr opc : Nat) : ∀ (ms : List Mode) (bs more pre : List Nat),
    bs.length = lenAll ms → (∀ b ∈ bs, b < 256) →
    (decodeMore o cpu addr opc ms ⟨bs ++ more, pre, .OK⟩).2 = ⟨more, pre ++ bs, .OK⟩
  | [], bs, more, pre, hl, _ => by
    rw [List.length_eq_zero_iff.1 hl, List.append_nil]
    rfl
  | m :: ms, bs, more, pre, hl, hb => by
    have hl : bs.length = lenOf m + lenAll ms := hl
    unfold decodeMore
    dsimp only
    have e := operand_read o cpu addr opc m (bs := bs.take (lenOf m)) (bs.drop (lenOf m) ++ more) pre
      (by rw [List.length_take]; omega) (fun b h => hb b (List.mem_of_mem_take h))
    rw [← List.append_assoc, List.take_append_drop] at e
    rw [e, more_read o cpu addr opc ms (bs.drop (lenOf m)) more _ (by rw [List.length_drop]; omega)
      (fun b h => hb b (List.mem_of_mem_drop h)), List.append_assoc, List.take_append_drop]

theorem all_read (o : Opts) (cpu : CpuType) (addr opc : Nat) (ms : List Mode) (bs more pre : List Nat)
    (hl : bs.length = lenAll ms) (hb : ∀ b ∈ bs, b < 256) :
    (decodeOperands o cpu addr opc ms ⟨bs ++ more, pre, .OK⟩).2 = ⟨more, pre ++ bs, .OK⟩ := by
  rw [← more_read o cpu addr opc ms bs more pre hl hb]
  cases ms <;> rfl

def ListOk : Except (Err × Scan) (List Operand × Scan) → Prop
  | .ok (ops, _) => ∀ op ∈ ops, OpOk op
  | .error (e, _) => e ≠ .OK

theorem mask_not {x m : Nat} (hx : x < 65536) (h : x &&& m = x) : x &&& (0xFFFF ^^^ m) = 0 := by
  apply Nat.eq_of_testBit_eq
  intro i
  rw [Nat.testBit_and, Nat.testBit_xor, Nat.zero_testBit, ← and_code hx]
  have hi : x.testBit i = true → m.testBit i = true := by
    intro hi
    rw [← h, Nat.testBit_and, Bool.and_eq_true] at hi
    exact hi.2
  rw [Nat.testBit_and]
  cases h1 : x.testBit i with
  | false => rfl
  | true =>
    rw [hi h1]
    cases Nat.testBit 0xFFFF i <;> rfl

/-- An instruction with a memory address has no bytes after the code. -/
theorem gen_len (cpu : CpuType) : ((rows cpu).all fun r =>
    !(pad 4 .NONE (modes r)).contains .GEN || lenAll (pad 4 .NONE (modes r)) == 0) = true := by
  cases cpu <;> decide +kernel

/-- The codes from 0xFF80 on are instructions without bytes after the code. -/
theorem top_codes (cpu : CpuType) : ((List.range 128).all fun i =>
    match searchOpCode cpu (0xFF80 + i) with
    | some r => lenAll (modes r) == 0
    | none => false) = true := by
  cases cpu <;> decide +kernel

theorem top_code (cpu : CpuType) {opc : Nat} (h : 0xFF80 ≤ opc) (h' : opc < 65536) :
    ∃ row, searchOpCode cpu opc = some row ∧ lenAll (modes row) = 0 := by
  have h1 := List.all_eq_true.1 (top_codes cpu) (opc - 0xFF80) (List.mem_range.2 (by omega))
  rw [Nat.add_sub_cancel' h] at h1
  split at h1
  · rename_i r hr
    exact ⟨r, hr, beq_iff_eq.1 h1⟩
  · cases h1

/-- No row is assembled to a code of `NoTransfer`: a bit that no operand changes is another one, or the register has to
change. -/
theorem no_transfer (cpu : CpuType) : ((rows cpu).all fun r =>
    r.opcode &&& (0xF8FB &&& (0xFFFF ^^^ maskAll (modes r))) != 0x2000 &&& (0xFFFF ^^^ maskAll (modes r)) ||
    (modes r).contains .RIAU || (maskAll (modes r) &&& 0x0704 == 0 && (r.opcode == 0x2000 || r.opcode == 0x2004 || r.opcode == 0x2704))) = true := by
  cases cpu <;> decide +kernel

theorem top_transfer : ((List.range 128).all fun i => !decide (Spec.NoTransfer (0xFF80 + i))) = true := by
  decide +kernel

/-- From a line to the entry and the code. -/
theorem insn_back {cpu : CpuType} {addr : Nat} {P : Char → Plugins Value} {word : List Char} {s : Scan} {bytes : List Nat}
    {rest : Scan} (h : encodeImpl P cpu addr word s = .ok ⟨.OK, bytes, rest⟩) :
    ∃ row opc bs, row ∈ rows cpu ∧ Table.strcasecmp word row.name = 0 ∧ bytes = opc / 256 % 256 :: opc % 256 :: bs ∧
      opc < 65536 ∧ ¬ Spec.NoTransfer opc ∧ (∀ b ∈ bs, b < 256) ∧ ∃ row', searchOpCode cpu opc = some row' ∧
        (opc < 0xFF80 → row.name = row'.name) ∧ bs.length = lenAll (modes row') := by
  unfold encodeImpl at h
  obtain ⟨has, h1, h2⟩ := bind_ok h
  obtain ⟨x, d1, d2⟩ := bind_ok h2
  have hx : ListOk x := by
    unfold parseOperands at d1
    split at d1
    · cases x with
      | error e =>
        obtain ⟨e, p⟩ := e
        exact operands_err (fun s e p h => show ParsedOk (.error (e, p)) from parse_ok h) _ _ _ _ d1
      | ok x =>
        obtain ⟨ops, s⟩ := x
        exact (operands_all (fun s op p h => show ParsedOk (.ok (op, p)) from parse_ok h) _ _ _ _ d1).1
    · injection d1 with d1
      subst d1
      intro op hop
      cases hop
  cases x with
  | error e =>
    obtain ⟨e, p⟩ := e
    injection d2 with d2
    injection d2 with d2
    exact absurd d2 hx
  | ok x =>
    obtain ⟨ops, s⟩ := x
    dsimp only at d2
    have hx : ∀ op ∈ pad 4 ({} : Operand) ops, OpOk op := pad_all opOk_none 4 ops hx
    obtain ⟨x, f1, f2⟩ := bind_ok d2
    unfold searchName searchWith at f1
    split at f1
    · rename_i pre row hs
      injection f1 with f1
      subst f1
      dsimp only at f2
      obtain ⟨a, g3, g4⟩ := bind_ok f2
      injection g4 with g4
      injection g4 with g4 g5 g6
      obtain ⟨p, hp, rfl, hrow, hcmp, hacc⟩ := searchName_mem hs
      have hrow : row ∈ rows cpu := List.mem_flatMap.2 ⟨p, hp, hrow⟩
      have hok := back_ok cpu hrow
      have hrk := rows_ok cpu true hrow
      unfold backOk at hok
      simp only [Bool.and_eq_true, decide_eq_true_eq, Bool.not_eq_true', beq_iff_eq, List.any_eq_true,
        List.contains_eq_mem, decide_eq_false_iff_not] at hok
      obtain ⟨⟨⟨⟨⟨⟨⟨b1, b2⟩, b3⟩, b4⟩, b5⟩, b6⟩, b7⟩, t, b8, b9⟩ := hok
      have hlen : (modes row).length ≤ 4 := by
        unfold rowOk at hrk
        simp only [Bool.and_eq_true, decide_eq_true_eq] at hrk
        exact hrk.1.1.1.1.2
      obtain ⟨q1, q2, q3, q4⟩ := pad_masks 4 (modes row) hlen
      have hz := zip_all (pad 4 .NONE (modes row)) (pad 4 ({} : Operand) ops) (f := acceptMode)
        (g := fun op : Operand => op.mode) hacc
      obtain ⟨x, bs, k1, k2, k3, k4, k5, k6⟩ := emit_code _ _ _ (fun p hp => ⟨hx _ (List.of_mem_zip hp).2, by
        intro hu
        have : p.1 ∈ pad 4 .NONE (modes row) := (List.of_mem_zip hp).1
        rw [hu] at this
        exact pad_all (f := fun m => m ≠ Mode.UNDEF) (by decide) 4 (modes row) (fun m hm hu => b7 (hu ▸ hm)) _ this rfl,
        hz p hp⟩) g3 g4
      rw [zip_fst _ _ (by rw [pad_length, pad_length])] at k4 k6
      subst k2
      have hopc : (row.opcode ||| x) < 65536 := Nat.or_lt_two_pow (n := 16) b1 k3
      refine ⟨row, row.opcode ||| x, bs, hrow, hcmp, g5.symm, hopc, ?_, k5, ?_⟩
      · intro hno
        rcases k6 with ⟨k6, _⟩ | ⟨k6, k7⟩
        · have hge := Nat.le_trans k6 (Nat.right_le_or (n := row.opcode))
          have := List.all_eq_true.1 top_transfer ((row.opcode ||| x) - 0xFF80) (List.mem_range.2 (by omega))
          rw [Nat.add_sub_cancel' hge, decide_eq_true hno] at this
          cases this
        · rw [q1] at k6
          have k7 := k7 (q3 b5)
          obtain ⟨n1, n2, n3, n4⟩ := hno
          have ht := List.all_eq_true.1 (no_transfer cpu) row hrow
          simp only [Bool.or_eq_true, bne_iff_ne, Bool.and_eq_true, beq_iff_eq, List.contains_iff_mem] at ht
          rcases ht with (ht | ht) | ⟨ht, hc⟩
          · apply ht
            have hx0 : x &&& (0xFFFF ^^^ maskAll (modes row)) = 0 := mask_not k3 k6
            rw [Nat.and_comm 0xF8FB, ← Nat.and_assoc]
            have : row.opcode &&& (0xFFFF ^^^ maskAll (modes row)) =
                (row.opcode ||| x) &&& (0xFFFF ^^^ maskAll (modes row)) := by
              rw [Nat.and_or_distrib_right, hx0, Nat.or_zero]
            rw [this, Nat.and_assoc, Nat.and_comm _ 0xF8FB, ← Nat.and_assoc, n1]
          · have hf := fine_bits (d := row.opcode ||| x) (by
              have : row.opcode &&& maskOf .RIAU = 0 := by
                rw [← mask_le ht, Nat.and_comm (maskOf .RIAU), ← Nat.and_assoc, b6, Nat.zero_and]
              rw [Nat.and_or_distrib_right, this, Nat.zero_or]) (k7 _ (q4 _ ht)) 6 3 [0] rfl
            have : ((row.opcode ||| x) >>> 6) &&& 3 = (((row.opcode ||| x) &&& 0xF8FB) >>> 6) &&& 3 := by
              rw [Nat.shiftRight_and_distrib, Nat.and_assoc]
              rfl
            rw [this, n1] at hf
            exact absurd hf (by decide)
          · have hx0 : x &&& 0x0704 = 0 := by rw [← k6, Nat.and_assoc, ht, Nat.and_zero]
            have h7 : (row.opcode ||| x) &&& 0x0704 = row.opcode &&& 0x0704 := by
              rw [Nat.and_or_distrib_right, hx0, Nat.or_zero]
            have hall : (row.opcode ||| x) = 0x2000 ||| (row.opcode &&& 0x0704) := by
              rw [← n1, ← h7, ← Nat.and_or_distrib_left]
              exact (and_code hopc).symm
            rcases hc with (hc | hc) | hc
            · exact n2 (by rw [hall, hc]; rfl)
            · exact n3 (by rw [hall, hc]; rfl)
            · exact n4 (by rw [hall, hc]; rfl)
      rcases k6 with ⟨k6, kg⟩ | ⟨k6, k7⟩
      · have hge := Nat.le_trans k6 (Nat.right_le_or (n := row.opcode))
        obtain ⟨row', s1, s2⟩ := top_code cpu hge hopc
        have hl := List.all_eq_true.1 (gen_len cpu) row hrow
        rw [List.contains_iff_mem.2 kg, Bool.not_true, Bool.false_or, beq_iff_eq] at hl
        exact ⟨row', s1, fun hlt => absurd hlt (by omega), by rw [k4, hl, s2]⟩
      · rw [q1] at k6
        have k7 := k7 (q3 b5)
        unfold fits at b9
        simp only [Bool.and_eq_true, Bool.not_eq_true', beq_iff_eq] at b9
        obtain ⟨⟨⟨⟨⟨c1, c2⟩, c3⟩, c4⟩, c5⟩, c6⟩ := b9
        have hfine : ∀ m ∈ modes row, Fine m (row.opcode ||| x) := by
          intro m hm
          refine fine_bits ?_ (k7 m (q4 m hm))
          have : row.opcode &&& maskOf m = 0 := by
            rw [← mask_le hm, Nat.and_comm (maskOf m), ← Nat.and_assoc, b6, Nat.zero_and]
          rw [Nat.and_or_distrib_right, this, Nat.zero_or]
        have htake := take_fine hfine (rowFields t) 0xFFFF c6
        have hx0 : x &&& keepAll (rowFields t) 0xFFFF = 0 := by
          rw [← k6, Nat.and_assoc, Nat.and_comm (maskAll _), c2, Nat.and_zero]
        rw [and_code hopc, Nat.and_or_distrib_right, c3, hx0, Nat.or_zero] at htake
        obtain ⟨row', s1, _, s3, s4⟩ := search_back hopc (table_rows cpu ▸ b8) c1 htake
        exact ⟨row', s1, fun _ => by rw [← c5, s3], by rw [k4, q2, c4, s4]⟩
    · rename_i e hs
      injection f1 with f1
      subst f1
      injection f2 with f2
      injection f2 with f2 f3 f4
      exact absurd f2 (searchName_err hs)
    · cases f1

theorem opc_read (x : Nat) (hx : x < 65536) (more pre : List Nat) :
    (⟨x / 256 % 256 :: x % 256 :: more, pre, .OK⟩ : Rd).be16 =
      (x, ⟨more, pre ++ [x / 256 % 256, x % 256], .OK⟩) := by
  unfold Rd.be16
  rw [byte_some (by omega)]
  dsimp only
  rw [byte_some (by omega), List.append_assoc]
  refine Prod.ext ?_ rfl
  show x / 256 % 256 * 256 + x % 256 = x
  omega

theorem alnum (c : Char) (h : Ctype.isAlnum c = true) : syntaxOf.instructionLetter c = true := symbolLetter_alnum h

/-- Whatever line is assembled without error, at any address and with any symbols: the disassembler, with any options,
reads the bytes of it, whatever follows them, as one instruction, without error. If the code is less than 0xFF80, it has
the name written in the line.
What is missing of C29: the name for the other codes, for which it does not hold (`C29_violated_mn1610`), and that the
operands are those of the line, which they need not be: `C79_unchecked`. -/
theorem C29_mn1610_partial {E : Env} {cpu : CpuType} {addr : Nat} {line : List Char} {bytes : List Nat} {rest : Scan}
    (h : assemble E cpu addr line = .ok (.insn ⟨.OK, bytes, rest⟩)) (o : Opts) (more : List Nat) :
    (disassemble o cpu addr (bytes ++ more)).err = .OK ∧
    (disassemble o cpu addr (bytes ++ more)).bytes = bytes ∧
    (bytes.headD 0 < 255 ∨ bytes.getD 1 0 < 128 → WrittenAs line (disassemble o cpu addr (bytes ++ more)).name) := by
  obtain ⟨word, scan, hi, hok, hw, blanks, tail, hline, hblank⟩ :=
    encode_line_inv (by decide) rfl h
  obtain ⟨row, opc, bs, hrow, hcmp, rfl, ho, _, hb, row', s1, s2, s3⟩ := insn_back hi
  have hok' := back_ok cpu hrow
  unfold backOk at hok'
  simp only [Bool.and_eq_true, decide_eq_true_eq, Bool.not_eq_true', List.contains_eq_mem, decide_eq_false_iff_not] at hok'
  obtain ⟨⟨⟨⟨⟨⟨⟨_, b2⟩, b3⟩, b4⟩, _⟩, _⟩, _⟩, _⟩ := hok'
  have hname : WrittenAs line row.name := written alnum (fun c h => by cases h) hw b2 b3 hcmp b4 hline hblank
  have hwr : opc / 256 % 256 < 255 ∨ opc % 256 < 128 → WrittenAs line (outText o row'.name) := by
    intro hneg
    rw [s2 (by omega)] at hname
    exact hname.letters (outText_same o _)
  have hdis : disassemble o cpu addr (opc / 256 % 256 :: opc % 256 :: bs ++ more) =
      decodeImpl o cpu addr (opc / 256 % 256 :: opc % 256 :: bs ++ more) := by
    unfold disassemble decode
    rw [hok]
    rfl
  rw [hdis]
  unfold decodeImpl
  rw [List.cons_append, List.cons_append, opc_read _ ho]
  dsimp only
  rw [s1]
  dsimp only
  rw [all_read o cpu addr opc (modes row') bs more _ s3 hb]
  exact ⟨rfl, rfl, hwr⟩

/-- A negative address goes into all the bits of the code: a load is disassembled as a branch. -/
theorem C29_violated_mn1610 :
    assemble noEnv .MN1610 0x200 "L R0, -1".toList = .ok (.insn ⟨.OK, [0xFF, 0xFF], []⟩) ∧
    (disassemble (.default '*') .MN1610 0x200 [0xFF, 0xFF]).err = .OK ∧
    (disassemble (.default '*') .MN1610 0x200 [0xFF, 0xFF]).name = "B".toList := by decide +kernel

example : assemble noEnv .MN1613 0x100 "  lr R1, TSR1, (R3)+".toList = .ok (.insn ⟨.OK, [0x21, 0xF2], []⟩) ∧
    (disassemble (.default '*') .MN1613 0x100 [0x21, 0xF2]).name = "LR".toList ∧
    assemble noEnv .MN1610 0x200 "st R2, X'01F0'".toList = .ok (.insn ⟨.OK, [0x8A, 0xF0], []⟩) ∧
    (disassemble (.default '*') .MN1610 0x200 [0x8A, 0xF0]).name = "ST".toList := by decide +kernel

/-- No line is assembled to a code next to those of LR and STR. -/
theorem assembled_transfer {E : Env} {cpu : CpuType} {addr : Nat} {line : List Char} {b c : Nat} {bytes : List Nat}
    {rest : Scan} (h : assemble E cpu addr line = .ok (.insn ⟨.OK, b :: c :: bytes, rest⟩)) :
    ¬ Spec.NoTransfer (b * 256 + c) := by
  obtain ⟨word, scan, hi, _⟩ := encode_line_inv (by decide) rfl h
  obtain ⟨row, opc, bs, _, _, h1, h2, h3, _⟩ := insn_back hi
  injection h1 with h1 h4
  injection h4 with h4 h5
  have : b * 256 + c = opc := by omega
  rw [this]
  exact h3

/-- A line is assembled to at least a word. -/
theorem assembled_length {E : Env} {cpu : CpuType} {addr : Nat} {line : List Char} {bytes : List Nat} {rest : Scan}
    (h : assemble E cpu addr line = .ok (.insn ⟨.OK, bytes, rest⟩)) : 2 ≤ bytes.length := by
  obtain ⟨word, scan, hi, _⟩ := encode_line_inv (by decide) rfl h
  obtain ⟨row, opc, bs, _, _, rfl, _⟩ := insn_back hi
  simp

end Libasm.Cpu.Mn1610
