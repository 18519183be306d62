import Verif.Cpu.Back
import Verif.Cpu.Mc6800.Props
/-
C29 for the MC6800 family: whatever line the assembler takes, the disassembler reads the bytes of it as
one instruction of the same name.
-/
namespace Libasm.Cpu.Mc6800
open Scan Number Eval
open Tables (Row)

/-! ### Specification -/

/-- Names of the same instruction. -/
def synonyms : List (List String) :=
  [["BHS", "BCC"], ["BLO", "BCS"], ["ASL", "LSL"], ["ASLA", "LSLA"], ["ASLB", "LSLB"], ["ASLD", "LSLD"],
   ["AIM", "BCLR"], ["OIM", "BSET"], ["EIM", "BTGL"], ["TIM", "BTST"]]

/-- The line has the name of the instruction or of a synonym of it. -/
def WrittenLike (line name : List Char) : Prop :=
  WrittenAs line name ∨
  ∃ group ∈ synonyms, ∃ a ∈ group, ∃ b ∈ group,
    WrittenAs line a.toList ∧ Table.Spec.Same b.toList name

/-! ### Encoding -/

/-- A code an operand may lead to, the number of bytes of the operand, and whether it is an immediate
one of an instruction that takes others as well. -/
structure Code where
  opc : Nat
  size : Nat
  imm : Bool := false

/-- The codes an operand may lead to. -/
def codes (m : Mode) (opc : Nat) : List Code :=
  match m with
  | .GN8 => [⟨opc, 1, true⟩, ⟨opc ||| 0x10, 1, false⟩, ⟨opc ||| 0x20, 1, false⟩, ⟨opc ||| 0x30, 2, false⟩]
  | .GN16 => [⟨opc, 2, true⟩, ⟨opc ||| 0x10, 1, false⟩, ⟨opc ||| 0x20, 1, false⟩, ⟨opc ||| 0x30, 2, false⟩]
  | .GMEM => [⟨opc, 1, false⟩, ⟨opc ||| 0x70, 2, false⟩]
  | .DIR | .IDX | .IDY | .IM8 | .BMM | .BIT | .REL => [⟨opc, 1, false⟩]
  | .EXT | .IM16 => [⟨opc, 2, false⟩]
  | .NONE | .UNDEF => [⟨opc, 0, false⟩]

/-- The bytes an operand takes. -/
def size : Mode → Nat
  | .DIR | .IDX | .IDY | .IM8 | .BMM | .REL => 1
  | .EXT | .IM16 => 2
  | _ => 0

/-- Two names of the table are synonyms. -/
def alike (a b : List Char) : Bool :=
  a == b || synonyms.any fun group => (group.map String.toList).contains a && (group.map String.toList).contains b

/-- The row read for the code of an instruction with operands of these sizes. -/
def readB (cpu : CpuType) (pre : Nat) (r : Row) (c1 c2 c3 : Code) : Bool :=
  match searchOpCode cpu pre c3.opc with
  | none => false
  | some r' =>
    alike r.name r'.name &&
    size (select c3.opc (flags r').mode1) == c1.size && size (select c3.opc (flags r').mode2) == c2.size &&
    size (select c3.opc (flags r').mode3) == c3.size &&
    (select c3.opc (flags r').mode1 != .REL || (flags r).mode1 == .REL) &&
    (select c3.opc (flags r').mode2 != .REL || (flags r).mode2 == .REL) &&
    (select c3.opc (flags r').mode3 != .REL || (flags r).mode3 == .REL) &&
    select c3.opc (flags r').mode2 != .BMM && select c3.opc (flags r').mode3 != .BMM &&
    ((flags r').mode2 != .NONE || (flags r').mode3 == .NONE) &&
    (select c3.opc (flags r').mode1 != .BMM ||
      match searchOpCodeAlias cpu pre c3.opc with
      | none => false
      | some a => alike r.name a.name && (flags a).mode2 == (flags r').mode2 && (flags a).mode3 == (flags r').mode3)

/-- The instruction is known, and has no immediate operand. -/
def refused (cpu : CpuType) (name : List Char) : Bool :=
  match searchName cpu name .IM16 .NONE .NONE with
  | .ok (.error e) => decide (e ≠ .OK)
  | _ => false

/-- What the row of the page of prefix `pre` can be encoded to is read as a row of the same name and
length, unless there is an undefined row before it in the table. -/
def rowB (cpu : CpuType) (pre : Nat) (r : Row) : Bool :=
  decide (r.opcode < 256) && decide ('\x00' ∉ r.name) && decide (r.name.length < 11) && decide ('=' ∉ r.name) &&
  (pre == 0 || (isPrefix cpu pre && decide (pre < 256))) &&
  ((flags r).undefined ||
  (codes (flags r).mode1 r.opcode).all fun c1 => (codes (flags r).mode2 c1.opc).all fun c2 =>
    (codes (flags r).mode3 c2.opc).all fun c3 =>
    decide (c1.opc < 256) && decide (c2.opc < 256) && decide (c3.opc < 256) &&
    ((c1.imm && (flags r).mode2 == .NONE && (flags r).mode3 == .NONE &&
        refused cpu r.name) ||
    (pre != 0 || !isPrefix cpu c3.opc) &&
    ((flags r).mode1 != .REL || pre == 0) && ((flags r).mode2 != .REL || c1.size != 0) &&
    ((flags r).mode3 != .REL || c1.size != 0) &&
    readB cpu pre r c1 c2 c3))

theorem rows_mc6800 : ((pages .MC6800).all fun p => p.entries.all fun r => rowB .MC6800 p.prefix_ r) = true := by
  decide +kernel
theorem rows_mb8861 : ((pages .MB8861).all fun p => p.entries.all fun r => rowB .MB8861 p.prefix_ r) = true := by
  decide +kernel
theorem rows_mc6801 : ((pages .MC6801).all fun p => p.entries.all fun r => rowB .MC6801 p.prefix_ r) = true := by
  decide +kernel
theorem rows_hd6301 : ((pages .HD6301).all fun p => p.entries.all fun r => rowB .HD6301 p.prefix_ r) = true := by
  decide +kernel
theorem rows_hc11 : ((pages .MC68HC11).all fun p => p.entries.all fun r => rowB .MC68HC11 p.prefix_ r) = true := by
  decide +kernel
theorem rows_ok (cpu : CpuType) :
    ((pages cpu).all fun p => p.entries.all fun r => rowB cpu p.prefix_ r) = true := by
  cases cpu
  · exact rows_mc6800
  · exact rows_mb8861
  · exact rows_mc6801
  · exact rows_hd6301
  · exact rows_hc11

/-! ### Encoding -/

theorem embed_eq {a : Asm} {x : Nat} (h : a.opc ||| x < 256) : a.embed x = { a with opc := a.opc ||| x } := by
  unfold Asm.embed
  rw [Nat.mod_eq_of_lt h]

/-- The operand of mode `m` was emitted: the code and the bytes. -/
structure Emits (addr : Nat) (m : Mode) (op : Operand) (a a' : Asm) (c : Code) (bs : List Nat) : Prop where
  code : c ∈ codes m a.opc
  opc : a'.opc = c.opc
  pre : a'.pre = a.pre
  ops : a'.ops = a.ops ++ bs
  len : bs.length = c.size
  byte : ∀ b ∈ bs, b < 256
  imm : c.imm = true → op.mode = .IM16
  err : a'.err = .OK → a.err = .OK
  rel : m = .REL → a'.err = .OK → (a.pre ≠ 0 → a.ops ≠ []) →
    addr + (if a.pre ≠ 0 then 2 else 1) + a.ops.length + 1 ≤ 65536 →
    ∃ d : Int, -128 ≤ d ∧ d < 128 ∧ bs = [(d % 256).toNat] ∧
      0 ≤ ((addr + (if a.pre ≠ 0 then 2 else 1) + a.ops.length + 1 : Nat) : Int) + d ∧
      ((addr + (if a.pre ≠ 0 then 2 else 1) + a.ops.length + 1 : Nat) : Int) + d < 65536

theorem setErrorIf_back {e x : Err} (h : Config.setErrorIf e x = .OK) : e = .OK := (setErrorIf_ok h).1

theorem emitByte_eq (op : Operand) (a : Asm) : ∃ e, emitByte op a = { a with err := e } ∧ (e = .OK → a.err = .OK) := by
  unfold emitByte
  split
  · exact ⟨_, rfl, setErrorIf_back⟩
  · exact ⟨a.err, rfl, id⟩

theorem byte_lt (x : Nat) : ∀ b ∈ [x % 256], b < 256 := by
  intro b hb
  rw [List.mem_singleton.1 hb]
  omega

theorem word_lt (x : Nat) : ∀ b ∈ [x / 256 % 256, x % 256], b < 256 := by
  intro b hb
  simp only [List.mem_cons, List.not_mem_nil, or_false] at hb
  omega

theorem emits {addr : Nat} {m : Mode} {op : Operand} {a a' : Asm} (haddr : addr < 65536) (ho : a.opc < 256)
    (hacc : acceptMode op.mode m = true) (hg : op.mode ≠ .GN8 ∧ op.mode ≠ .GN16)
    (h : emitOperand addr m op a = .ok a') : ∃ c bs, Emits addr m op a a' c bs := by
  have hor : ∀ x, x < 256 → a.opc ||| x < 256 := fun x hx => Nat.or_lt_two_pow (n := 8) ho hx
  have hse : ∀ x, (a.setErrorIf x).err = .OK → a.err = .OK := fun x => setErrorIf_back
  -- the ways to emit
  have e8 : ∀ (e : Err) (o' x : Nat) (i : Bool), (e = .OK → a.err = .OK) → ⟨o', 1, i⟩ ∈ codes m a.opc → m ≠ .REL →
      (i = true → op.mode = .IM16) →
      Emits addr m op a ⟨e, a.pre, o', a.ops ++ [x % 256]⟩ ⟨o', 1, i⟩ [x % 256] :=
    fun e o' x i he hc hm hi => ⟨hc, rfl, rfl, rfl, rfl, byte_lt x, hi, he, fun h => absurd h hm⟩
  have e16 : ∀ (e : Err) (o' x : Nat) (i : Bool), (e = .OK → a.err = .OK) → ⟨o', 2, i⟩ ∈ codes m a.opc → m ≠ .REL →
      (i = true → op.mode = .IM16) →
      Emits addr m op a ⟨e, a.pre, o', a.ops ++ [x / 256 % 256, x % 256]⟩ ⟨o', 2, i⟩ [x / 256 % 256, x % 256] :=
    fun e o' x i he hc hm hi => ⟨hc, rfl, rfl, rfl, rfl, word_lt x, hi, he, fun h => absurd h hm⟩
  have im8 : ∀ i : Bool, ⟨a.opc, 1, i⟩ ∈ codes m a.opc → m ≠ .REL → m ≠ .GN16 → m ≠ .IM16 → (i = true → op.mode = .IM16) →
      a' = emitImmediate m op (a.setErrorIf op.err) → ∃ c bs, Emits addr m op a a' c bs := by
    intro i hc hm h1 h2 hi he
    unfold emitImmediate at he
    rw [if_neg (by simp [h1, h2])] at he
    subst he
    split
    · exact ⟨_, _, e8 (Config.setErrorIf (a.setErrorIf op.err).err .OVERFLOW_RANGE) a.opc op.val.getUnsigned i
        (fun h => hse _ (setErrorIf_back h)) hc hm hi⟩
    · exact ⟨_, _, e8 (a.setErrorIf op.err).err a.opc op.val.getUnsigned i (hse _) hc hm hi⟩
  have im16 : ∀ i : Bool, ⟨a.opc, 2, i⟩ ∈ codes m a.opc → m ≠ .REL → (m = .GN16 ∨ m = .IM16) → (i = true → op.mode = .IM16) →
      a' = emitImmediate m op (a.setErrorIf op.err) → ∃ c bs, Emits addr m op a a' c bs := by
    intro i hc hm h1 hi he
    unfold emitImmediate at he
    rw [if_pos h1] at he
    subst he
    exact ⟨_, _, e16 (a.setErrorIf op.err).err a.opc op.val.getUnsigned i (hse _) hc hm hi⟩
  have eb : ∀ (o' x : Nat) (i : Bool), ⟨o', 1, i⟩ ∈ codes m a.opc → m ≠ .REL → (i = true → op.mode = .IM16) →
      ∃ e, emitByte op (a.setErrorIf op.err) = ⟨e, a.pre, a.opc, a.ops⟩ ∧
      Emits addr m op a ⟨e, a.pre, o', a.ops ++ [x % 256]⟩ ⟨o', 1, i⟩ [x % 256] := by
    intro o' x i hc hm hi
    obtain ⟨e, h1, h2⟩ := emitByte_eq op (a.setErrorIf op.err)
    exact ⟨e, h1, e8 e o' x i (fun h => hse _ (h2 h)) hc hm hi⟩
  -- the immediate operand of a general one
  have gn : m = .GN8 ∨ m = .GN16 → ¬ (op.mode = .DIR ∨ op.mode = .BIT) → ¬ (op.mode = .IDX ∨ op.mode = .IDY) →
      ¬ op.mode = .EXT → op.mode = .IM16 := by
    intro h1 h2 h3 h4
    obtain ⟨g1, g2⟩ := hg
    revert hacc g1 g2 h2 h3 h4
    generalize op.mode = k
    rcases h1 with rfl | rfl <;> cases k <;> decide
  have gen : ∀ (hm : m = .GN8 ∨ m = .GN16), emitOperand addr m op a = .ok a' → ∃ c bs, Emits addr m op a a' c bs := by
    intro hm h
    have hr : m ≠ .REL := by rcases hm with rfl | rfl <;> decide
    have c1 : ⟨a.opc ||| 0x10, 1, false⟩ ∈ codes m a.opc := by rcases hm with rfl | rfl <;> simp [codes]
    have c2 : ⟨a.opc ||| 0x20, 1, false⟩ ∈ codes m a.opc := by rcases hm with rfl | rfl <;> simp [codes]
    have c3 : ⟨a.opc ||| 0x30, 2, false⟩ ∈ codes m a.opc := by rcases hm with rfl | rfl <;> simp [codes]
    have h' : (if op.mode = .DIR ∨ op.mode = .BIT then Out.ok (((a.setErrorIf op.err).embed 0x10).emit8 op.val.getUnsigned)
        else if op.mode = .IDX ∨ op.mode = .IDY then
          .ok (((emitByte op (a.setErrorIf op.err)).embed 0x20).emit8 op.val.getUnsigned)
        else if op.mode = .EXT then .ok (((a.setErrorIf op.err).embed 0x30).emit16 op.val.getUnsigned)
        else .ok (emitImmediate m op (a.setErrorIf op.err))) = .ok a' := by
      rcases hm with rfl | rfl <;> exact h
    clear h
    split at h'
    · injection h' with h'
      subst h'
      rw [embed_eq (a := a.setErrorIf op.err) (hor 0x10 (by decide))]
      exact ⟨_, _, e8 (a.setErrorIf op.err).err (a.opc ||| 0x10) op.val.getUnsigned false (hse _) c1 hr (by simp)⟩
    · rename_i n1
      split at h'
      · injection h' with h'
        subst h'
        obtain ⟨e, f1, f2⟩ := eb (a.opc ||| 0x20) op.val.getUnsigned false c2 hr (by simp)
        rw [f1, embed_eq (a := ⟨e, a.pre, a.opc, a.ops⟩) (hor 0x20 (by decide))]
        exact ⟨_, _, f2⟩
      · rename_i n2
        split at h'
        · injection h' with h'
          subst h'
          rw [embed_eq (a := a.setErrorIf op.err) (hor 0x30 (by decide))]
          exact ⟨_, _, e16 (a.setErrorIf op.err).err (a.opc ||| 0x30) op.val.getUnsigned false (hse _) c3 hr (by simp)⟩
        · rename_i n3
          injection h' with h'
          rcases hm with rfl | rfl
          · exact im8 true (by simp [codes]) (by decide) (by decide) (by decide) (fun _ => gn (Or.inl rfl) n1 n2 n3) h'.symm
          · exact im16 true (by simp [codes]) (by decide) (Or.inl rfl) (fun _ => gn (Or.inr rfl) n1 n2 n3) h'.symm
  cases m with
  | GN8 => exact gen (Or.inl rfl) h
  | GN16 => exact gen (Or.inr rfl) h
  | GMEM =>
    unfold emitOperand at h
    dsimp only at h
    split at h
    · injection h with h
      subst h
      obtain ⟨e, f1, f2⟩ := eb a.opc op.val.getUnsigned false (by simp [codes]) (by decide) (by simp)
      rw [f1]
      exact ⟨_, _, f2⟩
    · injection h with h
      subst h
      rw [embed_eq (a := a.setErrorIf op.err) (hor 0x70 (by decide))]
      exact ⟨_, _, e16 (a.setErrorIf op.err).err (a.opc ||| 0x70) op.val.getUnsigned false (hse _) (by simp [codes]) (by decide) (by simp)⟩
  | DIR | IDX | IDY =>
    injection h with h
    subst h
    obtain ⟨e, f1, f2⟩ := eb a.opc op.val.getUnsigned false (by simp [codes]) (by decide) (by simp)
    rw [f1]
    exact ⟨_, _, f2⟩
  | EXT =>
    injection h with h
    subst h
    exact ⟨_, _, e16 (a.setErrorIf op.err).err a.opc op.val.getUnsigned false (hse _) (by simp [codes]) (by decide) (by simp)⟩
  | IM8 | BMM =>
    injection h with h
    exact im8 false (by simp [codes]) (by decide) (by decide) (by decide) (by simp) h.symm
  | IM16 =>
    injection h with h
    exact im16 false (by simp [codes]) (by decide) (Or.inr rfl) (by simp) h.symm
  | BIT =>
    injection h with h
    subst h
    exact ⟨_, _, e8 (a.setErrorIf op.err).err a.opc _ false (hse _) (by simp [codes]) (by decide) (by simp)⟩
  | NONE | UNDEF =>
    injection h with h
    subst h
    exact ⟨⟨a.opc, 0, false⟩, [], ⟨by simp [codes], rfl, rfl, (List.append_nil _).symm, rfl, by simp, by simp, hse _, by simp⟩⟩
  | REL =>
    unfold emitOperand at h
    dsimp only at h
    unfold emitRelative at h
    dsimp only at h
    generalize hbase : (addr + (if (a.setErrorIf op.err).length = 0 then 2 else (a.setErrorIf op.err).length + 1)) % Config.W = base at h
    generalize htarget : (if op.err ≠ .OK then base else op.val.getUnsigned) = target at h
    obtain ⟨⟨d, e⟩, h1, h2⟩ := bind_ok h
    obtain ⟨far, h3, h4⟩ := bind_ok h2
    dsimp only at h4
    injection h4 with h4
    have hdelta : Config.branchDelta 16 base target (a.setErrorIf op.err).err = some (d, e) := by
      revert h1
      cases Config.branchDelta 16 base target (a.setErrorIf op.err).err with
      | none => intro h; cases h
      | some x => intro h; injection h with h; rw [h]
    have hfar : Config.overflowDelta d 8 = some far := by
      revert h3
      cases Config.overflowDelta d 8 with
      | none => intro h; cases h
      | some x => intro h; injection h with h; rw [h]
    have hmod : (d % 256).toNat % 256 = (d % 256).toNat := by omega
    have herr : a'.err = .OK → e = .OK ∧ far = false := by
      intro hok
      rw [← h4] at hok
      cases far with
      | true => exact absurd (setErrorIf_ok hok).2 (by decide)
      | false => exact ⟨hok, rfl⟩
    have hshape : a' = ⟨a'.err, a.pre, a.opc, a.ops ++ [(d % 256).toNat % 256]⟩ := by
      rw [← h4]
      cases far <;> rfl
    have hbW : base < Config.W := by rw [← hbase]; exact Nat.mod_lt _ (by decide)
    have htW : target < Config.W := by
      rw [← htarget]
      split
      · exact hbW
      · exact Nat.mod_lt _ (by decide)
    refine ⟨⟨a.opc, 1, false⟩, [(d % 256).toNat % 256], by simp [codes], ?_, ?_, ?_, rfl, byte_lt _, by simp, ?_, ?_⟩
    · rw [hshape]
    · rw [hshape]
    · rw [hshape]
    · intro hok
      have := (herr hok).1
      by_cases hn : (a.setErrorIf op.err).err = .OK
      · exact hse _ hn
      · exact absurd this (Config.branchDelta_err hn hdelta)
    · intro _ hok hops hend
      obtain ⟨he, hf⟩ := herr hok
      subst hf
      have hb : base = addr + (if a.pre ≠ 0 then 2 else 1) + a.ops.length + 1 := by
        have hl : (if (a.setErrorIf op.err).length = 0 then 2 else (a.setErrorIf op.err).length + 1) =
            (if a.pre ≠ 0 then 2 else 1) + a.ops.length + 1 := by
          show (if (if a.ops = [] then 0 else (if a.pre ≠ 0 then 2 else 1) + a.ops.length) = 0 then 2
            else (if a.ops = [] then 0 else (if a.pre ≠ 0 then 2 else 1) + a.ops.length) + 1) = _
          by_cases hnil : a.ops = []
          · have : a.pre = 0 := by
              by_cases hp : a.pre = 0
              · exact hp
              · exact absurd hnil (hops hp)
            rw [if_pos hnil, if_pos rfl, if_neg (not_not_intro this), hnil]
            rfl
          · rw [if_neg hnil]
            split <;> simp <;> omega
        rw [hl] at hbase
        rw [← hbase, Nat.mod_eq_of_lt (by simp only [Config.W]; omega)]
        omega
      obtain ⟨_, g1, g2⟩ := branch_back (w := 16) (by decide) (by decide) (by rw [hb]; exact hend) hbW htW hdelta he
      rw [Config.overflowDelta_eq (by decide) (by decide)] at hfar
      simp only [Option.some.injEq, decide_eq_false_iff_not, Classical.not_not] at hfar
      refine ⟨d, hfar.1, hfar.2, by rw [hmod], ?_, ?_⟩
      · rw [← hb]; omega
      · rw [← hb]; omega

/-! ### Parsing -/

/-- The modes of an operand that was read. -/
theorem parsed {P : Plugins Value} {scan rest : Scan} {op : Operand}
    (h : parseOperand P scan = .ok (op, rest)) : op.mode ≠ .GN8 ∧ op.mode ≠ .GN16 := by
  unfold parseOperand at h
  dsimp only at h
  split at h
  · injection h with h
    injection h with h _
    subst h
    decide
  · split at h
    · obtain ⟨⟨val, err, q⟩, _, h2⟩ := bind_ok h
      dsimp only at h2
      split at h2 <;>
      · injection h2 with h2
        injection h2 with h2 _
        subst h2
        exact ⟨by simp, by simp⟩
    · obtain ⟨⟨val, err, q⟩, _, h2⟩ := bind_ok h
      dsimp only at h2
      split at h2
      · injection h2 with h2
        injection h2 with h2 _
        subst h2
        exact ⟨by simp, by simp⟩
      · split at h2
        · rename_i m a hi
          injection h2 with h2
          injection h2 with h2 _
          subst h2
          unfold indexReg at hi
          split at hi
          · unfold parseRegName at hi
            split at hi
            · simp only [Option.some.injEq, Prod.mk.injEq] at hi
              obtain ⟨rfl, _⟩ := hi
              exact ⟨by simp, by simp⟩
            · split at hi
              · simp only [Option.some.injEq, Prod.mk.injEq] at hi
                obtain ⟨rfl, _⟩ := hi
                exact ⟨by simp, by simp⟩
              · cases hi
          · cases hi
        · injection h2 with h2
          injection h2 with h2 _
          subst h2
          dsimp only
          unfold addressMode
          constructor <;> (repeat' split) <;> decide

theorem parsed_next {P : Plugins Value} {scan rest : Scan} {op : Operand}
    (h : parseNext P scan = .ok (op, rest)) : op.mode ≠ .GN8 ∧ op.mode ≠ .GN16 := by
  unfold parseNext at h
  split at h
  · exact parsed h
  · injection h with h
    injection h with h _
    subst h
    decide

/-! ### Decoding -/

/-- The displacement leads into the memory. -/
def Reaches (base : Nat) (bs : List Nat) : Prop :=
  ∃ d : Int, -128 ≤ d ∧ d < 128 ∧ bs = [(d % 256).toNat] ∧ 0 ≤ (base : Int) + d ∧ (base : Int) + d < 65536

theorem decoded (o : Opts) (cpu : CpuType) (addr pre opc : Nat) (row : Row) {m : Mode} {bs mem bytes : List Nat}
    (hl : bs.length = size (select opc m)) (hb : ∀ b ∈ bs, b < 256) (hm : select opc m ≠ .BMM)
    (hr : select opc m = .REL → Reaches (addr + bytes.length + 1) bs) :
    ∃ t, decodeOperand o cpu addr pre opc row m ⟨bs ++ mem, bytes, .OK⟩ = (t, ⟨mem, bytes ++ bs, .OK⟩, row) := by
  have key : (decodeOperand o cpu addr pre opc row m ⟨bs ++ mem, bytes, .OK⟩).2 = (⟨mem, bytes ++ bs, .OK⟩, row) := by
    unfold decodeOperand
    dsimp only
    have none : bs.length = 0 → (⟨bs ++ mem, bytes, .OK⟩ : Rd) = ⟨mem, bytes ++ bs, .OK⟩ := by
      intro h
      rw [List.length_eq_zero_iff.1 h, List.nil_append, List.append_nil]
    generalize select opc m = k at *
    cases k with
    | DIR | IDX | IDY | IM8 => exact congrArg (·, row) (one_byte hb hl)
    | EXT | IM16 => exact congrArg (·, row) (two_bytes hb hl)
    | NONE | UNDEF | BIT | GN8 | GN16 | GMEM => exact congrArg (·, row) (none hl)
    | BMM => exact absurd rfl hm
    | REL =>
      obtain ⟨d, d1, d2, rfl, d3, d4⟩ := hr rfl
      dsimp only
      unfold decodeRelative
      rw [List.singleton_append, byte_some (by omega)]
      dsimp only
      have ht : (((addr + (bytes ++ [(d % 256).toNat]).length : Nat) : Int) + int8 (d % 256).toNat) % Config.W =
          ((addr + bytes.length + 1 : Nat) : Int) + d := by
        rw [List.length_append, List.length_singleton]
        have : int8 (d % 256).toNat = d := by
          unfold int8
          split <;> omega
        rw [this, Int.emod_eq_of_lt (by omega) (by simp only [Config.W]; omega)]
        omega
      rw [ht, address_ok (by decide) (by omega)]
      rfl
  exact ⟨_, Prod.ext rfl key⟩

theorem decodedInsn (o : Opts) {cpu : CpuType} {addr pre opc : Nat} {row : Row}
    (hs : searchOpCode cpu pre opc = some row) {b1 b2 b3 mem bytes : List Nat} {r : Row} {c1 c2 c3 : Code}
    (hc : c3.opc = opc) (hB : readB cpu pre r c1 c2 c3 = true)
    (l1 : b1.length = c1.size) (l2 : b2.length = c2.size) (l3 : b3.length = c3.size)
    (h1 : ∀ b ∈ b1, b < 256) (h2 : ∀ b ∈ b2, b < 256) (h3 : ∀ b ∈ b3, b < 256)
    (r1 : (flags r).mode1 = .REL → Reaches (addr + bytes.length + 1) b1)
    (r2 : (flags r).mode2 = .REL → Reaches (addr + bytes.length + b1.length + 1) b2)
    (r3 : (flags r).mode3 = .REL → Reaches (addr + bytes.length + b1.length + b2.length + 1) b3) :
    (decodeInsn o cpu addr pre opc ⟨b1 ++ (b2 ++ (b3 ++ mem)), bytes, .OK⟩).err = .OK ∧
    (decodeInsn o cpu addr pre opc ⟨b1 ++ (b2 ++ (b3 ++ mem)), bytes, .OK⟩).bytes = bytes ++ b1 ++ b2 ++ b3 ∧
    ∃ n, alike r.name n = true ∧
      (decodeInsn o cpu addr pre opc ⟨b1 ++ (b2 ++ (b3 ++ mem)), bytes, .OK⟩).name = outText o n := by
  subst hc
  unfold readB at hB
  rw [hs] at hB
  simp only [Bool.and_eq_true, Bool.or_eq_true, beq_iff_eq, bne_iff_ne, ne_eq] at hB
  obtain ⟨⟨⟨⟨⟨⟨⟨⟨⟨⟨q0, q1⟩, q2⟩, q3⟩, q4⟩, q5⟩, q6⟩, q7⟩, q8⟩, q9⟩, q10⟩ := hB
  have imp : ∀ {a b : Prop}, ¬ a ∨ b → a → b := fun h ha => h.resolve_left (not_not_intro ha)
  -- the first operand
  obtain ⟨t, row1, hd, hn1, hm2, hm3⟩ : ∃ t row1,
      decodeOperand o cpu addr pre c3.opc row (flags row).mode1 ⟨b1 ++ (b2 ++ (b3 ++ mem)), bytes, .OK⟩ =
        (t, ⟨b2 ++ (b3 ++ mem), bytes ++ b1, .OK⟩, row1) ∧ alike r.name row1.name = true ∧
      (flags row1).mode2 = (flags row).mode2 ∧ (flags row1).mode3 = (flags row).mode3 := by
    by_cases hbm : select c3.opc (flags row).mode1 = .BMM
    · have q10 := q10.resolve_left (not_not_intro hbm)
      have hlen : b1.length = 1 := by rw [l1, ← q1, hbm]; rfl
      unfold decodeOperand
      dsimp only
      rw [hbm]
      dsimp only
      unfold decodeBitNumber
      have hone := one_byte (mem := b2 ++ (b3 ++ mem)) (bytes := bytes) h1 hlen
      generalize (⟨b1 ++ (b2 ++ (b3 ++ mem)), bytes, .OK⟩ : Rd).byte = x at *
      obtain ⟨val, rd⟩ := x
      dsimp only at hone ⊢
      subst hone
      cases hal : searchOpCodeAlias cpu pre c3.opc with
      | none => rw [hal] at q10; cases q10
      | some a =>
        rw [hal] at q10
        simp only [Bool.and_eq_true, beq_iff_eq] at q10
        split
        · exact ⟨_, _, rfl, q10.1.1, q10.1.2, q10.2⟩
        · exact ⟨_, _, rfl, q0, rfl, rfl⟩
    · obtain ⟨t, ht⟩ := decoded o cpu addr pre c3.opc row (m := (flags row).mode1) (bs := b1) (mem := b2 ++ (b3 ++ mem))
        (bytes := bytes) (l1.trans q1.symm) h1 hbm (fun h => r1 (imp q4 h))
      exact ⟨t, row, ht, q0, rfl, rfl⟩
  have q2' : b2.length = size (select c3.opc (flags row1).mode2) := by rw [hm2]; exact l2.trans q2.symm
  have q3' : b3.length = size (select c3.opc (flags row1).mode3) := by rw [hm3]; exact l3.trans q3.symm
  obtain ⟨t2, ht2⟩ := decoded o cpu addr pre c3.opc row1 (m := (flags row1).mode2) (bs := b2) (mem := b3 ++ mem)
    (bytes := bytes ++ b1) q2' h2 (by rw [hm2]; exact q7)
    (fun h => by
      have := r2 (imp q5 (by rw [← hm2]; exact h))
      rw [List.length_append, ← Nat.add_assoc]
      exact this)
  obtain ⟨t3, ht3⟩ := decoded o cpu addr pre c3.opc row1 (m := (flags row1).mode3) (bs := b3) (mem := mem)
    (bytes := bytes ++ b1 ++ b2) q3' h3 (by rw [hm3]; exact q8)
    (fun h => by
      have := r3 (imp q6 (by rw [← hm3]; exact h))
      rw [List.length_append, List.length_append, ← Nat.add_assoc, ← Nat.add_assoc]
      exact this)
  have e2 : (flags row1).mode2 = .NONE → b2 = [] := by
    intro h
    rw [h] at q2'
    exact List.length_eq_zero_iff.1 q2'
  have e3 : (flags row1).mode3 = .NONE → b3 = [] := by
    intro h
    rw [h] at q3'
    exact List.length_eq_zero_iff.1 q3'
  unfold decodeInsn
  rw [hs]
  dsimp only
  rw [hd]
  dsimp only
  by_cases n2 : (flags row1).mode2 = .NONE
  · rw [if_pos n2]
    have n3 : (flags row1).mode3 = .NONE := by
      rw [hm3]
      exact imp q9 (by rw [← hm2]; exact n2)
    rw [e2 n2, e3 n3, List.append_nil, List.append_nil]
    exact ⟨rfl, rfl, _, hn1, rfl⟩
  · rw [if_neg n2, ht2]
    dsimp only
    by_cases n3 : (flags row1).mode3 = .NONE
    · rw [if_pos n3, e3 n3, List.append_nil]
      exact ⟨rfl, rfl, _, hn1, rfl⟩
    · rw [if_neg n3, ht3]
      exact ⟨rfl, rfl, _, hn1, rfl⟩

/-! ### The property -/

theorem alnum (c : Char) (h : Ctype.isAlnum c = true) : syntaxOf.instructionLetter c = true :=
  show prefixSymbol (some ['.']) (some ['_', '.', '$']) false c = true from prefixSymbol_alnum h

theorem written_alike {line a b c : List Char} (h : WrittenAs line a) (hab : alike a b = true)
    (hbc : Table.Spec.Same b c) : WrittenLike line c := by
  unfold alike at hab
  simp only [Bool.or_eq_true, beq_iff_eq, List.any_eq_true, Bool.and_eq_true, List.contains_iff_mem] at hab
  rcases hab with rfl | ⟨g, hg, h1, h2⟩
  · exact Or.inl (h.letters hbc)
  · obtain ⟨x, x1, x2⟩ := List.mem_map.1 h1
    obtain ⟨y, y1, y2⟩ := List.mem_map.1 h2
    exact Or.inr ⟨g, hg, x, x1, y, y1, by rw [x2]; exact h, by rw [y2]; exact hbc⟩

theorem accept_none {k : Mode} (h : acceptMode k .NONE = true) : k = .NONE := by
  revert h
  cases k <;> decide

theorem searchName_same {cpu : CpuType} {a b : List Char} (ha : '\x00' ∉ a) (hb : '\x00' ∉ b)
    (h : Table.strcasecmp a b = 0) (m1 m2 m3 : Mode) : searchName cpu a m1 m2 m3 = searchName cpu b m1 m2 m3 := by
  unfold searchName
  rw [show (fun r : Row => Table.strcasecmp a r.name) = fun r => Table.strcasecmp b r.name from
    funext fun r => strcasecmp_same ha hb h r.name]

/-- Whatever line is assembled without error, for any of the processors, at any address from where the
bytes do not run past the end of the memory, and with any symbols: the disassembler, with any options, reads
the bytes of it, whatever follows them, as one instruction, without error. It has the name written in the
line or a synonym of it.

Past the end of the memory it may not: see `C29_violated_wrap`. -/
theorem C29_mc6800_partial {E : Env} {cpu : CpuType} {addr : Nat} {line : List Char}
    {bytes : List Nat} {rest : Scan}
    (h : assemble E cpu addr line = .ok (.insn ⟨.OK, bytes, rest⟩))
    (hend : addr + bytes.length ≤ 2 ^ 16)
    (o : Opts) (more : List Nat) :
    (disassemble o cpu addr (bytes ++ more)).err = .OK ∧
    (disassemble o cpu addr (bytes ++ more)).bytes = bytes ∧
    WrittenLike line (disassemble o cpu addr (bytes ++ more)).name := by
  obtain ⟨word, scan, hi, haddr, hw, blanks, tail, hline, hblank⟩ :=
    encode_line_inv (by decide) rfl h
  obtain ⟨op1, op2, op3, s, g1, g2, g3, hins⟩ : ∃ op1 op2 op3 s,
      (op1.mode ≠ .GN8 ∧ op1.mode ≠ .GN16) ∧ (op2.mode ≠ .GN8 ∧ op2.mode ≠ .GN16) ∧
      (op3.mode ≠ .GN8 ∧ op3.mode ≠ .GN16) ∧
      encodeInsn cpu addr (word.take 11) op1 op2 op3 s = .ok ⟨.OK, bytes, rest⟩ := by
    have bad : ∀ {e : Err} {s : Scan}, hasError e = true → Out.ok (⟨e, [], s⟩ : Res) = .ok ⟨.OK, bytes, rest⟩ → False := by
      intro e s he h
      injection h with h
      injection h with h
      rw [h] at he
      exact absurd he (by decide)
    unfold encodeImpl at hi
    obtain ⟨has, _, d2⟩ := bind_ok hi
    dsimp only at d2
    split at d2
    · obtain ⟨⟨op1, s1⟩, p1, d3⟩ := bind_ok d2
      dsimp only at d3
      split at d3
      · rename_i he
        exact (bad he d3).elim
      · obtain ⟨⟨op2, s2⟩, p2, d4⟩ := bind_ok d3
        dsimp only at d4
        split at d4
        · rename_i he
          exact (bad he d4).elim
        · obtain ⟨⟨op3, s3⟩, p3, d5⟩ := bind_ok d4
          dsimp only at d5
          split at d5
          · rename_i he
            exact (bad he d5).elim
          · exact ⟨op1, op2, op3, _, parsed p1, parsed_next p2, parsed_next p3, d5⟩
    · exact ⟨{}, {}, {}, _, by decide, by decide, by decide, d2⟩
  clear hi h
  have hw11 : '\x00' ∉ word.take 11 := fun h => hw (List.mem_of_mem_take h)
  have ha : addr < 65536 := by
    have : ¬ bytes = [] := by
      intro hnil
      subst hnil
      unfold encodeInsn at hins
      obtain ⟨x, f1, f2⟩ := bind_ok hins
      unfold searchName at f1
      split at f1
      · split at f1
        · injection f1 with f1
          subst f1
          injection f2 with f2
          injection f2 with f2
          exact absurd f2 (by decide)
        · injection f1 with f1
          subst f1
          dsimp only at f2
          obtain ⟨a1, _, f3⟩ := bind_ok f2
          obtain ⟨a2, _, f4⟩ := bind_ok f3
          obtain ⟨a3, _, f5⟩ := bind_ok f4
          injection f5 with f5
          injection f5 with _ f6
          unfold Asm.bytes at f6
          have := congrArg List.length f6
          simp only [List.length_append, List.length_singleton, List.length_nil] at this
          omega
      · rename_i hs
        injection f1 with f1
        subst f1
        injection f2 with f2
        injection f2 with f2
        exact absurd f2 (searchName_err hs)
      · cases f1
    have := List.length_pos_iff.2 this
    omega
  unfold encodeInsn at hins
  obtain ⟨x, f1, f2⟩ := bind_ok hins
  have f1' := f1
  unfold searchName at f1
  split at f1
  · rename_i pre row hs
    split at f1
    · injection f1 with f1
      subst f1
      injection f2 with f2
      injection f2 with f2
      exact absurd f2 (by decide)
    rename_i hundef
    injection f1 with f1
    subst f1
    dsimp only at f2
    obtain ⟨a1, w1, f3⟩ := bind_ok f2
    obtain ⟨a2, w2, f4⟩ := bind_ok f3
    obtain ⟨a3, w3, f5⟩ := bind_ok f4
    injection f5 with f5
    injection f5 with f6 f7 f8
    obtain ⟨p, hp, rfl, hrow, hcmp, hacc⟩ := searchName_mem hs
    simp only [Bool.and_eq_true] at hacc
    have hB : rowB cpu p.prefix_ row = true :=
      List.all_eq_true.1 (List.all_eq_true.1 (rows_ok cpu) p hp) row hrow
    unfold rowB at hB
    simp only [Bool.and_eq_true, decide_eq_true_eq, Bool.or_eq_true, beq_iff_eq] at hB
    obtain ⟨⟨⟨⟨⟨b1, b2⟩, b3⟩, beq⟩, b4⟩, b5⟩ := hB
    have b5 := b5.resolve_left hundef
    have hpre : p.prefix_ < 256 := by
      rcases b4 with b4 | b4
      · rw [b4]; decide
      · exact b4.2
    have hname : WrittenAs line row.name :=
      written alnum (fun c h => by cases h) hw b2 b3 hcmp beq hline hblank
    -- the operands
    obtain ⟨c1, x1, E1⟩ := emits ha b1 hacc.1.1 g1 w1
    have k1 := List.all_eq_true.1 b5 c1 E1.code
    have hc1 : a1.opc < 256 := by
      have : (codes (flags row).mode2 c1.opc) ≠ [] := by
        cases (flags row).mode2 <;> simp [codes]
      obtain ⟨y, ys⟩ := List.exists_mem_of_ne_nil _ this
      have k2 := List.all_eq_true.1 k1 y ys
      have : (codes (flags row).mode3 y.opc) ≠ [] := by
        cases (flags row).mode3 <;> simp [codes]
      obtain ⟨z, zs⟩ := List.exists_mem_of_ne_nil _ this
      have k3 := List.all_eq_true.1 k2 z zs
      simp only [Bool.and_eq_true, decide_eq_true_eq] at k3
      rw [E1.opc]
      exact k3.1.1.1
    obtain ⟨c2, x2, E2⟩ := emits ha hc1 hacc.1.2 g2 w2
    have k2 := List.all_eq_true.1 k1 c2 (by have := E2.code; rw [E1.opc] at this; exact this)
    have hc2 : a2.opc < 256 := by
      have : (codes (flags row).mode3 c2.opc) ≠ [] := by
        cases (flags row).mode3 <;> simp [codes]
      obtain ⟨z, zs⟩ := List.exists_mem_of_ne_nil _ this
      have k3 := List.all_eq_true.1 k2 z zs
      simp only [Bool.and_eq_true, decide_eq_true_eq] at k3
      rw [E2.opc]
      exact k3.1.1.2
    obtain ⟨c3, x3, E3⟩ := emits ha hc2 hacc.2 g3 w3
    have k3 := List.all_eq_true.1 k2 c3 (by have := E3.code; rw [E2.opc] at this; exact this)
    simp only [Bool.and_eq_true, decide_eq_true_eq, Bool.or_eq_true, beq_iff_eq, bne_iff_ne, ne_eq,
      Bool.not_eq_true'] at k3
    obtain ⟨⟨⟨_, _⟩, hopc⟩, k4⟩ := k3
    -- not an immediate operand of a store
    have hnot : ¬ (((c1.imm = true ∧ (flags row).mode2 = .NONE) ∧ (flags row).mode3 = .NONE) ∧
        refused cpu row.name = true) := by
      rintro ⟨⟨⟨z1, z2⟩, z3⟩, z4⟩
      have m1 := E1.imm z1
      have m2 : op2.mode = .NONE := accept_none (by rw [← z2]; exact hacc.1.2)
      have m3 : op3.mode = .NONE := accept_none (by rw [← z3]; exact hacc.2)
      rw [m1, m2, m3, searchName_same hw11 b2 hcmp] at f1'
      unfold refused at z4
      rw [f1'] at z4
      cases z4
    obtain ⟨⟨⟨⟨k5, k6⟩, k7⟩, k8⟩, k9⟩ := k4.resolve_left hnot
    have e3 : a3.err = .OK := f6
    have e2 := E3.err e3
    have e1 := E2.err e2
    have o1 : a1.ops = x1 := by rw [E1.ops]; rfl
    have o2 : a2.ops = x1 ++ x2 := by rw [E2.ops, o1]
    have o3 : a3.ops = x1 ++ x2 ++ x3 := by rw [E3.ops, o2]
    have p1 : a1.pre = p.prefix_ := E1.pre
    have p2 : a2.pre = p.prefix_ := by rw [E2.pre, p1]
    have p3 : a3.pre = p.prefix_ := by rw [E3.pre, p2]
    generalize hhead : (if p.prefix_ ≠ 0 then [p.prefix_] else []) ++ [c3.opc] = head
    have hhl : head.length = if p.prefix_ ≠ 0 then 2 else 1 := by
      rw [← hhead]
      split <;> rfl
    have hbytes : bytes = head ++ x1 ++ x2 ++ x3 := by
      rw [← f7, ← hhead]
      unfold Asm.bytes
      rw [p3, E3.opc, o3, Nat.mod_eq_of_lt hopc, Nat.mod_eq_of_lt hpre]
      simp only [List.append_assoc]
    have hlen : addr + head.length + x1.length + x2.length + x3.length ≤ 65536 := by
      have := hend
      rw [hbytes] at this
      simp only [List.length_append] at this
      omega
    have imp : ∀ {a b : Prop}, ¬ a ∨ b → a → b := fun h ha => h.resolve_left (not_not_intro ha)
    have size1 : ∀ {m a a' op c bs}, Emits addr m op a a' c bs → m = .REL → bs.length = 1 := by
      intro m a a' op c bs he hm
      have h1 := he.code
      subst hm
      rw [he.len, List.mem_singleton.1 h1]
    have R1 : (flags row).mode1 = .REL → Reaches (addr + head.length + 1) x1 := by
      intro hm
      have hz : p.prefix_ = 0 := imp k6 hm
      have := size1 E1 hm
      have hp1 := E1.rel hm e1 (fun hn => absurd hz hn) (by
        show addr + (if p.prefix_ ≠ 0 then 2 else 1) + 0 + 1 ≤ 65536
        rw [← hhl]; omega)
      have e : addr + (if p.prefix_ ≠ 0 then 2 else 1) + 0 + 1 = addr + head.length + 1 := by rw [hhl]
      unfold Reaches
      rw [← e]
      exact hp1
    have R2 : (flags row).mode2 = .REL → Reaches (addr + head.length + x1.length + 1) x2 := by
      intro hm
      have hz : ¬ c1.size = 0 := imp k7 hm
      have := size1 E2 hm
      have hne : a1.ops ≠ [] := by
        rw [o1]
        intro hn
        apply hz
        rw [← E1.len, hn]
        rfl
      have hp1 := E2.rel hm e2 (fun _ => hne) (by rw [p1, o1, ← hhl]; omega)
      rw [p1, o1, ← hhl] at hp1
      exact hp1
    have R3 : (flags row).mode3 = .REL → Reaches (addr + head.length + x1.length + x2.length + 1) x3 := by
      intro hm
      have hz : ¬ c1.size = 0 := imp k8 hm
      have := size1 E3 hm
      have hne : a2.ops ≠ [] := by
        rw [o2]
        intro hn
        apply hz
        rw [← E1.len, (List.append_eq_nil_iff.1 hn).1]
        rfl
      have hp1 := E3.rel hm e3 (fun _ => hne) (by rw [p2, o2, ← hhl, List.length_append]; omega)
      rw [p2, o2, ← hhl, List.length_append, ← Nat.add_assoc] at hp1
      exact hp1
    have hso : ∃ row', searchOpCode cpu p.prefix_ c3.opc = some row' := by
      have := k9
      unfold readB at this
      split at this
      · cases this
      · exact ⟨_, ‹_›⟩
    obtain ⟨row', hso⟩ := hso
    obtain ⟨n1, n2, nm, n3, n4⟩ := decodedInsn o (addr := addr) hso (mem := more) (bytes := head) (c3 := c3) rfl k9
      E1.len E2.len E3.len E1.byte E2.byte E3.byte R1 R2 R3
    have hdis : disassemble o cpu addr (bytes ++ more) =
        decodeInsn o cpu addr p.prefix_ c3.opc ⟨x1 ++ (x2 ++ (x3 ++ more)), head, .OK⟩ := by
      unfold disassemble decode
      rw [haddr]
      show decodeImpl o cpu addr (bytes ++ more) = _
      have e : bytes ++ more = head ++ (x1 ++ (x2 ++ (x3 ++ more))) := by
        rw [hbytes]
        simp only [List.append_assoc]
      rw [e, ← hhead]
      unfold decodeImpl
      by_cases hp0 : p.prefix_ = 0
      · rw [if_neg (not_not_intro hp0), List.nil_append, List.singleton_append, byte_some hopc]
        dsimp only
        have hnp : isPrefix cpu c3.opc = false := imp k5 hp0
        rw [hnp, if_neg (by decide), hp0]
        rfl
      · have hpp : isPrefix cpu p.prefix_ = true := (b4.resolve_left hp0).1
        rw [if_pos hp0, List.singleton_append, List.cons_append, List.cons_append, List.nil_append, byte_some hpre]
        dsimp only
        rw [hpp, if_pos rfl, byte_some hopc]
        dsimp only
        rw [if_neg (by decide)]
        rfl
    rw [hdis]
    refine ⟨n1, n2.trans hbytes.symm, ?_⟩
    rw [n4]
    exact written_alike hname n3 (outText_same o _)
  · rename_i e hs
    injection f1 with f1
    subst f1
    injection f2 with f2
    injection f2 with f2 f3 f4
    exact absurd f2 (searchName_err hs)
  · cases f1

/-- `C29_mc6800_partial` has something to say of operands of several kinds. -/
example :
    assemble noEnv .MC68HC11 0x1000 "  brset 5,Y, #$34, *+2 ; comment".toList =
      .ok (.insn ⟨.OK, [0x18, 0x1e, 5, 0x34, 0xfd], "; comment".toList⟩) ∧
    assemble noEnv .HD6301 0 "bclr 3, $12".toList = .ok (.insn ⟨.OK, [0x71, 0xf7, 0x12], []⟩) ∧
    assemble noEnv .MC6800 0 "ldaa <$12".toList = .ok (.insn ⟨.OK, [0x96, 0x12], []⟩) := by
  decide +kernel

/-- The exception: a branch at the end of the memory to its begin is accepted, and no address for the
disassembler. -/
theorem C29_violated_wrap :
    assemble noEnv .MC68HC11 0xfffe "BRSET $12, #$34, 0".toList = .ok (.insn ⟨.OK, [0x12, 0x12, 0x34, 0xfe], []⟩) ∧
    (disassemble (.default '*') .MC68HC11 0xfffe [0x12, 0x12, 0x34, 0xfe]).err = .OVERFLOW_RANGE := by
  decide +kernel

end Libasm.Cpu.Mc6800
