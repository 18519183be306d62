import Verif.Cpu.Pdp8.Props
import Verif.Cpu.Reads
/-
C29 for the PDP-8: what is assembled is disassembled.
-/
namespace Libasm.Cpu.Pdp8
open Scan Number Eval

deriving instance DecidableEq for Except

/-! ### The rows found by name -/

/-- All rows of the table. -/
def rows (cpu : CpuType) : List Op := (fast cpu).flatMap (·.entries)

theorem searchName_row {cpu : CpuType} {name : List Char} {op : Op} (h : searchName (pages cpu) name = some (.ok op)) :
    op ∈ rows cpu ∧ Table.strcasecmp name op.name = 0 := by
  rw [pages_eq] at h
  unfold searchName at h
  cases hs : Table.searchName (fun e : Op => Table.strcasecmp name e.name) (fun _ _ => true) (fast cpu) false with
  | none => rw [hs] at h; cases h
  | some x =>
    rw [hs] at h
    cases x with
    | error e => cases h
    | ok y =>
      cases h
      obtain ⟨p, p1, _, p2, p3, _⟩ := searchName_mem (e := y.2) (pre := y.1) hs
      exact ⟨List.mem_flatMap.2 ⟨p, p1, p2⟩, p3⟩

theorem searchMicro_row {cpu : CpuType} {name : List Char} {m : Mode} {op : Op}
    (h : searchMicro (pages cpu) name m = some (.ok op)) : op ∈ rows cpu ∧ op.mode = m := by
  rw [pages_eq] at h
  unfold searchMicro at h
  cases hs : Table.searchName (fun e : Op => Table.strcasecmp name e.name) (fun _ e => decide (e.mode = m)) (fast cpu) false with
  | none => rw [hs] at h; cases h
  | some x =>
    rw [hs] at h
    cases x with
    | error e => cases h
    | ok y =>
      cases h
      obtain ⟨p, p1, _, p2, _, p3⟩ := searchName_mem (e := y.2) (pre := y.1) hs
      exact ⟨List.mem_flatMap.2 ⟨p, p1, p2⟩, of_decide_eq_true p3⟩

theorem searchMicro_err {ps : List (Table.Page Op)} {name : List Char} {m : Mode} {e : Err}
    (h : searchMicro ps name m = some (.error e)) : e ≠ .OK := by
  unfold searchMicro at h
  cases hs : Table.searchName (fun e : Op => Table.strcasecmp name e.name) (fun _ e => decide (e.mode = m)) ps false with
  | none => rw [hs] at h; cases h
  | some x =>
    rw [hs] at h
    cases x with
    | error e' => cases h; exact searchName_err hs
    | ok y => cases h

/-- The row a name finds is the one its own name finds. -/
theorem searchName_own {cpu : CpuType} {name : List Char} {op : Op} (h0 : '\x00' ∉ name) (h1 : '\x00' ∉ op.name)
    (h : searchName (pages cpu) name = some (.ok op)) : searchName (pages cpu) op.name = some (.ok op) := by
  rw [← h]
  unfold searchName
  have : (fun e : Op => Table.strcasecmp op.name e.name) = fun e : Op => Table.strcasecmp name e.name := by
    funext e
    exact (strcasecmp_same h0 h1 (searchName_row h).2 e.name).symm
  rw [this]

/-! ### The operate instructions -/

/-- What an operate instruction is at any time while it is put together: of the first group, with one rotation at most,
or of the second or third, with a bit besides that of CLA; or CLA, when the group is not known. -/
def good (cpu : CpuType) (m : Mode) (k d : Nat) : Bool :=
  match m with
  | .NONE => k == 0xE80 && d == 0x80
  | .GR1 => decide (0xE00 ≤ k ∧ k < 0xF00) && allowed cpu k && (d &&& 14 != 0 || k &&& 14 == 0)
  | .GR2 => decide (0xF00 ≤ k ∧ k < 0x1000) && k % 2 == 0 && k &&& 0x7E != 0
  | .GR3 => decide (0xF00 ≤ k ∧ k < 0x1000) && k &&& 0x2F == 1 && k &&& 0x50 != 0
  | _ => false

/-- A micro-operation added to a code of its group. -/
def stepB (cpu : CpuType) (x : Nat) (e : Op) : Bool :=
  match e.mode with
  | .GR1 =>
    let k := 0xE00 + x
    !allowed cpu k ||
    (if e.bits &&& 14 = 0 then
      decide (0xE00 ≤ k ||| e.opcode ∧ k ||| e.opcode < 0xF00) && allowed cpu (k ||| e.opcode) &&
      (k ||| e.opcode) &&& 14 == k &&& 14
    else
      e.bits &&& 14 == 14 &&
      (k &&& 14 != 0 || decide (0xE00 ≤ k ||| e.opcode ∧ k ||| e.opcode < 0xF00) && allowed cpu (k ||| e.opcode)))
  | .GR2 => !good cpu .GR2 (0xF00 + x) 0 || good cpu .GR2 ((0xF00 + x) ||| e.opcode) 0
  | .GR3 => !good cpu .GR3 (0xF00 + x) 0 || good cpu .GR3 ((0xF00 + x) ||| e.opcode) 0
  | _ => true

theorem step_rows (cpu : CpuType) : ∀ a, a < 16 → ∀ b, b < 16 → (rows cpu).all (stepB cpu (a * 16 + b)) = true := by
  cases cpu <;> decide +kernel

theorem step_all {cpu : CpuType} {x : Nat} (hx : x < 256) {e : Op} (he : e ∈ rows cpu) : stepB cpu x e = true := by
  have h := step_rows cpu (x / 16) (by omega) (x % 16) (by omega)
  rw [show x / 16 * 16 + x % 16 = x by omega, List.all_eq_true] at h
  exact h e he

theorem good_step {cpu : CpuType} {m : Mode} {k d : Nat} (hg : good cpu m k d = true) {e : Op} (he : e ∈ rows cpu)
    (hm : e.mode = m) (hm0 : m ≠ .NONE) (hd : d &&& e.bits = 0) : good cpu m (k ||| e.opcode) (d ||| e.bits) = true := by
  cases m with
  | GR1 =>
    unfold good at hg ⊢
    simp only [Bool.and_eq_true, decide_eq_true_eq, Bool.or_eq_true, bne_iff_ne, beq_iff_eq] at hg ⊢
    obtain ⟨⟨⟨g1, g2⟩, g3⟩, g4⟩ := hg
    have h := step_all (x := k - 0xE00) (by omega) he
    unfold stepB at h
    rw [hm] at h
    dsimp only at h
    rw [show 0xE00 + (k - 0xE00) = k by omega, g3] at h
    simp only [Bool.not_true, Bool.false_or] at h
    have hor : (d ||| e.bits) &&& 14 = (d &&& 14) ||| (e.bits &&& 14) := Nat.and_or_distrib_right ..
    by_cases hb : e.bits &&& 14 = 0
    · rw [if_pos hb] at h
      simp only [Bool.and_eq_true, decide_eq_true_eq, beq_iff_eq] at h
      refine ⟨⟨h.1.1, h.1.2⟩, ?_⟩
      rw [hor, hb, Nat.or_zero, h.2]
      exact g4
    · rw [if_neg hb] at h
      simp only [Bool.and_eq_true, decide_eq_true_eq, beq_iff_eq, Bool.or_eq_true, bne_iff_ne] at h
      obtain ⟨h1, h2⟩ := h
      have hz : d &&& 14 = 0 := by
        rw [← h1, ← Nat.and_assoc, hd, Nat.zero_and]
      have hk : k &&& 14 = 0 := g4.resolve_left (fun hh => hh hz)
      refine ⟨h2.resolve_left (fun hh => hh hk), Or.inl ?_⟩
      rw [hor, hz, h1]
      decide
  | GR2 =>
    have hr : 0xF00 ≤ k ∧ k < 0x1000 := by
      unfold good at hg
      simp only [Bool.and_eq_true, decide_eq_true_eq] at hg
      exact hg.1.1
    have h := step_all (x := k - 0xF00) (by omega) he
    unfold stepB at h
    rw [hm] at h
    dsimp only at h
    rw [show 0xF00 + (k - 0xF00) = k by omega, show good cpu .GR2 k 0 = true from hg] at h
    exact h
  | GR3 =>
    have hr : 0xF00 ≤ k ∧ k < 0x1000 := by
      unfold good at hg
      simp only [Bool.and_eq_true, decide_eq_true_eq] at hg
      exact hg.1.1
    have h := step_all (x := k - 0xF00) (by omega) he
    unfold stepB at h
    rw [hm] at h
    dsimp only at h
    rw [show 0xF00 + (k - 0xF00) = k by omega, show good cpu .GR3 k 0 = true from hg] at h
    exact h
  | NONE => exact absurd rfl hm0
  | _ => cases hg

/-- What a row says of itself. -/
def rowB (cpu : CpuType) (e : Op) : Bool :=
  microB e.name && !e.name.contains '=' && !e.name.contains '*' && !e.name.contains '\x00' && decide (e.name.length < 11) &&
  match e.mode with
  | .MEM => decide (e.opcode % 512 = 0 ∧ e.opcode < 0xC00)
  | .CMP => decide (0xC00 ≤ e.opcode ∧ e.opcode < 0xE00)
  | .IOT => e.opcode == 0xC00
  | .MEX => e.opcode == 0xC81 || e.opcode == 0xC82
  | .GR1 | .GR2 | .GR3 =>
    (decide (0x80 &&& e.bits ≠ 0) || good cpu e.mode (0xE80 ||| e.opcode) (0x80 ||| e.bits)) &&
    (match searchName (fast cpu) e.name with
      | some (.ok e') => decide (e' ≠ e) || good cpu (if e.multi then .NONE else e.mode) e.opcode e.bits
      | _ => false)
  | _ => false

theorem row_rows (cpu : CpuType) : (rows cpu).all (rowB cpu) = true := by
  cases cpu <;> decide +kernel

theorem mem_rows (cpu : CpuType) : (rows cpu).all (fun p => decide (p.mode ≠ .MEM) || (rows cpu).all fun q =>
    decide (q.mode ≠ .MEM) || decide (p.opcode ≠ q.opcode) || decide (p.name = q.name)) = true := by
  cases cpu <;> decide +kernel

theorem row_all {cpu : CpuType} {e : Op} (he : e ∈ rows cpu) : rowB cpu e = true :=
  List.all_eq_true.1 (row_rows cpu) e he

theorem encodeMicro_ok {s : Asm} {e : Op} (h : (encodeMicro s e).err = .OK) :
    s.err = .OK ∧ s.done &&& e.bits = 0 ∧
    encodeMicro s e = { s with done := s.done ||| e.bits, opcode := s.opcode ||| e.opcode } := by
  unfold encodeMicro at h ⊢
  split at h
  · exact absurd (setErrorIf_ok h).2 (by decide)
  · split at h
    · exact absurd (setErrorIf_ok h).2 (by decide)
    · rename_i h1 h2
      rw [if_neg h1, if_neg h2]
      exact ⟨h, Decidable.of_not_not h1, rfl⟩

theorem firstGroup_good {cpu : CpuType} {name : List Char} {s s' : Asm} : ∀ {ms : List Mode},
    (∀ m ∈ ms, m = .GR1 ∨ m = .GR2 ∨ m = .GR3) → s.opcode = 0xE80 ∧ s.done = 0x80 →
    firstGroup (pages cpu) name s ms = .ok s' → s'.err = .OK →
    s.err = .OK ∧ good cpu s'.mode s'.opcode s'.done = true
  | [], _, _, h, he => by
    have h := Out.ok.inj h
    subst h
    exact absurd (setErrorIf_ok he).2 (by decide)
  | m :: ms, hms, hs, h, he => by
    unfold firstGroup at h
    split at h
    · cases h
    · rename_i e hx
      have h := Out.ok.inj h
      obtain ⟨r1, r2⟩ := searchMicro_row hx
      have hr := row_all r1
      subst h
      obtain ⟨h1, h2, h3⟩ := encodeMicro_ok he
      rw [h3]
      refine ⟨h1, ?_⟩
      dsimp only at h2 ⊢
      rw [hs.1, hs.2]
      rw [hs.2] at h2
      unfold rowB at hr
      rw [r2] at hr
      rcases hms m (List.mem_cons_self ..) with rfl | rfl | rfl <;>
      · simp only [Bool.and_eq_true, Bool.or_eq_true, decide_eq_true_eq] at hr
        exact hr.2.1.resolve_left (fun hh => hh h2)
    · exact firstGroup_good (fun x hx => hms x (List.mem_cons_of_mem _ hx)) hs h he

theorem operateMicro_good {cpu : CpuType} {name : List Char} {s s' : Asm} (hs : s.err = .OK → good cpu s.mode s.opcode s.done = true)
    (h : operateMicro (pages cpu) name s = .ok s') (he : s'.err = .OK) :
    good cpu s'.mode s'.opcode s'.done = true := by
  unfold operateMicro at h
  split at h
  · cases h
  · rename_i x hx
    obtain ⟨y, h⟩ : ∃ y, (if (s.setErrorIf y).err = .UNKNOWN_INSTRUCTION then .ok (s.setErrorIf y)
        else if s.mode ≠ .NONE then
          match searchMicro (pages cpu) name s.mode with
          | none => .ub
          | some (.ok e) => .ok (encodeMicro (s.setErrorIf y) e)
          | some (.error e) =>
            .ok ((s.setErrorIf y).setErrorIf (if e = .OPERAND_NOT_ALLOWED then .INVALID_INSTRUCTION else e))
        else firstGroup (pages cpu) name (s.setErrorIf y) [.GR1, .GR2, .GR3]) = Out.ok s' := by
      cases x with
      | ok _ => exact ⟨.OK, h⟩
      | error e => exact ⟨e, h⟩
    split at h
    · rename_i hu
      have h := Out.ok.inj h
      subst h
      rw [hu] at he
      cases he
    · split at h
      · rename_i hne
        split at h
        · cases h
        · rename_i e hm
          have h := Out.ok.inj h
          subst h
          obtain ⟨h1, h2, h3⟩ := encodeMicro_ok he
          have hok : s.err = .OK := (setErrorIf_ok h1).1
          obtain ⟨r1, r2⟩ := searchMicro_row hm
          rw [h3]
          exact good_step (hs hok) r1 r2 hne h2
        · rename_i e hm
          have h := Out.ok.inj h
          subst h
          have h2 := (setErrorIf_ok he).2
          split at h2
          · cases h2
          · exact absurd h2 (searchMicro_err hm)
      · rename_i hne
        have hmode : s.mode = .NONE := Decidable.of_not_not hne
        have hgood : s.err = .OK → s.opcode = 0xE80 ∧ s.done = 0x80 := by
          intro hh
          have := hs hh
          rw [hmode] at this
          unfold good at this
          simp only [Bool.and_eq_true, beq_iff_eq] at this
          exact this
        by_cases hok : s.err = .OK
        · exact (firstGroup_good (s := s.setErrorIf y) (ms := [.GR1, .GR2, .GR3]) (by decide) (hgood hok) h he).2
        · exfalso
          have keep : ∀ {ms : List Mode} {t : Asm}, t.err ≠ .OK → ∀ {t'}, firstGroup (pages cpu) name t ms = .ok t' →
              t'.err ≠ .OK := by
            intro ms
            induction ms with
            | nil =>
              intro t ht t' h'
              have h' := Out.ok.inj h'
              subst h'
              exact fun hh => ht (setErrorIf_ok hh).1
            | cons m ms ih =>
              intro t ht t' h'
              unfold firstGroup at h'
              split at h'
              · cases h'
              · have h' := Out.ok.inj h'
                subst h'
                exact fun hh => ht (encodeMicro_ok hh).1
              · exact ih ht h'
          exact keep (t := s.setErrorIf y) (fun hh => hok (setErrorIf_ok hh).1) h he

theorem operateLoop_good {cpu : CpuType} {start : Scan} : ∀ {fuel : Nat} {p rest : Scan} {s s' : Asm},
    (s.err = .OK → good cpu s.mode s.opcode s.done = true) →
    operateLoop (pages cpu) start fuel p s = .ok (s', rest) → s'.err = .OK →
    good cpu s'.mode s'.opcode s'.done = true
  | 0, _, _, _, _, _, h, _ => by cases h
  | fuel + 1, p, rest, s, s', hs, h, he => by
    unfold operateLoop at h
    dsimp only at h
    split at h
    · have h := Out.ok.inj h
      injection h with h _
      subst h
      exact hs he
    · split at h
      · have h := Out.ok.inj h
        injection h with h _
        subst h
        cases he
      · obtain ⟨t, ht, h2⟩ := bind_ok h
        exact operateLoop_good (fun hh => operateMicro_good hs ht hh) h2 he

/-! ### The others -/

theorem extensionLoop_good {P : Plugins Value} {radix : Radix} {cpu : CpuType} : ∀ {fuel : Nat} {p rest : Scan} {s s' : Asm},
    (s.opcode = 0xC81 ∨ s.opcode = 0xC82 ∨ s.opcode = 0xC83) →
    extensionLoop P radix (pages cpu) fuel p s = .ok (s', rest) → s'.err = .OK →
    0xC00 ≤ s'.opcode ∧ s'.opcode < 0xE00
  | 0, _, _, _, _, _, h, _ => by cases h
  | fuel + 1, p, rest, s, s', hs, h, he => by
    have field : ∀ {q}, parseField P radix q s = .ok (s', rest) → 0xC00 ≤ s'.opcode ∧ s'.opcode < 0xE00 := by
      intro q h
      have hbound : ∀ f, f < 64 → 0xC00 ≤ s.opcode ||| f ∧ s.opcode ||| f < 0xE00 := by
        rcases hs with hs | hs | hs <;> rw [hs] <;> decide +kernel
      unfold parseField at h
      obtain ⟨⟨v, err, q'⟩, _, h2⟩ := bind_ok h
      dsimp only at h2
      split at h2
      · rename_i herr
        have h2 := Out.ok.inj h2
        injection h2 with h2 _
        subst h2
        dsimp only at he
        rw [he] at herr
        cases herr
      · split at h2
        · have h2 := Out.ok.inj h2
          injection h2 with h2 _
          subst h2
          exact hbound _ (by omega)
        · split at h2
          · have h2 := Out.ok.inj h2
            injection h2 with h2 _
            subst h2
            exact absurd (setErrorIf_ok he).2 (by decide)
          · rename_i h3
            have h2 := Out.ok.inj h2
            injection h2 with h2 _
            subst h2
            have h3 := Decidable.of_not_not h3
            have hlt : v.getUnsigned < 2 ^ 32 := by
              unfold Value.getUnsigned
              omega
            have hf : v.getUnsigned < 64 := by
              have e1 : v.getUnsigned &&& (2 ^ 32 - 1) = v.getUnsigned := by
                rw [Nat.and_two_pow_sub_one_eq_mod, Nat.mod_eq_of_lt hlt]
              have e2 : (2 ^ 32 - 1 : Nat) = 0xFFFFFFC7 ||| 0x38 := by decide
              rw [e2, Nat.and_or_distrib_left, h3, Nat.zero_or] at e1
              have := Nat.and_le_right (n := v.getUnsigned) (m := 0x38)
              omega
            have := hbound (v.getUnsigned % 65536) (by omega)
            exact this
    unfold extensionLoop at h
    dsimp only at h
    split at h
    · have h := Out.ok.inj h
      injection h with h _
      subst h
      cases he
    · split at h
      · exact field h
      · split at h
        · cases h
        · exact field h
        · split at h
          · cases h
          · exact field h
          · rename_i e hm
            refine extensionLoop_good ?_ h he
            obtain ⟨r1, r2⟩ := searchMicro_row hm
            have hr := row_all r1
            unfold rowB at hr
            rw [r2] at hr
            simp only [Bool.and_eq_true, Bool.or_eq_true, beq_iff_eq] at hr
            have hop := hr.2
            unfold encodeMicro
            split
            · exact hs
            · split
              · exact hs
              · show s.opcode ||| e.opcode = 0xC81 ∨ s.opcode ||| e.opcode = 0xC82 ∨ s.opcode ||| e.opcode = 0xC83
                rcases hs with hs | hs | hs <;> rcases hop with hop | hop <;> rw [hs, hop] <;> decide

/-- The bits of a reference to the memory. -/
theorem mem_bits : ∀ j, j < 6 → ∀ off, off < 128 → ∀ i b : Bool,
    let c := if i then j * 512 ||| 0x100 else j * 512
    let k := if b then c ||| (0x80 ||| off) else c ||| off
    k / 512 = j ∧ (k / 128 % 2 = 1 ↔ b = true) := by decide +kernel

/-- What a code that is assembled may be. -/
structure Assembled (cpu : CpuType) (addr : Nat) (op : Op) (k : Nat) : Prop where
  small : k < 4096
  ok : 0xE00 ≤ k → allowed cpu k = true
  twin : ¬ Spec.Twin k
  page : Spec.CurrentPage k → 128 ≤ addr
  mem : k < 0xC00 → op.mode = .MEM ∧ op.opcode = k / 512 * 512

theorem or_small {y : Nat} (h : y < 512) : 0xC00 ≤ 0xC00 ||| y ∧ 0xC00 ||| y < 0xE00 := by
  have := (by decide +kernel : ∀ a, a < 16 → ∀ b, b < 32 →
    0xC00 ≤ 0xC00 ||| (a * 32 + b) ∧ 0xC00 ||| (a * 32 + b) < 0xE00) (y / 32) (by omega) (y % 32) (by omega)
  rwa [show y / 32 * 32 + y % 32 = y by omega] at this

theorem transfer_assembled {cpu : CpuType} {addr : Nat} {op : Op} {k : Nat} (h : 0xC00 ≤ k ∧ k < 0xE00) :
    Assembled cpu addr op k :=
  ⟨by omega, fun h' => by omega, fun h' => by unfold Spec.Twin at h'; omega, fun h' => by unfold Spec.CurrentPage at h'; omega,
    fun h' => by omega⟩

theorem good_assembled {cpu : CpuType} {addr : Nat} {op : Op} {m : Mode} {k d : Nat} (h : good cpu m k d = true) :
    Assembled cpu addr op k := by
  have fin : 0xE00 ≤ k → k < 0x1000 → allowed cpu k = true → ¬ Spec.Twin k → Assembled cpu addr op k :=
    fun h1 h2 h3 h4 => ⟨h2, fun _ => h3, h4, fun h' => by unfold Spec.CurrentPage at h'; omega, fun h' => by omega⟩
  unfold good at h
  split at h
  · simp only [Bool.and_eq_true, beq_iff_eq] at h
    rw [h.1] at fin ⊢
    exact fin (by decide) (by decide) (by cases cpu <;> decide) (by decide)
  · simp only [Bool.and_eq_true, decide_eq_true_eq] at h
    exact fin h.1.1.1 (by omega) h.1.2 (by unfold Spec.Twin; omega)
  · simp only [Bool.and_eq_true, decide_eq_true_eq, beq_iff_eq, bne_iff_ne] at h
    obtain ⟨⟨⟨h1, h2⟩, h3⟩, h4⟩ := h
    refine fin (by omega) h2 ?_ ?_
    · unfold allowed
      rw [if_neg (by omega)]
      simp [h3]
    · rintro (rfl | rfl | rfl | rfl) <;> first | exact h4 (by decide) | (revert h3; decide)
  · simp only [Bool.and_eq_true, decide_eq_true_eq, beq_iff_eq, bne_iff_ne] at h
    obtain ⟨⟨⟨h1, h2⟩, h3⟩, h4⟩ := h
    refine fin (by omega) h2 ?_ ?_
    · unfold allowed
      rw [if_neg (by omega)]
      have : k &&& 0x2E = 0 := by
        have e : (0x2E : Nat) = 0x2F &&& 0x2E := by decide
        rw [e, ← Nat.and_assoc, h3]
        decide
      simp [this]
    · rintro (rfl | rfl | rfl | rfl) <;> first | exact h4 (by decide) | (revert h3; decide)
  · cases h

theorem operands_assembled {E : Env} {radix : Radix} {cpu : CpuType} {addr : Nat} {op : Op} {scan rest : Scan} {s : Asm}
    (hop : op ∈ rows cpu) (hown : searchName (pages cpu) op.name = some (.ok op))
    (h : parseOperands (lexer.plugins E '\x00' addr) radix (pages cpu) addr op scan = .ok (s, rest)) (he : s.err = .OK) :
    Assembled cpu addr op s.opcode := by
  have hr := row_all hop
  unfold rowB at hr
  rw [pages_eq] at hown
  have group : (op.mode = .GR1 ∨ op.mode = .GR2 ∨ op.mode = .GR3) →
      good cpu (if op.multi then .NONE else op.mode) op.opcode op.bits = true := by
    intro hm
    rw [hown] at hr
    rcases hm with hm | hm | hm <;>
    · rw [hm] at hr ⊢
      simp only [Bool.and_eq_true, Bool.or_eq_true, decide_eq_true_eq] at hr
      exact hr.2.2.resolve_left (fun hh => hh rfl)
  unfold parseOperands at h
  cases hm : op.mode with
  | MEM =>
    rw [hm] at h hr
    dsimp only at h
    simp only [Bool.and_eq_true, decide_eq_true_eq] at hr
    obtain ⟨_, hr1, hr2⟩ := hr
    have hj : op.opcode / 512 * 512 = op.opcode := by omega
    have fin : ∀ (i b : Bool) (off : Nat), off < 128 → (b = true → 128 ≤ addr) →
        s.opcode = (let c := if i then op.opcode ||| 0x100 else op.opcode
          if b then c ||| (0x80 ||| off) else c ||| off) → Assembled cpu addr op s.opcode := by
      intro i b off hoff hb hk
      have := mem_bits (op.opcode / 512) (by omega) off hoff i b
      rw [hj] at this
      dsimp only at this hk
      rw [← hk] at this
      refine ⟨by omega, fun h' => by omega, fun h' => by unfold Spec.Twin at h'; omega, fun h' => ?_, fun _ => ⟨hm, by omega⟩⟩
      exact hb (this.2.1 h'.2)
    unfold parseMem at h
    obtain ⟨i, p, h⟩ : ∃ (i : Bool) (p : Scan), ((parseNumber (lexer.plugins E '\x00' addr) radix p .OK).bind fun (v, err, q) =>
        let s : Asm := ⟨op.opcode, err, .MEM, 0⟩
        if hasError err then .ok (s, scan)
        else
          let target := v.getUnsigned
          let s := if i then { s with opcode := s.opcode ||| 0x100 } else s
          if pageOf target = 0 then .ok ({ s with opcode := s.opcode ||| offsetOf target }, q)
          else if pageOf addr = pageOf target then
            .ok ({ s with opcode := s.opcode ||| (0x80 ||| offsetOf target) }, q)
          else .ok ({ s with err := .OPERAND_TOO_FAR }, scan)) = .ok (s, rest) := by
      cases hx : iexpect 'i' scan with
      | none => exact ⟨false, scan, by rw [hx] at h; exact h⟩
      | some q =>
        cases hy : expect ' ' q with
        | none => exact ⟨false, scan, by rw [hx] at h; dsimp only at h; rw [hy] at h; exact h⟩
        | some q' => exact ⟨true, q', by rw [hx] at h; dsimp only at h; rw [hy] at h; exact h⟩
    obtain ⟨⟨v, err, q⟩, _, h2⟩ := bind_ok h
    dsimp only at h2
    split at h2
    · rename_i herr
      have h2 := Out.ok.inj h2
      injection h2 with h2 _
      subst h2
      dsimp only at he
      rw [he] at herr
      cases herr
    · split at h2
      · have h2 := Out.ok.inj h2
        injection h2 with h2 _
        subst h2
        refine fin i false (offsetOf v.getUnsigned) (Nat.mod_lt _ (by decide)) (fun hh => nomatch hh) ?_
        cases i <;> rfl
      · split at h2
        · rename_i h3 h4
          have h2 := Out.ok.inj h2
          injection h2 with h2 _
          subst h2
          refine fin i true (offsetOf v.getUnsigned) (Nat.mod_lt _ (by decide)) (fun _ => ?_) ?_
          · rw [← h4] at h3
            unfold pageOf at h3
            omega
          · cases i <;> rfl
        · have h2 := Out.ok.inj h2
          injection h2 with h2 _
          subst h2
          cases he
  | GR1 | GR2 | GR3 =>
    have hg := group (by rw [hm]; simp)
    rw [hm] at h hg
    exact good_assembled (operateLoop_good (fun _ => hg) h he)
  | IOT =>
    rw [hm] at h hr
    dsimp only at h
    simp only [Bool.and_eq_true, beq_iff_eq] at hr
    apply transfer_assembled
    unfold parseTransfer at h
    obtain ⟨⟨device, err, p⟩, _, h2⟩ := bind_ok h
    dsimp only at h2
    split at h2
    · rename_i herr
      have h2 := Out.ok.inj h2
      injection h2 with h2 _
      subst h2
      dsimp only at he
      rw [he] at herr
      cases herr
    · split at h2
      · have h2 := Out.ok.inj h2
        injection h2 with h2 _
        subst h2
        cases he
      · obtain ⟨⟨control, err', q⟩, _, h3⟩ := bind_ok h2
        dsimp only at h3
        split at h3
        · rename_i herr
          have h3 := Out.ok.inj h3
          injection h3 with h3 _
          subst h3
          dsimp only at he
          rw [he] at herr
          cases herr
        · split at h3
          · have h3 := Out.ok.inj h3
            injection h3 with h3 _
            subst h3
            exact absurd (setErrorIf_ok he).2 (by decide)
          · rename_i hd
            split at h3
            · have h3 := Out.ok.inj h3
              injection h3 with h3 _
              subst h3
              exact absurd (setErrorIf_ok he).2 (by decide)
            · rename_i hc
              have h3 := Out.ok.inj h3
              injection h3 with h3 _
              subst h3
              have b1 := overflow_le (by decide) (Bool.eq_false_iff.2 hd)
              have b2 := overflow_le (by decide) (Bool.eq_false_iff.2 hc)
              have hy : device.getUnsigned * 8 ||| control.getUnsigned < 2 ^ 9 := Nat.or_lt_two_pow (by omega) (by omega)
              show 0xC00 ≤ op.opcode ||| _ ∧ op.opcode ||| _ < 0xE00
              rw [hr.2]
              exact or_small (by omega)
  | MEX =>
    rw [hm] at h hr
    simp only [Bool.and_eq_true, Bool.or_eq_true, beq_iff_eq] at hr
    apply transfer_assembled
    refine extensionLoop_good ?_ h he
    rcases hr.2 with hr | hr
    · exact Or.inl hr
    · exact Or.inr (Or.inl hr)
  | CMP =>
    rw [hm] at h hr
    dsimp only at h
    simp only [Bool.and_eq_true, decide_eq_true_eq] at hr
    have h := Out.ok.inj h
    injection h with h _
    subst h
    exact transfer_assembled hr.2
  | NONE | UNDEF =>
    rw [hm] at hr
    simp at hr

/-- A code that may be assembled is one the disassembler knows. -/
theorem assembled_known {cpu : CpuType} {addr : Nat} {op : Op} {k : Nat} (hop : op ∈ rows cpu) (h : Assembled cpu addr op k) :
    ∃ op', searchOpCode (pages cpu) k = some op' ∧ (microsOf (pages cpu) op' k).2 = 0 ∧
      (k < 0xC00 → Table.strcasecmp op'.name op.name = 0 ∧ '\x00' ∉ op'.name) := by
  have := h.small
  have name0 : ∀ {n : List Char}, microB n = true → '\x00' ∉ n := by
    intro n hn hm
    unfold microB nameB at hn
    simp only [Bool.and_eq_true, List.all_eq_true] at hn
    have := hn.1.1.1.2 _ hm
    revert this
    decide
  by_cases hmem : k < 0xC00
  · have hc := memory_rows cpu (k / 64) (by omega) (k % 64) (by omega)
    rw [show k / 64 * 64 + k % 64 = k by omega] at hc
    unfold memoryOk at hc
    rw [← pages_eq] at hc
    split at hc
    · cases hc
    · rename_i op' hs
      simp only [Bool.and_eq_true, decide_eq_true_eq] at hc
      obtain ⟨⟨c1, c2⟩, c3⟩ := hc
      refine ⟨op', hs, by unfold microsOf; rw [c2, if_neg (by decide)], fun _ => ⟨?_, name0 c1⟩⟩
      split at c3
      · rename_i op2 hs2
        simp only [decide_eq_true_eq] at c3
        obtain ⟨c4, c5⟩ := c3
        obtain ⟨r1, r2⟩ := searchName_row hs2
        have hr := row_all r1
        unfold rowB at hr
        rw [c4] at hr
        simp only [Bool.and_eq_true, decide_eq_true_eq] at hr
        obtain ⟨_, hr1, hr2⟩ := hr
        have hj : op2.opcode / 512 * 512 = op2.opcode := by omega
        have hb := mem_bits (op2.opcode / 512) (by omega) (k % 128) (by omega) (decide (k / 256 % 2 = 1)) (decide (k / 128 % 2 = 1))
        rw [hj] at hb
        simp only [decide_eq_true_eq] at hb
        have e : (if k / 128 % 2 = 1 then (if k / 256 % 2 = 1 then op2.opcode ||| 256 else op2.opcode) ||| (128 ||| k % 128)
            else (if k / 256 % 2 = 1 then op2.opcode ||| 256 else op2.opcode) ||| k % 128) = k := by
          by_cases hx : k / 128 % 2 = 0
          · rw [if_pos hx] at c5
            rw [if_neg (by omega)]
            exact c5
          · rw [if_neg hx] at c5
            rw [if_pos (by omega)]
            exact c5
        rw [e] at hb
        obtain ⟨m1, m2⟩ := h.mem hmem
        have hall := List.all_eq_true.1 (mem_rows cpu) op2 r1
        simp only [Bool.or_eq_true, decide_eq_true_eq, List.all_eq_true] at hall
        have := (hall.resolve_left (fun hh => hh c4)) op hop
        rcases this with (hh | hh) | hh
        · exact absurd m1 hh
        · exact absurd (show op2.opcode = op.opcode by omega) hh
        · rw [← hh]; exact r2
      · cases c3
  · by_cases hiot : k < 0xE00
    · have hc := transfer_rows cpu ((k - 0xC00) / 32) (by omega) ((k - 0xC00) % 32) (by omega)
      rw [show 0xC00 + (k - 0xC00) / 32 * 32 + (k - 0xC00) % 32 = k by omega] at hc
      unfold transferOk at hc
      rw [← pages_eq] at hc
      split at hc
      · cases hc
      · rename_i op' hs
        simp only [Bool.and_eq_true, decide_eq_true_eq] at hc
        exact ⟨op', hs, hc.1.1, fun hh => absurd hh hmem⟩
    · have hc := group_rows cpu ((k - 0xE00) / 32) (by omega) ((k - 0xE00) % 32) (by omega)
      rw [show 0xE00 + (k - 0xE00) / 32 * 32 + (k - 0xE00) % 32 = k by omega] at hc
      unfold groupOk at hc
      rw [← pages_eq, h.ok (by omega)] at hc
      split at hc
      · cases hc
      · rename_i op' hs
        dsimp only at hc
        split at hc
        · cases hc
        · rename_i hleft
          exact ⟨op', hs, Decidable.of_not_not hleft, fun hh => absurd hh hmem⟩

/-- The first word of a line is the name, when that has no `=` and no `*`. -/
theorem written' {S : Syntax} (hal : ∀ c, Ctype.isAlnum c = true → S.instructionLetter c = true)
    (hterm : ∀ c, S.instructionTerminator c = true → c = '=' ∨ c = '*') {line blanks word rest name : List Char}
    (h0 : '\x00' ∉ word) (hn : '\x00' ∉ name) (hl : name.length < 11) (h : Table.strcasecmp (word.take 11) name = 0)
    (heq : '=' ∉ name) (hast : '*' ∉ name) (he : line = blanks ++ word ++ rest)
    (hb : (∀ c ∈ blanks, Ctype.isSpace c = true) ∧
      ((∀ c ∈ rest.head?, S.instructionLetter c = false) ∨ ∃ c ∈ word, S.instructionTerminator c = true)) :
    WrittenAs line name := by
  by_cases hx : '*' ∈ word
  · exfalso
    have h1 : '\x00' ∉ word.take 11 := fun h => h0 (List.mem_of_mem_take h)
    have hk := (Table.strcasecmp_zero h1 hn).1 h
    have hlen : (word.take 11).length = name.length := by
      have := congrArg List.length hk
      rwa [Table.key_length, Table.key_length] at this
    have hw : word.take 11 = word := by
      rw [List.length_take] at hlen
      exact List.take_of_length_le (by omega)
    rw [hw] at hk
    have h3 : (42 : Nat) ∈ Table.Spec.key word := by
      unfold Table.Spec.key
      exact List.mem_map.2 ⟨'*', hx, rfl⟩
    have hk' : Table.Spec.key word = Table.Spec.key name := hk
    rw [hk'] at h3
    unfold Table.Spec.key at h3
    obtain ⟨y, h4, h5⟩ := List.mem_map.1 h3
    have h6 : (if 65 ≤ y.toNat ∧ y.toNat ≤ 90 then y.toNat + 32 else y.toNat) = 42 := h5
    apply hast
    have : y = '*' := by
      split at h6
      · omega
      · rw [← Char.ofNat_toNat y, h6]
    rw [← this]
    exact h4
  · refine written (S := { S with instructionTerminator := fun c => c == '=' }) hal (fun c hc => by simpa using hc) h0 hn hl h heq he
      ⟨hb.1, ?_⟩
    rcases hb.2 with h2 | ⟨c, h2, h3⟩
    · exact Or.inl h2
    · rcases hterm c h3 with rfl | rfl
      · exact Or.inr ⟨_, h2, rfl⟩
      · exact absurd h2 hx

theorem line_assembled {E : Env} {radix : Radix} {cpu : CpuType} {addr : Nat} {line : List Char} {bytes : List Nat} {rest : Scan}
    (h : assemble E radix cpu addr line = .ok (.insn ⟨.OK, bytes, rest⟩)) :
    Config.checkAddr (width cpu) addr false = .OK ∧ ∃ op k, op ∈ rows cpu ∧ WrittenAs line op.name ∧ Assembled cpu addr op k ∧
      bytes = [k / 256, k % 256] := by
  obtain ⟨word, scan, hi, hok, hw, blanks, tail, hline, hblank⟩ := encode_line_inv (by cases cpu <;> decide) rfl h
  refine ⟨hok, ?_⟩
  unfold encodeImpl at hi
  split at hi
  · cases hi
  · rename_i e hs
    have hi := Out.ok.inj hi
    injection hi with hi _
    exfalso
    unfold searchName at hs
    cases hx : Table.searchName (fun e : Op => Table.strcasecmp (word.take 11) e.name) (fun _ _ => true) (pages cpu) false with
    | none => rw [hx] at hs; cases hs
    | some x =>
      rw [hx] at hs
      cases x with
      | error e' => cases hs; exact searchName_err hx hi
      | ok y => cases hs
  · rename_i op hs
    obtain ⟨⟨s, rest'⟩, hp, h2⟩ := bind_ok hi
    have h2 := Out.ok.inj h2
    injection h2 with e1 e2 _
    obtain ⟨r1, r2⟩ := searchName_row hs
    have hr := row_all r1
    unfold rowB at hr
    simp only [Bool.and_eq_true, Bool.not_eq_true', List.contains_eq_mem, decide_eq_false_iff_not, decide_eq_true_eq] at hr
    obtain ⟨⟨⟨⟨⟨_, b1⟩, b2⟩, b3⟩, b4⟩, _⟩ := hr
    have hA := operands_assembled r1 (searchName_own (fun hh => hw (List.mem_of_mem_take hh)) b3 hs) hp e1
    refine ⟨op, s.opcode, r1, ?_, hA, ?_⟩
    · refine written' (S := syntaxOf cpu) (fun c hc => ?_) (fun c hc => ?_) hw b3 b4 r2 b1 b2 hline hblank
      · show (Eval.symbolLetter false c || c == '*' || c == '=') = true
        rw [symbolLetter_alnum hc]
        rfl
      · have hc : (c == '*' || c == '=') = true := hc
        simp only [Bool.or_eq_true, beq_iff_eq] at hc
        exact hc.symm
    · rw [← e2, Nat.mod_eq_of_lt (show s.opcode / 256 < 256 by have := hA.small; omega)]

/-- Whatever line is assembled without error, at any address, with any radix and any symbols: the
disassembler, with any options, reads the two bytes of it, whatever follows them, as one instruction, without error, and
if it is a memory reference it has the name written in the line.
What is missing of C29: the name of other instructions, for which it does not hold (`C29_violated_pdp8`), and that the
operands are those of the line. -/
theorem C29_pdp8_partial {E : Env} {radix : Radix} {cpu : CpuType} {addr : Nat} {line : List Char} {bytes : List Nat} {rest : Scan}
    (h : assemble E radix cpu addr line = .ok (.insn ⟨.OK, bytes, rest⟩)) (o : Opts) (more : List Nat) :
    (disassemble o cpu addr (bytes ++ more)).err = .OK ∧
    (disassemble o cpu addr (bytes ++ more)).bytes = bytes ∧
    bytes.length = 2 ∧
    (bytes.headD 0 * 256 < 0o6000 → WrittenAs line (disassemble o cpu addr (bytes ++ more)).name) := by
  obtain ⟨hok, op, k, hop, hw, hA, rfl⟩ := line_assembled h
  obtain ⟨op', s1, s2, s3⟩ := assembled_known hop hA
  have hk := hA.small
  have e : (⟨k / 256 :: k % 256 :: more, [], .OK⟩ : Rd).be16 = (k, ⟨more, [k / 256, k % 256], .OK⟩) := by
    show (k / 256 % 256 * 256 + k % 256 % 256, (⟨more, [] ++ [k / 256 % 256] ++ [k % 256 % 256], .OK⟩ : Rd)) = _
    rw [show k / 256 % 256 * 256 + k % 256 % 256 = k by omega, show k / 256 % 256 = k / 256 by omega, Nat.mod_mod]
    rfl
  have hdis : disassemble o cpu addr ([k / 256, k % 256] ++ more) =
      decodeImpl o cpu addr (k / 256 :: k % 256 :: more) := by
    unfold disassemble decode
    rw [if_neg (by rw [hok]; simp)]
    rfl
  rw [hdis]
  unfold decodeImpl
  rw [e]
  dsimp only
  rw [s1]
  dsimp only
  rw [if_neg (by rw [s2]; decide)]
  refine ⟨rfl, rfl, rfl, fun hlt => ?_⟩
  have hlt : k / 256 * 256 < 0xC00 := hlt
  obtain ⟨t1, t2⟩ := s3 (by omega)
  have hr := row_all hop
  unfold rowB at hr
  simp only [Bool.and_eq_true, Bool.not_eq_true', List.contains_eq_mem, decide_eq_false_iff_not] at hr
  have hsame := (Table.strcasecmp_zero t2 hr.1.1.2).1 t1
  exact (hw.letters hsame.symm).letters (outText_same o _)

/-- The order of micro-operations is not that of the line, and a name may stand for a transfer. -/
theorem C29_violated_pdp8 :
    let o : Opts := ⟨true, true, true, false, false, false, '.'⟩
    assemble noEnv .r8 .IM6100 0 "IAC CLA".toList = .ok (.insn ⟨.OK, [0x0E, 0x81], []⟩) ∧
    (disassemble o .IM6100 0 [0x0E, 0x81]).name = "CLA".toList ∧
    (disassemble o .IM6100 0 [0x0E, 0x81]).operands = "IAC".toList ∧
    assemble noEnv .r8 .IM6100 0 "IOT 0 1".toList = .ok (.insn ⟨.OK, [0x0C, 0x01], []⟩) ∧
    (disassemble o .IM6100 0 [0x0C, 0x01]).name = "ION".toList ∧
    (disassemble o .IM6100 0 [0x0C, 0x01]).operands = [] := by
  decide +kernel

example : assemble noEnv .r8 .HD6120 0o1234 "  jmp I 1207 / back".toList = .ok (.insn ⟨.OK, [0x0B, 0x87], "/ back".toList⟩) ∧
    (disassemble ⟨true, true, true, false, false, false, '.'⟩ .HD6120 0o1234 [0x0B, 0x87]).name = "JMP".toList ∧
    (disassemble ⟨true, true, true, false, false, false, '.'⟩ .HD6120 0o1234 [0x0B, 0x87]).operands = "I 01207".toList := by
  decide +kernel

/-- For any line that is assembled: what the disassembler prints for the bytes of it, in octal, is another way to write
them. -/
theorem again {E E' : Env} {radix radix' : Radix} {cpu : CpuType} {addr : Nat} {line sep : List Char} {bytes : List Nat}
    {rest : Scan} (haddr : addr < 2 ^ (if cpu = .IM6100 then 12 else 15))
    (hsep : sep ≠ [] ∧ ∀ c ∈ sep, Ctype.isSpace c = true)
    (h : assemble E radix cpu addr line = .ok (.insn ⟨.OK, bytes, rest⟩))
    (o : Opts) (hoct : o.octal = true) (hradix : radix' = .r8 ∨ o.cstyle = true ∨ o.intelHex = true) :
    assemble E' radix' cpu addr ((disassemble o cpu addr bytes).name ++ sep ++ (disassemble o cpu addr bytes).operands) =
      .ok (.insn ⟨.OK, bytes, []⟩) := by
  have hb := C29_pdp8_partial h o []
  rw [List.append_nil] at hb
  obtain ⟨_, op, k, _, _, hA, rfl⟩ := line_assembled h
  have hk := hA.small
  have e : k / 256 * 256 + k % 256 = k := by omega
  have := C80_partial o E' radix' cpu addr (k / 256) (k % 256) [] sep hoct hradix haddr
    (by intro x hx; simp only [List.mem_cons, List.not_mem_nil, or_false] at hx; omega) hsep
    (by rw [e]; exact hk) (by rw [e]; exact hA.page) (by rw [e]; exact hA.twin) hb.1
  rw [this.2] at this
  exact this.1

end Libasm.Cpu.Pdp8
