import Verif.Cpu.I8096.Codes
/-
C78: what the i8096 disassembler prints assembles to the bytes it read.
-/
namespace Libasm.Cpu.I8096
open Scan Number Number.Spec Eval
open Tables (Row)

theorem syntaxOk : SyntaxOk syntaxOf := by
  constructor
  · intro c hc
    exact Ctype.ascii (p := fun c => Ctype.isSpace c = true → syntaxOf.instructionLetter c = false)
      (by decide +kernel) c (space_ascii hc) hc
  · intro c s hc
    exact Ctype.ascii (p := fun c => Ctype.isAlpha c = true → (c == '\x00' || c == ';') = false)
      (by decide +kernel) c (alpha_ascii hc) hc

theorem skip_skip (s : Scan) : skipSpaces (skipSpaces s) = skipSpaces s := by
  unfold skipSpaces trimStart
  induction s with
  | nil => rfl
  | cons c s ih =>
    rw [List.dropWhile_cons]
    split
    · exact ih
    · rw [List.dropWhile_cons, if_neg (by assumption)]

theorem parse_skip (P : Plugins Value) (s : Scan) : parseOperand P (skipSpaces s) = parseOperand P s := by
  unfold parseOperand
  rw [skip_skip]

theorem impl_skip (P : Plugins Value) (addr : Nat) (name : List Char) (s : Scan) :
    encodeImpl P addr name (skipSpaces s) = encodeImpl P addr name s := by
  unfold encodeImpl
  rw [operands_skip (parse_skip P)]

theorem parse_space (P : Plugins Value) (s : Scan) : parseOperand P (' ' :: s) = parseOperand P s := by
  rw [← parse_skip P (' ' :: s), show skipSpaces (' ' :: s) = skipSpaces s from rfl, parse_skip]

theorem emit_none (addr : Nat) (a : Asm) : emitOperand addr .NONE {} a = .ok a := by
  unfold emitOperand
  rw [Asm.noError]

theorem opOf_err (abs : Bool) (addr b : Nat) (d : DOp) : (opOf abs addr b d).err = .OK := by
  unfold opOf
  repeat' split
  all_goals rfl

theorem good_of {m : Mode} (h : good m = true) :
    m ≠ .NONE ∧ m ≠ .UNDEF ∧ m ≠ .ADDR ∧ m ≠ .IDX8 ∧ m ≠ .IDX16 ∧ m ≠ .IMM8 ∧ m ≠ .IMM16 := by
  cases m <;> first | exact absurd h Bool.false_ne_true | decide

/-- The mode that is read for an operand. -/
theorem kind_of {abs : Bool} {addr b : Nat} {m : Mode} {r : Rd} :
    good m = true → (opOf abs addr b (readOperand b m r).1).mode ∈ pmodes b m := by
  intro h
  have aop : ∀ w, (opOf abs addr b (readAop w b r).1).mode ∈ pmodes b .BAOP := by
    intro w
    have hb4 : b % 4 = 0 ∨ b % 4 = 1 ∨ b % 4 = 2 ∨ b % 4 = 3 := by omega
    unfold pmodes
    dsimp only
    rcases hb4 with hb | hb | hb | hb
    · rw [aop0 hb, if_pos hb]
      cases w <;> exact List.mem_singleton.2 rfl
    · rw [aop1 hb, if_neg (by omega), if_pos hb]
      cases w <;> exact List.mem_singleton.2 rfl
    · rw [aop2 hb, if_neg (by omega), if_neg (by omega), if_pos hb]
      exact List.mem_singleton.2 rfl
    · rw [aop3 hb, if_neg (by omega), if_neg (by omega), if_neg (by omega)]
      split
      · exact List.mem_cons_self ..
      · unfold opOf
        dsimp only
        split
        · exact List.mem_cons_of_mem _ (List.mem_singleton.2 rfl)
        · exact List.mem_cons_self ..
  cases m <;> first
    | exact absurd h Bool.false_ne_true
    | exact List.mem_singleton.2 rfl
    | exact aop _
    | skip
  show (opOf abs addr b ⟨.COUNT, r.byte.1, 0, .OK⟩).mode ∈ [Mode.IMM16, .ADDR]
  unfold opOf
  dsimp only
  split
  · exact List.mem_cons_self ..
  · exact List.mem_cons_of_mem _ (List.mem_singleton.2 rfl)

/-- What is known of an operand that was read and printed without an error. -/
structure Fine (o : Opts) (abs : Bool) (addr b : Nat) (d : DOp) : Prop where
  err : d.err = .OK
  out : (outOperand o abs addr b d).2 = .OK
  canon : Canon abs d

theorem list_mono {b : Nat} : ∀ (ms : List Mode) (r : Rd), (readList b ms r).2.err = .OK → r.err = .OK
  | [], _, h => h
  | _ :: ms, _, h => read_mono (list_mono ms _ h)

/-- What is emitted for operands that were read, one after the other. -/
theorem list_emit {o : Opts} {abs : Bool} {addr b : Nat} (ha : addr < 65536) : ∀ (ms : List Mode) (r : Rd) (c : Nat),
    seqOk b ms c = true → (∀ x ∈ r.mem, x < 256) → (readList b ms r).2.err = .OK →
    (∀ d ∈ (readList b ms r).1, Fine o abs addr b d) →
    (∀ d ∈ (readList b ms r).1, Fields d) ∧
    (∃ bs, Took r (readList b ms r).2 bs ∧ bs.length ≤ 10 * ms.length ∧
      ∀ l, emitList (emitOperand addr) (ms.zip ((readList b ms r).1.map (opOf abs addr b))) ⟨.OK, c, l⟩ =
        .ok ⟨.OK, b, l ++ bs⟩) ∧
    (readList b ms r).1.length = ms.length
  | [], r, c, hs, _, h, _ => by
    have hs : c = b := by simpa [seqOk] using hs
    subst hs
    refine ⟨fun d hd => (by cases hd), ⟨[], Took.refl h, Nat.zero_le _, fun l => ?_⟩, rfl⟩
    rw [List.append_nil]
    rfl
  | m :: ms, r, c, hs, hmem, h, hf => by
    unfold seqOk at hs
    simp only [Bool.and_eq_true, beq_iff_eq] at hs
    obtain ⟨⟨h1, h2⟩, h3⟩ := hs
    have f0 := hf (readOperand b m r).1 (List.mem_cons_self ..)
    obtain ⟨k1, bs, k2, k3, k4⟩ := emit_read (o := o) (abs := abs) ha hmem (good_of h1) (list_mono ms _ h) f0.err f0.out f0.canon
    have hmem' : ∀ x ∈ (readOperand b m r).2.mem, x < 256 := fun x hx =>
      hmem x (by rw [k2.mem]; exact List.mem_append_right _ hx)
    obtain ⟨g1, ⟨bs', g2, g3, g4⟩, g5⟩ := list_emit ha ms (readOperand b m r).2 _ h3 hmem' h
      (fun d hd => hf d (List.mem_cons_of_mem _ hd))
    refine ⟨?_, ⟨bs ++ bs', k2.trans g2, ?_, fun l => ?_⟩, ?_⟩
    · intro d hd
      rcases List.mem_cons.1 hd with rfl | hd
      · exact k1
      · exact g1 d hd
    · rw [List.length_append, List.length_cons]; omega
    · show (emitOperand addr m (opOf abs addr b (readOperand b m r).1) ⟨.OK, c, l⟩).bind _ = _
      rw [k4 c l h2, Out.ok_bind, ← List.append_assoc]
      exact g4 (l ++ bs)
    · show (readList b ms (readOperand b m r).2).1.length + 1 = _
      rw [g5]
      rfl

/-- The modes of the operands that were read. -/
theorem list_kinds {abs : Bool} {addr b : Nat} : ∀ (ms : List Mode) (r : Rd), (∀ m ∈ ms, good m = true) →
    ∀ p ∈ ms.zip (readList b ms r).1, (opOf abs addr b p.2).mode ∈ pmodes b p.1
  | [], _, _, p, hp => by cases hp
  | m :: ms, r, h, p, hp => by
    rcases List.mem_cons.1 hp with rfl | hp
    · exact kind_of (h m (List.mem_cons_self ..))
    · exact list_kinds ms _ (fun x hx => h x (List.mem_cons_of_mem _ hx)) p hp

theorem mem_choices {b : Nat} : ∀ (ms xs : List Mode), xs.length = ms.length →
    (∀ p ∈ ms.zip xs, p.2 ∈ pmodes b p.1) → xs ∈ choices b ms
  | [], [], _, _ => List.mem_singleton.2 rfl
  | m :: ms, x :: xs, hl, h => by
    unfold choices
    exact List.mem_flatMap.2 ⟨x, h (m, x) (List.mem_cons_self ..), List.mem_map.2
      ⟨xs, mem_choices ms xs (Nat.succ.inj hl) (fun p hp => h p (List.mem_cons_of_mem _ hp)), rfl⟩⟩
  | [], _ :: _, hl, _ => by cases hl
  | _ :: _, [], hl, _ => by cases hl

theorem show_ok {o : Opts} {abs : Bool} {addr b : Nat} {d : DOp} {r : Rd}
    (h : (showOperand o abs addr b d r).2.err = .OK) :
    r.err = .OK ∧ d.err = .OK ∧ (outOperand o abs addr b d).2 = .OK ∧ (showOperand o abs addr b d r).2 = r := by
  obtain ⟨h1, h2⟩ := setErrorIf_ok h
  obtain ⟨h3, h4⟩ := setErrorIf_ok h1
  refine ⟨h3, h4, h2, ?_⟩
  unfold showOperand Rd.setErrorIf
  dsimp only
  rw [h4, h2]
  cases r
  cases h3
  rfl

/-- Printing changes nothing but the error. -/
theorem shown {o : Opts} {abs : Bool} {addr b : Nat} : ∀ (ds : List DOp) (r : Rd),
    (decodeList (showOperand o abs addr b) ds r).2.err = .OK →
    (decodeList (showOperand o abs addr b) ds r).2 = r ∧ r.err = .OK ∧
    ∀ d ∈ ds, d.err = .OK ∧ (outOperand o abs addr b d).2 = .OK
  | [], r, h => ⟨rfl, h, fun d hd => by cases hd⟩
  | [d], r, h => by
    obtain ⟨h1, h2, h3, h4⟩ := show_ok h
    refine ⟨h4, h1, fun x hx => ?_⟩
    rw [List.mem_singleton.1 hx]
    exact ⟨h2, h3⟩
  | d :: d' :: ds, r, h => by
    obtain ⟨k1, k2, k3⟩ := shown (d' :: ds) (showOperand o abs addr b d r).2 h
    obtain ⟨h1, h2, h3, h4⟩ := show_ok k2
    refine ⟨k1.trans h4, h1, fun x hx => ?_⟩
    rcases List.mem_cons.1 hx with rfl | hx
    · exact ⟨h2, h3⟩
    · exact k3 x hx

/-- Reading and printing one after the other is the same as reading all and printing all. -/
theorem read_shown {o : Opts} {abs : Bool} {addr b : Nat} : ∀ (ms : List Mode) (r : Rd),
    (decodeList (decodeOperand o abs addr b) ms r).2.err = .OK →
    decodeList (decodeOperand o abs addr b) ms r =
      decodeList (showOperand o abs addr b) (readList b ms r).1 (readList b ms r).2
  | [], _, _ => rfl
  | [m], _, _ => rfl
  | m :: m' :: ms, r, h => by
    have ih := read_shown (m' :: ms) (decodeOperand o abs addr b m r).2 h
    have h' : (decodeList (decodeOperand o abs addr b) (m' :: ms) (decodeOperand o abs addr b m r).2).2.err = .OK := h
    rw [ih] at h'
    have k := list_mono (m' :: ms) _ (shown _ _ h').2.1
    obtain ⟨_, h2, h3, h4⟩ := show_ok (o := o) (abs := abs) (addr := addr) (b := b) (d := (readOperand b m r).1)
      (r := (readOperand b m r).2) k
    have e : (decodeOperand o abs addr b m r).2 = (readOperand b m r).2 := h4
    rw [e] at ih
    have hr := list_mono (m' :: ms) (readOperand b m r).2 (by rw [e] at h'; exact (shown _ _ h').2.1)
    have e2 : ∀ r'' : Rd, r''.err = .OK → (showOperand o abs addr b (readOperand b m r).1 r'').2 = r'' := by
      intro r'' hr''
      unfold showOperand Rd.setErrorIf
      dsimp only
      rw [h2, h3]
      cases r''
      cases hr''
      rfl
    have hend : (readList b (m' :: ms) (readOperand b m r).2).2.err = .OK := by
      rw [e] at h'; exact (shown _ _ h').2.1
    show ((decodeOperand o abs addr b m r).1 ++ ',' :: ' ' :: (decodeList (decodeOperand o abs addr b) (m' :: ms) (decodeOperand o abs addr b m r).2).1,
      (decodeList (decodeOperand o abs addr b) (m' :: ms) (decodeOperand o abs addr b m r).2).2) = _
    rw [e, ih]
    show _ = ((showOperand o abs addr b (readOperand b m r).1 (readList b (m' :: ms) (readOperand b m r).2).2).1 ++ ',' :: ' ' ::
      (decodeList (showOperand o abs addr b) (readList b (m' :: ms) (readOperand b m r).2).1
        (showOperand o abs addr b (readOperand b m r).1 (readList b (m' :: ms) (readOperand b m r).2).2).2).1,
      (decodeList (showOperand o abs addr b) (readList b (m' :: ms) (readOperand b m r).2).1
        (showOperand o abs addr b (readOperand b m r).1 (readList b (m' :: ms) (readOperand b m r).2).2).2).2)
    rw [e2 _ hend]
    rfl

/-- What is printed of operands is read as them. -/
theorem text_reads {E : Env} {o : Opts} {abs : Bool} {addr b : Nat} (hsym : o.relative = true → o.curSym = '$')
    (ha : addr < 65536) : ∀ (ds : List DOp) (r : Rd) (n : Nat), ds ≠ [] → ds.length ≤ n →
    (∀ d ∈ ds, Fields d ∧ Fine o abs addr b d) → r.err = .OK →
    operandList (parseOperand (plug E addr)) n (decodeList (showOperand o abs addr b) ds r).1 =
      .ok (.ok (ds.map (opOf abs addr b), []))
  | [], _, _, h, _, _, _ => absurd rfl h
  | [d], r, n + 1, _, _, h, _ => by
    have hd := h d (List.mem_cons_self ..)
    have := show_reads (E := E) hsym ha hd.1 hd.2.canon hd.2.out [] (Or.inl rfl)
    rw [List.append_nil] at this
    unfold operandList
    rw [show (decodeList (showOperand o abs addr b) [d] r).1 = (outOperand o abs addr b d).1 from rfl, this, Out.ok_bind]
    cases n <;> rfl
  | d :: d' :: ds, r, n + 1, _, hn, h, hr => by
    have hd := h d (List.mem_cons_self ..)
    have e2 : (showOperand o abs addr b d r).2 = r := by
      unfold showOperand Rd.setErrorIf
      dsimp only
      rw [hd.2.err, hd.2.out]
      cases r
      cases hr
      rfl
    have e1 : (decodeList (showOperand o abs addr b) (d :: d' :: ds) r).1 =
        (outOperand o abs addr b d).1 ++ ',' :: ' ' :: (decodeList (showOperand o abs addr b) (d' :: ds) r).1 := by
      show (showOperand o abs addr b d r).1 ++ ',' :: ' ' :: (decodeList (showOperand o abs addr b) (d' :: ds) (showOperand o abs addr b d r).2).1 = _
      rw [e2]
      rfl
    have ih := text_reads (E := E) hsym ha (d' :: ds) r n (List.cons_ne_nil _ _) (Nat.le_of_succ_le_succ hn)
      (fun x hx => h x (List.mem_cons_of_mem _ hx)) hr
    have this := show_reads (E := E) hsym ha hd.1 hd.2.canon hd.2.out
      (',' :: ' ' :: (decodeList (showOperand o abs addr b) (d' :: ds) r).1) (Or.inr ⟨_, rfl⟩)
    rw [e1]
    unfold operandList
    rw [this, Out.ok_bind]
    cases n with
    | zero => simp at hn
    | succ n =>
      dsimp only
      rw [show ∀ s : Scan, skipSpaces (',' :: ' ' :: s) = ',' :: ' ' :: s from fun _ => rfl,
        show ∀ s : Scan, expect ',' (',' :: ' ' :: s) = some (' ' :: s) from fun _ => rfl]
      dsimp only
      have sp : ∀ s : Scan, operandList (parseOperand (plug E addr)) (n + 1) (' ' :: s) =
          operandList (parseOperand (plug E addr)) (n + 1) s := by
        intro s
        unfold operandList
        rw [parse_space]
      rw [sp, ih, Out.ok_bind]
      rfl
  | _ :: _, _, 0, _, hn, _, _ => by cases hn

/-- Missing operands add nothing, also when they come first. -/
theorem emit_reverse {addr : Nat} {ms : List Mode} {ops : List Operand} (hl : ms.length = ops.length) (h3 : ms.length ≤ 3) (a : Asm) :
    emitList (emitOperand addr) ((pad 3 .NONE ms).zip (pad 3 {} ops)).reverse a =
      emitList (emitOperand addr) (ms.reverse.zip ops.reverse) a := by
  rcases ms with _ | ⟨m1, _ | ⟨m2, _ | ⟨m3, _ | ⟨m4, ms⟩⟩⟩⟩ <;> rcases ops with _ | ⟨o1, _ | ⟨o2, _ | ⟨o3, _ | ⟨o4, ops⟩⟩⟩⟩ <;>
    simp only [List.length_cons, List.length_nil] at hl h3 <;> first | omega | skip
  · simp only [pad, emitList, emit_none, Out.ok_bind, List.zip_cons_cons, List.zip_nil_left, List.reverse_cons, List.reverse_nil,
      List.nil_append, List.cons_append]
  · simp only [pad, emitList, emit_none, Out.ok_bind, List.zip_cons_cons, List.zip_nil_left, List.reverse_cons, List.reverse_nil,
      List.nil_append, List.cons_append]
  · simp only [pad, emitList, emit_none, Out.ok_bind, List.zip_cons_cons, List.zip_nil_left, List.reverse_cons, List.reverse_nil,
      List.nil_append, List.cons_append]
  · simp only [pad, emitList, List.zip_cons_cons, List.zip_nil_left, List.reverse_cons, List.reverse_nil,
      List.nil_append, List.cons_append]

theorem seq_good {b : Nat} : ∀ (ms : List Mode) (c : Nat), seqOk b ms c = true → ∀ m ∈ ms, good m = true
  | [], _, _, m, hm => by cases hm
  | x :: ms, c, h, m, hm => by
    unfold seqOk at h
    simp only [Bool.and_eq_true] at h
    rcases List.mem_cons.1 hm with rfl | hm
    · exact h.1.1
    · exact seq_good ms _ h.2 m hm

/-- The operand that is read first is in its shortest form. -/
theorem canon_first {abs : Bool} {b : Nat} {m : Mode} {r : Rd} (hmem : ∀ x ∈ r.mem, x < 256)
    (hg : good m = true) (hM : m = .BAOP ∨ m = .WAOP → 0x40 ≤ b ∧ b < 0xD0) (hI : m = .INDIR → b = 0xE3)
    (hc : Spec.Canonical abs (b :: r.mem)) (h : (readOperand b m r).2.err = .OK) :
    Canon abs (readOperand b m r).1 := by
  have aop : ∀ w, (0x40 ≤ b ∧ b < 0xD0) → (readAop w b r).2.err = .OK → Canon abs (readAop w b r).1 := by
    intro w hb h
    have hb4 : b % 4 = 0 ∨ b % 4 = 1 ∨ b % 4 = 2 ∨ b % 4 = 3 := by omega
    rcases hb4 with h4 | h4 | h4 | h4
    · rw [aop0 h4]
      cases w <;> trivial
    · rw [aop1 h4]
      cases w <;> trivial
    · rw [aop2 h4] at h ⊢
      have e := (byte_took hmem h).2.mem
      rw [e] at hc
      exact fun ha => hc.2 ha (Or.inl ⟨hb, h4⟩)
    · rw [aop3 h4] at h ⊢
      split at h
      · rename_i hx
        rw [if_pos hx]
        have hx2 : r.byte.1 % 2 = 0 := by unfold isWreg at hx; simpa using hx
        have t := (byte_took (byte_mem hmem) h).2
        have e := (byte_took hmem t.err).2.mem
        rw [e, t.mem] at hc
        simp only [List.cons_append, List.nil_append] at hc
        have := hc.1 ⟨hb, h4⟩
        unfold Spec.Shortest at this
        dsimp only at this
        rw [if_pos hx2] at this
        exact this
      · rename_i hx
        rw [if_neg hx]
        have hx2 : ¬ r.byte.1 % 2 = 0 := by unfold isWreg at hx; simpa using hx
        have t := (le16_took (byte_mem hmem) h)
        have e := (byte_took hmem t.2.err).2.mem
        rw [e, t.2.mem] at hc
        simp only [List.cons_append, List.nil_append] at hc
        have := hc.1 ⟨hb, h4⟩
        unfold Spec.Shortest at this
        dsimp only at this
        rw [if_neg hx2] at this
        show (if r.byte.1 / 2 * 2 = 0 then 256 else 128) ≤ r.byte.2.le16.1
        split <;> split at this <;> omega
  cases m with
  | BAOP => exact aop false (hM (Or.inl rfl)) h
  | WAOP => exact aop true (hM (Or.inr rfl)) h
  | INDIR =>
    have e := (byte_took hmem h).2.mem
    rw [e] at hc
    exact fun ha => hc.2 ha (Or.inr (hI rfl))
  | _ => first | exact absurd hg Bool.false_ne_true | trivial

/-- The operands of an entry are in their shortest form. -/
theorem canon_list {abs : Bool} {b : Nat} (ms : List Mode) {r : Rd} (hmem : ∀ x ∈ r.mem, x < 256)
    (hg : ∀ m ∈ ms, good m = true) (hf : firstOk b ms = true)
    (hc : Spec.Canonical abs (b :: r.mem)) (h : (readList b ms r).2.err = .OK) :
    ∀ d ∈ (readList b ms r).1, Canon abs d := by
  have rest : ∀ (ms : List Mode) (r : Rd), (∀ m ∈ ms, good m = true) →
      (ms.all fun m => !decide (m = .BAOP ∨ m = .WAOP ∨ m = .INDIR)) = true →
      ∀ d ∈ (readList b ms r).1, Canon abs d := by
    intro ms
    induction ms with
    | nil => intro r _ _ d hd; cases hd
    | cons m ms ih =>
      intro r hg hf d hd
      simp only [List.all_cons, Bool.and_eq_true] at hf
      rcases List.mem_cons.1 hd with rfl | hd
      · have h1 := hg m (List.mem_cons_self ..)
        have h2 := hf.1
        cases m <;> first
          | exact absurd h1 Bool.false_ne_true
          | exact absurd h2 (by decide)
          | trivial
      · exact ih _ (fun x hx => hg x (List.mem_cons_of_mem _ hx)) hf.2 d hd
  cases ms with
  | nil => intro d hd; cases hd
  | cons m ms =>
    intro d hd
    unfold firstOk at hf
    simp only [Bool.and_eq_true] at hf
    obtain ⟨h1, h2⟩ := hf
    rcases List.mem_cons.1 hd with rfl | hd
    · refine canon_first hmem (hg m (List.mem_cons_self ..)) ?_ ?_ hc (list_mono ms _ h)
      · intro hm
        rw [if_pos hm] at h1
        simpa using h1
      · intro hm
        subst hm
        simpa using h1
    · exact rest ms _ (fun x hx => hg x (List.mem_cons_of_mem _ hx)) h2 d hd

/-- The entry of a code: all of its operands. -/
theorem insn_back {E : Env} {o : Opts} {abs : Bool} {addr pre b : Nat} {row : Row} {rest bytes : List Nat}
    (hsym : o.relative = true → o.curSym = '$') (ha : addr < 65536) (hb : b < 256) (hrest : ∀ x ∈ rest, x < 256)
    (hrow : rowOk b row = true) (hname : nameOk pre b row o.upper = true) (hc : Spec.Canonical abs (b :: rest))
    (he : (decodeOperands o abs addr b row ⟨rest, bytes, .OK⟩).2.err = .OK) :
    ∃ bs, Took ⟨rest, bytes, .OK⟩ (decodeOperands o abs addr b row ⟨rest, bytes, .OK⟩).2 bs ∧
      encodeImpl (plug E addr) addr (row.name.map (letter o.upper)) (decodeOperands o abs addr b row ⟨rest, bytes, .OK⟩).1 =
        .ok ⟨.OK, bytesOf pre ⟨.OK, b, bs⟩, []⟩ := by
  unfold rowOk at hrow
  simp only [Bool.and_eq_true, decide_eq_true_eq] at hrow
  obtain ⟨⟨h3, hseq⟩, hfirst⟩ := hrow
  have hgood := seq_good _ _ hseq
  unfold nameOk at hname
  simp only [Bool.and_eq_true, List.all_eq_true] at hname
  have hname := hname.2
  generalize hL : readList b (order row) ⟨rest, bytes, .OK⟩ = L
  -- what is printed
  have htext : ∃ ds, ds = (if jbx row then L.1 else L.1.reverse) ∧
      (decodeOperands o abs addr b row ⟨rest, bytes, .OK⟩) = decodeList (showOperand o abs addr b) ds L.2 := by
    refine ⟨_, rfl, ?_⟩
    unfold decodeOperands at he ⊢
    unfold order at hL
    by_cases hj : jbx row = true
    · rw [if_pos hj] at he hL ⊢
      rw [if_pos hj, read_shown _ _ he, hL]
    · rw [if_neg hj] at he hL ⊢
      rw [if_neg hj, hL]
  obtain ⟨ds, hds, htext⟩ := htext
  rw [htext] at he ⊢
  obtain ⟨s1, s2, s3⟩ := shown ds L.2 he
  rw [s1]
  have hmemds : ∀ d, d ∈ L.1 ↔ d ∈ ds := by
    intro d
    rw [hds]
    split
    · exact Iff.rfl
    · exact List.mem_reverse.symm
  have hcan := canon_list (abs := abs) (order row) hrest hgood hfirst hc (by rw [hL]; exact s2)
  have hfine : ∀ d ∈ L.1, Fine o abs addr b d := by
    intro d hd
    have k := s3 d ((hmemds d).1 hd)
    exact ⟨k.1, k.2, hcan d (by rw [hL]; exact hd)⟩
  obtain ⟨f1, ⟨bs, f2, f3, f4⟩, f5⟩ := list_emit (o := o) (abs := abs) (b := b) ha (order row) ⟨rest, bytes, .OK⟩
    row.opcode hseq hrest (by rw [hL]; exact s2) (by rw [hL]; exact hfine)
  have hkinds := list_kinds (abs := abs) (addr := addr) (b := b) (order row) ⟨rest, bytes, .OK⟩ hgood
  rw [hL] at f1 f2 f4 f5 hkinds
  refine ⟨bs, f2, ?_⟩
  have hlen : ds.length = (modes row).length := by
    rw [hds]
    unfold order at f5
    split at f5 <;> rename_i hj
    · rw [if_pos hj, f5]
    · rw [if_neg hj, List.length_reverse, f5, List.length_reverse]
  -- the entry
  have hmodes : (ds.map (opOf abs addr b)).map (·.mode) ∈ choices b (modes row) := by
    apply mem_choices
    · rw [List.length_map, List.length_map, hlen]
    · rw [List.map_map]
      intro p hp
      have hz : ∀ p ∈ (modes row).zip ds, (opOf abs addr b p.2).mode ∈ pmodes b p.1 := by
        intro p hp
        apply hkinds p
        unfold order
        rw [hds] at hp
        by_cases hj : jbx row = true
        · rw [if_pos hj] at hp ⊢
          exact hp
        · rw [if_neg hj] at hp ⊢
          unfold order at f5
          rw [if_neg hj, List.length_reverse] at f5
          have : (modes row).zip L.1.reverse = ((modes row).reverse.zip L.1).reverse := by
            unfold List.zip
            rw [List.reverse_zipWith (by rw [List.length_reverse, f5]), List.reverse_reverse]
          rw [this] at hp
          exact List.mem_reverse.1 hp
      rw [List.zip_map_right] at hp
      obtain ⟨q, hq, rfl⟩ := List.mem_map.1 hp
      exact hz q hq
  -- what is emitted
  have hemit : emitOperands addr row (pad 3 {} (ds.map (opOf abs addr b))) ⟨.OK, row.opcode, []⟩ = .ok ⟨.OK, b, bs⟩ := by
    have hl : (modes row).length = (ds.map (opOf abs addr b)).length := by rw [List.length_map, hlen]
    unfold emitOperands
    dsimp only
    unfold order at f4
    by_cases hj : jbx row = true
    · rw [if_pos hj] at f4 hds ⊢
      rw [emit_pad (emit_none addr) 3 _ _ _ hl h3, hds, f4]
      rfl
    · rw [if_neg hj] at f4 hds ⊢
      have e0 : ∀ n, ((pad 3 {} (ds.map (opOf abs addr b))).getD n {}).err = .OK := by
        intro n
        have : ∀ (k : Nat) (l : List Operand), (∀ x ∈ l, x.err = .OK) → ∀ x ∈ pad k ({} : Operand) l, x.err = .OK := by
          intro k
          induction k with
          | zero => intro l _ x hx; cases hx
          | succ k ih =>
            intro l hl x hx
            cases l with
            | nil =>
              rcases List.mem_cons.1 hx with rfl | hx
              · rfl
              · exact ih [] (fun _ h => by cases h) x hx
            | cons y l =>
              rcases List.mem_cons.1 hx with rfl | hx
              · exact hl _ (List.mem_cons_self ..)
              · exact ih l (fun z hz => hl z (List.mem_cons_of_mem _ hz)) x hx
        rw [List.getD_eq_getElem?_getD]
        cases hg : (pad 3 ({} : Operand) (ds.map (opOf abs addr b)))[n]? with
        | none => rfl
        | some x =>
          refine this 3 (ds.map (opOf abs addr b)) ?_ x (List.mem_of_getElem? hg)
          intro y hy
          obtain ⟨d, _, rfl⟩ := List.mem_map.1 hy
          exact opOf_err _ _ _ _
      rw [e0, e0, emit_reverse hl h3, hds, ← List.map_reverse, List.reverse_reverse]
      exact f4 []
  unfold encodeImpl
  have hp : operandList (parseOperand (plug E addr)) 3 (decodeList (showOperand o abs addr b) ds L.2).1 =
      .ok (.ok (if ds = [] then [{}] else ds.map (opOf abs addr b), [])) := by
    by_cases h0 : ds = []
    · rw [if_pos h0, h0]
      rfl
    · rw [if_neg h0]
      exact text_reads hsym ha ds L.2 3 h0 (by omega) (fun d hd => ⟨f1 d ((hmemds d).2 hd), hfine d ((hmemds d).2 hd)⟩) s2
  have hpad : pad 3 ({} : Operand) (if ds = [] then [{}] else ds.map (opOf abs addr b)) = pad 3 {} (ds.map (opOf abs addr b)) := by
    by_cases h0 : ds = []
    · rw [if_pos h0, h0]
      rfl
    · rw [if_neg h0]
  rw [hp, Out.ok_bind]
  dsimp only
  rw [hpad, pad_map, rowIs_eq (hname _ hmodes), Out.ok_bind]
  dsimp only
  rw [hemit, Out.ok_bind]

/-- What the disassembler prints of any bytes it takes without error assembles at the same address to the same bytes
without error, and nothing of the line is left; the bytes are the first of those given. `abs` is the option
`use-absolute`.
Missing are the cases in which it does not hold (`C78_violated_short`, `C78_violated_register`,
`C78_violated_absolute`): an indexed operand that has a shorter form, which the assembler takes; and, with
`use-absolute`, the register 0 as a pointer. Where targets are printed relative, the symbol of the location is the one
that the assembler knows. -/
theorem C78_partial (o : Opts) (abs : Bool) (E : Env) (addr : Nat) (mem : List Nat) (sep : List Char)
    (hsym : o.relative = true → o.curSym = '$')
    (haddr : addr < 2 ^ 16) (hbytes : ∀ b ∈ mem, b < 256) (hmem : mem ≠ [])
    (hshort : Spec.Canonical abs (Spec.body mem))
    (hsep : sep ≠ [] ∧ ∀ c ∈ sep, Ctype.isSpace c = true)
    (hd : (disassemble o abs addr mem).err = .OK) :
    assemble E addr ((disassemble o abs addr mem).name ++ sep ++ (disassemble o abs addr mem).operands) =
      .ok (.insn ⟨.OK, (disassemble o abs addr mem).bytes, []⟩) ∧
    (disassemble o abs addr mem).bytes ≠ [] ∧
    (disassemble o abs addr mem).bytes <+: mem := by
  have ha : addr < 65536 := haddr
  have hok : Config.checkAddr 16 addr false = .OK := address_ok (by decide) haddr
  have hdis : disassemble o abs addr mem = decodeImpl o abs addr mem := by
    unfold disassemble decode
    rw [if_neg (by rw [hok]; simp)]
  rw [hdis] at hd ⊢
  -- an entry, after the prefix or without one
  have key : ∀ pre b rest bytes, b < 256 → (∀ x ∈ rest, x < 256) → codeOk pre b = true →
      Spec.Canonical abs (b :: rest) → (decodeInsn o abs addr pre b ⟨rest, bytes, .OK⟩).err = .OK →
      ∃ bs, assemble E addr ((decodeInsn o abs addr pre b ⟨rest, bytes, .OK⟩).name ++ sep ++
          (decodeInsn o abs addr pre b ⟨rest, bytes, .OK⟩).operands) =
        .ok (.insn ⟨.OK, bytesOf pre ⟨.OK, b, bs⟩, []⟩) ∧
        (decodeInsn o abs addr pre b ⟨rest, bytes, .OK⟩).bytes = bytes ++ bs ∧ bs <+: rest := by
    intro pre b rest bytes hb hrest hcode hc he
    unfold decodeInsn at he ⊢
    unfold codeOk at hcode
    cases hrow : searchOpCode pre b with
    | none => rw [hrow] at he; cases he
    | some row =>
      rw [hrow] at he hcode
      dsimp only at he hcode ⊢
      simp only [Bool.and_eq_true] at hcode
      have hname : nameOk pre b row o.upper = true := by
        cases o.upper
        · exact hcode.1.2
        · exact hcode.2
      obtain ⟨bs, h1, h2⟩ := insn_back (E := E) hsym ha hb hrest hcode.1.1 hname hc he
      refine ⟨bs, ?_, h1.bytes, _, h1.mem.symm⟩
      unfold nameOk at hname
      rw [Bool.and_eq_true] at hname
      exact encode_operands syntaxOk hname.1 hsep (impl_skip _ _ _ _) hok h2
  cases mem with
  | nil => exact absurd rfl hmem
  | cons b rest =>
  have hb : b < 256 := hbytes b (List.mem_cons_self ..)
  have hrest : ∀ x ∈ rest, x < 256 := fun x hx => hbytes x (List.mem_cons_of_mem _ hx)
  unfold decodeImpl at hd ⊢
  rw [byte_some hb] at hd ⊢
  dsimp only [List.nil_append] at hd ⊢
  rw [prefixes b hb] at hd ⊢
  unfold Spec.body at hshort
  dsimp only at hshort
  by_cases hp : b = 0xFE
  · rw [if_pos (by simp [hp])] at hd ⊢
    rw [if_pos hp] at hshort
    subst hp
    cases rest with
    | nil => cases hd
    | cons c rest =>
      have hc : c < 256 := hrest c (List.mem_cons_self ..)
      rw [byte_some hc] at hd ⊢
      dsimp only [List.cons_append, List.nil_append] at hd ⊢
      rw [if_neg (by decide)] at hd ⊢
      obtain ⟨bs, h1, h2, t, h3⟩ := key 0xFE c rest [0xFE, c] hc (fun x hx => hrest x (List.mem_cons_of_mem _ hx))
        (prefixed_ok c hc) hshort hd
      rw [h2]
      refine ⟨?_, List.cons_ne_nil _ _, t, by rw [← h3]; rfl⟩
      rw [h1]
      show Out.ok (Line.insn ⟨.OK, 0xFE :: (c % 256) :: bs, []⟩) = _
      rw [Nat.mod_eq_of_lt hc]
      rfl
  · rw [if_neg (by simpa using hp)] at hd ⊢
    rw [if_neg hp] at hshort
    obtain ⟨bs, h1, h2, t, h3⟩ := key 0 b rest [b] hb hrest (codes_ok b hb) hshort hd
    rw [h2]
    refine ⟨?_, List.cons_ne_nil _ _, t, by rw [← h3]; rfl⟩
    rw [h1]
    show Out.ok (Line.insn ⟨.OK, (b % 256) :: bs, []⟩) = _
    rw [Nat.mod_eq_of_lt hb]
    rfl

/-- The hypotheses of `C78_partial` hold of every way to name an operand: a register, immediate data of both sizes, a
pointer, an index with a displacement of either size, an absolute address, a count, a register with a count, the bit of a
register, a target, also relative, and of an instruction with the prefix. -/
example :
    (disassemble (.default '$') false 0x2000 [0x64, 0x12, 0x34]).err = .OK ∧
    (disassemble (.default '$') false 0x2000 [0x64, 0x12, 0x34]).operands = "52, 18".toList ∧
    (disassemble (.default '$') false 0x2000 [0x65, 0x34, 0x12, 0x10]).operands = "16, #1234H".toList ∧
    (disassemble (.default '$') false 0x2000 [0x75, 0xFE, 0x11]).operands = "17, #0FEH".toList ∧
    (disassemble (.default '$') false 0x2000 [0x46, 0x12, 0x34, 0x56]).operands = "86, 52, [18]".toList ∧
    (disassemble (.default '$') false 0x2000 [0x67, 0x12, 0xFE, 0x10]).operands = "16, -2[18]".toList ∧
    (disassemble (.default '$') false 0x2000 [0x67, 0x13, 0x34, 0x12, 0x10]).operands = "16, 1234H[18]".toList ∧
    (disassemble (.default '$') true 0x2000 [0x67, 0x01, 0x34, 0x12, 0x10]).operands = "16, 1234H".toList ∧
    (disassemble (.default '$') false 0x2000 [0x09, 0x0F, 0x10]).operands = "16, #15".toList ∧
    (disassemble (.default '$') false 0x2000 [0x09, 0x12, 0x10]).operands = "16, 18".toList ∧
    (disassemble (.default '$') false 0x2000 [0x35, 0x12, 0x10]).operands = "18, 5, 2013H".toList ∧
    (disassemble { Opts.default '$' with relative := true } false 0x2000 [0x2F, 0xFE]).operands = "$".toList ∧
    (disassemble (.default '$') false 0x2000 [0xE7, 0xFD, 0xFF]).operands = "2000H".toList ∧
    (disassemble (.default '$') false 0x2000 [0xFE, 0x4C, 0x12, 0x34, 0x58]).err = .OK ∧
    (disassemble (.default '$') false 0x2000 [0xFE, 0x4C, 0x12, 0x34, 0x58]).operands = "88, 52, 18".toList := by
  decide +kernel

/-- They hold of indexed operands in the shortest form. -/
example : Spec.Canonical false (Spec.body [0x67, 0x12, 0xFE, 0x10]) ∧
    Spec.Canonical false (Spec.body [0x67, 0x13, 0x34, 0x12, 0x10]) ∧
    Spec.Canonical true (Spec.body [0x67, 0x01, 0x34, 0x12, 0x10]) := by
  simp [Spec.Canonical, Spec.body, Spec.Shortest]

/-- Indexed operands that have a shorter form do not come back: the assembler takes that. -/
theorem C78_violated_short :
    (disassemble (.default '$') false 0 [0x67, 0x12, 0, 0x10]).err = .OK ∧
    (disassemble (.default '$') false 0 [0x67, 0x12, 0, 0x10]).operands = "16, 0[18]".toList ∧
    assemble noEnv 0 "ADD 16, 0[18]".toList = .ok (.insn ⟨.OK, [0x66, 0x12, 0x10], []⟩) ∧
    (disassemble (.default '$') false 0 [0x67, 0x13, 4, 0, 0x10]).err = .OK ∧
    (disassemble (.default '$') false 0 [0x67, 0x13, 4, 0, 0x10]).operands = "16, 0004H[18]".toList ∧
    assemble noEnv 0 "ADD 16, 0004H[18]".toList = .ok (.insn ⟨.OK, [0x67, 0x12, 4, 0x10], []⟩) := by
  decide +kernel

/-- Those by the register 0 come back as a register. -/
theorem C78_violated_register :
    (disassemble (.default '$') false 0 [0x67, 0, 4, 0x10]).err = .OK ∧
    (disassemble (.default '$') false 0 [0x67, 0, 4, 0x10]).operands = "16, 4[0]".toList ∧
    assemble noEnv 0 "ADD 16, 4[0]".toList = .ok (.insn ⟨.OK, [0x64, 4, 0x10], []⟩) ∧
    (disassemble (.default '$') false 0 [0x67, 1, 4, 0, 0x10]).err = .OK ∧
    (disassemble (.default '$') false 0 [0x67, 1, 4, 0, 0x10]).operands = "16, 0004H[0]".toList ∧
    assemble noEnv 0 "ADD 16, 0004H[0]".toList = .ok (.insn ⟨.OK, [0x64, 4, 0x10], []⟩) := by
  decide +kernel

/-- With `use-absolute` nothing at all is printed of the register 0 as a pointer, and the line is not one. -/
theorem C78_violated_absolute :
    (disassemble (.default '$') true 0 [0x66, 0, 0x10]).err = .OK ∧
    (disassemble (.default '$') true 0 [0x66, 0, 0x10]).operands = "16, ".toList ∧
    assemble noEnv 0 "ADD 16, ".toList = .ok (.insn ⟨.OPERAND_NOT_ALLOWED, [], []⟩) ∧
    (disassemble (.default '$') true 0 [0xE3, 0]).err = .OK ∧
    (disassemble (.default '$') true 0 [0xE3, 0]).operands = [] ∧
    assemble noEnv 0 "BR ".toList = .ok (.insn ⟨.OPERAND_NOT_ALLOWED, [], []⟩) := by
  decide +kernel

end Libasm.Cpu.I8096
