import Verif.Cpu.Mc6800.Encode
/-
C60: what the MC6800 family disassembler prints assembles to the bytes it read.
-/
namespace Libasm.Cpu.Mc6800
open Scan Number Number.Spec Eval
open Tables (Row)

theorem syntaxOk : SyntaxOk syntaxOf := by
  constructor
  · intro c hc
    exact Ctype.ascii (p := fun c => Ctype.isSpace c = true → syntaxOf.instructionLetter c = false)
      (by decide +kernel) c (space_ascii hc) hc
  · intro c s hc
    exact Ctype.ascii (p := fun c => Ctype.isAlpha c = true → (c == '*' || c == ';') = false)
      (by decide +kernel) c (alpha_ascii hc) hc

theorem parse_blank (P : Plugins Value) (s : List Char) :
    parseOperand P (' ' :: s) = parseOperand P s := by
  unfold parseOperand
  have : skipSpaces (' ' :: s) = skipSpaces s := rfl
  rw [this]

theorem next_nil (P : Plugins Value) : parseNext P [] = .ok ({}, []) := rfl

theorem next_comma (P : Plugins Value) (s : List Char) :
    parseNext P (',' :: ' ' :: s) = parseOperand P s := by
  show parseOperand P (' ' :: s) = _
  exact parse_blank P s

theorem operand_mem {o : Opts} {cpu : CpuType} {addr pre b : Nat} {row : Row} (m : Mode) {r : Rd}
    (h : ∀ x ∈ r.mem, x < 256) :
    ∀ x ∈ (decodeOperand o cpu addr pre b row m r).2.1.mem, x < 256 := by
  unfold decodeOperand
  generalize select b m = s
  cases s <;> first
    | exact byte_mem h
    | exact be16_mem h
    | exact h
    | skip
  unfold decodeBitNumber
  dsimp only
  split
  · split
    · exact byte_mem h
    · exact byte_mem h
  · exact byte_mem h

theorem bitNumber_some {x n : Nat} (h : bitNumber x = some n) : n < 8 ∧ x = 2 ^ n := by
  unfold bitNumber at h
  have h1 := List.find?_some h
  have h2 := List.mem_of_find?_eq_some h
  exact ⟨List.mem_range.1 h2, eq_of_beq h1⟩

/-- The first operand, and the row the name comes from. -/
theorem first_reads {E : Env} {o : Opts} (hsym : o.relative = true → o.curSym = '*') {cpu : CpuType}
    {addr pre b : Nat} {row : Row} {r : Rd} (hp : pre ∈ prefixes) (hb : b < 256)
    (hrow : searchOpCode cpu pre b = some row) (h0 : (flags row).mode1 ≠ .NONE) (ha : addr < 65536)
    (hr : r.err = .OK) (hlen : r.bytes.length < 100) (hmem : ∀ x ∈ r.mem, x < 256)
    (h : (decodeOperand o cpu addr pre b row (flags row).mode1 r).2.1.err = .OK) :
    ∃ row' v w, (decodeOperand o cpu addr pre b row (flags row).mode1 r).2.2 = row' ∧
      Fact cpu pre b row' o.upper ∧ (flags row').mode1 ≠ .NONE ∧
      Reads E (select b (flags row').mode1) addr b r
        (decodeOperand o cpu addr pre b row (flags row).mode1 r).2.1
        (decodeOperand o cpu addr pre b row (flags row).mode1 r).1 v w := by
  obtain ⟨hf, hbit, hal⟩ := fact hp hb hrow o.upper
  by_cases hm : (flags row).mode1 = .BMM
  · obtain ⟨a, ha1, ha2, ha3⟩ := hal hm
    rw [hm] at h ⊢
    have hdec : decodeOperand o cpu addr pre b row .BMM r = decodeBitNumber o cpu pre b row r := rfl
    rw [hdec] at h ⊢
    unfold decodeBitNumber at h ⊢
    dsimp only at h ⊢
    cases hn : bitNumber (if b % 16 = 1 then not8 r.byte.1 else r.byte.1) with
    | none =>
      rw [hn] at h
      dsimp only at h ⊢
      obtain ⟨h1, h2⟩ := byte_took hmem h
      have e := expr_num (E := E) (addr := addr)
        (outHex_num (pairs o) r.byte.1 8 true h1 (by decide) (by decide))
      refine ⟨row, r.byte.1, r.byte.1, rfl, hf, by rw [hm]; decide, ?_⟩
      rw [hm]
      exact ⟨h1, rfl, h2, ⟨_, _, rfl, by decide⟩, fun rest hr => imm_reads e hr⟩
    | some n =>
      rw [ha1]
      dsimp only
      obtain ⟨n1, n2⟩ := bitNumber_some hn
      have hbyte : r.byte.2.err = .OK := by
        unfold Rd.byte at n2 ⊢
        cases hx : r.mem with
        | nil =>
          rw [hx] at n2
          have h3 : ∀ n < 8, (2 ^ n ≠ not8 0) ∧ (2 ^ n ≠ 0) := by decide
          dsimp only at n2
          split at n2
          · exact absurd n2.symm (h3 n n1).1
          · exact absurd n2.symm (h3 n n1).2
        | cons c t => exact hr
      obtain ⟨h1, h2⟩ := byte_took hmem hbyte
      have e := expr_num (E := E) (addr := addr)
        (outHex_num (pairs o) n 3 true (by omega) (by decide) (by decide))
      refine ⟨a, r.byte.1, n, rfl, ha2, by rw [ha3]; decide, ?_⟩
      rw [ha3]
      refine ⟨h1, ⟨n1, ?_⟩, ⟨h2.err, h2.mem, h2.bytes⟩, e.toHead,
        fun rest hr => plain_reads e (by omega) hr⟩
      split at n2
      · rw [if_pos (by assumption), ← n2]
        unfold not8
        omega
      · rw [if_neg (by assumption), n2]
  · obtain ⟨k1, k2, k3, k4, k5⟩ := select_known b ⟨h0, hf.known.1⟩
    obtain ⟨e, v, w, R⟩ := operand_reads (E := E) hsym ⟨k1, k2⟩ ⟨k3, k4, k5⟩
      ⟨fun h => hm (select_same b (Or.inr (Or.inr rfl)) h),
        fun h => hbit (select_same b (Or.inr (Or.inl rfl)) h)⟩ ha hlen hmem h
    exact ⟨row, v, w, e, hf, h0, R⟩

/-- The row the name comes from, also after an error. -/
theorem first_row {o : Opts} {cpu : CpuType} {addr pre b : Nat} {row : Row} {r : Rd}
    (hp : pre ∈ prefixes) (hb : b < 256) (hrow : searchOpCode cpu pre b = some row)
    (h0 : (flags row).mode1 ≠ .NONE) :
    Fact cpu pre b (decodeOperand o cpu addr pre b row (flags row).mode1 r).2.2 o.upper ∧
    (flags (decodeOperand o cpu addr pre b row (flags row).mode1 r).2.2).mode1 ≠ .NONE := by
  obtain ⟨hf, _, hal⟩ := fact hp hb hrow o.upper
  unfold decodeOperand
  generalize hs : select b (flags row).mode1 = s
  cases s <;> first
    | exact ⟨hf, h0⟩
    | skip
  have hm : (flags row).mode1 = .BMM := select_same b (Or.inr (Or.inr rfl)) hs
  obtain ⟨a, ha1, ha2, ha3⟩ := hal hm
  unfold decodeBitNumber
  dsimp only
  split
  · rw [ha1]
    exact ⟨ha2, by rw [ha3]; decide⟩
  · exact ⟨hf, h0⟩

theorem later_row {o : Opts} {cpu : CpuType} {addr pre b : Nat} {row : Row} {r : Rd} (m : Mode)
    (h : m ≠ .BMM) : (decodeOperand o cpu addr pre b row m r).2.2 = row := by
  unfold decodeOperand
  generalize hs : select b m = s
  cases s <;> first
    | rfl
    | exact absurd (select_same b (Or.inr (Or.inr rfl)) hs) h

/-- The reader is not longer than it was by more than a word. -/
theorem operand_len {o : Opts} {cpu : CpuType} {addr pre b : Nat} {row : Row} {r : Rd} (m : Mode) :
    (decodeOperand o cpu addr pre b row m r).2.1.bytes.length ≤ r.bytes.length + 2 := by
  have byte : ∀ r : Rd, r.byte.2.bytes.length ≤ r.bytes.length + 1 := by
    intro r
    unfold Rd.byte
    cases r.mem with
    | nil => exact Nat.le_succ _
    | cons c t => exact Nat.le_of_eq (by simp)
  have h1 := byte r
  have h2 := byte r.byte.2
  unfold decodeOperand
  generalize select b m = s
  cases s <;> first
    | exact Nat.le_trans h1 (Nat.le_succ _)
    | exact Nat.le_trans h2 (Nat.succ_le_succ h1)
    | exact Nat.le_add_right _ _
    | skip
  unfold decodeBitNumber
  dsimp only
  split
  · split <;> exact Nat.le_trans h1 (Nat.le_succ _)
  · exact Nat.le_trans h1 (Nat.le_succ _)

/-- A later operand. -/
theorem later_reads {E : Env} {o : Opts} (hsym : o.relative = true → o.curSym = '*') {cpu : CpuType}
    {m : Mode} {addr pre b : Nat} {row : Row} {r : Rd}
    (h0 : m ≠ .NONE ∧ m ≠ .UNDEF ∧ m ≠ .BMM ∧ m ≠ .BIT)
    (ha : addr < 65536) (hlen : r.bytes.length < 100) (hmem : ∀ x ∈ r.mem, x < 256)
    (h : (decodeOperand o cpu addr pre b row m r).2.1.err = .OK) :
    (decodeOperand o cpu addr pre b row m r).2.2 = row ∧
    ∃ v w, Reads E (select b m) addr b r (decodeOperand o cpu addr pre b row m r).2.1
      (decodeOperand o cpu addr pre b row m r).1 v w := by
  obtain ⟨k1, k2, k3, k4, k5⟩ := select_known b ⟨h0.1, h0.2.1⟩
  exact operand_reads hsym ⟨k1, k2⟩ ⟨k3, k4, k5⟩
    ⟨fun h => h0.2.2.1 (select_same b (Or.inr (Or.inr rfl)) h),
      fun h => h0.2.2.2 (select_same b (Or.inr (Or.inl rfl)) h)⟩ ha hlen hmem h

theorem len_bytes (m : Mode) (v : Nat) : (bytesOf m v).length ≤ 2 := by
  unfold bytesOf
  cases m <;> simp

theorem none_shown {b : Nat} : 0 < bound (select b .NONE) ∧ Shown (select b .NONE) b 0 0 0 :=
  ⟨(by decide : 0 < 256), rfl⟩

theorem opd_none (b w : Nat) : opd (select b .NONE) w = {} := rfl

/-- After the prefix and the code are read. -/
theorem insn_back {E : Env} {o : Opts} {cpu : CpuType} {pre b addr : Nat} {r : Rd}
    {sep : List Char} (hsym : o.relative = true → o.curSym = '*') (ha : addr < 2 ^ 16)
    (hp : pre ∈ prefixes) (hb : b < 256) (hr : r.bytes = code pre b)
    (hmem : ∀ x ∈ r.mem, x < 256) (hsep : Blank sep)
    (hd : (decodeInsn o cpu addr pre b r).err = .OK) :
    ∃ bs, (∃ s, r.mem = bs ++ s) ∧ (decodeInsn o cpu addr pre b r).bytes = r.bytes ++ bs ∧
      assemble E cpu addr ((decodeInsn o cpu addr pre b r).name ++ sep ++
        (decodeInsn o cpu addr pre b r).operands) = .ok (.insn ⟨.OK, code pre b ++ bs, []⟩) := by
  have hp256 : pre < 256 := by
    have : ∀ p ∈ prefixes, p < 256 := by decide
    exact this pre hp
  have hcl : (code pre b).length ≤ 2 := by unfold code; split <;> simp
  unfold decodeInsn at hd ⊢
  cases hrow : searchOpCode cpu pre b with
  | none => rw [hrow] at hd; cases hd
  | some row =>
    rw [hrow] at hd
    dsimp only at hd ⊢
    have line : ∀ {row : Row} (hf : Fact cpu pre b row o.upper) (operands : List Char) (res : Res),
        skipSpaces operands = operands →
        encodeImpl (lexer.plugins E '\x00' addr) cpu addr
          (row.name.map (letter o.upper)) operands = .ok res →
        assemble E cpu addr (outText o row.name ++ sep ++ operands) = .ok (.insn res) := by
      intro row hf operands res h1 h2
      exact encode_name syntaxOk hf.name hsep h1 (address_ok (by decide) ha) h2
    by_cases h1 : (flags row).mode1 = .NONE
    · obtain ⟨hf, _, _⟩ := fact hp hb hrow o.upper
      have h2 := hf.none.1 h1
      have h3 := hf.none.2 h2
      have e0 : decodeOperand o cpu addr pre b row (flags row).mode1 { r with err := .OK } =
          ([], { r with err := .OK }, row) := by rw [h1]; rfl
      rw [e0] at hd ⊢
      dsimp only at hd ⊢
      rw [if_pos h2] at hd ⊢
      refine ⟨[], ⟨r.mem, rfl⟩, by rw [List.append_nil], ?_⟩
      refine line hf [] _ rfl ?_
      unfold encodeImpl
      rw [hf.has, Out.ok_bind, h1, if_neg (by decide)]
      have e := encode_insn hf hp256 hb ha (v1 := 0) (v2 := 0) (v3 := 0) (w1 := 0) (w2 := 0) (w3 := 0)
        (n1 := 0) (n2 := 0) (n3 := 0)
        (by rw [h1]; exact none_shown.1) (by rw [h1]; exact none_shown.2)
        (by rw [h2]; exact none_shown.1) (by rw [h2]; exact none_shown.2)
        (by rw [h3]; exact none_shown.1) (by rw [h3]; exact none_shown.2)
        (fun h => absurd h1 h) (fun h => absurd h2 h) (fun h => absurd h3 h) []
      rw [h1, h2, h3, opd_none] at e
      exact e.trans (by simp [show bytesOf (select b .NONE) 0 = [] from rfl])
    · generalize hr0 : ({ r with err := .OK } : Rd) = r0 at hd ⊢
      have hr0m : r0.mem = r.mem := by rw [← hr0]
      have hr0b : r0.bytes = code pre b := by rw [← hr0]; exact hr
      have hr0e : r0.err = .OK := by rw [← hr0]
      have hm0 : ∀ x ∈ r0.mem, x < 256 := by rw [hr0m]; exact hmem
      have hrd : r.bytes = r0.bytes := by rw [hr0b, hr]
      rw [← hr0m, hrd]
      have mem1 := operand_mem (o := o) (cpu := cpu) (addr := addr) (pre := pre) (b := b) (row := row)
        (flags row).mode1 hm0
      generalize hD1 : decodeOperand o cpu addr pre b row (flags row).mode1 r0 = D1 at hd mem1 ⊢
      have key := fun h => first_reads (E := E) hsym hp hb hrow h1 ha hr0e
        (by rw [hr0b]; omega) hm0 h
      have len1 := operand_len (o := o) (cpu := cpu) (addr := addr) (pre := pre) (b := b) (row := row)
        (r := r0) (flags row).mode1
      rw [hr0b, hD1] at len1
      obtain ⟨hf, hn⟩ := first_row (o := o) (addr := addr) (r := r0) hp hb hrow h1
      rw [hD1] at key hf hn
      obtain ⟨t1, r1, row1⟩ := D1
      dsimp only at hd mem1 key hf hn len1 ⊢
      by_cases h2 : (flags row1).mode2 = .NONE
      · rw [if_pos h2] at hd ⊢
        dsimp only at hd ⊢
        obtain ⟨row', v1, w1, rfl, _, _, R⟩ := key hd
        have h3 := hf.none.2 h2
        refine ⟨_, ⟨_, R.took.mem⟩, R.took.bytes, ?_⟩
        refine line hf _ _ (head_space R.head) ?_
        have hrd1 := R.reads [] (Or.inl rfl)
        rw [List.append_nil] at hrd1
        unfold encodeImpl
        rw [hf.has, Out.ok_bind, if_pos (by simpa using hn), hrd1, Out.ok_bind]
        dsimp only
        rw [(opd_mode R.small R.shown).2, if_neg (by decide), next_nil, Out.ok_bind]
        dsimp only
        rw [if_neg (by decide), next_nil, Out.ok_bind]
        dsimp only
        rw [if_neg (by decide)]
        have e := encode_insn hf hp256 hb ha (v2 := 0) (v3 := 0) (w2 := 0) (w3 := 0)
          (n2 := 0) (n3 := 0) R.small R.shown
          (by rw [h2]; exact none_shown.1) (by rw [h2]; exact none_shown.2)
          (by rw [h3]; exact none_shown.1) (by rw [h3]; exact none_shown.2)
          (fun _ => by rw [R.took.bytes, hr0b])
          (fun h => absurd h2 h) (fun h => absurd h3 h) []
        rw [h2, h3, opd_none] at e
        exact e.trans (by simp [show bytesOf (select b .NONE) 0 = [] from rfl])
      · rw [if_neg h2] at hd ⊢
        have mem2 := operand_mem (o := o) (cpu := cpu) (addr := addr) (pre := pre) (b := b)
          (row := row1) (flags row1).mode2 mem1
        generalize hD2 : decodeOperand o cpu addr pre b row1 (flags row1).mode2 r1 = D2 at hd mem2 ⊢
        have key2 := fun hl h => later_reads (E := E) hsym (cpu := cpu) (m := (flags row1).mode2)
          (addr := addr) (pre := pre) (b := b) (row := row1) (r := r1)
          ⟨h2, hf.known.2.1, hf.later.1, hf.later.2.1⟩ ha hl mem1 h
        have len2 := operand_len (o := o) (cpu := cpu) (addr := addr) (pre := pre) (b := b)
          (row := row1) (r := r1) (flags row1).mode2
        rw [hD2] at len2
        have same2 : D2.2.2 = row1 := by
          rw [← hD2]
          exact later_row _ hf.later.1
        rw [hD2] at key2
        obtain ⟨t2, r2, row2⟩ := D2
        dsimp only at hd mem2 key2 same2 len2 ⊢
        subst same2
        by_cases h3 : (flags row2).mode3 = .NONE
        · rw [if_pos h3] at hd ⊢
          dsimp only at hd ⊢
          obtain ⟨v1, v2, w1, w2, R, R2⟩ : ∃ v1 v2 w1 w2,
              Reads E (select b (flags row2).mode1) addr b r0 r1 t1 v1 w1 ∧
              Reads E (select b (flags row2).mode2) addr b r1 r2 t2 v2 w2 := by
            obtain ⟨_, v2, w2, R2⟩ := key2 (by omega) hd
            obtain ⟨_, v1, w1, rfl, _, _, R⟩ := key R2.took.err
            exact ⟨v1, v2, w1, w2, R, R2⟩
          have T := R.took.trans R2.took
          refine ⟨_, ⟨_, T.mem⟩, T.bytes, ?_⟩
          have e0 : t1 ++ [',', ' '] ++ t2 = t1 ++ (',' :: ' ' :: t2) := by simp
          rw [e0]
          refine line hf _ _ (head_space (head_append R.head _)) ?_
          have hrd2 := R2.reads [] (Or.inl rfl)
          rw [List.append_nil] at hrd2
          unfold encodeImpl
          rw [hf.has, Out.ok_bind, if_pos (by simpa using hn),
            R.reads _ (Or.inr ⟨_, rfl, R2.head⟩), Out.ok_bind]
          dsimp only
          rw [(opd_mode R.small R.shown).2, if_neg (by decide), next_comma, hrd2, Out.ok_bind]
          dsimp only
          rw [(opd_mode R2.small R2.shown).2, if_neg (by decide), next_nil, Out.ok_bind]
          dsimp only
          rw [if_neg (by decide)]
          have e := encode_insn hf hp256 hb ha (v3 := 0) (w3 := 0)
            (n3 := 0) R.small R.shown R2.small R2.shown
            (by rw [h3]; exact none_shown.1) (by rw [h3]; exact none_shown.2)
            (fun _ => by rw [R.took.bytes, hr0b])
            (fun _ => by rw [T.bytes, hr0b, List.append_assoc]) (fun h => absurd h3 h) []
          rw [h3, opd_none] at e
          exact e.trans (by simp [show bytesOf (select b .NONE) 0 = [] from rfl])
        · rw [if_neg h3] at hd ⊢
          have key3 := fun hl h => later_reads (E := E) hsym (cpu := cpu) (m := (flags row2).mode3)
            (addr := addr) (pre := pre) (b := b) (row := row2) (r := r2)
            ⟨h3, hf.known.2.2, hf.later.2.2.1, hf.later.2.2.2⟩ ha hl mem2 h
          generalize hD3 : decodeOperand o cpu addr pre b row2 (flags row2).mode3 r2 = D3 at hd key3 ⊢
          have same3 : D3.2.2 = row2 := by
            rw [← hD3]
            exact later_row _ hf.later.2.2.1
          obtain ⟨t3, r3, row3⟩ := D3
          dsimp only at hd key3 same3 ⊢
          subst same3
          obtain ⟨v1, v2, v3, w1, w2, w3, R, R2, R3⟩ : ∃ v1 v2 v3 w1 w2 w3,
              Reads E (select b (flags row3).mode1) addr b r0 r1 t1 v1 w1 ∧
              Reads E (select b (flags row3).mode2) addr b r1 r2 t2 v2 w2 ∧
              Reads E (select b (flags row3).mode3) addr b r2 r3 t3 v3 w3 := by
            obtain ⟨_, v3, w3, R3⟩ := key3 (by omega) hd
            obtain ⟨_, v2, w2, R2⟩ := key2 (by omega) R3.took.err
            obtain ⟨_, v1, w1, rfl, _, _, R⟩ := key R2.took.err
            exact ⟨v1, v2, v3, w1, w2, w3, R, R2, R3⟩
          have T := R.took.trans R2.took
          have T3 := T.trans R3.took
          refine ⟨_, ⟨_, T3.mem⟩, T3.bytes, ?_⟩
          have e0 : t1 ++ [',', ' '] ++ t2 ++ [',', ' '] ++ t3 =
            t1 ++ (',' :: ' ' :: (t2 ++ (',' :: ' ' :: t3))) := by simp
          rw [e0]
          refine line hf _ _ (head_space (head_append R.head _)) ?_
          have hrd3 := R3.reads [] (Or.inl rfl)
          rw [List.append_nil] at hrd3
          unfold encodeImpl
          rw [hf.has, Out.ok_bind, if_pos (by simpa using hn),
            R.reads _ (Or.inr ⟨_, rfl, head_append R2.head _⟩), Out.ok_bind]
          dsimp only
          rw [(opd_mode R.small R.shown).2, if_neg (by decide), next_comma,
            R2.reads _ (Or.inr ⟨_, rfl, R3.head⟩), Out.ok_bind]
          dsimp only
          rw [(opd_mode R2.small R2.shown).2, if_neg (by decide), next_comma, hrd3, Out.ok_bind]
          dsimp only
          rw [(opd_mode R3.small R3.shown).2, if_neg (by decide)]
          have e := encode_insn hf hp256 hb ha R.small R.shown R2.small R2.shown R3.small R3.shown
            (fun _ => by rw [R.took.bytes, hr0b])
            (fun _ => by rw [T.bytes, hr0b, List.append_assoc])
            (fun _ => by rw [T3.bytes, hr0b]; simp only [List.append_assoc]) []
          exact e.trans (by simp)

theorem prefix_code {cpu : CpuType} {b : Nat} (h : isPrefix cpu b = true) :
    b ∈ prefixes ∧ b ≠ 0 := by
  have h1 : ∀ cpu, ∀ p ∈ pages cpu, p.prefix_ ∈ prefixes := by
    intro cpu
    cases cpu <;> (intro p hp; revert p; decide +kernel)
  unfold isPrefix at h
  simp only [List.any_eq_true, Bool.and_eq_true, bne_iff_ne, beq_iff_eq] at h
  obtain ⟨p, hp, h2, h3⟩ := h
  exact ⟨h3 ▸ h1 cpu p hp, h3 ▸ h2⟩

/-- There is no code 0, which is what is read where there is no memory. -/
theorem no_memory (o : Opts) (cpu : CpuType) (addr : Nat) :
    (decodeImpl o cpu addr []).err ≠ .OK := by
  have h1 : ∀ cpu, isPrefix cpu 0 = false ∧ searchOpCode cpu 0 0 = none := by
    intro cpu
    cases cpu <;> decide +kernel
  unfold decodeImpl
  rw [show (⟨[], [], .OK⟩ : Rd).byte = (0, ⟨[], [], .NO_MEMORY⟩) from rfl]
  dsimp only
  rw [if_neg (by rw [(h1 cpu).1]; decide)]
  unfold decodeInsn
  rw [(h1 cpu).2]
  exact (by decide : Err.UNKNOWN_INSTRUCTION ≠ .OK)

/-- What the disassembler prints of any bytes it takes without error, for any of the processors,
assembles at the same address to the same bytes without error, and nothing of the line is left; the
bytes are the first of those given. With the option `relative` the location symbol must be the `*`
the assembler knows. -/
theorem C60 (o : Opts) (E : Env) (cpu : CpuType) (addr : Nat) (mem : List Nat) (sep : List Char)
    (ha : addr < 2 ^ 16) (hbytes : ∀ b ∈ mem, b < 256)
    (hsep : sep ≠ [] ∧ ∀ c ∈ sep, Ctype.isSpace c = true)
    (hsym : o.relative = true → o.curSym = '*')
    (hd : (disassemble o cpu addr mem).err = .OK) :
    assemble E cpu addr ((disassemble o cpu addr mem).name ++ sep ++
        (disassemble o cpu addr mem).operands) =
      .ok (.insn ⟨.OK, (disassemble o cpu addr mem).bytes, []⟩) ∧
    (disassemble o cpu addr mem).bytes ≠ [] ∧
    (disassemble o cpu addr mem).bytes <+: mem := by
  have hdis : disassemble o cpu addr mem = decodeImpl o cpu addr mem := by
    unfold disassemble decode
    rw [address_ok (by decide) ha]
    rfl
  rw [hdis] at hd ⊢
  cases mem with
  | nil => exact absurd hd (no_memory o cpu addr)
  | cons b rest =>
  have hb : b < 256 := hbytes b (List.mem_cons_self ..)
  have hrest : ∀ x ∈ rest, x < 256 := fun x hx => hbytes x (List.mem_cons_of_mem _ hx)
  have hbyte : (⟨b :: rest, [], .OK⟩ : Rd).byte = (b, ⟨rest, [b], .OK⟩) := by
    unfold Rd.byte
    dsimp only
    rw [Nat.mod_eq_of_lt hb]
    rfl
  unfold decodeImpl at hd ⊢
  rw [hbyte] at hd ⊢
  dsimp only at hd ⊢
  by_cases hx : isPrefix cpu b = true
  · rw [if_pos hx] at hd ⊢
    obtain ⟨hpre, hne⟩ := prefix_code hx
    by_cases he : (⟨rest, [b], .OK⟩ : Rd).byte.2.err = .OK
    · rw [if_neg (not_not_intro he)] at hd ⊢
      obtain ⟨h1, t⟩ := byte_took (r := ⟨rest, [b], .OK⟩) hrest he
      have hm2 := byte_mem (r := ⟨rest, [b], .OK⟩) hrest
      have hcode : (⟨rest, [b], .OK⟩ : Rd).byte.2.bytes = code b (⟨rest, [b], .OK⟩ : Rd).byte.1 := by
        rw [t.bytes]
        unfold code
        rw [if_pos hne]
      obtain ⟨bs, ⟨s, g1⟩, g2, g3⟩ := insn_back (E := E) hsym ha hpre h1 hcode hm2 hsep hd
      generalize (⟨rest, [b], .OK⟩ : Rd).byte = p at *
      have e1 : (decodeInsn o cpu addr b p.1 p.2).bytes = b :: p.1 :: bs := by
        rw [g2, t.bytes]
        rfl
      have e2 := t.mem
      rw [e1]
      refine ⟨?_, List.cons_ne_nil _ _, s, ?_⟩
      · rw [g3]
        unfold code
        rw [if_pos hne]
        rfl
      · show b :: p.1 :: (bs ++ s) = b :: rest
        rw [← g1]
        exact congrArg (b :: ·) e2.symm
    · rw [if_pos he] at hd
      exact absurd hd he
  · rw [if_neg hx] at hd ⊢
    obtain ⟨bs, ⟨s, g1⟩, g2, g3⟩ := insn_back (E := E) hsym ha (pre := 0) (by decide) hb
      (r := ⟨rest, [b], .OK⟩) rfl hrest hsep hd
    have e1 : (decodeInsn o cpu addr 0 b ⟨rest, [b], .OK⟩).bytes = b :: bs := g2
    rw [e1]
    refine ⟨?_, List.cons_ne_nil _ _, s, ?_⟩
    · rw [g3]
      rfl
    · show b :: (bs ++ s) = b :: rest
      rw [← g1]

/-- The hypotheses of `C60` hold of an instruction with three operands at the end of the memory with a
target behind it, of a bit number, of a prefixed instruction, of a relative target. -/
example :
    (disassemble (.default '*') .MC68HC11 0xfff0 [0x1e, 0x12, 0x34, 0xf0]).err = .OK ∧
    (disassemble (.default '*') .MC68HC11 0xfff0 [0x1e, 0x12, 0x34, 0xf0]).operands =
      "18,X, #$34, $FFE4".toList ∧
    (disassemble (.default '*') .HD6301 0 [0x71, 0xfd, 0x12]).name = "BCLR".toList ∧
    (disassemble (.default '*') .HD6301 0 [0x71, 0xfd, 0x12]).operands = "1, $12".toList ∧
    (disassemble (.default '*') .HD6301 0 [0x71, 0xfc, 0x12]).name = "AIM".toList ∧
    (disassemble (.default '*') .MC68HC11 0 [0xcd, 0xa3, 0x05]).err = .OK ∧
    (disassemble (.default '*') .MC68HC11 0 [0xcd, 0xa3, 0x05]).operands = "5,Y".toList ∧
    (disassemble (.default '*') .MC6800 0 [0xb6, 0x00, 0x12]).operands = ">$0012".toList ∧
    (disassemble ⟨true, false, false, true, false, false, '*'⟩ .MC6800 0x1000 [0x20, 0x90]).err = .OK ∧
    (disassemble ⟨true, false, false, true, false, false, '*'⟩ .MC6800 0x1000 [0x20, 0x90]).operands =
      "*-110".toList := by
  decide +kernel

end Libasm.Cpu.Mc6800
