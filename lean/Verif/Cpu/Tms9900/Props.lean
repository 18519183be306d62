import Verif.Cpu.Tms9900.Encode
/-
C76: what the TMS9900 disassembler prints assembles to the bytes it read.
-/
namespace Libasm.Cpu.Tms9900
open Scan Number Number.Spec Eval
open Tables (Row)
open Tms7000 (Readable)

theorem syntaxOk : SyntaxOk syntaxOf := by
  constructor
  · intro c hc
    exact Ctype.ascii (p := fun c => Ctype.isSpace c = true → syntaxOf.instructionLetter c = false)
      (by decide +kernel) c (space_ascii hc) hc
  · intro c s hc
    exact Ctype.ascii (p := fun c => Ctype.isAlpha c = true → (c == '*' || c == ';') = false)
      (by decide +kernel) c (alpha_ascii hc) hc

theorem impl_skip (P : Plugins Value) (cpu : CpuType) (addr : Nat) (name : List Char) (s : Scan) :
    encodeImpl P cpu addr name (skipSpaces s) = encodeImpl P cpu addr name s := by
  unfold encodeImpl
  rw [operands_skip (parse_skip P), skip_skip]

/-! ### The rows of the table -/

/-- All modes of operands and of the table. -/
def allModes : List Mode :=
  [.NONE, .IMM, .REG, .SCNT, .SRC, .CNT, .XOP, .DREG, .DST, .REL, .CRU, .RTWP, .SRC2, .DST0, .DST4, .BIT0, .CNT4,
    .IREG, .INCR, .SYBL, .INDX, .UNDEF]

theorem mem_allModes (m : Mode) : m ∈ allModes := by cases m <;> decide

/-- The shapes of the operands in the table. -/
def shapes : List (Mode × Mode) :=
  [(.NONE, .NONE), (.REG, .NONE), (.REG, .IMM), (.IMM, .NONE), (.SRC, .NONE), (.REG, .SCNT), (.REL, .NONE),
    (.CRU, .NONE), (.SRC, .DREG), (.SRC, .XOP), (.SRC, .CNT), (.SRC, .DST), (.SRC2, .CNT4), (.SRC2, .DST4),
    (.SRC2, .BIT0), (.SRC2, .DST0), (.RTWP, .NONE)]

/-- The rows of the table for a processor. -/
def rows (cpu : CpuType) : List Row := (pages cpu).flatMap (·.entries)

/-- The row is found by its name and operands. -/
def rowIs (r : Row) : Out (Except Err Row) → Bool
  | .ok (.ok s) => s == r
  | _ => false

theorem rowIs_eq {r : Row} {x : Out (Except Err Row)} (h : rowIs r x = true) : x = .ok (.ok r) := by
  unfold rowIs at h
  split at h
  · rw [eq_of_beq h]
  · cases h

/-- The rows that are found for `RTWP` with and without an operand. -/
def rtwp : Row := ⟨0x0380, "RTWP".toList, ["E1", "M_RTWP"]⟩
/-- The row of `RTWP` without an operand. -/
def rtwp0 : Row := ⟨0x0380, "RTWP".toList, ["E0"]⟩

/-- Whether there is an operand to be read. -/
def hasIs (b : Bool) : Out Bool → Bool
  | .ok c => c == b
  | _ => false

theorem hasIs_eq {b : Bool} {x : Out Bool} (h : hasIs b x = true) : x = .ok b := by
  unfold hasIs at h
  split at h
  · rw [eq_of_beq h]
  · cases h

/-- What the proofs need of a row. -/
def rowOk (cpu : CpuType) (up : Bool) (r : Row) : Bool :=
  shapes.contains ((flags r).src, (flags r).dst) && nameB syntaxOf (r.name.map (letter up)) &&
  (if (flags r).src = .NONE then
    (hasIs true (hasOperand cpu (r.name.map (letter up))) || hasIs false (hasOperand cpu (r.name.map (letter up)))) &&
    rowIs r (searchName cpu (r.name.map (letter up)) .NONE .NONE)
  else if (flags r).src = .RTWP then
    hasIs true (hasOperand cpu (r.name.map (letter up))) &&
    rowIs rtwp0 (searchName cpu (r.name.map (letter up)) .NONE .NONE) &&
    flags r == flags rtwp && (r.opcode == 0x380 || r.opcode == 0x381 || r.opcode == 0x382 || r.opcode == 0x384) &&
    (allModes.filter (acceptMode · .RTWP)).all fun a =>
      rowIs rtwp (searchName cpu (r.name.map (letter up)) a .NONE)
  else
    hasIs true (hasOperand cpu (r.name.map (letter up))) &&
    (allModes.filter (acceptMode · (flags r).src)).all fun a =>
      (allModes.filter (acceptMode · (flags r).dst)).all fun b =>
        rowIs r (searchName cpu (r.name.map (letter up)) a b))

/-- All processors. -/
def allCpus : List CpuType := [.TMS9900, .TMS9980, .TMS9995, .TMS99105, .TMS99110]

theorem mem_allCpus (cpu : CpuType) : cpu ∈ allCpus := by cases cpu <;> decide

theorem rows_all : (allCpus.all fun cpu => [true, false].all fun up => (rows cpu).all (rowOk cpu up)) = true := by
  decide +kernel

theorem rows_ok (cpu : CpuType) (up : Bool) {r : Row} (h : r ∈ rows cpu) : rowOk cpu up r = true := by
  have h1 := List.all_eq_true.1 rows_all cpu (mem_allCpus cpu)
  have h2 := List.all_eq_true.1 h1 up (by cases up <;> decide)
  exact List.all_eq_true.1 h2 r h

theorem found {cpu : CpuType} {opc : Nat} {r : Row} (h : searchOpCode cpu opc = some r) :
    r ∈ rows cpu ∧ mask (flags r) opc = r.opcode := by
  unfold searchOpCode at h
  rw [Table.Props.C24_searchOpCode] at h
  split at h
  · rename_i p r' hf
    injection h with h
    subst h
    have h1 := List.find?_some hf
    have h2 := List.mem_of_find?_eq_some hf
    refine ⟨?_, eq_of_beq h1⟩
    simp only [List.mem_flatMap, List.mem_map, Prod.mk.injEq] at h2
    obtain ⟨q, hq, x, hx, hq', rfl⟩ := h2
    exact List.mem_flatMap.2 ⟨q, (List.mem_filter.1 hq).1, hx⟩
  · cases h

/-! ### The bits of the code -/

theorem code_bits {f : Flags} {opc : Nat} (h : (f.src, f.dst) ∈ shapes) (hopc : opc < 65536)
    (hr : f.src ≠ .RTWP) : mask f opc ||| opcBits f.src opc ||| opcBits f.dst opc = opc := by
  obtain ⟨src, dst, b⟩ := f
  have one : ∀ k x y : Nat, x % 2 ^ k = 0 → y < 2 ^ k → x + y = opc → x ||| y ||| 0 = opc := by
    intro k x y h1 h2 h3
    rw [Nat.or_zero, or_bits h1 h2, h3]
  have two : ∀ j k x s d : Nat, x % 2 ^ k = 0 → d % 2 ^ j = 0 → s < 2 ^ j → d + s < 2 ^ k → x + (d + s) = opc →
      x ||| s ||| d = opc := by
    intro j k x s d h1 h2 h3 h4 h5
    rw [Nat.or_assoc, Nat.or_comm s, or_bits h2 h3, or_bits h1 h4, h5]
  simp only [shapes, List.mem_cons, List.not_mem_nil, or_false, Prod.mk.injEq] at h
  rcases h with ⟨rfl, rfl⟩ | ⟨rfl, rfl⟩ | ⟨rfl, rfl⟩ | ⟨rfl, rfl⟩ | ⟨rfl, rfl⟩ | ⟨rfl, rfl⟩ | ⟨rfl, rfl⟩ |
    ⟨rfl, rfl⟩ | ⟨rfl, rfl⟩ | ⟨rfl, rfl⟩ | ⟨rfl, rfl⟩ | ⟨rfl, rfl⟩ | ⟨rfl, rfl⟩ | ⟨rfl, rfl⟩ | ⟨rfl, rfl⟩ |
    ⟨rfl, rfl⟩ | ⟨rfl, rfl⟩
  · show opc ||| 0 ||| 0 = opc
    rw [Nat.or_zero, Nat.or_zero]
  · exact one 4 (opc / 16 * 16) (opc % 16) (by omega) (by omega) (by omega)
  · exact one 4 (opc / 16 * 16) (opc % 16) (by omega) (by omega) (by omega)
  · show opc ||| 0 ||| 0 = opc
    rw [Nat.or_zero, Nat.or_zero]
  · exact one 6 (opc / 64 * 64) (opc % 64) (by omega) (by omega) (by omega)
  · exact two 4 8 (opc / 16 * 16 - opc / 16 * 16 / 16 % 16 * 16) (opc % 16) (opc / 16 % 16 * 16)
      (by omega) (by omega) (by omega) (by omega) (by omega)
  · exact one 8 (opc / 256 * 256) (opc % 256) (by omega) (by omega) (by omega)
  · exact one 8 (opc / 256 * 256) (opc % 256) (by omega) (by omega) (by omega)
  · exact two 6 10 (opc / 64 * 64 - opc / 64 * 64 / 64 % 16 * 64) (opc % 64) (opc / 64 % 16 * 64)
      (by omega) (by omega) (by omega) (by omega) (by omega)
  · exact two 6 10 (opc / 64 * 64 - opc / 64 * 64 / 64 % 16 * 64) (opc % 64) (opc / 64 % 16 * 64)
      (by omega) (by omega) (by omega) (by omega) (by omega)
  · exact two 6 10 (opc / 64 * 64 - opc / 64 * 64 / 64 % 16 * 64) (opc % 64) (opc / 64 % 16 * 64)
      (by omega) (by omega) (by omega) (by omega) (by omega)
  · exact two 6 12 (opc / 64 * 64 - opc / 64 * 64 / 64 % 64 * 64) (opc % 64) (opc / 64 % 64 * 64)
      (by omega) (by omega) (by omega) (by omega) (by omega)
  · show opc ||| 0 ||| 0 = opc
    rw [Nat.or_zero, Nat.or_zero]
  · show opc ||| 0 ||| 0 = opc
    rw [Nat.or_zero, Nat.or_zero]
  · show opc ||| 0 ||| 0 = opc
    rw [Nat.or_zero, Nat.or_zero]
  · show opc ||| 0 ||| 0 = opc
    rw [Nat.or_zero, Nat.or_zero]
  · exact absurd rfl hr

/-- The second word of an instruction, or nothing. -/
def PostOk (f : Flags) (post : Nat) : Prop :=
  f.src = .SRC2 ∧ post < 65536 ∧ checkPost f.dst post = .OK ∨ f.src ≠ .SRC2 ∧ post = 0

theorem post_bits {f : Flags} {post : Nat} (h : (f.src, f.dst) ∈ shapes) (hp : PostOk f post) :
    postBits f.src post ||| postBits f.dst post = post := by
  obtain ⟨src, dst, b⟩ := f
  rcases hp with ⟨hs, hlt, hc⟩ | ⟨hs, rfl⟩
  · have hs : src = .SRC2 := hs
    subst hs
    have hc : checkPost dst post = .OK := hc
    simp only [shapes, List.mem_cons, List.not_mem_nil, or_false, Prod.mk.injEq, reduceCtorEq, false_and, true_and,
      false_or] at h
    have low : ∀ d : Nat, d % 2 ^ 6 = 0 → d + post % 64 = post → post % 64 ||| d = post := by
      intro d h1 h2
      rw [Nat.or_comm, or_bits h1 (show post % 64 < 2 ^ 6 by omega), h2]
    rcases h with rfl | rfl | rfl | rfl
    · unfold checkPost at hc
      by_cases he : post / 1024 = 16
      · show post % 64 ||| (0x4000 ||| post / 64 % 16 * 64) = post
        rw [or_bits (k := 10) (x := 0x4000) (by decide) (by omega)]
        exact low _ (by omega) (by omega)
      · dsimp only at hc
        rw [if_pos he] at hc
        cases hc
    · unfold checkPost at hc
      by_cases he : post / 4096 = 4
      · show post % 64 ||| (0x4000 ||| post / 64 % 64 * 64) = post
        rw [or_bits (k := 12) (x := 0x4000) (by decide) (by omega)]
        exact low _ (by omega) (by omega)
      · dsimp only at hc
        rw [if_pos he] at hc
        cases hc
    · unfold checkPost at hc
      by_cases he : post / 1024 = 0
      · exact low (post / 64 % 16 * 64) (by omega) (by omega)
      · dsimp only at hc
        rw [if_pos (Or.inl he)] at hc
        cases hc
    · unfold checkPost at hc
      by_cases he : post / 4096 = 0
      · exact low (post / 64 % 64 * 64) (by omega) (by omega)
      · dsimp only at hc
        rw [if_pos he] at hc
        cases hc
  · have : ∀ p ∈ shapes, p.1 ≠ .SRC2 → postBits p.1 0 ||| postBits p.2 0 = 0 := by decide
    exact this _ h hs

/-! ### From the text to the bytes -/

section
variable {E : Env} {addr : Nat}

/-- The bytes of an instruction. -/
def wordBytes (f : Flags) (opc post : Nat) (bs : List Nat) : List Nat :=
  opc / 256 :: opc % 256 :: (if f.src = .SRC2 then post / 256 :: post % 256 :: bs else bs)

theorem bytes_words {f : Flags} {opc post : Nat} {bs : List Nat} (h : opc < 65536) (hp : post < 65536) :
    bytes f ⟨.OK, opc, post, bs⟩ = wordBytes f opc post bs := by
  unfold bytes wordBytes
  dsimp only
  rw [Nat.mod_eq_of_lt (show opc / 256 < 256 by omega), Nat.mod_eq_of_lt (show post / 256 < 256 by omega)]

/-- The operands that are read, whether there are any or not. -/
theorem impl_ops {P : Plugins Value} {cpu : CpuType} {name : List Char} {s : Scan} {ops : List Operand} {row : Row}
    {f : Flags} {a1 : Asm} {opc post : Nat} {bs : List Nat}
    (h1 : hasOperand cpu name = .ok true ∧ operandList (parseOperand P) 2 s = .ok (.ok (ops, [])) ∨
      hasOperand cpu name = .ok false ∧ s = [] ∧ ops = [])
    (h2 : searchName cpu name (ops.getD 0 {}).mode (ops.getD 1 {}).mode = .ok (.ok row))
    (hf : flags row = f)
    (h3 : encodeOperand cpu addr f f.src (ops.getD 0 {}) ⟨.OK, row.opcode, 0, []⟩ = .ok a1)
    (h4 : encodeOperand cpu addr f f.dst (ops.getD 1 {}) a1 = .ok ⟨.OK, opc, post, bs⟩)
    (ho : opc < 65536) (hp : post < 65536) :
    encodeImpl P cpu addr name s = .ok ⟨.OK, wordBytes f opc post bs, []⟩ := by
  subst hf
  have key : (hasOperand cpu name).bind (fun has =>
      if has then operandList (parseOperand P) 2 s else .ok (.ok ([], skipSpaces s))) = .ok (.ok (ops, [])) := by
    rcases h1 with ⟨h, h'⟩ | ⟨h, rfl, rfl⟩
    · rw [h, Out.ok_bind, if_pos rfl, h']
    · rw [h]
      rfl
  unfold encodeImpl
  rcases h1 with ⟨h, h'⟩ | ⟨h, rfl, rfl⟩
  · rw [h, Out.ok_bind, if_pos rfl, h', Out.ok_bind]
    dsimp only
    rw [h2, Out.ok_bind]
    dsimp only
    rw [h3, Out.ok_bind, h4, Out.ok_bind, bytes_words ho hp]
  · rw [h, Out.ok_bind, if_neg Bool.false_ne_true, Out.ok_bind]
    dsimp only
    rw [h2, Out.ok_bind]
    dsimp only
    rw [h3, Out.ok_bind, h4, Out.ok_bind, bytes_words ho hp]
    rfl

theorem encode_none (cpu : CpuType) (f : Flags) (a : Asm) : encodeOperand cpu addr f .NONE {} a = .ok a := by
  show Out.ok (a.setErrorIf .OK) = .ok a
  rw [Asm.noError]

theorem dst_modes : ∀ p ∈ shapes, p.1 ≠ .NONE → ((p.1 ≠ .NONE ∧ p.1 ≠ .IREG ∧ p.1 ≠ .INCR ∧ p.1 ≠ .SYBL ∧ p.1 ≠ .INDX ∧
    p.1 ≠ .UNDEF) ∧ (p.2 ≠ .NONE → (p.2 ≠ .NONE ∧ p.2 ≠ .IREG ∧ p.2 ≠ .INCR ∧ p.2 ≠ .SYBL ∧ p.2 ≠ .INDX ∧ p.2 ≠ .UNDEF) ∧
      p.2 ≠ .SRC2 ∧ p.2 ≠ .RTWP) ∧ (p.1 = .RTWP → p.2 = .NONE)) ∧ (p.2 = .BIT0 → p.1 = .SRC2) := by decide

theorem be16_mem (r : Rd) {b : Nat} (h : b ∈ r.be16.2.mem) : b ∈ r.mem := by
  obtain ⟨mem, bs, e⟩ := r
  match mem, h with
  | [], h => exact h
  | [x], h => exact absurd h (List.not_mem_nil)
  | x :: y :: t, h => exact List.mem_cons_of_mem _ (List.mem_cons_of_mem _ h)

theorem modeReg_mem {o : Opts} {cpu : CpuType} {byteOp : Bool} {v : Nat} {r : Rd} {b : Nat}
    (h : b ∈ (decodeModeReg o cpu byteOp v r).2.mem) : b ∈ r.mem := by
  unfold decodeModeReg at h
  dsimp only at h
  split at h
  · exact h
  · exact h
  · dsimp only at h
    split at h
    · exact be16_mem r h
    · exact be16_mem r h
  · exact h

/-- Decoding an operand only takes from the memory. -/
theorem decode_mem {o : Opts} {cpu : CpuType} {opc post : Nat} {byteOp : Bool} (m : Mode) (r : Rd) {b : Nat}
    (h : b ∈ (decodeOperand o cpu addr opc post byteOp m r).2.mem) : b ∈ r.mem := by
  cases m
  case IMM => exact be16_mem r h
  case SRC => exact modeReg_mem h
  case SRC2 => exact modeReg_mem h
  case DST => exact modeReg_mem h
  case DST0 => exact modeReg_mem h
  case DST4 => exact modeReg_mem h
  all_goals exact h

theorem impl_back {o : Opts} (ho : Readable o) (hsym : o.relative = true → o.curSym = '$') {cpu : CpuType}
    {opc post : Nat} {row : Row} {r0 : Rd} (ha : addr < 2 ^ width cpu) (heven : addr % 2 = 0)
    (hmem : ∀ b ∈ r0.mem, b < 256) (hr0 : r0.err = .OK) (hrow : rowOk cpu o.upper row = true) (hopc : opc < 65536)
    (hcode : mask (flags row) opc = row.opcode) (hpost : PostOk (flags row) post)
    (he : (decodeOperands o cpu addr opc post (flags row) r0).2.err = .OK) :
    ∃ bs, Took r0 (decodeOperands o cpu addr opc post (flags row) r0).2 bs ∧
      encodeImpl (plug E addr) cpu addr (row.name.map (letter o.upper))
        (decodeOperands o cpu addr opc post (flags row) r0).1 =
        .ok ⟨.OK, wordBytes (flags row) opc post bs, []⟩ := by
  have hlt : post < 65536 := by
    rcases hpost with ⟨_, h, _⟩ | ⟨_, rfl⟩
    · exact h
    · decide
  unfold rowOk at hrow
  rw [Bool.and_eq_true, Bool.and_eq_true] at hrow
  obtain ⟨⟨hs, _⟩, hrow⟩ := hrow
  have hs : ((flags row).src, (flags row).dst) ∈ shapes := by simpa using hs
  have hpb := post_bits hs hpost
  by_cases hn : (flags row).src = .NONE
  · -- no operands
    rw [if_pos hn, Bool.and_eq_true, Bool.or_eq_true] at hrow
    obtain ⟨h1, h2⟩ := hrow
    have hd : (flags row).dst = .NONE := by
      have : ∀ p ∈ shapes, p.1 = .NONE → p.2 = .NONE := by decide
      exact this _ hs hn
    have hcb := code_bits hs hopc (by rw [hn]; decide)
    have e : decodeOperands o cpu addr opc post (flags row) r0 = ([], r0) := by
      unfold decodeOperands
      rw [hn, hd]
      rfl
    rw [e]
    refine ⟨[], Took.refl hr0, ?_⟩
    rw [hn, hd] at hcb hpb
    have hp0 : post = 0 := by
      rcases hpost with ⟨h, _⟩ | ⟨_, h⟩
      · rw [hn] at h; cases h
      · exact h
    subst hp0
    have hcb : mask (flags row) opc ||| 0 ||| 0 = opc := hcb
    rw [Nat.or_zero, Nat.or_zero, hcode] at hcb
    rcases h1 with h1 | h1
    · refine impl_ops (ops := [{}]) (row := row) (Or.inl ⟨hasIs_eq h1, list_nil⟩) (rowIs_eq h2) rfl
        (a1 := ⟨.OK, row.opcode, 0, []⟩) ?_ ?_ hopc (by decide)
      · rw [hn]; exact encode_none cpu _ _
      · rw [hd, ← hcb]; exact encode_none cpu _ _
    · refine impl_ops (ops := []) (row := row) (Or.inr ⟨hasIs_eq h1, rfl, rfl⟩) (rowIs_eq h2) rfl
        (a1 := ⟨.OK, row.opcode, 0, []⟩) ?_ ?_ hopc (by decide)
      · rw [hn]; exact encode_none cpu _ _
      · rw [hd, ← hcb]; exact encode_none cpu _ _
  · rw [if_neg hn] at hrow
    obtain ⟨⟨m1, m2, m3⟩, m4⟩ := dst_modes _ hs hn
    dsimp only at m1 m2 m3 m4
    by_cases ht : (flags row).src = .RTWP
    · rw [if_pos ht] at hrow
      simp only [Bool.and_eq_true, Bool.or_eq_true, beq_iff_eq, List.all_eq_true, List.mem_filter] at hrow
      obtain ⟨⟨⟨⟨h1, h2⟩, hf⟩, h3⟩, h4⟩ := hrow
      have hd := m3 ht
      have hp0 : post = 0 := by
        rcases hpost with ⟨h, _⟩ | ⟨_, h⟩
        · rw [ht] at h; cases h
        · exact h
      subst hp0
      have hf' : flags rtwp = ⟨.RTWP, .NONE, false⟩ := by decide
      have hcode : opc = row.opcode := by
        rw [hf, hf'] at hcode
        exact hcode
      have hw : ∀ bs, wordBytes (flags row) opc 0 bs = wordBytes ⟨.NONE, .NONE, false⟩ opc 0 bs := by
        intro bs
        rw [hf, hf']
        rfl
      rw [hf, hf'] at he ⊢
      have e : decodeOperands o cpu addr opc 0 ⟨.RTWP, .NONE, false⟩ r0 =
          decodeOperand o cpu addr opc 0 (Flags.byteOp ⟨.RTWP, .NONE, false⟩) .RTWP r0 := rfl
      by_cases hz : opc = 0x380
      · subst hz
        rw [e, show decodeOperand o cpu addr 0x380 0 (Flags.byteOp ⟨.RTWP, .NONE, false⟩) .RTWP r0 = ([], r0) from rfl]
        refine ⟨[], Took.refl hr0, ?_⟩
        exact impl_ops (ops := [{}]) (row := rtwp0) (f := ⟨.NONE, .NONE, false⟩) (Or.inl ⟨hasIs_eq h1, list_nil⟩)
          (rowIs_eq h2) (by decide) (a1 := ⟨.OK, 0x380, 0, []⟩) (encode_none cpu _ _) (encode_none cpu _ _) hopc
          (by decide)
      · rw [e] at he ⊢
        obtain ⟨op, bs, k1, k2, k3, k4⟩ := operand_back (E := E) (f := ⟨.RTWP, .NONE, false⟩) (m := .RTWP) ho hsym ha
          heven hmem (fun h => nomatch h) (by decide) (fun _ => by omega) he
        refine ⟨bs, k4, impl_ops (ops := [op]) (row := rtwp) (Or.inl ⟨hasIs_eq h1, list_one k1⟩)
          (rowIs_eq (h4 _ ⟨mem_allModes _, k2⟩)) hf' (k3 _ rfl) ?_ hopc (by decide)⟩
        have : 0x380 ||| opc % 8 = opc := by
          rw [or_bits (k := 3) (by decide) (by omega)]
          omega
        show encodeOperand cpu addr _ .NONE {} ⟨.OK, 0x380 ||| opc % 8, 0, [] ++ bs⟩ = _
        rw [this]
        exact encode_none cpu _ _
    · rw [if_neg ht, Bool.and_eq_true] at hrow
      obtain ⟨h1, h2⟩ := hrow
      have h2 : ∀ a, acceptMode a (flags row).src = true → ∀ b, acceptMode b (flags row).dst = true →
          rowIs row (searchName cpu (row.name.map (letter o.upper)) a b) = true := by
        intro a ha b hb
        have h3 := List.all_eq_true.1 h2 a (List.mem_filter.2 ⟨mem_allModes a, ha⟩)
        exact List.all_eq_true.1 h3 b (List.mem_filter.2 ⟨mem_allModes b, hb⟩)
      have hcb := code_bits hs hopc ht
      rw [hcode] at hcb
      have hbit : (flags row).src = .SRC2 → (flags row).dst = .BIT0 → post / 16 % 4 ≠ 3 := by
        intro k1 k2 k3
        rcases hpost with ⟨_, _, h⟩ | ⟨h, _⟩
        · rw [k2] at h
          unfold checkPost at h
          dsimp only at h
          rw [if_pos (Or.inr k3)] at h
          cases h
        · exact h k1
      by_cases hd : (flags row).dst = .NONE
      · have e : decodeOperands o cpu addr opc post (flags row) r0 =
            decodeOperand o cpu addr opc post (flags row).byteOp (flags row).src r0 := by
          unfold decodeOperands
          dsimp only
          rw [if_pos hd]
        rw [e] at he ⊢
        obtain ⟨op, bs, k1, k2, k3, k4⟩ := operand_back (E := E) ho hsym ha heven hmem hbit m1 (fun h => absurd h ht) he
        refine ⟨bs, k4, impl_ops (ops := [op]) (row := row) (Or.inl ⟨hasIs_eq h1, list_one k1⟩)
          (rowIs_eq (h2 _ k2 _ (by rw [hd]; rfl))) rfl (k3 _ rfl) ?_ hopc hlt⟩
        rw [hd] at hcb hpb
        have hcb : row.opcode ||| opcBits (flags row).src opc ||| 0 = opc := hcb
        have hpb : postBits (flags row).src post ||| 0 = post := hpb
        rw [Nat.or_zero] at hcb hpb
        rw [hd, hcb, hpb, Nat.zero_or]
        exact encode_none cpu _ _
      · obtain ⟨m2, m2s, m2r⟩ := m2 hd
        have e : decodeOperands o cpu addr opc post (flags row) r0 =
            ((decodeOperand o cpu addr opc post (flags row).byteOp (flags row).src r0).1 ++ comma ++
              (decodeOperand o cpu addr opc post (flags row).byteOp (flags row).dst
                (decodeOperand o cpu addr opc post (flags row).byteOp (flags row).src r0).2).1,
             (decodeOperand o cpu addr opc post (flags row).byteOp (flags row).dst
                (decodeOperand o cpu addr opc post (flags row).byteOp (flags row).src r0).2).2) := by
          unfold decodeOperands
          dsimp only
          rw [if_neg hd]
        rw [e] at he ⊢
        dsimp only at he ⊢
        obtain ⟨op', bs', k1', k2', k3', k4'⟩ := operand_back (E := E) (f := flags row) ho hsym ha heven
          (fun b hb => hmem b (decode_mem _ _ hb)) (fun h => absurd h m2s) m2 (fun h => absurd h m2r) he
        obtain ⟨op, bs, k1, k2, k3, k4⟩ := operand_back (E := E) (f := flags row) ho hsym ha heven hmem hbit m1
          (fun h => absurd h ht) k4'.err
        refine ⟨bs ++ bs', k4.trans k4', impl_ops (ops := [op, op']) (row := row)
          (Or.inl ⟨hasIs_eq h1, list_two k1 k1'⟩) (rowIs_eq (h2 _ k2 _ k2')) rfl (k3 _ rfl) ?_ hopc hlt⟩
        refine (k3' _ rfl).trans ?_
        dsimp only
        rw [hcb, Nat.zero_or, hpb, List.nil_append]

end

/-- What the disassembler prints of any bytes it takes without error assembles at the same address to
the same bytes without error, and nothing of the line is left; the bytes are the first of those given.
Missing are three cases in which it does not hold (`C76_violated_short`, `C76_violated_octal`, `C76_violated_odd`):
only one byte to read the code from, numbers in octal in the notation of Texas Instruments, and an odd address, at
which the target of a jump is refused. Also, targets that are printed relative to the location are shown to
be read only with the symbol `$`, the one the assembler knows. -/
theorem C76_partial (o : Opts) (E : Env) (cpu : CpuType) (addr : Nat) (mem : List Nat) (sep : List Char)
    (hoct : o.octal = true → o.cstyle = true ∨ o.intelHex = true)
    (hsym : o.relative = true → o.curSym = '$')
    (haddr : addr < 2 ^ (if cpu = .TMS9980 then 14 else 16)) (heven : addr % 2 = 0)
    (hbytes : ∀ b ∈ mem, b < 256) (hmem : 2 ≤ mem.length)
    (hsep : sep ≠ [] ∧ ∀ c ∈ sep, Ctype.isSpace c = true)
    (hd : (disassemble o cpu addr mem).err = .OK) :
    assemble E cpu addr ((disassemble o cpu addr mem).name ++ sep ++ (disassemble o cpu addr mem).operands) =
      .ok (.insn ⟨.OK, (disassemble o cpu addr mem).bytes, []⟩) ∧
    (disassemble o cpu addr mem).bytes ≠ [] ∧
    (disassemble o cpu addr mem).bytes <+: mem := by
  have hwidth : (if cpu = .TMS9980 then 14 else 16) = width cpu := by cases cpu <;> rfl
  rw [hwidth] at haddr
  have hok : Config.checkAddr (width cpu) addr false = .OK := address_ok (by cases cpu <;> decide) haddr
  have hdis : disassemble o cpu addr mem = decodeImpl o cpu addr mem := by
    unfold disassemble decode
    rw [if_neg (by rw [hok]; simp)]
  rw [hdis] at hd ⊢
  obtain ⟨b, c, rest, rfl⟩ : ∃ b c rest, mem = b :: c :: rest := by
    rcases mem with _ | ⟨b, _ | ⟨c, rest⟩⟩
    · exact absurd hmem (by decide)
    · exact absurd hmem (by simp)
    · exact ⟨b, c, rest, rfl⟩
  have hb : b < 256 := hbytes b (List.mem_cons_self ..)
  have hc : c < 256 := hbytes c (List.mem_cons_of_mem _ (List.mem_cons_self ..))
  have hrest : ∀ x ∈ rest, x < 256 := fun x hx => hbytes x (List.mem_cons_of_mem _ (List.mem_cons_of_mem _ hx))
  have e : (⟨b :: c :: rest, [], .OK⟩ : Rd).be16 = (b * 256 + c, ⟨rest, [b, c], .OK⟩) := by
    show (b % 256 * 256 + c % 256, (⟨rest, [] ++ [b % 256] ++ [c % 256], .OK⟩ : Rd)) = _
    rw [Nat.mod_eq_of_lt hb, Nat.mod_eq_of_lt hc]
    rfl
  unfold decodeImpl at hd ⊢
  rw [e] at hd ⊢
  dsimp only at hd ⊢
  generalize hopc : b * 256 + c = opc at hd ⊢
  have hlt : opc < 65536 := by omega
  cases hrow : searchOpCode cpu opc with
  | none => rw [hrow] at hd; cases hd
  | some row =>
    rw [hrow] at hd
    dsimp only at hd ⊢
    obtain ⟨h1, h2⟩ := found hrow
    have h3 : rowOk cpu o.upper row = true := rows_ok cpu o.upper h1
    have hn : nameB syntaxOf (row.name.map (letter o.upper)) = true := by
      unfold rowOk at h3
      simp only [Bool.and_eq_true] at h3
      exact h3.1.2
    by_cases hs : (flags row).src = .SRC2
    · rw [if_pos hs] at hd ⊢
      generalize hr1 : (Rd.setErrorIf (Rd.be16 ⟨rest, [b, c], .OK⟩).2
        (checkPost (flags row).dst (Rd.be16 ⟨rest, [b, c], .OK⟩).1)) = r1 at hd ⊢
      by_cases he1 : r1.err = .OK
      · rw [if_neg (fun h => h he1)] at hd ⊢
        dsimp only at hd ⊢
        have k0 : Config.setErrorIf (Rd.be16 ⟨rest, [b, c], .OK⟩).2.err
            (checkPost (flags row).dst (Rd.be16 ⟨rest, [b, c], .OK⟩).1) = .OK := by
          have h := he1
          rw [← hr1] at h
          exact h
        obtain ⟨k1, k2⟩ := setErrorIf_ok k0
        obtain ⟨k3, k4⟩ := be16_took (r := ⟨rest, [b, c], .OK⟩) hrest k1
        have hr2 : r1 = (Rd.be16 ⟨rest, [b, c], .OK⟩).2 := by
          rw [← hr1, k2]
          unfold Rd.setErrorIf Config.setErrorIf
          simp
        have hm1 : ∀ x ∈ r1.mem, x < 256 := by
          intro x hx
          rw [hr2] at hx
          exact hrest x (be16_mem _ hx)
        generalize hpost : (Rd.be16 ⟨rest, [b, c], .OK⟩).1 = post at *
        obtain ⟨bs, h4, h5⟩ := impl_back (E := E) (r0 := r1) hoct hsym haddr heven hm1 he1 h3 hlt h2
          (Or.inl ⟨hs, k3, k2⟩) hd
        rw [← hr2] at k4
        have h6 := k4.trans h4
        have e1 := h6.bytes
        have e2 := h6.mem
        dsimp only at e1 e2
        rw [e1]
        refine ⟨?_, by simp, (decodeOperands o cpu addr opc post (flags row) r1).2.mem, by
          rw [e2]; simp⟩
        unfold wordBytes at h5
        rw [if_pos hs, show opc / 256 = b by omega, show opc % 256 = c by omega] at h5
        exact encode_operands syntaxOk hn hsep (impl_skip _ _ _ _ _) hok h5
      · rw [if_pos he1] at hd
        exact absurd hd he1
    · rw [if_neg hs] at hd ⊢
      dsimp only at hd ⊢
      obtain ⟨bs, h4, h5⟩ := impl_back (E := E) (r0 := ⟨rest, [b, c], .OK⟩) hoct hsym haddr heven hrest rfl h3 hlt h2
        (Or.inr ⟨hs, rfl⟩) hd
      have e1 : (decodeOperands o cpu addr opc 0 (flags row) ⟨rest, [b, c], .OK⟩).2.bytes = b :: c :: bs := h4.bytes
      have e2 : rest = bs ++ (decodeOperands o cpu addr opc 0 (flags row) ⟨rest, [b, c], .OK⟩).2.mem := h4.mem
      rw [e1]
      refine ⟨?_, List.cons_ne_nil _ _, (decodeOperands o cpu addr opc 0 (flags row) ⟨rest, [b, c], .OK⟩).2.mem, by
        rw [List.cons_append, List.cons_append, ← e2]⟩
      unfold wordBytes at h5
      rw [if_neg hs, show opc / 256 = b by omega, show opc % 256 = c by omega] at h5
      exact encode_operands syntaxOk hn hsep (impl_skip _ _ _ _ _) hok h5

/-- The hypotheses of `C76_partial` hold of general addresses of all kinds, of jumps, counts, bits of the CRU, and of
instructions with a second word. -/
example :
    (disassemble (.default '$') .TMS9900 0 [0xC8, 0x20, 0x12, 0x34, 0xAB, 0xCE]).err = .OK ∧
    (disassemble (.default '$') .TMS9900 0 [0xC8, 0x20, 0x12, 0x34, 0xAB, 0xCE]).name = "MOV".toList ∧
    (disassemble (.default '$') .TMS9900 0 [0xC8, 0x20, 0x12, 0x34, 0xAB, 0xCE]).operands =
      "@>1234, @>ABCE".toList ∧
    (disassemble (.default '$') .TMS9900 0 [0xDC, 0x61, 0xFF, 0xFF]).err = .OK ∧
    (disassemble (.default '$') .TMS9900 0 [0xDC, 0x61, 0xFF, 0xFF]).operands = "@>FFFF(R1), *R1+".toList ∧
    (disassemble (.default '$') .TMS9900 0x100 [0x10, 0xFF]).err = .OK ∧
    (disassemble (.default '$') .TMS9900 0x100 [0x10, 0xFF]).operands = ">0100".toList ∧
    (disassemble (.default '$') .TMS9900 0x100 [0x08, 0x35]).operands = "R5, 3".toList ∧
    (disassemble (.default '$') .TMS9900 0x100 [0x08, 0x05]).operands = "R5, R0".toList ∧
    (disassemble (.default '$') .TMS9900 0x100 [0x1D, 0x80]).operands = "-128".toList ∧
    (disassemble (.default '$') .TMS99105 0x100 [0x00, 0x1C, 0x43, 0x12]).err = .OK ∧
    (disassemble (.default '$') .TMS99105 0x100 [0x00, 0x1C, 0x43, 0x12]).name = "SRAM".toList ∧
    (disassemble (.default '$') .TMS99105 0x100 [0x00, 0x1C, 0x43, 0x12]).operands = "*R2, 12".toList ∧
    (disassemble (.default '$') .TMS99110 0x100 [0x03, 0x84]).err = .OK := by
  decide +kernel

/-- Of a single byte, the first of a code, an instruction is made as if 0 came after it, without an error. -/
theorem C76_violated_short : ∀ b < 8,
    (disassemble (.default '$') .TMS9900 0 [0xC0 + b]).err = .OK ∧
    (disassemble (.default '$') .TMS9900 0 [0xC0 + b]).bytes = [0xC0 + b] := by
  decide +kernel

/-- An octal number of a listing is read as a decimal one, unless it starts with 0. -/
theorem C76_violated_octal :
    (disassemble { Opts.default '$' with octal := true } .TMS9900 0 [0x02, 0x00, 0xAB, 0xCE]).err = .OK ∧
    (disassemble { Opts.default '$' with octal := true } .TMS9900 0 [0x02, 0x00, 0xAB, 0xCE]).operands =
      "R0, 125716".toList ∧
    assemble noEnv .TMS9900 0 "LI R0, 125716".toList = .ok (.insn ⟨.OK, [0x02, 0x00, 0xEB, 0x14], []⟩) := by
  decide +kernel

/-- At an odd address every jump is printed without an error, and what is printed is refused. -/
theorem C76_violated_odd :
    (disassemble (.default '$') .TMS9900 0x101 [0x10, 0x00]).err = .OK ∧
    (disassemble (.default '$') .TMS9900 0x101 [0x10, 0x00]).operands = ">0103".toList ∧
    assemble noEnv .TMS9900 0x101 "JMP >0103".toList = .ok (.insn ⟨.OPERAND_NOT_ALIGNED, [0x10, 0x00], []⟩) := by
  decide +kernel

/-- What the assembler takes without an error although the processor has no such instruction: `SRAM` with an
address where a count is wanted, from which a count in register 0 is made; a bit of the CRU and data that do not fit. -/
theorem C76_unchecked :
    assemble noEnv .TMS99105 0 "SRAM R1, *R5".toList = .ok (.insn ⟨.OK, [0x00, 0x1C, 0x40, 0x01], []⟩) ∧
    assemble noEnv .TMS99105 0 "SRAM R1, R0".toList = .ok (.insn ⟨.OK, [0x00, 0x1C, 0x40, 0x01], []⟩) ∧
    assemble noEnv .TMS9900 0 "SBO 300".toList = .ok (.insn ⟨.OK, [0x1D, 0x2C], []⟩) ∧
    assemble noEnv .TMS9900 0 "LI R0, >12345".toList = .ok (.insn ⟨.OK, [0x02, 0x00, 0x23, 0x45], []⟩) := by
  decide +kernel

end Libasm.Cpu.Tms9900
