import Verif.Cpu.I8080.Lemmas
/-
What each operand reads as, and what it is encoded to.
-/
namespace Libasm.Cpu.I8080
open Scan Number Number.Spec Eval Table.Spec
open Table (isNameLetter)
open Tables (Row)

/-- The register or condition a mode shows for the code, and whether it is between parentheses. -/
def wordOf (zilog : Bool) (m : Mode) (b : Nat) : Option (Bool × List Char) :=
  let data (n : Nat) : Bool × List Char :=
    if n % 8 = 6 ∧ zilog = true then (true, regText zilogRegs .HL)
    else (false, regText zilogRegs (decodeDataReg (n % 8)))
  match m with
  | .PTR => some (false, regText zilogRegs (decodePointerReg (b / 16) zilog))
  | .STK => some (false, regText zilogRegs (decodeStackReg (b / 16) zilog))
  | .IDX => some (zilog, regText zilogRegs (decodeIndexReg (b / 16) zilog))
  | .SRC => some (data b)
  | .DST => some (data (b / 8))
  | .CC => some (false, regText ccs (decodeCcName (b / 8)))
  | .R r => some (false, regText zilogRegs r)
  | .I r => some (true, regText zilogRegs r)
  | _ => none

/-- The operand the assembler reads, where `v` is the number printed. -/
def opd (zilog : Bool) (m : Mode) (b v : Nat) : Operand :=
  match m with
  | .IM8 | .IM16 => { mode := .IM16, val := ⟨v, .unsigned⟩ }
  | .IOA | .ABS => { mode := if zilog then .ABS else .IM16, val := ⟨v, .unsigned⟩ }
  | .VEC => { mode := .IM16, val := ⟨if zilog then b / 8 % 8 * 8 else b / 8 % 8, .unsigned⟩ }
  | m =>
    match wordOf zilog m b with
    | some (paren, t) => (wordOperand zilog paren t).getD {}
    | none => {}

/-- The bytes of the operand. -/
def bytesOf (m : Mode) (v : Nat) : List Nat :=
  match m with
  | .IM8 | .IOA => [v]
  | .IM16 | .ABS => [v % 256, v / 256]
  | _ => []

def bound (m : Mode) : Nat :=
  match m with
  | .IM8 | .IOA => 256
  | _ => 65536

/-- The operand is printed in a way the assembler reads, and can be encoded. -/
def okB (zilog up : Bool) (m : Mode) (b : Nat) : Bool :=
  (match m with
  | .IM8 | .IM16 | .IOA | .ABS | .VEC => true
  | .NONE | .UNDEF => false
  | m =>
    match wordOf zilog m b with
    | some (paren, t) =>
      (!(t.map (letter up)).isEmpty) && (t.map (letter up)).all isNameLetter && (!paren || zilog) &&
      decide (wordOperand zilog paren (t.map (letter up)) = some (opd zilog m b 0))
    | none => false) &&
  decide ((opd zilog m b 0).err = .OK ∧
    (encodeOperand zilog (opd zilog m b 0) m ⟨.OK, 0, []⟩).err = .OK)

theorem inParen_eq (o : Opts) (zilog : Bool) (t rest : List Char) :
    inParen o zilog t ++ rest = if zilog then '(' :: (t ++ ')' :: rest) else t ++ rest := by
  unfold inParen
  cases zilog
  · rfl
  · have : letter o.upper '(' = '(' ∧ letter o.upper ')' = ')' := by cases o.upper <;> decide
    rw [this.1, this.2]
    simp

/-- The text of a mode that shows a word. -/
theorem decode_word {o : Opts} {zilog : Bool} {m : Mode} {b : Nat} {r : Rd} {paren : Bool}
    {t : List Char} (h : wordOf zilog m b = some (paren, t)) :
    decodeOperand o zilog b m r =
      ((if paren then [letter o.upper '('] else []) ++ t.map (letter o.upper) ++
        (if paren then [letter o.upper ')'] else []), r) := by
  unfold wordOf at h
  cases m <;> simp only [Option.some.injEq, Prod.mk.injEq, reduceCtorEq] at h <;>
    unfold decodeOperand outDataReg outRegName outText
  case PTR | STK | IDX | R | I => obtain ⟨rfl, rfl⟩ := h; rfl
  case CC => obtain ⟨rfl, rfl⟩ := h; simp
  case SRC | DST =>
    split at h
    · rename_i hc
      simp only [Prod.mk.injEq] at h
      obtain ⟨rfl, rfl⟩ := h
      rw [if_pos hc]
    · rename_i hc
      simp only [Prod.mk.injEq] at h
      obtain ⟨rfl, rfl⟩ := h
      rw [if_neg hc]

theorem opd_mode (zilog : Bool) (m : Mode) (b v : Nat) :
    (opd zilog m b v).mode = (opd zilog m b 0).mode ∧ (opd zilog m b v).err = (opd zilog m b 0).err := by
  unfold opd
  cases m <;> exact ⟨rfl, rfl⟩

section
variable {E : Env} {loc : Nat}

/-- What is printed of an operand can be read, and is encoded to the bytes it was made of. -/
structure Reads (E : Env) (loc : Nat) (zilog : Bool) (m : Mode) (b : Nat) (r r' : Rd) (t : List Char)
    (v : Nat) : Prop where
  small : v < bound m
  took : Took r r' (bytesOf m v)
  space : ∀ rest, skipSpaces (t ++ rest) = t ++ rest
  reads : ∀ rest, (rest = [] ∨ ∃ s, rest = ',' :: s) →
    parseOperand (fun delim => lexer.plugins E delim loc) zilog (t ++ rest) =
      .ok (opd zilog m b v, rest)

theorem operand_reads (o : Opts) {zilog : Bool} {m : Mode} {b : Nat} {r : Rd}
    (hok : okB zilog o.upper m b = true) (hmem : ∀ x ∈ r.mem, x < 256)
    (h : (decodeOperand o zilog b m r).2.err = .OK) :
    ∃ v, Reads E loc zilog m b r (decodeOperand o zilog b m r).2 (decodeOperand o zilog b m r).1 v := by
  have hP := pairs o
  have plain : ∀ {m v r'} {t : List Char}, NumText .intel .intel t v → v < bound m →
      Took r r' (bytesOf m v) →
      opd zilog m b v = { mode := .IM16, val := ⟨v, .unsigned⟩ } →
      Reads E loc zilog m b r r' t v := by
    intro m v r' t ht hv hb ho
    refine ⟨hv, hb, fun rest => (num_head ht.lead).1, fun rest hr => ?_⟩
    rw [ho]
    exact num_reads zilog ht hr
  have paren : ∀ {m v r'} {t : List Char}, NumText .intel .intel t v → v < bound m →
      Took r r' (bytesOf m v) →
      opd zilog m b v = { mode := if zilog then .ABS else .IM16, val := ⟨v, .unsigned⟩ } →
      Reads E loc zilog m b r r' (inParen o zilog t) v := by
    intro m v r' t ht hv hb ho
    refine ⟨hv, hb, fun rest => ?_, fun rest hr => ?_⟩
    · rw [inParen_eq]
      cases zilog
      · exact (num_head ht.lead).1
      · rfl
    · rw [ho, inParen_eq]
      cases zilog
      · exact num_reads false ht hr
      · exact paren_num_reads ht
  have words : ∀ {m par t}, decodeOperand o zilog b m r = decodeOperand o zilog b m r →
      wordOf zilog m b = some (par, t) → okB zilog o.upper m b = true →
      bytesOf m 0 = [] → 0 < bound m → r.err = .OK →
      (match m with
        | .IM8 | .IM16 | .IOA | .ABS | .VEC => false
        | .NONE | .UNDEF => false
        | _ => true) = true →
      Reads E loc zilog m b r (decodeOperand o zilog b m r).2 (decodeOperand o zilog b m r).1 0 := by
    intro m par t _ hw hok hby hbd herr hm
    rw [decode_word hw]
    dsimp only
    have hk : ((!(t.map (letter o.upper)).isEmpty) && (t.map (letter o.upper)).all isNameLetter &&
        (!par || zilog) &&
        decide (wordOperand zilog par (t.map (letter o.upper)) = some (opd zilog m b 0))) = true := by
      unfold okB at hok
      cases m <;> first | exact absurd hm (by decide) | skip
      all_goals
        simp only [hw, Bool.and_eq_true] at hok
        simpa only [Bool.and_eq_true] using hok.1
    simp only [Bool.and_eq_true, Bool.not_eq_true', List.isEmpty_eq_false_iff, List.all_eq_true,
      decide_eq_true_eq, Bool.or_eq_true] at hk
    obtain ⟨⟨⟨h1, h2⟩, h3⟩, h4⟩ := hk
    have hp : letter o.upper '(' = '(' ∧ letter o.upper ')' = ')' := by cases o.upper <;> decide
    rw [hp.1, hp.2]
    generalize t.map (letter o.upper) = u at *
    cases par with
    | false =>
      simp only [Bool.false_eq_true, if_false, List.nil_append, List.append_nil]
      refine ⟨hbd, by rw [hby]; exact Took.refl herr, fun rest => (name_head ⟨h1, h2⟩).1,
        fun rest hr => ?_⟩
      refine word_reads ⟨h1, h2⟩ ?_ h4
      rcases hr with rfl | ⟨s, rfl⟩
      · exact Sep.nil
      · exact Sep.cons (by decide) _
    | true =>
      have hz : zilog = true := by simpa using h3
      subst hz
      refine ⟨hbd, by rw [hby]; exact Took.refl herr, fun rest => ?_, fun rest hr => ?_⟩
      · rfl
      · have := paren_reads (E := E) (loc := loc) (rest := rest) ⟨h1, h2⟩ h4
        simpa using this
  cases m with
  | NONE => exact absurd hok (by unfold okB; simp)
  | UNDEF => exact absurd hok (by unfold okB; simp)
  | IM8 =>
    obtain ⟨h1, h2⟩ := byte_took hmem h
    exact ⟨_, plain (outHex_num hP _ 8 true h1 (by decide) (by decide)) h1 h2 rfl⟩
  | IOA =>
    obtain ⟨h1, h2⟩ := byte_took hmem h
    exact ⟨_, paren (outHex_num hP _ 8 false h1 (by decide) (by decide)) h1 h2 rfl⟩
  | IM16 =>
    obtain ⟨h1, h2⟩ := le16_took hmem h
    exact ⟨_, plain (outHex_num hP _ 16 true h1 (by decide) (by decide)) h1 h2 rfl⟩
  | ABS =>
    obtain ⟨h1, h2⟩ := le16_took hmem h
    exact ⟨_, paren (outAbsAddr_num hP _ 16 h1 (by decide) (by decide)) h1 h2 rfl⟩
  | VEC =>
    have hx : b / 8 % 8 < 8 := Nat.mod_lt _ (by decide)
    have hy : b / 8 % 8 * 8 < 256 := by omega
    cases zilog with
    | true =>
      have p := @plain .VEC (b / 8 % 8 * 8) r _ (outHex_num hP _ 8 true hy (by decide) (by decide))
        (show _ < 65536 by omega) (Took.refl h) rfl
      exact ⟨_, p⟩
    | false =>
      have p := @plain .VEC (b / 8 % 8) r _ (outHex_num hP _ 3 true hx (by decide) (by decide))
        (show _ < 65536 by omega) (Took.refl h) rfl
      exact ⟨_, p⟩
  | PTR => exact ⟨_, words rfl rfl hok rfl (by decide) h rfl⟩
  | STK => exact ⟨_, words rfl rfl hok rfl (by decide) h rfl⟩
  | IDX => exact ⟨_, words rfl rfl hok rfl (by decide) h rfl⟩
  | SRC =>
    refine ⟨_, words rfl rfl hok rfl (by show 0 < 65536; decide) ?_ rfl⟩
    rw [decode_word (m := .SRC) rfl] at h
    exact h
  | DST =>
    refine ⟨_, words rfl rfl hok rfl (by show 0 < 65536; decide) ?_ rfl⟩
    rw [decode_word (m := .DST) rfl] at h
    exact h
  | CC => exact ⟨_, words rfl rfl hok rfl (by decide) h rfl⟩
  | R reg => exact ⟨_, words rfl rfl hok rfl (by show 0 < 65536; decide) h rfl⟩
  | I reg => exact ⟨_, words rfl rfl hok rfl (by show 0 < 65536; decide) h rfl⟩

end

/-! ### Encoding -/

theorem noError (a : Asm) : a.setErrorIf .OK = a := by
  unfold Asm.setErrorIf Config.setErrorIf
  simp

theorem overflowUint8_num {v : Nat} (h : v < 256) : (⟨v, .unsigned⟩ : Value).overflowUint8 = false := by
  unfold Value.overflowUint8
  exact overflow_num (by omega) (by omega) (by omega)

theorem encode_reads {zilog up : Bool} {m : Mode} {b v opc : Nat} {xs : List Nat}
    (hok : okB zilog up m b = true) (hv : v < bound m) :
    encodeOperand zilog (opd zilog m b v) m ⟨.OK, opc, xs⟩ =
      ⟨.OK, (encodeOperand zilog (opd zilog m b 0) m ⟨.OK, opc, []⟩).opc, xs ++ bytesOf m v⟩ := by
  have h : (opd zilog m b 0).err = .OK ∧
      (encodeOperand zilog (opd zilog m b 0) m ⟨.OK, 0, []⟩).err = .OK := by
    unfold okB at hok
    simp only [Bool.and_eq_true, decide_eq_true_eq] at hok
    exact hok.2
  obtain ⟨h1, h2⟩ := h
  have h3 := (opd_mode zilog m b v).2.trans h1
  unfold encodeOperand at h2 ⊢
  rw [h1] at h2 ⊢
  rw [h3]
  simp only [noError] at h2 ⊢
  cases m with
  | IM8 =>
    have hv : v < 256 := hv
    unfold opd
    dsimp only
    rw [overflowUint8_num hv, overflowUint8_num (by decide), getUnsigned_num (by omega)]
    simp only [Bool.false_eq_true, if_false]
    unfold Asm.emit8 bytesOf
    have : v % 65536 % 256 = v := by omega
    simp only [this]
  | IOA =>
    have hv : v < 256 := hv
    unfold opd
    dsimp only
    rw [overflowUint8_num hv, overflowUint8_num (by decide), getUnsigned_num (by omega),
      overflow_num (by omega) (by omega) (by omega), overflow_num (by omega) (by omega) (by omega)]
    simp only [Bool.false_eq_true, if_false]
    unfold Asm.emit8 bytesOf
    have : v % 65536 % 256 = v := by omega
    simp only [this]
  | IM16 =>
    have hv : v < 65536 := hv
    unfold opd
    dsimp only
    rw [getUnsigned_num (by omega)]
    unfold Asm.emit16 bytesOf
    have h1 : v % 65536 % 256 = v % 256 := by omega
    have h2 : v % 65536 / 256 % 256 = v / 256 := by omega
    simp only [h1, h2]
  | ABS =>
    have hv : v < 65536 := hv
    unfold opd
    dsimp only
    rw [getUnsigned_num (by omega)]
    unfold Asm.emit16 bytesOf
    have h1 : v % 65536 % 256 = v % 256 := by omega
    have h2 : v % 65536 / 256 % 256 = v / 256 := by omega
    simp only [h1, h2]
  | VEC =>
    rw [show opd zilog .VEC b v = opd zilog .VEC b 0 from rfl]
    unfold bytesOf
    rw [List.append_nil]
    dsimp only at h2 ⊢
    cases zilog with
    | true =>
      simp only [if_true] at h2 ⊢
      by_cases hx : (opd true .VEC b 0).val.getUnsigned % 65536 &&& 0xffc7 ≠ 0
      · rw [if_pos hx] at h2
        exact absurd h2 (by unfold Asm.embed Asm.setErrorIf Config.setErrorIf; simp)
      · rw [if_neg hx, if_neg hx]
        rfl
    | false =>
      simp only [Bool.false_eq_true, if_false] at h2 ⊢
      cases hx : (opd false .VEC b 0).val.overflow 7 0 with
      | true =>
        rw [hx] at h2
        exact absurd h2 (by unfold Asm.embed Asm.setErrorIf Config.setErrorIf; simp)
      | false => rfl
  | PTR | STK | IDX | SRC | DST | CC =>
    rw [show bytesOf _ v = [] from rfl, List.append_nil]
    rfl
  | NONE => rw [show bytesOf _ v = [] from rfl, List.append_nil]
  | UNDEF => rw [show bytesOf _ v = [] from rfl, List.append_nil]
  | R r => rw [show bytesOf _ v = [] from rfl, List.append_nil]
  | I r => rw [show bytesOf _ v = [] from rfl, List.append_nil]

/-! ### The instruction table -/

def foundB (x : Out (Except Err (Nat × Row))) (pre : Nat) (row : Row) : Bool :=
  match x with
  | .ok (.ok (p, r)) => p == pre && decide (r = row)
  | _ => false

/-- What the table must satisfy for the prefix `pre` and the code `b`. -/
def factB (cpu : CpuType) (zilog : Bool) (pre b : Nat) (row : Row) (up : Bool) : Bool :=
  let dst := (flags row).1
  let src := (flags row).2.1
  nameB syntaxOf (row.name.map (letter up)) &&
  (if dst = .NONE then decide (src = .NONE) else okB zilog up dst b) &&
  (decide (src = .NONE) || okB zilog up src b) &&
  foundB (searchName cpu zilog (row.name.map (letter up)) (opd zilog dst b 0).mode
    (opd zilog src b 0).mode) pre row &&
  decide ((encodeOperand zilog (opd zilog src b 0) src ⟨.OK,
    (encodeOperand zilog (opd zilog dst b 0) dst ⟨.OK, row.opcode, []⟩).opc, []⟩).opc % 256 = b)

def allB (cpu : CpuType) (zilog : Bool) (pre b : Nat) : Bool :=
  match searchOpCode cpu zilog pre b with
  | none => true
  | some row => factB cpu zilog pre b row true && factB cpu zilog pre b row false

theorem all_codes (cpu : CpuType) (zilog : Bool) (pre : Nat) (hp : pre = 0 ∨ pre = 0xed) :
    ∀ b < 256, allB cpu zilog pre b = true := by
  rcases hp with rfl | rfl <;> cases cpu <;> cases zilog <;> decide +kernel

structure Fact (cpu : CpuType) (zilog : Bool) (pre b : Nat) (row : Row) (up : Bool) : Prop where
  name : nameB syntaxOf (row.name.map (letter up)) = true
  none : (flags row).1 = .NONE → (flags row).2.1 = .NONE
  dst : (flags row).1 ≠ .NONE → okB zilog up (flags row).1 b = true
  src : (flags row).2.1 ≠ .NONE → okB zilog up (flags row).2.1 b = true
  found : searchName cpu zilog (row.name.map (letter up)) (opd zilog (flags row).1 b 0).mode
    (opd zilog (flags row).2.1 b 0).mode = .ok (.ok (pre, row))
  code : (encodeOperand zilog (opd zilog (flags row).2.1 b 0) (flags row).2.1 ⟨.OK,
    (encodeOperand zilog (opd zilog (flags row).1 b 0) (flags row).1 ⟨.OK, row.opcode, []⟩).opc,
      []⟩).opc % 256 = b

theorem fact_of {cpu : CpuType} {zilog : Bool} {pre b : Nat} {row : Row} {up : Bool}
    (h : factB cpu zilog pre b row up = true) : Fact cpu zilog pre b row up := by
  unfold factB at h
  simp only [Bool.and_eq_true, decide_eq_true_eq, Bool.or_eq_true] at h
  obtain ⟨⟨⟨⟨h1, h2⟩, h3⟩, h4⟩, h5⟩ := h
  refine ⟨h1, ?_, ?_, ?_, ?_, h5⟩
  · intro hn
    rw [if_pos hn] at h2
    simpa using h2
  · intro hn
    rw [if_neg hn] at h2
    exact h2
  · intro hn
    rcases h3 with h3 | h3
    · exact absurd h3 hn
    · exact h3
  · unfold foundB at h4
    split at h4
    · rename_i p r he
      simp only [Bool.and_eq_true, beq_iff_eq, decide_eq_true_eq] at h4
      rw [he, h4.1, h4.2]
    · cases h4

theorem fact {cpu : CpuType} {zilog : Bool} {pre b : Nat} (hp : pre = 0 ∨ pre = 0xed) (hb : b < 256)
    {row : Row} (h : searchOpCode cpu zilog pre b = some row) (up : Bool) :
    Fact cpu zilog pre b row up := by
  have := all_codes cpu zilog pre hp b hb
  unfold allB at this
  rw [h] at this
  simp only [Bool.and_eq_true] at this
  cases up
  · exact fact_of this.2
  · exact fact_of this.1

end Libasm.Cpu.I8080
