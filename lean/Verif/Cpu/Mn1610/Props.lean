import Verif.Cpu.Mn1610.Encode
import Verif.Cpu.Mn1610.Spec
import Verif.Table.Props
/-
C79: what the MN1610 disassembler prints assembles to the bytes it read.
-/
namespace Libasm.Cpu.Mn1610
open Scan Number Number.Spec Eval
open Tables (Row)

theorem syntaxOk : SyntaxOk syntaxOf := by
  constructor
  · intro c hc
    exact Ctype.ascii (p := fun c => Ctype.isSpace c = true → syntaxOf.instructionLetter c = false)
      (by decide +kernel) c (space_ascii hc) hc
  · intro c s hc
    exact Ctype.ascii (p := fun c => Ctype.isAlpha c = true → (c == '*' || c == ';') = false)
      (by decide +kernel) c (alpha_ascii hc) hc

theorem parse_skip (P : Char → Plugins Value) (s : Scan) : parseOperand P (skipSpaces s) = parseOperand P s := by
  unfold parseOperand
  rw [skip_skip]

theorem impl_skip (P : Char → Plugins Value) (cpu : CpuType) (addr : Nat) (name : List Char) (s : Scan) :
    encodeImpl P cpu addr name (skipSpaces s) = encodeImpl P cpu addr name s := by
  unfold encodeImpl parseOperands
  rw [operands_skip (parse_skip P), skip_skip]

/-! ### The bits of the operands -/

/-- The bits of an operand in the code. -/
def maskOf : Mode → Nat
  | .GEN => 0x38FF
  | .RD | .RDG => 0x700
  | .RS | .RSG => 7
  | .RI => 3
  | .RIAU => 0xC3
  | .SB => 0x30
  | .RB | .RBW | .RP | .RHR | .RHW => 0x70
  | .SKIP => 0xF0
  | .IM8 | .IOA => 0xFF
  | .IM4 | .BIT => 0xF
  | .ILVL | .EOP => 3
  | .COP => 8
  | _ => 0

theorem field_mask (c k n : Nat) : c / 2 ^ k % 2 ^ n * 2 ^ k = c &&& (2 ^ n - 1) * 2 ^ k := by
  rw [← Nat.shiftRight_eq_div_pow, ← Nat.shiftLeft_eq, ← Nat.shiftLeft_eq]
  apply Nat.eq_of_testBit_eq
  intro i
  rw [Nat.testBit_and, Nat.testBit_shiftLeft, Nat.testBit_shiftLeft, Nat.testBit_mod_two_pow, Nat.testBit_shiftRight,
    Nat.testBit_two_pow_sub_one]
  by_cases h : k ≤ i
  · have : k + (i - k) = i := by omega
    rw [this]
    cases Nat.testBit c i <;> simp [h]
  · simp [h]

theorem bits_mask (m : Mode) (c : Nat) : bitsOf m c = c &&& maskOf m := by
  have two : ∀ {a b k x y : Nat}, a = c &&& x → b = c &&& y → a % 2 ^ k = 0 → b < 2 ^ k → a + b = c &&& (x ||| y) := by
    intro a b k x y h1 h2 h3 h4
    rw [← or_bits h3 h4, h1, h2, Nat.and_or_distrib_left]
  have low : ∀ n, c % 2 ^ n = c &&& (2 ^ n - 1) := fun n => (Nat.and_two_pow_sub_one_eq_mod c n).symm
  cases m <;> simp only [bitsOf, maskOf, Nat.and_zero]
  case GEN => exact two (k := 8) (field_mask c 11 3) (low 8) (by omega) (by omega)
  case RIAU => exact two (k := 6) (field_mask c 6 2) (low 2) (by omega) (by omega)
  case RD | RDG => exact field_mask c 8 3
  case RS | RSG => exact low 3
  case RI | ILVL | EOP => exact low 2
  case SB => exact field_mask c 4 2
  case RB | RBW | RP | RHR | RHW => exact field_mask c 4 3
  case SKIP => exact field_mask c 4 4
  case IM8 | IOA => exact low 8
  case IM4 | BIT => exact low 4
  case COP => exact field_mask c 3 1

/-- The bits of all the operands. -/
def maskAll : List Mode → Nat
  | [] => 0
  | m :: ms => maskOf m ||| maskAll ms

theorem fold_mask (c : Nat) : ∀ (ms : List Mode) (x : Nat),
    ms.foldl (fun x m => x ||| bitsOf m c) x = x ||| (c &&& maskAll ms)
  | [], x => by simp [maskAll]
  | m :: ms, x => by
    rw [List.foldl_cons, fold_mask c ms, bits_mask, Nat.or_assoc, ← Nat.and_or_distrib_left]
    rfl

theorem omitted_bits {m : Mode} {c : Nat} (h : omitted c m = true) : bitsOf m c = 0 := by
  cases m <;> simp only [omitted, beq_iff_eq, Bool.false_eq_true] at h <;> simp only [bitsOf, h, Nat.zero_mul]

theorem fold_kept (c : Nat) : ∀ (ms : List Mode) (x : Nat),
    (ms.filter fun m => !omitted c m).foldl (fun x m => x ||| bitsOf m c) x =
      ms.foldl (fun x m => x ||| bitsOf m c) x
  | [], x => rfl
  | m :: ms, x => by
    rw [List.filter_cons]
    cases h : omitted c m with
    | true => simp only [Bool.not_true, Bool.false_eq_true, if_false, List.foldl_cons, omitted_bits h, Nat.or_zero]
              exact fold_kept c ms x
    | false => simp only [Bool.not_false, if_true, List.foldl_cons]
               exact fold_kept c ms _

/-! ### The tests of the disassembler -/

/-- The bits that are left of those of `g`. -/
def keepAll : List Field → Nat → Nat
  | [], g => g
  | f :: fs, g => keepAll fs (g &&& (0xFFFF ^^^ f.mask))

theorem take_keep : ∀ (fs : List Field) (c g x : Nat), takeAll fs (c &&& g) = some x → x = c &&& keepAll fs g
  | [], c, g, x, h => by injection h with h; exact h.symm
  | f :: fs, c, g, x, h => by
    unfold takeAll Field.take at h
    split at h
    · cases h
    · rw [Option.bind_some, Nat.and_assoc] at h
      exact take_keep fs c _ x h

/-- A field of the code is tested, before its bits are cleared, not to have these values. -/
def tested : List Field → Nat → Nat → Nat → List Nat → Bool
  | [], _, _, _, _ => false
  | f :: fs, g, s, n, bad =>
    (f.shift == s && f.ones == 2 ^ n - 1 && bad.all f.bad.contains && ((g >>> s) &&& (2 ^ n - 1) == 2 ^ n - 1)) ||
      tested fs (g &&& (0xFFFF ^^^ f.mask)) s n bad

theorem take_tested : ∀ (fs : List Field) (c g x s n : Nat) (bad : List Nat), tested fs g s n bad = true →
    takeAll fs (c &&& g) = some x → c / 2 ^ s % 2 ^ n ∉ bad
  | [], _, _, _, _, _, _, ht, _ => by cases ht
  | f :: fs, c, g, x, s, n, bad, ht, h => by
    unfold takeAll Field.take at h
    split at h
    · cases h
    · rename_i hb
      rw [Option.bind_some, Nat.and_assoc] at h
      unfold tested at ht
      simp only [Bool.or_eq_true, Bool.and_eq_true, beq_iff_eq, List.all_eq_true] at ht
      rcases ht with ⟨⟨⟨h1, h2⟩, h3⟩, h4⟩ | ht
      · intro hm
        have := h3 _ hm
        rw [h1, h2, Nat.shiftRight_and_distrib, Nat.and_assoc, h4, Nat.and_two_pow_sub_one_eq_mod,
          Nat.shiftRight_eq_div_pow] at hb
        exact hb this
      · exact take_tested fs c _ x s n bad ht h

/-! ### The rows of the table -/

/-- The rows of the table for a processor. -/
def rows (cpu : CpuType) : List Row := (pages cpu).flatMap (·.entries)

/-- Operands that can be left out. -/
def optional (m : Mode) : Bool := m == .SKIP || m == .EOP || m == .COP || m == .SB

/-- What can be left of the operands. -/
def keptLists : List Mode → List (List Mode)
  | [] => [[]]
  | m :: ms => (keptLists ms).map (m :: ·) ++ if optional m then keptLists ms else []

theorem kept_mem (c : Nat) : ∀ ms : List Mode, (ms.filter fun m => !omitted c m) ∈ keptLists ms
  | [] => List.mem_cons_self ..
  | m :: ms => by
    rw [List.filter_cons]
    unfold keptLists
    cases h : omitted c m with
    | true =>
      have : optional m = true := by
        cases m <;> simp only [omitted, Bool.false_eq_true] at h <;> rfl
      rw [this]
      exact List.mem_append_right _ (kept_mem c ms)
    | false => exact List.mem_append_left _ (List.mem_map_of_mem (kept_mem c ms))

/-- What the operands can be read as. -/
def tuples : List Mode → List (List Mode)
  | [] => [[]]
  | m :: ms => (parsed m).flatMap fun x => (tuples ms).map (x :: ·)

/-- The code of the row, and its operands but for a condition to skip, is found. -/
def rowIs (r : Row) (kept : List Mode) : Out (Except Err Row) → Bool
  | .ok (.ok s) => decide ((modes s).length ≤ 4) && s.opcode == r.opcode && (modes s == kept || modes s == kept ++ [.SKIP])
  | _ => false

def hasIs (b : Bool) : Out Bool → Bool
  | .ok x => x == b
  | _ => false

/-- An immediate byte in a word of its own comes after an operand without bytes. -/
def byteOk : List Mode → Bool
  | m :: .IM8W :: ms => lenOf m == 0 && !ms.contains .IM8W
  | ms => !ms.contains .IM8W

/-- The test of an operand. -/
def testedOk (cpu : CpuType) (r : Row) (m : Mode) : Bool :=
  match m with
  | .RD => tested (rowFields r) 0xFFFF 8 3 [7]
  | .RDG => tested (rowFields r) 0xFFFF 8 3 [6, 7]
  | .RS => tested (rowFields r) 0xFFFF 0 3 [7]
  | .RSG => tested (rowFields r) 0xFFFF 0 3 [6, 7]
  | .RBW => tested (rowFields r) 0xFFFF 4 3 [0]
  | .RP => tested (rowFields r) 0xFFFF 4 3 [3, 4, 5, 6, 7]
  | .RHR | .RHW => tested (rowFields r) 0xFFFF 4 3 [7]
  | .RIAU =>
    tested (rowFields r) 0xFFFF 6 2 [0] ||
      (cpu != .MN1610 && keepAll (rowFields r) 0xFFFF &&& 0xF8FB == 0xF8FB && r.opcode &&& 0xF8FB == 0x2000)
  | .GEN => keepAll (rowFields r) 0xFFFF &&& 0x8000 == 0x8000 && decide (0x8000 ≤ r.opcode)
  | .IM8W => cpu != .MN1610 && keepAll (rowFields r) 0xFFFF &&& 0xF80F == 0xF80F && r.opcode &&& 0xF80F == 0x5007
  | .NONE | .INDX | .IXID | .IDIX | .UNDEF => false
  | _ => true

/-- What is checked of a row, with its name in upper or lower case. -/
def rowOk (cpu : CpuType) (up : Bool) (r : Row) : Bool :=
  nameB syntaxOf (r.name.map (letter up)) && hasIs (modes r != []) (hasOperand cpu (r.name.map (letter up))) &&
  decide ((modes r).length ≤ 4) && !optional ((modes r).headD .NONE) && (modes r).all (testedOk cpu r) &&
  keepAll (rowFields r) 0xFFFF ||| maskAll (modes r) == 0xFFFF &&
  (keptLists (modes r)).all fun kept => byteOk kept &&
    (tuples kept).all fun t => rowIs r kept (searchName cpu (r.name.map (letter up)) (pad 4 .NONE t))

def allCpus : List CpuType := [.MN1610, .MN1613, .MN1613A]

theorem mem_allCpus (c : CpuType) : c ∈ allCpus := by cases c <;> decide

set_option maxRecDepth 100000 in
theorem rows_all : ([CpuType.MN1610, .MN1613].all fun cpu => [true, false].all fun up => (rows cpu).all (rowOk cpu up)) = true := by
  decide +kernel

theorem rows_ok (cpu : CpuType) (up : Bool) {r : Row} (h : r ∈ rows cpu) : rowOk cpu up r = true := by
  have key : ∀ cpu ∈ [CpuType.MN1610, .MN1613], r ∈ rows cpu → rowOk cpu up r = true := by
    intro cpu hc h
    have h1 := List.all_eq_true.1 rows_all cpu hc
    have h2 := List.all_eq_true.1 h1 up (by cases up <;> decide)
    exact List.all_eq_true.1 h2 r h
  cases cpu with
  | MN1610 => exact key .MN1610 (by decide) h
  | MN1613 => exact key .MN1613 (by decide) h
  | MN1613A => exact key .MN1613 (by decide) h

theorem found {cpu : CpuType} {opc : Nat} {r : Row} (h : searchOpCode cpu opc = some r) :
    r ∈ rows cpu ∧ takeAll (rowFields r) opc = some r.opcode := by
  unfold searchOpCode at h
  rw [Table.Props.C24_searchOpCode] at h
  split at h
  · rename_i p r' hf
    injection h with h
    subst h
    have h1 := List.find?_some hf
    have h2 := List.mem_of_find?_eq_some hf
    refine ⟨?_, eq_of_beq h1⟩
    simp only [List.mem_flatMap, List.mem_map, Prod.mk.injEq] at h2
    obtain ⟨q, hq, x, hx, hq', rfl⟩ := h2
    exact List.mem_flatMap.2 ⟨q, (List.mem_filter.1 hq).1, hx⟩
  · cases h

/-! ### The operands as a list -/

theorem omitted_text {o : Opts} {cpu : CpuType} {addr opc : Nat} {m : Mode} (h : omitted opc m = true) (r : Rd) :
    decodeOperand o cpu addr opc m r = ([], r) := by
  have h0 : outCc o 0 = [] := by unfold outCc outText; cases o.upper <;> rfl
  cases m <;> simp only [omitted, beq_iff_eq, Bool.false_eq_true] at h
  case SKIP =>
    show (outCc o (opc / 16 % 16), r) = _
    rw [h, h0]
  case EOP =>
    show (outCc o (decodeEop opc), r) = _
    unfold decodeEop
    rw [if_pos h, h0]
  case COP =>
    show (outCc o (decodeCop (opc / 8)), r) = _
    unfold decodeCop
    rw [if_pos h, h0]
  case SB =>
    show (if opc / 16 % 4 = 0 then _ else _, r) = _
    rw [if_pos h]

theorem more_text (o : Opts) (cpu : CpuType) (addr opc : Nat) : ∀ (ms : List Mode) (r : Rd),
    decodeMore o cpu addr opc ms r = match ms.filter fun m => !omitted opc m with
      | [] => ([], r)
      | k :: ks => (',' :: ' ' :: (decodeList (decodeOperand o cpu addr opc) (k :: ks) r).1,
          (decodeList (decodeOperand o cpu addr opc) (k :: ks) r).2)
  | [], r => rfl
  | m :: ms, r => by
    rw [List.filter_cons]
    unfold decodeMore
    dsimp only
    cases h : omitted opc m with
    | true =>
      rw [omitted_text h, more_text o cpu addr opc ms r]
      simp only [Bool.not_true, Bool.false_eq_true, if_false, if_true, List.nil_append]
    | false =>
      rw [more_text o cpu addr opc ms]
      simp only [Bool.not_false, if_true, Bool.false_eq_true, if_false]
      cases ms.filter fun m => !omitted opc m with
      | nil => simp [decodeList]
      | cons k ks => simp [decodeList]

theorem operands_text (o : Opts) (cpu : CpuType) (addr opc : Nat) {ms : List Mode} (h : optional (ms.headD .NONE) = false)
    (r : Rd) : decodeOperands o cpu addr opc ms r =
      decodeList (decodeOperand o cpu addr opc) (ms.filter fun m => !omitted opc m) r := by
  cases ms with
  | nil => rfl
  | cons m ms =>
    have hm : omitted opc m = false := by
      cases m <;> first | rfl | exact absurd (show true = false from h) (by decide)
    unfold decodeOperands
    dsimp only
    rw [more_text, List.filter_cons, hm]
    simp only [Bool.not_false, if_true]
    cases ms.filter fun m => !omitted opc m with
    | nil => simp [decodeList]
    | cons k ks => simp [decodeList]

theorem decode_mono (o : Opts) (cpu : CpuType) (addr opc : Nat) (m : Mode) (r : Rd)
    (h : (decodeOperand o cpu addr opc m r).2.err = .OK) : r.err = .OK := by
  have two : r.be16.2.err = .OK → r.err = .OK := fun h => byte_err (byte_err h)
  cases m <;> first | exact h | exact two h

/-- The operands of a chain are read as one of the tuples. -/
theorem chain_tuples {cpu : CpuType} {addr opc : Nat} : ∀ (ms : List Mode) (r r' : Rd) (ops : List Operand),
    Chain (Back cpu addr opc) ms r r' ops → ops.map (·.mode) ∈ tuples ms
  | [], _, _, [], _ => List.mem_cons_self ..
  | m :: ms, r, r', op :: ops, h => by
    obtain ⟨r1, h1, h2⟩ := h
    exact List.mem_flatMap.2 ⟨op.mode, h1.mode, List.mem_map_of_mem (chain_tuples ms r1 r' ops h2)⟩

/-- `Back`, with what is known of an immediate byte in a word of its own. -/
def Back' (cpu : CpuType) (addr opc : Nat) (m : Mode) (r r' : Rd) (op : Operand) : Prop :=
  Back cpu addr opc m r r' op ∧ (m = .IM8W → r.mem.headD 0 = 0)

theorem chain_plain {cpu : CpuType} {addr opc : Nat} : ∀ (ms : List Mode) (r r' : Rd) (ops : List Operand),
    Mode.IM8W ∉ ms → Chain (Back cpu addr opc) ms r r' ops → Chain (Back' cpu addr opc) ms r r' ops
  | [], _, _, [], _, h => h
  | m :: ms, r, r', op :: ops, hn, h => by
    obtain ⟨r1, h1, h2⟩ := h
    exact ⟨r1, ⟨h1, fun hm => absurd (hm ▸ List.mem_cons_self ..) hn⟩,
      chain_plain ms r1 r' ops (fun hx => hn (List.mem_cons_of_mem _ hx)) h2⟩

theorem chain_byte {cpu : CpuType} {addr opc : Nat} {ms : List Mode} {r r' : Rd} {ops : List Operand}
    (hb : byteOk ms = true) (hz : Mode.IM8W ∈ ms → r.mem.headD 0 = 0) (h : Chain (Back cpu addr opc) ms r r' ops) :
    Chain (Back' cpu addr opc) ms r r' ops := by
  unfold byteOk at hb
  split at hb
  · rename_i m ms'
    simp only [Bool.and_eq_true, beq_iff_eq, Bool.not_eq_true', List.contains_eq_mem, decide_eq_false_iff_not] at hb
    match ops, h with
    | op :: op' :: ops, ⟨r1, h1, r2, h2, h3⟩ =>
      have hz' := hz (List.mem_cons_of_mem _ (List.mem_cons_self ..))
      obtain ⟨bs, t1, t2, _⟩ := h1.enc
      have hm : m ≠ .IM8W := by
        rintro rfl
        cases hb.1
      rw [hb.1] at t2
      have : bs = [] := List.length_eq_zero_iff.1 t2
      subst this
      have hmem := t1.mem
      rw [List.nil_append] at hmem
      exact ⟨r1, ⟨h1, fun hx => absurd hx hm⟩, r2, ⟨h2, fun _ => hmem ▸ hz'⟩, chain_plain _ _ _ _ hb.2 h3⟩
  · simp only [Bool.not_eq_true', List.contains_eq_mem, decide_eq_false_iff_not] at hb
    exact chain_plain _ _ _ _ hb h

theorem emit_append {cpu : CpuType} {addr : Nat} (l : List (Mode × Operand)) (a : Asm) :
    emitList (encodeOperand cpu addr) (l ++ [(.SKIP, ({} : Operand))]) a = emitList (encodeOperand cpu addr) l a := by
  induction l generalizing a with
  | nil =>
    show (Out.ok (a.setErrorIf .OK)).bind _ = _
    rw [Asm.noError]
    rfl
  | cons p l ih =>
    show (encodeOperand cpu addr p.1 p.2 a).bind _ = (encodeOperand cpu addr p.1 p.2 a).bind _
    congr 1
    funext b
    exact ih b

theorem pad_more {α : Type} (d : α) : ∀ (n : Nat) (l : List α), l.length < n → pad n d (l ++ [d]) = pad n d l
  | n + 1, [], _ => rfl
  | n + 1, a :: l, h => congrArg (a :: ·) (pad_more d n l (Nat.lt_of_succ_lt_succ h))

/-- The operands of a row that has them, or a condition to skip after them. -/
theorem emit_row {cpu : CpuType} {addr : Nat} {ms kept : List Mode} {ops : List Operand}
    (h : ms = kept ∨ ms = kept ++ [.SKIP]) (hl : kept.length = ops.length) (hn : ms.length ≤ 4) (a : Asm) :
    emitList (encodeOperand cpu addr) ((pad 4 .NONE ms).zip (pad 4 {} ops)) a =
      emitList (encodeOperand cpu addr) (kept.zip ops) a := by
  have h0 : ∀ a : Asm, encodeOperand cpu addr .NONE ({} : Operand) a = .ok a := by
    intro a
    show Out.ok (a.setErrorIf .OK) = _
    rw [Asm.noError]
  rcases h with rfl | rfl
  · exact emit_pad h0 4 _ ops a hl hn
  · rw [List.length_append, List.length_singleton] at hn
    rw [← pad_more ({} : Operand) 4 ops (by omega), emit_pad h0 4 _ _ a (by simp [hl]) (by simp; omega)]
    rw [List.zip_append hl]
    exact emit_append _ _

/-- What is known of a code by the row it is found in. -/
theorem row_tested {cpu : CpuType} {opc : Nat} {r : Row} (hlt : opc < 65536)
    (h : takeAll (rowFields r) opc = some r.opcode)
    (htr : cpu ≠ .MN1610 → opc &&& 0xF8FB = 0x2000 → .RIAU ∉ modes r)
    {m : Mode} (hm : m ∈ modes r) (ht : testedOk cpu r m = true) :
    Ok m opc ∧ (m = .GEN → 0x8000 ≤ opc) ∧ (m = .IM8W → cpu ≠ .MN1610 ∧ opc &&& 0xF80F = 0x5007) := by
  have hand : opc &&& 0xFFFF = opc := by
    rw [Nat.and_two_pow_sub_one_eq_mod opc 16]
    exact Nat.mod_eq_of_lt hlt
  have h' : takeAll (rowFields r) (opc &&& 0xFFFF) = some r.opcode := by rw [hand]; exact h
  have hk := take_keep _ _ _ _ h'
  have tst : ∀ s n bad, tested (rowFields r) 0xFFFF s n bad = true → opc / 2 ^ s % 2 ^ n ∉ bad :=
    fun s n bad ht => take_tested _ _ _ _ s n bad ht h'
  have bits : ∀ x, keepAll (rowFields r) 0xFFFF &&& x = x → opc &&& x = r.opcode &&& x := by
    intro x hx
    rw [hk, Nat.and_assoc, hx]
  cases m with
  | RD =>
    have := tst 8 3 [7] ht
    simp only [List.mem_singleton, Nat.reducePow] at this
    exact ⟨this, by simp, by simp⟩
  | RDG =>
    have := tst 8 3 [6, 7] ht
    simp only [List.mem_cons, List.not_mem_nil, or_false, Nat.reducePow] at this
    exact ⟨show opc / 256 % 8 < 6 by omega, by simp, by simp⟩
  | RS =>
    have := tst 0 3 [7] ht
    simp only [List.mem_singleton, Nat.reducePow, Nat.pow_zero, Nat.div_one] at this
    exact ⟨this, by simp, by simp⟩
  | RSG =>
    have := tst 0 3 [6, 7] ht
    simp only [List.mem_cons, List.not_mem_nil, or_false, Nat.reducePow, Nat.pow_zero, Nat.div_one] at this
    exact ⟨show opc % 8 < 6 by omega, by simp, by simp⟩
  | RBW =>
    have := tst 4 3 [0] ht
    simp only [List.mem_singleton, Nat.reducePow] at this
    exact ⟨this, by simp, by simp⟩
  | RP =>
    have := tst 4 3 [3, 4, 5, 6, 7] ht
    simp only [List.mem_cons, List.not_mem_nil, or_false, Nat.reducePow] at this
    exact ⟨show opc / 16 % 8 < 3 by omega, by simp, by simp⟩
  | RHR | RHW =>
    have := tst 4 3 [7] ht
    simp only [List.mem_singleton, Nat.reducePow] at this
    exact ⟨this, by simp, by simp⟩
  | RIAU =>
    refine ⟨?_, by simp, by simp⟩
    have ht' : (tested (rowFields r) 0xFFFF 6 2 [0] || (cpu != .MN1610 &&
      keepAll (rowFields r) 0xFFFF &&& 0xF8FB == 0xF8FB && r.opcode &&& 0xF8FB == 0x2000)) = true := ht
    simp only [Bool.or_eq_true, Bool.and_eq_true, beq_iff_eq, bne_iff_ne] at ht'
    rcases ht' with ht' | ⟨⟨h1, h2⟩, h3⟩
    · have := tst 6 2 [0] ht'
      simp only [List.mem_singleton, Nat.reducePow] at this
      exact this
    · exact absurd hm (htr h1 (by rw [bits _ h2, h3]))
  | GEN =>
    refine ⟨trivial, fun _ => ?_, by simp⟩
    have ht' : (keepAll (rowFields r) 0xFFFF &&& 0x8000 == 0x8000 && decide (0x8000 ≤ r.opcode)) = true := ht
    simp only [Bool.and_eq_true, beq_iff_eq, decide_eq_true_eq] at ht'
    have : r.opcode ≤ opc := by rw [hk]; exact Nat.and_le_left
    omega
  | IM8W =>
    refine ⟨trivial, by simp, fun _ => ?_⟩
    have ht' : (cpu != .MN1610 && keepAll (rowFields r) 0xFFFF &&& 0xF80F == 0xF80F && r.opcode &&& 0xF80F == 0x5007) = true := ht
    simp only [Bool.and_eq_true, beq_iff_eq, bne_iff_ne] at ht'
    exact ⟨ht'.1.1, by rw [bits _ ht'.1.2, ht'.2]⟩
  | NONE | INDX | IXID | IDIX | UNDEF => cases ht
  | _ => exact ⟨trivial, by simp, by simp⟩

/-- The code is that of the row with the bits of the operands. -/
theorem row_code {opc : Nat} {r : Row} (hlt : opc < 65536) (h : takeAll (rowFields r) opc = some r.opcode)
    (hall : keepAll (rowFields r) 0xFFFF ||| maskAll (modes r) = 0xFFFF) :
    ((modes r).filter fun m => !omitted opc m).foldl (fun x m => x ||| bitsOf m opc) r.opcode = opc := by
  have hand : opc &&& 0xFFFF = opc := by
    rw [Nat.and_two_pow_sub_one_eq_mod opc 16]
    exact Nat.mod_eq_of_lt hlt
  have hk := take_keep (rowFields r) opc 0xFFFF r.opcode (by rw [hand]; exact h)
  rw [fold_kept, fold_mask, hk, ← Nat.and_or_distrib_left, hall, hand]

/-- The rows of LR and STR are not found for the codes of H and LPSW. -/
theorem transfer_rows : ∀ opc ∈ [0x2000, 0x2004, 0x2704],
    ((searchOpCode .MN1613 opc).all fun r => !(modes r).contains .RIAU) = true := by decide +kernel

section
variable {E : Env} {addr : Nat} {cpu : CpuType} {o : Opts}

/-- What is printed of a code and the operands after it is encoded to the same. -/
theorem impl_back (ho : Readable o) (hsym : o.curSym = '*') (ha : addr < 2 ^ width cpu) {b c : Nat} {rest : List Nat}
    (hb : b < 256) (hc : c < 256) (hrest : ∀ x ∈ rest, x < 256)
    (htr : cpu ≠ .MN1610 → ¬ Spec.NoTransfer (b * 256 + c))
    (hcbi : cpu ≠ .MN1610 → Spec.CompareByte (b * 256 + c) → rest.headD 0 = 0)
    (hrel : Spec.CounterRelative (b * 256 + c) → Near o cpu addr (b * 256 + c))
    {row : Row} (hrow : searchOpCode cpu (b * 256 + c) = some row)
    (he : (decodeOperands o cpu addr (b * 256 + c) (modes row) ⟨rest, [b, c], .OK⟩).2.err = .OK) :
    ∃ bs, Took ⟨rest, [b, c], .OK⟩ (decodeOperands o cpu addr (b * 256 + c) (modes row) ⟨rest, [b, c], .OK⟩).2 bs ∧
      encodeImpl (plug E addr) cpu addr (row.name.map (letter o.upper))
        (decodeOperands o cpu addr (b * 256 + c) (modes row) ⟨rest, [b, c], .OK⟩).1 = .ok ⟨.OK, b :: c :: bs, []⟩ := by
  obtain ⟨h1, h2⟩ := found hrow
  have h3 : rowOk cpu o.upper row = true := rows_ok cpu o.upper h1
  have hb0 : (b * 256 + c) / 256 % 256 = b := by omega
  have hc0 : (b * 256 + c) % 256 = c := by omega
  generalize hopc : b * 256 + c = opc at *
  have hlt : opc < 65536 := by omega
  unfold rowOk at h3
  simp only [Bool.and_eq_true, Bool.not_eq_true', decide_eq_true_eq, beq_iff_eq, List.all_eq_true] at h3
  obtain ⟨⟨⟨⟨⟨⟨_, k2⟩, k3⟩, k4⟩, k5⟩, k6⟩, k7⟩ := h3
  have htr' : cpu ≠ .MN1610 → opc &&& 0xF8FB = 0x2000 → Mode.RIAU ∉ modes row := by
    intro hcpu hx hm
    have hn := htr hcpu
    unfold Spec.NoTransfer at hn
    have hcases : opc ∈ [0x2000, 0x2004, 0x2704] := by
      simp only [List.mem_cons, List.not_mem_nil, or_false]
      by_cases g1 : opc = 0x2000
      · exact Or.inl g1
      · by_cases g2 : opc = 0x2004
        · exact Or.inr (Or.inl g2)
        · by_cases g3 : opc = 0x2704
          · exact Or.inr (Or.inr g3)
          · exact absurd ⟨hx, g1, g2, g3⟩ hn
    have ht := transfer_rows opc hcases
    have hs : searchOpCode cpu opc = searchOpCode .MN1613 opc := by
      cases cpu with
      | MN1610 => exact absurd rfl hcpu
      | MN1613 => rfl
      | MN1613A => rfl
    rw [← hs, hrow] at ht
    simp only [Option.all_some, Bool.not_eq_true', List.contains_eq_mem, decide_eq_false_iff_not] at ht
    exact ht hm
  have hrows : ∀ m ∈ modes row, Ok m opc ∧ (m = .GEN → 0x8000 ≤ opc) ∧
      (m = .IM8W → cpu ≠ .MN1610 ∧ opc &&& 0xF80F = 0x5007) :=
    fun m hm => row_tested hlt h2 htr' hm (k5 m hm)
  have hkept := k7 _ (kept_mem opc (modes row))
  have hsub : ∀ m ∈ (modes row).filter fun m => !omitted opc m, m ∈ modes row ∧ omitted opc m = false := by
    intro m hm
    rw [List.mem_filter, Bool.not_eq_true'] at hm
    exact hm
  have hlen : ((modes row).filter fun m => !omitted opc m).length ≤ 4 :=
    Nat.le_trans (List.length_filter_le _ _) k3
  have hcode := row_code hlt h2 k6
  have hnil : ((modes row).filter fun m => !omitted opc m) = [] → modes row = [] := by
    intro hx
    cases hm : modes row with
    | nil => rfl
    | cons m ms =>
      rw [hm] at hx k4
      have : omitted opc m = false := by
        cases m <;> first | rfl | exact absurd (show true = false from k4) (by decide)
      rw [List.filter_cons, this] at hx
      cases hx
  rw [operands_text o cpu addr opc k4] at he ⊢
  generalize hkm : ((modes row).filter fun m => !omitted opc m) = kept at *
  -- the name has operands
  have hhas : hasOperand cpu (row.name.map (letter o.upper)) = .ok (modes row != []) := by
    unfold hasIs at k2
    split at k2
    · rename_i x hx
      rw [hx, eq_of_beq k2]
    · cases k2
  -- the operands are read
  have hread : ∃ ops, Chain (Back cpu addr opc) kept ⟨rest, [b, c], .OK⟩
      (decodeList (decodeOperand o cpu addr opc) kept ⟨rest, [b, c], .OK⟩).2 ops ∧
      parseOperands (plug E addr) (modes row != []) (decodeList (decodeOperand o cpu addr opc) kept ⟨rest, [b, c], .OK⟩).1 =
        .ok (.ok (ops, [])) := by
    by_cases h0 : kept = []
    · rw [hnil h0, h0]
      exact ⟨[], rfl, rfl⟩
    · have hne : (modes row != []) = true := by
        rw [bne_iff_ne]
        intro hx
        rw [hx] at hkm
        exact h0 hkm.symm
      rw [hne]
      refine list_reads (fun s => ?_) (decode_mono o cpu addr opc) (fun m r r' op h => ?_) kept 4 _ h0 hlen
        ⟨hrest, by show 2 + _ ≤ _; omega⟩ (fun m hm k r hr he => ?_) he
      · rw [← parse_skip _ (' ' :: s), ← parse_skip _ s]
        rfl
      · obtain ⟨bs, t1, t2, _⟩ := h.enc
        refine ⟨bs, t1, ?_⟩
        rw [t2]
        cases m <;> decide
      · obtain ⟨g1, g2⟩ := hsub m hm
        obtain ⟨g3, g4, g5⟩ := hrows m g1
        exact operand_back ho hsym ha g3 g2 (fun hg hx => hrel ⟨g4 hg, hx⟩) hr.mem he
  obtain ⟨ops, hch, hparse⟩ := hread
  have hz : Mode.IM8W ∈ kept → rest.headD 0 = 0 := by
    intro hm
    obtain ⟨g1, g2⟩ := (hrows _ (hsub _ hm).1).2.2 rfl
    exact hcbi g1 g2
  have hch' := chain_byte hkept.1 hz hch
  -- they are put into the instruction
  obtain ⟨a', e1, e2, e3, bs, e4, e5⟩ := chain_emit (emit := encodeOperand cpu addr) (C := Nat)
    (Sync := fun a r x => a.err = .OK ∧ a.opc = x ∧ ∃ bs, a.ops = bs ∧ Took ⟨rest, [b, c], .OK⟩ r bs)
    (emb := fun m x => x ||| bitsOf m opc) kept _ _ ops ⟨.OK, row.opcode, []⟩ row.opcode (by
      intro m _ r r' op a x hR ⟨s1, s2, bs, s3, s4⟩
      obtain ⟨bs', t1, _, t3⟩ := hR.1.enc
      refine ⟨_, t3 hR.2 a s1, rfl, by rw [s2], bs ++ bs', by rw [s3], s4.trans t1⟩) hch'
    ⟨rfl, rfl, [], rfl, Took.refl rfl⟩
  refine ⟨bs, e5, ?_⟩
  unfold encodeImpl
  rw [hhas, Out.ok_bind, hparse, Out.ok_bind]
  dsimp only
  have htup := hkept.2 _ (chain_tuples kept _ _ ops hch)
  rw [pad_map]
  unfold rowIs at htup
  split at htup
  · rename_i s hs
    rw [show (({} : Operand).mode) = Mode.NONE from rfl, hs, Out.ok_bind]
    dsimp only
    simp only [Bool.and_eq_true, beq_iff_eq, Bool.or_eq_true, decide_eq_true_eq] at htup
    rw [emit_row htup.2 (chain_length kept _ _ ops hch) htup.1.1, htup.1.2, e1, Out.ok_bind]
    unfold bytes
    rw [e2, e3, hcode, e4, hb0, hc0]
  · cases htup

end

/-- What the disassembler prints of any bytes it takes without error assembles at the same address to
the same bytes without error, and nothing of the line is left; the bytes are the first of those given.
Missing are the cases in which it does not hold, each with a theorem `C79_violated_…`: only one byte to read the
code from (`short`); numbers in octal in the notation of the manufacturer (`octal`); the codes next to LR and STR of the
MN1613 (`transfer`); CBI of the MN1613 with a word of which the first byte is not 0 (`byte`); an address relative to the
instruction counter that is not one of the address space (`wrap`), or one of the first page when it is printed
relative to the location (`page`). Also, such addresses are shown to be read only with the symbol `*` for the location, the
one the assembler knows. -/
theorem C79_partial (o : Opts) (E : Env) (cpu : CpuType) (addr : Nat) (b c : Nat) (rest : List Nat) (sep : List Char)
    (hoct : o.octal = true → o.cstyle = true ∨ o.intelHex = true) (hsym : o.curSym = '*')
    (haddr : addr < 2 ^ (if cpu = .MN1610 then 16 else 18))
    (hbytes : ∀ x ∈ b :: c :: rest, x < 256)
    (hsep : sep ≠ [] ∧ ∀ c ∈ sep, Ctype.isSpace c = true)
    (htr : cpu ≠ .MN1610 → ¬ Spec.NoTransfer (b * 256 + c))
    (hcbi : cpu ≠ .MN1610 → Spec.CompareByte (b * 256 + c) → rest.headD 0 = 0)
    (hrel : Spec.CounterRelative (b * 256 + c) →
      0 ≤ addr + Spec.displacement (b * 256 + c) ∧
      addr + Spec.displacement (b * 256 + c) < 2 ^ (if cpu = .MN1610 then 16 else 18) ∧
      (o.relative = true → 256 ≤ addr + Spec.displacement (b * 256 + c)))
    (hd : (disassemble o cpu addr (b :: c :: rest)).err = .OK) :
    assemble E cpu addr ((disassemble o cpu addr (b :: c :: rest)).name ++ sep ++
        (disassemble o cpu addr (b :: c :: rest)).operands) =
      .ok (.insn ⟨.OK, (disassemble o cpu addr (b :: c :: rest)).bytes, []⟩) ∧
    (disassemble o cpu addr (b :: c :: rest)).bytes ≠ [] ∧
    (disassemble o cpu addr (b :: c :: rest)).bytes <+: b :: c :: rest := by
  have hwidth : (if cpu = .MN1610 then 16 else 18) = width cpu := by cases cpu <;> rfl
  rw [hwidth] at haddr hrel
  have hok : Config.checkAddr (width cpu) addr false = .OK := address_ok (by cases cpu <;> decide) haddr
  have hdis : disassemble o cpu addr (b :: c :: rest) = decodeImpl o cpu addr (b :: c :: rest) := by
    unfold disassemble decode
    rw [if_neg (by rw [hok]; simp)]
  rw [hdis] at hd ⊢
  have hb : b < 256 := hbytes b (List.mem_cons_self ..)
  have hc : c < 256 := hbytes c (List.mem_cons_of_mem _ (List.mem_cons_self ..))
  have hrest : ∀ x ∈ rest, x < 256 := fun x hx => hbytes x (List.mem_cons_of_mem _ (List.mem_cons_of_mem _ hx))
  have e : (⟨b :: c :: rest, [], .OK⟩ : Rd).be16 = (b * 256 + c, ⟨rest, [b, c], .OK⟩) := by
    show (b % 256 * 256 + c % 256, (⟨rest, [] ++ [b % 256] ++ [c % 256], .OK⟩ : Rd)) = _
    rw [Nat.mod_eq_of_lt hb, Nat.mod_eq_of_lt hc]
    rfl
  have hdisp : Spec.displacement (b * 256 + c) = int8 ((b * 256 + c) % 256) := by
    unfold Spec.displacement int8
    split <;> omega
  unfold decodeImpl at hd ⊢
  rw [e] at hd ⊢
  dsimp only at hd ⊢
  cases hrow : searchOpCode cpu (b * 256 + c) with
  | none => rw [hrow] at hd; cases hd
  | some row =>
    rw [hrow] at hd
    dsimp only at hd ⊢
    obtain ⟨h1, h2⟩ := found hrow
    have h3 : rowOk cpu o.upper row = true := rows_ok cpu o.upper h1
    have hn : nameB syntaxOf (row.name.map (letter o.upper)) = true := by
      unfold rowOk at h3
      simp only [Bool.and_eq_true] at h3
      exact h3.1.1.1.1.1.1
    obtain ⟨bs, h4, h5⟩ := impl_back (E := E) hoct hsym haddr hb hc hrest htr hcbi (fun hx => by
      obtain ⟨g1, g2, g3⟩ := hrel hx
      rw [hdisp] at g1 g2 g3
      exact ⟨g1, g2, g3⟩) hrow hd
    have e1 : (decodeOperands o cpu addr (b * 256 + c) (modes row) ⟨rest, [b, c], .OK⟩).2.bytes = b :: c :: bs := h4.bytes
    have e2 : rest = bs ++ (decodeOperands o cpu addr (b * 256 + c) (modes row) ⟨rest, [b, c], .OK⟩).2.mem := h4.mem
    rw [e1]
    refine ⟨?_, List.cons_ne_nil _ _, (decodeOperands o cpu addr (b * 256 + c) (modes row) ⟨rest, [b, c], .OK⟩).2.mem, by
      rw [List.cons_append, List.cons_append, ← e2]⟩
    exact encode_operands syntaxOk hn hsep (impl_skip _ _ _ _ _) hok h5

/-- The hypotheses of `C79_partial` hold of addresses of all kinds, of registers, conditions and numbers. -/
example :
    (disassemble (.default '*') .MN1610 0x200 [0xC8, 0xFF]).err = .OK ∧
    (disassemble (.default '*') .MN1610 0x200 [0xC8, 0xFF]).name = "L".toList ∧
    (disassemble (.default '*') .MN1610 0x200 [0xC8, 0xFF]).operands = "R0, X'01FF'-*(IC)".toList ∧
    Spec.CounterRelative 0xC8FF ∧ Spec.displacement 0xC8FF = -1 ∧
    (disassemble { Opts.default '*' with relative := true } .MN1610 0x200 [0xD8, 0x10]).operands = "R0, (*+16)".toList ∧
    (disassemble (.default '*') .MN1610 0x200 [0xE0, 0x10]).operands = "R0, 16(X0)".toList ∧
    (disassemble (.default '*') .MN1610 0x200 [0xF9, 0x10]).operands = "R1, (X'10')(X1)".toList ∧
    (disassemble (.default '*') .MN1610 0x200 [0x78, 0x1A]).err = .OK ∧
    (disassemble (.default '*') .MN1610 0x200 [0x78, 0x1A]).operands = "R0, R2, SKP".toList ∧
    (disassemble (.default '*') .MN1613 0x30000 [0x26, 0x07, 0x12, 0x34]).err = .OK ∧
    (disassemble (.default '*') .MN1613 0x30000 [0x26, 0x07, 0x12, 0x34]).operands = "X'1234'".toList ∧
    ¬ Spec.NoTransfer 0x21F2 ∧
    (disassemble (.default '*') .MN1613A 0 [0x21, 0xF2]).err = .OK ∧
    (disassemble (.default '*') .MN1613A 0 [0x21, 0xF2]).operands = "R1, TSR1, (R3)+".toList ∧
    Spec.CompareByte 0x5117 ∧
    (disassemble (.default '*') .MN1613 0 [0x51, 0x17, 0x00, 0x34]).err = .OK ∧
    (disassemble (.default '*') .MN1613 0 [0x51, 0x17, 0x00, 0x34]).operands = "R1, 52, SKP".toList := by
  decide +kernel

/-- Of a single byte, the first of a code, an instruction is made as if 0 came after it, without an error. -/
theorem C79_violated_short : ∀ b < 6,
    (disassemble (.default '*') .MN1610 0 [0xC0 + b]).err = .OK ∧
    (disassemble (.default '*') .MN1610 0 [0xC0 + b]).bytes = [0xC0 + b] := by
  decide +kernel

/-- An octal number of a listing is read as a decimal one, unless it starts with 0. -/
theorem C79_violated_octal :
    (disassemble { Opts.default '*' with octal := true } .MN1610 0 [0xC0, 0x4A]).err = .OK ∧
    (disassemble { Opts.default '*' with octal := true } .MN1610 0 [0xC0, 0x4A]).operands = "R0, 112".toList ∧
    assemble noEnv .MN1610 0 "L R0, 112".toList = .ok (.insn ⟨.OK, [0xC0, 0x70], []⟩) := by
  decide +kernel

/-- The codes next to LR and STR are printed as LR and STR with a register that does not change, which have other
codes. -/
theorem C79_violated_transfer :
    (disassemble (.default '*') .MN1613 0 [0x21, 0x00]).err = .OK ∧
    (disassemble (.default '*') .MN1613 0 [0x21, 0x00]).name = "LR".toList ∧
    (disassemble (.default '*') .MN1613 0 [0x21, 0x00]).operands = "R1, (R1)".toList ∧
    (disassemble (.default '*') .MN1613 0 [0x21, 0x04]).err = .OK ∧
    (disassemble (.default '*') .MN1613 0 [0x21, 0x04]).name = "STR".toList ∧
    (disassemble (.default '*') .MN1613 0 [0x21, 0x04]).operands = "R1, (R1)".toList ∧
    assemble noEnv .MN1613 0 "LR R1, (R1)".toList = .ok (.insn ⟨.OK, [0x21, 0x40], []⟩) ∧
    assemble noEnv .MN1613 0 "STR R1, (R1)".toList = .ok (.insn ⟨.OK, [0x21, 0x44], []⟩) := by
  decide +kernel

/-- Of the word of CBI only the second byte is printed. -/
theorem C79_violated_byte :
    (disassemble (.default '*') .MN1613 0 [0x50, 0x07, 0x12, 0x34]).err = .OK ∧
    (disassemble (.default '*') .MN1613 0 [0x50, 0x07, 0x12, 0x34]).bytes = [0x50, 0x07, 0x12, 0x34] ∧
    (disassemble (.default '*') .MN1613 0 [0x50, 0x07, 0x12, 0x34]).operands = "R0, 52".toList ∧
    assemble noEnv .MN1613 0 "CBI R0, 52".toList = .ok (.insn ⟨.OK, [0x50, 0x07, 0x00, 0x34], []⟩) := by
  decide +kernel

/-- An address before the first is printed as the one at the end of the address space, without an error, and what is
printed is refused. -/
theorem C79_violated_wrap :
    (disassemble (.default '*') .MN1610 0 [0xC8, 0xFF]).err = .OK ∧
    (disassemble (.default '*') .MN1610 0 [0xC8, 0xFF]).operands = "R0, X'FFFF'-*(IC)".toList ∧
    assemble noEnv .MN1610 0 "L R0, X'FFFF'-*(IC)".toList = .ok (.insn ⟨.OPERAND_TOO_FAR, [0xC8, 0xFF], []⟩) := by
  decide +kernel

/-- An address that is printed relative to the location is read as one of the first page, if it is there. -/
theorem C79_violated_page :
    (disassemble { Opts.default '*' with relative := true } .MN1610 0x20 [0xC8, 0x05]).err = .OK ∧
    (disassemble { Opts.default '*' with relative := true } .MN1610 0x20 [0xC8, 0x05]).operands = "R0, *+5".toList ∧
    assemble noEnv .MN1610 0x20 "L R0, *+5".toList = .ok (.insn ⟨.OK, [0xC0, 0x25], []⟩) := by
  decide +kernel

/-- What the assembler takes without an error although it is none, or has no such code: a closing parenthesis that is
missing, a register with a sign, the instruction counter as a condition, and addresses that do not fit the word. -/
theorem C79_unchecked :
    assemble noEnv .MN1610 0 "L R0, (5".toList = .ok (.insn ⟨.OK, [0xC0, 0x05], []⟩) ∧
    assemble noEnv .MN1610 0 "MV -R1, R1".toList = .ok (.insn ⟨.OK, [0x79, 0x09], []⟩) ∧
    assemble noEnv .MN1610 0 "MV R0, R1, IC".toList = .ok (.insn ⟨.OK, [0x78, 0x09], []⟩) ∧
    assemble noEnv .MN1613 0 "BD X'12345'".toList = .ok (.insn ⟨.OK, [0x26, 0x07, 0x23, 0x45], []⟩) ∧
    assemble noEnv .MN1613 0 "BL (X'12345')".toList = .ok (.insn ⟨.OK, [0x27, 0x0F, 0x23, 0x45], []⟩) := by
  decide +kernel

end Libasm.Cpu.Mn1610
