import Verif.Cpu.Back
import Verif.Cpu.Tms9900.Props
/-
C29 for the TMS9900: whatever line the assembler takes, the disassembler reads the bytes of it as one
instruction of the same name.
-/
namespace Libasm.Cpu.Tms9900
open Scan Number Eval
open Tables (Row)

/-! ### Operands -/

theorem hasError_ne {e : Err} (h : hasError e = true) : e ≠ .OK := by
  intro he
  rw [he] at h
  exact absurd h (by decide)

/-- What an operand may be. -/
def OpOk (op : Operand) : Prop :=
  (op.mode = .NONE ∨ op.mode = .IMM ∨ op.mode = .SYBL) ∨
  ((op.mode = .REG ∨ op.mode = .IREG ∨ op.mode = .INCR) ∧ ∃ n < 16, op.reg = some n) ∨
  (op.mode = .INDX ∧ ∃ n < 16, n ≠ 0 ∧ op.reg = some n)

theorem opOk_none : OpOk {} := Or.inl (Or.inl rfl)

theorem reg_small {s p : Scan} {n : Nat} (h : parseRegName s = some (n, p)) : n < 16 := by
  unfold parseRegName at h
  split at h
  · split at h
    · split at h
      · rename_i hn
        injection h with h
        injection h with h
        subst h
        exact hn
      · cases h
    · cases h
  · cases h

/-- What the parser gives. -/
def ParsedOk : Except (Err × Scan) (Operand × Scan) → Prop
  | .ok (op, _) => OpOk op
  | .error (e, _) => e ≠ .OK

theorem index_ok (start : Scan) (val : Value) (err : Err) (p : Scan) : ParsedOk (parseIndex start val err p) := by
  unfold parseIndex
  split
  · split
    · exact fun h => nomatch h
    · rename_i n q hr
      split
      · exact fun h => nomatch h
      · rename_i h0
        split
        · exact fun h => nomatch h
        · exact Or.inr (Or.inr ⟨rfl, n, reg_small hr, h0, rfl⟩)
  · exact Or.inl (Or.inr (Or.inr rfl))

theorem parse_ok {P : Plugins Value} {s : Scan} {x : Except (Err × Scan) (Operand × Scan)}
    (h : parseOperand P s = .ok x) : ParsedOk x := by
  unfold parseOperand at h
  dsimp only at h
  split at h
  · injection h with h
    subst h
    exact opOk_none
  · split at h
    · split at h
      · injection h with h
        subst h
        exact fun h => nomatch h
      · rename_i n q hr
        split at h
        · injection h with h
          subst h
          exact Or.inr (Or.inl ⟨Or.inr (Or.inr rfl), n, reg_small hr, rfl⟩)
        · injection h with h
          subst h
          exact Or.inr (Or.inl ⟨Or.inr (Or.inl rfl), n, reg_small hr, rfl⟩)
    · split at h
      · obtain ⟨⟨v, e', p⟩, h3, h4⟩ := bind_ok h
        dsimp only at h4
        split at h4
        · rename_i he
          injection h4 with h4
          subst h4
          exact hasError_ne he
        · injection h4 with h4
          subst h4
          exact index_ok _ _ _ _
      · split at h
        · rename_i n q hr
          injection h with h
          subst h
          exact Or.inr (Or.inl ⟨Or.inl rfl, n, reg_small hr, rfl⟩)
        · obtain ⟨⟨v, e', p⟩, h3, h4⟩ := bind_ok h
          dsimp only at h4
          split at h4
          · rename_i he
            injection h4 with h4
            subst h4
            exact hasError_ne he
          · injection h4 with h4
            subst h4
            exact Or.inl (Or.inr (Or.inl rfl))

/-! ### Encoding -/

theorem set_ok {a : Asm} {e : Err} (h : (a.setErrorIf e).err = .OK) : a.err = .OK ∧ a.setErrorIf e = a ∧ e = .OK := by
  have := setErrorIf_ok h
  exact ⟨this.1, by rw [this.2, Asm.noError], this.2⟩

theorem check_ok {a : Asm} {c : Bool} {e : Err} (he : e ≠ .OK) (h : (a.check c e).err = .OK) :
    a.err = .OK ∧ a.check c e = a ∧ c = false := by
  cases c with
  | false => exact ⟨h, rfl, rfl⟩
  | true => exact absurd (set_ok h).2.2 he

/-- What an operand does, and how it is read. -/
def Step (cpu : CpuType) (addr : Nat) (f : Flags) (m : Mode) (a a' : Asm) : Prop :=
  ∃ x y bs, a.err = .OK ∧ a' = ⟨.OK, a.opc ||| x, a.post ||| y, a.ops ++ bs⟩ ∧ opcBits m x = x ∧ postBits m y = y ∧
    (m = .SRC2 → f.dst = .BIT0 → y / 16 % 4 ≠ 3) ∧ (m = .RTWP → x = 0 ∨ x = 1 ∨ x = 2 ∨ x = 4) ∧
    ∀ (o : Opts) (opc post : Nat) (more pre : List Nat), opcBits m opc = x → postBits m post = y →
      (decodeOperand o cpu addr opc post f.byteOp m ⟨bs ++ more, pre, .OK⟩).2 = ⟨more, pre ++ bs, .OK⟩

section
variable {cpu : CpuType} {addr : Nat}

theorem asm_eta {a : Asm} (h : a.err = .OK) : a = ⟨.OK, a.opc, a.post, a.ops⟩ := by
  rw [← h]

theorem word_read (v : Nat) (more pre : List Nat) :
    (⟨[v / 256 % 256, v % 256] ++ more, pre, .OK⟩ : Rd).be16 =
      (v % 65536, ⟨more, pre ++ [v / 256 % 256, v % 256], .OK⟩) := by
  refine Prod.ext ?_ (two_bytes (by intro b hb; simp only [List.mem_cons, List.not_mem_nil, or_false] at hb; omega) rfl)
  unfold Rd.be16
  rw [List.cons_append, byte_some (by omega)]
  dsimp only
  rw [List.cons_append, byte_some (by omega)]
  show v / 256 % 256 * 256 + v % 256 = v % 65536
  omega

theorem getUnsigned_lt (v : Value) : v.getUnsigned < Config.W := by
  unfold Value.getUnsigned Config.W
  omega

/-- A general address. -/
theorem mode_step {byteOp : Bool} {op : Operand} {a : Asm} (hop : OpOk op)
    (hm : op.mode = .REG ∨ op.mode = .IREG ∨ op.mode = .INCR ∨ op.mode = .SYBL ∨ op.mode = .INDX)
    (he : (encodeMode cpu byteOp op a).2.err = .OK) :
    ∃ x bs, a.err = .OK ∧ encodeMode cpu byteOp op a = (x, { a with ops := a.ops ++ bs }) ∧ x < 64 ∧
      (x / 16 % 4 = 3 → op.mode = .INCR) ∧
      ∀ (o : Opts) (v : Nat) (more pre : List Nat), v % 64 = x →
        (decodeModeReg o cpu byteOp v ⟨bs ++ more, pre, .OK⟩).2 = ⟨more, pre ++ bs, .OK⟩ := by
  have hor : ∀ n k : Nat, n < 16 → n ||| k * 16 = k * 16 + n := by
    intro n k hn
    rw [Nat.or_comm, or_bits (k := 4) (by omega) (by omega)]
  have plain : ∀ (n k : Nat), n < 16 → k = 0 ∨ k = 1 ∨ k = 3 → (k = 3 → op.mode = .INCR) →
      encodeMode cpu byteOp op a = (k * 16 + n, a) →
      ∃ x bs, a.err = .OK ∧ encodeMode cpu byteOp op a = (x, { a with ops := a.ops ++ bs }) ∧ x < 64 ∧
      (x / 16 % 4 = 3 → op.mode = .INCR) ∧
      ∀ (o : Opts) (v : Nat) (more pre : List Nat), v % 64 = x →
        (decodeModeReg o cpu byteOp v ⟨bs ++ more, pre, .OK⟩).2 = ⟨more, pre ++ bs, .OK⟩ := by
    intro n k hn hk h3 e
    rw [e] at he
    refine ⟨k * 16 + n, [], he, by rw [e, List.append_nil], by omega, ?_, ?_⟩
    · intro h
      exact h3 (by omega)
    · intro o v more pre hv
      have hv : v / 16 % 4 = k := by omega
      unfold decodeModeReg
      dsimp only
      rw [hv, List.append_nil]
      rcases hk with rfl | rfl | rfl <;> rfl
  rcases hop with h | ⟨h, n, hn, hr⟩ | ⟨h, n, hn, h0, hr⟩
  · have h : op.mode = .SYBL := by
      rcases h with h | h | h
      · rw [h] at hm; exact absurd hm (by decide)
      · rw [h] at hm; exact absurd hm (by decide)
      · exact h
    have e : encodeMode cpu byteOp op a = (0x20, (a.setErrorIf (Config.checkAddr (width cpu) op.val.getUnsigned
        (!byteOp))).emit16 op.val.getUnsigned) := by
      unfold encodeMode
      dsimp only
      rw [h]
    rw [e] at he ⊢
    obtain ⟨k1, k2, k3⟩ := set_ok (show (a.setErrorIf _).err = .OK from he)
    rw [k2]
    refine ⟨0x20, _, k1, rfl, by decide, fun h => absurd h (by decide), ?_⟩
    intro o v more pre hv
    have hlt : op.val.getUnsigned % 65536 = op.val.getUnsigned := by
      have hg : op.val.getUnsigned < Config.W := getUnsigned_lt op.val
      have hle : 2 ^ width cpu ≤ 65536 := by cases cpu <;> decide
      rw [Config.checkAddr_eq _ (by cases cpu <;> decide) hg] at k3
      split at k3
      · cases k3
      · exact Nat.mod_eq_of_lt (by omega)
    unfold decodeModeReg
    dsimp only
    rw [show v / 16 % 4 = 2 by omega, show v % 16 = 0 by omega, word_read]
    dsimp only
    rw [if_pos rfl, hlt, k3]
    rfl
  · rcases h with h | h | h
    · refine plain n 0 hn (Or.inl rfl) (fun h => nomatch h) ?_
      unfold encodeMode
      dsimp only
      rw [h, hr]
      show (n, a) = _
      rw [Nat.zero_mul, Nat.zero_add]
    · refine plain n 1 hn (Or.inr (Or.inl rfl)) (fun h => nomatch h) ?_
      unfold encodeMode
      dsimp only
      rw [h, hr]
      show (n ||| 1 * 16, a) = _
      rw [hor n 1 hn]
    · refine plain n 3 hn (Or.inr (Or.inr rfl)) (fun _ => h) ?_
      unfold encodeMode
      dsimp only
      rw [h, hr]
      show (n ||| 3 * 16, a) = _
      rw [hor n 3 hn]
  · have e : encodeMode cpu byteOp op a = (2 * 16 + n, (a.check (decide (op.reg = some 0)) .REGISTER_NOT_ALLOWED).emit16
        op.val.getUnsigned) := by
      unfold encodeMode
      dsimp only
      rw [h, ← hor n 2 hn, hr]
      rfl
    rw [e] at he ⊢
    obtain ⟨k1, k2, k3⟩ := check_ok (by decide) (show (a.check _ _).err = .OK from he)
    rw [k2]
    refine ⟨2 * 16 + n, _, k1, rfl, by omega, fun h => by omega, ?_⟩
    intro o v more pre hv
    unfold decodeModeReg
    dsimp only
    rw [show v / 16 % 4 = 2 by omega, show v % 16 = n by omega, word_read]
    dsimp only
    rw [if_neg h0]
    rfl

theorem plain_step {f : Flags} {m : Mode} {a a' : Asm} {x y : Nat} (ha : a.err = .OK)
    (h : a' = ⟨.OK, a.opc ||| x, a.post ||| y, a.ops⟩) (hx : opcBits m x = x) (hy : postBits m y = y) (hs : m ≠ .SRC2)
    (hrt : m = .RTWP → x = 0 ∨ x = 1 ∨ x = 2 ∨ x = 4)
    (hd : ∀ o opc post r, (decodeOperand o cpu addr opc post f.byteOp m r).2 = r) : Step cpu addr f m a a' := by
  refine ⟨x, y, [], ha, by rw [h, List.append_nil], hx, hy, fun h => absurd h hs, hrt, ?_⟩
  intro o opc post more pre _ _
  rw [hd, List.append_nil]
  rfl

/-- Where the mode and the register go. -/
def place (m : Mode) (x : Nat) (a : Asm) : Asm :=
  match m with
  | .SRC => a.embed x
  | .SRC2 => a.embedPost x
  | .DST => a.embed (x * 64)
  | _ => a.embedPost (x * 64)

theorem modeReg_step {f : Flags} {m : Mode} {op : Operand} {a a' : Asm} (hop : OpOk op)
    (hm : m = .SRC ∨ m = .DST ∨ m = .SRC2 ∨ m = .DST0 ∨ m = .DST4) (hacc : acceptMode op.mode m = true)
    (h : encodeOperand cpu addr f m op a = .ok a') (he : a'.err = .OK) : Step cpu addr f m a a' := by
  have hmode : op.mode = .REG ∨ op.mode = .IREG ∨ op.mode = .INCR ∨ op.mode = .SYBL ∨ op.mode = .INDX := by
    rcases hop with h | ⟨h, _⟩ | ⟨h, _⟩
    · rcases h with h | h | h
      · rw [h] at hacc; rcases hm with rfl | rfl | rfl | rfl | rfl <;> exact absurd hacc (by decide)
      · rw [h] at hacc; rcases hm with rfl | rfl | rfl | rfl | rfl <;> exact absurd hacc (by decide)
      · simp [h]
    · rcases h with h | h | h <;> simp [h]
    · simp [h]
  have key : ∀ (b b' : Asm), encodeModeReg cpu f m op b = b' → b'.err = .OK →
      b.err = .OK ∧ ∃ x bs, x < 64 ∧ (m = .SRC2 → f.dst = .BIT0 → x / 16 % 4 ≠ 3) ∧
        (∀ (o : Opts) (v : Nat) (more pre : List Nat), v % 64 = x →
          (decodeModeReg o cpu f.byteOp v ⟨bs ++ more, pre, .OK⟩).2 = ⟨more, pre ++ bs, .OK⟩) ∧
        b' = place m x { b with ops := b.ops ++ bs } := by
    intro b b' hb hb'
    subst hb
    unfold encodeModeReg at hb' ⊢
    dsimp only at hb' ⊢
    have e2 : (encodeMode cpu f.byteOp op (b.check (decide (m = .SRC2 ∧ f.dst = .BIT0 ∧ op.mode = .INCR))
        .OPERAND_NOT_ALLOWED)).2.err = .OK := by
      rcases hm with rfl | rfl | rfl | rfl | rfl <;> exact hb'
    obtain ⟨x, bs, k1, k2, k3, k4, k5⟩ := mode_step hop hmode e2
    obtain ⟨c1, c2, c3⟩ := check_ok (by decide) k1
    rw [k2, c2]
    refine ⟨c1, x, bs, k3, ?_, k5, by unfold place; rfl⟩
    intro h1 h2 h3
    exact absurd ⟨h1, h2, k4 h3⟩ (of_decide_eq_false c3)
  rcases hm with rfl | rfl | rfl | rfl | rfl
  · have h : Out.ok (encodeModeReg cpu f .SRC op (a.setErrorIf op.err)) = .ok a' := h
    injection h with h
    obtain ⟨k1, x, bs, k2, k3, k4, k5⟩ := key _ _ h he
    obtain ⟨s1, s2, _⟩ := set_ok k1
    rw [s2] at k5
    refine ⟨x, 0, bs, s1, ?_, Nat.mod_eq_of_lt k2, rfl, (fun h => nomatch h), (fun h => nomatch h), ?_⟩
    · rw [k5]
      unfold place
      dsimp only
      rw [embed_lt _ (by omega), s1, Nat.or_zero]
    · intro o opc post more pre h1 _
      exact k4 o opc more pre h1
  · have h : Out.ok (encodeModeReg cpu f .DST op (a.setErrorIf op.err)) = .ok a' := h
    injection h with h
    obtain ⟨k1, x, bs, k2, k3, k4, k5⟩ := key _ _ h he
    obtain ⟨s1, s2, _⟩ := set_ok k1
    rw [s2] at k5
    refine ⟨x * 64, 0, bs, s1, ?_, ?_, rfl, (fun h => nomatch h), (fun h => nomatch h), ?_⟩
    · rw [k5]
      unfold place
      dsimp only
      rw [embed_lt _ (by omega), s1, Nat.or_zero]
    · show x * 64 / 64 % 64 * 64 = x * 64
      omega
    · intro o opc post more pre h1 _
      have h1 : opc / 64 % 64 * 64 = x * 64 := h1
      exact k4 o (opc / 64) more pre (by omega)
  · have h : Out.ok (encodeModeReg cpu f .SRC2 op (a.setErrorIf op.err)) = .ok a' := h
    injection h with h
    obtain ⟨k1, x, bs, k2, k3, k4, k5⟩ := key _ _ h he
    obtain ⟨s1, s2, _⟩ := set_ok k1
    rw [s2] at k5
    refine ⟨0, x, bs, s1, ?_, rfl, Nat.mod_eq_of_lt k2, k3, (fun h => nomatch h), ?_⟩
    · rw [k5]
      unfold place
      dsimp only
      rw [embedPost_lt _ (by omega), s1, Nat.or_zero]
    · intro o opc post more pre _ h1
      exact k4 o post more pre h1
  · have h : Out.ok (encodeModeReg cpu f .DST0 op (a.setErrorIf op.err)) = .ok a' := h
    injection h with h
    obtain ⟨k1, x, bs, k2, k3, k4, k5⟩ := key _ _ h he
    obtain ⟨s1, s2, _⟩ := set_ok k1
    rw [s2] at k5
    refine ⟨0, x * 64, bs, s1, ?_, rfl, ?_, (fun h => nomatch h), (fun h => nomatch h), ?_⟩
    · rw [k5]
      unfold place
      dsimp only
      rw [embedPost_lt _ (by omega), s1, Nat.or_zero]
    · show x * 64 / 64 % 64 * 64 = x * 64
      omega
    · intro o opc post more pre _ h1
      have h1 : post / 64 % 64 * 64 = x * 64 := h1
      exact k4 o (post / 64) more pre (by omega)
  · have h : Out.ok (encodeModeReg cpu f .DST4 op ((a.setErrorIf op.err).embedPost 0x4000)) = .ok a' := h
    injection h with h
    obtain ⟨k1, x, bs, k2, k3, k4, k5⟩ := key _ _ h he
    obtain ⟨s1, s2, _⟩ := set_ok (show (a.setErrorIf op.err).err = .OK from k1)
    rw [s2] at k5
    have hor : ∀ z < 64, 0x4000 ||| z * 64 = 0x4000 + z * 64 := by
      intro z hz
      exact or_bits (k := 12) (by decide) (by omega)
    refine ⟨0, 0x4000 ||| x * 64, bs, s1, ?_, rfl, ?_, (fun h => nomatch h), (fun h => nomatch h), ?_⟩
    · rw [k5]
      unfold place
      dsimp only
      rw [embedPost_lt _ (by omega), embedPost_lt _ (by omega), Nat.or_zero]
      dsimp only
      rw [s1, Nat.or_assoc]
    · show 0x4000 ||| (0x4000 ||| x * 64) / 64 % 64 * 64 = _
      rw [hor x k2, show (0x4000 + x * 64) / 64 % 64 = x by omega, hor x k2]
    · intro o opc post more pre _ h1
      have h1 : 0x4000 ||| post / 64 % 64 * 64 = 0x4000 ||| x * 64 := h1
      rw [hor x k2, hor _ (by omega)] at h1
      exact k4 o (post / 64) more pre (by omega)

theorem rel_step {f : Flags} {op : Operand} {a a' : Asm} (haddr : addr + 2 ≤ 2 ^ width cpu)
    (h : encodeOperand cpu addr f .REL op a = .ok a') (he : a'.err = .OK) : Step cpu addr f .REL a a' := by
  have hw : width cpu = 14 ∨ width cpu = 16 := by cases cpu <;> decide
  have hle : 2 ^ width cpu ≤ 65536 := by rcases hw with h | h <;> rw [h] <;> decide
  have hw0 : 0 < width cpu ∧ width cpu ≤ 32 := by omega
  have h : encodeRelative cpu addr op (a.setErrorIf op.err) = .ok a' := h
  unfold encodeRelative at h
  dsimp only at h
  obtain ⟨⟨d, e⟩, h1, h2⟩ := bind_ok h
  obtain ⟨far, h3, h4⟩ := bind_ok h2
  injection h4 with h4
  subst h4
  obtain ⟨c1, c2, c3⟩ := check_ok (by decide)
    (show (({ Asm.setErrorIf _ _ with err := e } : Asm).check far .OPERAND_TOO_FAR).err = .OK from he)
  have hb : Config.branchDelta (width cpu) (addr + 2) (if op.err ≠ .OK then addr + 2 else op.val.getUnsigned)
      ((a.setErrorIf op.err).setErrorIf (Config.checkAddr (width cpu)
        (if op.err ≠ .OK then addr + 2 else op.val.getUnsigned) true)).err = some (d, e) := by
    cases hx : Config.branchDelta (width cpu) (addr + 2) (if op.err ≠ .OK then addr + 2 else op.val.getUnsigned)
      ((a.setErrorIf op.err).setErrorIf (Config.checkAddr (width cpu)
        (if op.err ≠ .OK then addr + 2 else op.val.getUnsigned) true)).err with
    | none => rw [hx] at h1; cases h1
    | some x => rw [hx] at h1; injection h1 with h1; rw [h1]
  have c1 : e = .OK := c1
  generalize ht : (if op.err ≠ .OK then addr + 2 else op.val.getUnsigned) = t at *
  have htW : t < Config.W := by
    rw [← ht]
    split
    · show addr + 2 < 4294967296
      omega
    · exact getUnsigned_lt _
  obtain ⟨b1, b2, b3⟩ := branch_back hw0.1 hw0.2 haddr (show addr + 2 < 4294967296 by omega) htW hb c1
  obtain ⟨s1, s2, s3⟩ := set_ok b1
  obtain ⟨s4, s5, s6⟩ := set_ok s1
  rw [c2, s2, s5]
  have hfar : -128 ≤ d.tdiv 2 ∧ d.tdiv 2 < 128 := by
    rw [Config.overflowDelta_eq (by decide) (by decide)] at h3
    have h3 : Out.ok _ = .ok far := h3
    injection h3 with h3
    rw [c3] at h3
    have := of_decide_eq_false h3
    simp only [Nat.reduceSub, Nat.reducePow] at this
    omega
  have hdiv : (0 ≤ d → d.tdiv 2 = d / 2) ∧ (d < 0 → d.tdiv 2 = -(-d / 2)) := by
    constructor
    · intro h0
      exact Int.tdiv_eq_ediv_of_nonneg h0
    · intro h0
      have := Int.neg_tdiv (a := -d) (b := 2)
      rw [Int.neg_neg] at this
      rw [this, Int.tdiv_eq_ediv_of_nonneg (by omega)]
  generalize d.tdiv 2 = q at *
  refine ⟨(q % 256).toNat, 0, [], s4, ?_, ?_, rfl, (fun h => nomatch h), (fun h => nomatch h), ?_⟩
  · rw [embed_lt _ (by omega), c1, Nat.or_zero, List.append_nil]
  · show (q % 256).toNat % 256 = _
    omega
  · intro o opc post more pre hx _
    have hx : opc % 256 = (q % 256).toNat := hx
    show (decodeRelative o cpu addr opc _).2 = _
    unfold decodeRelative
    dsimp only
    have hi : int8 (opc % 256) = q := by
      rw [hx]
      unfold int8
      split <;> omega
    rw [hi, List.append_nil]
    have hW : (Config.W : Int) = 4294967296 := rfl
    have heven : t % 2 = 0 := by
      rw [Config.checkAddr_eq true hw0.2 htW, if_neg (by omega)] at s3
      split at s3
      · cases s3
      · rename_i hx
        have : ¬ t % 2 = 1 := fun h => hx ⟨rfl, h⟩
        omega
    have hpow : 2 ^ width cpu % 2 = 0 := by rcases hw with h | h <;> rw [h] <;> decide
    have hlt : ((((addr + 2 : Nat) : Int) + q * 2) % Config.W).toNat < 2 ^ width cpu := by
      rw [hW]
      omega
    rw [Config.checkAddr_eq false hw0.2 (Nat.lt_of_lt_of_le hlt (by have : Config.W = 4294967296 := rfl
                                                                    omega)), if_neg (by omega), if_neg (fun h => absurd h.1 (by decide))]
    rfl

/-- Every operand of the table. -/
theorem operand_step {f : Flags} {m : Mode} {op : Operand} {a a' : Asm} (haddr : addr + 2 ≤ 2 ^ width cpu) (hop : OpOk op)
    (hm : m ≠ .IREG ∧ m ≠ .INCR ∧ m ≠ .SYBL ∧ m ≠ .INDX ∧ m ≠ .UNDEF) (hacc : acceptMode op.mode m = true)
    (h : encodeOperand cpu addr f m op a = .ok a') (he : a'.err = .OK) : Step cpu addr f m a a' := by
  have reg : acceptMode op.mode m = true → m = .REG ∨ m = .DREG → ∃ n < 16, op.reg = some n := by
    intro h1 h2
    rcases hop with h | ⟨_, h⟩ | ⟨h, _⟩
    · rcases h with h | h | h <;> rw [h] at h1 <;> rcases h2 with rfl | rfl <;> exact absurd h1 (by decide)
    · exact h
    · rw [h] at h1
      rcases h2 with rfl | rfl <;> exact absurd h1 (by decide)
  cases m with
  | IREG => exact absurd rfl hm.1
  | INCR => exact absurd rfl hm.2.1
  | SYBL => exact absurd rfl hm.2.2.1
  | INDX => exact absurd rfl hm.2.2.2.1
  | UNDEF => exact absurd rfl hm.2.2.2.2
  | SRC => exact modeReg_step hop (by decide) hacc h he
  | SRC2 => exact modeReg_step hop (by decide) hacc h he
  | DST => exact modeReg_step hop (by decide) hacc h he
  | DST0 => exact modeReg_step hop (by decide) hacc h he
  | DST4 => exact modeReg_step hop (by decide) hacc h he
  | REL => exact rel_step haddr h he
  | NONE =>
    have h : Out.ok (a.setErrorIf op.err) = .ok a' := h
    injection h with h
    subst h
    obtain ⟨s1, s2, _⟩ := set_ok he
    rw [s2]
    refine plain_step s1 (x := 0) (y := 0) ?_ rfl rfl (by decide) (fun h => nomatch h) (fun _ _ _ _ => rfl)
    rw [Nat.or_zero, Nat.or_zero]
    exact asm_eta s1
  | IMM =>
    have h : Out.ok ((a.setErrorIf op.err).emit16 op.val.getUnsigned) = .ok a' := h
    injection h with h
    subst h
    obtain ⟨s1, s2, _⟩ := set_ok (show (a.setErrorIf op.err).err = .OK from he)
    rw [s2]
    refine ⟨0, 0, [op.val.getUnsigned / 256 % 256, op.val.getUnsigned % 256], s1, ?_, rfl, rfl, (fun h => nomatch h),
      (fun h => nomatch h), ?_⟩
    · rw [Nat.or_zero, Nat.or_zero, ← s1]
      rfl
    · intro o opc post more pre _ _
      show (Rd.be16 ⟨[op.val.getUnsigned / 256 % 256, op.val.getUnsigned % 256] ++ more, pre, .OK⟩).2 = _
      rw [word_read]
  | REG =>
    obtain ⟨n, hn, hr⟩ := reg hacc (Or.inl rfl)
    have h : Out.ok ((a.setErrorIf op.err).embed (encodeReg op.reg)) = .ok a' := h
    injection h with h
    subst h
    obtain ⟨s1, s2, _⟩ := set_ok (show (a.setErrorIf op.err).err = .OK from he)
    rw [s2, hr]
    refine plain_step s1 (x := n) (y := 0) ?_ (Nat.mod_eq_of_lt hn) rfl (by decide) (fun h => nomatch h) (fun _ _ _ _ => rfl)
    show a.embed n = _
    rw [embed_lt _ (by omega), Nat.or_zero, s1]
  | DREG =>
    obtain ⟨n, hn, hr⟩ := reg hacc (Or.inr rfl)
    have h : Out.ok ((a.setErrorIf op.err).embed (encodeReg op.reg * 64)) = .ok a' := h
    injection h with h
    subst h
    obtain ⟨s1, s2, _⟩ := set_ok (show (a.setErrorIf op.err).err = .OK from he)
    rw [s2, hr]
    refine plain_step s1 (x := n * 64) (y := 0) ?_ ?_ rfl (by decide) (fun h => nomatch h) (fun _ _ _ _ => rfl)
    · show a.embed (n * 64) = _
      rw [embed_lt _ (by omega), Nat.or_zero, s1]
    · show n * 64 / 64 % 16 * 64 = _
      omega
  | CRU =>
    have h : Out.ok (((a.setErrorIf op.err).check op.val.overflowInt16 .OVERFLOW_RANGE).embed
      (op.val.getUnsigned % 256)) = .ok a' := h
    injection h with h
    subst h
    obtain ⟨c1, c2, _⟩ := check_ok (by decide)
      (show ((a.setErrorIf op.err).check op.val.overflowInt16 .OVERFLOW_RANGE).err = .OK from he)
    obtain ⟨s1, s2, _⟩ := set_ok c1
    rw [c2, s2]
    refine plain_step s1 (x := op.val.getUnsigned % 256) (y := 0) ?_ (Nat.mod_mod _ _) rfl (by decide)
      (fun h => nomatch h) (fun _ _ _ _ => rfl)
    rw [embed_lt _ (by omega), Nat.or_zero, s1]
  | CNT =>
    have h : Out.ok (((a.setErrorIf op.err).check (op.val.isZero || op.val.overflow 16 0) .OVERFLOW_RANGE).embed
      (op.val.getUnsigned % 16 * 64)) = .ok a' := h
    injection h with h
    subst h
    obtain ⟨c1, c2, _⟩ := check_ok (by decide)
      (show ((a.setErrorIf op.err).check (op.val.isZero || op.val.overflow 16 0) .OVERFLOW_RANGE).err = .OK from he)
    obtain ⟨s1, s2, _⟩ := set_ok c1
    rw [c2, s2]
    refine plain_step s1 (x := op.val.getUnsigned % 16 * 64) (y := 0) ?_ ?_ rfl (by decide)
      (fun h => nomatch h) (fun _ _ _ _ => rfl)
    · rw [embed_lt _ (by omega), Nat.or_zero, s1]
    · show op.val.getUnsigned % 16 * 64 / 64 % 16 * 64 = _
      omega
  | XOP =>
    have h : Out.ok (((a.setErrorIf op.err).check (op.val.overflow 15 0) .OVERFLOW_RANGE).embed
      (op.val.getUnsigned % 16 * 64)) = .ok a' := h
    injection h with h
    subst h
    obtain ⟨c1, c2, _⟩ := check_ok (by decide)
      (show ((a.setErrorIf op.err).check (op.val.overflow 15 0) .OVERFLOW_RANGE).err = .OK from he)
    obtain ⟨s1, s2, _⟩ := set_ok c1
    rw [c2, s2]
    refine plain_step s1 (x := op.val.getUnsigned % 16 * 64) (y := 0) ?_ ?_ rfl (by decide)
      (fun h => nomatch h) (fun _ _ _ _ => rfl)
    · rw [embed_lt _ (by omega), Nat.or_zero, s1]
    · show op.val.getUnsigned % 16 * 64 / 64 % 16 * 64 = _
      omega
  | SCNT =>
    unfold encodeOperand at h
    dsimp only at h
    split at h
    · injection h with h
      subst h
      obtain ⟨c1, c2, _⟩ := check_ok (by decide) he
      obtain ⟨s1, s2, _⟩ := set_ok c1
      rw [c2, s2]
      refine plain_step s1 (x := 0) (y := 0) ?_ rfl rfl (by decide) (fun h => nomatch h) (fun _ _ _ _ => rfl)
      rw [Nat.or_zero, Nat.or_zero]
      exact asm_eta s1
    · split at h
      · injection h with h
        subst h
        obtain ⟨_, _, c3⟩ := set_ok (show (Asm.setErrorIf _ .OPERAND_NOT_ALLOWED).err = .OK from he)
        cases c3
      · injection h with h
        subst h
        obtain ⟨c1, c2, _⟩ := check_ok (by decide)
          (show ((a.setErrorIf op.err).check (op.val.overflow 15 0) .OVERFLOW_RANGE).err = .OK from he)
        obtain ⟨s1, s2, _⟩ := set_ok c1
        rw [c2, s2]
        refine plain_step s1 (x := op.val.getUnsigned % 16 * 16) (y := 0) ?_ ?_ rfl (by decide)
          (fun h => nomatch h) (fun _ _ _ _ => rfl)
        · rw [embed_lt _ (by omega), Nat.or_zero, s1]
        · show op.val.getUnsigned % 16 * 16 / 16 % 16 * 16 = _
          omega
  | BIT0 =>
    have h : Out.ok (((a.setErrorIf op.err).check (op.val.overflow 15 0) .OVERFLOW_RANGE).embedPost
      (op.val.getUnsigned % 16 * 64)) = .ok a' := h
    injection h with h
    subst h
    obtain ⟨c1, c2, _⟩ := check_ok (by decide)
      (show ((a.setErrorIf op.err).check (op.val.overflow 15 0) .OVERFLOW_RANGE).err = .OK from he)
    obtain ⟨s1, s2, _⟩ := set_ok c1
    rw [c2, s2]
    refine plain_step s1 (x := 0) (y := op.val.getUnsigned % 16 * 64) ?_ rfl ?_ (by decide)
      (fun h => nomatch h) (fun _ _ _ _ => rfl)
    · rw [embedPost_lt _ (by omega), Nat.or_zero, s1]
    · show op.val.getUnsigned % 16 * 64 / 64 % 16 * 64 = _
      omega
  | CNT4 =>
    have hor : ∀ z < 16, 0x4000 ||| z * 64 = 0x4000 + z * 64 := by
      intro z hz
      exact or_bits (k := 10) (by decide) (by omega)
    unfold encodeOperand at h
    dsimp only at h
    split at h
    · injection h with h
      subst h
      obtain ⟨c1, c2, _⟩ := check_ok (by decide) he
      obtain ⟨s1, s2, _⟩ := set_ok (show (a.setErrorIf op.err).err = .OK from c1)
      rw [c2, s2]
      refine plain_step s1 (x := 0) (y := 0x4000) ?_ rfl rfl (by decide) (fun h => nomatch h) (fun _ _ _ _ => rfl)
      rw [embedPost_lt _ (by omega), Nat.or_zero, s1]
    · injection h with h
      subst h
      obtain ⟨c1, c2, _⟩ := check_ok (by decide)
        (show ((Asm.check _ op.val.isZero .OPERAND_NOT_ALLOWED).check (op.val.overflow 15 0) .OVERFLOW_RANGE).err = .OK from he)
      obtain ⟨c3, c4, _⟩ := check_ok (by decide) c1
      obtain ⟨s1, s2, _⟩ := set_ok (show (a.setErrorIf op.err).err = .OK from c3)
      unfold encodeBit
      rw [c2, c4, s2]
      refine plain_step s1 (x := 0) (y := 0x4000 ||| op.val.getUnsigned % 16 * 64) ?_ rfl ?_ (by decide)
        (fun h => nomatch h) (fun _ _ _ _ => rfl)
      · rw [embedPost_lt _ (by omega), embedPost_lt _ (by omega), Nat.or_zero]
        dsimp only
        rw [s1, Nat.or_assoc]
      · show 0x4000 ||| (0x4000 ||| op.val.getUnsigned % 16 * 64) / 64 % 16 * 64 = _
        rw [hor (op.val.getUnsigned % 16) (by omega),
          show (0x4000 + op.val.getUnsigned % 16 * 64) / 64 % 16 = op.val.getUnsigned % 16 by omega,
          hor (op.val.getUnsigned % 16) (by omega)]
  | RTWP =>
    have h : Out.ok (((a.setErrorIf op.err).check (op.val.isNegative || decide (op.val.getUnsigned = 3 ∨
      op.val.getUnsigned > 4)) .OPERAND_NOT_ALLOWED).embed (op.val.getUnsigned % 8)) = .ok a' := h
    injection h with h
    subst h
    obtain ⟨c1, c2, c3⟩ := check_ok (by decide)
      (show ((a.setErrorIf op.err).check (op.val.isNegative || decide (op.val.getUnsigned = 3 ∨
        op.val.getUnsigned > 4)) .OPERAND_NOT_ALLOWED).err = .OK from he)
    obtain ⟨s1, s2, _⟩ := set_ok c1
    rw [c2, s2]
    rw [Bool.or_eq_false_iff] at c3
    have c3 := of_decide_eq_false c3.2
    refine plain_step s1 (x := op.val.getUnsigned % 8) (y := 0) ?_ (Nat.mod_mod _ _) rfl (by decide)
      (fun _ => by omega) (fun _ _ _ _ => rfl)
    rw [embed_lt _ (by omega), Nat.or_zero, s1]

end

/-! ### The code -/

/-- How many of the lower bits of the code are of the operands. -/
def low (src dst : Mode) : Nat :=
  match src, dst with
  | .REG, .SCNT | .REL, _ | .CRU, _ => 8
  | .REG, _ => 4
  | .SRC, .NONE => 6
  | .SRC, .DST => 12
  | .SRC, _ => 10
  | _, _ => 0

theorem mask_low {f : Flags} {opc : Nat} (h : (f.src, f.dst) ∈ shapes) (hopc : opc < 65536) :
    mask f opc = opc / 2 ^ low f.src f.dst * 2 ^ low f.src f.dst := by
  obtain ⟨src, dst, b⟩ := f
  have zero : opc = opc / 2 ^ 0 * 2 ^ 0 := by omega
  simp only [shapes, List.mem_cons, List.not_mem_nil, or_false, Prod.mk.injEq] at h
  rcases h with ⟨rfl, rfl⟩ | ⟨rfl, rfl⟩ | ⟨rfl, rfl⟩ | ⟨rfl, rfl⟩ | ⟨rfl, rfl⟩ | ⟨rfl, rfl⟩ | ⟨rfl, rfl⟩ |
    ⟨rfl, rfl⟩ | ⟨rfl, rfl⟩ | ⟨rfl, rfl⟩ | ⟨rfl, rfl⟩ | ⟨rfl, rfl⟩ | ⟨rfl, rfl⟩ | ⟨rfl, rfl⟩ | ⟨rfl, rfl⟩ |
    ⟨rfl, rfl⟩ | ⟨rfl, rfl⟩
  · exact zero
  · rfl
  · rfl
  · exact zero
  · rfl
  · show opc / 16 * 16 - opc / 16 * 16 / 16 % 16 * 16 = opc / 256 * 256
    omega
  · rfl
  · rfl
  · show opc / 64 * 64 - opc / 64 * 64 / 64 % 16 * 64 = opc / 1024 * 1024
    omega
  · show opc / 64 * 64 - opc / 64 * 64 / 64 % 16 * 64 = opc / 1024 * 1024
    omega
  · show opc / 64 * 64 - opc / 64 * 64 / 64 % 16 * 64 = opc / 1024 * 1024
    omega
  · show opc / 64 * 64 - opc / 64 * 64 / 64 % 64 * 64 = opc / 4096 * 4096
    omega
  all_goals exact zero

/-- What two operands make of the code, and how it is taken apart. -/
theorem code_step {f : Flags} {c x1 x2 : Nat} (h : (f.src, f.dst) ∈ shapes) (hr : f.src ≠ .RTWP) (hc : c < 65536)
    (hz : c % 2 ^ low f.src f.dst = 0) (h1 : opcBits f.src x1 = x1) (h2 : opcBits f.dst x2 = x2) :
    (c ||| x1 ||| x2) < 65536 ∧ mask f (c ||| x1 ||| x2) = c ∧ opcBits f.src (c ||| x1 ||| x2) = x1 ∧
    opcBits f.dst (c ||| x1 ||| x2) = x2 := by
  obtain ⟨src, dst, b⟩ := f
  have none : ∀ {m m'}, opcBits m x1 = 0 → opcBits m' x2 = 0 → opcBits m x1 = x1 → opcBits m' x2 = x2 →
      c ||| x1 ||| x2 = c ∧ x1 = 0 ∧ x2 = 0 := by
    intro m m' k1 k2 k3 k4
    rw [k1] at k3
    rw [k2] at k4
    subst k3 k4
    exact ⟨by rw [Nat.or_zero, Nat.or_zero], rfl, rfl⟩
  have one : ∀ k, c % 2 ^ k = 0 → x1 < 2 ^ k → 0 = x2 → c ||| x1 ||| x2 = c + x1 := by
    intro k k1 k2 k3
    rw [← k3, Nat.or_zero, or_bits k1 k2]
  have two : ∀ j k : Nat, c % 2 ^ k = 0 → x2 % 2 ^ j = 0 → x1 < 2 ^ j → x2 + x1 < 2 ^ k →
      c ||| x1 ||| x2 = c + (x2 + x1) := by
    intro j k h1 h2 h3 h4
    rw [Nat.or_assoc, Nat.or_comm x1, or_bits h2 h3, or_bits h1 h4]
  simp only [shapes, List.mem_cons, List.not_mem_nil, or_false, Prod.mk.injEq] at h
  rcases h with ⟨rfl, rfl⟩ | ⟨rfl, rfl⟩ | ⟨rfl, rfl⟩ | ⟨rfl, rfl⟩ | ⟨rfl, rfl⟩ | ⟨rfl, rfl⟩ | ⟨rfl, rfl⟩ |
    ⟨rfl, rfl⟩ | ⟨rfl, rfl⟩ | ⟨rfl, rfl⟩ | ⟨rfl, rfl⟩ | ⟨rfl, rfl⟩ | ⟨rfl, rfl⟩ | ⟨rfl, rfl⟩ | ⟨rfl, rfl⟩ |
    ⟨rfl, rfl⟩ | ⟨rfl, rfl⟩
  · obtain ⟨k1, k2, k3⟩ := none rfl rfl h1 h2
    rw [k1]
    exact ⟨hc, rfl, k2.symm, k3.symm⟩
  · have h1 : x1 % 16 = x1 := h1
    have h2 : 0 = x2 := h2
    have hz : c % 2 ^ 4 = 0 := hz
    rw [one 4 hz (by omega) h2]
    exact ⟨by omega, show (c + x1) / 16 * 16 = c by omega, show (c + x1) % 16 = x1 by omega, h2⟩
  · have h1 : x1 % 16 = x1 := h1
    have h2 : 0 = x2 := h2
    have hz : c % 2 ^ 4 = 0 := hz
    rw [one 4 hz (by omega) h2]
    exact ⟨by omega, show (c + x1) / 16 * 16 = c by omega, show (c + x1) % 16 = x1 by omega, h2⟩
  · obtain ⟨k1, k2, k3⟩ := none rfl rfl h1 h2
    rw [k1]
    exact ⟨hc, rfl, k2.symm, k3.symm⟩
  · have h1 : x1 % 64 = x1 := h1
    have h2 : 0 = x2 := h2
    have hz : c % 2 ^ 6 = 0 := hz
    rw [one 6 hz (by omega) h2]
    exact ⟨by omega, show (c + x1) / 64 * 64 = c by omega, show (c + x1) % 64 = x1 by omega, h2⟩
  · have h1 : x1 % 16 = x1 := h1
    have h2 : x2 / 16 % 16 * 16 = x2 := h2
    have hz : c % 2 ^ 8 = 0 := hz
    rw [two 4 8 hz (by omega) (by omega) (by omega)]
    exact ⟨by omega, show (c + (x2 + x1)) / 16 * 16 - (c + (x2 + x1)) / 16 * 16 / 16 % 16 * 16 = c by omega,
      show (c + (x2 + x1)) % 16 = x1 by omega, show (c + (x2 + x1)) / 16 % 16 * 16 = x2 by omega⟩
  · have h1 : x1 % 256 = x1 := h1
    have h2 : 0 = x2 := h2
    have hz : c % 2 ^ 8 = 0 := hz
    rw [one 8 hz (by omega) h2]
    exact ⟨by omega, show (c + x1) / 256 * 256 = c by omega, show (c + x1) % 256 = x1 by omega, h2⟩
  · have h1 : x1 % 256 = x1 := h1
    have h2 : 0 = x2 := h2
    have hz : c % 2 ^ 8 = 0 := hz
    rw [one 8 hz (by omega) h2]
    exact ⟨by omega, show (c + x1) / 256 * 256 = c by omega, show (c + x1) % 256 = x1 by omega, h2⟩
  · have h1 : x1 % 64 = x1 := h1
    have h2 : x2 / 64 % 16 * 64 = x2 := h2
    have hz : c % 2 ^ 10 = 0 := hz
    rw [two 6 10 hz (by omega) (by omega) (by omega)]
    exact ⟨by omega, show (c + (x2 + x1)) / 64 * 64 - (c + (x2 + x1)) / 64 * 64 / 64 % 16 * 64 = c by omega,
      show (c + (x2 + x1)) % 64 = x1 by omega, show (c + (x2 + x1)) / 64 % 16 * 64 = x2 by omega⟩
  · have h1 : x1 % 64 = x1 := h1
    have h2 : x2 / 64 % 16 * 64 = x2 := h2
    have hz : c % 2 ^ 10 = 0 := hz
    rw [two 6 10 hz (by omega) (by omega) (by omega)]
    exact ⟨by omega, show (c + (x2 + x1)) / 64 * 64 - (c + (x2 + x1)) / 64 * 64 / 64 % 16 * 64 = c by omega,
      show (c + (x2 + x1)) % 64 = x1 by omega, show (c + (x2 + x1)) / 64 % 16 * 64 = x2 by omega⟩
  · have h1 : x1 % 64 = x1 := h1
    have h2 : x2 / 64 % 16 * 64 = x2 := h2
    have hz : c % 2 ^ 10 = 0 := hz
    rw [two 6 10 hz (by omega) (by omega) (by omega)]
    exact ⟨by omega, show (c + (x2 + x1)) / 64 * 64 - (c + (x2 + x1)) / 64 * 64 / 64 % 16 * 64 = c by omega,
      show (c + (x2 + x1)) % 64 = x1 by omega, show (c + (x2 + x1)) / 64 % 16 * 64 = x2 by omega⟩
  · have h1 : x1 % 64 = x1 := h1
    have h2 : x2 / 64 % 64 * 64 = x2 := h2
    have hz : c % 2 ^ 12 = 0 := hz
    rw [two 6 12 hz (by omega) (by omega) (by omega)]
    exact ⟨by omega, show (c + (x2 + x1)) / 64 * 64 - (c + (x2 + x1)) / 64 * 64 / 64 % 64 * 64 = c by omega,
      show (c + (x2 + x1)) % 64 = x1 by omega, show (c + (x2 + x1)) / 64 % 64 * 64 = x2 by omega⟩
  · obtain ⟨k1, k2, k3⟩ := none rfl rfl h1 h2
    rw [k1]
    exact ⟨hc, rfl, k2.symm, k3.symm⟩
  · obtain ⟨k1, k2, k3⟩ := none rfl rfl h1 h2
    rw [k1]
    exact ⟨hc, rfl, k2.symm, k3.symm⟩
  · obtain ⟨k1, k2, k3⟩ := none rfl rfl h1 h2
    rw [k1]
    exact ⟨hc, rfl, k2.symm, k3.symm⟩
  · obtain ⟨k1, k2, k3⟩ := none rfl rfl h1 h2
    rw [k1]
    exact ⟨hc, rfl, k2.symm, k3.symm⟩
  · exact absurd rfl hr

/-- The same of the second word. -/
theorem post_step {f : Flags} {y1 y2 : Nat} (h : (f.src, f.dst) ∈ shapes) (h1 : postBits f.src y1 = y1)
    (h2 : postBits f.dst y2 = y2) (hbit : f.src = .SRC2 → f.dst = .BIT0 → y1 / 16 % 4 ≠ 3) :
    PostOk f (y1 ||| y2) ∧ postBits f.src (y1 ||| y2) = y1 ∧ postBits f.dst (y1 ||| y2) = y2 := by
  obtain ⟨src, dst, b⟩ := f
  have hor : ∀ z < 64, 0x4000 ||| z * 64 = 0x4000 + z * 64 := by
    intro z hz
    exact or_bits (k := 12) (by decide) (by omega)
  by_cases hs : src = .SRC2
  · subst hs
    have h1 : y1 % 64 = y1 := h1
    have two : y2 % 2 ^ 6 = 0 → y1 ||| y2 = y2 + y1 := by
      intro h
      rw [Nat.or_comm, or_bits h (by omega)]
    simp only [shapes, List.mem_cons, List.not_mem_nil, or_false, Prod.mk.injEq, reduceCtorEq, false_and, true_and,
      false_or] at h
    rcases h with rfl | rfl | rfl | rfl
    · have h2 : 0x4000 ||| y2 / 64 % 16 * 64 = y2 := h2
      rw [hor _ (by omega)] at h2
      rw [two (by omega)]
      refine ⟨Or.inl ⟨rfl, by omega, ?_⟩, show (y2 + y1) % 64 = y1 by omega, ?_⟩
      · unfold checkPost
        dsimp only
        rw [if_neg (fun h => h (show (y2 + y1) / 1024 = 16 by omega))]
      · show 0x4000 ||| (y2 + y1) / 64 % 16 * 64 = y2
        rw [hor _ (by omega)]
        omega
    · have h2 : 0x4000 ||| y2 / 64 % 64 * 64 = y2 := h2
      rw [hor _ (by omega)] at h2
      rw [two (by omega)]
      refine ⟨Or.inl ⟨rfl, by omega, ?_⟩, show (y2 + y1) % 64 = y1 by omega, ?_⟩
      · unfold checkPost
        dsimp only
        rw [if_neg (fun h => h (show (y2 + y1) / 4096 = 4 by omega))]
      · show 0x4000 ||| (y2 + y1) / 64 % 64 * 64 = y2
        rw [hor _ (by omega)]
        omega
    · have h2 : y2 / 64 % 16 * 64 = y2 := h2
      have hb : y1 / 16 % 4 ≠ 3 := hbit rfl rfl
      rw [two (by omega)]
      refine ⟨Or.inl ⟨rfl, by omega, ?_⟩, show (y2 + y1) % 64 = y1 by omega,
        show (y2 + y1) / 64 % 16 * 64 = y2 by omega⟩
      unfold checkPost
      dsimp only
      rw [if_neg (show ¬((y2 + y1) / 1024 ≠ 0 ∨ (y2 + y1) / 16 % 4 = 3) by omega)]
    · have h2 : y2 / 64 % 64 * 64 = y2 := h2
      rw [two (by omega)]
      refine ⟨Or.inl ⟨rfl, by omega, ?_⟩, show (y2 + y1) % 64 = y1 by omega,
        show (y2 + y1) / 64 % 64 * 64 = y2 by omega⟩
      unfold checkPost
      dsimp only
      rw [if_neg (fun h => h (show (y2 + y1) / 4096 = 0 by omega))]
  · have key : ∀ p ∈ shapes, p.1 ≠ .SRC2 → (p.1 = .NONE ∨ p.1 = .REG ∨ p.1 = .IMM ∨ p.1 = .SRC ∨ p.1 = .REL ∨ p.1 = .CRU ∨
      p.1 = .RTWP) ∧ (p.2 = .NONE ∨ p.2 = .IMM ∨ p.2 = .SCNT ∨ p.2 = .DREG ∨ p.2 = .XOP ∨ p.2 = .CNT ∨ p.2 = .DST) := by decide
    obtain ⟨k1, k2⟩ := key _ h hs
    have k3 : ∀ y, postBits src y = 0 := by
      intro y
      rcases k1 with k | k | k | k | k | k | k <;> (have k : src = _ := k; rw [k]; rfl)
    have k4 : ∀ y, postBits dst y = 0 := by
      intro y
      rcases k2 with k | k | k | k | k | k | k <;> (have k : dst = _ := k; rw [k]; rfl)
    have h1 : postBits src y1 = y1 := h1
    have h2 : postBits dst y2 = y2 := h2
    rw [k3] at h1
    rw [k4] at h2
    subst h1 h2
    exact ⟨Or.inr ⟨hs, rfl⟩, k3 _, k4 _⟩

/-! ### The entry for a code -/

/-- What the proofs need of the code of a row. -/
def codeOk (r : Row) : Bool :=
  r.opcode < 65536 && !r.name.contains '\x00' && r.name.length < 11 && !r.name.contains '=' &&
  r.name.map (letter true) == r.name && r.opcode % 2 ^ low (flags r).src (flags r).dst == 0

theorem codes_ok : ((rows .TMS99110).all codeOk) = true := by decide +kernel

theorem rows_sub : (allCpus.all fun cpu => (rows cpu).all ((rows .TMS99110).contains ·)) = true := by decide +kernel

theorem mem_sub {cpu : CpuType} {r : Row} (h : r ∈ rows cpu) : r ∈ rows .TMS99110 := by
  have h1 := List.all_eq_true.1 rows_sub cpu (mem_allCpus cpu)
  simpa using List.all_eq_true.1 h1 r h

/-- The number of the lower bits, and the code. -/
def keys : List (Nat × Nat) := (rows .TMS99110).map fun r => (low (flags r).src (flags r).dst, r.opcode)

/-- No code is of two entries, other than such with the same code. -/
def apartB (ks : List (Nat × Nat)) : Bool :=
  ks.all fun p => ks.all fun q => p.2 / 2 ^ max p.1 q.1 != q.2 / 2 ^ max p.1 q.1 || p.2 == q.2

theorem keys_apart : apartB keys = true := by decide +kernel

theorem code_nodup : ∀ r ∈ rows .TMS99110, ∀ r' ∈ rows .TMS99110, r.opcode = r'.opcode →
    r = r' ∨ (r.name = r'.name ∧ (flags r = flags rtwp ∨ flags r = flags rtwp0) ∧
      (flags r' = flags rtwp ∨ flags r' = flags rtwp0)) := by decide +kernel

theorem row_shape {cpu : CpuType} {r : Row} (h : r ∈ rows cpu) : ((flags r).src, (flags r).dst) ∈ shapes := by
  have h1 := rows_ok cpu true h
  unfold rowOk at h1
  rw [Bool.and_eq_true, Bool.and_eq_true] at h1
  simpa using h1.1.1

theorem row_code {cpu : CpuType} {r : Row} (h : r ∈ rows cpu) :
    r.opcode < 65536 ∧ '\x00' ∉ r.name ∧ r.name.length < 11 ∧ '=' ∉ r.name ∧ r.name.map (letter true) = r.name ∧
    r.opcode % 2 ^ low (flags r).src (flags r).dst = 0 := by
  have h1 := List.all_eq_true.1 codes_ok r (mem_sub h)
  unfold codeOk at h1
  simp only [Bool.and_eq_true, decide_eq_true_eq, Bool.not_eq_true', beq_iff_eq] at h1
  obtain ⟨⟨⟨⟨⟨h1, h2⟩, h3⟩, h4⟩, h5⟩, h6⟩ := h1
  have no : ∀ {c : Char}, r.name.contains c = false → c ∉ r.name := by
    intro c h hc
    rw [List.contains_iff_mem.2 hc] at h
    cases h
  exact ⟨h1, no h2, h3, no h4, h5, h6⟩

theorem div_max {x c k n : Nat} (h : x / 2 ^ k * 2 ^ k = c) (hk : k ≤ n) : x / 2 ^ n = c / 2 ^ n := by
  obtain ⟨d, rfl⟩ := Nat.exists_eq_add_of_le hk
  have h1 : x / 2 ^ k = c / 2 ^ k := by
    rw [← h, Nat.mul_div_cancel _ (Nat.two_pow_pos k)]
  rw [Nat.pow_add, ← Nat.div_div_eq_div_mul, ← Nat.div_div_eq_div_mul, h1]

theorem same_code {cpu : CpuType} {opc : Nat} {r r' : Row} (hopc : opc < 65536) (h : r ∈ rows cpu) (h' : r' ∈ rows cpu)
    (hm : mask (flags r) opc = r.opcode) (hm' : mask (flags r') opc = r'.opcode) : r.opcode = r'.opcode := by
  rw [mask_low (row_shape h) hopc] at hm
  rw [mask_low (row_shape h') hopc] at hm'
  have k1 : (low (flags r).src (flags r).dst, r.opcode) ∈ keys := List.mem_map.2 ⟨r, mem_sub h, rfl⟩
  have k2 : (low (flags r').src (flags r').dst, r'.opcode) ∈ keys := List.mem_map.2 ⟨r', mem_sub h', rfl⟩
  have k3 := List.all_eq_true.1 (List.all_eq_true.1 keys_apart _ k1) _ k2
  have e := (div_max hm (Nat.le_max_left _ (low (flags r').src (flags r').dst))).symm.trans
    (div_max hm' (Nat.le_max_right (low (flags r).src (flags r).dst) _))
  rw [Bool.or_eq_true, bne_iff_ne, beq_iff_eq] at k3
  rcases k3 with k3 | k3
  · exact absurd e k3
  · exact k3

theorem match_mem {cpu : CpuType} {opc : Nat} {r : Row} (h : r ∈ rows cpu) (hm : mask (flags r) opc = r.opcode) :
    ∃ r', searchOpCode cpu opc = some r' := by
  unfold searchOpCode
  rw [Table.Props.C24_searchOpCode]
  obtain ⟨p, hp, hr⟩ := List.mem_flatMap.1 h
  split
  · exact ⟨_, rfl⟩
  · rename_i hf
    have := List.find?_eq_none.1 hf (p, r) (List.mem_flatMap.2 ⟨p, List.mem_filter.2 ⟨hp, rfl⟩,
      List.mem_map.2 ⟨r, hr, rfl⟩⟩)
    exact absurd (beq_iff_eq.2 hm) this

theorem search_back {cpu : CpuType} {opc : Nat} {row : Row} (hopc : opc < 65536) (hr : row ∈ rows cpu)
    (hm : mask (flags row) opc = row.opcode) :
    ∃ row', searchOpCode cpu opc = some row' ∧ (row = row' ∨ (row.name = row'.name ∧
      (flags row = flags rtwp ∨ flags row = flags rtwp0) ∧ (flags row' = flags rtwp ∨ flags row' = flags rtwp0))) := by
  obtain ⟨row', h⟩ := match_mem hr hm
  obtain ⟨h1, h2⟩ := found h
  exact ⟨row', h, code_nodup _ (mem_sub hr) _ (mem_sub h1) (same_code hopc hr h1 hm h2)⟩

/-- The codes of RTWP. -/
theorem rtwp_codes : ∀ x, x = 0 ∨ x = 1 ∨ x = 2 ∨ x = 4 → ∃ r ∈ rows .TMS99105, r.name = rtwp.name ∧
    flags r = flags rtwp ∧ r.opcode = 0x380 ||| x := by
  have : ∀ x ∈ [0, 1, 2, 4], ∃ r ∈ rows .TMS99105, r.name = rtwp.name ∧ flags r = flags rtwp ∧
    r.opcode = 0x380 ||| x := by decide +kernel
  intro x hx
  exact this x (by simpa using hx)

theorem rtwp_rows : (allCpus.all fun cpu => !(rows cpu).contains rtwp ||
    (rows .TMS99105).all ((rows cpu).contains ·)) = true := by decide +kernel

/-- The operands are read from the bytes. -/
def Good (cpu : CpuType) (addr : Nat) (f : Flags) (a : Asm) : Prop :=
  ∀ (o : Opts) (more pre : List Nat),
    (decodeOperands o cpu addr a.opc a.post f ⟨a.ops ++ more, pre, .OK⟩).2 = ⟨more, pre ++ a.ops, .OK⟩

theorem steps_good {cpu : CpuType} {addr : Nat} {f : Flags} {c : Nat} {a1 a : Asm} (hs : (f.src, f.dst) ∈ shapes)
    (hn : f.src ≠ .RTWP) (hc : c < 65536) (hz : c % 2 ^ low f.src f.dst = 0)
    (h1 : Step cpu addr f f.src ⟨.OK, c, 0, []⟩ a1) (h2 : Step cpu addr f f.dst a1 a) :
    a.opc < 65536 ∧ mask f a.opc = c ∧ PostOk f a.post ∧ Good cpu addr f a := by
  obtain ⟨x1, y1, bs1, _, e1, k1, k2, k3, k4, k5⟩ := h1
  subst e1
  obtain ⟨x2, y2, bs2, _, e2, l1, l2, l3, l4, l5⟩ := h2
  subst e2
  obtain ⟨c1, c2, c3, c4⟩ := code_step hs hn hc hz k1 l1
  obtain ⟨p1, p2, p3⟩ := post_step hs k2 l2 k3
  dsimp only
  rw [Nat.zero_or]
  refine ⟨c1, c2, p1, ?_⟩
  intro o more pre
  unfold decodeOperands
  dsimp only
  rw [List.nil_append]
  have r1 := k5 o (c ||| x1 ||| x2) (y1 ||| y2) (bs2 ++ more) pre c3 p2
  rw [← List.append_assoc] at r1
  rw [r1]
  have r2 := l5 o (c ||| x1 ||| x2) (y1 ||| y2) more (pre ++ bs1) c4 p3
  by_cases hd : f.dst = .NONE
  · rw [if_pos hd]
    rw [hd] at r2
    have r2 : (⟨bs2 ++ more, pre ++ bs1, .OK⟩ : Rd) = ⟨more, pre ++ bs1 ++ bs2, .OK⟩ := r2
    rw [← List.append_assoc, ← r2]
  · rw [if_neg hd, r2, List.append_assoc]

theorem alnum (c : Char) (h : Ctype.isAlnum c = true) : syntaxOf.instructionLetter c = true := by
  show Eval.symbolLetter false c = true
  unfold Eval.symbolLetter
  unfold Ctype.isAlnum at h
  rw [Bool.not_false, Bool.true_and, h]
  rfl

theorem accept_none : ∀ m, acceptMode m .NONE = true → m = .NONE := by
  intro m h
  cases m <;> first | rfl | exact absurd h (by decide)

/-- Without operands nothing is read. -/
theorem decode_rtwp {cpu : CpuType} {addr opc post : Nat} {f : Flags} (o : Opts) (r : Rd)
    (h : f = flags rtwp ∨ f = flags rtwp0) : (decodeOperands o cpu addr opc post f r).2 = r ∧ f.src ≠ .SRC2 := by
  have e1 : flags rtwp = ⟨.RTWP, .NONE, false⟩ := by decide
  have e2 : flags rtwp0 = ⟨.NONE, .NONE, false⟩ := by decide
  rw [e1, e2] at h
  rcases h with rfl | rfl
  · exact ⟨rfl, by decide⟩
  · exact ⟨rfl, by decide⟩

def ListOk : Except (Err × Scan) (List Operand × Scan) → Prop
  | .ok (ops, _) => ∀ op ∈ ops, OpOk op
  | .error (e, _) => e ≠ .OK

/-- From a line to the entry and the code. -/
theorem insn_back {cpu : CpuType} {addr : Nat} {P : Plugins Value} {word : List Char} {s : Scan} {bytes : List Nat}
    {rest : Scan} (h0 : '\x00' ∉ word) (haddr : addr + 2 ≤ 2 ^ width cpu)
    (h : encodeImpl P cpu addr word s = .ok ⟨.OK, bytes, rest⟩) :
    ∃ row row' a, row ∈ rows cpu ∧ Table.strcasecmp word row.name = 0 ∧ row.name = row'.name ∧
      bytes = Tms9900.bytes (flags row') a ∧ a.opc < 65536 ∧ searchOpCode cpu a.opc = some row' ∧
      PostOk (flags row') a.post ∧ Good cpu addr (flags row') a := by
  unfold encodeImpl at h
  obtain ⟨has, h1, h2⟩ := bind_ok h
  obtain ⟨x, d1, d2⟩ := bind_ok h2
  have hx : ListOk x := by
    split at d1
    · cases x with
      | error e =>
        obtain ⟨e, p⟩ := e
        exact operands_err (fun s e p h => show ParsedOk (.error (e, p)) from parse_ok h) _ _ _ _ d1
      | ok x =>
        obtain ⟨ops, s⟩ := x
        exact (operands_all (fun s op p h => show ParsedOk (.ok (op, p)) from parse_ok h) _ _ _ _ d1).1
    · injection d1 with d1
      subst d1
      intro op hop
      cases hop
  cases x with
  | error e =>
    obtain ⟨e, p⟩ := e
    injection d2 with d2
    injection d2 with d2
    exact absurd d2 hx
  | ok x =>
    obtain ⟨ops, s⟩ := x
    dsimp only at d2
    have hx : ∀ op ∈ ops, OpOk op := hx
    have hop : ∀ i, OpOk (ops.getD i {}) := by
      intro i
      rw [List.getD_eq_getElem?_getD]
      cases hi : ops[i]? with
      | none => exact opOk_none
      | some op => exact hx op (List.mem_of_getElem? hi)
    have hop1 := hop 0
    have hop2 := hop 1
    generalize ops.getD 0 ({} : Operand) = op1 at *
    generalize ops.getD 1 ({} : Operand) = op2 at *
    obtain ⟨x, f1, f2⟩ := bind_ok d2
    have f0 := f1
    unfold searchName searchWith at f1
    split at f1
    · rename_i pre row hs
      injection f1 with f1
      subst f1
      dsimp only at f2
      obtain ⟨a1, g1, g2⟩ := bind_ok f2
      obtain ⟨a, g3, g4⟩ := bind_ok g2
      injection g4 with g4
      injection g4 with g4 g5 g6
      obtain ⟨p, hp, rfl, hrow, hcmp, hacc⟩ := searchName_mem hs
      have hrow : row ∈ rows cpu := List.mem_flatMap.2 ⟨p, hp, hrow⟩
      have hshape := row_shape hrow
      obtain ⟨b1, b2, b3, b4, b5, b6⟩ := row_code hrow
      unfold acceptModes at hacc
      rw [Bool.and_eq_true] at hacc
      have hm : ∀ q ∈ shapes, (q.1 ≠ .IREG ∧ q.1 ≠ .INCR ∧ q.1 ≠ .SYBL ∧ q.1 ≠ .INDX ∧ q.1 ≠ .UNDEF) ∧
        (q.2 ≠ .IREG ∧ q.2 ≠ .INCR ∧ q.2 ≠ .SYBL ∧ q.2 ≠ .INDX ∧ q.2 ≠ .UNDEF) := by decide
      obtain ⟨m1, m2⟩ := hm _ hshape
      have st2 := operand_step haddr hop2 m2 hacc.2 g3 g4
      have st1 : Step cpu addr (flags row) (flags row).src ⟨.OK, row.opcode, 0, []⟩ a1 := by
        obtain ⟨_, _, _, he, _⟩ := st2
        exact operand_step haddr hop1 m1 hacc.1 g1 he
      by_cases hrt : (flags row).src = .RTWP
      · -- `RTWP` with an operand
        have h3 := rows_ok cpu true hrow
        unfold rowOk at h3
        rw [Bool.and_eq_true, if_neg (by rw [hrt]; decide), if_pos hrt, b5] at h3
        simp only [Bool.and_eq_true, List.all_eq_true, List.mem_filter, beq_iff_eq] at h3
        have hf : flags row = flags rtwp := h3.2.1.1.2
        have hsame : ∀ accept, searchWith cpu accept word = searchWith cpu accept row.name := by
          intro accept
          unfold searchWith
          have : (fun r : Row => Table.strcasecmp word r.name) = fun r : Row => Table.strcasecmp row.name r.name := by
            funext r
            exact strcasecmp_same h0 b2 hcmp r.name
          rw [this]
        have e1 : flags rtwp = ⟨.RTWP, .NONE, false⟩ := by decide
        have hd : (flags row).dst = .NONE := by rw [hf, e1]
        have ha1 := hacc.1
        have ha2 := hacc.2
        rw [hrt] at ha1
        rw [hd] at ha2
        have h4 := rowIs_eq (h3.2.2 op1.mode ⟨mem_allModes _, ha1⟩)
        unfold searchName at f0 h4
        rw [hsame, accept_none _ ha2, h4] at f0
        injection f0 with f0
        injection f0 with f0
        subst f0
        rw [e1] at st1 st2 g5
        obtain ⟨x1, y1, bs1, _, k0, k1, k2, k3, k4, k5⟩ := st1
        subst k0
        obtain ⟨x2, y2, bs2, _, l0, l1, l2, l3, l4, l5⟩ := st2
        subst l0
        have l1 : 0 = x2 := l1
        have l2 : 0 = y2 := l2
        have k2 : 0 = y1 := k2
        subst l1 l2 k2
        have hbs1 : bs1 = [] := by
          have : bs1 ++ [] = [] := congrArg Rd.mem (k5 (.default '$') x1 0 [] [] k1 rfl)
          simpa using this
        have hbs2 : bs2 = [] := by
          have : bs2 ++ [] = [] := congrArg Rd.mem (l5 (.default '$') 0 0 [] [] rfl rfl)
          simpa using this
        subst hbs1 hbs2
        obtain ⟨r, r1, r2, r3, r4⟩ := rtwp_codes x1 (k4 rfl)
        have hr : r ∈ rows cpu := by
          have q1 := List.all_eq_true.1 rtwp_rows cpu (mem_allCpus cpu)
          rw [Bool.or_eq_true] at q1
          rcases q1 with q1 | q1
          · rw [List.contains_iff_mem.2 hrow] at q1
            cases q1
          · simpa using List.all_eq_true.1 q1 r r1
        have hlt : (0x380 ||| x1) < 65536 := by rw [← r4]; exact (row_code hr).1
        have hmask : mask (flags r) (0x380 ||| x1) = r.opcode := by
          rw [r3, e1, r4]
          rfl
        obtain ⟨row', s1, s2⟩ := search_back hlt hr hmask
        have s3 : r.name = row'.name ∧ (flags row' = flags rtwp ∨ flags row' = flags rtwp0) := by
          rcases s2 with rfl | ⟨s2, s3, s4⟩
          · exact ⟨rfl, Or.inl r3⟩
          · exact ⟨s2, s4⟩
        have hbytes : ∀ a : Asm, Tms9900.bytes (flags row') a = Tms9900.bytes ⟨.RTWP, .NONE, false⟩ a := by
          intro a
          unfold Tms9900.bytes
          rw [if_neg (decode_rtwp (cpu := cpu) (addr := addr) (opc := 0) (post := 0) (.default '$') ⟨[], [], .OK⟩ s3.2).2,
            if_neg (by decide)]
        have hz : (0x380 ||| x1) = rtwp.opcode ||| x1 ||| 0 := by rw [Nat.or_zero]; rfl
        refine ⟨rtwp, row', _, hrow, hcmp, by rw [← s3.1, r2], by rw [hbytes, ← g5], by rw [← hz]; exact hlt,
          by rw [← hz]; exact s1, Or.inr ⟨(decode_rtwp (cpu := cpu) (addr := addr) (opc := 0) (post := 0) (.default '$')
            ⟨[], [], .OK⟩ s3.2).2, show 0 ||| 0 ||| 0 = 0 by decide⟩, ?_⟩
        intro o more pre
        rw [(decode_rtwp o _ s3.2).1]
        simp
      · obtain ⟨q1, q2, q3, q4⟩ := steps_good hshape hrt b1 b6 st1 st2
        obtain ⟨row', s1, s2⟩ := search_back q1 hrow q2
        rcases s2 with rfl | ⟨s2, s3, s4⟩
        · exact ⟨row, row, a, hrow, hcmp, rfl, g5.symm, q1, s1, q3, q4⟩
        · have n1 := fun o r => decode_rtwp (cpu := cpu) (addr := addr) (opc := a.opc) (post := a.post) o r s3
          have n2 := fun o r => decode_rtwp (cpu := cpu) (addr := addr) (opc := a.opc) (post := a.post) o r s4
          have hops : a.ops = [] := by
            have := q4 (.default '$') [] []
            rw [(n1 _ _).1] at this
            have := congrArg Rd.mem this
            simpa using this
          refine ⟨row, row', a, hrow, hcmp, s2, ?_, q1, s1, ?_, ?_⟩
          · rw [← g5]
            unfold Tms9900.bytes
            rw [if_neg (n1 (.default '$') ⟨[], [], .OK⟩).2, if_neg (n2 (.default '$') ⟨[], [], .OK⟩).2]
          · rcases q3 with ⟨q3, _⟩ | ⟨_, q3⟩
            · exact absurd q3 (n1 (.default '$') ⟨[], [], .OK⟩).2
            · exact Or.inr ⟨(n2 (.default '$') ⟨[], [], .OK⟩).2, q3⟩
          · intro o more pre
            rw [(n2 _ _).1, hops, List.append_nil]
            rfl
    · rename_i e hs
      injection f1 with f1
      subst f1
      injection f2 with f2
      injection f2 with f2 f3 f4
      exact absurd f2 (searchName_err hs)
    · cases f1

theorem opc_read (x : Nat) (hx : x < 65536) (more pre : List Nat) :
    (⟨x / 256 % 256 :: x % 256 :: more, pre, .OK⟩ : Rd).be16 =
      (x, ⟨more, pre ++ [x / 256 % 256, x % 256], .OK⟩) := by
  have := word_read x more pre
  rw [Nat.mod_eq_of_lt hx] at this
  exact this

/-- Whatever line is assembled without error, at any address but the last, and with any symbols: the disassembler,
with any options, reads the bytes of it, whatever follows them, as one instruction, without error, and it has the name
written in the line.
What is missing of C29: the last address, at which it does not hold (`C29_violated_tms9900`), and that the operands
are those of the line, which they need not be: `C76_unchecked`. -/
theorem C29_tms9900_partial {E : Env} {cpu : CpuType} {addr : Nat} {line : List Char} {bytes : List Nat} {rest : Scan}
    (haddr : addr + 1 < 2 ^ (if cpu = .TMS9980 then 14 else 16))
    (h : assemble E cpu addr line = .ok (.insn ⟨.OK, bytes, rest⟩)) (o : Opts) (more : List Nat) :
    (disassemble o cpu addr (bytes ++ more)).err = .OK ∧
    (disassemble o cpu addr (bytes ++ more)).bytes = bytes ∧
    WrittenAs line (disassemble o cpu addr (bytes ++ more)).name := by
  obtain ⟨word, scan, hi, hok, hw, blanks, tail, hline, hblank⟩ :=
    encode_line_inv (by decide) rfl h
  have hwidth : (if cpu = .TMS9980 then 14 else 16) = width cpu := by cases cpu <;> rfl
  rw [hwidth] at haddr
  have haddr : addr + 2 ≤ 2 ^ width cpu := haddr
  have h0 : '\x00' ∉ word.take 11 := fun h => hw (List.mem_of_mem_take h)
  obtain ⟨row, row', a, hrow, hcmp, hn, rfl, ho, hs, hp, hg⟩ := insn_back h0 haddr hi
  obtain ⟨b1, b2, b3, b4, b5, b6⟩ := row_code hrow
  have hname : WrittenAs line row.name := written alnum (fun c h => by cases h) hw b2 b3 hcmp b4 hline hblank
  have hdis : disassemble o cpu addr (Tms9900.bytes (flags row') a ++ more) =
      decodeImpl o cpu addr (Tms9900.bytes (flags row') a ++ more) := by
    unfold disassemble decode
    rw [hok]
    rfl
  have hwr : WrittenAs line (outText o row'.name) := by
    rw [hn] at hname
    exact hname.letters (outText_same o _)
  rw [hdis]
  unfold decodeImpl Tms9900.bytes
  rw [List.cons_append, List.cons_append, opc_read _ ho]
  dsimp only
  rw [hs]
  dsimp only
  by_cases hs2 : (flags row').src = .SRC2
  · rw [if_pos hs2, if_pos hs2]
    rcases hp with ⟨_, p1, p2⟩ | ⟨p1, _⟩
    · rw [List.cons_append, List.cons_append, opc_read _ p1]
      dsimp only
      rw [p2]
      generalize hpre : ([] ++ [a.opc / 256 % 256, a.opc % 256] ++ [a.post / 256 % 256, a.post % 256] : List Nat) = pre
      rw [if_neg (fun h => h rfl : ¬ (Rd.setErrorIf ⟨a.ops ++ more, pre, .OK⟩ .OK).err ≠ .OK)]
      have e : Rd.setErrorIf ⟨a.ops ++ more, pre, .OK⟩ .OK = ⟨a.ops ++ more, pre, .OK⟩ := rfl
      rw [e, hg o more pre, ← hpre]
      exact ⟨rfl, by simp, hwr⟩
    · exact absurd hs2 p1
  · rw [if_neg hs2, if_neg hs2]
    dsimp only
    have hp0 : a.post = 0 := by
      rcases hp with ⟨p1, _⟩ | ⟨_, p1⟩
      · exact absurd p1 hs2
      · exact p1
    have := hg o more ([] ++ [a.opc / 256 % 256, a.opc % 256])
    rw [hp0] at this
    rw [this]
    exact ⟨rfl, rfl, hwr⟩

/-- At the last address `JMP 0` is assembled to a jump back by one byte and disassembled as a jump out of the address
space. -/
theorem C29_violated_tms9900 :
    assemble noEnv .TMS9900 0xFFFF "JMP 0".toList = .ok (.insn ⟨.OK, [0x10, 0x00], []⟩) ∧
    (disassemble (.default '$') .TMS9900 0xFFFF [0x10, 0x00]).err = .OVERFLOW_RANGE := by decide +kernel

example : assemble noEnv .TMS9900 0x100 "  mov @>1234(R5), *R14+".toList =
      .ok (.insn ⟨.OK, [0xCF, 0xA5, 0x12, 0x34], []⟩) ∧
    (disassemble (.default '$') .TMS9900 0x100 [0xCF, 0xA5, 0x12, 0x34]).name = "MOV".toList := by decide +kernel

/-- A line is assembled to at least a word. -/
theorem assembled_length {E : Env} {cpu : CpuType} {addr : Nat} {line : List Char} {bytes : List Nat} {rest : Scan}
    (haddr : addr + 1 < 2 ^ (if cpu = .TMS9980 then 14 else 16))
    (h : assemble E cpu addr line = .ok (.insn ⟨.OK, bytes, rest⟩)) : 2 ≤ bytes.length := by
  obtain ⟨word, scan, hi, hok, hw, _⟩ := encode_line_inv (by decide) rfl h
  have hwidth : (if cpu = .TMS9980 then 14 else 16) = width cpu := by cases cpu <;> rfl
  rw [hwidth] at haddr
  obtain ⟨row, row', a, _, _, _, rfl, _⟩ := insn_back (fun h => hw (List.mem_of_mem_take h)) haddr hi
  unfold Tms9900.bytes
  simp

end Libasm.Cpu.Tms9900
