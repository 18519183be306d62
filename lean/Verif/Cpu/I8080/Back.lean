import Verif.Cpu.Back
import Verif.Cpu.I8080.Props
/-
C29 for the i8080 family: whatever line the assembler takes, the disassembler reads the bytes of it as
one instruction of the same name.
-/
namespace Libasm.Cpu.I8080
open Scan Number Eval
open Tables (Row)

deriving instance DecidableEq for Operand

/-! ### What an operand may be -/

/-- The operands other than numbers. -/
def forms (zilog : Bool) : List Operand :=
  if zilog then
    [({} : Operand)] ++ zilogRegs.map (fun e => { mode := zilogRegMode e.2, reg := some e.2 }) ++
    [{ mode := .R .C, reg := some .C, val := unsigned Cc.C.num }] ++
    ccs.map (fun e => { mode := .CC, val := unsigned e.2.num }) ++
    [.BC, .DE].map (fun r => { mode := .IDX, reg := some r }) ++
    [.HL, .SP].map (fun r => { mode := .I r, reg := some r })
  else [({} : Operand)] ++ intelRegs.map (fun e => { mode := intelRegMode e.2, reg := some e.2 })

/-- The part of the code that an operand takes. -/
def fields : Mode → List Nat
  | .PTR | .STK => [0, 16, 32, 48]
  | .IDX => [0, 16]
  | .SRC => [0, 1, 2, 3, 4, 5, 6, 7]
  | .DST | .CC | .VEC => [0, 8, 16, 24, 32, 40, 48, 56]
  | _ => [0]

/-- The bytes after the code that an operand takes. -/
def size : Mode → Nat
  | .IM8 | .IOA => 1
  | .IM16 | .ABS => 2
  | _ => 0

theorem regName_mem {zilog : Bool} {s p : Scan} {r : Reg} (h : parseRegName zilog s = .ok (some r, p)) :
    ∃ n, (n, r) ∈ (if zilog then zilogRegs else intelRegs) := by
  unfold parseRegName at h
  cases hs : searchText (if zilog = true then zilogRegs else intelRegs) s with
  | stackUB => rw [hs] at h; cases h
  | ub => rw [hs] at h; cases h
  | diverge => rw [hs] at h; cases h
  | ok x =>
    rw [hs] at h
    cases x with
    | none =>
      simp only [Out.ok_bind, Out.ok.injEq, Prod.mk.injEq, reduceCtorEq, false_and] at h
    | some e =>
      simp only [Out.ok_bind, Out.ok.injEq, Prod.mk.injEq, Option.some.injEq] at h
      obtain ⟨rfl, rfl⟩ := h
      exact searchText_mem hs

theorem ccName_mem {s p : Scan} {c : Cc} (h : parseCcName s = .ok (some c, p)) : ∃ n, (n, c) ∈ ccs := by
  unfold parseCcName at h
  cases hs : searchText ccs s with
  | stackUB => rw [hs] at h; cases h
  | ub => rw [hs] at h; cases h
  | diverge => rw [hs] at h; cases h
  | ok x =>
    rw [hs] at h
    cases x with
    | none => simp only [Out.ok_bind, Out.ok.injEq, Prod.mk.injEq, reduceCtorEq, false_and] at h
    | some e =>
      simp only [Out.ok_bind, Out.ok.injEq, Prod.mk.injEq, Option.some.injEq] at h
      obtain ⟨rfl, rfl⟩ := h
      exact searchText_mem hs

/-- What an operand read without error is. -/
def Parsed (zilog : Bool) (op : Operand) : Prop :=
  op.mode = .IM16 ∨ (zilog = true ∧ op.mode = .ABS) ∨ op ∈ forms zilog

theorem parse_intel {plugins : Char → Plugins Value} {scan rest : Scan} {op : Operand}
    (h : parseIntelOperand plugins scan = .ok (op, rest)) (he : op.err = .OK) : Parsed false op := by
  unfold parseIntelOperand at h
  dsimp only at h
  split at h
  · injection h with h
    injection h with h1 h2
    subst h1
    exact Or.inr (Or.inr (by decide))
  · obtain ⟨⟨reg, a⟩, h1, h2⟩ := bind_ok h
    dsimp only at h2
    cases reg with
    | some r =>
      obtain ⟨n, hn⟩ := regName_mem h1
      injection h2 with h2
      injection h2 with h2 h3
      subst h2
      refine Or.inr (Or.inr ?_)
      unfold forms
      exact List.mem_append.2 (Or.inr (List.mem_map.2 ⟨(n, r), hn, rfl⟩))
    | none =>
      obtain ⟨⟨val, err, q⟩, h3, h4⟩ := bind_ok h2
      dsimp only at h4
      split at h4
      · rename_i hx
        injection h4 with h4
        injection h4 with h4 h5
        subst h4
        simp only at he
        rw [he] at hx
        exact absurd hx (by decide)
      · injection h4 with h4
        injection h4 with h4 h5
        subst h4
        exact Or.inl rfl

theorem parse_zilog {plugins : Char → Plugins Value} {scan rest : Scan} {op : Operand}
    (h : parseZilogOperand plugins scan = .ok (op, rest)) (he : op.err = .OK) : Parsed true op := by
  unfold parseZilogOperand at h
  dsimp only at h
  split at h
  · injection h with h
    injection h with h1 h2
    subst h1
    exact Or.inr (Or.inr (by decide))
  · obtain ⟨⟨reg, a⟩, h1, h2⟩ := bind_ok h
    dsimp only at h2
    split at h2
    · injection h2 with h2
      injection h2 with h2 h3
      subst h2
      exact Or.inr (Or.inr (by decide))
    · obtain ⟨⟨cc, q⟩, h3, h4⟩ := bind_ok h2
      dsimp only at h4
      cases cc with
      | some c =>
        obtain ⟨n, hn⟩ := ccName_mem h3
        injection h4 with h4
        injection h4 with h4 h5
        subst h4
        refine Or.inr (Or.inr ?_)
        unfold forms
        simp only [if_true, List.mem_append, List.mem_map]
        exact Or.inl (Or.inl (Or.inr ⟨_, hn, rfl⟩))
      | none =>
        cases reg with
        | some r =>
          obtain ⟨n, hn⟩ := regName_mem h1
          injection h4 with h4
          injection h4 with h4 h5
          subst h4
          refine Or.inr (Or.inr ?_)
          unfold forms
          simp only [if_true, List.mem_append, List.mem_map]
          exact Or.inl (Or.inl (Or.inl (Or.inl (Or.inr ⟨_, hn, rfl⟩))))
        | none =>
          dsimp only at h4
          cases hx : expect '(' (skipSpaces scan) with
          | none =>
            rw [hx] at h4
            dsimp only at h4
            obtain ⟨⟨val, err, q⟩, h5, h6⟩ := bind_ok h4
            dsimp only at h6
            split at h6
            · rename_i hx
              injection h6 with h6
              injection h6 with h6 h7
              subst h6
              simp only at he
              rw [he] at hx
              exact absurd hx (by decide)
            · injection h6 with h6
              injection h6 with h6 h7
              subst h6
              exact Or.inl rfl
          | some q =>
            rw [hx] at h4
            dsimp only at h4
            obtain ⟨⟨reg, b⟩, h5, h6⟩ := bind_ok h4
            dsimp only at h6
            cases reg with
            | none =>
              dsimp only at h6
              obtain ⟨⟨val, err, b⟩, h7, h8⟩ := bind_ok h6
              dsimp only at h8
              split at h8
              · rename_i hx
                injection h8 with h8
                injection h8 with h8 h9
                subst h8
                simp only at he
                rw [he] at hx
                exact absurd hx (by decide)
              · split at h8
                · injection h8 with h8
                  injection h8 with h8 h9
                  subst h8
                  cases he
                · injection h8 with h8
                  injection h8 with h8 h9
                  subst h8
                  exact Or.inr (Or.inl ⟨rfl, rfl⟩)
            | some r =>
              dsimp only at h6
              split at h6
              · injection h6 with h6
                injection h6 with h6 h7
                subst h6
                cases he
              · cases r <;> dsimp only at h6 <;> injection h6 with h6 <;> injection h6 with h6 h7 <;>
                  subst h6 <;> first | exact Or.inr (Or.inr (by decide)) | cases he

theorem parsed {plugins : Char → Plugins Value} {zilog : Bool} {scan rest : Scan} {op : Operand}
    (h : parseOperand plugins zilog scan = .ok (op, rest)) (he : op.err = .OK) : Parsed zilog op := by
  unfold parseOperand at h
  cases zilog with
  | true => exact parse_zilog h he
  | false => exact parse_intel h he

/-! ### Encoding -/

/-- Which modes of the table an operand may stand for. -/
def acceptModes1 (zilog : Bool) (opr table : Mode) : Bool :=
  if zilog then acceptZilogMode opr table else acceptIntelMode opr table

theorem embed_eq (a : Asm) {x : Nat} (ha : a.opc < 256) (hx : x < 256) :
    a.embed x = ⟨a.err, a.opc ||| x, a.operand⟩ := by
  unfold Asm.embed
  rw [Nat.mod_eq_of_lt (Nat.or_lt_two_pow (n := 8) ha hx)]

theorem fields_lt {m : Mode} {x : Nat} (h : x ∈ fields m) : x < 256 := by
  revert x
  cases m <;> simp only [fields] <;> decide

theorem setErrorIf_err {a : Asm} {e : Err} (h : (a.setErrorIf e).err = .OK) :
    a.err = .OK ∧ e = .OK ∧ a.setErrorIf e = a := by
  obtain ⟨h1, h2⟩ := setErrorIf_ok h
  exact ⟨h1, h2, by rw [h2]; exact noError a⟩

/-- The field of an operand other than a number. -/
theorem form_field {zilog : Bool} :
    ∀ op ∈ forms zilog,
      (acceptModes1 zilog op.mode .PTR = true → encodePointerReg op.reg * 16 ∈ fields .PTR) ∧
      (acceptModes1 zilog op.mode .STK = true → encodeStackReg op.reg * 16 ∈ fields .STK) ∧
      (acceptModes1 zilog op.mode .IDX = true → encodeIndexReg op.reg * 16 ∈ fields .IDX) ∧
      (acceptModes1 zilog op.mode .SRC = true → encodeDataReg op.reg ∈ fields .SRC) ∧
      (acceptModes1 zilog op.mode .DST = true → encodeDataReg op.reg * 8 ∈ fields .DST) ∧
      (acceptModes1 zilog op.mode .CC = true → op.val.getUnsigned % 65536 * 8 ∈ fields .CC) ∧
      acceptModes1 zilog op.mode .IM8 = false ∧ acceptModes1 zilog op.mode .IM16 = false ∧
      acceptModes1 zilog op.mode .ABS = false ∧ acceptModes1 zilog op.mode .IOA = false ∧
      acceptModes1 zilog op.mode .VEC = false := by
  cases zilog <;> decide +kernel

theorem num_accept (zilog : Bool) (m : Mode) :
    (acceptModes1 zilog .IM16 m = true → m = .IM8 ∨ m = .IM16 ∨ m = .ABS ∨ m = .IOA ∨ m = .VEC) ∧
    (acceptModes1 true .ABS m = true → m = .IM8 ∨ m = .IM16 ∨ m = .ABS ∨ m = .IOA ∨ m = .VEC) := by
  cases zilog <;> cases m <;> first | decide | (rename_i r; cases r <;> decide)

theorem vec_field {x : Nat} (hx : x < 65536) (h : x &&& 0xffc7 = 0) : x ∈ fields .VEC := by
  have h1 : x % 8 = 0 := by
    have : x &&& 7 = 0 := by
      rw [show (7 : Nat) = 0xffc7 &&& 7 from rfl, ← Nat.and_assoc, h, Nat.zero_and]
    rw [show (7 : Nat) = 2 ^ 3 - 1 from rfl, Nat.and_two_pow_sub_one_eq_mod] at this
    exact this
  have h2 : x / 64 = 0 := by
    have : x >>> 6 &&& 0x3ff = 0 := by
      rw [show (0x3ff : Nat) = 0xffc7 >>> 6 from rfl, ← Nat.shiftRight_and_distrib, h]
      rfl
    rw [show (0x3ff : Nat) = 2 ^ 10 - 1 from rfl, Nat.and_two_pow_sub_one_eq_mod, Nat.shiftRight_eq_div_pow] at this
    omega
  have : x = 0 ∨ x = 8 ∨ x = 16 ∨ x = 24 ∨ x = 32 ∨ x = 40 ∨ x = 48 ∨ x = 56 := by omega
  simpa [fields] using this

theorem err_back {zilog : Bool} {op : Operand} {m : Mode} {a : Asm}
    (h : (encodeOperand zilog op m a).err = .OK) : (a.setErrorIf op.err).err = .OK := by
  revert h
  unfold encodeOperand
  dsimp only
  generalize a.setErrorIf op.err = a'
  cases m <;> dsimp only <;> intro h <;> try exact h
  · unfold Asm.emit8 at h
    split at h
    · exact (setErrorIf_err h).1
    · exact h
  · unfold Asm.emit8 at h
    split at h
    · have h := (setErrorIf_err h).1
      split at h
      · exact (setErrorIf_err h).1
      · exact h
    · split at h
      · exact (setErrorIf_err h).1
      · exact h
  · unfold Asm.embed at h
    split at h
    · split at h
      · exact (setErrorIf_err h).1
      · exact h
    · split at h
      · exact (setErrorIf_err h).1
      · exact h

theorem encoded {zilog : Bool} {op : Operand} {m : Mode} {a : Asm} (hp : op.err = .OK → Parsed zilog op)
    (hm : acceptModes1 zilog op.mode m = true) (ha : a.opc < 256)
    (h : (encodeOperand zilog op m a).err = .OK) :
    a.err = .OK ∧ ∃ x ∈ fields m, ∃ bs, encodeOperand zilog op m a = ⟨.OK, a.opc ||| x, a.operand ++ bs⟩ ∧
      bs.length = size m ∧ ∀ b ∈ bs, b < 256 := by
  have key : ∀ a : Asm, (a.setErrorIf op.err).err = .OK → a.err = .OK ∧ op.err = .OK ∧ a.setErrorIf op.err = a :=
    fun a h => setErrorIf_err h
  have plain : ∀ {bs}, a.err = .OK → bs.length = size m → (∀ b ∈ bs, b < 256) → 0 ∈ fields m →
      encodeOperand zilog op m a = ⟨a.err, a.opc, a.operand ++ bs⟩ →
      a.err = .OK ∧ ∃ x ∈ fields m, ∃ bs, encodeOperand zilog op m a = ⟨.OK, a.opc ||| x, a.operand ++ bs⟩ ∧
      bs.length = size m ∧ ∀ b ∈ bs, b < 256 := by
    intro bs h1 h2 h3 h4 h5
    exact ⟨h1, 0, h4, bs, by rw [h5, h1, Nat.or_zero], h2, h3⟩
  have field : ∀ {x}, a.err = .OK → x ∈ fields m → size m = 0 →
      encodeOperand zilog op m a = a.embed x →
      a.err = .OK ∧ ∃ x ∈ fields m, ∃ bs, encodeOperand zilog op m a = ⟨.OK, a.opc ||| x, a.operand ++ bs⟩ ∧
      bs.length = size m ∧ ∀ b ∈ bs, b < 256 := by
    intro x h1 h2 h3 h5
    exact ⟨h1, x, h2, [], by rw [h5, embed_eq _ ha (fields_lt h2), h1, List.append_nil], h3.symm, by simp⟩
  have b2 : ∀ v : Nat, ∀ b ∈ [v % 256, v / 256 % 256], b < 256 := by
    intro v b hb
    simp only [List.mem_cons, List.not_mem_nil, or_false] at hb
    omega
  have b1 : ∀ v : Nat, ∀ b ∈ [v % 256], b < 256 := by
    intro v b hb
    simp only [List.mem_cons, List.not_mem_nil, or_false] at hb
    omega
  have h0 := err_back h
  obtain ⟨e1, e2, e3⟩ := key a h0
  have hp := hp e2
  have hfm := fun hf => form_field (zilog := zilog) op hf
  have nums : ∀ {m}, acceptModes1 zilog op.mode m = true →
      (m = .IM8 ∨ m = .IM16 ∨ m = .ABS ∨ m = .IOA ∨ m = .VEC) ∨ op ∈ forms zilog := by
    intro m hm
    rcases hp with h | ⟨hz, h⟩ | h
    · rw [h] at hm; exact Or.inl ((num_accept zilog m).1 hm)
    · rw [h, hz] at hm; exact Or.inl ((num_accept true m).2 hm)
    · exact Or.inr h
  unfold encodeOperand at h plain field ⊢
  dsimp only at h plain field ⊢
  rw [e3] at h plain field ⊢
  cases m with
  | NONE => exact plain (bs := []) e1 rfl (by simp) (by decide) (by simp)
  | UNDEF => exact plain (bs := []) e1 rfl (by simp) (by decide) (by simp)
  | R r => exact plain (bs := []) e1 rfl (by simp) (by simp [fields]) (by simp)
  | I r => exact plain (bs := []) e1 rfl (by simp) (by simp [fields]) (by simp)
  | IM16 => exact plain e1 rfl (b2 _) (by decide) rfl
  | ABS => exact plain e1 rfl (b2 _) (by decide) rfl
  | IM8 =>
    dsimp only at h plain ⊢
    split at h
    · exact absurd (setErrorIf_err h).2.1 (by decide)
    · rename_i hx
      rw [if_neg hx] at plain ⊢
      exact plain e1 rfl (b1 _) (by decide) rfl
  | IOA =>
    dsimp only at h plain ⊢
    split at h
    · exact absurd (setErrorIf_err h).2.1 (by decide)
    · rename_i hx
      rw [if_neg hx] at plain ⊢
      split at h
      · exact absurd (setErrorIf_err h).2.1 (by decide)
      · rename_i hy
        rw [if_neg hy] at plain ⊢
        exact plain e1 rfl (b1 _) (by decide) rfl
  | PTR => rcases nums hm with h | hf
           · simp at h
           · exact field e1 ((hfm hf).1 hm) rfl rfl
  | STK => rcases nums hm with h | hf
           · simp at h
           · exact field e1 ((hfm hf).2.1 hm) rfl rfl
  | IDX => rcases nums hm with h | hf
           · simp at h
           · exact field e1 ((hfm hf).2.2.1 hm) rfl rfl
  | SRC => rcases nums hm with h | hf
           · simp at h
           · exact field e1 ((hfm hf).2.2.2.1 hm) rfl rfl
  | DST => rcases nums hm with h | hf
           · simp at h
           · exact field e1 ((hfm hf).2.2.2.2.1 hm) rfl rfl
  | CC => rcases nums hm with h | hf
          · simp at h
          · exact field e1 ((hfm hf).2.2.2.2.2.1 hm) rfl rfl
  | VEC =>
    dsimp only at h field ⊢
    have hlt : op.val.getUnsigned % 65536 < 65536 := Nat.mod_lt _ (by decide)
    generalize op.val.getUnsigned % 65536 = v at *
    split at h
    · rename_i hz
      rw [if_pos hz] at field ⊢
      split at h
      · exact absurd (setErrorIf_err (e := .ILLEGAL_OPERAND) h).2.1 (by decide)
      · rename_i hx
        rw [if_neg hx] at field ⊢
        exact field e1 (vec_field hlt (Classical.not_not.1 hx)) rfl rfl
    · rename_i hz
      rw [if_neg hz] at field ⊢
      split at h
      · exact absurd (setErrorIf_err (e := .OVERFLOW_RANGE) h).2.1 (by decide)
      · rename_i hx
        rw [if_neg hx] at field ⊢
        have : v % 8 * 8 ∈ fields .VEC := by
          have : v % 8 < 8 := Nat.mod_lt _ (by decide)
          generalize v % 8 = w at *
          have : w = 0 ∨ w = 1 ∨ w = 2 ∨ w = 3 ∨ w = 4 ∨ w = 5 ∨ w = 6 ∨ w = 7 := by omega
          rcases this with rfl | rfl | rfl | rfl | rfl | rfl | rfl | rfl <;> decide
        exact field e1 this rfl rfl

/-! ### Decoding -/

theorem byte_some {b : Nat} {mem bytes : List Nat} (hb : b < 256) :
    (⟨b :: mem, bytes, .OK⟩ : Rd).byte = (b, ⟨mem, bytes ++ [b], .OK⟩) := by
  unfold Rd.byte
  dsimp only
  rw [Nat.mod_eq_of_lt hb]

/-- An operand takes its bytes. -/
theorem decoded (o : Opts) (zilog : Bool) (opc : Nat) (m : Mode) {bs mem bytes : List Nat}
    (hl : bs.length = size m) (hb : ∀ b ∈ bs, b < 256) :
    (decodeOperand o zilog opc m ⟨bs ++ mem, bytes, .OK⟩).2 = ⟨mem, bytes ++ bs, .OK⟩ := by
  have none : bs.length = 0 → (⟨bs ++ mem, bytes, .OK⟩ : Rd) = ⟨mem, bytes ++ bs, .OK⟩ := by
    intro h
    rw [List.length_eq_zero_iff.1 h, List.nil_append, List.append_nil]
  have one : bs.length = 1 → (⟨bs ++ mem, bytes, .OK⟩ : Rd).byte.2 = ⟨mem, bytes ++ bs, .OK⟩ := by
    intro h
    obtain ⟨b, rfl⟩ := List.length_eq_one_iff.1 h
    rw [List.singleton_append, byte_some (hb b (List.mem_cons_self ..))]
  have two : bs.length = 2 → (⟨bs ++ mem, bytes, .OK⟩ : Rd).le16.2 = ⟨mem, bytes ++ bs, .OK⟩ := by
    intro h
    obtain ⟨b, c, rfl⟩ : ∃ b c, bs = [b, c] := by
      match bs, h with
      | [b, c], _ => exact ⟨b, c, rfl⟩
    rw [le16_eq]
    dsimp only
    rw [List.cons_append, List.singleton_append, byte_some (hb b (List.mem_cons_self ..))]
    dsimp only
    rw [byte_some (hb c (by simp)), List.append_assoc]
    rfl
  cases m with
  | IM8 | IOA => exact one hl
  | IM16 | ABS => exact two hl
  | NONE | UNDEF | PTR | STK | IDX | CC | R | I => exact none hl
  | SRC | DST => exact none hl
  | VEC =>
    unfold decodeOperand
    dsimp only
    split <;> exact none hl

/-- The bytes after the code that the disassembler reads. -/
def sizes (row : Row) : Nat :=
  if (flags row).1 = .NONE then 0 else size (flags row).1 + size (flags row).2.1

theorem decodedInsn (o : Opts) {cpu : CpuType} {zilog : Bool} {pre opc : Nat} {row : Row}
    (hs : searchOpCode cpu zilog pre opc = some row) {bs mem bytes : List Nat} {e : Err}
    (hl : bs.length = sizes row) (hb : ∀ b ∈ bs, b < 256) :
    (decodeInsn o cpu zilog pre opc ⟨bs ++ mem, bytes, e⟩).err = .OK ∧
    (decodeInsn o cpu zilog pre opc ⟨bs ++ mem, bytes, e⟩).bytes = bytes ++ bs ∧
    (decodeInsn o cpu zilog pre opc ⟨bs ++ mem, bytes, e⟩).name = outText o row.name := by
  unfold decodeInsn
  rw [hs]
  dsimp only
  unfold sizes at hl
  by_cases h1 : (flags row).1 = .NONE
  · rw [if_pos h1] at hl
    rw [if_pos h1, List.length_eq_zero_iff.1 hl, List.append_nil]
    exact ⟨rfl, rfl, rfl⟩
  · rw [if_neg h1] at hl
    rw [if_neg h1]
    have e1 : bs = bs.take (size (flags row).1) ++ bs.drop (size (flags row).1) := (List.take_append_drop ..).symm
    have l1 : (bs.take (size (flags row).1)).length = size (flags row).1 := by
      rw [List.length_take]; omega
    have l2 : (bs.drop (size (flags row).1)).length = size (flags row).2.1 := by
      rw [List.length_drop]; omega
    have m1 : ∀ b ∈ bs.take (size (flags row).1), b < 256 := fun b h => hb b (List.mem_of_mem_take h)
    have m2 : ∀ b ∈ bs.drop (size (flags row).1), b < 256 := fun b h => hb b (List.mem_of_mem_drop h)
    generalize bs.take (size (flags row).1) = x at *
    generalize bs.drop (size (flags row).1) = y at *
    subst e1
    rw [List.append_assoc, decoded o zilog opc _ l1 m1]
    by_cases h2 : (flags row).2.1 = .NONE
    · rw [if_pos h2]
      rw [h2] at l2
      have : y = [] := List.length_eq_zero_iff.1 l2
      subst this
      rw [List.append_nil]
      exact ⟨rfl, rfl, rfl⟩
    · rw [if_neg h2]
      dsimp only
      rw [decoded o zilog opc _ l2 m2, List.append_assoc]
      exact ⟨rfl, rfl, rfl⟩

/-! ### The instruction table -/

/-- What the row `r` of the page of prefix `pre` can be encoded to is read as a row of the same name and
length; except 0x76. -/
def rowB (cpu : CpuType) (zilog : Bool) (pre : Nat) (r : Row) : Bool :=
  decide (r.opcode < 256) && decide ('\x00' ∉ r.name) && decide (r.name.length < 11) && decide ('=' ∉ r.name) &&
  (pre == 0 || (isPrefix cpu pre && decide (pre < 256))) &&
  (fields (flags r).1).all fun x => (fields (flags r).2.1).all fun y =>
    let opc := r.opcode ||| x ||| y
    (pre != 0 || !isPrefix cpu opc) &&
    match searchOpCode cpu zilog pre opc with
    | none => false
    | some r' => sizes r' == size (flags r).1 + size (flags r).2.1 && (r'.name == r.name || (opc == 0x76 && pre == 0 && sizes r' == 0))

theorem rows_ok (cpu : CpuType) (zilog : Bool) :
    ((pages cpu zilog).all fun p => p.entries.all fun r => rowB cpu zilog p.prefix_ r) = true := by
  cases cpu <;> cases zilog <;> decide +kernel

theorem alnum (c : Char) (h : Ctype.isAlnum c = true) : syntaxOf.instructionLetter c = true :=
  show prefixSymbol (some ['@', '?']) none false c = true from prefixSymbol_alnum h

theorem terminator (c : Char) (h : syntaxOf.instructionTerminator c = true) : c = '=' := by
  simp [syntaxOf] at h

/-- Whatever line is assembled without error, for any of the processors, in Intel and in Zilog syntax, at
any address and with any symbols: the disassembler, with any options, reads the bytes of it, whatever
follows them, as one instruction, without error. It has the name written in the line, except that
`MOV M, M` is read as `HLT`. -/
theorem C29_i8080_partial {E : Env} {cpu : CpuType} {zilog : Bool} {addr : Nat} {line : List Char} {bytes : List Nat}
    {rest : Scan} (h : assemble E cpu zilog addr line = .ok (.insn ⟨.OK, bytes, rest⟩)) (o : Opts)
    (more : List Nat) :
    (disassemble o cpu zilog addr (bytes ++ more)).err = .OK ∧
    (disassemble o cpu zilog addr (bytes ++ more)).bytes = bytes ∧
    (bytes ≠ [0x76] → WrittenAs line (disassemble o cpu zilog addr (bytes ++ more)).name) := by
  obtain ⟨word, scan, hi, haddr, hw, blanks, tail, hline, hblank⟩ :=
    encode_line_inv (by decide) rfl h
  unfold encodeImpl at hi
  obtain ⟨⟨dst, s1⟩, d1, d2⟩ := bind_ok hi
  dsimp only at d2
  -- the operands
  obtain ⟨src, s2, hsrc, hins⟩ : ∃ src s2, (src.err = .OK → Parsed zilog src) ∧
      encodeInsn cpu zilog (word.take 11) dst src s2 = .ok ⟨.OK, bytes, rest⟩ := by
    split at d2
    · rename_i he
      injection d2 with d2
      injection d2 with d2
      rw [d2] at he
      exact absurd he (by decide)
    · split at d2
      · obtain ⟨⟨src, s2⟩, e1, e2⟩ := bind_ok d2
        exact ⟨src, _, fun h => parsed e1 h, e2⟩
      · refine ⟨{}, _, fun _ => Or.inr (Or.inr ?_), d2⟩
        cases zilog <;> decide
  have hdst : dst.err = .OK → Parsed zilog dst := fun h => parsed d1 h
  clear d2 d1 hi h
  unfold encodeInsn at hins
  obtain ⟨x, f1, f2⟩ := bind_ok hins
  unfold searchName at f1
  split at f1
  · rename_i pre row hs
    by_cases hu : zilog = true ∧ (flags row).2.2 = true
    · rw [if_pos hu] at f1
      injection f1 with f1
      subst f1
      injection f2 with f2
      injection f2 with f2 f3 f4
      cases f2
    · rw [if_neg hu] at f1
      injection f1 with f1
      subst f1
      dsimp only at f2
      injection f2 with f2
      injection f2 with f2 f3 f4
      obtain ⟨p, hp, rfl, hrow, hcmp, hacc⟩ := searchName_mem hs
      have hB : rowB cpu zilog p.prefix_ row = true :=
        List.all_eq_true.1 (List.all_eq_true.1 (rows_ok cpu zilog) p hp) row hrow
      have hacc' : acceptModes1 zilog dst.mode (flags row).1 = true ∧
          acceptModes1 zilog src.mode (flags row).2.1 = true := by
        unfold acceptModes at hacc
        unfold acceptModes1
        cases zilog <;> simpa using hacc
      unfold rowB at hB
      simp only [Bool.and_eq_true, decide_eq_true_eq, Bool.or_eq_true, beq_iff_eq] at hB
      obtain ⟨⟨⟨⟨⟨b1, b2⟩, b3⟩, beq⟩, b4⟩, b5⟩ := hB
      obtain ⟨_, x, hx, xs, k5, k6, k7⟩ := encoded hdst hacc'.1 (a := ⟨.OK, row.opcode, []⟩) b1
        (setErrorIf_err (err_back f2)).1
      have g1 : (encodeOperand zilog dst (flags row).1 ⟨.OK, row.opcode, []⟩).opc < 256 := by
        rw [k5]
        exact Nat.or_lt_two_pow (n := 8) b1 (fields_lt hx)
      obtain ⟨k1, y, hy, ys, k2, k3, k4⟩ := encoded hsrc hacc'.2 g1 f2
      rw [k5] at k2
      rw [k5, k2] at f3
      have b5 := List.all_eq_true.1 (List.all_eq_true.1 b5 x hx) y hy
      have hopc : row.opcode ||| x ||| y < 256 :=
        Nat.or_lt_two_pow (n := 8) (Nat.or_lt_two_pow (n := 8) b1 (fields_lt hx)) (fields_lt hy)
      dsimp only at f3 b5
      generalize row.opcode ||| x ||| y = opc at *
      simp only [Bool.and_eq_true, Bool.or_eq_true, bne_iff_ne, Bool.not_eq_true'] at b5
      obtain ⟨b6, b7⟩ := b5
      cases hso : searchOpCode cpu zilog p.prefix_ opc with
      | none => rw [hso] at b7; cases b7
      | some row' =>
        rw [hso] at b7
        simp only [Bool.and_eq_true, Bool.or_eq_true, beq_iff_eq] at b7
        have hlen : ([] ++ xs ++ ys).length = sizes row' := by
          rw [b7.1, List.nil_append, List.length_append, k6, k3]
        have hbs : ∀ b ∈ [] ++ xs ++ ys, b < 256 := by
          intro b hb
          rw [List.nil_append, List.mem_append] at hb
          rcases hb with hb | hb
          · exact k7 b hb
          · exact k4 b hb
        have hname : WrittenAs line row.name := written alnum terminator hw b2 b3 hcmp beq hline hblank
        have hdis : ∀ mem, disassemble o cpu zilog addr mem = decodeImpl o cpu zilog addr mem := by
          intro mem
          unfold disassemble decode
          rw [haddr]
          rfl
        rw [hdis]
        unfold Asm.emitInsn at f3
        dsimp only at f3
        rw [Nat.mod_eq_of_lt hopc] at f3
        generalize [] ++ xs ++ ys = bs at *
        unfold decodeImpl
        by_cases hp0 : p.prefix_ = 0
        · rw [if_neg (not_not_intro hp0), List.nil_append] at f3
          rw [← f3]
          show _ ∧ _ ∧ _
          rw [List.append_assoc, List.singleton_append, byte_some hopc]
          dsimp only
          have hnp : isPrefix cpu opc = false := by
            rcases b6 with b6 | b6
            · exact absurd hp0 b6
            · exact b6
          rw [hnp, if_neg (by decide)]
          rw [hp0] at hso
          obtain ⟨r1, r2, r3⟩ := decodedInsn o hso (mem := more) (bytes := [] ++ [opc]) (e := .OK) hlen hbs
          refine ⟨r1, r2, ?_⟩
          intro hne
          rw [r3]
          refine WrittenAs.letters ?_ (outText_same o _)
          rcases b7.2 with hn | hn
          · rw [hn]; exact hname
          · exfalso
            apply hne
            rw [hn.2] at hlen
            rw [List.length_eq_zero_iff.1 hlen, hn.1.1]
            rfl
        · rcases b4 with b4 | ⟨b4, b8⟩
          · exact absurd b4 hp0
          · rw [if_pos hp0, Nat.mod_eq_of_lt b8] at f3
            rw [← f3]
            have e1 : [p.prefix_] ++ [opc] ++ bs ++ more = p.prefix_ :: opc :: (bs ++ more) := by simp
            rw [e1, byte_some b8]
            dsimp only
            rw [b4, if_pos rfl, byte_some hopc]
            dsimp only
            rw [if_neg (by decide)]
            obtain ⟨r1, r2, r3⟩ := decodedInsn o hso (mem := more) (bytes := [] ++ [p.prefix_] ++ [opc]) (e := .OK) hlen hbs
            refine ⟨r1, r2, ?_⟩
            intro hne
            rw [r3]
            refine WrittenAs.letters ?_ (outText_same o _)
            rcases b7.2 with hn | hn
            · rw [hn]; exact hname
            · exact absurd hn.1.2 hp0
  · rename_i e hs
    injection f1 with f1
    subst f1
    injection f2 with f2
    injection f2 with f2 f3 f4
    exact absurd f2 (searchName_err hs)
  · cases f1

/-- `C29_i8080_partial` has something to say of every kind of operand. -/
example :
    assemble noEnv .I8085 false 0x100 "  mvi A , 3 ".toList = .ok (.insn ⟨.OK, [0x3e, 3], []⟩) ∧
    assemble noEnv .I8080 true 0x100 "ld (1234h), a ; comment".toList = .ok (.insn ⟨.OK, [0x32, 0x34, 0x12], "; comment".toList⟩) := by
  decide +kernel

/-- The exception: two different instructions have the same code. -/
theorem C29_violated_mov :
    assemble noEnv .I8080 false 0 "MOV M, M".toList = .ok (.insn ⟨.OK, [0x76], []⟩) ∧
    (disassemble (.default '$') .I8080 false 0 [0x76]).name = "HLT".toList := by
  decide +kernel

end Libasm.Cpu.I8080
