import Verif.Cpu.Tlcs90.Codes
/-
What the TLCS-90 disassembler reads of an operand, and what the assembler emits for it.
-/
namespace Libasm.Cpu.Tlcs90
open Scan Number Number.Spec Eval

/-! ### Reading -/

/-- The same register, condition and bit. -/
structure Agree (m : Mode) (d d0 : DOp) : Prop where
  reg : d.reg = d0.reg
  cc : d.cc = d0.cc
  bit : m = .BIT → d.val = d0.val

/-- The bytes that are read have room for the value. -/
def Range (m : Mode) (v : Nat) : Prop :=
  ((tail m 0).length = 1 → v < 256) ∧ ((tail m 0).length = 2 → v < 65536)

theorem checkReg_ok {reg : Option Reg} {r : Rd} (h : (checkReg reg r).err = .OK) : checkReg reg r = r := by
  unfold checkReg at h ⊢
  split
  · rename_i hr
    rw [if_pos hr] at h
    exact absurd (setErrorIf_ok h).2 (by decide)
  · rfl

theorem operand_took {c : Nat} {m : Mode} {r : Rd} (hb : ∀ b ∈ r.mem, b < 256)
    (hm : m ≠ .IDX ∧ m ≠ .IXPD) (h : (readOperand c m r).2.err = .OK) :
    Took r (readOperand c m r).2 (tail m (readOperand c m r).1.val) ∧
    Agree m (readOperand c m r).1 (skel c m) ∧ Range m (readOperand c m r).1.val := by
  have none : ∀ r' : Rd, r' = r → r'.err = .OK → Took r r' [] := by
    intro r' h1 h2
    subst h1
    exact Took.refl h2
  unfold skel
  unfold readOperand at h ⊢
  cases m with
  | IMM8 | REL8 | DIR =>
    obtain ⟨h1, h2⟩ := byte_took hb h
    exact ⟨h2, ⟨rfl, rfl, fun h => by cases h⟩, fun _ => h1, fun h => absurd h (by decide)⟩
  | IMM16 | REL16 | EXT =>
    obtain ⟨h1, h2⟩ := le16_took hb h
    exact ⟨h2, ⟨rfl, rfl, fun h => by cases h⟩, fun h => absurd h (by decide), fun _ => h1⟩
  | STACK | REG8 | REG16 | REGIX =>
    exact ⟨none _ (checkReg_ok h) h, ⟨rfl, rfl, fun h => by cases h⟩, fun h => absurd h (by decide),
      fun h => absurd h (by decide)⟩
  | IDX => exact absurd rfl hm.1
  | IXPD => exact absurd rfl hm.2
  | _ =>
    exact ⟨Took.refl h, ⟨rfl, rfl, fun _ => rfl⟩, (fun h => nomatch (show 0 = 1 from h)),
      (fun h => nomatch (show 0 = 2 from h))⟩

theorem prefix_took {pre : Nat} {m : Mode} {r : Rd} (hp : pfx pre = some m) (hb : ∀ b ∈ r.mem, b < 256)
    (h : (readPrefix pre m r).2.err = .OK) :
    Took r (readPrefix pre m r).2 (tail m (readPrefix pre m r).1.val) ∧
    (readPrefix pre m r).1.reg = (skelP pre m).reg ∧ (readPrefix pre m r).1.cc = (skelP pre m).cc ∧
    Range m (readPrefix pre m r).1.val := by
  have hm : m ∈ [Mode.DIR, .EXT, .IND, .BASE, .IDX, .REG8] := by
    unfold pfx at hp
    split at hp <;> first | (injection hp with hp; subst hp; decide) | cases hp
  unfold skelP
  unfold readPrefix at h ⊢
  cases m with
  | DIR | IDX =>
    obtain ⟨h1, h2⟩ := byte_took hb h
    exact ⟨h2, rfl, rfl, fun _ => h1, fun h => absurd h (by decide)⟩
  | EXT =>
    obtain ⟨h1, h2⟩ := le16_took hb h
    exact ⟨h2, rfl, rfl, fun h => absurd h (by decide), fun _ => h1⟩
  | IND | BASE | REG8 =>
    exact ⟨Took.refl h, rfl, rfl, fun h => absurd h (by decide), fun h => absurd h (by decide)⟩
  | _ => simp at hm

/-- What is known of an operand without the bytes, and what is known of the bytes. -/
theorem good_of {addr : Nat} {m : Mode} {d d0 : DOp} (h : goodB m d0 = true) (ha : Agree m d d0) (hr : Range m d.val)
    (h8 : m = .REL8 → (relTarget addr (int8 d.val) : Int) = ((addr + 2 : Nat) : Int) + int8 d.val ∧
      relTarget addr (int8 d.val) < 65536)
    (h16 : m = .REL16 → (relTarget addr (int16 d.val) : Int) = ((addr + 2 : Nat) : Int) + int16 d.val ∧
      relTarget addr (int16 d.val) < 65536) : Good addr m d := by
  unfold goodB at h
  unfold Good
  cases m with
  | IMM8 | DIR => exact hr.1 rfl
  | IMM16 | EXT => exact hr.2 rfl
  | REL8 => exact ⟨hr.1 rfl, h8 rfl⟩
  | REL16 => exact ⟨hr.2 rfl, h16 rfl⟩
  | BASE | HLPA => trivial
  | BIT =>
    dsimp only at h ⊢
    rw [ha.bit rfl]
    exact of_decide_eq_true h
  | IND =>
    dsimp only at h ⊢
    rw [ha.reg]
    cases hd : d0.reg with
    | none => rw [hd] at h; cases h
    | some r => rw [hd] at h; exact ⟨r, rfl, h⟩
  | IDX | IXPD =>
    dsimp only at h ⊢
    rw [ha.reg]
    cases hd : d0.reg with
    | none => rw [hd] at h; cases h
    | some r => rw [hd] at h; exact ⟨hr.1 rfl, r, rfl, h⟩
  | CC =>
    dsimp only at h ⊢
    rw [ha.cc]
    exact of_decide_eq_true h
  | STACK | REG8 | REG16 | REGIX =>
    dsimp only at h ⊢
    rw [ha.reg]
    exact Option.isSome_iff_exists.1 h
  | R r => exact h
  | _ => cases h

theorem fld_agree {m : Mode} {d d0 : DOp} (h : Agree m d d0) : fld m d = fld m d0 := by
  unfold fld
  cases m <;> first | rfl | (dsimp only; rw [h.reg]) | (dsimp only; rw [h.cc]) | (dsimp only; rw [h.bit rfl])

theorem mode_agree {addr : Nat} {m : Mode} {d d0 : DOp} {hi : Bool} (h : Agree m d d0)
    (hh : m = .EXT → hi = decide (0xff00 ≤ d.val)) : (opBack addr m d).mode = bmode m d0 hi := by
  unfold bmode
  by_cases he : m = .EXT
  · rw [if_pos he, hh he]
    subst he
    show (if 0xff00 ≤ d.val then Mode.DIR else .EXT) = _
    by_cases hx : 0xff00 ≤ d.val
    · rw [if_pos hx, if_pos (decide_eq_true hx)]
    · rw [if_neg hx, if_neg (by simpa using hx)]
  · rw [if_neg he]
    unfold opBack
    cases m <;> first | rfl | (dsimp only; rw [h.reg]) | (dsimp only; rw [h.cc]; try (split <;> rfl)) | exact absurd rfl he

/-! ### Emitting -/

/-- What an operand emits. -/
def Ins.add (i : Ins) (m : Mode) (opc : Nat) (d : DOp) : Ins :=
  ⟨.OK, i.bytes ++ ((if i.pending && emits m then [(opc ||| fld m d) % 256] else []) ++ tail m d.val),
    i.pending && !emits m⟩

theorem regBack_reg (r : Reg) : (regBack r).reg = some r ∧ (regBack r).err = .OK := by
  cases r <;> exact ⟨rfl, rfl⟩

theorem opBack_err (addr : Nat) (m : Mode) (d : DOp) : (opBack addr m d).err = .OK := by
  unfold opBack
  cases m with
  | STACK | REG8 | REG16 | REGIX =>
    dsimp only
    cases d.reg with
    | none => rfl
    | some r => exact (regBack_reg r).2
  | R r => exact (regBack_reg r).2
  | CC => dsimp only; split <;> rfl
  | _ => rfl

theorem ins_ok (i : Ins) (h : i.err = .OK) : i.setErrorIf .OK = i := by
  obtain ⟨e, b, p⟩ := i
  have h : e = .OK := h
  subst h
  rfl

theorem emit_plain {bs : List Nat} {pend : Bool} {opc f : Nat} {m : Mode} {d : DOp} (he : emits m = true)
    (ht : tail m d.val = []) (hf : fld m d = f) :
    (⟨.OK, bs, pend⟩ : Ins).emitInsn (opc ||| f) = (⟨.OK, bs, pend⟩ : Ins).add m opc d := by
  unfold Ins.emitInsn Ins.add
  dsimp only
  rw [he, ht, hf]
  cases pend
  · simp
  · simp

theorem emit_byte {bs : List Nat} {pend : Bool} {opc f v : Nat} {m : Mode} {d : DOp} (he : emits m = true)
    (hv : v % 256 = d.val) (ht : tail m d.val = [d.val]) (hf : fld m d = f) :
    ((⟨.OK, bs, pend⟩ : Ins).emitInsn (opc ||| f)).emitByte v = (⟨.OK, bs, pend⟩ : Ins).add m opc d := by
  unfold Ins.emitInsn Ins.add Ins.emitByte
  dsimp only
  rw [he, ht, hf]
  cases pend
  · simp [hv]
  · simp [hv]

theorem emit_word {bs : List Nat} {pend : Bool} {opc f v : Nat} {m : Mode} {d : DOp} (he : emits m = true)
    (hv : v % 65536 = d.val) (ht : tail m d.val = [d.val % 256, d.val / 256]) (hf : fld m d = f) :
    ((⟨.OK, bs, pend⟩ : Ins).emitInsn (opc ||| f)).emit16 v = (⟨.OK, bs, pend⟩ : Ins).add m opc d := by
  have h1 : v % 256 = d.val % 256 := by omega
  have h2 : v / 256 % 256 = d.val / 256 := by omega
  unfold Ins.emitInsn Ins.add Ins.emit16
  dsimp only
  rw [he, ht, hf]
  cases pend
  · simp [h1, h2]
  · simp [h1, h2]

theorem ind_offset {v : Nat} (h : v < 256) :
    (Value.setS (int8 v)).overflowInt8 = false ∧ (Value.setS (int8 v)).getUnsigned % 256 = v :=
  (by decide +kernel : ∀ v < 256, (Value.setS (int8 v)).overflowInt8 = false ∧
    (Value.setS (int8 v)).getUnsigned % 256 = v) v h

theorem check_ok (i : Ins) {b : Bool} (h : b = false) (e : Err) : i.check b e = i := by
  subst h
  rfl

variable {addr : Nat}

theorem or_zero (n : Nat) : n = n ||| 0 := by simp

theorem emit_rel {m : Mode} {d : DOp} {opc : Nat} {bs : List Nat} {pend : Bool} (ha : addr < 65536)
    (hm : m = .REL8 ∨ m = .REL16) (hg : Good addr m d) :
    encodeRelative false addr m (opBack addr m d) opc ⟨.OK, bs, pend⟩ = .ok ((⟨.OK, bs, pend⟩ : Ins).add m opc d) := by
  have hW : Config.W = 4294967296 := rfl
  have key : ∀ (x : Int) (T : Nat), -32768 ≤ x → x < 32768 → (T : Int) = ((addr + 2 : Nat) : Int) + x → T < 65536 →
      Config.branchDelta 16 (addr + 2) T .OK = some (x, .OK) := by
    intro x T h1 h2 h3 h4
    have := branch_near (w := 16) (base := addr + 2) (target := T) (by decide) (by decide) (by rw [hW]; omega) h4
      (by omega) (by omega)
    rw [this, show (T : Int) - (addr + 2 : Nat) = x by omega]
  unfold encodeRelative
  dsimp only
  rw [opBack_err, if_neg (by decide)]
  rcases hm with rfl | rfl
  · obtain ⟨h1, h2, h3⟩ := hg
    have hr := int8_range _ h1
    rw [show (opBack addr .REL8 d).val.getUnsigned = relTarget addr (int8 d.val) from getUnsigned_num (by omega),
      key _ _ (by omega) (by omega) h2 h3]
    rw [show ofOption (some (int8 d.val, Err.OK)) = .ok (int8 d.val, Err.OK) from rfl, Out.ok_bind]
    dsimp only
    rw [Config.overflowDelta_eq (by decide) (by decide)]
    rw [decide_eq_false (p := ¬(-((2 ^ (8 - 1) : Nat) : Int) ≤ int8 d.val ∧ int8 d.val < ((2 ^ (8 - 1) : Nat) : Int)))
      (fun h => h ⟨by omega, by omega⟩)]
    rw [show ofOption (some false) = .ok false from rfl, Out.ok_bind, Bool.false_and]
    rw [if_neg (by decide), if_pos rfl, check_ok _ rfl]
    have := emit_byte (bs := bs) (pend := pend) (opc := opc) (f := 0) (v := (int8 d.val % 256).toNat) (m := .REL8) (d := d)
      rfl (by unfold int8; split <;> omega) rfl rfl
    rw [Nat.or_zero] at this
    rw [this]
  · obtain ⟨h1, h2, h3⟩ := hg
    have hr := int16_range _ h1
    rw [show (opBack addr .REL16 d).val.getUnsigned = relTarget addr (int16 d.val) from getUnsigned_num (by omega),
      key _ _ (by omega) (by omega) h2 h3]
    rw [show ofOption (some (int16 d.val, Err.OK)) = .ok (int16 d.val, Err.OK) from rfl, Out.ok_bind]
    dsimp only
    rw [Config.overflowDelta_eq (by decide) (by decide)]
    rw [show ∀ b : Bool, ofOption (some b) = .ok b from fun _ => rfl, Out.ok_bind, Bool.false_and]
    rw [if_neg (by decide), if_neg (by decide)]
    have := emit_word (bs := bs) (pend := pend) (opc := opc) (f := 0) (v := (int16 d.val % 65536).toNat) (m := .REL16)
      (d := d) rfl (by unfold int16; split <;> omega) rfl rfl
    rw [Nat.or_zero] at this
    rw [this]

theorem emit_one {m : Mode} {d : DOp} {opc : Nat} {bs : List Nat} {pend : Bool} (ha : addr < 65536)
    (hg : m = .NONE ∨ Good addr m d) :
    encodeOperand false addr m (opBack addr m d) opc ⟨.OK, bs, pend⟩ = .ok ((⟨.OK, bs, pend⟩ : Ins).add m opc d) := by
  have plain : ∀ f, emits m = true → tail m d.val = [] → fld m d = f →
      Out.ok ((⟨.OK, bs, pend⟩ : Ins).emitInsn (opc ||| f)) = .ok ((⟨.OK, bs, pend⟩ : Ins).add m opc d) :=
    fun f h1 h2 h3 => by rw [emit_plain h1 h2 h3]
  have zero : emits m = true → tail m d.val = [] → fld m d = 0 →
      Out.ok ((⟨.OK, bs, pend⟩ : Ins).emitInsn opc) = .ok ((⟨.OK, bs, pend⟩ : Ins).add m opc d) := by
    intro h1 h2 h3
    have := plain 0 h1 h2 h3
    rwa [Nat.or_zero] at this
  have byte : ∀ v f, emits m = true → v % 256 = d.val → tail m d.val = [d.val] → fld m d = f →
      Out.ok (((⟨.OK, bs, pend⟩ : Ins).emitInsn (opc ||| f)).emitByte v) = .ok ((⟨.OK, bs, pend⟩ : Ins).add m opc d) :=
    fun v f h1 h2 h3 h4 => by rw [emit_byte h1 h2 h3 h4]
  have word : ∀ v f, emits m = true → v % 65536 = d.val → tail m d.val = [d.val % 256, d.val / 256] → fld m d = f →
      Out.ok (((⟨.OK, bs, pend⟩ : Ins).emitInsn (opc ||| f)).emit16 v) = .ok ((⟨.OK, bs, pend⟩ : Ins).add m opc d) :=
    fun v f h1 h2 h3 h4 => by rw [emit_word h1 h2 h3 h4]
  unfold encodeOperand
  rw [opBack_err, ins_ok _ rfl]
  dsimp only
  rcases hg with rfl | hg
  · exact zero rfl rfl rfl
  have hg0 := hg
  unfold Good at hg
  cases m with
  | IMM8 =>
    have hg : d.val < 256 := hg
    rw [check_ok _ (show (opBack addr .IMM8 d).val.overflowUint8 = false from
      overflow_num (by omega) (by omega) (by omega)),
      show (opBack addr .IMM8 d).val.getUnsigned = d.val from getUnsigned_num (by omega)]
    have := byte d.val 0 rfl (by omega) rfl rfl
    rwa [Nat.or_zero] at this
  | DIR =>
    have hg : d.val < 256 := hg
    have hv : d.val ||| 0xff00 < 65536 ∧ (d.val ||| 0xff00) % 256 = d.val :=
      (by decide +kernel : ∀ v < 256, v ||| 0xff00 < 65536 ∧ (v ||| 0xff00) % 256 = v) _ hg
    rw [show (opBack addr .DIR d).val.getUnsigned = d.val ||| 0xff00 from getUnsigned_num (by omega)]
    have := byte (d.val ||| 0xff00) 0 rfl hv.2 rfl rfl
    rwa [Nat.or_zero] at this
  | IMM16 =>
    have hg : d.val < 65536 := hg
    rw [check_ok _ (show (opBack addr .IMM16 d).val.overflowUint16 = false from
      overflow_num (by omega) (by omega) (by omega)),
      show (opBack addr .IMM16 d).val.getUnsigned = d.val from getUnsigned_num (by omega)]
    have := word d.val 0 rfl (by omega) rfl rfl
    rwa [Nat.or_zero] at this
  | EXT =>
    have hg : d.val < 65536 := hg
    rw [show (opBack addr .EXT d).val.getUnsigned = d.val from getUnsigned_num (by omega)]
    have := word d.val 0 rfl (by omega) rfl rfl
    rwa [Nat.or_zero] at this
  | BIT =>
    have hg : d.val < 8 := hg
    rw [check_ok _ (show (opBack addr .BIT d).val.overflow 7 0 = false from
      overflow_num (by omega) (by omega) (by omega)),
      show (opBack addr .BIT d).val.getUnsigned = d.val from getUnsigned_num (by omega)]
    exact plain _ rfl rfl rfl
  | REL8 => exact emit_rel ha (Or.inl rfl) hg0
  | REL16 => exact emit_rel ha (Or.inr rfl) hg0
  | IND => exact plain _ rfl rfl rfl
  | IDX =>
    have h := ind_offset hg.1
    rw [check_ok _ (show (opBack addr .IDX d).val.overflowInt8 = false from h.1)]
    exact byte _ _ rfl h.2 rfl rfl
  | IXPD =>
    have h := ind_offset hg.1
    rw [check_ok _ (show (opBack addr .IXPD d).val.overflowInt8 = false from h.1)]
    exact byte _ _ rfl h.2 rfl rfl
  | CC =>
    refine plain _ rfl rfl ?_
    show encodeCcName d.cc = encodeCcName (opBack addr .CC d).cc
    unfold opBack
    dsimp only
    split
    · rename_i h; rw [h]
    · rfl
  | STACK | REG8 | REG16 | REGIX =>
    refine plain _ rfl rfl ?_
    obtain ⟨r, h1⟩ := hg
    unfold fld opBack
    dsimp only
    rw [h1]
    dsimp only [Option.map, Option.getD]
    rw [(regBack_reg r).1]
  | R r =>
    cases r with
    | A | HL =>
      unfold Ins.add
      cases pend <;> simp [emits, tail]
    | _ => exact zero (by decide) rfl rfl
  | BASE | HLPA => exact zero rfl rfl rfl
  | _ => exact hg.elim

end Libasm.Cpu.Tlcs90
