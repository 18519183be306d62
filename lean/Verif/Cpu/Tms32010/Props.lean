import Verif.Cpu.Tms32010.Encode
/-
C75: what the TMS32010 disassembler prints assembles to the bytes it read.
-/
namespace Libasm.Cpu.Tms32010
open Scan Number Number.Spec Eval
open Tables (Row)

theorem syntaxOk : SyntaxOk syntaxOf := by
  constructor
  · intro c hc
    exact Ctype.ascii (p := fun c => Ctype.isSpace c = true → syntaxOf.instructionLetter c = false)
      (by decide +kernel) c (space_ascii hc) hc
  · intro c s hc
    exact Ctype.ascii (p := fun c => Ctype.isAlpha c = true → (c == '*') = false)
      (by decide +kernel) c (alpha_ascii hc) hc

theorem impl_skip (P : Plugins Value) (cpu : CpuType) (name : List Char) (s : Scan) :
    encodeImpl P cpu name (skipSpaces s) = encodeImpl P cpu name s := by
  unfold encodeImpl
  rw [operands_skip (parse_skip P)]

/-! ### The rows of the table -/

/-- All modes of operands and of the table. -/
def allModes : List Mode :=
  [.NONE, .LS0, .DPK, .ARK, .AR, .NARP, .LS3, .IM3, .PA, .LS4, .IM8, .MAM, .PMA, .IM13, .ARP, .INC, .DEC, .UNDEF]

theorem mem_allModes (m : Mode) : m ∈ allModes := by cases m <;> decide

/-- The shapes of the operands in the table. -/
def shapes : List (List Mode) :=
  [[], [.ARK], [.DPK], [.IM8], [.IM13], [.PMA], [.AR, .IM8], [.MAM, .NARP], [.MAM, .LS4, .NARP],
    [.AR, .MAM, .NARP], [.MAM, .PA, .NARP], [.MAM, .LS0, .NARP], [.MAM, .LS3, .NARP]]

/-- The rows of the table. -/
def rows : List Row := Tables.Tms32010.TABLE_TMS32010

/-- The operands the row accepts. -/
def accepted (r : Row) : List (List Mode) :=
  (allModes.filter (acceptMode · (modeAt r 0))).flatMap fun a =>
  (allModes.filter (acceptMode · (modeAt r 1))).flatMap fun b =>
  (allModes.filter (acceptMode · (modeAt r 2))).map fun c => [a, b, c]

/-- The row is found by its name and operands. -/
def rowIs (r : Row) : Out (Except Err Row) → Bool
  | .ok (.ok s) => s == r
  | _ => false

theorem rowIs_eq {r : Row} {x : Out (Except Err Row)} (h : rowIs r x = true) : x = .ok (.ok r) := by
  unfold rowIs at h
  split at h
  · rw [eq_of_beq h]
  · cases h

/-- What the proofs need of a row. -/
def rowOk (up : Bool) (r : Row) : Bool :=
  shapes.contains (modes r) && nameB syntaxOf (r.name.map (letter up)) &&
  (modeAt r 1 != .LS0 || r.opcode / 256 % 8 == 0) &&
  (accepted r).all fun ms => rowIs r (searchName (r.name.map (letter up)) ms)

theorem rows_ok : ∀ up, (rows.all (rowOk up)) = true := by decide +kernel

theorem found {opc : Nat} {r : Row} (h : searchOpCode opc = some r) : r ∈ rows ∧ matchOpCode opc r = true := by
  unfold searchOpCode at h
  rw [Table.Props.C24_searchOpCode] at h
  split at h
  · rename_i p r' hf
    injection h with h
    subst h
    have h1 := List.find?_some hf
    have h2 := List.mem_of_find?_eq_some hf
    refine ⟨?_, h1⟩
    simp only [List.mem_flatMap, List.mem_map, Prod.mk.injEq] at h2
    obtain ⟨q, hq, x, hx, hq', rfl⟩ := h2
    have : ∀ q ∈ pages, q.entries = rows := by decide +kernel
    rw [← this q (List.mem_filter.1 hq).1]
    exact hx
  · cases h

theorem accept_mem {ops : List Mode} {r : Row} (hl : ops.length = 3) (hm : (modes r).length ≤ 3)
    (h : acceptModes ops r = true) : ops ∈ accepted r := by
  match ops, hl with
  | [a, b, c], _ =>
    unfold acceptModes at h
    unfold accepted modeAt
    generalize modes r = ms at *
    have key : ∀ (ms : List Mode), ms.length ≤ 3 → pad 3 .NONE ms = [ms.getD 0 .NONE, ms.getD 1 .NONE, ms.getD 2 .NONE] := by
      intro ms h
      match ms, h with
      | [], _ => rfl
      | [_], _ => rfl
      | [_, _], _ => rfl
      | [_, _, _], _ => rfl
    rw [key ms hm] at h
    simp only [List.zip_cons_cons, List.zip_nil_right, List.all_cons, List.all_nil, Bool.and_true, Bool.and_eq_true] at h
    simp only [List.mem_flatMap, List.mem_filter, List.mem_map]
    exact ⟨a, ⟨mem_allModes a, h.1⟩, b, ⟨mem_allModes b, h.2.1⟩, c, ⟨mem_allModes c, h.2.2⟩, rfl⟩

/-! ### From the operands to the code -/

theorem encode_none (cpu : CpuType) (a : Asm) : encodeOperand cpu .NONE {} a = a := by
  show a.setErrorIf .OK = a
  exact Asm.noError a

section
variable {E : Env} {addr : Nat}

/-- What is to be shown of the operands of a row: they are read, the row accepts them, and they make the code. -/
def Back (E : Env) (addr : Nat) (o : Opts) (cpu : CpuType) (opc : Nat) (r0 : Rd) (ms : List Mode) (opcode : Nat) : Prop :=
  ∃ ops bs, operandList (parseOperand (plug E addr)) 3 (decodeOperands o cpu opc r0 ms).1 = .ok (.ok (ops, [])) ∧
    (((pad 3 {} ops).map (·.mode)).zip (pad 3 .NONE ms)).all (fun p => acceptMode p.1 p.2) = true ∧
    ((pad 3 .NONE ms).zip (pad 3 {} ops)).foldl (fun a p => encodeOperand cpu p.1 p.2 a) ⟨.OK, opcode, []⟩ =
      ⟨.OK, opc, bs⟩ ∧
    Took r0 (decodeOperands o cpu opc r0 ms).2 bs

theorem back_of {o : Opts} {cpu : CpuType} {opc opcode : Nat} {r0 : Rd} {ms : List Mode} {ops : List Operand}
    {bs : List Nat} {m1 m2 m3 : Mode} {o1 o2 o3 : Operand} {a1 a2 : Asm}
    (h : operandList (parseOperand (plug E addr)) 3 (decodeOperands o cpu opc r0 ms).1 = .ok (.ok (ops, [])))
    (hp : pad 3 {} ops = [o1, o2, o3]) (hm : pad 3 .NONE ms = [m1, m2, m3])
    (k1 : acceptMode o1.mode m1 = true) (k2 : acceptMode o2.mode m2 = true) (k3 : acceptMode o3.mode m3 = true)
    (e1 : encodeOperand cpu m1 o1 ⟨.OK, opcode, []⟩ = a1) (e2 : encodeOperand cpu m2 o2 a1 = a2)
    (e3 : encodeOperand cpu m3 o3 a2 = ⟨.OK, opc, bs⟩) (ht : Took r0 (decodeOperands o cpu opc r0 ms).2 bs) :
    Back E addr o cpu opc r0 ms opcode := by
  refine ⟨ops, bs, h, ?_, ?_, ht⟩
  · rw [hp, hm]
    simp [k1, k2, k3]
  · rw [hp, hm]
    show encodeOperand cpu m3 o3 (encodeOperand cpu m2 o2 (encodeOperand cpu m1 o1 _)) = _
    rw [e1, e2, e3]

/-- One operand. -/
theorem back_one {o : Opts} {cpu : CpuType} {opc opcode : Nat} {r0 : Rd} {m : Mode} {op : Operand} {bs : List Nat}
    (h : Reads E addr (decodeOperand o cpu opc m r0).1 op) (k : acceptMode op.mode m = true)
    (e : encodeOperand cpu m op ⟨.OK, opcode, []⟩ = ⟨.OK, opc, bs⟩)
    (ht : Took r0 (decodeOperand o cpu opc m r0).2 bs) :
    Back E addr o cpu opc r0 [m] opcode :=
  back_of (ms := [m]) (list_one h 2) (o1 := op) (o2 := {}) (o3 := {}) rfl (m1 := m) (m2 := .NONE) (m3 := .NONE) rfl
    k (by decide) (by decide) e (encode_none _ _) (encode_none _ _) ht

theorem embed_opc (a : Asm) {x : Nat} (h : x < 65536) : embed a x = { a with opc := a.opc ||| x } := by
  unfold embed
  rw [Nat.mod_eq_of_lt h]

theorem or_even {x y : Nat} (hx : x % 2 = 0) (hy : y < 2) : x ||| y = x + y := by
  have := Nat.two_pow_add_eq_or_of_lt (i := 1) (b := y) hy (x / 2)
  rw [show 2 ^ 1 * (x / 2) = x by omega] at this
  exact this.symm

/-- A code with a register or a page. -/
theorem back_bit {o : Opts} {cpu : CpuType} {opc opcode : Nat} {r0 : Rd} {m : Mode} (hr : r0.err = .OK)
    (hm : m = .ARK ∨ m = .DPK) (h : opc / 2 * 2 = opcode) : Back E addr o cpu opc r0 [m] opcode := by
  have hlt : opc % 2 < 2 := Nat.mod_lt _ (by decide)
  have ho : opcode ||| opc % 2 = opc := by rw [or_even (by omega) hlt]; omega
  rcases hm with rfl | rfl
  · refine back_one (op := regOperand (.AR (opc % 2))) (reg_reads o (show regOk (.AR (opc % 2)) from hlt)) (by rfl) (bs := []) ?_
      (Took.refl hr)
    show embed (Asm.setErrorIf _ .OK) (⟨opc % 2, .unsigned⟩ : Value).getUnsigned = _
    rw [Asm.noError, getUnsigned_num (by omega), embed_opc _ (by omega)]
    dsimp only
    rw [ho]
  · have hn : NumText .suffixh .intel [letter o.upper (if opc % 2 = 0 then '0' else '1')] (opc % 2) := by
      have := numText_dec .suffixh .intel .suffixh o.upper (opc % 2) (by omega)
      have e : ∀ v < 2, ∀ up, Style.suffixh.dec up v = [letter up (if v = 0 then '0' else '1')] := by decide +kernel
      rw [e _ hlt] at this
      exact this
    refine back_one (num_reads hn) (accept_small.2.1 _ hlt) (bs := []) ?_ (Took.refl hr)
    show embed (Asm.setErrorIf _ .OK) (⟨opc % 2, .unsigned⟩ : Value).getUnsigned = _
    rw [Asm.noError, getUnsigned_num (by omega), embed_opc _ (by omega)]
    dsimp only
    rw [ho]

theorem byte_num {o : Opts} (ho : Readable o) (opc : Nat) :
    NumText .suffixh .intel (outDec .suffixh o (opc % 256) ((8 : Nat) : Int)) (opc % 256) :=
  outDec_num (pairs ho) _ 8 (Nat.mod_lt _ (by decide)) (by decide) (by decide)

theorem byte_encode (cpu : CpuType) (opc : Nat) (a : Asm) :
    encodeOperand cpu .IM8 { mode := constantType (opc % 256), val := ⟨opc % 256, .unsigned⟩ } a =
      { a with opc := a.opc ||| opc % 256 } := by
  show embed (Asm.setErrorIf _ .OK) (⟨opc % 256, .unsigned⟩ : Value).getUnsigned = _
  rw [Asm.noError, getUnsigned_num (by omega), embed_opc _ (by omega)]

/-- A code with 8 bits of data. -/
theorem back_byte {o : Opts} (ho : Readable o) {cpu : CpuType} {opc opcode : Nat} {r0 : Rd} (hr : r0.err = .OK)
    (h : opc / 256 * 256 = opcode) : Back E addr o cpu opc r0 [.IM8] opcode := by
  refine back_one (num_reads (byte_num ho opc)) (accept_byte (by omega)).1 (bs := []) ?_ (Took.refl hr)
  rw [byte_encode, ← h]
  dsimp only
  rw [or_low (by omega)]
  rw [Nat.div_add_mod']

theorem or_reg {x z y : Nat} (hx : x % 2 = 0) (hz : z < 2) (hy : y < 256) :
    (x * 256 + y) ||| z * 256 = (x + z) * 256 + y := by
  rw [or_high hy, or_even hx hz]

theorem reg_encode (cpu : CpuType) {n : Nat} (h : n < 8) (a : Asm) :
    encodeOperand cpu .AR (regOperand (.AR n)) a = { a with opc := a.opc ||| n * 256 } ∧
    encodeOperand cpu .PA (regOperand (.PA n)) a = { a with opc := a.opc ||| n * 256 } := by
  have : embed (Asm.setErrorIf a .OK) ((⟨n, .unsigned⟩ : Value).getUnsigned * 256) = { a with opc := a.opc ||| n * 256 } := by
    rw [Asm.noError, getUnsigned_num (by omega), embed_opc _ (by omega)]
  exact ⟨this, this⟩

/-- A code with a register and 8 bits of data. -/
theorem back_reg_byte {o : Opts} (ho : Readable o) {cpu : CpuType} {opc opcode : Nat} {r0 : Rd} (hr : r0.err = .OK)
    (h : opc / 256 * 256 - opc / 256 * 256 / 256 % 2 * 256 = opcode) : Back E addr o cpu opc r0 [.AR, .IM8] opcode := by
  have hn : opc / 256 % 2 < 2 := Nat.mod_lt _ (by decide)
  have h1 : operandList (parseOperand (plug E addr)) 3 (decodeOperands o cpu opc r0 [.AR, .IM8]).1 =
      .ok (.ok ([regOperand (.AR (opc / 256 % 2)),
        { mode := constantType (opc % 256), val := ⟨opc % 256, .unsigned⟩ }], [])) := by
    have := list_cons (reg_reads (E := E) (addr := addr) o (show regOk (.AR (opc / 256 % 2)) from hn))
      (list_one (num_reads (byte_num ho opc)) 1)
    rw [← List.append_assoc] at this
    exact this
  refine back_of h1 rfl (m1 := .AR) (m2 := .IM8) (m3 := .NONE) rfl (by rfl) (accept_byte (by omega)).1 (by decide) (bs := [])
    (reg_encode cpu (by omega) _).1 (byte_encode cpu opc _) ?_ (Took.refl hr)
  rw [encode_none]
  dsimp only
  rw [← h, show opc / 256 * 256 - opc / 256 * 256 / 256 % 2 * 256 = (opc / 256 - opc / 256 % 2) * 256 + 0 by omega,
    or_reg (by omega) hn (by decide), Nat.add_zero, or_low (by omega)]
  rw [Nat.sub_add_cancel (Nat.mod_le _ _), Nat.div_add_mod']

/-- A code with 13 bits of data. -/
theorem back_imm {o : Opts} (ho : Readable o) {cpu : CpuType} {opc opcode : Nat} {r0 : Rd} (hr : r0.err = .OK)
    (h : opc / 8192 * 8192 = opcode) : Back E addr o cpu opc r0 [.IM13] opcode := by
  generalize hx : (if opc % 8192 < 4096 then ((opc % 8192 : Nat) : Int) else ((opc % 8192 : Nat) : Int) - 8192) = x
  have hm : meant (if opc % 8192 < 4096 then opc % 8192 else opc % 8192 + Config.W - 8192) (-13) = x := by
    rw [← hx]
    unfold meant signedOf
    rw [if_pos (by decide), show (-13 : Int).natAbs = 13 from rfl]
    have hW : Config.W = 4294967296 := rfl
    rw [hW]
    split
    · rw [if_pos (by omega)]
      omega
    · rw [if_neg (by omega)]
      omega
  have ht := outDec_text (pairs ho) (if opc % 8192 < 4096 then opc % 8192 else opc % 8192 + Config.W - 8192) (-13)
    (by
      have hW : Config.W = 4294967296 := rfl
      rw [hW]
      split <;> omega) (by decide) (by decide)
  rw [hm] at ht
  have hu : (Value.setS x).getUnsigned % 8192 = opc % 8192 ∧ (Value.setS x).overflow 0x0FFF (-0x1000) = false := by
    by_cases h1 : opc % 8192 < 4096
    · rw [if_pos h1] at hx
      have e : Value.setS x = ⟨opc % 8192, .unsigned⟩ := by
        unfold Value.setS
        rw [if_pos (by omega), show x.toNat = opc % 8192 by omega]
      rw [e, getUnsigned_num (by omega), overflow_num (by omega) (by omega) (by omega)]
      exact ⟨by omega, rfl⟩
    · rw [if_neg h1] at hx
      have e : Value.setS x = ⟨opc % 8192 + 18446744073709551616 - 8192, .signed⟩ := by
        unfold Value.setS Value.ofSigned Value.M
        rw [if_neg (by omega)]
        rw [show (x % ((18446744073709551616 : Nat) : Int)).toNat = opc % 8192 + 18446744073709551616 - 8192 by omega]
      have e1 : Value.asSigned (opc % 8192 + 18446744073709551616 - 8192) = x := by
        unfold Value.asSigned Value.H Value.M
        rw [if_neg (by omega)]
        omega
      rw [e]
      unfold Value.overflow Value.overflowUint32 Value.getUnsigned Value.getSigned Value.isUnsigned
      dsimp only
      rw [e1]
      refine ⟨by omega, ?_⟩
      rw [show (opc % 8192 + 18446744073709551616 - 8192) % 4294967296 = opc % 8192 + 4294967296 - 8192 by omega,
        if_neg (by simp; omega), if_neg (by simp), if_neg (by omega)]
      simp
      omega
  refine back_one (signed_reads ht) accept_imm.1 (bs := []) ?_ (Took.refl hr)
  show embed (Asm.check (Asm.setErrorIf _ .OK) ((Value.setS x).overflow 0x0FFF (-0x1000)) _)
    ((Value.setS x).getUnsigned % 8192) = _
  rw [hu.1, hu.2, check_false, Asm.noError, embed_opc _ (by omega), ← h]
  have := Nat.two_pow_add_eq_or_of_lt (i := 13) (b := opc % 8192) (by omega) (opc / 8192)
  dsimp only
  rw [show opc / 8192 * 8192 = 2 ^ 13 * (opc / 8192) by omega, ← this]
  rw [Nat.div_add_mod]

/-- A code with an address after it. -/
theorem back_address {o : Opts} (ho : Readable o) {cpu : CpuType} {opc opcode : Nat} {r0 : Rd}
    (hmem : ∀ b ∈ r0.mem, b < 256) (he : (decodeOperands o cpu opc r0 [.PMA]).2.err = .OK)
    (h : opc = opcode) : Back E addr o cpu opc r0 [.PMA] opcode := by
  have e : decodeOperands o cpu opc r0 [.PMA] = (outAbsAddr .suffixh o
      (if (r0.le16.2.setErrorIf (Config.checkAddr 12 r0.le16.1 false)).err ≠ .OK then 16 else 12) r0.le16.1,
      r0.le16.2.setErrorIf (Config.checkAddr 12 r0.le16.1 false)) := rfl
  rw [e] at he
  dsimp only at he
  obtain ⟨h1, h2⟩ := setErrorIf_ok he
  obtain ⟨h3, h4⟩ := le16_took hmem h1
  have h5 : r0.le16.1 < 4096 := by
    rw [Config.checkAddr_eq false (by decide) (by unfold Config.W; omega)] at h2
    split at h2
    · cases h2
    · omega
  have e' : decodeOperand o cpu opc .PMA r0 = (outAbsAddr .suffixh o 12 r0.le16.1, r0.le16.2) := by
    have : r0.le16.2.setErrorIf (Config.checkAddr 12 r0.le16.1 false) = r0.le16.2 := by
      rw [h2]
      unfold Rd.setErrorIf Config.setErrorIf
      simp
    show decodeOperands o cpu opc r0 [.PMA] = _
    rw [e, this, if_neg (by rw [h1]; simp)]
  have hn : NumText .suffixh .intel (decodeOperand o cpu opc .PMA r0).1 r0.le16.1 := by
    rw [e']
    exact outAbsAddr_num (pairs ho) _ 12 h5 (by decide) (by decide)
  refine back_one (num_reads hn) accept_imm.2 (bs := [r0.le16.1 % 256, r0.le16.1 / 256]) ?_ (by rw [e']; exact h4)
  show Asm.emit16le (Asm.check (Asm.setErrorIf _ .OK) (Value.overflow _ 0x0FFF 0) _)
    ((⟨r0.le16.1, .unsigned⟩ : Value).getUnsigned % 4096) = _
  rw [overflow_num (by omega) (by omega) (by omega), check_false, Asm.noError, getUnsigned_num (by omega)]
  unfold Asm.emit16le
  rw [Nat.mod_eq_of_lt h5, Nat.mod_eq_of_lt (show r0.le16.1 / 256 < 256 by omega), h]
  rfl

/-- The lower byte, once the next register is in. -/
theorem next_code {h opc : Nat} (hv : validMam (opc % 256) = true) :
    (if Next opc then (h * 256 + mam (opc % 256) - (h * 256 + mam (opc % 256)) / 8 % 2 * 8) ||| opc % 2
      else h * 256 + mam (opc % 256)) = h * 256 + opc % 256 := by
  have hb := mam_back (opc % 256) (by omega) hv
  have hl := mam_lt (l := opc % 256) (by omega)
  have hn : Next (opc % 256) ↔ Next opc := by unfold Next; omega
  generalize mam (opc % 256) = m at *
  by_cases hx : Next opc
  · rw [if_pos hx]
    rw [if_pos (hn.2 hx)] at hb
    rw [show h * 256 + m - (h * 256 + m) / 8 % 2 * 8 = h * 256 + (m - m / 8 % 2 * 8) by omega,
      or_low' (by omega) (by omega)]
    rw [show opc % 256 % 2 = opc % 2 by omega] at hb
    rw [hb]
  · rw [if_neg hx]
    rw [if_neg (fun h => hx (hn.1 h))] at hb
    rw [hb]

/-- A code with a memory operand. -/
theorem back_mam {o : Opts} (ho : Readable o) {cpu : CpuType} {opc opcode : Nat} {r0 : Rd} (hr : r0.err = .OK)
    (he : (decodeOperands o cpu opc r0 [.MAM, .NARP]).2.err = .OK)
    (hv : validMam (opc % 256) = true) (h : opc / 256 * 256 = opcode) :
    Back E addr o cpu opc r0 [.MAM, .NARP] opcode := by
  obtain ⟨h1, op, h2, h3, h4⟩ := mam_reads (E := E) (addr := addr) ho cpu (opc := opc) (r := r0) he
  obtain ⟨ops, h5, h6⟩ := next_list (o := o) (opc := opc) (n := 1) h2
  have e : (decodeOperands o cpu opc r0 [.MAM, .NARP]).1 = (decodeOperand o cpu opc .MAM r0).1 ++ outNextArp o opc := by
    show (decodeOperand o cpu opc .MAM r0).1 ++ [] ++ outNextArp o opc = _
    rw [List.append_nil]
  rw [← e] at h5
  refine back_of h5 (o1 := op) (o2 := nextOp opc) (o3 := {}) (by
      show op :: pad 2 {} ops = _
      rw [h6 1]
      rfl) (m1 := .MAM) (m2 := .NARP) (m3 := .NONE) rfl h3 (next_accept opc) (by decide) (bs := [])
    (h4 _ (by intro hx; have : opcode = 0x7C00 := hx; omega)) (next_encode cpu opc _) ?_ (by
      show Took r0 (decodeOperand o cpu opc .MAM r0).2 []
      rw [h1]
      exact Took.refl hr)
  rw [encode_none]
  dsimp only
  rw [← h, or_low (mam_lt (by omega)), next_code hv]
  rw [Nat.div_add_mod']

/-- A code with a register and a memory operand. -/
theorem back_reg_mam {o : Opts} (ho : Readable o) {cpu : CpuType} {opc opcode : Nat} {r0 : Rd} (hr : r0.err = .OK)
    (he : (decodeOperands o cpu opc r0 [.AR, .MAM, .NARP]).2.err = .OK)
    (hv : validMam (opc % 256) = true) (h : opc / 256 * 256 - opc / 256 * 256 / 256 % 2 * 256 = opcode) :
    Back E addr o cpu opc r0 [.AR, .MAM, .NARP] opcode := by
  have hn : opc / 256 % 2 < 2 := Nat.mod_lt _ (by decide)
  obtain ⟨h1, op, h2, h3, h4⟩ := mam_reads (E := E) (addr := addr) ho cpu (opc := opc) (r := r0) he
  obtain ⟨ops, h5, h6⟩ := next_list (o := o) (opc := opc) (n := 0) h2
  have h7 := list_cons (reg_reads (E := E) (addr := addr) o (show regOk (.AR (opc / 256 % 2)) from hn)) h5
  have e : (decodeOperands o cpu opc r0 [.AR, .MAM, .NARP]).1 = outReg o (.AR (opc / 256 % 2)) ++
      (comma ++ ((decodeOperand o cpu opc .MAM r0).1 ++ outNextArp o opc)) := by
    show outReg o (.AR (opc / 256 % 2)) ++ comma ++ (decodeOperand o cpu opc .MAM r0).1 ++ outNextArp o opc = _
    simp only [List.append_assoc]
  rw [← e] at h7
  have ha : (⟨.OK, opcode, []⟩ : Asm).opc ||| opc / 256 % 2 * 256 = opc / 256 * 256 := by
    have := or_reg (x := opc / 256 - opc / 256 % 2) (z := opc / 256 % 2) (y := 0) (by omega) hn (by decide)
    dsimp only
    rw [← h, show opc / 256 * 256 - opc / 256 * 256 / 256 % 2 * 256 = (opc / 256 - opc / 256 % 2) * 256 + 0 by omega, this]
    omega
  refine back_of h7 (o1 := regOperand (.AR (opc / 256 % 2))) (o2 := op) (o3 := nextOp opc) (by
      show _ :: op :: pad 1 {} ops = _
      rw [h6 0]
      rfl) (m1 := .AR) (m2 := .MAM) (m3 := .NARP) rfl (by rfl) h3 (next_accept opc) (bs := [])
    (reg_encode cpu (by omega) _).1 (h4 _ (by rw [ha]; intro hx; have : opc / 256 * 256 = 0x7C00 := hx; omega)) ?_ (by
      show Took r0 (decodeOperand o cpu opc .MAM r0).2 []
      rw [h1]
      exact Took.refl hr)
  rw [next_encode, ha]
  dsimp only
  rw [or_low (mam_lt (by omega)), next_code hv]
  rw [Nat.div_add_mod']

theorem or_field {x z k y : Nat} (hx : x % 2 ^ k = 0) (hz : z < 2 ^ k) (hy : y < 256) :
    (x * 256 + y) ||| z * 256 = (x + z) * 256 + y := by
  rw [or_high hy]
  have := Nat.two_pow_add_eq_or_of_lt (i := k) (b := z) hz (x / 2 ^ k)
  rw [Nat.mul_div_cancel' (Nat.dvd_of_mod_eq_zero hx)] at this
  rw [this]

/-- A code with a memory operand and a port. -/
theorem back_mam_port {o : Opts} (ho : Readable o) {cpu : CpuType} {opc opcode : Nat} {r0 : Rd} (hr : r0.err = .OK)
    (he : (decodeOperands o cpu opc r0 [.MAM, .PA, .NARP]).2.err = .OK)
    (hv : validMam (opc % 256) = true) (h : opc / 256 * 256 - opc / 256 * 256 / 256 % 8 * 256 = opcode) :
    Back E addr o cpu opc r0 [.MAM, .PA, .NARP] opcode := by
  have hn : opc / 256 % 8 < 8 := Nat.mod_lt _ (by decide)
  obtain ⟨h1, op, h2, h3, h4⟩ := mam_reads (E := E) (addr := addr) ho cpu (opc := opc) (r := r0) he
  obtain ⟨ops, h5, h6⟩ := next_list (o := o) (opc := opc) (n := 0)
    (reg_reads (E := E) (addr := addr) o (show regOk (.PA (opc / 256 % 8)) from hn))
  have h7 := list_cons h2 h5
  have e : (decodeOperands o cpu opc r0 [.MAM, .PA, .NARP]).1 = (decodeOperand o cpu opc .MAM r0).1 ++
      (comma ++ (outReg o (.PA (opc / 256 % 8)) ++ outNextArp o opc)) := by
    show (decodeOperand o cpu opc .MAM r0).1 ++ comma ++ outReg o (.PA (opc / 256 % 8)) ++ outNextArp o opc = _
    simp only [List.append_assoc]
  rw [← e] at h7
  refine back_of h7 (o1 := op) (o2 := regOperand (.PA (opc / 256 % 8))) (o3 := nextOp opc) (by
      show op :: _ :: pad 1 {} ops = _
      rw [h6 0]
      rfl) (m1 := .MAM) (m2 := .PA) (m3 := .NARP) rfl h3 (by rfl) (next_accept opc) (bs := [])
    (h4 _ (by intro hx; have : opcode = 0x7C00 := hx; omega)) (reg_encode cpu hn _).2 ?_ (by
      show Took r0 (decodeOperand o cpu opc .MAM r0).2 []
      rw [h1]
      exact Took.refl hr)
  rw [next_encode]
  dsimp only
  rw [← h, show opc / 256 * 256 - opc / 256 * 256 / 256 % 8 * 256 = (opc / 256 - opc / 256 % 8) * 256 by omega,
    or_low (mam_lt (by omega)), or_field (k := 3) (by omega) (by omega) (mam_lt (by omega)), next_code hv]
  rw [Nat.sub_add_cancel (Nat.mod_le _ _), Nat.div_add_mod']

/-- What a shift count makes of the code. -/
theorem shift_encode {cpu : CpuType} {c : Nat} (hc : c < 16) {x : Operand}
    (hx : x = { mode := constantType c, val := ⟨c, .unsigned⟩ } ∨ c = 0 ∧ x = ({} : Operand)) (a : Asm) :
    encodeOperand cpu .LS4 x a = { a with opc := a.opc ||| c * 256 } ∧
    encodeOperand cpu .LS3 x a = { a with opc := a.opc ||| c * 256 } ∧
    encodeOperand cpu .LS0 x a = a := by
  have h0 : Value.undefined.getUnsigned = 0 := by decide
  have hv : embed (a.setErrorIf x.err) (x.val.getUnsigned * 256) = { a with opc := a.opc ||| c * 256 } := by
    rcases hx with rfl | ⟨rfl, rfl⟩
    · dsimp only
      rw [Asm.noError, getUnsigned_num (by omega), embed_opc _ (by omega)]
    · show embed (a.setErrorIf .OK) (Value.undefined.getUnsigned * 256) = _
      rw [h0, Asm.noError, embed_opc _ (by omega)]
  refine ⟨hv, hv, ?_⟩
  show a.setErrorIf x.err = a
  rcases hx with rfl | ⟨_, rfl⟩ <;> exact Asm.noError a

/-- A code with a memory operand and a shift count. -/
theorem back_mam_shift {o : Opts} (ho : Readable o) {cpu : CpuType} {opc opcode : Nat} {r0 : Rd} (hr : r0.err = .OK)
    {m : Mode} (hm : m = .LS4 ∨ m = .LS3 ∨ m = .LS0) {c : Nat} (hc : c < 16)
    (htext : ∀ r, decodeOperand o cpu opc m r = (outShiftCount o c opc, r))
    (hc0 : m = .LS0 → c = 0) (hacc : acceptMode (constantType c) m = true)
    (he : (decodeOperands o cpu opc r0 [.MAM, m, .NARP]).2.err = .OK)
    (hv : validMam (opc % 256) = true) {k : Nat} (hck : c < 2 ^ k)
    (h : (opc / 256 - c) * 256 = opcode) (hmod : (opc / 256 - c) % 2 ^ k = 0) (hle : c ≤ opc / 256)
    (hsst : opcode = 0x7C00 → opc / 256 = 0x7C) :
    Back E addr o cpu opc r0 [.MAM, m, .NARP] opcode := by
  have e0 : decodeOperands o cpu opc r0 [.MAM, m, .NARP] =
      ((decodeOperand o cpu opc .MAM r0).1 ++ outShiftCount o c opc ++ outNextArp o opc,
        (decodeOperand o cpu opc .MAM r0).2) := by
    have hown : ownComma m = true := by rcases hm with rfl | rfl | rfl <;> rfl
    show ((decodeOperand o cpu opc .MAM r0).1 ++ (if ownComma m then [] else comma) ++
      (decodeOperand o cpu opc m (decodeOperand o cpu opc .MAM r0).2).1 ++ outNextArp o opc,
      (decodeOperand o cpu opc m (decodeOperand o cpu opc .MAM r0).2).2) = _
    rw [hown, if_pos rfl, htext, List.append_nil]
  rw [e0] at he
  obtain ⟨h1, op, h2, h3, h4⟩ := mam_reads (E := E) (addr := addr) ho cpu (opc := opc) (r := r0) he
  obtain ⟨x, ops, h5, h6, h7⟩ := shift_list ho (opc := opc) hc h2
  have h8 : operandList (parseOperand (plug E addr)) 3 (decodeOperands o cpu opc r0 [.MAM, m, .NARP]).1 =
      .ok (.ok (op :: ops, [])) := by rw [e0]; exact h5
  have hx : acceptMode x.mode m = true := by
    rcases h6 with rfl | ⟨_, rfl⟩
    · exact hacc
    · rcases hm with rfl | rfl | rfl <;> rfl
  have hs : ∀ a : Asm, encodeOperand cpu m x a = { a with opc := a.opc ||| c * 256 } := by
    intro a
    rcases hm with rfl | rfl | rfl
    · exact (shift_encode hc h6 a).1
    · exact (shift_encode hc h6 a).2.1
    · rw [(shift_encode hc h6 a).2.2, hc0 rfl, Nat.zero_mul, Nat.or_zero]
  refine back_of h8 (o1 := op) (o2 := x) (o3 := nextOp opc) (by
      show op :: pad 2 {} ops = _
      rw [h7]) (m1 := .MAM) (m2 := m) (m3 := .NARP) rfl h3 hx (next_accept opc) (bs := [])
    (h4 _ hsst) (hs _) ?_ (by
      rw [e0]
      show Took r0 (decodeOperand o cpu opc .MAM r0).2 []
      rw [h1]
      exact Took.refl hr)
  rw [next_encode]
  dsimp only
  rw [← h, or_low (mam_lt (by omega)), or_field hmod hck (mam_lt (by omega)), Nat.sub_add_cancel hle, next_code hv]
  rw [Nat.div_add_mod']

/-- The operands of the row that a code is found in. -/
theorem operands_back {o : Opts} (ho : Readable o) {cpu : CpuType} {opc : Nat} {row : Row} {r0 : Rd}
    (hr : r0.err = .OK) (hmem : ∀ b ∈ r0.mem, b < 256) (hrow : rowOk o.upper row = true) (hm : matchOpCode opc row = true)
    (he : (decodeOperands o cpu opc r0 (modes row)).2.err = .OK) :
    Back E addr o cpu opc r0 (modes row) row.opcode := by
  unfold rowOk at hrow
  simp only [Bool.and_eq_true] at hrow
  have hs : modes row ∈ shapes := by simpa using hrow.1.1.1
  have h0 := hrow.1.2
  unfold matchOpCode modeAt at hm
  unfold modeAt at h0
  split at hm
  · rename_i y hy
    have hy' : y = row.opcode := by simpa using hm
    obtain ⟨x, hx, hx'⟩ := Option.bind_eq_some_iff.1 hy
    rw [hy'] at hx'
    generalize row.opcode = c at *
    generalize modes row = ms at *
    simp only [shapes, List.mem_cons, List.not_mem_nil, or_false] at hs
    rcases hs with rfl | rfl | rfl | rfl | rfl | rfl | rfl | rfl | rfl | rfl | rfl | rfl | rfl
    · have e1 : opc = x := Option.some.inj hx
      have e2 : x = c := Option.some.inj hx'
      refine back_of (list_nil 2) (o1 := {}) (o2 := {}) (o3 := {}) rfl (m1 := .NONE) (m2 := .NONE) (m3 := .NONE) rfl
        (by decide) (by decide) (by decide) (encode_none _ _) (encode_none _ _) (bs := []) ?_ (Took.refl hr)
      rw [encode_none, e1, e2]
    · have e1 : opc = x := Option.some.inj hx
      have e2 : x / 2 * 2 = c := Option.some.inj hx'
      exact back_bit hr (Or.inl rfl) (by rw [e1]; exact e2)
    · have e1 : opc = x := Option.some.inj hx
      have e2 : x / 2 * 2 = c := Option.some.inj hx'
      exact back_bit hr (Or.inr rfl) (by rw [e1]; exact e2)
    · have e1 : opc / 256 * 256 = x := Option.some.inj hx
      have e2 : x = c := Option.some.inj hx'
      exact back_byte ho hr (by rw [e1]; exact e2)
    · have e1 : opc / 8192 * 8192 = x := Option.some.inj hx
      have e2 : x = c := Option.some.inj hx'
      exact back_imm ho hr (by rw [e1]; exact e2)
    · have e1 : opc = x := Option.some.inj hx
      have e2 : x = c := Option.some.inj hx'
      exact back_address ho hmem he (by rw [e1]; exact e2)
    · have e1 : opc / 256 * 256 = x := Option.some.inj hx
      have e2 : x - x / 256 % 2 * 256 = c := Option.some.inj hx'
      exact back_reg_byte ho hr (by rw [e1]; exact e2)
    · obtain ⟨hv, e1⟩ := low_mam (m2 := .NARP) (by decide) hx
      have e2 : x = c := Option.some.inj hx'
      exact back_mam ho hr he hv (by rw [← e1]; exact e2)
    · obtain ⟨hv, e1⟩ := low_mam (m2 := .LS4) (by decide) hx
      have e2 : x - x / 256 % 16 * 256 = c := Option.some.inj hx'
      refine back_mam_shift ho hr (Or.inl rfl) (c := opc / 256 % 16) (by omega) (fun r => rfl) (fun h => nomatch h)
        (accept_small.1 _ (by omega)) he hv (k := 4) (by omega) (by omega) (by omega) (by omega) (by omega)
    · obtain ⟨hv, e1⟩ := low_ar_mam hx
      have e2 : x - x / 256 % 2 * 256 = c := Option.some.inj hx'
      exact back_reg_mam ho hr he hv (by rw [← e1]; exact e2)
    · obtain ⟨hv, e1⟩ := low_mam (m2 := .PA) (by decide) hx
      have e2 : x - x / 256 % 8 * 256 = c := Option.some.inj hx'
      exact back_mam_port ho hr he hv (by rw [← e1]; exact e2)
    · obtain ⟨hv, e1⟩ := low_mam (m2 := .LS0) (by decide) hx
      have e2 : x = c := Option.some.inj hx'
      have e3 : c / 256 % 8 = 0 := by simpa using h0
      have e4 : opc / 256 % 8 = 0 := by omega
      refine back_mam_shift ho hr (Or.inr (Or.inr rfl)) (c := 0) (by decide) (fun r => ?_) (fun _ => rfl)
        accept_small.2.2.2 he hv (k := 3) (by decide) (by omega) (by omega) (by omega) (by omega)
      show (outShiftCount o (opc / 256 % 8) opc, r) = _
      rw [e4]
    · obtain ⟨hv, e1⟩ := low_mam (m2 := .LS3) (by decide) hx
      have e2 : (if x / 256 % 8 < 2 ∨ x / 256 % 8 = 4 then some (x - x / 256 % 8 * 256) else none) = some c := hx'
      split at e2
      · rename_i hc
        have e2 : x - x / 256 % 8 * 256 = c := Option.some.inj e2
        refine back_mam_shift ho hr (Or.inr (Or.inl rfl)) (c := opc / 256 % 8) (by omega) (fun r => rfl) (fun h => nomatch h)
          (accept_small.2.2.1 _ (by omega) (by omega)) he hv (k := 3) (by omega) (by omega) (by omega) (by omega) (by omega)
      · cases e2
  · cases hm

/-- What is printed of the operands is put together again. -/
theorem impl_back {o : Opts} {cpu : CpuType} {opc : Nat} {row : Row} {r0 : Rd}
    (hrow : rowOk o.upper row = true) (hopc : opc < 65536) (hb : Back E addr o cpu opc r0 (modes row) row.opcode) :
    ∃ bs, Took r0 (decodeOperands o cpu opc r0 (modes row)).2 bs ∧
      encodeImpl (plug E addr) cpu (row.name.map (letter o.upper)) (decodeOperands o cpu opc r0 (modes row)).1 =
        .ok ⟨.OK, opc % 256 :: opc / 256 :: bs, []⟩ := by
  obtain ⟨ops, bs, h1, h2, h3, h4⟩ := hb
  refine ⟨bs, h4, ?_⟩
  unfold rowOk at hrow
  simp only [Bool.and_eq_true, List.all_eq_true] at hrow
  have hlen : (modes row).length ≤ 3 := by
    have hs : modes row ∈ shapes := by simpa using hrow.1.1.1
    have : ∀ ms ∈ shapes, ms.length ≤ 3 := by decide
    exact this _ hs
  have hacc : acceptModes ((pad 3 ({} : Operand) ops).map (fun x : Operand => x.mode)) row = true := h2
  have hmem := accept_mem (by rw [List.length_map, pad_length]) hlen hacc
  unfold encodeImpl
  rw [h1, Out.ok_bind]
  dsimp only
  rw [rowIs_eq (hrow.2 _ hmem), Out.ok_bind]
  dsimp only
  rw [h3]
  unfold bytes
  dsimp only
  rw [Nat.mod_eq_of_lt (show opc / 256 < 256 by omega)]

end

/-- What the disassembler prints of any bytes it takes without error assembles at the same address to
the same bytes without error, and nothing of the line is left; the bytes are the first of those given.
Missing are two cases in which it does not hold (`C75_violated_short`, `C75_violated_octal`): only one byte to read
the code from, and numbers in octal in the notation of Texas Instruments. -/
theorem C75_partial (o : Opts) (E : Env) (cpu : CpuType) (addr : Nat) (mem : List Nat) (sep : List Char)
    (hoct : o.octal = true → o.cstyle = true ∨ o.intelHex = true)
    (haddr : addr < 2 ^ 12) (hbytes : ∀ b ∈ mem, b < 256) (hmem : 2 ≤ mem.length)
    (hsep : sep ≠ [] ∧ ∀ c ∈ sep, Ctype.isSpace c = true)
    (hd : (disassemble o cpu addr mem).err = .OK) :
    assemble E cpu addr ((disassemble o cpu addr mem).name ++ sep ++ (disassemble o cpu addr mem).operands) =
      .ok (.insn ⟨.OK, (disassemble o cpu addr mem).bytes, []⟩) ∧
    (disassemble o cpu addr mem).bytes ≠ [] ∧
    (disassemble o cpu addr mem).bytes <+: mem := by
  have hok : Config.checkAddr 12 addr false = .OK := address_ok (by decide) haddr
  have hdis : disassemble o cpu addr mem = decodeImpl o cpu mem := by
    unfold disassemble decode
    rw [if_neg (by rw [hok]; simp)]
  rw [hdis] at hd ⊢
  obtain ⟨b, c, rest, rfl⟩ : ∃ b c rest, mem = b :: c :: rest := by
    rcases mem with _ | ⟨b, _ | ⟨c, rest⟩⟩
    · exact absurd hmem (by decide)
    · exact absurd hmem (by simp)
    · exact ⟨b, c, rest, rfl⟩
  have hb : b < 256 := hbytes b (List.mem_cons_self ..)
  have hc : c < 256 := hbytes c (List.mem_cons_of_mem _ (List.mem_cons_self ..))
  have hrest : ∀ x ∈ rest, x < 256 := fun x hx => hbytes x (List.mem_cons_of_mem _ (List.mem_cons_of_mem _ hx))
  have e : (⟨b :: c :: rest, [], .OK⟩ : Rd).le16 = (c * 256 + b, ⟨rest, [b, c], .OK⟩) := by
    show (c % 256 * 256 + b % 256, (⟨rest, [] ++ [b % 256] ++ [c % 256], .OK⟩ : Rd)) = _
    rw [Nat.mod_eq_of_lt hb, Nat.mod_eq_of_lt hc]
    rfl
  unfold decodeImpl at hd ⊢
  rw [e] at hd ⊢
  dsimp only at hd ⊢
  generalize hopc : c * 256 + b = opc at hd ⊢
  have hlt : opc < 65536 := by omega
  cases hrow : searchOpCode opc with
  | none => rw [hrow] at hd; cases hd
  | some row =>
    rw [hrow] at hd
    dsimp only at hd ⊢
    obtain ⟨h1, h2⟩ := found hrow
    have h3 : rowOk o.upper row = true := List.all_eq_true.1 (rows_ok o.upper) row h1
    have hn : nameB syntaxOf (row.name.map (letter o.upper)) = true := by
      unfold rowOk at h3
      simp only [Bool.and_eq_true] at h3
      exact h3.1.1.2
    obtain ⟨bs, h4, h5⟩ := impl_back h3 hlt (operands_back (E := E) (addr := addr) (r0 := ⟨rest, [b, c], .OK⟩) hoct rfl hrest h3 h2 hd)
    have e1 : (decodeOperands o cpu opc ⟨rest, [b, c], .OK⟩ (modes row)).2.bytes = b :: c :: bs := h4.bytes
    have e2 : rest = bs ++ (decodeOperands o cpu opc ⟨rest, [b, c], .OK⟩ (modes row)).2.mem := h4.mem
    rw [e1]
    refine ⟨?_, List.cons_ne_nil _ _, (decodeOperands o cpu opc ⟨rest, [b, c], .OK⟩ (modes row)).2.mem, by
      rw [List.cons_append, List.cons_append, ← e2]⟩
    rw [show opc % 256 = b by omega, show opc / 256 = c by omega] at h5
    exact encode_operands syntaxOk hn hsep (impl_skip _ _ _ _) hok h5

/-- The hypotheses of `C75_partial` hold of direct and indirect addresses, with shift counts, registers and
ports, of the second page of the data memory, of negative data, and of an address in the program memory. -/
example :
    (disassemble (.default '$') .TMS32010 0 [0x7f, 0x0f]).err = .OK ∧
    (disassemble (.default '$') .TMS32010 0 [0x7f, 0x0f]).operands = "7FH, 15".toList ∧
    (disassemble (.default '$') .TMS32010 0 [0xa1, 0x00]).operands = "*+, 0, AR1".toList ∧
    (disassemble (.default '$') .TMS32010 0 [0x98, 0x39]).operands = "AR1, *-".toList ∧
    (disassemble (.default '$') .TMS32010 0 [0x80, 0x4f]).operands = "*, PA7, AR0".toList ∧
    (disassemble (.default '$') .TMS32010 0 [0x0f, 0x7c]).err = .OK ∧
    (disassemble (.default '$') .TMS32010 0 [0x0f, 0x7c]).operands = "8FH".toList ∧
    (disassemble (.default '$') .TMS32010 0 [0x10, 0x7c]).err = .OVERFLOW_RANGE ∧
    (disassemble (.default '$') .TMS32015 0 [0x10, 0x7c]).err = .OK ∧
    (disassemble (.default '$') .TMS32010 0 [0x00, 0x90]).operands = "-4096".toList ∧
    (disassemble (.default '$') .TMS32010 0 [0x00, 0xf9, 0xbc, 0x0a]).err = .OK ∧
    (disassemble (.default '$') .TMS32010 0 [0x00, 0xf9, 0xbc, 0x0a]).operands = "0ABCH".toList := by
  decide +kernel

/-- Of a single byte, the first of a code, an instruction is made as if 0 came after it, without an error. -/
theorem C75_violated_short : ∀ b < 128,
    (disassemble (.default '$') .TMS32010 0 [b]).err = .OK ∧
    (disassemble (.default '$') .TMS32010 0 [b]).name = "ADD".toList ∧
    (disassemble (.default '$') .TMS32010 0 [b]).bytes = [b] ∧
    assemble noEnv .TMS32010 0 ((disassemble (.default '$') .TMS32010 0 [b]).name ++ [' '] ++
      (disassemble (.default '$') .TMS32010 0 [b]).operands) = .ok (.insn ⟨.OK, [b, 0], []⟩) := by
  decide +kernel

/-- An octal number of a listing is read as a decimal one, unless it starts with 0. -/
theorem C75_violated_octal :
    (disassemble { Opts.default '$' with octal := true } .TMS32010 0 [0x40, 0x7e]).err = .OK ∧
    (disassemble { Opts.default '$' with octal := true } .TMS32010 0 [0x40, 0x7e]).operands = "100".toList ∧
    assemble noEnv .TMS32010 0 "LACK 100".toList = .ok (.insn ⟨.OK, [0x64, 0x7e], []⟩) := by
  decide +kernel

/-- What the assembler takes without an error although the processor has no such instruction: a next register
after a direct address, which changes the address, and constants that do not fit. -/
theorem C75_unchecked :
    assemble noEnv .TMS32010 0 "ADD 10, 0, AR1".toList = .ok (.insn ⟨.OK, [0x03, 0x00], []⟩) ∧
    assemble noEnv .TMS32010 0 "ADD 3".toList = .ok (.insn ⟨.OK, [0x03, 0x00], []⟩) ∧
    assemble noEnv .TMS32010 0 "LACK 10005h".toList = .ok (.insn ⟨.OK, [0x05, 0x7e], []⟩) ∧
    assemble noEnv .TMS32010 0 "LDPK 10000h".toList = .ok (.insn ⟨.OK, [0x00, 0x6e], []⟩) ∧
    assemble noEnv .TMS32010 0 "LAC 5, 10003h".toList = .ok (.insn ⟨.OK, [0x05, 0x23], []⟩) := by
  decide +kernel

end Libasm.Cpu.Tms32010
