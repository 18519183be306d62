import Verif.Cpu.Kit
import Verif.Table.Props
import Verif.Cpu.Cdp1802.Model
/-
How the CDP1802 assembler reads what its disassembler prints, and what it makes of it.
-/
namespace Libasm.Cpu.Cdp1802
open Scan Number Number.Spec Eval
open Tables (Row)

theorem pairs (o : Opts) (h : o.octal = true → o.cstyle = true ∨ o.intelHex = true) :
    Pairs .surroundX .rca o :=
  ⟨by decide, by decide, fun h' => (h h').elim Or.inl (fun h => Or.inr (Or.inl h))⟩

theorem lexOk : LexOk lexer .surroundX := by
  apply lexOk_of
  intro c hc s
  simp only [firsts, leads, List.map, List.headD, List.mem_append, List.mem_cons, List.not_mem_nil,
    or_false] at hc
  rcases hc with (h | h | h | h | h | h | h | h | h | h) | (h | h) <;> subst h <;>
    exact ⟨rfl, rfl, fun _ _ => rfl⟩

theorem stop_nil (E : Env) (loc : Nat) : Stop (lexer.plugins E '\x00' loc) [] :=
  ⟨rfl, Or.inl rfl⟩

theorem stop_comma (E : Env) (loc : Nat) (s : List Char) :
    Stop (lexer.plugins E '\x00' loc) (',' :: s) :=
  ⟨rfl, Or.inr (Or.inr ⟨rfl, Or.inr rfl⟩)⟩

/-! ### Operands -/

theorem num_head {t rest : List Char} (ht : Lead .surroundX t) :
    skipSpaces (t ++ rest) = t ++ rest ∧ semicolonEnd (t ++ rest) = false ∧
    parseRegName (t ++ rest) = none := by
  have h := ht.append rest
  refine ⟨lead_space h, lexOk.eol _ h, ?_⟩
  obtain ⟨c, s, hcs, hc⟩ := lead_first h
  have : ∀ c ∈ firsts .surroundX, Ctype.toUpper c ≠ 'R' := by decide
  rw [hcs]
  unfold parseRegName
  rw [iexpect_none (by intro d hd; injection hd with hd; exact hd ▸ this c hc)]

theorem num_reads {E : Env} {loc : Nat} (useReg : Bool) {t rest : List Char} {v : Nat}
    (ht : NumText .surroundX .rca t v) (hr : rest = [] ∨ ∃ s, rest = ',' :: s) :
    parseOperand (lexer.plugins E '\x00' loc) useReg (t ++ rest) =
      .ok ({ mode := .ADDR, val := ⟨v, .unsigned⟩ }, rest) := by
  have hs : Sep rest ∧ Stop (lexer.plugins E '\x00' loc) rest := by
    rcases hr with rfl | ⟨s, rfl⟩
    · exact ⟨Sep.nil, stop_nil ..⟩
    · exact ⟨Sep.cons (by decide) _, stop_comma ..⟩
  have he := eval_const (const_of lexOk ht E '\x00' loc) hs.1 hs.2
  obtain ⟨n1, n2, n3⟩ := num_head (rest := rest) ht.lead
  have hp : parseNumber (lexer.plugins E '\x00' loc) (t ++ rest) =
      .ok ({ mode := .ADDR, val := ⟨v, .unsigned⟩ }, rest) := by
    unfold parseNumber
    rw [he]
    rfl
  unfold parseOperand
  rw [n1]
  dsimp only
  rw [show (lexer.plugins E '\x00' loc).endOfLine (t ++ rest) = false from n2, if_neg (by decide), n3]
  cases useReg
  · rw [if_neg (by decide), hp]
  · rw [if_pos rfl]
    exact hp

theorem reg_reads {E : Env} {loc n : Nat} (o : Opts) (hn : n < 16) {rest : List Char}
    (hr : rest = [] ∨ ∃ s, rest = ',' :: s) :
    parseOperand (lexer.plugins E '\x00' loc) true (outRegName o n ++ rest) =
      .ok ({ mode := .REGN, val := ⟨n, .unsigned⟩ }, rest) := by
  have h1 : ∀ n < 16, ∀ up, Table.Spec.Canonical (fmtDec up n) ∧
      Table.Spec.decimal (fmtDec up n) = n := by decide
  obtain ⟨c1, c2⟩ := h1 n hn o.upper
  have hnum := Libasm.Table.Props.C41_accepts (fmtDec o.upper n) rest c1 (by rw [c2]; omega) (by
    rcases hr with rfl | ⟨s, rfl⟩
    · intro c hc; cases hc
    · intro c hc
      injection hc with hc
      subst hc
      decide)
  rw [c2] at hnum
  have e1 : ∀ up, iexpect 'R' (letter up 'R' :: (fmtDec up n ++ rest)) = some (fmtDec up n ++ rest) ∧
      skipSpaces (letter up 'R' :: (fmtDec up n ++ rest)) = letter up 'R' :: (fmtDec up n ++ rest) ∧
      semicolonEnd (letter up 'R' :: (fmtDec up n ++ rest)) = false := by
    intro up; cases up <;> exact ⟨rfl, rfl, rfl⟩
  obtain ⟨e1, e2, e3⟩ := e1 o.upper
  unfold parseOperand
  rw [show outRegName o n ++ rest = letter o.upper 'R' :: (fmtDec o.upper n ++ rest) from rfl, e2]
  dsimp only
  rw [show (lexer.plugins E '\x00' loc).endOfLine _ = false from e3, if_neg (by decide), if_pos rfl]
  unfold parseRegName
  rw [e1]
  dsimp only
  rw [hnum]
  dsimp only
  rw [if_pos hn]
  dsimp only
  unfold Value.setUnsigned Value.setU Value.M
  rw [show n % 4294967296 % 18446744073709551616 = n by omega]

/-- The number printed for the operand `v` in the code. -/
def shown (m : Mode) (addr b v : Nat) : Nat :=
  match m with
  | .REGN | .REG1 => b % 16
  | .IOAD => b % 8
  | .PAGE | .SHRT => (addr + 2) / 256 * 256 + v
  | _ => v

/-- The operand the assembler reads. -/
def opd (useReg : Bool) (m : Mode) (addr b v : Nat) : Operand :=
  match m with
  | .NONE | .UNDEF => {}
  | .REGN | .REG1 => { mode := if useReg then .REGN else .ADDR, val := ⟨b % 16, .unsigned⟩ }
  | m => { mode := .ADDR, val := ⟨shown m addr b v, .unsigned⟩ }

/-- The bytes of the operand. -/
def bytesOf (m : Mode) (v : Nat) : List Nat :=
  match m with
  | .IMM8 | .PAGE | .SHRT => [v]
  | .ADDR | .LONG => [v / 256, v % 256]
  | _ => []

def bound (m : Mode) : Nat :=
  match m with
  | .IMM8 | .PAGE | .SHRT => 256
  | _ => 65536

/-- A branch to the page of the next instruction, after which there is no page. -/
def Fits (m : Mode) (addr : Nat) : Prop := (m = .PAGE ∨ m = .SHRT) → addr < 0xfffe

theorem opd_mode (useReg : Bool) (m : Mode) (addr b v : Nat) :
    (opd useReg m addr b v).mode = (opd useReg m 0 b 0).mode ∧
    (opd useReg m addr b v).err = .OK := by
  unfold opd
  cases m <;> exact ⟨rfl, rfl⟩

/-- What is printed of an operand can be read. -/
structure Reads (E : Env) (useReg : Bool) (m : Mode) (addr b : Nat) (r r' : Rd) (t : List Char)
    (v : Nat) : Prop where
  small : v < bound m
  took : Took r r' (bytesOf m v)
  space : ∀ rest, skipSpaces (t ++ rest) = t ++ rest
  reads : ∀ rest, (rest = [] ∨ ∃ s, rest = ',' :: s) →
    parseOperand (lexer.plugins E '\x00' addr) useReg (t ++ rest) =
      .ok (opd useReg m addr b v, rest)

theorem operand_reads {E : Env} {o : Opts} (hP : Pairs .surroundX .rca o) (useReg : Bool) {m : Mode}
    {addr b : Nat} {r : Rd} (hm : m ≠ .NONE ∧ m ≠ .UNDEF) (hfit : Fits m addr)
    (hmem : ∀ x ∈ r.mem, x < 256) (h : (decodeOperand o useReg addr b m r).2.err = .OK) :
    ∃ v, Reads E useReg m addr b r (decodeOperand o useReg addr b m r).2
      (decodeOperand o useReg addr b m r).1 v := by
  have plain : ∀ {m v w r'} {t : List Char}, NumText .surroundX .rca t w → v < bound m →
      Took r r' (bytesOf m v) →
      opd useReg m addr b v = { mode := .ADDR, val := ⟨w, .unsigned⟩ } →
      Reads E useReg m addr b r r' t v := by
    intro m v w r' t ht hv hb ho
    refine ⟨hv, hb, fun rest => (num_head ht.lead).1, fun rest hr => ?_⟩
    rw [ho]
    exact num_reads useReg ht hr
  have b16 : b % 16 < 2 ^ 4 := Nat.mod_lt _ (by decide)
  have b8 : b % 8 < 2 ^ 3 := Nat.mod_lt _ (by decide)
  have regs : ∀ m, m = .REGN ∨ m = .REG1 → (decodeOperand o useReg addr b m r).2.err = .OK →
      Reads E useReg m addr b r (decodeOperand o useReg addr b m r).2
        (decodeOperand o useReg addr b m r).1 0 := by
    intro m hm h
    cases useReg with
    | false =>
      rcases hm with rfl | rfl
      · exact plain (outDec_num hP _ 4 b16 (by decide) (by decide)) (by decide) (Took.refl h) rfl
      · exact plain (outDec_num hP _ 4 b16 (by decide) (by decide)) (by decide) (Took.refl h) rfl
    | true =>
      have sp : ∀ rest, skipSpaces (outRegName o (b % 16) ++ rest) = outRegName o (b % 16) ++ rest := by
        intro rest
        unfold outRegName
        cases o.upper <;> rfl
      rcases hm with rfl | rfl
      · exact ⟨by decide, Took.refl h, sp, fun rest hr => reg_reads o b16 hr⟩
      · exact ⟨by decide, Took.refl h, sp, fun rest hr => reg_reads o b16 hr⟩
  have inp : ∀ x < 256, addr < 0xfffe → inpage (addr + 2) x = (addr + 2) / 256 * 256 + x ∧
      inpage (addr + 2) x < 2 ^ 16 := by
    intro x hx ha
    unfold inpage
    omega
  cases m with
  | NONE => exact absurd rfl hm.1
  | UNDEF => exact absurd rfl hm.2
  | REGN => exact ⟨_, regs _ (Or.inl rfl) h⟩
  | REG1 => exact ⟨_, regs _ (Or.inr rfl) h⟩
  | IMM8 =>
    obtain ⟨h1, h2⟩ := byte_took hmem h
    exact ⟨_, plain (outHex_num hP _ 8 true h1 (by decide) (by decide)) h1 h2 rfl⟩
  | IOAD => exact ⟨0, plain (outHex_num hP _ 3 true b8 (by decide) (by decide)) (by decide)
      (Took.refl h) rfl⟩
  | ADDR =>
    obtain ⟨h1, h2⟩ := be16_took hmem h
    exact ⟨_, plain (outAbsAddr_num hP _ 16 h1 (by decide) (by decide)) h1 h2 rfl⟩
  | LONG =>
    obtain ⟨h1, h2⟩ := be16_took hmem h
    exact ⟨_, plain (outAbsAddr_num hP _ 16 h1 (by decide) (by decide)) h1 h2 rfl⟩
  | PAGE =>
    obtain ⟨h1, h2⟩ := byte_took hmem h
    obtain ⟨g1, g2⟩ := inp _ h1 (hfit (Or.inl rfl))
    refine ⟨_, plain (outAbsAddr_num hP _ 16 g2 (by decide) (by decide)) h1 h2 ?_⟩
    rw [g1]
    rfl
  | SHRT =>
    obtain ⟨h1, h2⟩ := byte_took hmem h
    obtain ⟨g1, g2⟩ := inp _ h1 (hfit (Or.inr rfl))
    refine ⟨_, plain (outAbsAddr_num hP _ 16 g2 (by decide) (by decide)) h1 h2 ?_⟩
    rw [g1]
    rfl

/-! ### Encoding -/

theorem noError (a : Asm) : a.setErrorIf .OK = a := by
  unfold Asm.setErrorIf Config.setErrorIf
  simp

theorem page_eq {t a : Nat} (ht : t < 65536) (ha : a < 65536) (h : t / 256 = a / 256) :
    Config.checkAddrSeg 16 t a 8 false = some .OK := by
  have h1 : Config.checkAddr 16 t false = .OK := address_ok (by decide) ht
  unfold Config.checkAddrSeg
  rw [if_neg (by decide), h1]
  dsimp only
  rw [if_neg (by simp)]
  have e : Config.not32 (((1 <<< 8) + 18446744073709551616 - 1) % 18446744073709551616) =
    Config.W - 1 - (2 ^ 8 - 1) := by decide
  rw [e, Config.and_high (by unfold Config.W; omega) (by decide),
    Config.and_high (by unfold Config.W; omega) (by decide)]
  rw [if_pos (by omega)]

theorem seg_some (t a : Nat) : ∃ e, Config.checkAddrSeg 16 t a 8 false = some e := by
  unfold Config.checkAddrSeg
  rw [if_neg (by decide)]
  dsimp only
  split <;> exact ⟨_, rfl⟩

/-- The prefix and the code in the memory. -/
def code (pre b : Nat) : List Nat := (if pre ≠ 0 then [pre] else []) ++ [b]

def emitsB (x : Out Asm) (bs : List Nat) : Bool :=
  match x with
  | .ok a => decide (a.err = .OK ∧ a.bytes = bs)
  | _ => false

theorem emits_of {x : Out Asm} {bs : List Nat} (h : emitsB x bs = true) :
    ∃ p c, x = .ok ⟨.OK, p, c, bs⟩ := by
  unfold emitsB at h
  split at h
  · rename_i a
    simp only [decide_eq_true_eq] at h
    obtain ⟨e, p, c, xs⟩ := a
    obtain ⟨h1, h2⟩ := h
    dsimp only at h1 h2
    subst h1 h2
    exact ⟨_, _, rfl⟩
  · cases h

/-- What the table must satisfy for the prefix `pre` and the code `b`: the code is found under its
name and put together from the operand. -/
def factB (cpu : CpuType) (useReg : Bool) (pre b : Nat) (row : Row) (up : Bool) : Bool :=
  let m1 := (flags row).1
  let m2 := (flags row).2
  nameB syntaxOf (row.name.map (letter up)) &&
  (match searchName cpu (row.name.map (letter up)) (opd useReg m1 0 b 0).mode
      (opd useReg m2 0 b 0).mode with
    | .ok (.ok (p, r)) => p == pre && decide (r = row)
    | _ => false) &&
  (match m1 with
    | .UNDEF => false
    | .IMM8 | .PAGE | .ADDR | .SHRT | .LONG => row.opcode == b
    | m => emitsB (emitOperand false 0 m (opd useReg m 0 b 0) ⟨.OK, pre, row.opcode, []⟩) (code pre b)) &&
  decide ((m1 = .NONE → m2 = .NONE) ∧ (m2 = .NONE ∨ m2 = .ADDR)) &&
  decide (m1 = .PAGE ∨ m1 = .SHRT → pre ≠ 0 ∨ b / 16 = 3)

def allB (cpu : CpuType) (useReg : Bool) (pre b : Nat) : Bool :=
  match searchOpCode cpu pre b with
  | none => true
  | some row => factB cpu useReg pre b row true && factB cpu useReg pre b row false

theorem all_codes (cpu : CpuType) (useReg : Bool) (pre : Nat) (hp : pre = 0 ∨ pre = 0x68) :
    ∀ b < 256, allB cpu useReg pre b = true := by
  rcases hp with rfl | rfl <;> cases cpu <;> cases useReg <;> decide +kernel

structure Fact (cpu : CpuType) (useReg : Bool) (pre b : Nat) (row : Row) (up : Bool) : Prop where
  name : nameB syntaxOf (row.name.map (letter up)) = true
  found : searchName cpu (row.name.map (letter up)) (opd useReg (flags row).1 0 b 0).mode
    (opd useReg (flags row).2 0 b 0).mode = .ok (.ok (pre, row))
  known : (flags row).1 ≠ .UNDEF
  none : (flags row).1 = .NONE → (flags row).2 = .NONE
  second : (flags row).2 = .NONE ∨ (flags row).2 = .ADDR
  page : (flags row).1 = .PAGE ∨ (flags row).1 = .SHRT → pre ≠ 0 ∨ b / 16 = 3
  code : match (flags row).1 with
    | .IMM8 | .PAGE | .ADDR | .SHRT | .LONG => row.opcode = b
    | m => ∃ p c, emitOperand false 0 m (opd useReg m 0 b 0) ⟨.OK, pre, row.opcode, []⟩ =
      .ok ⟨.OK, p, c, code pre b⟩

theorem fact_of {cpu : CpuType} {useReg : Bool} {pre b : Nat} {row : Row} {up : Bool}
    (h : factB cpu useReg pre b row up = true) : Fact cpu useReg pre b row up := by
  unfold factB at h
  simp only [Bool.and_eq_true, decide_eq_true_eq] at h
  obtain ⟨⟨⟨⟨h1, h2⟩, h3⟩, h4⟩, h5⟩ := h
  refine ⟨h1, ?_, ?_, h4.1, h4.2, h5, ?_⟩
  · split at h2
    · rename_i p r he
      simp only [Bool.and_eq_true, beq_iff_eq, decide_eq_true_eq] at h2
      rw [he, h2.1, h2.2]
    · cases h2
  · intro hu
    rw [hu] at h3
    cases h3
  · cases hm : (flags row).1 <;> rw [hm] at h3 <;> first
      | exact eq_of_beq h3
      | exact emits_of h3
      | cases h3

theorem fact {cpu : CpuType} {useReg : Bool} {pre b : Nat} (hp : pre = 0 ∨ pre = 0x68) (hb : b < 256)
    {row : Row} (h : searchOpCode cpu pre b = some row) (up : Bool) :
    Fact cpu useReg pre b row up := by
  have := all_codes cpu useReg pre hp b hb
  unfold allB at this
  rw [h] at this
  simp only [Bool.and_eq_true] at this
  cases up
  · exact fact_of this.2
  · exact fact_of this.1

/-- The first operand with the code. -/
theorem emit_first {cpu : CpuType} {useReg : Bool} {pre b : Nat} {row : Row} {up : Bool}
    (hf : Fact cpu useReg pre b row up) (hp : pre < 256) (hb : b < 256) {addr v : Nat}
    (hfit : Fits (flags row).1 addr) (hv : v < bound (flags row).1) :
    ∃ p c, emitOperand false addr (flags row).1 (opd useReg (flags row).1 addr b v)
      ⟨.OK, pre, row.opcode, []⟩ = .ok ⟨.OK, p, c, code pre b ++ bytesOf (flags row).1 v⟩ := by
  have hc := hf.code
  have hpre : (if pre ≠ 0 then [pre % 256] else []) = if pre ≠ 0 then [pre] else [] := by
    rw [Nat.mod_eq_of_lt hp]
  have hem : ∀ e xs, (⟨e, pre, b, xs⟩ : Asm).emitInsn = ⟨e, pre, b, xs ++ code pre b⟩ := by
    intro e xs
    unfold Asm.emitInsn code
    simp only [hpre, Nat.mod_eq_of_lt hb, List.append_assoc]
  have hu := hf.known
  have seg : ∀ m, m = .PAGE ∨ m = .SHRT → v < 256 → addr < 0xfffe →
      encodePage false addr m { mode := .ADDR, val := ⟨(addr + 2) / 256 * 256 + v, .unsigned⟩ }
        ⟨.OK, pre, b, []⟩ = .ok ⟨.OK, pre, b, code pre b ++ [v]⟩ := by
    intro m hm hv ha
    have hw : (addr + 2) % Config.W = addr + 2 := by unfold Config.W; omega
    unfold encodePage
    dsimp only
    rw [if_neg (by simp), getUnsigned_num (by omega), hw,
      page_eq (by omega) (by omega) (by omega)]
    show Out.bind (.ok _) _ = _
    rw [Out.ok_bind, if_pos (by simpa using hm), noError]
    unfold intraPage Asm.emitByte
    rw [hem]
    have : ((addr + 2) / 256 * 256 + v) % 256 = v := by omega
    simp only [this, List.nil_append]
  have long : ∀ m, m = .ADDR ∨ m = .LONG → v < 65536 →
      encodePage false addr m { mode := .ADDR, val := ⟨v, .unsigned⟩ }
        ⟨.OK, pre, b, []⟩ = .ok ⟨.OK, pre, b, code pre b ++ [v / 256, v % 256]⟩ := by
    intro m hm hv
    unfold encodePage
    dsimp only
    obtain ⟨e, he⟩ := seg_some (if Err.OK ≠ .OK then (addr + 2) % Config.W else
      (⟨v, .unsigned⟩ : Value).getUnsigned) ((addr + 2) % Config.W)
    rw [he]
    show Out.bind (.ok _) _ = _
    rw [Out.ok_bind, if_neg (by rcases hm with rfl | rfl <;> simp), if_pos (by simpa using hm)]
    unfold interPage
    rw [getUnsigned_num (by omega), address_ok (by decide) hv, noError, hem]
    unfold Asm.emit16
    have : v / 256 % 256 = v / 256 := by omega
    simp only [this, List.nil_append]
  cases hm : (flags row).1 with
  | UNDEF => exact absurd hm hu
  | NONE =>
    rw [hm] at hc
    rw [show bytesOf .NONE v = [] from rfl, List.append_nil]
    exact hc
  | REGN =>
    rw [hm] at hc
    rw [show bytesOf .REGN v = [] from rfl, List.append_nil]
    exact hc
  | REG1 =>
    rw [hm] at hc
    rw [show bytesOf .REG1 v = [] from rfl, List.append_nil]
    exact hc
  | IOAD =>
    rw [hm] at hc
    rw [show bytesOf .IOAD v = [] from rfl, List.append_nil]
    exact hc
  | IMM8 =>
    rw [hm] at hc hv
    have hc : row.opcode = b := hc
    have hv : v < 256 := hv
    refine ⟨pre, b, ?_⟩
    rw [hc]
    unfold emitOperand opd shown bytesOf
    dsimp only
    rw [noError, show (⟨v, .unsigned⟩ : Value).overflowUint8 = false by
      unfold Value.overflowUint8
      exact overflow_num (by omega) (by omega) (by omega), if_neg (by decide), hem,
      getUnsigned_num (by omega)]
    unfold Asm.emitByte
    simp only [Nat.mod_eq_of_lt hv, List.nil_append]
  | PAGE =>
    rw [hm] at hc hv hfit
    have hc : row.opcode = b := hc
    refine ⟨pre, b, ?_⟩
    rw [hc]
    unfold emitOperand opd shown bytesOf
    dsimp only
    rw [noError]
    exact seg _ (Or.inl rfl) hv (hfit (Or.inl rfl))
  | SHRT =>
    rw [hm] at hc hv hfit
    have hc : row.opcode = b := hc
    refine ⟨pre, b, ?_⟩
    rw [hc]
    unfold emitOperand opd shown bytesOf
    dsimp only
    rw [noError]
    exact seg _ (Or.inr rfl) hv (hfit (Or.inr rfl))
  | ADDR =>
    rw [hm] at hc hv
    have hc : row.opcode = b := hc
    refine ⟨pre, b, ?_⟩
    rw [hc]
    unfold emitOperand opd shown bytesOf
    dsimp only
    rw [noError]
    exact long _ (Or.inl rfl) hv
  | LONG =>
    rw [hm] at hc hv
    have hc : row.opcode = b := hc
    refine ⟨pre, b, ?_⟩
    rw [hc]
    unfold emitOperand opd shown bytesOf
    dsimp only
    rw [noError]
    exact long _ (Or.inr rfl) hv

/-- The bytes of an instruction with its operands. -/
theorem encode_insn {cpu : CpuType} {useReg : Bool} {pre b : Nat} {row : Row} {up : Bool}
    (hf : Fact cpu useReg pre b row up) (hp : pre < 256) (hb : b < 256) {addr v w : Nat}
    (hfit : Fits (flags row).1 addr) (hv : v < bound (flags row).1) (hw : w < 65536) (scan : Scan) :
    encodeInsn false cpu addr (row.name.map (letter up)) (opd useReg (flags row).1 addr b v)
      (opd useReg (flags row).2 addr b w) scan =
      .ok ⟨.OK, code pre b ++ bytesOf (flags row).1 v ++ bytesOf (flags row).2 w, scan⟩ := by
  unfold encodeInsn
  rw [(opd_mode useReg _ addr b v).1, (opd_mode useReg _ addr b w).1, hf.found, Out.ok_bind]
  dsimp only
  obtain ⟨p, c, he⟩ := emit_first hf hp hb hfit hv
  rw [he, Out.ok_bind]
  rcases hf.second with h2 | h2
  · rw [h2, if_neg (by decide), show bytesOf .NONE w = [] from rfl, List.append_nil]
  · rw [h2, if_pos rfl, (opd_mode useReg .ADDR addr b w).2, noError]
    unfold Asm.emit16 opd shown bytesOf
    dsimp only
    rw [getUnsigned_num (by omega), show w / 256 % 256 = w / 256 by omega]

end Libasm.Cpu.Cdp1802
