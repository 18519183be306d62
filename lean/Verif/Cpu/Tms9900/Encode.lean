import Verif.Cpu.Tms7000.Encode
import Verif.Cpu.Tms9900.Model
/-
How the TMS9900 assembler reads what its disassembler prints, and what it makes of it.
-/
namespace Libasm.Cpu.Tms9900
open Scan Number Number.Spec Eval
open Tables (Row)
open Tms7000 (Readable pairs lexOk lex_ops stop_nil stop_comma stop_paren after_stop const_location skip_head)

/-- The parsers at an address. -/
abbrev plug (E : Env) (addr : Nat) : Plugins Value := lexer.plugins E '\x00' addr

/-! ### Reading operands -/

section
variable {E : Env} {addr : Nat}

/-- The text is read as the operand, whatever comes after it. -/
def Reads (E : Env) (addr : Nat) (t : List Char) (op : Operand) : Prop :=
  ∀ rest, AfterOp rest → parseOperand (plug E addr) (t ++ rest) = .ok (.ok (op, rest))

/-- How numbers and the location start: no register starts so, and nothing else. -/
theorem heads {c : Char} (hc : c ∈ '-' :: '$' :: firsts .texas) (s : Scan) :
    skipSpaces (c :: s) = c :: s ∧ (plug E addr).endOfLine (c :: s) = false ∧ expect '*' (c :: s) = none ∧
    expect '@' (c :: s) = none ∧ parseRegName (c :: s) = none := by
  simp only [firsts, leads, List.map, List.headD, List.mem_append, List.mem_cons, List.not_mem_nil,
    or_false] at hc
  rcases hc with h | h | (h | h | h | h | h | h | h | h | h | h) | h <;> subst h <;>
    exact ⟨rfl, rfl, rfl, rfl, rfl⟩

/-- A number, whatever text it is read from. -/
theorem value_reads {v : Value} {t : List Char} (hh : ∃ c s, t = c :: s ∧ c ∈ '-' :: '$' :: firsts .texas)
    (e : ∀ rest, AfterOp rest → parseInteger (plug E addr) (t ++ rest) .OK = .ok (v, .OK, rest)) :
    Reads E addr t { mode := .IMM, val := v } := by
  intro rest hr
  have e := e rest hr
  obtain ⟨c, s, rfl, hc⟩ := hh
  rw [List.cons_append] at e ⊢
  obtain ⟨h1, h2, h3, h4, h5⟩ := heads (E := E) (addr := addr) hc (s ++ rest)
  unfold parseOperand
  rw [h1]
  dsimp only
  rw [h2, h3, h4, h5]
  dsimp only
  rw [e, Out.ok_bind]
  rfl

theorem num_lead {t : List Char} {w : Nat} (h : NumText .texas .texas t w) :
    ∃ c s, t = c :: s ∧ c ∈ '-' :: '$' :: firsts .texas := by
  obtain ⟨c, s, h1, h2⟩ := lead_first h.lead
  exact ⟨c, s, h1, List.mem_cons_of_mem _ (List.mem_cons_of_mem _ h2)⟩

theorem num_reads {w : Nat} {t : List Char} (h : NumText .texas .texas t w) :
    Reads E addr t { mode := .IMM, val := ⟨w, .unsigned⟩ } := by
  apply value_reads (num_lead h)
  intro rest hr
  obtain ⟨s1, s2⟩ := after_stop (E := E) (loc := addr) hr
  exact eval_const (const_of lexOk h E '\x00' addr) s1 s2

theorem signed_reads {x : Int} {t : List Char} (h : SignedText .texas .texas t x) :
    Reads E addr t { mode := .IMM, val := Value.setS x } := by
  apply value_reads
  · obtain ⟨u, h1, h2⟩ := h.ex
    by_cases hx : x < 0
    · rw [if_pos hx] at h1
      exact ⟨'-', u, h1, List.mem_cons_self ..⟩
    · rw [if_neg hx] at h1
      obtain ⟨c, s, h3, h4⟩ := num_lead h2
      exact ⟨c, s, by rw [h1, h3]; rfl, h4⟩
  · intro rest hr
    obtain ⟨s1, s2⟩ := after_stop (E := E) (loc := addr) hr
    exact eval_signed lexOk (lex_ops E addr) h s1 s2

theorem rel_text {o : Opts} (ho : Readable o) (hsym : o.relative = true → o.curSym = '$') {width w : Nat}
    (h31 : width ≤ 31) (h1 : 1 ≤ width) (ha : addr < 2 ^ width) (hw : w < 2 ^ width)
    (hd : ((w : Int) - addr).natAbs < 2 ^ 9) :
    Reads E addr (outRelAddr .texas o width w addr 9) { mode := .IMM, val := ⟨w, .unsigned⟩ } := by
  have hlet : ∀ up, letter up '$' = '$' := by decide
  have hsym' : o.relative = true → Const (plug E addr) [letter o.upper o.curSym] ⟨addr, .unsigned⟩ := by
    intro hx
    rw [hsym hx, hlet]
    exact const_location E (Nat.lt_of_lt_of_le ha (Nat.pow_le_pow_right (by decide) (by omega)))
  have key := fun rest (hr : AfterOp rest) => rel_reads lexOk (pairs ho) (lex_ops E addr)
    (show ∀ c ∈ firsts .texas, c ≠ '\x00' by decide) hsym' (width := width)
    h31 h1 ha hw (bits := 9) (by decide) (by decide) hd (after_stop (E := E) (loc := addr) hr).1 (after_stop hr).2
  refine value_reads ?_ (fun rest hr => (key rest hr).1)
  obtain ⟨_, c, s, hcs, hc⟩ := key [] (Or.inl rfl)
  refine ⟨c, s, hcs, ?_⟩
  rcases hc with hc | ⟨h1, h2⟩
  · exact List.mem_cons_of_mem _ (List.mem_cons_of_mem _ hc)
  · rw [h2, hsym h1, hlet]
    exact List.mem_cons_of_mem _ (List.mem_cons_self ..)

/-! ### Registers -/

theorem reg_name (o : Opts) (n : Nat) {rest : List Char} (hr : Sep rest) :
    parseRegName (outReg o n ++ rest) = some (n % 16, rest) ∧
    ∃ s, outReg o n ++ rest = letter o.upper 'R' :: s := by
  have hn : n % 16 < 16 := Nat.mod_lt _ (by decide)
  have num : Table.parseRegNumber (fmtDec o.upper (n % 16) ++ rest) = some (n % 16, rest) := by
    have h1 : ∀ n < 16, ∀ up, Table.Spec.Canonical (fmtDec up n) ∧
        Table.Spec.decimal (fmtDec up n) = n := by decide +kernel
    obtain ⟨c1, c2⟩ := h1 _ hn o.upper
    have hnum := Libasm.Table.Props.C41_accepts (fmtDec o.upper (n % 16)) rest c1 (by rw [c2]; omega) (by
      intro c hc
      have : ∀ c ∈ seps, ¬ Table.Spec.Ident c := by decide
      exact this c (hr c hc))
    rw [c2] at hnum
    exact hnum
  have e : outReg o n ++ rest = letter o.upper 'R' :: (fmtDec o.upper (n % 16) ++ rest) := rfl
  refine ⟨?_, _, e⟩
  rw [e]
  have hx : ∀ up s, iexpect 'R' (letter up 'R' :: s) = some s := by
    intro up s
    cases up <;> rfl
  unfold parseRegName
  rw [hx]
  dsimp only
  rw [num]
  dsimp only
  rw [if_pos hn]

theorem reg_head (up : Bool) (s : Scan) : skipSpaces (letter up 'R' :: s) = letter up 'R' :: s ∧
    (plug E addr).endOfLine (letter up 'R' :: s) = false ∧ expect '*' (letter up 'R' :: s) = none ∧
    expect '@' (letter up 'R' :: s) = none := by
  cases up <;> exact ⟨rfl, rfl, rfl, rfl⟩

theorem reg_reads (o : Opts) (n : Nat) : Reads E addr (outReg o n) { mode := .REG, reg := some (n % 16) } := by
  intro rest hr
  obtain ⟨h1, s, h2⟩ := reg_name o n (after_stop (E := E) (loc := addr) hr).1
  rw [h2] at h1 ⊢
  obtain ⟨k1, k2, k3, k4⟩ := reg_head (E := E) (addr := addr) o.upper s
  unfold parseOperand
  rw [k1]
  dsimp only
  rw [k2, k3, k4, h1]
  rfl

theorem ireg_reads (o : Opts) (n : Nat) :
    Reads E addr ('*' :: outReg o n) { mode := .IREG, reg := some (n % 16) } := by
  intro rest hr
  obtain ⟨h1, _⟩ := reg_name o n (after_stop (E := E) (loc := addr) hr).1
  rw [List.cons_append]
  unfold parseOperand
  rw [show skipSpaces ('*' :: (outReg o n ++ rest)) = '*' :: (outReg o n ++ rest) from rfl]
  dsimp only
  rw [show (plug E addr).endOfLine ('*' :: (outReg o n ++ rest)) = false from rfl,
    show expect '*' ('*' :: (outReg o n ++ rest)) = some (outReg o n ++ rest) from rfl]
  dsimp only
  rw [h1]
  dsimp only
  rcases hr with rfl | ⟨s, rfl⟩ <;> rfl

theorem incr_reads (o : Opts) (n : Nat) :
    Reads E addr ('*' :: outReg o n ++ ['+']) { mode := .INCR, reg := some (n % 16) } := by
  intro rest hr
  obtain ⟨h1, _⟩ := reg_name o n (rest := '+' :: rest) (Sep.cons (by decide) _)
  rw [List.cons_append, List.cons_append, List.append_assoc]
  unfold parseOperand
  rw [show skipSpaces ('*' :: (outReg o n ++ (['+'] ++ rest))) = '*' :: (outReg o n ++ ('+' :: rest)) from rfl]
  dsimp only
  rw [show (plug E addr).endOfLine ('*' :: (outReg o n ++ ('+' :: rest))) = false from rfl,
    show expect '*' ('*' :: (outReg o n ++ ('+' :: rest))) = some (outReg o n ++ ('+' :: rest)) from rfl]
  dsimp only
  rw [h1]
  rfl

theorem after_skip {rest : List Char} (h : AfterOp rest) : skipSpaces rest = rest ∧ expect '(' rest = none := by
  rcases h with rfl | ⟨s, rfl⟩ <;> exact ⟨rfl, rfl⟩

theorem sybl_reads {t : List Char} {w : Nat} (h : NumText .texas .texas t w) :
    Reads E addr ('@' :: t) { mode := .SYBL, val := ⟨w, .unsigned⟩ } := by
  intro rest hr
  obtain ⟨s1, s2⟩ := after_stop (E := E) (loc := addr) hr
  rw [List.cons_append]
  unfold parseOperand
  rw [show skipSpaces ('@' :: (t ++ rest)) = '@' :: (t ++ rest) from rfl]
  dsimp only
  rw [show (plug E addr).endOfLine ('@' :: (t ++ rest)) = false from rfl,
    show expect '*' ('@' :: (t ++ rest)) = none from rfl,
    show expect '@' ('@' :: (t ++ rest)) = some (t ++ rest) from rfl]
  dsimp only
  have e : parseInteger (plug E addr) (t ++ rest) .OK = .ok (⟨w, .unsigned⟩, .OK, rest) :=
    eval_const (const_of lexOk h E '\x00' addr) s1 s2
  rw [e, Out.ok_bind]
  dsimp only
  rw [if_neg (by decide), if_neg (by decide)]
  unfold parseIndex
  rw [(after_skip hr).1, (after_skip hr).2]

theorem indx_reads {t : List Char} {w : Nat} (h : NumText .texas .texas t w) (o : Opts) {n : Nat} (hn : n % 16 ≠ 0) :
    Reads E addr ('@' :: t ++ ('(' :: outReg o n ++ [')']))
      { mode := .INDX, reg := some (n % 16), val := ⟨w, .unsigned⟩ } := by
  intro rest hr
  obtain ⟨h1, s, h2⟩ := reg_name o n (rest := ')' :: rest) (Sep.cons (by decide) _)
  rw [show '@' :: t ++ ('(' :: outReg o n ++ [')']) ++ rest = '@' :: (t ++ ('(' :: (outReg o n ++ (')' :: rest)))) by simp]
  unfold parseOperand
  rw [show skipSpaces ('@' :: (t ++ ('(' :: (outReg o n ++ (')' :: rest))))) =
    '@' :: (t ++ ('(' :: (outReg o n ++ (')' :: rest)))) from rfl]
  dsimp only
  rw [show (plug E addr).endOfLine ('@' :: (t ++ ('(' :: (outReg o n ++ (')' :: rest))))) = false from rfl,
    show expect '*' ('@' :: (t ++ ('(' :: (outReg o n ++ (')' :: rest))))) = none from rfl,
    show expect '@' ('@' :: (t ++ ('(' :: (outReg o n ++ (')' :: rest))))) =
      some (t ++ ('(' :: (outReg o n ++ (')' :: rest)))) from rfl]
  dsimp only
  have e : parseInteger (plug E addr) (t ++ ('(' :: (outReg o n ++ (')' :: rest)))) .OK =
      .ok (⟨w, .unsigned⟩, .OK, '(' :: (outReg o n ++ (')' :: rest))) :=
    eval_const (const_of lexOk h E '\x00' addr) (Sep.cons (by decide) _) (stop_paren ..)
  rw [e, Out.ok_bind]
  dsimp only
  rw [if_neg (by decide), if_neg (by decide)]
  unfold parseIndex
  rw [show expect '(' (skipSpaces ('(' :: (outReg o n ++ (')' :: rest)))) = some (outReg o n ++ (')' :: rest)) from rfl]
  dsimp only
  rw [h2] at h1 ⊢
  rw [(reg_head (E := E) (addr := addr) o.upper s).1, h1]
  dsimp only
  rw [if_neg hn]
  rfl

/-! ### Lists of operands -/

theorem skip_skip (s : Scan) : skipSpaces (skipSpaces s) = skipSpaces s := by
  unfold skipSpaces trimStart
  induction s with
  | nil => rfl
  | cons c s ih =>
    rw [List.dropWhile_cons]
    split
    · exact ih
    · rw [List.dropWhile_cons, if_neg (by assumption)]

theorem parse_skip (P : Plugins Value) (s : Scan) : parseOperand P (skipSpaces s) = parseOperand P s := by
  unfold parseOperand
  rw [skip_skip]

/-- One operand. -/
theorem list_one {t : List Char} {op : Operand} (h : Reads E addr t op) :
    operandList (parseOperand (plug E addr)) 2 t = .ok (.ok ([op], [])) := by
  have := h [] (Or.inl rfl)
  rw [List.append_nil] at this
  unfold operandList
  rw [this, Out.ok_bind]
  rfl

/-- Two operands. -/
theorem list_two {t t' : List Char} {op op' : Operand} (h : Reads E addr t op) (h' : Reads E addr t' op') :
    operandList (parseOperand (plug E addr)) 2 (t ++ comma ++ t') = .ok (.ok ([op, op'], [])) := by
  have h2 := h' [] (Or.inl rfl)
  rw [List.append_nil] at h2
  have hs : parseOperand (plug E addr) (' ' :: t') = parseOperand (plug E addr) t' := by
    rw [← parse_skip _ (' ' :: t'), ← parse_skip _ t']
    rfl
  have h1 : operandList (parseOperand (plug E addr)) 1 (' ' :: t') = .ok (.ok ([op'], [])) := by
    unfold operandList
    rw [hs, h2, Out.ok_bind]
    rfl
  rw [List.append_assoc]
  unfold operandList
  rw [h (comma ++ t') (Or.inr ⟨t', rfl⟩), Out.ok_bind]
  dsimp only
  rw [show expect ',' (skipSpaces (comma ++ t')) = some (' ' :: t') from rfl]
  dsimp only
  rw [h1, Out.ok_bind]

theorem list_nil : operandList (parseOperand (plug E addr)) 2 [] = .ok (.ok ([{}], [])) := rfl

/-! ### Into the code -/

theorem or_bits {k x y : Nat} (hx : x % 2 ^ k = 0) (hy : y < 2 ^ k) : x ||| y = x + y := by
  have := Nat.two_pow_add_eq_or_of_lt (i := k) (b := y) hy (x / 2 ^ k)
  rw [Nat.mul_div_cancel' (Nat.dvd_of_mod_eq_zero hx)] at this
  exact this.symm

theorem Asm.noError (a : Asm) : a.setErrorIf .OK = a := by
  unfold Asm.setErrorIf Config.setErrorIf
  simp

theorem check_false (a : Asm) (e : Err) : a.check false e = a := rfl

/-- What an operand puts into the code and the second word, and its bytes. -/
def Enc (cpu : CpuType) (addr : Nat) (f : Flags) (m : Mode) (op : Operand) (x y : Nat) (bs : List Nat) : Prop :=
  ∀ a : Asm, a.err = .OK →
    encodeOperand cpu addr f m op a = .ok ⟨.OK, a.opc ||| x, a.post ||| y, a.ops ++ bs⟩

/-- The bits of the operand in the code. -/
def opcBits : Mode → Nat → Nat
  | .REG, c => c % 16
  | .DREG, c | .CNT, c | .XOP, c => c / 64 % 16 * 64
  | .SRC, c => c % 64
  | .DST, c => c / 64 % 64 * 64
  | .SCNT, c => c / 16 % 16 * 16
  | .REL, c | .CRU, c => c % 256
  | .RTWP, c => c % 8
  | _, _ => 0

/-- The bits of the operand in the second word. -/
def postBits : Mode → Nat → Nat
  | .SRC2, c => c % 64
  | .DST0, c => c / 64 % 64 * 64
  | .DST4, c => 0x4000 ||| c / 64 % 64 * 64
  | .CNT4, c => 0x4000 ||| c / 64 % 16 * 64
  | .BIT0, c => c / 64 % 16 * 64
  | _, _ => 0

theorem embed_lt (a : Asm) {x : Nat} (h : x < 65536) : a.embed x = { a with opc := a.opc ||| x } := by
  unfold Asm.embed
  rw [Nat.mod_eq_of_lt h]

theorem embedPost_lt (a : Asm) {x : Nat} (h : x < 65536) : a.embedPost x = { a with post := a.post ||| x } := by
  unfold Asm.embedPost
  rw [Nat.mod_eq_of_lt h]

theorem emit_lt (a : Asm) {x : Nat} (h : x < 65536) :
    a.emit16 x = { a with ops := a.ops ++ [x / 256, x % 256] } := by
  unfold Asm.emit16
  rw [Nat.mod_eq_of_lt (show x / 256 < 256 by omega)]

/-- An address that is checked the same way by both. -/
theorem address_back {w v : Nat} {al : Bool} {e : Err} (h : Config.setErrorIf e (Config.checkAddr w v al) = .OK) :
    Config.checkAddr w v al = .OK := (setErrorIf_ok h).2

/-- A general address. -/
theorem modeReg_back {o : Opts} (ho : Readable o) (cpu : CpuType) (byteOp : Bool) (v : Nat) {r : Rd}
    (hmem : ∀ b ∈ r.mem, b < 256) (he : (decodeModeReg o cpu byteOp v r).2.err = .OK) :
    ∃ op bs, Reads E addr (decodeModeReg o cpu byteOp v r).1 op ∧ op.err = .OK ∧
      (op.mode = .REG ∨ op.mode = .IREG ∨ op.mode = .INCR ∧ v / 16 % 4 = 3 ∨ op.mode = .SYBL ∨ op.mode = .INDX) ∧
      (∀ a : Asm, encodeMode cpu byteOp op a = (v % 64, { a with ops := a.ops ++ bs })) ∧
      Took r (decodeModeReg o cpu byteOp v r).2 bs := by
  have hreg : v % 16 % 16 = v % 16 := Nat.mod_mod _ _
  have hor : ∀ k : Nat, k < 4 → v / 16 % 4 = k → v % 16 ||| k * 16 = v % 64 := by
    intro k hk hv
    rw [Nat.or_comm, or_bits (k := 4) (by omega) (by omega)]
    omega
  have hm : v / 16 % 4 < 4 := Nat.mod_lt _ (by decide)
  unfold decodeModeReg at he ⊢
  dsimp only at he ⊢
  generalize hk : v / 16 % 4 = k at *
  match k, hm with
  | 0, _ =>
    refine ⟨{ mode := .REG, reg := some (v % 16) }, [], ?_, rfl, Or.inl rfl, ?_, Took.refl he⟩
    · have := reg_reads (E := E) (addr := addr) o (v % 16)
      rw [hreg] at this
      exact this
    · intro a
      rw [List.append_nil]
      show (v % 16, a) = _
      rw [show v % 64 = v % 16 by omega]
  | 1, _ =>
    refine ⟨{ mode := .IREG, reg := some (v % 16) }, [], ?_, rfl, Or.inr (Or.inl rfl), ?_, Took.refl he⟩
    · have := ireg_reads (E := E) (addr := addr) o (v % 16)
      rw [hreg] at this
      exact this
    · intro a
      rw [List.append_nil]
      show (v % 16 ||| 1 * 16, a) = _
      rw [hor 1 (by decide) rfl]
  | 3, _ =>
    refine ⟨{ mode := .INCR, reg := some (v % 16) }, [], ?_, rfl, Or.inr (Or.inr (Or.inl ⟨rfl, rfl⟩)), ?_, Took.refl he⟩
    · have := incr_reads (E := E) (addr := addr) o (v % 16)
      rw [hreg] at this
      exact this
    · intro a
      rw [List.append_nil]
      show (v % 16 ||| 3 * 16, a) = _
      rw [hor 3 (by decide) rfl]
  | 2, _ =>
    by_cases h0 : v % 16 = 0
    · rw [if_pos h0] at he ⊢
      have he' : Config.setErrorIf r.be16.2.err (Config.checkAddr (width cpu) r.be16.1 (!byteOp)) = .OK := he
      obtain ⟨e1, e2⟩ := setErrorIf_ok he'
      obtain ⟨g1, g2⟩ := be16_took hmem e1
      have er : r.be16.2.setErrorIf (Config.checkAddr (width cpu) r.be16.1 (!byteOp)) = r.be16.2 := by
        rw [e2]
        unfold Rd.setErrorIf Config.setErrorIf
        simp
      have hn := outHex_num (pairs ho) r.be16.1 16 true g1 (by decide) (by decide)
      refine ⟨{ mode := .SYBL, val := ⟨r.be16.1, .unsigned⟩ }, [r.be16.1 / 256, r.be16.1 % 256], ?_, rfl,
        Or.inr (Or.inr (Or.inr (Or.inl rfl))), ?_, by rw [er]; exact g2⟩
      · rw [if_neg (by simp [h0]), List.append_nil]
        exact sybl_reads hn
      · intro a
        show (0x20, (a.setErrorIf (Config.checkAddr (width cpu) (⟨r.be16.1, .unsigned⟩ : Value).getUnsigned (!byteOp))).emit16
          (⟨r.be16.1, .unsigned⟩ : Value).getUnsigned) = _
        rw [getUnsigned_num (by omega), e2, Asm.noError, emit_lt _ g1, show v % 64 = 0x20 by omega]
    · rw [if_neg h0] at he ⊢
      obtain ⟨g1, g2⟩ := be16_took hmem he
      have hn := outHex_num (pairs ho) r.be16.1 16 true g1 (by decide) (by decide)
      refine ⟨{ mode := .INDX, reg := some (v % 16), val := ⟨r.be16.1, .unsigned⟩ }, [r.be16.1 / 256, r.be16.1 % 256], ?_, rfl,
        Or.inr (Or.inr (Or.inr (Or.inr rfl))), ?_, g2⟩
      · rw [if_pos h0]
        have := indx_reads (E := E) (addr := addr) hn o (n := v % 16) (by omega)
        rw [hreg] at this
        exact this
      · intro a
        show (v % 16 ||| 2 * 16, (a.check (decide (some (v % 16) = some 0)) .REGISTER_NOT_ALLOWED).emit16
          (⟨r.be16.1, .unsigned⟩ : Value).getUnsigned) = _
        rw [decide_eq_false (by intro hx; injection hx with hx; exact h0 hx), check_false, getUnsigned_num (by omega),
          emit_lt _ g1, hor 2 (by decide) rfl]

theorem accept_general {m : Mode} (h : m = .REG ∨ m = .IREG ∨ m = .INCR ∨ m = .SYBL ∨ m = .INDX) {t : Mode}
    (ht : t = .SRC ∨ t = .DST ∨ t = .SRC2 ∨ t = .DST0 ∨ t = .DST4) : acceptMode m t = true := by
  rcases h with rfl | rfl | rfl | rfl | rfl <;> rcases ht with rfl | rfl | rfl | rfl | rfl <;> rfl

/-- What is shown of an operand of the table: what is printed is read, accepted, and makes the bits and bytes it was
decoded from. -/
def OpBack (E : Env) (addr : Nat) (o : Opts) (cpu : CpuType) (opc post : Nat) (f : Flags) (m : Mode) (r : Rd) : Prop :=
  ∃ op bs, Reads E addr (decodeOperand o cpu addr opc post f.byteOp m r).1 op ∧ acceptMode op.mode m = true ∧
    Enc cpu addr f m op (opcBits m opc) (postBits m post) bs ∧
    Took r (decodeOperand o cpu addr opc post f.byteOp m r).2 bs

theorem general_back {o : Opts} (ho : Readable o) (cpu : CpuType) {opc post v : Nat} {f : Flags} {m : Mode} {r : Rd}
    (hmem : ∀ b ∈ r.mem, b < 256)
    (hm : m = .SRC ∧ v = opc ∨ m = .DST ∧ v = opc / 64 ∨ m = .SRC2 ∧ v = post ∨ m = .DST0 ∧ v = post / 64 ∨
      m = .DST4 ∧ v = post / 64)
    (hbit : m = .SRC2 → f.dst = .BIT0 → post / 16 % 4 ≠ 3)
    (he : (decodeModeReg o cpu f.byteOp v r).2.err = .OK) : OpBack E addr o cpu opc post f m r := by
  obtain ⟨op, bs, h1, h2, h3, h4, h5⟩ := modeReg_back (E := E) (addr := addr) ho cpu f.byteOp v hmem he
  have hd : decodeOperand o cpu addr opc post f.byteOp m r = decodeModeReg o cpu f.byteOp v r := by
    rcases hm with ⟨rfl, rfl⟩ | ⟨rfl, rfl⟩ | ⟨rfl, rfl⟩ | ⟨rfl, rfl⟩ | ⟨rfl, rfl⟩ <;> rfl
  refine ⟨op, bs, by rw [hd]; exact h1, ?_, ?_, by rw [hd]; exact h5⟩
  · apply accept_general
    · rcases h3 with h | h | h | h | h
      · exact Or.inl h
      · exact Or.inr (Or.inl h)
      · exact Or.inr (Or.inr (Or.inl h.1))
      · exact Or.inr (Or.inr (Or.inr (Or.inl h)))
      · exact Or.inr (Or.inr (Or.inr (Or.inr h)))
    · rcases hm with ⟨rfl, _⟩ | ⟨rfl, _⟩ | ⟨rfl, _⟩ | ⟨rfl, _⟩ | ⟨rfl, _⟩ <;> simp
  · intro a ha
    have hc : decide (m = .SRC2 ∧ f.dst = .BIT0 ∧ op.mode = .INCR) = false := by
      apply decide_eq_false
      rintro ⟨k1, k2, k3⟩
      have hv : v = post := by
        rcases hm with ⟨rfl, _⟩ | ⟨rfl, _⟩ | ⟨_, h⟩ | ⟨rfl, _⟩ | ⟨rfl, _⟩
        · cases k1
        · cases k1
        · exact h
        · cases k1
        · cases k1
      have := hbit k1 k2
      rw [k3] at h3
      rcases h3 with h | h | h | h | h
      · cases h
      · cases h
      · rw [hv] at h
        exact this h.2
      · cases h
      · cases h
    have hp : ∀ x, a.opc ||| x ||| 0 = a.opc ||| x := fun x => Nat.or_zero _
    cases a with
    | mk err aopc apost aops =>
    have ha : err = .OK := ha
    subst ha
    rcases hm with ⟨rfl, rfl⟩ | ⟨rfl, rfl⟩ | ⟨rfl, rfl⟩ | ⟨rfl, rfl⟩ | ⟨rfl, rfl⟩
    all_goals
      unfold encodeOperand encodeModeReg
      dsimp only
      rw [hc, check_false, h2, Asm.noError, h4]
      dsimp only
    · rw [embed_lt _ (by omega)]
      simp only [opcBits, postBits, Nat.or_zero]
    · rw [embed_lt _ (by omega)]
      simp only [opcBits, postBits, Nat.or_zero]
    · rw [embedPost_lt _ (by omega)]
      simp only [opcBits, postBits, Nat.or_zero]
    · rw [embedPost_lt _ (by omega)]
      simp only [opcBits, postBits, Nat.or_zero]
    · rw [embedPost_lt _ (by omega), embedPost_lt _ (by decide)]
      dsimp only
      rw [Nat.or_assoc]
      simp only [opcBits, postBits, Nat.or_zero]

/-! ### The other operands -/

/-- An operand without a value of its own bytes. -/
theorem plain_back {o : Opts} {cpu : CpuType} {opc post : Nat} {f : Flags} {m : Mode} {r : Rd} {t : List Char}
    {op : Operand} (hd : decodeOperand o cpu addr opc post f.byteOp m r = (t, r)) (hr : r.err = .OK)
    (h1 : Reads E addr t op) (h2 : acceptMode op.mode m = true)
    (h3 : ∀ a : Asm, a.err = .OK → encodeOperand cpu addr f m op a =
      .ok ⟨.OK, a.opc ||| opcBits m opc, a.post ||| postBits m post, a.ops⟩) : OpBack E addr o cpu opc post f m r := by
  refine ⟨op, [], by rw [hd]; exact h1, h2, ?_, by rw [hd]; exact Took.refl hr⟩
  intro a ha
  rw [List.append_nil]
  exact h3 a ha

theorem isZero_num {v : Nat} (h : v ≠ 0) : (⟨v, .unsigned⟩ : Value).isZero = false := by
  show (true && v == 0) = false
  simp [h]

theorem cru_value : ∀ v < 256, (Value.setS (meant v (-8))).overflowInt16 = false ∧
    (Value.setS (meant v (-8))).getUnsigned % 256 = v := by decide +kernel

theorem relative_back {o : Opts} (ho : Readable o) (hsym : o.relative = true → o.curSym = '$') {cpu : CpuType}
    {opc post : Nat} {f : Flags} {r : Rd} (ha : addr < 2 ^ width cpu) (heven : addr % 2 = 0)
    (he : (decodeRelative o cpu addr opc r).2.err = .OK) : OpBack E addr o cpu opc post f .REL r := by
  have hw : width cpu = 14 ∨ width cpu = 16 := by cases cpu <;> decide
  have hle : 2 ^ width cpu ≤ 65536 := by rcases hw with h | h <;> rw [h] <;> decide
  have hi := int8_range (opc % 256) (Nat.mod_lt _ (by decide))
  unfold decodeRelative at he
  obtain ⟨e1, e2⟩ := setErrorIf_ok he
  generalize ht : ((((addr + 2 : Nat) : Int) + int8 (opc % 256) * 2) % Config.W).toNat = tgt at e2
  have hW : (Config.W : Int) = 4294967296 := rfl
  rw [hW] at ht
  have hlt : tgt < 2 ^ width cpu := by
    have hx : tgt < Config.W := by
      show tgt < 4294967296
      omega
    rw [Config.checkAddr_eq false (by rcases hw with h | h <;> rw [h] <;> decide) hx] at e2
    split at e2
    · cases e2
    · omega
  have heq : (tgt : Int) = ((addr + 2 : Nat) : Int) + int8 (opc % 256) * 2 := by omega
  have hd : decodeOperand o cpu addr opc post f.byteOp .REL r = (outRelAddr .texas o (width cpu) tgt addr 9, r) := by
    show decodeRelative o cpu addr opc r = _
    unfold decodeRelative
    dsimp only
    rw [show ((((addr + 2 : Nat) : Int) + int8 (opc % 256) * 2) % Config.W).toNat = tgt from by rw [hW]; exact ht, e2]
    unfold Rd.setErrorIf Config.setErrorIf
    simp
  refine plain_back hd e1 (rel_text ho hsym (by rcases hw with h | h <;> rw [h] <;> decide)
    (by rcases hw with h | h <;> rw [h] <;> decide) ha hlt (by omega)) (by rfl) ?_
  intro a hae
  cases a with
  | mk err aopc apost aops =>
  have hae : err = .OK := hae
  subst hae
  show encodeRelative cpu addr _ (Asm.setErrorIf _ .OK) = _
  rw [Asm.noError]
  unfold encodeRelative
  dsimp only
  rw [if_neg (by decide), getUnsigned_num (by omega),
    Config.checkAddr_eq true (by rcases hw with h | h <;> rw [h] <;> decide) (show tgt < 4294967296 by omega),
    if_neg (by omega), if_neg (by omega), Asm.noError]
  have hp : 8192 ≤ 2 ^ (width cpu - 1) := by rcases hw with h | h <;> rw [h] <;> decide
  rw [branch_near (by rcases hw with h | h <;> rw [h] <;> decide) (by rcases hw with h | h <;> rw [h] <;> decide)
    (show addr + 2 < 4294967296 by omega) hlt (by omega) (by omega)]
  show Out.bind (.ok _) _ = _
  rw [Out.ok_bind]
  dsimp only
  have hdiv : ((tgt : Int) - ((addr + 2 : Nat) : Int)).tdiv 2 = int8 (opc % 256) := by
    rw [show (tgt : Int) - ((addr + 2 : Nat) : Int) = int8 (opc % 256) * 2 by omega]
    exact Int.mul_tdiv_cancel _ (by decide)
  rw [hdiv, Config.overflowDelta_eq (by decide) (by decide)]
  show Out.bind (.ok _) _ = _
  rw [Out.ok_bind, show (decide ¬(-((2 ^ (8 - 1) : Nat) : Int) ≤ int8 (opc % 256) ∧ int8 (opc % 256) < ((2 ^ (8 - 1) : Nat) : Int))) = false by
    simp only [Nat.reduceSub, Nat.reducePow, decide_eq_false_iff_not]; omega]
  have hb : (int8 (opc % 256) % 256).toNat = opc % 256 := by
    unfold int8
    split <;> omega
  rw [check_false, hb, embed_lt _ (by omega)]
  simp only [opcBits, postBits, Nat.or_zero]

/-- Every operand of the table but a missing one. -/
theorem operand_back {o : Opts} (ho : Readable o) (hsym : o.relative = true → o.curSym = '$') {cpu : CpuType}
    {opc post : Nat} {f : Flags} {m : Mode} {r : Rd} (ha : addr < 2 ^ width cpu) (heven : addr % 2 = 0)
    (hmem : ∀ b ∈ r.mem, b < 256) (hbit : m = .SRC2 → f.dst = .BIT0 → post / 16 % 4 ≠ 3)
    (hm : m ≠ .NONE ∧ m ≠ .IREG ∧ m ≠ .INCR ∧ m ≠ .SYBL ∧ m ≠ .INDX ∧ m ≠ .UNDEF)
    (hrt : m = .RTWP → opc % 8 = 1 ∨ opc % 8 = 2 ∨ opc % 8 = 4)
    (he : (decodeOperand o cpu addr opc post f.byteOp m r).2.err = .OK) : OpBack E addr o cpu opc post f m r := by
  have hP := pairs ho
  have small : ∀ {v : Nat}, v < 65536 → (⟨v, .unsigned⟩ : Value).getUnsigned = v := fun h => getUnsigned_num (by omega)
  cases m with
  | NONE => exact absurd rfl hm.1
  | IREG => exact absurd rfl hm.2.1
  | INCR => exact absurd rfl hm.2.2.1
  | SYBL => exact absurd rfl hm.2.2.2.1
  | INDX => exact absurd rfl hm.2.2.2.2.1
  | UNDEF => exact absurd rfl hm.2.2.2.2.2
  | SRC => exact general_back ho cpu hmem (Or.inl ⟨rfl, rfl⟩) hbit he
  | DST => exact general_back ho cpu hmem (Or.inr (Or.inl ⟨rfl, rfl⟩)) hbit he
  | SRC2 => exact general_back ho cpu hmem (Or.inr (Or.inr (Or.inl ⟨rfl, rfl⟩))) hbit he
  | DST0 => exact general_back ho cpu hmem (Or.inr (Or.inr (Or.inr (Or.inl ⟨rfl, rfl⟩)))) hbit he
  | DST4 => exact general_back ho cpu hmem (Or.inr (Or.inr (Or.inr (Or.inr ⟨rfl, rfl⟩)))) hbit he
  | REL => exact relative_back ho hsym ha heven he
  | IMM =>
    have he : r.be16.2.err = .OK := he
    obtain ⟨g1, g2⟩ := be16_took hmem he
    have hn := outHex_num hP r.be16.1 16 true g1 (by decide) (by decide)
    refine ⟨_, [r.be16.1 / 256, r.be16.1 % 256], num_reads hn, by rfl, ?_, g2⟩
    intro a hae
    cases a with
    | mk err aopc apost aops =>
    have hae : err = .OK := hae
    subst hae
    show Out.ok (Asm.emit16 (Asm.setErrorIf _ .OK) (⟨r.be16.1, .unsigned⟩ : Value).getUnsigned) = _
    rw [Asm.noError, small g1, emit_lt _ g1]
    simp only [opcBits, postBits, Nat.or_zero]
  | REG =>
    refine plain_back (by rfl) he (reg_reads o opc) (by rfl) ?_
    rintro ⟨err, aopc, apost, aops⟩ hae
    have hae : err = .OK := hae
    subst hae
    show Out.ok (Asm.embed (Asm.setErrorIf _ .OK) (opc % 16)) = _
    rw [Asm.noError, embed_lt _ (by omega)]
    simp only [opcBits, postBits, Nat.or_zero]
  | DREG =>
    refine plain_back (by rfl) he (reg_reads o (opc / 64)) (by rfl) ?_
    rintro ⟨err, aopc, apost, aops⟩ hae
    have hae : err = .OK := hae
    subst hae
    show Out.ok (Asm.embed (Asm.setErrorIf _ .OK) (opc / 64 % 16 * 64)) = _
    rw [Asm.noError, embed_lt _ (by omega)]
    simp only [opcBits, postBits, Nat.or_zero]
  | CNT =>
    have hv : (if opc / 64 % 16 = 0 then 16 else opc / 64 % 16) ≤ 16 ∧ (if opc / 64 % 16 = 0 then 16 else opc / 64 % 16) ≠ 0 ∧
        (if opc / 64 % 16 = 0 then 16 else opc / 64 % 16) % 16 = opc / 64 % 16 := by split <;> omega
    have hd : decodeOperand o cpu addr opc post f.byteOp .CNT r =
        (outDec .texas o (if opc / 64 % 16 = 0 then 16 else opc / 64 % 16) 5, r) := rfl
    generalize (if opc / 64 % 16 = 0 then 16 else opc / 64 % 16) = v at hv hd
    refine plain_back hd he (num_reads (outDec_num hP v 5 (by omega) (by decide) (by decide))) (by rfl) ?_
    rintro ⟨err, aopc, apost, aops⟩ hae
    have hae : err = .OK := hae
    subst hae
    show Out.ok (Asm.embed (Asm.check (Asm.setErrorIf _ .OK) ((⟨v, .unsigned⟩ : Value).isZero ||
      (⟨v, .unsigned⟩ : Value).overflow 16 0) _) ((⟨v, .unsigned⟩ : Value).getUnsigned % 16 * 64)) = _
    rw [isZero_num hv.2.1, overflow_num (by omega) hv.1 (by omega), small (by omega), hv.2.2]
    show Out.ok (Asm.embed (Asm.setErrorIf _ .OK) _) = _
    rw [Asm.noError, embed_lt _ (by omega)]
    simp only [opcBits, postBits, Nat.or_zero]
  | XOP =>
    refine plain_back (by rfl) he (num_reads (outDec_num hP (opc / 64 % 16) 5 (by omega) (by decide) (by decide))) (by rfl) ?_
    rintro ⟨err, aopc, apost, aops⟩ hae
    have hae : err = .OK := hae
    subst hae
    show Out.ok (Asm.embed (Asm.check (Asm.setErrorIf _ .OK)
      ((⟨opc / 64 % 16, .unsigned⟩ : Value).overflow 15 0) _) ((⟨opc / 64 % 16, .unsigned⟩ : Value).getUnsigned % 16 * 64)) = _
    rw [overflow_num (by omega) (by omega) (by omega), small (by omega), check_false, Asm.noError, Nat.mod_mod,
      embed_lt _ (by omega)]
    simp only [opcBits, postBits, Nat.or_zero]
  | BIT0 =>
    refine plain_back (by rfl) he (num_reads (outDec_num hP (post / 64 % 16) 4 (by omega) (by decide) (by decide))) (by rfl) ?_
    rintro ⟨err, aopc, apost, aops⟩ hae
    have hae : err = .OK := hae
    subst hae
    show Out.ok (Asm.embedPost (Asm.check (Asm.setErrorIf _ .OK)
      ((⟨post / 64 % 16, .unsigned⟩ : Value).overflow 15 0) _) ((⟨post / 64 % 16, .unsigned⟩ : Value).getUnsigned % 16 * 64)) = _
    rw [overflow_num (by omega) (by omega) (by omega), small (by omega), check_false, Asm.noError, Nat.mod_mod,
      embedPost_lt _ (by omega)]
    simp only [opcBits, postBits, Nat.or_zero]
  | CNT4 =>
    by_cases h0 : post / 64 % 16 = 0
    · have hd : decodeOperand o cpu addr opc post f.byteOp .CNT4 r = (outReg o 0, r) := by
        show (if post / 64 % 16 = 0 then outReg o 0 else _, r) = _
        rw [if_pos h0]
      refine plain_back hd he (reg_reads o 0) (by rfl) ?_
      rintro ⟨err, aopc, apost, aops⟩ hae
      have hae : err = .OK := hae
      subst hae
      show Out.ok (Asm.embedPost (Asm.setErrorIf _ .OK) 0x4000) = _
      rw [Asm.noError, embedPost_lt _ (by decide)]
      simp only [opcBits, postBits, Nat.or_zero, h0, Nat.zero_mul]
    · have hd : decodeOperand o cpu addr opc post f.byteOp .CNT4 r = (outDec .texas o (post / 64 % 16) 5, r) := by
        show (if post / 64 % 16 = 0 then _ else _, r) = _
        rw [if_neg h0]
      refine plain_back hd he (num_reads (outDec_num hP (post / 64 % 16) 5 (by omega) (by decide) (by decide))) (by rfl) ?_
      rintro ⟨err, aopc, apost, aops⟩ hae
      have hae : err = .OK := hae
      subst hae
      show Out.ok (Asm.embedPost (Asm.check (Asm.check (Asm.embedPost (Asm.setErrorIf _ .OK) 0x4000)
        (⟨post / 64 % 16, .unsigned⟩ : Value).isZero _)
        ((⟨post / 64 % 16, .unsigned⟩ : Value).overflow 15 0) _) ((⟨post / 64 % 16, .unsigned⟩ : Value).getUnsigned % 16 * 64)) = _
      rw [isZero_num h0, overflow_num (by omega) (by omega) (by omega), small (by omega), check_false, check_false, Asm.noError,
        Nat.mod_mod, embedPost_lt _ (by omega), embedPost_lt _ (by decide)]
      dsimp only
      rw [Nat.or_assoc]
      simp only [opcBits, postBits, Nat.or_zero]
  | SCNT =>
    by_cases h0 : opc / 16 % 16 = 0
    · have hd : decodeOperand o cpu addr opc post f.byteOp .SCNT r = (outReg o 0, r) := by
        show (if opc / 16 % 16 = 0 then outReg o 0 else _, r) = _
        rw [if_pos h0]
      refine plain_back hd he (reg_reads o 0) (by rfl) ?_
      rintro ⟨err, aopc, apost, aops⟩ hae
      have hae : err = .OK := hae
      subst hae
      show Out.ok (Asm.setErrorIf _ .OK) = _
      rw [Asm.noError]
      simp only [opcBits, postBits, Nat.or_zero, h0, Nat.zero_mul]
    · have hd : decodeOperand o cpu addr opc post f.byteOp .SCNT r = (outDec .texas o (opc / 16 % 16) 4, r) := by
        show (if opc / 16 % 16 = 0 then _ else _, r) = _
        rw [if_neg h0]
      refine plain_back hd he (num_reads (outDec_num hP (opc / 16 % 16) 4 (by omega) (by decide) (by decide))) (by rfl) ?_
      rintro ⟨err, aopc, apost, aops⟩ hae
      have hae : err = .OK := hae
      subst hae
      show (if (⟨opc / 16 % 16, .unsigned⟩ : Value).isZero then _ else Out.ok (Asm.embed (Asm.check (Asm.setErrorIf _ .OK)
        ((⟨opc / 16 % 16, .unsigned⟩ : Value).overflow 15 0) _) ((⟨opc / 16 % 16, .unsigned⟩ : Value).getUnsigned % 16 * 16))) = _
      rw [if_neg (by rw [isZero_num h0]; decide), overflow_num (by omega) (by omega) (by omega), small (by omega), check_false,
        Asm.noError, Nat.mod_mod, embed_lt _ (by omega)]
      simp only [opcBits, postBits, Nat.or_zero]
  | CRU =>
    have ht := outDec_text hP (opc % 256) (-8) (by omega) (by decide) (by decide)
    obtain ⟨k1, k2⟩ := cru_value (opc % 256) (Nat.mod_lt _ (by decide))
    refine plain_back (by rfl) he (signed_reads ht) (by rfl) ?_
    rintro ⟨err, aopc, apost, aops⟩ hae
    have hae : err = .OK := hae
    subst hae
    generalize Value.setS (meant (opc % 256) (-8)) = x at *
    show Out.ok (Asm.embed (Asm.check (Asm.setErrorIf _ .OK) x.overflowInt16 _) (x.getUnsigned % 256)) = _
    rw [k1, k2, check_false, Asm.noError, embed_lt _ (by omega)]
    simp only [opcBits, postBits, Nat.or_zero]
  | RTWP =>
    have hv := hrt rfl
    have hd : decodeOperand o cpu addr opc post f.byteOp .RTWP r = (outHex .texas o (opc % 8) 7 true, r) := by
      show (if opc % 8 ≠ 0 then _ else [], r) = _
      rw [if_pos (by omega)]
    refine plain_back hd he (num_reads (outHex_num hP (opc % 8) 7 true (by omega) (by decide) (by decide))) (by rfl) ?_
    rintro ⟨err, aopc, apost, aops⟩ hae
    have hae : err = .OK := hae
    subst hae
    show Out.ok (Asm.embed (Asm.check (Asm.setErrorIf _ .OK) (false ||
      decide ((⟨opc % 8, .unsigned⟩ : Value).getUnsigned = 3 ∨ (⟨opc % 8, .unsigned⟩ : Value).getUnsigned > 4)) _)
      ((⟨opc % 8, .unsigned⟩ : Value).getUnsigned % 8)) = _
    rw [small (by omega), decide_eq_false (by omega), Asm.noError, Nat.mod_mod, Bool.or_false, check_false,
      embed_lt _ (by omega)]
    simp only [opcBits, postBits, Nat.or_zero]

end

end Libasm.Cpu.Tms9900
