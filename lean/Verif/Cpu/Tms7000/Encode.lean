import Verif.Cpu.Ops
import Verif.Table.Props
import Verif.Cpu.Tms7000.Model
import Verif.Cpu.Tms7000.Spec
/-
How the TMS7000 assembler reads what its disassembler prints, and what it makes of it.
-/
namespace Libasm.Cpu.Tms7000
open Scan Number Number.Spec Eval
open Tables (Row)

/-- The parsers at an address. -/
abbrev plug (E : Env) (addr : Nat) : Plugins Value := lexer.plugins E '\x00' addr

/-- There is no octal notation of Texas Instruments. -/
def Readable (o : Opts) : Prop := o.octal = true → o.cstyle = true ∨ o.intelHex = true

theorem pairs {o : Opts} (h : Readable o) : Pairs .texas .texas o :=
  ⟨by decide, by decide, fun h' => (h h').elim Or.inl (fun h => Or.inr (Or.inl h))⟩

theorem lexOk : LexOk lexer .texas := by
  apply lexOk_of
  intro c hc s
  simp only [firsts, leads, List.map, List.headD, List.mem_append, List.mem_cons, List.not_mem_nil,
    or_false] at hc
  rcases hc with (h | h | h | h | h | h | h | h | h | h) | h <;> subst h <;>
    exact ⟨rfl, rfl, fun _ _ => rfl⟩

theorem upper_plus {c : Char} (h : c ≠ '+') : Ctype.toUpper c ≠ Ctype.toUpper '+' := by
  by_cases ha : c.toNat < 128
  · exact Ctype.ascii (p := fun c => c ≠ '+' → Ctype.toUpper c ≠ Ctype.toUpper '+') (by decide +kernel) c ha h
  · unfold Ctype.toUpper
    rw [if_neg (by
      unfold Ctype.isLower
      simp only [Bool.and_eq_true, decide_eq_true_eq, not_and]
      intro _ hx
      have : c.toNat ≤ 'z'.toNat := hx
      have : 'z'.toNat = 122 := rfl
      omega)]
    exact h

theorem lex_ops (E : Env) (loc : Nat) : Ops (plug E loc) :=
  ⟨rfl, ⟨opUnaryMinus, rfl, rfl, rfl, fun _ _ _ => rfl⟩, fun _ => rfl, fun _ => rfl,
    fun c rest hc => by
      have h1 : iexpectText ['+', '+'] ('+' :: c :: rest) = none := by
        show (iexpect '+' (c :: rest)).bind (iexpectText []) = none
        rw [iexpect_none (by intro d hd; injection hd with hd; exact hd ▸ upper_plus hc)]
        rfl
      show texasInfix ('+' :: c :: rest) = _
      unfold texasInfix
      rw [h1]
      rfl,
    fun _ => rfl,
    by show '\x00' ≠ '-' ∧ '\x00' ≠ '+'; decide⟩

theorem stop_nil (E : Env) (loc : Nat) : Stop (plug E loc) [] :=
  ⟨rfl, Or.inl rfl⟩

theorem stop_comma (E : Env) (loc : Nat) (s : List Char) : Stop (plug E loc) (',' :: s) :=
  ⟨rfl, Or.inr (Or.inr ⟨rfl, Or.inr rfl⟩)⟩

theorem stop_paren (E : Env) (loc : Nat) (s : List Char) : Stop (plug E loc) ('(' :: s) :=
  ⟨rfl, Or.inr (Or.inr ⟨rfl, Or.inl (by intro h; cases h)⟩)⟩

theorem after_stop {E : Env} {loc : Nat} {rest : List Char} (h : AfterOp rest) :
    Sep rest ∧ Stop (plug E loc) rest := by
  rcases h with rfl | ⟨s, rfl⟩
  · exact ⟨Sep.nil, stop_nil ..⟩
  · exact ⟨Sep.cons (by decide) _, stop_comma ..⟩

theorem const_location (E : Env) {loc : Nat} (hl : loc < 2 ^ 32) : Const (plug E loc) ['$'] ⟨loc, .unsigned⟩ := by
  apply const_loc
  · rfl
  · intro s hs
    have h1 : Eval.symbolLetter false (deref s) = false := by
      cases s with
      | nil => rfl
      | cons d t =>
        have : ∀ d ∈ seps, Eval.symbolLetter false d = false := by decide
        exact this d (hs d rfl)
    refine ⟨rfl, rfl, ?_⟩
    show locationSymbol Eval.symbolLetter '$' ('$' :: s) = _
    rw [show locationSymbol Eval.symbolLetter '$' ('$' :: s) =
        if Eval.symbolLetter false (deref s) then none else some s from rfl, h1]
    rfl
  · exact fun _ => rfl
  · exact fun _ => rfl
  · exact fun _ _ _ => rfl
  · exact hl

theorem skip_head {c : Char} (s : List Char) (h : Ctype.isSpace c = false) : skipSpaces (c :: s) = c :: s := by
  unfold skipSpaces trimStart
  rw [List.dropWhile_cons, h]
  rfl

/-! ### Registers -/

/-- How numbers and the location start: no register starts so, and nothing else. -/
theorem heads {c : Char} (hc : c ∈ '$' :: firsts .texas) (s : Scan) :
    skipSpaces (c :: s) = c :: s ∧ expect '%' (c :: s) = none ∧ expect '*' (c :: s) = none ∧
    expect '@' (c :: s) = none ∧ parseRegName (c :: s) = none := by
  simp only [firsts, leads, List.map, List.headD, List.mem_append, List.mem_cons, List.not_mem_nil,
    or_false] at hc
  rcases hc with h | (h | h | h | h | h | h | h | h | h | h) | h <;> subst h <;>
    exact ⟨rfl, rfl, rfl, rfl, rfl⟩

theorem sep_word {rest : List Char} (h : Sep rest) :
    (Ctype.isAlnum (deref rest) || deref rest == '_') = false := by
  cases rest with
  | nil => rfl
  | cons c t =>
    have : ∀ c ∈ seps, (Ctype.isAlnum c || c == '_') = false := by decide
    exact this c (h c rfl)

/-- The numbers of registers. -/
def regNum : Reg → Nat
  | .R n | .P n => n
  | _ => 0

theorem reg_name (o : Opts) {r : Reg} (hn : regNum r < 256) {rest : List Char} (hr : Sep rest) :
    parseRegName (outReg o r ++ rest) = some (r, rest) ∧
    ∃ c s, outReg o r = c :: s ∧ Ctype.isSpace c = false ∧ c ≠ '%' ∧ c ≠ '*' := by
  have hw := sep_word hr
  have num : ∀ n < 256, Table.parseRegNumber (fmtDec o.upper n ++ rest) = some (n, rest) := by
    intro n hn
    have h1 : ∀ n < 256, ∀ up, Table.Spec.Canonical (fmtDec up n) ∧
        Table.Spec.decimal (fmtDec up n) = n := by decide +kernel
    obtain ⟨c1, c2⟩ := h1 n hn o.upper
    have hnum := Libasm.Table.Props.C41_accepts (fmtDec o.upper n) rest c1 (by rw [c2]; omega) (by
      intro c hc
      have : ∀ c ∈ seps, ¬ Table.Spec.Ident c := by decide
      exact this c (hr c hc))
    rw [c2] at hnum
    exact hnum
  have word : ∀ (a : Option Scan), a = some rest →
      (match a with
      | none => (none : Option Scan)
      | some r => if Ctype.isAlnum (deref r) || deref r == '_' then none else some r) = some rest := by
    rintro a rfl
    dsimp only
    rw [hw]
    rfl
  have wordA : ∀ up, Table.iexpectWord (letter up 'A' :: rest) ['A'] = some rest := by
    intro up
    exact word _ (by cases up <;> cases rest <;> rfl)
  have wordB : ∀ up, Table.iexpectWord (letter up 'B' :: rest) ['A'] = none ∧
      Table.iexpectWord (letter up 'B' :: rest) ['B'] = some rest := by
    intro up
    exact ⟨by cases up <;> rfl, word _ (by cases up <;> cases rest <;> rfl)⟩
  have wordS : ∀ up, Table.iexpectWord ([letter up 'S', letter up 'T'] ++ rest) ['A'] = none ∧
      Table.iexpectWord ([letter up 'S', letter up 'T'] ++ rest) ['B'] = none ∧
      parseNumbered 'R' ([letter up 'S', letter up 'T'] ++ rest) = none ∧
      parseNumbered 'P' ([letter up 'S', letter up 'T'] ++ rest) = none ∧
      Table.iexpectWord ([letter up 'S', letter up 'T'] ++ rest) ['S', 'T'] = some rest := by
    intro up
    refine ⟨?_, ?_, ?_, ?_, word _ ?_⟩ <;> cases up <;> cases rest <;> rfl
  have wordR : ∀ up s, Table.iexpectWord (letter up 'R' :: s) ['A'] = none ∧
      Table.iexpectWord (letter up 'R' :: s) ['B'] = none ∧ iexpect 'R' (letter up 'R' :: s) = some s := by
    intro up s
    cases up <;> exact ⟨rfl, rfl, rfl⟩
  have wordP : ∀ up s, Table.iexpectWord (letter up 'P' :: s) ['A'] = none ∧
      Table.iexpectWord (letter up 'P' :: s) ['B'] = none ∧ parseNumbered 'R' (letter up 'P' :: s) = none ∧
      iexpect 'P' (letter up 'P' :: s) = some s := by
    intro up s
    cases up <;> exact ⟨rfl, rfl, rfl, rfl⟩
  have head : ∀ up, ∀ c ∈ ['A', 'B', 'R', 'P', 'S'], Ctype.isSpace (letter up c) = false ∧ letter up c ≠ '%' ∧
      letter up c ≠ '*' := by decide
  unfold parseRegName
  cases r with
  | A =>
    refine ⟨?_, _, _, rfl, head o.upper 'A' (by simp)⟩
    show (match Table.iexpectWord (letter o.upper 'A' :: rest) ['A'] with | some p => _ | none => _) = _
    rw [wordA]
  | B =>
    refine ⟨?_, _, _, rfl, head o.upper 'B' (by simp)⟩
    show (match Table.iexpectWord (letter o.upper 'B' :: rest) ['A'] with | some p => _ | none => _) = _
    rw [(wordB _).1]
    show (match Table.iexpectWord (letter o.upper 'B' :: rest) ['B'] with | some p => _ | none => _) = _
    rw [(wordB _).2]
  | ST =>
    refine ⟨?_, _, _, rfl, head o.upper 'S' (by simp)⟩
    rw [show outReg o .ST ++ rest = [letter o.upper 'S', letter o.upper 'T'] ++ rest from rfl]
    obtain ⟨k1, k2, k3, k4, k5⟩ := wordS o.upper
    rw [k1]
    dsimp only
    rw [k2]
    dsimp only
    rw [k3]
    dsimp only
    rw [k4]
    dsimp only
    rw [k5]
  | R n =>
    refine ⟨?_, _, _, rfl, head o.upper 'R' (by simp)⟩
    rw [show outReg o (.R n) ++ rest = letter o.upper 'R' :: (fmtDec o.upper n ++ rest) from rfl]
    obtain ⟨k1, k2, k3⟩ := wordR o.upper (fmtDec o.upper n ++ rest)
    rw [k1]
    dsimp only
    rw [k2]
    dsimp only
    unfold parseNumbered
    rw [k3]
    dsimp only
    rw [num n hn]
    dsimp only
    rw [if_pos (show n < 256 from hn)]
  | P n =>
    refine ⟨?_, _, _, rfl, head o.upper 'P' (by simp)⟩
    rw [show outReg o (.P n) ++ rest = letter o.upper 'P' :: (fmtDec o.upper n ++ rest) from rfl]
    obtain ⟨k1, k2, k3, k4⟩ := wordP o.upper (fmtDec o.upper n ++ rest)
    rw [k1]
    dsimp only
    rw [k2]
    dsimp only
    rw [k3]
    dsimp only
    unfold parseNumbered
    rw [k4]
    dsimp only
    rw [num n hn]
    dsimp only
    rw [if_pos (show n < 256 from hn)]

/-! ### Operands -/

section
variable {E : Env} {addr : Nat}

/-- Nothing or a comma after an operand is no index. -/
theorem not_indexed {rest : List Char} (h : AfterOp rest) : hasIndexB rest = .ok (false, rest) := by
  rcases h with rfl | ⟨s, rfl⟩ <;> rfl

theorem index_reads (o : Opts) {rest : List Char} : hasIndexB (idxB o ++ rest) = .ok (true, rest) := by
  have hs : Sep (')' :: rest) := Sep.cons (by decide) _
  have h := (reg_name o (r := .B) (by decide) hs).1
  have e : ∀ up, (['(', 'B', ')'].map (letter up)) ++ rest = '(' :: letter up 'B' :: ')' :: rest := by
    intro up
    cases up <;> rfl
  have sk : ∀ up s, skipSpaces (letter up 'B' :: s) = letter up 'B' :: s := by
    intro up s
    cases up <;> rfl
  unfold hasIndexB
  rw [show idxB o ++ rest = '(' :: letter o.upper 'B' :: ')' :: rest from e _,
    show expect '(' (skipSpaces ('(' :: letter o.upper 'B' :: ')' :: rest)) =
      some (letter o.upper 'B' :: ')' :: rest) from rfl]
  dsimp only
  rw [sk, show letter o.upper 'B' :: ')' :: rest = outReg o .B ++ ')' :: rest from rfl, h]
  rfl

theorem reg_reads (o : Opts) {r : Reg} (hn : regNum r < 256) {rest : List Char} (hr : Sep rest) :
    parseOperand (plug E addr) (outReg o r ++ rest) = .ok (.ok (registerOperand r, rest)) := by
  obtain ⟨h1, c, s, h2, h3, h4, h5⟩ := reg_name o hn hr
  rw [h2, List.cons_append] at h1 ⊢
  unfold parseOperand
  rw [skip_head _ h3]
  dsimp only
  rw [expect_none (by intro d hd; injection hd with hd; exact hd ▸ h4),
    expect_none (by intro d hd; injection hd with hd; exact hd ▸ h5)]
  dsimp only
  unfold parseMemory
  rw [h1]
  rfl

/-- A register that holds an address. -/
theorem indirect_reads (o : Opts) {n : Nat} (hn : n < 256) {rest : List Char} (hr : Sep rest) :
    parseOperand (plug E addr) ('*' :: outReg o (.R n) ++ rest) =
      .ok (.ok ({ mode := .IDIR, val := Value.setUnsigned n }, rest)) := by
  obtain ⟨h1, c, s, h2, h3, h4, h5⟩ := reg_name o (r := .R n) hn hr
  rw [List.cons_append]
  rw [h2, List.cons_append] at h1 ⊢
  unfold parseOperand
  rw [show skipSpaces ('*' :: c :: (s ++ rest)) = '*' :: c :: (s ++ rest) from rfl]
  dsimp only
  rw [show expect '%' ('*' :: c :: (s ++ rest)) = none from rfl,
    show expect '*' ('*' :: c :: (s ++ rest)) = some (c :: (s ++ rest)) from rfl]
  dsimp only
  rw [skip_head _ h3]
  unfold parseMemory
  rw [h1]
  rfl

/-- A number or the location, whatever text it is read from. -/
theorem address_reads {w : Nat} {t rest : List Char} (hr : AfterOp rest)
    (hh : ∃ c s, t = c :: s ∧ c ∈ '$' :: firsts .texas)
    (e : parseInteger (plug E addr) (t ++ rest) .OK = .ok (⟨w, .unsigned⟩, .OK, rest)) :
    parseOperand (plug E addr) (t ++ rest) =
      .ok (.ok ({ mode := addressMode ⟨w, .unsigned⟩, val := ⟨w, .unsigned⟩ }, rest)) := by
  obtain ⟨c, s, rfl, hc⟩ := hh
  rw [List.cons_append] at e ⊢
  obtain ⟨h1, h2, h3, h4, h5⟩ := heads hc (s ++ rest)
  unfold parseOperand
  rw [h1]
  dsimp only
  rw [h2, h3]
  dsimp only
  unfold parseMemory
  rw [h5]
  dsimp only
  rw [h4]
  dsimp only
  unfold parseAddress
  rw [h1, e, Out.ok_bind]
  dsimp only
  rw [if_neg (by decide), not_indexed hr]
  rfl

/-- Immediate data. -/
theorem imm_reads {w : Nat} {t rest rest' : List Char} {i : Bool}
    (e : parseInteger (plug E addr) (t ++ rest) .OK = .ok (⟨w, .unsigned⟩, .OK, rest))
    (hi : hasIndexB rest = .ok (i, rest')) :
    parseOperand (plug E addr) ('%' :: (t ++ rest)) =
      .ok (.ok ({ mode := if i then .BIMM else if (⟨w, .unsigned⟩ : Value).overflowUint8 then .IM16 else .IM8,
                  val := ⟨w, .unsigned⟩ }, rest')) := by
  unfold parseOperand
  rw [show skipSpaces ('%' :: (t ++ rest)) = '%' :: (t ++ rest) from rfl]
  dsimp only
  rw [show expect '%' ('%' :: (t ++ rest)) = some (t ++ rest) from rfl]
  dsimp only
  rw [e, Out.ok_bind]
  dsimp only
  rw [if_neg (by decide), hi]
  cases i <;> rfl

/-- An address. -/
theorem abs_reads {w : Nat} {t rest rest' : List Char} {i : Bool}
    (hh : ∃ c s, t = c :: s ∧ c ∈ '$' :: firsts .texas)
    (e : parseInteger (plug E addr) (t ++ rest) .OK = .ok (⟨w, .unsigned⟩, .OK, rest))
    (hi : hasIndexB rest = .ok (i, rest')) :
    parseOperand (plug E addr) ('@' :: (t ++ rest)) =
      .ok (.ok ({ mode := if i then .BIDX else .ABS, val := ⟨w, .unsigned⟩ }, rest')) := by
  obtain ⟨c, s, rfl, hc⟩ := hh
  rw [List.cons_append] at e ⊢
  obtain ⟨h1, h2, h3, h4, h5⟩ := heads hc (s ++ rest)
  unfold parseOperand
  rw [show skipSpaces ('@' :: c :: (s ++ rest)) = '@' :: c :: (s ++ rest) from rfl]
  dsimp only
  rw [show expect '%' ('@' :: c :: (s ++ rest)) = none from rfl,
    show expect '*' ('@' :: c :: (s ++ rest)) = none from rfl]
  dsimp only
  unfold parseMemory
  rw [show parseRegName ('@' :: c :: (s ++ rest)) = none from rfl,
    show expect '@' ('@' :: c :: (s ++ rest)) = some (c :: (s ++ rest)) from rfl]
  dsimp only
  rw [h1, h3]
  rw [if_neg (by decide)]
  unfold parseAddress
  rw [h1, e, Out.ok_bind]
  dsimp only
  rw [if_neg (by decide), hi]
  cases i <;> rfl

/-- A target. -/
theorem rel_text {o : Opts} (ho : Readable o) (hsym : o.relative = true → o.curSym = '$')
    (ha : addr < 65536) {w : Nat} (hw : w < 65536) (hd : ((w : Int) - addr).natAbs < 2 ^ 8)
    {rest : List Char} (hr : AfterOp rest) :
    parseOperand (plug E addr) (outRelAddr .texas o 16 w addr 8 ++ rest) =
        .ok (.ok ({ mode := addressMode ⟨w, .unsigned⟩, val := ⟨w, .unsigned⟩ }, rest)) := by
  obtain ⟨g1, g2⟩ := after_stop (E := E) (loc := addr) hr
  have hlet : ∀ up, letter up '$' = '$' := by decide
  have hsym' : o.relative = true → Const (plug E addr) [letter o.upper o.curSym] ⟨addr, .unsigned⟩ := by
    intro hx
    rw [hsym hx, hlet]
    exact const_location E (by omega)
  obtain ⟨e, c, s, hcs, hc⟩ := rel_reads lexOk (pairs ho) (lex_ops E addr)
    (show ∀ c ∈ firsts .texas, c ≠ '\x00' by decide) hsym' (width := 16)
    (by decide) (by decide) ha hw (bits := 8) (by decide) (by decide) hd g1 g2
  refine address_reads hr ⟨c, s, hcs, ?_⟩ e
  rcases hc with hc | ⟨h1, h2⟩
  · exact List.mem_cons_of_mem _ hc
  · rw [h2, hsym h1, hlet]
    exact List.mem_cons_self ..

/-! ### What is printed of an operand -/

/-- The modes an operand may be read with. -/
def pmodes (m : Mode) : List Mode :=
  match m with
  | .RN => [.RN, .A, .B]
  | .IM16 => [.IM16, .IM8]
  | .REL => [.REL, .ADRP, .ADRR]
  | .TRAP => [.ADRR]
  | m => [m]

/-- The bytes `bs` of the operand and what is read of it; `b` is the code and `n` the number of bytes up to
here. -/
def Vals (b addr n : Nat) (m : Mode) (bs : List Nat) (op : Operand) : Prop :=
  match m with
  | .RN => ∃ v, v < 256 ∧ bs = [v] ∧ op.val = ⟨v, .unsigned⟩ ∧
      (op.mode = .RN ∨ op.mode = .A ∧ v = 0 ∨ op.mode = .B ∧ v = 1)
  | .PN | .IM8 | .IDIR => ∃ v, v < 256 ∧ bs = [v] ∧ op.val = ⟨v, .unsigned⟩
  | .ABS | .BIDX | .IM16 | .BIMM => ∃ v, v < 65536 ∧ bs = [v / 256, v % 256] ∧ op.val = ⟨v, .unsigned⟩
  | .REL => ∃ v w : Nat, v < 256 ∧ w < 65536 ∧ bs = [v] ∧ (w : Int) = ((addr + n : Nat) : Int) + int8 v ∧
      op.val = ⟨w, .unsigned⟩
  | .TRAP => bs = [] ∧ op.val = ⟨0x1F - b % 32, .unsigned⟩
  | _ => bs = []

/-- The operand `op` was decoded from `r` to `r'`. -/
structure Rel (b addr : Nat) (m : Mode) (r r' : Rd) (op : Operand) : Prop where
  err : op.err = .OK
  mode : op.mode ∈ pmodes m
  len : r'.bytes.length ≤ 100
  vals : ∃ bs, Took r r' bs ∧ bs.length ≤ 10 ∧ Vals b addr r'.bytes.length m bs op

theorem operand_mono {o : Opts} {b : Nat} (m : Mode) (r : Rd)
    (h : (decodeOperand o addr b m r).2.err = .OK) : r.err = .OK := by
  unfold decodeOperand at h
  cases m with
  | RN =>
    unfold decodeRegister at h
    dsimp only at h
    split at h <;> exact byte_err h
  | PN | IDIR => exact byte_err h
  | IM8 => exact byte_err h
  | IM16 | BIMM => exact byte_err (byte_err h)
  | ABS | BIDX => exact byte_err (byte_err h)
  | REL =>
    unfold decodeRelative at h
    exact byte_err (setErrorIf_ok h).1
  | _ => exact h

theorem set_small {n : Nat} (h : n < 65536) : Value.setUnsigned n = ⟨n, .unsigned⟩ := by
  unfold Value.setUnsigned Value.setU Value.M
  rw [show n % 4294967296 % 18446744073709551616 = n by omega]

theorem operand_reads {o : Opts} (ho : Readable o) (hsym : o.relative = true → o.curSym = '$') (ha : addr < 65536)
    {m : Mode} {b k : Nat} {r : Rd} (hm : m ≠ .NONE ∧ m ≠ .UNDEF ∧ m ≠ .ADRR ∧ m ≠ .ADRP ∧ m ≠ .TRAP)
    (hroom : Room (k + 1) r) (h : (decodeOperand o addr b m r).2.err = .OK) :
    ∃ op, Rel b addr m r (decodeOperand o addr b m r).2 op ∧
      ∀ rest, AfterOp rest →
        parseOperand (plug E addr) ((decodeOperand o addr b m r).1 ++ rest) = .ok (.ok (op, rest)) := by
  have hP := pairs ho
  have hmem := hroom.mem
  have hlen := hroom.len
  have hsep : ∀ {rest}, AfterOp rest → Sep rest := fun hr => (after_stop (E := E) (loc := addr) hr).1
  have hlen' : ∀ {r' : Rd} {bs : List Nat}, Took r r' bs → bs.length ≤ 2 → r'.bytes.length ≤ 100 := by
    intro r' bs ht hl
    rw [ht.bytes, List.length_append]
    omega
  have reg : ∀ {rg : Reg}, registerOperand rg = { mode := m, val := Value.setUnsigned 0 } ∨
        registerOperand rg = { mode := m, val := Value.setUnsigned 1 } → regNum rg < 256 → pmodes m = [m] → r.err = .OK →
      (∀ op : Operand, Vals b addr r.bytes.length m [] op) →
      ∃ op, Rel b addr m r r op ∧
        ∀ rest, AfterOp rest → parseOperand (plug E addr) (outReg o rg ++ rest) = .ok (.ok (op, rest)) := by
    intro rg hg hn hp he hv
    refine ⟨registerOperand rg, ⟨?_, ?_, by omega, [], Took.refl he, by decide, hv _⟩,
      fun rest hr => reg_reads o hn (hsep hr)⟩
    · rcases hg with hg | hg <;> rw [hg]
    · rw [hp]
      rcases hg with hg | hg <;> rw [hg] <;> exact List.mem_singleton.2 rfl
  have const : ∀ {t : List Char} {w : Nat}, NumText .texas .texas t w → ∀ {rest}, Sep rest → Stop (plug E addr) rest →
      parseInteger (plug E addr) (t ++ rest) .OK = .ok (⟨w, .unsigned⟩, .OK, rest) := fun hn _ h1 h2 =>
    eval_const (const_of lexOk hn E '\x00' addr) h1 h2
  have lead : ∀ {t : List Char} {w : Nat}, NumText .texas .texas t w →
      ∃ c s, t = c :: s ∧ c ∈ '$' :: firsts .texas := by
    intro t w hn
    obtain ⟨c, s, h1, h2⟩ := lead_first hn.lead
    exact ⟨c, s, h1, List.mem_cons_of_mem _ h2⟩
  have idx : ∀ {t : List Char} {w : Nat}, NumText .texas .texas t w → ∀ {rest},
      parseInteger (plug E addr) (t ++ (idxB o ++ rest)) .OK = .ok (⟨w, .unsigned⟩, .OK, idxB o ++ rest) := by
    intro t w hn rest
    have e : ∀ up, (['(', 'B', ')'].map (letter up)) ++ rest = '(' :: letter up 'B' :: ')' :: rest := by
      intro up
      cases up <;> rfl
    apply const hn
    · rw [show idxB o ++ rest = '(' :: letter o.upper 'B' :: ')' :: rest from e _]
      exact Sep.cons (by decide) _
    · rw [show idxB o ++ rest = '(' :: letter o.upper 'B' :: ')' :: rest from e _]
      exact stop_paren ..
  unfold decodeOperand at h ⊢
  cases m with
  | NONE => exact absurd rfl hm.1
  | UNDEF => exact absurd rfl hm.2.1
  | ADRR => exact absurd rfl hm.2.2.1
  | ADRP => exact absurd rfl hm.2.2.2.1
  | TRAP => exact absurd rfl hm.2.2.2.2
  | A => exact reg (rg := .A) (Or.inl rfl) (by decide) rfl h (fun _ => rfl)
  | B => exact reg (rg := .B) (Or.inr rfl) (by decide) rfl h (fun _ => rfl)
  | ST => exact reg (rg := .ST) (Or.inl rfl) (by decide) rfl h (fun _ => rfl)
  | RN =>
    unfold decodeRegister at h ⊢
    dsimp only at h ⊢
    have he : r.byte.2.err = .OK := by split at h <;> exact h
    obtain ⟨g1, g2⟩ := byte_took hmem he
    by_cases h2 : r.byte.1 < 2
    · rw [if_pos ⟨he, h2⟩]
      have hv : r.byte.1 = 0 ∨ r.byte.1 = 1 := by omega
      rcases hv with hv | hv
      · refine ⟨{ mode := .A, val := ⟨0, .unsigned⟩ }, ⟨rfl, by decide, hlen' g2 (by simp), _, g2, by simp, _, g1, rfl,
          by rw [hv], Or.inr (Or.inl ⟨rfl, hv⟩)⟩, fun rest hr => ?_⟩
        rw [hv]
        exact reg_reads o (r := .A) (by decide) (hsep hr)
      · refine ⟨{ mode := .B, val := ⟨1, .unsigned⟩ }, ⟨rfl, by decide, hlen' g2 (by simp), _, g2, by simp, _, g1, rfl,
          by rw [hv], Or.inr (Or.inr ⟨rfl, hv⟩)⟩, fun rest hr => ?_⟩
        rw [hv]
        exact reg_reads o (r := .B) (by decide) (hsep hr)
    · rw [if_neg (fun hx => h2 hx.2)]
      refine ⟨registerOperand (.R r.byte.1), ⟨rfl, List.mem_cons_self .., hlen' g2 (by simp), _, g2, by simp, _, g1, rfl,
        set_small (by omega), Or.inl rfl⟩, fun rest hr => reg_reads o (r := .R r.byte.1) g1 (hsep hr)⟩
  | PN =>
    dsimp only at h ⊢
    obtain ⟨g1, g2⟩ := byte_took hmem h
    exact ⟨registerOperand (.P r.byte.1), ⟨rfl, List.mem_cons_self .., hlen' g2 (by simp), _, g2, by simp, _, g1, rfl,
        set_small (by omega)⟩, fun rest hr => reg_reads o (by exact g1) (hsep hr)⟩
  | IDIR =>
    dsimp only at h ⊢
    obtain ⟨g1, g2⟩ := byte_took hmem h
    exact ⟨{ mode := .IDIR, val := Value.setUnsigned r.byte.1 }, ⟨rfl, List.mem_cons_self .., hlen' g2 (by simp), _, g2, by simp, _, g1, rfl,
        set_small (by omega)⟩, fun rest hr => indirect_reads o g1 (hsep hr)⟩
  | IM8 =>
    rw [show decodeImmediate o .IM8 r = ('%' :: outHex .texas o r.byte.1 8 true ++ [], r.byte.2) from rfl] at h ⊢
    dsimp only at h ⊢
    obtain ⟨g1, g2⟩ := byte_took hmem h
    have hn := outHex_num hP r.byte.1 8 true g1 (by decide) (by decide)
    refine ⟨{ mode := .IM8, val := ⟨r.byte.1, .unsigned⟩ }, ⟨rfl, List.mem_cons_self .., hlen' g2 (by simp), _, g2, by simp, _, g1,
      rfl, rfl⟩, fun rest hr => ?_⟩
    obtain ⟨s1, s2⟩ := after_stop (E := E) (loc := addr) hr
    have := imm_reads (const hn s1 s2) (not_indexed hr)
    rw [show (⟨r.byte.1, .unsigned⟩ : Value).overflowUint8 = false from overflow_num (by omega) (by omega) (by omega)] at this
    rw [List.append_nil, List.cons_append]
    exact this
  | IM16 =>
    rw [show decodeImmediate o .IM16 r = ('%' :: outHex .texas o r.be16.1 16 true ++ [], r.be16.2) from rfl] at h ⊢
    dsimp only at h ⊢
    obtain ⟨g1, g2⟩ := be16_took hmem h
    have hn := outHex_num hP r.be16.1 16 true g1 (by decide) (by decide)
    refine ⟨{ mode := if (⟨r.be16.1, .unsigned⟩ : Value).overflowUint8 then .IM16 else .IM8, val := ⟨r.be16.1, .unsigned⟩ },
      ⟨rfl, by dsimp only; split <;> decide, hlen' g2 (by simp), _, g2, by simp, _, g1, rfl, rfl⟩, fun rest hr => ?_⟩
    obtain ⟨s1, s2⟩ := after_stop (E := E) (loc := addr) hr
    have := imm_reads (const hn s1 s2) (not_indexed hr)
    rw [List.append_nil, List.cons_append]
    exact this
  | BIMM =>
    rw [show decodeImmediate o .BIMM r = ('%' :: outHex .texas o r.be16.1 16 true ++ idxB o, r.be16.2) from rfl] at h ⊢
    dsimp only at h ⊢
    obtain ⟨g1, g2⟩ := be16_took hmem h
    have hn := outHex_num hP r.be16.1 16 true g1 (by decide) (by decide)
    refine ⟨{ mode := .BIMM, val := ⟨r.be16.1, .unsigned⟩ },
      ⟨rfl, List.mem_cons_self .., hlen' g2 (by simp), _, g2, by simp, _, g1, rfl, rfl⟩, fun rest hr => ?_⟩
    have := imm_reads (idx hn) (index_reads o (rest := rest))
    rw [List.append_assoc, List.cons_append]
    exact this
  | ABS =>
    rw [show decodeAbsolute o .ABS r = ('@' :: outAbsAddr .texas o 16 r.be16.1 ++ [], r.be16.2) from rfl] at h ⊢
    dsimp only at h ⊢
    obtain ⟨g1, g2⟩ := be16_took hmem h
    have hn := outAbsAddr_num hP r.be16.1 16 g1 (by decide) (by decide)
    refine ⟨{ mode := .ABS, val := ⟨r.be16.1, .unsigned⟩ },
      ⟨rfl, List.mem_cons_self .., hlen' g2 (by simp), _, g2, by simp, _, g1, rfl, rfl⟩, fun rest hr => ?_⟩
    obtain ⟨s1, s2⟩ := after_stop (E := E) (loc := addr) hr
    have := abs_reads (lead hn) (const hn s1 s2) (not_indexed hr)
    rw [List.append_nil, List.cons_append]
    exact this
  | BIDX =>
    rw [show decodeAbsolute o .BIDX r = ('@' :: outAbsAddr .texas o 16 r.be16.1 ++ idxB o, r.be16.2) from rfl] at h ⊢
    dsimp only at h ⊢
    obtain ⟨g1, g2⟩ := be16_took hmem h
    have hn := outAbsAddr_num hP r.be16.1 16 g1 (by decide) (by decide)
    refine ⟨{ mode := .BIDX, val := ⟨r.be16.1, .unsigned⟩ },
      ⟨rfl, List.mem_cons_self .., hlen' g2 (by simp), _, g2, by simp, _, g1, rfl, rfl⟩, fun rest hr => ?_⟩
    have := abs_reads (lead hn) (idx hn) (index_reads o (rest := rest))
    rw [List.append_assoc, List.cons_append]
    exact this
  | REL =>
    unfold decodeRelative at h ⊢
    dsimp only at h ⊢
    generalize hT : (((addr + r.byte.2.bytes.length : Nat) : Int) + int8 r.byte.1) % Config.W = T at *
    obtain ⟨g1, g2⟩ := setErrorIf_ok h
    obtain ⟨h1, h2⟩ := byte_took hmem g1
    have hi := int8_range _ h1
    have hl : r.byte.2.bytes.length = r.bytes.length + 1 := by rw [h2.bytes]; simp
    have hT' : T.toNat < 65536 := by
      rw [Config.checkAddr_eq false (by decide) (by unfold Config.W at *; omega)] at g2
      split at g2
      · cases g2
      · rename_i hlt
        simpa using hlt
    have hsh : (T.toNat : Int) = ((addr + r.byte.2.bytes.length : Nat) : Int) + int8 r.byte.1 := by
      unfold Config.W at hT
      omega
    refine ⟨{ mode := addressMode ⟨T.toNat, .unsigned⟩, val := ⟨T.toNat, .unsigned⟩ }, ⟨rfl, ?_,
      (hlen' h2 (by simp) : r.byte.2.bytes.length ≤ 100), _, ⟨h2.err, h2.mem, h2.bytes⟩, by simp,
      _, _, h1, hT', rfl, hsh, rfl⟩, fun rest hr => rel_text ho hsym ha hT' (by omega) hr⟩
    unfold addressMode
    dsimp only
    split
    · decide
    · split <;> decide

/-! ### What is emitted for an operand -/

/-- The bytes of a mode. -/
def size : Mode → Nat
  | .RN | .PN | .IM8 | .IDIR | .REL => 1
  | .ABS | .BIDX | .IM16 | .BIMM => 2
  | _ => 0

/-- What the table has to say for the code `b` and its entry. -/
def rowOk (b : Nat) (row : Row) : Bool :=
  decide ((modes row).length ≤ 3) &&
  (decide (modes row = [.TRAP]) && row.opcode == 0xE8 && decide (0xE8 ≤ b) ||
    row.opcode == b && (modes row).all fun m =>
      decide (m ≠ .NONE ∧ m ≠ .UNDEF ∧ m ≠ .ADRR ∧ m ≠ .ADRP ∧ m ≠ .TRAP))

/-- The instruction so far. -/
structure Sync (b : Nat) (a : Asm) (r : Rd) (_ : Nat) : Prop where
  err : a.err = .OK
  opc : a.opc = b
  bytes : r.bytes = b :: a.ops

theorem getUnsigned_nat {v : Nat} (h : v < 65536) :
    (⟨v, .unsigned⟩ : Value).getUnsigned = v := getUnsigned_num (by omega)

theorem emit_one {b : Nat} {m : Mode} (hm : m ≠ .TRAP) (ha : addr < 65536) {r r' : Rd} {op : Operand} {a : Asm}
    {c : Nat} (h : Rel b addr m r r' op) (hs : Sync b a r c) :
    ∃ a', encodeOperand addr m op a = .ok a' ∧ Sync b a' r' c := by
  obtain ⟨k1, k2, k6, bs, k3, k4, k5⟩ := h
  obtain ⟨s1, s2, s4⟩ := hs
  have nop : ∀ {r' : Rd}, Took r r' [] → Sync b a r' c := fun t =>
    ⟨s1, s2, by rw [t.bytes, List.append_nil]; exact s4⟩
  have add : ∀ {bs : List Nat}, Took r r' bs → Sync b { a with ops := a.ops ++ bs } r' c := fun t =>
    ⟨s1, s2, by rw [t.bytes, s4]; rfl⟩
  have put : ∀ {v : Nat}, v < 256 → bs = [v] → op.val = ⟨v, .unsigned⟩ →
      Sync b (a.emit8 op.val.getUnsigned) r' c := by
    intro v hv hb ho
    subst hb
    rw [ho, getUnsigned_nat (by omega)]
    unfold Asm.emit8
    rw [show v % 256 = v by omega]
    exact add k3
  have put2 : ∀ {v : Nat}, v < 65536 → bs = [v / 256, v % 256] → op.val = ⟨v, .unsigned⟩ →
      Sync b (a.emit16be op.val.getUnsigned) r' c := by
    intro v hv hb ho
    subst hb
    rw [ho, getUnsigned_nat (by omega)]
    unfold Asm.emit16be
    rw [show v / 256 % 256 = v / 256 by omega]
    exact add k3
  unfold encodeOperand
  rw [k1, Asm.noError]
  cases m with
  | TRAP => exact absurd rfl hm
  | RN =>
    obtain ⟨v, h1, h2, h3, _⟩ := k5
    exact ⟨_, rfl, put h1 h2 h3⟩
  | PN | IM8 | IDIR =>
    obtain ⟨v, h1, h2, h3⟩ := k5
    exact ⟨_, rfl, put h1 h2 h3⟩
  | ABS | BIDX | IM16 | BIMM =>
    obtain ⟨v, h1, h2, h3⟩ := k5
    exact ⟨_, rfl, put2 h1 h2 h3⟩
  | REL =>
    obtain ⟨v, w, h1, h2, h3, h4, h5⟩ := k5
    have hl : r'.bytes.length = a.ops.length + 2 := by
      rw [k3.bytes, s4, h3]; simp
    have hbase : (addr + (if a.length = 0 then 2 else a.length + 1)) % Config.W = addr + r'.bytes.length := by
      unfold Asm.length Config.W
      by_cases h0 : a.ops = []
      · rw [if_pos h0, if_pos rfl, hl, h0]
        simp only [List.length_nil]
        omega
      · rw [if_neg h0, if_neg (by omega), hl]
        omega
    refine ⟨{ a with ops := a.ops ++ [v] }, ?_, ?_⟩
    · show encodeRelative addr op a = _
      unfold encodeRelative
      rw [hbase, k1]
      dsimp only
      rw [if_neg (by simp), h5, getUnsigned_nat h2]
      exact Asm.rel8_near (by decide) (by decide) h1 (by unfold Config.W; omega) (by omega) h4 s1
    · rw [h3] at k3
      exact add k3
  | _ =>
    have : bs = [] := k5
    subst this
    exact ⟨_, rfl, nop k3⟩

end

/-! ### The registers A and B by their numbers -/

/-- The modes the operands may be read with, the first one at the byte `n`, when none is `shortened`. -/
def choices (b : Nat) : List Mode → Nat → List (List Mode)
  | [], _ => [[]]
  | m :: ms, n =>
    ((pmodes m).filter fun x => !(m == .RN && (x == .A && (shortened b).contains (n, 0) ||
      x == .B && (shortened b).contains (n, 1)))).flatMap fun x => (choices b ms (n + size m)).map (x :: ·)

theorem chain_choices {b addr : Nat} : ∀ (ms : List Mode) (r r' : Rd) (ops : List Operand),
    Chain (Rel b addr) ms r r' ops → r'.err = .OK →
    (∀ p ∈ shortened b, r'.bytes[p.1]? ≠ some p.2) →
    ops.map (·.mode) ∈ choices b ms r.bytes.length ∧ r.bytes <+: r'.bytes
  | [], r, r', [], hc, _, _ => by
    have : r = r' := hc
    subst this
    exact ⟨List.mem_singleton.2 rfl, List.prefix_refl _⟩
  | m :: ms, r, r', op :: ops, hc, he, hx => by
    obtain ⟨r1, h1, h2⟩ := hc
    obtain ⟨ih1, ih2⟩ := chain_choices ms r1 r' ops h2 he hx
    obtain ⟨k1, k2, k6, bs, k3, k4, k5⟩ := h1
    have hp : r.bytes <+: r'.bytes := by
      obtain ⟨t, ht⟩ := ih2
      exact ⟨bs ++ t, by rw [← ht, k3.bytes, List.append_assoc]⟩
    refine ⟨?_, hp⟩
    have hsize : r1.bytes.length = r.bytes.length + size m := by
      rw [k3.bytes, List.length_append]
      congr 1
      cases m with
      | RN =>
        obtain ⟨v, _, h, _⟩ := k5
        rw [h]; rfl
      | PN | IM8 | IDIR =>
        obtain ⟨v, _, h, _⟩ := k5
        rw [h]; rfl
      | ABS | BIDX | IM16 | BIMM =>
        obtain ⟨v, _, h, _⟩ := k5
        rw [h]; rfl
      | REL =>
        obtain ⟨v, w, _, _, h, _⟩ := k5
        rw [h]; rfl
      | TRAP => rw [k5.1]; rfl
      | _ =>
        have : bs = [] := k5
        rw [this]; rfl
    rw [hsize] at ih1
    unfold choices
    rw [List.mem_flatMap]
    refine ⟨op.mode, List.mem_filter.2 ⟨k2, ?_⟩, List.mem_map.2 ⟨_, ih1, rfl⟩⟩
    by_cases hm : m = .RN
    · subst hm
      obtain ⟨v, _, h3, _, h4⟩ := k5
      have hat : r'.bytes[r.bytes.length]? = some v := by
        obtain ⟨t, ht⟩ := ih2
        rw [← ht, k3.bytes, h3, List.append_assoc, List.getElem?_append_right (Nat.le_refl _)]
        simp
      have no : ∀ x, v = x → (shortened b).contains (r.bytes.length, x) = false := by
        intro x hvx
        by_cases hc : (shortened b).contains (r.bytes.length, x) = true
        · exact absurd (by rw [hat, hvx]) (hx _ (List.contains_iff_mem.1 hc))
        · simpa using hc
      rcases h4 with h4 | ⟨h4, h5⟩ | ⟨h4, h5⟩
      · rw [h4]; rfl
      · rw [h4, no 0 h5]; rfl
      · rw [h4, no 1 h5]; rfl
    · have : (m == Mode.RN) = false := by simpa using hm
      rw [this]
      rfl

/-! ### The table -/

/-- The entry that is found is this one. -/
def rowIs (x : Out (Except Err Row)) (row : Row) : Bool :=
  match x with
  | .ok (.ok r) => decide (r = row)
  | _ => false

theorem rowIs_eq {x : Out (Except Err Row)} {row : Row} (h : rowIs x row = true) : x = .ok (.ok row) := by
  unfold rowIs at h
  split at h
  · rw [of_decide_eq_true h]
  · cases h

def nameOk (b : Nat) (row : Row) (up : Bool) : Bool :=
  nameB syntaxOf (row.name.map (letter up)) &&
  decide (hasOperand (row.name.map (letter up)) = .ok (decide (modes row ≠ []))) &&
  (choices b (modes row) 1).all fun ms => rowIs (searchName (row.name.map (letter up)) (pad 3 .NONE ms)) row

/-- What the table has to say for a code. -/
def codeOk (b : Nat) : Bool :=
  match searchOpCode b with
  | none => true
  | some row => rowOk b row && nameOk b row false && nameOk b row true

theorem codes_ok : ∀ b < 256, codeOk b = true := by decide +kernel

end Libasm.Cpu.Tms7000
