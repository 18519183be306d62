import Verif.Cpu.Kit
import Verif.Table.Props
import Verif.Cpu.Mos6502.Model
/-
How the MOS6502 assembler reads what its disassembler prints, and what it makes of it.
-/
namespace Libasm.Cpu.Mos6502
open Scan Number Number.Spec Eval
open Tables (Row)

theorem pairs (o : Opts) : Pairs .motorola .motorola o :=
  ⟨by decide, by decide, fun _ => Or.inr (Or.inr (by decide))⟩

theorem lexOk : LexOk lexer .motorola := by
  apply lexOk_of
  intro c hc s
  simp only [firsts, leads, List.map, List.headD, List.mem_append, List.mem_cons, List.not_mem_nil,
    or_false] at hc
  rcases hc with (h | h | h | h | h | h | h | h | h | h) | (h | h) <;> subst h <;>
    exact ⟨rfl, rfl, fun _ _ => rfl⟩

/-- The delimiters: nothing, or the closing bracket. -/
def delimOf : Ind → Char
  | .no => '\x00'
  | .indirect => ')'
  | .long => ']'

theorem ops (E : Env) (loc : Nat) (i : Ind) : Ops (lexer.plugins E (delimOf i) loc) :=
  ⟨rfl, ⟨opUnaryMinus, rfl, rfl, rfl, fun _ _ _ => rfl⟩, fun _ => rfl, fun _ => rfl, fun _ _ _ => rfl,
    fun _ => rfl,
    by show delimOf i ≠ '-' ∧ delimOf i ≠ '+'; cases i <;> decide⟩

theorem const_location (E : Env) (i : Ind) {loc : Nat} (hl : loc < 2 ^ 32) :
    Const (lexer.plugins E (delimOf i) loc) ['*'] ⟨loc, .unsigned⟩ := by
  apply const_loc
  · rfl
  · intro s hs
    refine ⟨rfl, rfl, ?_⟩
    have h1 : symbol false (deref s) = false := by
      cases s with
      | nil => rfl
      | cons d t =>
        have : ∀ d ∈ seps, symbol false d = false := by decide
        exact this d (hs d rfl)
    have e : locationSymbol symbol '*' ('*' :: s) = if symbol false (deref s) then none else some s := rfl
    show locationSymbol symbol '*' ('*' :: s) = some s
    rw [e, h1]
    rfl
  · exact fun _ => rfl
  · exact fun _ => rfl
  · exact fun _ _ _ => rfl
  · exact hl

/-! ### What follows an operand -/

/-- The end of the text, a comma or the closing bracket. -/
def After (i : Ind) (rest : List Char) : Prop :=
  rest = [] ∨ (∃ s, rest = ',' :: s) ∨ (i ≠ .no ∧ ∃ s, rest = delimOf i :: s)

theorem After.stop {i : Ind} {rest : List Char} (h : After i rest) (E : Env) (loc : Nat) :
    Sep rest ∧ Stop (lexer.plugins E (delimOf i) loc) rest := by
  rcases h with rfl | ⟨s, rfl⟩ | ⟨h, s, rfl⟩
  · exact ⟨Sep.nil, rfl, Or.inl rfl⟩
  · exact ⟨Sep.cons (by decide) _, rfl, Or.inr (Or.inr ⟨rfl, Or.inr rfl⟩)⟩
  · refine ⟨Sep.cons ?_ _, ?_, Or.inr (Or.inl rfl)⟩
    · cases i <;> first | exact absurd rfl h | decide
    · cases i <;> first | exact absurd rfl h | rfl

/-! ### Values -/

theorem overflow_eq {v max : Nat} (h : v < 2 ^ 32) {min : Int} (h0 : min ≤ 0) :
    (⟨v, .unsigned⟩ : Value).overflow max min = decide (max < v) := by
  have h1 : (⟨v, .unsigned⟩ : Value).overflowUint32 = false := by
    unfold Value.overflowUint32 Value.isUnsigned
    simp
    omega
  unfold Value.overflow
  rw [h1, getUnsigned_num h]
  unfold Value.isUnsigned
  have : ¬ min > 0 := by omega
  simp [this]

/-- How the value of an address without prefix is taken. -/
def kind (w : Nat) : Base := if 65535 < w then .ABSL else if 255 < w then .ABS else .DPG

theorem select_kind {w : Nat} (h : w < 2 ^ 32) : selectMode .no ⟨w, .unsigned⟩ .OK = kind w := by
  unfold selectMode kind
  rw [overflow_eq h (by decide), overflow_eq h (by decide)]
  simp only [decide_eq_true_eq, and_true]

/-- The first letters of values. -/
def heads : List Char := ['0', '1', '2', '3', '4', '5', '6', '7', '8', '9', '$', '@', '*']

/-- Text of value `w`, whatever the delimiter. -/
structure Expr (E : Env) (addr : Nat) (t : List Char) (w : Nat) : Prop where
  head : ∃ c s, t = c :: s ∧ c ∈ heads
  reads : ∀ i rest, After i rest →
    parseInteger (lexer.plugins E (delimOf i) addr) (t ++ rest) .OK = .ok (⟨w, .unsigned⟩, .OK, rest)

theorem expr_num {E : Env} {addr w : Nat} {t : List Char} (h : NumText .motorola .motorola t w) :
    Expr E addr t w := by
  refine ⟨?_, fun i rest hr => eval_const (const_of lexOk h E (delimOf i) addr) (hr.stop E addr).1 (hr.stop E addr).2⟩
  obtain ⟨c, s, h1, h2⟩ := lead_first h.lead
  have : ∀ c ∈ firsts .motorola, c ∈ heads := by decide
  exact ⟨c, s, h1, this c h2⟩

theorem expr_rel {E : Env} {addr w width bits : Nat} {o : Opts} (hsym : o.relative = true → o.curSym = '*')
    (hw : width ≤ 31) (hw0 : 1 ≤ width) (ha : addr < 2 ^ width) (ht : w < 2 ^ width)
    (hb : bits ≤ 32) (hb0 : 1 ≤ bits) (hd : ((w : Int) - addr).natAbs < 2 ^ bits) :
    Expr E addr (outRelAddr .motorola o width w addr bits) w := by
  have hs' : o.relative = true → letter o.upper o.curSym = '*' := by
    intro h
    rw [hsym h]
    cases o.upper <;> rfl
  have h32 : addr < 2 ^ 32 := by
    have := Nat.pow_le_pow_right (n := 2) (by decide) (show width ≤ 32 by omega)
    omega
  have key := fun i rest hr hs => rel_reads (E := E) (delim := delimOf i) (rest := rest) lexOk (pairs o)
    (ops E addr i) (by show ∀ c ∈ firsts .motorola, c ≠ delimOf i; cases i <;> decide)
    (by intro h; rw [hs' h]; exact const_location E i h32) (width := width) (bits := bits)
    hw hw0 ha ht hb hb0 hd hr hs
  refine ⟨?_, fun i rest hr => (key i rest (hr.stop E addr).1 (hr.stop E addr).2).1⟩
  have h0 : After .no [] := Or.inl rfl
  obtain ⟨c, s, h1, h2⟩ := (key .no [] (h0.stop E addr).1 (h0.stop E addr).2).2
  have : ∀ c ∈ firsts .motorola, c ∈ heads := by decide
  refine ⟨c, s, h1, ?_⟩
  rcases h2 with h2 | ⟨h2, h3⟩
  · exact this c h2
  · rw [h3, hs' h2]
    decide

/-! ### Reading operands -/

/-- The text of a size override. -/
def sizeText : Size → List Char
  | .no => []
  | .zp => ['<']
  | .abs => ['>']
  | .long => ['>', '>']

theorem head_first {c : Char} (s : List Char) (hc : c ∈ heads) :
    skipSpaces (c :: s) = c :: s ∧ Mc6800.starEnd (c :: s) = false ∧ expect '#' (c :: s) = none ∧
    expect '(' (c :: s) = none ∧ expect '[' (c :: s) = none ∧ expect '<' (c :: s) = none ∧
    expect '>' (c :: s) = none := by
  have key : ∀ d, c ≠ d → expect d (c :: s) = none := by
    intro d hd
    exact expect_none (by intro e he; injection he with he; exact he ▸ hd)
  have h : ∀ c ∈ heads, Ctype.isSpace c = false ∧ c ≠ '\x00' ∧ c ≠ ' ' ∧ c ≠ ';' ∧ c ≠ '#' ∧ c ≠ '(' ∧ c ≠ '[' ∧
      c ≠ '<' ∧ c ≠ '>' := by decide
  obtain ⟨h1, h2, h3, h4, h5, h6, h7, h8, h9⟩ := h c hc
  refine ⟨?_, ?_, key _ h5, key _ h6, key _ h7, key _ h8, key _ h9⟩
  · unfold skipSpaces trimStart
    rw [List.dropWhile_cons, h1]
    rfl
  · unfold Mc6800.starEnd
    simp only [deref, Bool.or_eq_false_iff, beq_eq_false_iff_ne]
    exact ⟨⟨h2, h3⟩, h4⟩

theorem regsOk : RegsOk registers := by decide

/-- A value with its size override: no blanks, no register, and the override is taken off. -/
theorem sized {E : Env} {addr w : Nat} {t : List Char} (h : Expr E addr t w) (z : Size) (rest : List Char) :
    skipSpaces (sizeText z ++ (t ++ rest)) = sizeText z ++ (t ++ rest) ∧
    Mc6800.starEnd (sizeText z ++ (t ++ rest)) = false ∧
    expect '#' (sizeText z ++ (t ++ rest)) = none ∧
    expect '(' (sizeText z ++ (t ++ rest)) = none ∧ expect '[' (sizeText z ++ (t ++ rest)) = none ∧
    searchText registers (sizeText z ++ (t ++ rest)) = .ok none ∧
    parseSizeOverride (sizeText z ++ (t ++ rest)) = (z, t ++ rest) := by
  obtain ⟨c, s, rfl, hc⟩ := h.head
  obtain ⟨h1, h2, h3, h4, h5, h6, h7⟩ := head_first (s ++ rest) hc
  cases z with
  | no =>
    refine ⟨h1, h2, h3, h4, h5, ?_, ?_⟩
    · by_cases hn : Table.isNameLetter c = true
      · have : Lead .motorola (c :: (s ++ rest)) := by
          have hd : ∀ c ∈ heads, Table.isNameLetter c = true → IsDigit 10 c := by decide
          exact Or.inl ⟨c, s ++ rest, hd c hc hn, rfl⟩
        exact reg_none regsOk (by decide) this
      · exact reg_none_head regsOk (by intro d hd; injection hd with hd; rw [← hd]; simpa using hn)
    · show parseSizeOverride (c :: (s ++ rest)) = _
      unfold parseSizeOverride
      rw [h6, h7]
      rfl
  | zp =>
    exact ⟨rfl, rfl, rfl, rfl, rfl, reg_none_head regsOk (by intro d hd; injection hd with hd; rw [← hd]; decide), rfl⟩
  | abs =>
    refine ⟨rfl, rfl, rfl, rfl, rfl, reg_none_head regsOk (by intro d hd; injection hd with hd; rw [← hd]; decide), ?_⟩
    show (match expect '>' (c :: (s ++ rest)) with | some q => (Size.long, q) | none => (Size.abs, c :: (s ++ rest))) = _
    rw [h7]
    rfl
  | long =>
    exact ⟨rfl, rfl, rfl, rfl, rfl, reg_none_head regsOk (by intro d hd; injection hd with hd; rw [← hd]; decide), rfl⟩

/-- The operand for the value `w`. -/
def opd (k : Base) (i : Ind) (w : Nat) : Operand := { mode := ⟨k, i⟩, val := ⟨w, .unsigned⟩ }

theorem ind_delim (i : Ind) : indOf (delimOf i) = i := by cases i <;> rfl

/-- The parsers of the assembler. -/
abbrev parsers (E : Env) (addr : Nat) : Char → Plugins Value := fun delim => lexer.plugins E delim addr

theorem value_reads {E : Env} {addr w : Nat} {t : List Char} (h : Expr E addr t w) (z : Size) (i : Ind)
    {rest : List Char} (hr : After i rest) :
    parseOperand (parsers E addr) (opening i ++ (sizeText z ++ (t ++ rest))) '\x00' =
      closeOperand (opd (selectMode z ⟨w, .unsigned⟩ .OK) i w) (opening i ++ (sizeText z ++ (t ++ rest))) rest
        (delimOf i) := by
  obtain ⟨h1, h2, h3, h4, h5, h6, h7⟩ := sized h z rest
  have e := h.reads i rest hr
  have heol : ∀ s, (parsers E addr '\x00').endOfLine s = Mc6800.starEnd s := fun _ => rfl
  have body : ∀ scan, ((searchText registers (skipSpaces (sizeText z ++ (t ++ rest)))).bind fun
        | some (reg, p) => closeOperand { mode := ⟨reg, indOf (delimOf i)⟩ } scan p (delimOf i)
        | none =>
          let (size, p) := parseSizeOverride (skipSpaces (sizeText z ++ (t ++ rest)))
          (parseInteger (parsers E addr (delimOf i)) p .OK).bind fun (val, err, p) =>
          if hasError err then .ok ({ err := err, val := val }, scan, delimOf i)
          else closeOperand { err := err, mode := ⟨selectMode size val err, indOf (delimOf i)⟩, val := val } scan p
            (delimOf i)) =
      closeOperand (opd (selectMode z ⟨w, .unsigned⟩ .OK) i w) scan rest (delimOf i) := by
    intro scan
    rw [h1, h6, Out.ok_bind]
    dsimp only
    rw [h7]
    dsimp only
    rw [e, Out.ok_bind]
    dsimp only
    rw [if_neg (by decide), ind_delim]
    rfl
  unfold parseOperand
  cases i with
  | no =>
    show (if (parsers E addr '\x00').endOfLine (skipSpaces (sizeText z ++ (t ++ rest))) then _ else _) = _
    dsimp only
    rw [show opening .no ++ (sizeText z ++ (t ++ rest)) = sizeText z ++ (t ++ rest) from rfl]
    rw [h1, heol, h2, if_neg (by decide), h3]
    dsimp only
    unfold parseOpenIndirect
    rw [h4]
    dsimp only
    rw [h5]
    dsimp only
    exact body _
  | indirect => exact body _
  | long => exact body _

theorem close_no (op : Operand) (scan p : Scan) : closeOperand op scan p '\x00' = .ok (op, p, '\x00') := rfl

theorem close_here (op : Operand) (scan : Scan) (i : Ind) (rest : List Char) :
    closeOperand op scan (closing i ++ rest) (delimOf i) = .ok (op, rest, '\x00') := by
  cases i <;> rfl

theorem close_later (op : Operand) (scan : Scan) (i : Ind) (rest : List Char) :
    closeOperand op scan (',' :: rest) (delimOf i) = .ok (op, ',' :: rest, delimOf i) := by
  cases i <;> rfl

/-- The letter of a register. -/
def regLetter : Base → Char
  | .REGA => 'A'
  | .REGX => 'X'
  | .REGY => 'Y'
  | _ => 'S'

def isReg (m : Base) : Prop := m = .REGA ∨ m = .REGX ∨ m = .REGY ∨ m = .REGS

theorem regText_letter {m : Base} (h : isReg m) (o : Opts) :
    outText o (regText registers m) = [letter o.upper (regLetter m)] := by
  unfold outText
  rcases h with rfl | rfl | rfl | rfl <;> cases o.upper <;> rfl

/-- A register before a separator. -/
theorem reg_reads (E : Env) (addr : Nat) {m : Base} (h : isReg m) (up : Bool) (i : Ind) {rest : List Char}
    (hr : Sep rest) :
    parseOperand (parsers E addr) (letter up (regLetter m) :: rest) (delimOf i) =
      closeOperand { mode := ⟨m, i⟩ } (letter up (regLetter m) :: rest) rest (delimOf i) := by
  have h1 : searchText registers ([letter up (regLetter m)] ++ rest) = .ok (some (m, rest)) := by
    apply reg_found regsOk ?_ hr ?_
    · rcases h with rfl | rfl | rfl | rfl <;> cases up <;> decide
    · rcases h with rfl | rfl | rfl | rfl <;> cases up <;> decide
  have h2 : skipSpaces (letter up (regLetter m) :: rest) = letter up (regLetter m) :: rest := by
    rcases h with rfl | rfl | rfl | rfl <;> cases up <;> rfl
  have h3 : Mc6800.starEnd (letter up (regLetter m) :: rest) = false ∧
      expect '#' (letter up (regLetter m) :: rest) = none ∧
      parseOpenIndirect (letter up (regLetter m) :: rest) (delimOf i) =
        some (letter up (regLetter m) :: rest, delimOf i) := by
    rcases h with rfl | rfl | rfl | rfl <;> cases up <;> exact ⟨rfl, rfl, rfl⟩
  have heol : ∀ s, (parsers E addr '\x00').endOfLine s = Mc6800.starEnd s := fun _ => rfl
  unfold parseOperand
  rw [h2]
  dsimp only
  rw [heol, h3.1, if_neg (by decide), h3.2.1]
  dsimp only
  rw [h3.2.2]
  dsimp only
  rw [h2, show letter up (regLetter m) :: rest = [letter up (regLetter m)] ++ rest from rfl, h1, Out.ok_bind]
  dsimp only
  rw [ind_delim]

theorem next_nil (P : Char → Plugins Value) (c : Char) : parseNext P [] c = .ok ({}, [], c) := rfl

theorem next_comma (P : Char → Plugins Value) (s : List Char) (c : Char) :
    parseNext P (',' :: s) c = parseOperand P s c := rfl

theorem parse_blank (P : Char → Plugins Value) (s : List Char) (c : Char) :
    parseOperand P (' ' :: s) c = parseOperand P s c := by
  unfold parseOperand
  have : skipSpaces (' ' :: s) = skipSpaces s := rfl
  rw [this]

theorem imm_reads {E : Env} {addr w : Nat} {t : List Char} (h : Expr E addr t w) :
    parseOperand (parsers E addr) ('#' :: t) '\x00' = .ok (opd .IMA .no w, [], '\x00') := by
  have e := h.reads .no [] (Or.inl rfl)
  obtain ⟨c, s, rfl, hc⟩ := h.head
  obtain ⟨h1, h2, h3, h4, h5, h6, h7⟩ := head_first s hc
  rw [List.append_nil] at e
  show parseImmediate (parsers E addr) ('#' :: c :: s) (c :: s) '\x00' = _
  unfold parseImmediate
  rw [h6, h7]
  dsimp only [Option.isSome]
  rw [if_neg (by decide)]
  show ((parseInteger (lexer.plugins E (delimOf .no) addr) (c :: s) .OK).bind _) = _
  rw [e, Out.ok_bind]
  rfl

/-- When the three operands are read. -/
theorem encode_three {P : Char → Plugins Value} {cfg : Cfg} {cpu : CpuType} {addr : Nat} {name : List Char}
    {scan s1 s2 s3 : Scan} {op1 op2 op3 : Operand} {i1 i3 : Char} (hn : hasOperand cpu name = .ok true)
    (h1 : parseOperand P scan '\x00' = .ok (op1, s1, i1)) (e1 : op1.err = .OK)
    (h2 : parseNext P s1 i1 = .ok (op2, s2, '\x00')) (e2 : op2.err = .OK)
    (h3 : parseNext P s2 '\x00' = .ok (op3, s3, i3)) (e3 : op3.err = .OK) :
    encodeImpl P cfg cpu addr name scan = encodeInsn cfg cpu addr name op1 op2 op3 (skipSpaces s3) := by
  unfold encodeImpl
  rw [hn, Out.ok_bind, if_pos rfl, h1, Out.ok_bind]
  dsimp only
  rw [e1, if_neg (by decide), h2, Out.ok_bind]
  dsimp only
  rw [e2, if_neg (by decide), if_neg (by decide), h3, Out.ok_bind]
  dsimp only
  rw [e3, if_neg (by decide)]

/-! ### What is printed of a value -/

/-- The modes the assembler can take the value of an operand for. -/
def kinds (opc : Nat) : Base → List Base
  | .DPG => [.DPG]
  | .ABS => [.ABS]
  | .ABSL => if opc = 0x22 then [.DPG, .ABS, .ABSL] else [.ABSL]
  | .REL | .LREL | .BANK => [.DPG, .ABS, .ABSL]
  | .IMA | .IMX | .IM8 => [.IMA]
  | _ => []

/-- The bytes of the operand; `long` for a word after `#`. -/
def bytesOf (long : Bool) (m : Base) (v : Nat) : List Nat :=
  match m with
  | .DPG | .REL => [v]
  | .ABS | .LREL => [v % 256, v / 256]
  | .ABSL => [v % 256, v / 256 % 256, v / 65536]
  | .IMA | .IMX | .IM8 => if long then [v % 256, v / 256] else [v]
  | _ => []

/-- `w` is the value shown for the operand `v`, `next` the address of the byte after it. -/
def Shown (cpu : CpuType) (m : Base) (addr next v w : Nat) : Prop :=
  match m with
  | .REL => v < 256 ∧ (w : Int) = next + int8 v ∧ w < 2 ^ width cpu ∧
      (bankModel cpu = true → Config.checkAddrSeg (width cpu) w addr 16 false = some .OK)
  | .LREL => v < 65536 ∧ (w : Int) = next + int16 v ∧ w < 2 ^ width cpu ∧
      (bankModel cpu = true → Config.checkAddrSeg (width cpu) w addr 16 false = some .OK)
  | .ABS => v < 65536 ∧ w = v
  | .ABSL => v < 2 ^ width cpu ∧ w = v
  | _ => v < 256 ∧ w = v

/-- The text printed of a value can be read. -/
structure Reads (E : Env) (cpu : CpuType) (m : Base) (addr opc : Nat) (r r' : Rd) (txt : List Char) (z : Size)
    (t : List Char) (v w : Nat) : Prop where
  text : txt = sizeText z ++ t
  expr : Expr E addr t w
  kind : selectMode z ⟨w, .unsigned⟩ .OK ∈ kinds opc m
  shown : Shown cpu m addr (addr + r'.bytes.length) v w
  took : Took r r' (bytesOf false m v)

theorem int8_range (v : Nat) (h : v < 256) : -128 ≤ int8 v ∧ int8 v < 128 := by
  unfold int8
  split <;> omega

theorem int16_range (v : Nat) (h : v < 65536) : -32768 ≤ int16 v ∧ int16 v < 32768 := by
  unfold int16
  split <;> omega

theorem width_le (cpu : CpuType) : 16 ≤ width cpu ∧ width cpu ≤ 24 := by
  cases cpu <;> decide

theorem pow_width (cpu : CpuType) : 65536 ≤ 2 ^ width cpu ∧ 2 ^ width cpu ≤ 16777216 := by
  cases cpu <;> decide

theorem checkAddr_small {w x : Nat} (hw : w ≤ 24) (hx : x < 2 ^ 32) (h : Config.checkAddr w x false = .OK) :
    x < 2 ^ w := by
  rw [Config.checkAddr_eq false (by omega) (by unfold Config.W; omega)] at h
  split at h
  · cases h
  · omega

theorem seg_small {w x a s : Nat} (hw : w ≤ 24) (hx : x < 2 ^ 32) (h : Config.checkAddrSeg w x a s false = some .OK) :
    x < 2 ^ w := by
  unfold Config.checkAddrSeg at h
  split at h
  · cases h
  · dsimp only at h
    split at h
    · rename_i h1
      injection h with h
      exact absurd h h1
    · rename_i h1
      exact checkAddr_small hw hx (by simpa using h1)

theorem seg_some (w x a : Nat) : ∃ e, Config.checkAddrSeg w x a 16 false = some e := by
  unfold Config.checkAddrSeg
  rw [if_neg (by decide)]
  dsimp only
  split
  · exact ⟨_, rfl⟩
  · exact ⟨_, rfl⟩

theorem kind_any (w : Nat) : kind w ∈ [Base.DPG, .ABS, .ABSL] := by
  unfold kind
  split
  · decide
  · split <;> decide

/-- The target of a branch. -/
theorem target_reads {E : Env} {o : Opts} (hsym : o.relative = true → o.curSym = '*') {cpu : CpuType}
    {addr bits : Nat} {delta : Int} {r' : Rd} (ha : addr < 2 ^ width cpu) (hlen : r'.bytes.length < 100)
    (hd : -32768 ≤ delta ∧ delta < 32768) (hb : bits = 8 ∨ bits = 16)
    (hbits : bits = 8 → -128 ≤ delta ∧ delta < 128)
    (h : (decodeTarget o cpu addr delta bits r').2.err = .OK) :
    r'.err = .OK ∧ ∃ w : Nat, (w : Int) = ((addr + r'.bytes.length : Nat) : Int) + delta ∧ w < 2 ^ width cpu ∧
      (bankModel cpu = true → Config.checkAddrSeg (width cpu) w addr 16 false = some .OK) ∧
      Expr E addr (decodeTarget o cpu addr delta bits r').1 w := by
  obtain ⟨w1, w2⟩ := width_le cpu
  obtain ⟨p1, p2⟩ := pow_width cpu
  unfold decodeTarget at h ⊢
  dsimp only at h ⊢
  generalize hT : (((addr + r'.bytes.length : Nat) : Int) + delta) % Config.W = T at *
  obtain ⟨g1, g2⟩ := setErrorIf_ok h
  have hT0 : T.toNat < 2 ^ 32 := by unfold Config.W at hT; omega
  have hsmall : T.toNat < 2 ^ width cpu ∧
      (bankModel cpu = true → Config.checkAddrSeg (width cpu) T.toNat addr 16 false = some .OK) := by
    by_cases hm : bankModel cpu = true
    · rw [if_pos hm] at g2
      obtain ⟨e, he⟩ := seg_some (width cpu) T.toNat addr
      rw [he] at g2
      have g2 : e = .OK := g2
      subst g2
      exact ⟨seg_small w2 hT0 he, fun _ => he⟩
    · rw [if_neg hm] at g2
      exact ⟨checkAddr_small w2 hT0 g2, fun h => absurd h hm⟩
  have hsh : (T.toNat : Int) = ((addr + r'.bytes.length : Nat) : Int) + delta := by
    unfold Config.W at hT
    omega
  refine ⟨g1, T.toNat, hsh, hsmall.1, hsmall.2, ?_⟩
  apply expr_rel hsym (by omega) (by omega) ha hsmall.1
  · rcases hb with rfl | rfl <;> decide
  · rcases hb with rfl | rfl <;> decide
  · rcases hb with rfl | rfl
    · have := hbits rfl
      omega
    · omega

/-- The modes of values outside `#`. -/
def isValue (m : Base) : Prop := m = .DPG ∨ m = .ABS ∨ m = .ABSL ∨ m = .REL ∨ m = .LREL

theorem operand_reads {E : Env} {o : Opts} (hsym : o.relative = true → o.curSym = '*') {cfg : Cfg} {cpu : CpuType}
    {m : Base} {addr opc : Nat} {r : Rd} (hm : isValue m) (ha : addr < 2 ^ width cpu)
    (hlen : r.bytes.length < 90) (hmem : ∀ x ∈ r.mem, x < 256)
    (h : (decodeOperand o cfg cpu addr opc m r).2.err = .OK) :
    ∃ z t v w, Reads E cpu m addr opc r (decodeOperand o cfg cpu addr opc m r).2
      (decodeOperand o cfg cpu addr opc m r).1 z t v w := by
  have hP := pairs o
  obtain ⟨w1, w2⟩ := width_le cpu
  obtain ⟨p1, p2⟩ := pow_width cpu
  rcases hm with rfl | rfl | rfl | rfl | rfl <;> unfold decodeOperand at h ⊢ <;> dsimp only at h ⊢
  · obtain ⟨h1, h2⟩ := byte_took hmem h
    have e := expr_num (E := E) (addr := addr) (outAbsAddr_num hP r.byte.1 8 h1 (by decide) (by decide))
    refine ⟨.no, _, r.byte.1, r.byte.1, rfl, e, ?_, ⟨h1, rfl⟩, h2⟩
    rw [select_kind (by omega)]
    unfold kind
    rw [if_neg (by omega), if_neg (by omega)]
    exact List.mem_cons_self ..
  · obtain ⟨h1, h2⟩ := le16_took hmem h
    have e := expr_num (E := E) (addr := addr) (outAbsAddr_num hP r.le16.1 16 h1 (by decide) (by decide))
    unfold decodeAbsolute
    dsimp only
    by_cases hs : r.le16.1 < 0x100
    · rw [if_pos hs]
      exact ⟨.abs, _, r.le16.1, r.le16.1, rfl, e, List.mem_cons_self .., ⟨h1, rfl⟩, h2⟩
    · rw [if_neg hs]
      refine ⟨.no, _, r.le16.1, r.le16.1, rfl, e, ?_, ⟨h1, rfl⟩, h2⟩
      rw [select_kind (by omega)]
      unfold kind
      rw [if_neg (by omega), if_pos (by omega)]
      exact List.mem_cons_self ..
  · unfold decodeAbsoluteLong at h ⊢
    dsimp only at h ⊢
    obtain ⟨g1, g2⟩ := setErrorIf_ok h
    obtain ⟨h1, h2⟩ := byte_took (le16_mem hmem) g1
    obtain ⟨h3, h4⟩ := le16_took hmem h2.err
    generalize hT : r.le16.2.byte.1 * 65536 + r.le16.1 = T at *
    have hsm := checkAddr_small w2 (by omega) g2
    have e := expr_num (E := E) (addr := addr) (outAbsAddr_num hP T (width cpu) hsm (by omega) (by omega))
    have tk : Took r r.le16.2.byte.2 [T % 256, T / 256 % 256, T / 65536] := by
      have := h4.trans h2
      rw [show T % 256 = r.le16.1 % 256 by omega, show T / 256 % 256 = r.le16.1 / 256 by omega,
        show T / 65536 = r.le16.2.byte.1 by omega]
      exact this
    have tk' : Took r (r.le16.2.byte.2.setErrorIf (Config.checkAddr (width cpu) T false))
      [T % 256, T / 256 % 256, T / 65536] := ⟨tk.err, tk.mem, tk.bytes⟩
    by_cases hj : opc = 0x22
    · rw [if_pos hj]
      refine ⟨.no, _, T, T, rfl, e, ?_, ⟨hsm, rfl⟩, tk'⟩
      rw [select_kind (by omega)]
      unfold kinds
      rw [if_pos hj]
      exact kind_any T
    · rw [if_neg hj]
      by_cases hs : T < 0x10000
      · rw [if_pos hs]
        refine ⟨.long, _, T, T, rfl, e, ?_, ⟨hsm, rfl⟩, tk'⟩
        unfold kinds
        rw [if_neg hj]
        exact List.mem_cons_self ..
      · rw [if_neg hs]
        refine ⟨.no, _, T, T, rfl, e, ?_, ⟨hsm, rfl⟩, tk'⟩
        rw [select_kind (by omega)]
        unfold kinds
        rw [if_neg hj]
        unfold kind
        rw [if_pos (by omega)]
        exact List.mem_cons_self ..
  · unfold decodeRelative at h ⊢
    rw [if_neg (by decide)] at h ⊢
    have hpre : r.byte.2.err = .OK := (setErrorIf_ok h).1
    obtain ⟨h1, h2⟩ := byte_took hmem hpre
    have hi := int8_range _ h1
    have hl : r.byte.2.bytes.length = r.bytes.length + 1 := by rw [h2.bytes]; simp
    obtain ⟨_, w, t1, t2, t3, t4⟩ := target_reads (E := E) hsym ha (by omega) (by omega) (Or.inl rfl) (fun _ => hi) h
    refine ⟨.no, _, r.byte.1, w, rfl, t4, ?_, ⟨h1, t1, t2, t3⟩, ⟨h2.err, h2.mem, h2.bytes⟩⟩
    rw [select_kind (by omega)]
    exact kind_any w
  · unfold decodeRelative at h ⊢
    rw [if_pos rfl] at h ⊢
    have hpre : r.le16.2.err = .OK := (setErrorIf_ok h).1
    obtain ⟨h1, h2⟩ := le16_took hmem hpre
    have hi := int16_range _ h1
    have hl : r.le16.2.bytes.length = r.bytes.length + 2 := by rw [h2.bytes]; simp
    obtain ⟨_, w, t1, t2, t3, t4⟩ := target_reads (E := E) hsym ha (by omega) hi (Or.inr rfl)
      (fun h => absurd h (by decide)) h
    refine ⟨.no, _, r.le16.1, w, rfl, t4, ?_, ⟨h1, t1, t2, t3⟩, ⟨h2.err, h2.mem, h2.bytes⟩⟩
    rw [select_kind (by omega)]
    exact kind_any w

/-! ### Encoding -/

theorem noError (a : Asm) : a.setErrorIf .OK = a := by
  unfold Asm.setErrorIf Config.setErrorIf
  simp

theorem emit8_eq (a : Asm) {x : Nat} (h : x < 256) : a.emit8 x = { a with ops := a.ops ++ [x] } := by
  unfold Asm.emit8
  rw [Nat.mod_eq_of_lt h]

theorem emit16_eq (a : Asm) {x : Nat} (h : x < 65536) :
    a.emit16 x = { a with ops := a.ops ++ [x % 256, x / 256] } := by
  unfold Asm.emit16
  rw [Nat.mod_eq_of_lt (a := x / 256) (by omega)]

theorem imm_emit (op : Operand) (long : Bool) (a : Asm) {w : Nat} (ho : op.val = ⟨w, .unsigned⟩)
    (hw : w < if long then 65536 else 256) :
    emitImmediate op long a = { a with ops := a.ops ++ if long then [w % 256, w / 256] else [w] } := by
  unfold emitImmediate Value.overflowUint8 Value.overflowUint16
  rw [ho]
  cases long with
  | true =>
    have hw : w < 65536 := hw
    rw [if_pos rfl, overflow_num (by omega) (by omega) (by omega), if_neg (by decide), getUnsigned_num (by omega),
      emit16_eq _ hw]
    rfl
  | false =>
    have hw : w < 256 := hw
    rw [if_neg (by decide), overflow_num (by omega) (by omega) (by omega), if_neg (by decide),
      getUnsigned_num (by omega), emit8_eq _ hw]
    rfl

theorem bank_ok {cpu : CpuType} {addr base w : Nat} {op : Operand} {a : Asm} (hw : w < 2 ^ width cpu)
    (hb : bankModel cpu = true → Config.checkAddrSeg (width cpu) w addr 16 false = some .OK)
    (ho : op.err = .OK ∧ op.val = ⟨w, .unsigned⟩) : checkBank cpu addr base op a = .ok (w, a) := by
  obtain ⟨p1, p2⟩ := pow_width cpu
  unfold checkBank
  rw [ho.1, ho.2]
  dsimp only
  rw [if_neg (not_not_intro (rfl : Err.OK = .OK)), getUnsigned_num (by omega)]
  by_cases h : bankModel cpu = true
  · rw [if_pos h, hb h]
    show Out.bind (.ok _) _ = _
    rw [Out.ok_bind, noError]
  · rw [if_neg h]

theorem delta_ok {cpu : CpuType} {base w : Nat} {a : Asm} (he : a.err = .OK) (hb : base < 2 ^ 25)
    (hw : w < 2 ^ width cpu) (hd : -32768 ≤ (w : Int) - base ∧ (w : Int) - base < 32768) :
    delta cpu base w a = .ok ((w : Int) - base, a) := by
  obtain ⟨w1, w2⟩ := width_le cpu
  have hp : 32768 ≤ 2 ^ (width cpu - 1) := by cases cpu <;> decide
  unfold delta
  rw [he, branch_near (by omega) (by omega) (by unfold Config.W; omega) hw (by omega) (by omega)]
  show Out.bind (.ok _) _ = _
  rw [Out.ok_bind]
  dsimp only
  rw [← he]

theorem emit_short {cpu : CpuType} {base v w : Nat} {a : Asm} (he : a.err = .OK) (hb : base < 2 ^ 25)
    (hv : v < 256) (hw : w < 2 ^ width cpu) (hs : (w : Int) = base + int8 v) :
    shortBranch cpu base w a = .ok { a with ops := a.ops ++ [v] } := by
  have hi := int8_range v hv
  unfold shortBranch
  rw [delta_ok he hb hw (by omega), Out.ok_bind]
  dsimp only
  rw [show (w : Int) - base = int8 v by omega, Config.overflowDelta_eq (by decide) (by decide)]
  show Out.bind (.ok _) _ = _
  rw [Out.ok_bind, if_neg (by
    simp only [Nat.reduceSub, Nat.reducePow, decide_eq_true_eq]
    omega)]
  have h1 : (int8 v % 256).toNat = v := by
    unfold int8
    split <;> omega
  rw [h1, emit8_eq _ hv]

theorem emit_long {cpu : CpuType} {addr v w : Nat} {a : Asm} {op : Operand} (he : a.err = .OK) (ha : addr < 2 ^ 24)
    (hv : v < 65536) (hw : w < 2 ^ width cpu) (hs : (w : Int) = ((addr + 3 : Nat) : Int) + int16 v)
    (hb : bankModel cpu = true → Config.checkAddrSeg (width cpu) w addr 16 false = some .OK)
    (ho : op.err = .OK ∧ op.val = ⟨w, .unsigned⟩) :
    longBranch cpu addr op a = .ok { a with ops := a.ops ++ [v % 256, v / 256] } := by
  have hi := int16_range v hv
  unfold longBranch
  dsimp only
  rw [Nat.mod_eq_of_lt (show addr + 3 < Config.W by unfold Config.W; omega), bank_ok hw hb ho, Out.ok_bind]
  dsimp only
  rw [delta_ok he (by omega) hw (by omega), Out.ok_bind]
  dsimp only
  rw [show (w : Int) - (addr + 3 : Nat) = int16 v by omega]
  have h1 : (int16 v % 65536).toNat = v := by
    unfold int16
    split <;> omega
  rw [h1, emit16_eq _ hv]

/-- The operand of a value is emitted as the bytes it was printed for. -/
theorem emit_value {cfg : Cfg} {cpu : CpuType} {m k : Base} {i : Ind} {addr next v w : Nat} {a : Asm}
    (hsm : cfg.smart = false) (hm : isValue m)
    (ha : addr < 2 ^ 24) (hw : Shown cpu m addr next v w) (he : a.err = .OK)
    (hn : m = .REL ∨ m = .LREL → addr + 1 + a.ops.length + (bytesOf false m v).length = next)
    (hn' : m = .LREL → a.ops = []) (hl : a.ops.length < 10) :
    encodeOperand cfg cpu addr m (opd k i w) a = .ok { a with ops := a.ops ++ bytesOf false m v } := by
  obtain ⟨p1, p2⟩ := pow_width cpu
  have hlen : (if a.length = 0 then 1 else a.length) = 1 + a.ops.length := by
    unfold Asm.length
    cases a.ops with
    | nil => rfl
    | cons c t => simp
  rcases hm with rfl | rfl | rfl | rfl | rfl
  · obtain ⟨h1, rfl⟩ := hw
    show Out.ok (emitImmediate _ false a) = _
    rw [imm_emit _ false a (w := w) rfl h1]
    rfl
  · obtain ⟨h1, rfl⟩ := hw
    show Out.ok (emitImmediate _ true a) = _
    rw [imm_emit _ true a (w := w) rfl h1]
    rfl
  · obtain ⟨h1, rfl⟩ := hw
    unfold encodeOperand opd
    dsimp only
    rw [getUnsigned_num (by omega), address_ok (by have := width_le cpu; omega) h1, if_neg (by simp)]
    unfold Asm.emit8 Asm.emit16 bytesOf
    simp only [List.append_assoc, List.cons_append, List.nil_append]
    rw [Nat.mod_eq_of_lt (a := w / 65536) (by omega)]
  · obtain ⟨h1, h2, h3, h4⟩ := hw
    have hn := hn (Or.inl rfl)
    have hn : addr + 1 + a.ops.length + 1 = next := hn
    show encodeRelative cfg cpu addr .REL _ a = _
    unfold encodeRelative
    dsimp only
    rw [hlen, Nat.mod_eq_of_lt (by unfold Config.W; omega), bank_ok h3 h4 ⟨rfl, rfl⟩, Out.ok_bind]
    dsimp only
    rw [hsm, if_pos ⟨rfl, by simp⟩]
    exact emit_short he (by omega) h1 h3 (by omega)
  · obtain ⟨h1, h2, h3, h4⟩ := hw
    have hn := hn (Or.inr rfl)
    have h0 := hn' rfl
    rw [h0] at hn
    have hn : addr + 1 + 0 + 2 = next := hn
    show encodeRelative cfg cpu addr .LREL _ a = _
    unfold encodeRelative
    dsimp only
    rw [hlen, Nat.mod_eq_of_lt (by unfold Config.W; omega), bank_ok h3 h4 ⟨rfl, rfl⟩, Out.ok_bind]
    dsimp only
    rw [hsm, if_neg (by simp), if_pos ⟨rfl, by simp⟩]
    exact emit_long he (by omega) h1 h3 (by omega) h4 ⟨rfl, rfl⟩

/-! ### The instruction table -/

/-- How the operands are laid out. -/
inductive Shape
  | none
  | regA
  | imm (m : Base)
  | bank
  | bit
  | mem (m : Base) (i : Ind) (tail : Base)
  | inX (m : Base)
  | inSY
deriving DecidableEq

def flagsOf : Shape → Flags
  | .none => ⟨none_, none_, none_⟩
  | .regA => ⟨⟨.REGA, .no⟩, none_, none_⟩
  | .imm m => ⟨⟨m, .no⟩, none_, none_⟩
  | .bank => ⟨⟨.BANK, .no⟩, ⟨.BANK, .no⟩, none_⟩
  | .bit => ⟨⟨.DPG, .no⟩, ⟨.REL, .no⟩, none_⟩
  | .mem m i tail => ⟨⟨m, i⟩, ⟨tail, .no⟩, none_⟩
  | .inX m => ⟨⟨m, .indirect⟩, ⟨.REGX, .indirect⟩, none_⟩
  | .inSY => ⟨⟨.DPG, .indirect⟩, ⟨.REGS, .indirect⟩, ⟨.REGY, .no⟩⟩

/-- All layouts there are. -/
def shapes (cpu : CpuType) : List Shape :=
  [.none, .regA, .imm .IMA, .imm .IMX, .imm .IM8, .bit, .inX .DPG, .inX .ABS, .inSY] ++
  (if cpu = .W65C816 then [.bank] else []) ++
  [Base.DPG, .ABS, .ABSL, .REL, .LREL].flatMap fun m => [Ind.no, .indirect, .long].flatMap fun i =>
    [Base.NONE, .REGX, .REGY, .REGS].map fun t => .mem m i t

/-- The modes the assembler may read for the mode `m` of the table. -/
def modesOf (opc : Nat) (m : Mode) : List Mode :=
  match m.base with
  | .NONE | .REGA | .REGX | .REGY | .REGS => [m]
  | b => (kinds opc b).map fun k => ⟨k, m.ind⟩

def rowIs (x : Out (Except Err Row)) (row : Row) : Bool :=
  match x with
  | .ok (.ok r) => decide (r = row)
  | _ => false

/-- What the table must satisfy for the code `b`: it is found under its name. -/
def factB (cpu : CpuType) (b : Nat) (row : Row) (up : Bool) : Bool :=
  let f := flags row
  let name := row.name.map (letter up)
  nameB syntaxOf name &&
  decide (hasOperand cpu name = .ok (decide (f.mode1 ≠ none_))) &&
  (modesOf b f.mode1).all (fun x => (modesOf b f.mode2).all fun y =>
    (modesOf b f.mode3).all fun z => rowIs (searchName cpu name x y z) row) &&
  decide (row.opcode = b) &&
  (shapes cpu).any (fun s => decide (f = flagsOf s))

def allB (cpu : CpuType) (indirectLong : Bool) (b : Nat) : Bool :=
  match searchOpCode cpu indirectLong b with
  | .none => true
  | some row => factB cpu b row true && factB cpu b row false

theorem codes_mos6502 : ∀ l, ∀ b < 256, allB .MOS6502 l b = true := by decide +kernel
theorem codes_g65sc02 : ∀ l, ∀ b < 256, allB .G65SC02 l b = true := by decide +kernel
theorem codes_r65c02 : ∀ l, ∀ b < 256, allB .R65C02 l b = true := by decide +kernel
theorem codes_w65c02s : ∀ l, ∀ b < 256, allB .W65C02S l b = true := by decide +kernel
theorem codes_w65c816 : ∀ l, ∀ b < 256, allB .W65C816 l b = true := by decide +kernel

structure Fact (cpu : CpuType) (b : Nat) (row : Row) (up : Bool) : Prop where
  name : nameB syntaxOf (row.name.map (letter up)) = true
  has : hasOperand cpu (row.name.map (letter up)) = .ok (decide ((flags row).mode1 ≠ none_))
  found : ∀ x ∈ modesOf b (flags row).mode1, ∀ y ∈ modesOf b (flags row).mode2,
    ∀ z ∈ modesOf b (flags row).mode3, searchName cpu (row.name.map (letter up)) x y z = .ok (.ok row)
  code : row.opcode = b
  shape : ∃ s ∈ shapes cpu, flags row = flagsOf s

theorem fact_of {cpu : CpuType} {b : Nat} {row : Row} {up : Bool} (h : factB cpu b row up = true) :
    Fact cpu b row up := by
  unfold factB at h
  simp only [Bool.and_eq_true, decide_eq_true_eq, List.all_eq_true, List.any_eq_true] at h
  obtain ⟨⟨⟨⟨h1, h2⟩, h3⟩, h4⟩, h5⟩ := h
  refine ⟨h1, h2, ?_, h4, h5⟩
  intro x hx y hy z hz
  have := h3 x hx y hy z hz
  unfold rowIs at this
  split at this
  · rename_i r e
    rw [e, of_decide_eq_true this]
  · cases this

theorem fact {cpu : CpuType} {l : Bool} {b : Nat} {row : Row} (hb : b < 256)
    (h : searchOpCode cpu l b = some row) (up : Bool) : Fact cpu b row up := by
  have key : allB cpu l b = true := by
    cases cpu
    · exact codes_mos6502 l b hb
    · exact codes_g65sc02 l b hb
    · exact codes_r65c02 l b hb
    · exact codes_w65c02s l b hb
    · exact codes_w65c816 l b hb
  unfold allB at key
  rw [h] at key
  simp only [Bool.and_eq_true] at key
  cases up
  · exact fact_of key.2
  · exact fact_of key.1

/-- When the operands are read and can be emitted. -/
theorem insn_of {cfg : Cfg} {cpu : CpuType} {addr b : Nat} {row : Row} {up : Bool} {op1 op2 op3 : Operand}
    {bs : List Nat} (hf : Fact cpu b row up) (hb : b < 256) (h1 : op1.mode ∈ modesOf b (flags row).mode1)
    (h2 : op2.mode ∈ modesOf b (flags row).mode2) (h3 : op3.mode ∈ modesOf b (flags row).mode3)
    (he : emitOperands cfg cpu addr (flags row) op1 op2 ⟨.OK, row.opcode, []⟩ = .ok ⟨.OK, row.opcode, bs⟩)
    (scan : Scan) :
    encodeInsn cfg cpu addr (row.name.map (letter up)) op1 op2 op3 scan = .ok ⟨.OK, b :: bs, scan⟩ := by
  unfold encodeInsn
  rw [hf.found _ h1 _ h2 _ h3, Out.ok_bind]
  dsimp only
  rw [he, Out.ok_bind]
  unfold Asm.bytes
  rw [hf.code, Nat.mod_eq_of_lt hb]

end Libasm.Cpu.Mos6502
