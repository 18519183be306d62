import Verif.Cpu.Pdp8.Model
import Verif.Cpu.Kit
/-
Numbers of any radix, lists of names, and the table of the PDP-8 with its rows read.
-/
namespace Libasm.Cpu.Pdp8
open Scan Number Number.Spec Eval

/-! ### Numbers -/

/-- A text the assembler reads as `v` with this radix. -/
structure Num (radix : Radix) (t : List Char) (v : Nat) : Prop where
  reads : ∀ rest, Ends rest → Parser.intel.parse (t ++ rest) radix = (.OK, ⟨v, .unsigned⟩, rest)
  head : ∃ c s, IsDigit 10 c ∧ t = c :: s
  small : v < 2 ^ 32

/-- The octal numbers the disassembler prints are read back. -/
theorem num_oct {o : Opts} {radix : Radix} (h : radix = .r8 ∨ o.cstyle = true ∨ o.intelHex = true) (v w : Nat)
    (hv : v < 2 ^ 32) (hw : 1 ≤ w) : Num radix ((formatter .plain o).oct o.upperHex v w) v := by
  have hn := fmtOct_numeral o.upperHex v w hv hw
  obtain ⟨c, t, ht⟩ := List.exists_cons_of_ne_nil hn.ne
  have hc : IsDigit 10 c := digit_mono (by decide) (hn.digits c (by rw [ht]; exact List.mem_cons_self ..))
  unfold formatter
  split
  · exact ⟨fun rest hr => (C11_cstyle .intel _ v w hv hw rest hr radix).2.2,
      ⟨'0', fmtOct o.upperHex v w, isDigit_zero 10 (by decide), by cases o.upperHex <;> rfl⟩, hv⟩
  · split
    · have e : Style.intel.oct o.upperHex v w = fmtOct o.upperHex v w ++ [letter o.upperHex 'Q'] := rfl
      rw [e]
      refine ⟨fun rest hr => ?_, ⟨c, t ++ [letter o.upperHex 'Q'], hc, by rw [ht]; rfl⟩, hv⟩
      rw [List.append_assoc, List.singleton_append]
      exact intel_oct (rest := rest) hn (c := letter o.upperHex 'Q') (by cases o.upperHex <;> decide) (wide hv) radix
    · have hr : radix = .r8 := by
        rcases h with h | h | h
        · exact h
        · exact absurd h (by assumption)
        · exact absurd h (by assumption)
      subst hr
      exact ⟨fun rest hr => C11_plain_oct .intel _ v w hv hw rest hr, ⟨c, t, hc, ht⟩, hv⟩

theorem num_signed {o : Opts} {radix : Radix} (h : radix = .r8 ∨ o.cstyle = true ∨ o.intelHex = true) (v w : Nat)
    (hv : v < 2 ^ w) (hw : w ≤ 32) (hw0 : 1 ≤ w) :
    Num radix (formatSigned ((formatter .plain o).oct o.upperHex) o.upperHex v (w : Int)) v := by
  have hv' : v < 2 ^ 32 := Nat.lt_of_lt_of_le hv (Nat.pow_le_pow_right (by decide) hw)
  rw [C11_sign _ _ _ _ hv' (by omega), meant_unsigned hv, if_neg (by omega), List.nil_append]
  exact num_oct h v w hv' hw0

theorem num_addr {o : Opts} {radix : Radix} (ho : o.octal = true)
    (h : radix = .r8 ∨ o.cstyle = true ∨ o.intelHex = true) (v w : Nat)
    (hv : v < 2 ^ w) (hw : w ≤ 32) (hw0 : 1 ≤ w) : Num radix (outAbsAddr .plain o w v) v := by
  unfold outAbsAddr
  rw [if_pos ho]
  exact num_signed h v w hv hw hw0

theorem num_hex {o : Opts} {radix : Radix} (ho : o.octal = true)
    (h : radix = .r8 ∨ o.cstyle = true ∨ o.intelHex = true) (v w : Nat)
    (hv : v < 2 ^ w) (hw : w ≤ 32) (hw0 : 1 ≤ w) : Num radix (outHex .plain o v (w : Int) true) v := by
  unfold outHex
  rw [if_pos ho]
  exact num_signed h v w hv hw hw0

theorem digit_cases {c : Char} (h : IsDigit 10 c) : c ∈ ['0', '1', '2', '3', '4', '5', '6', '7', '8', '9'] :=
  Ctype.ascii (p := fun c => IsDigit 10 c →
      c ∈ ['0', '1', '2', '3', '4', '5', '6', '7', '8', '9']) (by decide +kernel) c (digit_ascii h) h

/-- What the lexer makes of a digit. -/
theorem digit_lexes {c : Char} (h : IsDigit 10 c) (s : List Char) :
    skipSpaces (c :: s) = c :: s ∧ endOfLine (c :: s) = false ∧ (parseLetter (c :: s)).1 = .NOT_AN_EXPECTED ∧
    (∀ st r, lexer.operators.parser.readPrefix (c :: s) st r = .ok (none, c :: s, st, r)) ∧
    lexer.operators.parser.readInfix (c :: s) = none ∧ lexer.operators.parser.isOpen (c :: s) = none ∧
    lexer.operators.parser.isClose (c :: s) = none ∧ c ≠ '\x00' ∧ iexpect 'i' (c :: s) = none := by
  have hc := digit_cases h
  simp only [List.mem_cons, List.not_mem_nil, or_false] at hc
  rcases hc with rfl | rfl | rfl | rfl | rfl | rfl | rfl | rfl | rfl | rfl <;>
    exact ⟨rfl, rfl, rfl, fun _ _ => rfl, rfl, rfl, rfl, by decide, rfl⟩

theorem Num.skip {radix : Radix} {t : List Char} {v : Nat} (h : Num radix t v) (rest : List Char) :
    skipSpaces (t ++ rest) = t ++ rest := by
  obtain ⟨c, s, hc, rfl⟩ := h.head
  exact (digit_lexes hc _).1

/-- What may come after a number: nothing, or a space and a number. -/
def After (rest : List Char) : Prop := rest = [] ∨ ∃ c s, IsDigit 10 c ∧ rest = ' ' :: c :: s

theorem After.ends {rest : List Char} (h : After rest) : Ends rest := by
  rcases h with rfl | ⟨c, s, _, rfl⟩
  · exact Sep.nil.ends
  · exact (Sep.cons (by decide) _).ends

/-- A number is read. -/
theorem parse_num {E : Env} {addr : Nat} {radix : Radix} {t rest : List Char} {v : Nat} (h : Num radix t v)
    (hr : After rest) :
    parseNumber (lexer.plugins E '\x00' addr) radix (t ++ rest) .OK = .ok (⟨v, .unsigned⟩, .OK, rest) := by
  obtain ⟨c, s, hc, ht⟩ := h.head
  have hd := digit_lexes hc (s ++ rest)
  have hconst : (lexer.plugins E '\x00' addr).parseConstant (t ++ rest) radix = (.OK, ⟨v, .unsigned⟩, rest) := by
    show constant parseLetter Parser.intel.parse lexer.location E.float '\x00' addr (t ++ rest) radix = _
    unfold constant
    have h1 : (parseLetter (t ++ rest)).1 = .NOT_AN_EXPECTED := by rw [ht]; exact hd.2.2.1
    split
    · rename_i he; rw [he] at h1; cases h1
    · rw [h.reads rest hr.ends]
      dsimp only
      rw [not_float hr.ends, if_neg (by decide)]
      rfl
    · rename_i e _ _ hne heq
      rw [heq] at h1
      exact absurd h1 hne
  have step1 : ∀ x : St Value, x.scan = t ++ rest → x.vst = [] → x.maybePrefix = true → x.err = .OK → x.radix = radix →
      step (lexer.plugins E '\x00' addr) x = .ok (.cont { x with
          scan := rest, vst := [⟨v, .unsigned⟩], maybePrefix := false, trace := .operand :: x.trace }) := by
    intro x h1 h2 h3 h4 h5
    have hg : hasError x.err = false := by rw [h4]; rfl
    unfold step
    rw [h1, h.skip, h3]
    dsimp only
    have e1 : (lexer.plugins E '\x00' addr).endOfLine (t ++ rest) = false := by
      show endOfLine (t ++ rest) = false
      rw [ht]; exact hd.2.1
    have e2 : (lexer.plugins E '\x00' addr).ops.readPrefix (t ++ rest) x.vst x.radix =
        .ok (none, t ++ rest, x.vst, x.radix) := by
      show lexer.operators.parser.readPrefix (t ++ rest) x.vst x.radix = _
      rw [ht]; exact hd.2.2.2.1 _ _
    rw [if_neg (by simp [e1]), if_neg (by simp [h2]), if_pos rfl, e2, Out.ok_bind]
    dsimp only
    rw [hg, if_neg (by simp)]
    unfold stepOperand
    dsimp only
    rw [h5, hconst]
    dsimp only
    rw [h2, if_neg (by unfold capacity; simp)]
    unfold push
    rw [if_pos (by unfold capacity; simp), Out.ok_bind]
  have step2 : ∀ x : St Value, x.scan = rest → x.vst ≠ [] → x.maybePrefix = false → x.err = .OK →
      x.endOfExpr = '\x00' → x.inFnArgs = 0 →
      step (lexer.plugins E '\x00' addr) x = .ok (.brk x) := by
    intro x h1 h2 h3 h4 h5 h6
    have hg : hasError x.err = false := by rw [h4]; rfl
    have hs' : ({ x with scan := rest } : St Value) = x := by cases x; simp_all
    unfold step
    rw [h1]
    rcases hr with rfl | ⟨d, u, hdig, rfl⟩
    · have e1 : (lexer.plugins E '\x00' addr).endOfLine (skipSpaces []) = true := rfl
      dsimp only
      rw [if_pos e1]
      show Out.ok (Next.brk { x with scan := [] }) = _
      rw [hs']
    · have hd := digit_lexes hdig u
      have e0 : skipSpaces (' ' :: d :: u) = d :: u := hd.1
      rw [e0]
      dsimp only
      have e1 : (lexer.plugins E '\x00' addr).endOfLine (d :: u) = false := hd.2.1
      have e2 : (lexer.plugins E '\x00' addr).ops.readInfix (d :: u) = none := hd.2.2.2.2.1
      have e3 : (lexer.plugins E '\x00' addr).ops.isOpen (d :: u) = none := hd.2.2.2.2.2.1
      have e4 : (lexer.plugins E '\x00' addr).ops.isClose (d :: u) = none := hd.2.2.2.2.2.2.1
      rw [if_neg (by simp [e1]), if_neg (by
        rw [h5]
        rintro ⟨h, _⟩
        exact hd.2.2.2.2.2.2.2.1 h), h3, e2]
      simp only [hg, Bool.false_eq_true, if_false]
      unfold stepPunct
      rw [if_neg (show ¬ x.inFnArgs > 0 by omega)]
      dsimp only
      rw [e3]
      dsimp only
      rw [e4]
      dsimp only
      rw [hs']
  have hl : 0 < t.length := by rw [ht]; simp
  have hlen : (t ++ rest).length = t.length + rest.length := List.length_append
  unfold parseNumber eval evalFuel
  rw [h.skip]
  dsimp only
  have : loop (lexer.plugins E '\x00' addr) ((t ++ rest).length + 1) (start (lexer.plugins E '\x00' addr) (t ++ rest) .OK radix) =
      .ok ⟨⟨v, .unsigned⟩, .OK, rest, [.operand]⟩ := by
    show (step _ _).bind _ = _
    rw [step1 _ rfl rfl rfl rfl rfl, Out.ok_bind]
    dsimp only
    obtain ⟨n, hn⟩ : ∃ n, (t ++ rest).length = n + 1 := ⟨(t ++ rest).length - 1, by omega⟩
    rw [hn]
    show (step _ _).bind _ = _
    rw [step2 _ rfl (by simp) rfl rfl rfl rfl]
    rfl
  rw [this, Out.ok_bind]
  dsimp only
  rw [if_neg (by omega)]
  rfl

/-! ### The table with its rows read -/

deriving instance DecidableEq for Table.Page

/-- A page of the table, its rows read. -/
def gr1 : Table.Page Op :=
  ⟨15732224, [],
    [⟨3584, ['N', 'O', 'P'], .GR1, 241, 14, true, false⟩,
     ⟨3716, ['G', 'L', 'K'], .GR1, 142, 0, true, false⟩,
     ⟨3664, ['S', 'T', 'L'], .GR1, 80, 0, true, false⟩,
     ⟨3744, ['S', 'T', 'A'], .GR1, 160, 0, true, false⟩,
     ⟨3712, ['C', 'L', 'A'], .GR1, 128, 0, true, true⟩,
     ⟨3648, ['C', 'L', 'L'], .GR1, 64, 0, true, false⟩,
     ⟨3617, ['C', 'I', 'A'], .GR1, 33, 0, true, false⟩,
     ⟨3616, ['C', 'M', 'A'], .GR1, 32, 0, true, false⟩,
     ⟨3600, ['C', 'M', 'L'], .GR1, 16, 0, true, false⟩,
     ⟨3586, ['B', 'S', 'W'], .GR1, 14, 0, true, false⟩,
     ⟨3588, ['R', 'A', 'L'], .GR1, 14, 0, true, false⟩,
     ⟨3592, ['R', 'A', 'R'], .GR1, 14, 0, true, false⟩,
     ⟨3590, ['R', 'T', 'L'], .GR1, 14, 0, true, false⟩,
     ⟨3594, ['R', 'T', 'R'], .GR1, 14, 0, true, false⟩,
     ⟨3596, ['R', '3', 'L'], .GR1, 14, 0, true, false⟩,
     ⟨3585, ['I', 'A', 'C'], .GR1, 1, 0, true, false⟩],
    [9, 6, 4, 5, 7, 8, 1, 15, 0, 14, 10, 11, 12, 13, 3, 2]⟩

/-- A page of the table, its rows read. -/
def gr1x : Table.Page Op :=
  ⟨15732224, [],
    [⟨3584, ['N', 'O', 'P'], .GR1, 241, 14, true, false⟩,
     ⟨3716, ['G', 'L', 'K'], .GR1, 142, 0, true, false⟩,
     ⟨3664, ['S', 'T', 'L'], .GR1, 80, 0, true, false⟩,
     ⟨3744, ['S', 'T', 'A'], .GR1, 160, 0, true, false⟩,
     ⟨3712, ['C', 'L', 'A'], .GR1, 128, 0, true, true⟩,
     ⟨3648, ['C', 'L', 'L'], .GR1, 64, 0, true, false⟩,
     ⟨3617, ['C', 'I', 'A'], .GR1, 33, 0, true, false⟩,
     ⟨3616, ['C', 'M', 'A'], .GR1, 32, 0, true, false⟩,
     ⟨3600, ['C', 'M', 'L'], .GR1, 16, 0, true, false⟩,
     ⟨3586, ['B', 'S', 'W'], .GR1, 14, 0, true, false⟩,
     ⟨3588, ['R', 'A', 'L'], .GR1, 14, 0, true, false⟩,
     ⟨3592, ['R', 'A', 'R'], .GR1, 14, 0, true, false⟩,
     ⟨3590, ['R', 'T', 'L'], .GR1, 14, 0, true, false⟩,
     ⟨3594, ['R', 'T', 'R'], .GR1, 14, 0, true, false⟩,
     ⟨3585, ['I', 'A', 'C'], .GR1, 1, 0, true, false⟩],
    [9, 6, 4, 5, 7, 8, 1, 14, 0, 10, 11, 12, 13, 3, 2]⟩

/-- A page of the table, its rows read. -/
def gr2 : Table.Page Op :=
  ⟨15736576, [],
    [⟨3840, ['N', 'O', 'P'], .GR2, 254, 0, false, false⟩,
     ⟨3848, ['S', 'K', 'P'], .GR2, 120, 0, false, false⟩,
     ⟨3904, ['S', 'M', 'A'], .GR2, 64, 8, true, false⟩,
     ⟨3912, ['S', 'P', 'A'], .GR2, 64, 8, true, false⟩,
     ⟨3872, ['S', 'Z', 'A'], .GR2, 32, 8, true, false⟩,
     ⟨3880, ['S', 'N', 'A'], .GR2, 32, 8, true, false⟩,
     ⟨3856, ['S', 'N', 'L'], .GR2, 16, 8, true, false⟩,
     ⟨3864, ['S', 'Z', 'L'], .GR2, 16, 8, true, false⟩,
     ⟨3972, ['L', 'A', 'S'], .GR2, 132, 0, true, false⟩,
     ⟨3968, ['C', 'L', 'A'], .GR2, 128, 0, true, true⟩,
     ⟨3844, ['O', 'S', 'R'], .GR2, 4, 0, true, false⟩,
     ⟨3842, ['H', 'L', 'T'], .GR2, 2, 0, true, false⟩],
    [9, 11, 8, 0, 10, 1, 2, 5, 6, 3, 4, 7]⟩

/-- A page of the table, its rows read. -/
def gr3 : Table.Page Op :=
  ⟨15736577, [],
    [⟨3841, ['N', 'O', 'P'], .GR3, 208, 0, false, false⟩,
     ⟨4033, ['A', 'C', 'L'], .GR3, 192, 16, true, false⟩,
     ⟨3985, ['C', 'A', 'M'], .GR3, 144, 64, true, false⟩,
     ⟨3969, ['C', 'L', 'A'], .GR3, 128, 0, true, false⟩,
     ⟨3921, ['S', 'W', 'P'], .GR3, 80, 0, true, false⟩,
     ⟨3905, ['M', 'Q', 'A'], .GR3, 64, 0, true, false⟩,
     ⟨3857, ['M', 'Q', 'L'], .GR3, 16, 0, true, false⟩],
    [1, 2, 3, 5, 6, 0, 4]⟩

/-- A page of the table, its rows read. -/
def mex : Table.Page Op :=
  ⟨16534656, [],
    [⟨3201, ['C', 'D', 'F'], .MEX, 1, 4, true, false⟩,
     ⟨3202, ['C', 'I', 'F'], .MEX, 2, 4, true, false⟩],
    [0, 1]⟩

/-- A page of the table, its rows read. -/
def i20 : Table.Page Op :=
  ⟨16534660, [],
    [⟨3205, ['P', 'P', 'C', '1'], .CMP, 59, 0, false, false⟩,
     ⟨3237, ['P', 'P', 'C', '2'], .CMP, 59, 0, false, false⟩,
     ⟨3213, ['P', 'A', 'C', '1'], .CMP, 59, 0, false, false⟩,
     ⟨3245, ['P', 'A', 'C', '2'], .CMP, 59, 0, false, false⟩,
     ⟨3221, ['R', 'T', 'N', '1'], .CMP, 59, 0, false, false⟩,
     ⟨3253, ['R', 'T', 'N', '2'], .CMP, 59, 0, false, false⟩,
     ⟨3229, ['P', 'O', 'P', '1'], .CMP, 59, 0, false, false⟩,
     ⟨3261, ['P', 'O', 'P', '2'], .CMP, 59, 0, false, false⟩,
     ⟨3207, ['R', 'S', 'P', '1'], .CMP, 59, 0, false, false⟩,
     ⟨3223, ['R', 'S', 'P', '2'], .CMP, 59, 0, false, false⟩,
     ⟨3215, ['L', 'S', 'P', '1'], .CMP, 59, 0, false, false⟩,
     ⟨3231, ['L', 'S', 'P', '2'], .CMP, 59, 0, false, false⟩,
     ⟨3238, ['W', 'S', 'R'], .CMP, 59, 0, false, false⟩,
     ⟨3246, ['G', 'C', 'F'], .CMP, 59, 0, false, false⟩,
     ⟨3212, ['R', 'D', 'F'], .CMP, 59, 0, false, false⟩,
     ⟨3220, ['R', 'I', 'F'], .CMP, 59, 0, false, false⟩,
     ⟨3228, ['R', 'I', 'B'], .CMP, 59, 0, false, false⟩,
     ⟨3236, ['R', 'M', 'F'], .CMP, 59, 0, false, false⟩,
     ⟨3206, ['P', 'R', '0'], .CMP, 59, 0, false, false⟩,
     ⟨3214, ['P', 'R', '1'], .CMP, 59, 0, false, false⟩,
     ⟨3222, ['P', 'R', '2'], .CMP, 59, 0, false, false⟩,
     ⟨3230, ['P', 'R', '3'], .CMP, 59, 0, false, false⟩],
    [13, 10, 11, 2, 3, 6, 7, 0, 1, 18, 19, 20, 21, 14, 16, 15, 17, 8, 9, 4, 5, 12]⟩

/-- A page of the table, its rows read. -/
def iot : Table.Page Op :=
  ⟨14683136, [],
    [⟨3072, ['S', 'K', 'O', 'N'], .CMP, 511, 0, false, false⟩,
     ⟨3073, ['I', 'O', 'N'], .CMP, 511, 0, false, false⟩,
     ⟨3074, ['I', 'O', 'F'], .CMP, 511, 0, false, false⟩,
     ⟨3075, ['S', 'R', 'Q'], .CMP, 511, 0, false, false⟩,
     ⟨3076, ['G', 'T', 'F'], .CMP, 511, 0, false, false⟩,
     ⟨3077, ['R', 'T', 'F'], .CMP, 511, 0, false, false⟩,
     ⟨3078, ['S', 'G', 'T'], .CMP, 511, 0, false, false⟩,
     ⟨3079, ['C', 'A', 'F'], .CMP, 511, 0, false, false⟩,
     ⟨3072, ['I', 'O', 'T'], .IOT, 0, 0, false, false⟩],
    [7, 4, 2, 1, 8, 5, 6, 0, 3]⟩

/-- A page of the table, its rows read. -/
def mem : Table.Page Op :=
  ⟨14680064, [],
    [⟨0, ['A', 'N', 'D'], .MEM, 0, 0, false, false⟩,
     ⟨512, ['T', 'A', 'D'], .MEM, 0, 0, false, false⟩,
     ⟨1024, ['I', 'S', 'Z'], .MEM, 0, 0, false, false⟩,
     ⟨1536, ['D', 'C', 'A'], .MEM, 0, 0, false, false⟩,
     ⟨2048, ['J', 'M', 'S'], .MEM, 0, 0, false, false⟩,
     ⟨2560, ['J', 'M', 'P'], .MEM, 0, 0, false, false⟩],
    [0, 3, 2, 5, 4, 1]⟩

/-- The pages with the rows read. -/
def fast : CpuType → List (Table.Page Op)
  | .IM6100 => [gr1x, gr2, gr3, iot, mem]
  | .HD6120 => [gr1, gr1x, gr2, gr3, mex, i20, iot, mem]

theorem pages_eq (cpu : CpuType) : pages cpu = fast cpu := by
  revert cpu
  have h : (decide (pages .IM6100 = fast .IM6100) && decide (pages .HD6120 = fast .HD6120)) = true := by decide +kernel
  simp only [Bool.and_eq_true, decide_eq_true_eq] at h
  intro cpu
  cases cpu
  · exact h.1
  · exact h.2

end Libasm.Cpu.Pdp8
