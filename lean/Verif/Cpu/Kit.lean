import Verif.Cpu.Lex
import Verif.Config.Lemmas
/-
Pieces the proofs for the single CPUs share.
-/
namespace Libasm.Cpu
open Scan Number Number.Spec Eval Ctype

deriving instance DecidableEq for Eval.Out

/-! ### Reading bytes -/

/-- From `r` to `r'` the bytes `bs` were read, and there were that many. -/
structure Took (r r' : Rd) (bs : List Nat) : Prop where
  err : r.err = .OK
  mem : r.mem = bs ++ r'.mem
  bytes : r'.bytes = r.bytes ++ bs

theorem Took.refl {r : Rd} (h : r.err = .OK) : Took r r [] := ⟨h, rfl, by rw [List.append_nil]⟩

theorem Took.trans {r r' r'' : Rd} {a b : List Nat} (h : Took r r' a) (h' : Took r' r'' b) :
    Took r r'' (a ++ b) :=
  ⟨h.err, by rw [h.mem, h'.mem, List.append_assoc], by rw [h'.bytes, h.bytes, List.append_assoc]⟩

theorem setErrorIf_ok {e x : Err} (h : Config.setErrorIf e x = .OK) : e = .OK ∧ x = .OK := by
  unfold Config.setErrorIf at h
  by_cases he : e = .OK
  · refine ⟨he, ?_⟩
    by_cases hx : x = .OK
    · exact hx
    · rw [if_pos ⟨he, hx⟩] at h; exact h
  · rw [if_neg (fun hh => he hh.1)] at h
    exact absurd h he

theorem byte_took {r : Rd} (hb : ∀ b ∈ r.mem, b < 256) (h : r.byte.2.err = .OK) :
    r.byte.1 < 256 ∧ Took r r.byte.2 [r.byte.1] := by
  unfold Rd.byte at *
  cases hm : r.mem with
  | nil =>
    rw [hm] at h
    exact absurd (setErrorIf_ok h).2 (by decide)
  | cons b mem =>
    rw [hm] at h
    have : b % 256 = b := Nat.mod_eq_of_lt (hb b (by rw [hm]; exact List.mem_cons_self ..))
    refine ⟨Nat.mod_lt _ (by decide), h, ?_, rfl⟩
    show r.mem = [b % 256] ++ mem
    rw [hm, this]
    rfl

theorem byte_mem {r : Rd} (hb : ∀ b ∈ r.mem, b < 256) : ∀ b ∈ r.byte.2.mem, b < 256 := by
  unfold Rd.byte
  cases hm : r.mem with
  | nil => intro b hx; dsimp only [Rd.setErrorIf] at hx; rw [hm] at hx; cases hx
  | cons c mem => intro b hx; exact hb b (by rw [hm]; exact List.mem_cons_of_mem _ hx)

theorem byte_err {r : Rd} (h : r.byte.2.err = .OK) : r.err = .OK := by
  unfold Rd.byte at h
  split at h
  · exact (setErrorIf_ok h).1
  · exact h

theorem le16_eq (r : Rd) : r.le16 = (r.byte.2.byte.1 * 256 + r.byte.1, r.byte.2.byte.2) := rfl
theorem be16_eq (r : Rd) : r.be16 = (r.byte.1 * 256 + r.byte.2.byte.1, r.byte.2.byte.2) := rfl

theorem le16_took {r : Rd} (hb : ∀ b ∈ r.mem, b < 256) (h : r.le16.2.err = .OK) :
    r.le16.1 < 65536 ∧ Took r r.le16.2 [r.le16.1 % 256, r.le16.1 / 256] := by
  rw [le16_eq] at *
  obtain ⟨h1, t1⟩ := byte_took (byte_mem hb) h
  obtain ⟨h2, t2⟩ := byte_took hb t1.err
  dsimp only
  refine ⟨by omega, ?_⟩
  rw [show (r.byte.2.byte.1 * 256 + r.byte.1) % 256 = r.byte.1 by omega,
    show (r.byte.2.byte.1 * 256 + r.byte.1) / 256 = r.byte.2.byte.1 by omega]
  exact t2.trans t1

theorem be16_took {r : Rd} (hb : ∀ b ∈ r.mem, b < 256) (h : r.be16.2.err = .OK) :
    r.be16.1 < 65536 ∧ Took r r.be16.2 [r.be16.1 / 256, r.be16.1 % 256] := by
  rw [be16_eq] at *
  obtain ⟨h1, t1⟩ := byte_took (byte_mem hb) h
  obtain ⟨h2, t2⟩ := byte_took hb t1.err
  dsimp only
  refine ⟨by omega, ?_⟩
  rw [show (r.byte.1 * 256 + r.byte.2.byte.1) % 256 = r.byte.2.byte.1 by omega,
    show (r.byte.1 * 256 + r.byte.2.byte.1) / 256 = r.byte.1 by omega]
  exact t2.trans t1

theorem le16_mem {r : Rd} (hb : ∀ b ∈ r.mem, b < 256) : ∀ b ∈ r.le16.2.mem, b < 256 :=
  byte_mem (byte_mem hb)
theorem be16_mem {r : Rd} (hb : ∀ b ∈ r.mem, b < 256) : ∀ b ∈ r.be16.2.mem, b < 256 :=
  byte_mem (byte_mem hb)

/-! ### Names -/

/-- What the source lines of an assembler look like as far as the name is concerned. -/
structure SyntaxOk (S : Syntax) : Prop where
  space : ∀ c, Ctype.isSpace c = true → S.instructionLetter c = false
  comment : ∀ c s, Ctype.isAlpha c = true → S.commentLine (c :: s) = false

/-- A name that is taken for an instruction. -/
def nameB (S : Syntax) (name : List Char) : Bool :=
  (match name with | [] => false | c :: _ => Ctype.isAlpha c) && decide (name.length ≤ 11) &&
  name.all (fun c => S.instructionLetter c && !S.instructionTerminator c && !Ctype.isSpace c) &&
  !isPseudo S name

theorem encode_name {S : Syntax} {width : Nat} {impl : List Char → Scan → Out Res} {addr : Nat}
    {name sep operands : List Char} (hS : SyntaxOk S) (hn : nameB S name = true)
    (hsep : Blank sep) (ho : skipSpaces operands = operands)
    (ha : Config.checkAddr width addr false = .OK) {r : Res} (hi : impl name operands = .ok r) :
    encode S width impl addr (name ++ sep ++ operands) = .ok (.insn r) := by
  unfold nameB at hn
  simp only [Bool.and_eq_true, decide_eq_true_eq, List.all_eq_true, Bool.not_eq_true'] at hn
  obtain ⟨⟨⟨h1, h2⟩, h3⟩, h4⟩ := hn
  cases name with
  | nil => cases h1
  | cons c t =>
    rw [encode_line ⟨List.cons_ne_nil _ _, h2, fun d hd => ⟨(h3 d hd).1.1, (h3 d hd).1.2, (h3 d hd).2⟩⟩
      hS.space (fun rest => hS.comment c _ h1) h4 hsep ho ha, hi]
    rfl

theorem space_ascii {c : Char} (hc : Ctype.isSpace c = true) : c.toNat < 128 := by
  simp only [Ctype.isSpace, Bool.or_eq_true, Bool.and_eq_true, decide_eq_true_eq, beq_iff_eq] at hc
  rcases hc with h | h <;> omega

theorem alpha_ascii {c : Char} (hc : Ctype.isAlpha c = true) : c.toNat < 128 := by
  simp only [Ctype.isAlpha, Ctype.isUpper, Ctype.isLower, Bool.or_eq_true, Bool.and_eq_true,
    decide_eq_true_eq] at hc
  rcases hc with h | h <;> omega

theorem address_ok {width addr : Nat} (hw : width ≤ 32) (h : addr < 2 ^ width) :
    Config.checkAddr width addr false = .OK := by
  have h32 : addr < 2 ^ 32 := Nat.lt_of_lt_of_le h (Nat.pow_le_pow_right (by decide) hw)
  rw [Config.checkAddr_eq false hw (by unfold Config.W; omega), if_neg (by omega),
    if_neg (by simp)]

/-! ### Values -/

theorem getUnsigned_num {v : Nat} (h : v < 2 ^ 32) : (⟨v, .unsigned⟩ : Value).getUnsigned = v := by
  unfold Value.getUnsigned
  dsimp only
  omega

theorem overflow_num {v max : Nat} (h : v < 2 ^ 32) (hm : v ≤ max) {min : Int} (h0 : min ≤ v) :
    (⟨v, .unsigned⟩ : Value).overflow max min = false := by
  have h1 : (⟨v, .unsigned⟩ : Value).overflowUint32 = false := by
    unfold Value.overflowUint32 Value.isUnsigned
    simp
    omega
  unfold Value.overflow
  rw [h1, getUnsigned_num h]
  unfold Value.isUnsigned
  simp only [Bool.false_eq_true, if_false]
  simp
  omega

/-! ### Words as operators -/

/-- No operator starts with this letter. -/
theorem word_none {table : List (List Char × Op)} {c : Char} (s : List Char)
    (h : ∀ e ∈ table, e.1 ≠ [] ∧ ∀ d, e.1.head? = some d → toUpper c ≠ toUpper d) :
    word table (c :: s) = none := by
  unfold word
  have : table.find? (fun e => Eval.iequals ((c :: s).takeWhile isAlnum) e.1) = none := by
    rw [List.find?_eq_none]
    intro e he
    obtain ⟨h1, h2⟩ := h e he
    obtain ⟨d, t, hd⟩ := List.exists_cons_of_ne_nil h1
    rw [List.takeWhile_cons, hd]
    have := h2 d (by rw [hd]; rfl)
    unfold Eval.iequals
    split
    · simp [this]
    · simp
  rw [this]

theorem word_nil {table : List (List Char × Op)} (h : ∀ e ∈ table, e.1 ≠ []) :
    word table [] = none := by
  unfold word
  have : table.find? (fun e => Eval.iequals (([] : List Char).takeWhile isAlnum) e.1) = none := by
    rw [List.find?_eq_none]
    intro e he
    obtain ⟨d, t, hd⟩ := List.exists_cons_of_ne_nil (h e he)
    rw [hd]
    simp [Eval.iequals]
  rw [this]

/-! ### Targets of branches -/

/-- The target `outRelAddr` prints is read back as it is. -/
theorem rel_reads {L : Lexer} {own : Style} (hL : LexOk L own) {o : Opts} (hP : Pairs own L.number o)
    {E : Env} {delim : Char} {addr tgt width bits : Nat} (hO : Ops (L.plugins E delim addr))
    (hdel : ∀ c ∈ firsts own, c ≠ (L.plugins E delim addr).delimitor)
    (hsym : o.relative = true → Const (L.plugins E delim addr) [letter o.upper o.curSym]
      ⟨addr, .unsigned⟩)
    (hw : width ≤ 31) (hw0 : 1 ≤ width) (ha : addr < 2 ^ width) (ht : tgt < 2 ^ width)
    (hb : bits ≤ 32) (hb0 : 1 ≤ bits) (hd : ((tgt : Int) - addr).natAbs < 2 ^ bits)
    {rest : List Char} (hr : Sep rest) (hs : Stop (L.plugins E delim addr) rest) :
    parseInteger (L.plugins E delim addr) (outRelAddr own o width tgt addr bits ++ rest) .OK =
      .ok (⟨tgt, .unsigned⟩, .OK, rest) ∧
    ∃ c s, outRelAddr own o width tgt addr bits = c :: s ∧
      (c ∈ firsts own ∨ o.relative = true ∧ c = letter o.upper o.curSym) := by
  have h31 : 2 ^ width ≤ 2 ^ 31 := Nat.pow_le_pow_right (by decide) hw
  have ha' : addr < 2 ^ 31 := Nat.lt_of_lt_of_le ha h31
  have ht' : tgt < 2 ^ 31 := Nat.lt_of_lt_of_le ht h31
  rcases outRelAddr_text hP width tgt addr bits ht hw hw0 ha hb hb0 hd
    with ⟨_, h⟩ | ⟨h0, h1, h2⟩ | ⟨h0, t, h1, h2⟩
  · obtain ⟨c, s, h3, h4⟩ := lead_first h.lead
    exact ⟨eval_const (const_of hL h E delim addr) hr hs, c, s, h3, Or.inl h4⟩
  · refine ⟨?_, _, [], h2, Or.inr ⟨h0, rfl⟩⟩
    rw [h2, h1]
    exact eval_const (hsym h0) hr hs
  · refine ⟨?_, _, _, h2, Or.inr ⟨h0, rfl⟩⟩
    obtain ⟨c, u, hcu, hcf⟩ := lead_first h1.lead
    have e := eval_loc hO (hsym h0) (const_of hL h1 E delim addr) (by omega) h1.small
      ⟨c, u, hcu, hdel c hcf, (by cases own <;> decide : ∀ c ∈ firsts own, c ≠ '+') c hcf⟩ hr hs
    rw [h2]
    by_cases hneg : (tgt : Int) - addr < 0
    · rw [if_pos hneg]
      have := e.2
      rw [show (addr : Int) - (((tgt : Int) - addr).natAbs : Nat) = (tgt : Int) by omega] at this
      rw [show Value.setS (tgt : Int) = ⟨tgt, .unsigned⟩ by
        unfold Value.setS
        rw [if_pos (by omega)]
        rfl] at this
      exact this
    · rw [if_neg hneg]
      have := e.1
      rw [show addr + ((tgt : Int) - addr).natAbs = tgt by omega] at this
      rw [show Value.setU tgt = ⟨tgt, .unsigned⟩ by
        unfold Value.setU Value.M
        rw [Nat.mod_eq_of_lt (by omega)]] at this
      exact this

/-- A displacement to a target in reach. -/
theorem branch_near {w base target : Nat} (h0 : 0 < w) (hw : w ≤ 32) (hb : base < Config.W)
    (ht : target < 2 ^ w) (h1 : -((2 ^ (w - 1) : Nat) : Int) ≤ (target : Int) - base)
    (h2 : (target : Int) - base < ((2 ^ (w - 1) : Nat) : Int)) :
    Config.branchDelta w base target .OK = some ((target : Int) - base, .OK) := by
  unfold Config.branchDelta
  have hle := Config.pow_le_W hw
  rw [Config.signExtend_eq h0 hw, Config.checkAddr_eq false hw (by omega), if_neg (by omega),
    if_neg (by simp)]
  have hs : 2 ^ w = 2 * 2 ^ (w - 1) := by rw [← Nat.pow_succ']; congr 1; omega
  have hmod : ((Config.sub32 target base % 2 ^ w : Nat) : Int) =
      ((target : Int) - base) % ((2 ^ w : Nat) : Int) := by
    have hd : 2 ^ w ∣ Config.W := by
      have : Config.W = 2 ^ 32 := rfl
      rw [this]; exact Nat.pow_dvd_pow 2 hw
    unfold Config.sub32
    rw [Nat.mod_mod_of_dvd _ hd, Nat.mod_eq_of_lt (show target < Config.W by omega),
      Nat.mod_eq_of_lt hb]
    obtain ⟨k, hk⟩ := hd
    have e1 : ((target + Config.W - base : Nat) : Int) =
        ((target : Int) - base) + ((2 ^ w : Nat) : Int) * k := by
      have : (Config.W : Int) = ((2 ^ w : Nat) : Int) * k := by rw [hk]; simp
      rw [← this]; omega
    rw [Int.natCast_emod, e1, Int.add_mul_emod_self_left]
  generalize Config.sub32 target base % 2 ^ w = u at *
  rw [hs] at hmod ⊢
  generalize 2 ^ (w - 1) = s at *
  have hu : (u : Int) = if 0 ≤ (target : Int) - base then (target : Int) - base
      else (target : Int) - base + (2 * s : Nat) := by
    rw [hmod]
    split
    · exact Int.emod_eq_of_lt (by omega) (by omega)
    · rw [← Int.add_emod_right]
      exact Int.emod_eq_of_lt (by omega) (by omega)
  have hx : (if u < s then (u : Int) else (u : Int) - (2 * s : Nat)) = (target : Int) - base := by
    split at hu <;> split <;> omega
  simp only [hx]
  rw [if_neg (by omega)]
  rfl

end Libasm.Cpu
