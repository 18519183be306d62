import Verif.Cpu.Ops
import Verif.Cpu.F3850.Model
/-
How the F3850 assembler reads what its disassembler prints, and what it makes of it.
-/
namespace Libasm.Cpu.F3850
open Scan Number Number.Spec Eval
open Tables (Row)

/-- The parsers at an address. -/
abbrev plug (E : Env) (addr : Nat) : Plugins Value := lexer.plugins E '\x00' addr

theorem pairs (o : Opts) : Pairs .fairchild .fairchild o :=
  ⟨by decide, by decide, fun _ => Or.inr (Or.inr (by decide))⟩

theorem lexOk : LexOk lexer .fairchild := by
  apply lexOk_of
  intro c hc s
  simp only [firsts, leads, List.map, List.headD, List.mem_append, List.mem_cons, List.not_mem_nil,
    or_false] at hc
  rcases hc with (h | h | h | h | h | h | h | h | h | h) | (h | h | h | h) <;> subst h <;>
    exact ⟨rfl, rfl, fun _ _ => rfl⟩

theorem lex_ops (E : Env) (loc : Nat) : Ops (plug E loc) :=
  ⟨rfl, ⟨opUnaryMinus, rfl, rfl, rfl, fun _ _ _ => rfl⟩, fun _ => rfl, fun _ => rfl, fun _ _ _ => rfl,
    fun _ => rfl,
    by show '\x00' ≠ '-' ∧ '\x00' ≠ '+'; decide⟩

theorem stop_nil (E : Env) (loc : Nat) : Stop (plug E loc) [] :=
  ⟨rfl, Or.inl rfl⟩

theorem stop_comma (E : Env) (loc : Nat) (s : List Char) : Stop (plug E loc) (',' :: s) :=
  ⟨rfl, Or.inr (Or.inr ⟨rfl, Or.inr rfl⟩)⟩

theorem after_stop {E : Env} {loc : Nat} {rest : List Char} (h : AfterOp rest) :
    Sep rest ∧ Stop (plug E loc) rest := by
  rcases h with rfl | ⟨s, rfl⟩
  · exact ⟨Sep.nil, stop_nil ..⟩
  · exact ⟨Sep.cons (by decide) _, stop_comma ..⟩

theorem const_location {c : Char} (hc : c = '*' ∨ c = '$' ∨ c = '.') (E : Env) {loc : Nat}
    (hl : loc < 2 ^ 32) : Const (plug E loc) [c] ⟨loc, .unsigned⟩ := by
  have hsep : ∀ s, Sep s → Eval.symbolLetter false (deref s) = false := by
    intro s hs
    cases s with
    | nil => rfl
    | cons d t =>
      have : ∀ d ∈ seps, Eval.symbolLetter false d = false := by decide
      exact this d (hs d rfl)
  have hnum : ∀ s, Sep s → (lexer.number.parse ('$' :: s) .r10) = notNumber ('$' :: s) := by
    intro s hs
    cases s with
    | nil => rfl
    | cons d t =>
      have : ∀ d ∈ seps, Ctype.isXdigit d = false := by decide
      have hd := this d (hs d rfl)
      show fairchildParse ('$' :: d :: t) .r10 = _
      unfold fairchildParse
      rw [if_neg (by rintro ⟨_, h⟩; rw [show Ctype.isXdigit (at' ('$' :: d :: t) 1) = Ctype.isXdigit d from rfl, hd] at h; cases h)]
      rfl
  apply const_loc
  · rcases hc with rfl | rfl | rfl <;> rfl
  · intro s hs
    have h1 := hsep s hs
    have e' : ∀ c, c = '*' ∨ c = '$' ∨ c = '.' → locationSymbol Eval.symbolLetter c (c :: s) =
        if Eval.symbolLetter false (deref s) then none else some s := by
      rintro c (rfl | rfl | rfl) <;> rfl
    have key : ∀ x : Option Scan, x = lexer.location (c :: s) → x = (match locationSymbol Eval.symbolLetter '*' (c :: s) with
      | some p => some p
      | none =>
        match locationSymbol Eval.symbolLetter '$' (c :: s) with
        | some p => some p
        | none => locationSymbol Eval.symbolLetter '.' (c :: s)) := fun x hx => hx
    rcases hc with rfl | rfl | rfl
    · refine ⟨rfl, rfl, ?_⟩
      rw [key _ rfl, e' '*' (by simp), h1]
      rfl
    · refine ⟨rfl, hnum s hs, ?_⟩
      rw [key _ rfl, show locationSymbol Eval.symbolLetter '*' ('$' :: s) = none from rfl, e' '$' (by simp), h1]
      rfl
    · refine ⟨rfl, rfl, ?_⟩
      rw [key _ rfl, show locationSymbol Eval.symbolLetter '*' ('.' :: s) = none from rfl,
        show locationSymbol Eval.symbolLetter '$' ('.' :: s) = none from rfl, e' '.' (by simp), h1]
      rfl
  · rcases hc with rfl | rfl | rfl <;> exact fun _ => rfl
  · rcases hc with rfl | rfl | rfl <;> exact fun _ => rfl
  · rcases hc with rfl | rfl | rfl <;> exact fun _ _ _ => rfl
  · exact hl

theorem regsOk : RegsOk regs := by decide
theorem regsNo : NoNumbers .fairchild regs := by decide

/-! ### Registers -/

/-- The registers there are. -/
def known (r : Reg) : Bool := (regs.map (·.2)).contains r

/-- A register as it is printed. -/
theorem reg_text (o : Opts) {r : Reg} (hk : known r = true) {rest : List Char} (hr : Sep rest) :
    searchText regs (outReg o r ++ rest) = .ok (some (r, rest)) ∧
    ∃ c s, outReg o r = c :: s ∧ Ctype.isAlpha c = true := by
  have h1 : ∀ (up : Bool), ∀ r ∈ regs.map (·.2), ((regText regs r).map (letter up)) ≠ [] ∧
      (∀ c ∈ (regText regs r).map (letter up), Table.isNameLetter c = true) ∧
      (regs.find? fun e => decide (Table.Spec.Same e.1 ((regText regs r).map (letter up)))).map (·.2) =
        some r ∧ Ctype.isAlpha (((regText regs r).map (letter up)).headD '0') = true := by
    decide +kernel
  obtain ⟨g1, g2, g3, g4⟩ := h1 o.upper r (List.contains_iff_mem.1 hk)
  refine ⟨reg_found regsOk ⟨g1, g2⟩ hr g3, ?_⟩
  obtain ⟨c, s, hc⟩ := List.exists_cons_of_ne_nil g1
  refine ⟨c, s, hc, ?_⟩
  rw [hc] at g4
  exact g4

theorem skip_head {c : Char} (s : List Char) (h : Ctype.isSpace c = false) : skipSpaces (c :: s) = c :: s := by
  unfold skipSpaces trimStart
  rw [List.dropWhile_cons, h]
  rfl

section
variable {E : Env} {addr : Nat}

theorem reg_reads (o : Opts) {r : Reg} (hk : known r = true) {rest : List Char} (hr : Sep rest) :
    parseOperand (plug E addr) (outReg o r ++ rest) = .ok (.ok
      ({ mode := registerMode r, val := Value.setUnsigned ((r + Config.W - REG_alias) % Config.W) }, rest)) := by
  obtain ⟨h1, c, s, h2, h3⟩ := reg_text o hk hr
  have h4 := Ctype.ascii (p := fun c => Ctype.isAlpha c = true → Ctype.isSpace c = false) (by decide +kernel) c
    (alpha_ascii h3) h3
  unfold parseOperand
  rw [h2, List.cons_append] at h1 ⊢
  rw [skip_head _ h4]
  dsimp only
  rw [h1]
  rfl

/-! ### Numbers -/

/-- The modes of numbers as one. -/
def cls (m : Mode) : Mode := if isNumber m then .IM8 else m

theorem number_some {w : Nat} (hw : w < 65536) :
    ∃ m, numberMode ⟨w, .unsigned⟩ = some m ∧ cls m = .IM8 := by
  have ho : (⟨w, .unsigned⟩ : Value).overflowUint16 = false := overflow_num (by omega) (by omega) (by omega)
  unfold numberMode
  split
  · exact ⟨_, rfl, rfl⟩
  · split
    · exact ⟨_, rfl, rfl⟩
    · split
      · exact ⟨_, rfl, rfl⟩
      · split
        · exact ⟨_, rfl, rfl⟩
        · split
          · exact ⟨_, rfl, rfl⟩
          · rw [ho]
            exact ⟨_, rfl, rfl⟩

/-- A number, whatever text it is read from. -/
theorem number_reads {w : Nat} {t rest : List Char} (hw : w < 65536)
    (hsp : skipSpaces (t ++ rest) = t ++ rest) (hreg : searchText regs (t ++ rest) = .ok none)
    (e : parseInteger (plug E addr) (t ++ rest) .OK = .ok (⟨w, .unsigned⟩, .OK, rest)) :
    ∃ m, numberMode ⟨w, .unsigned⟩ = some m ∧ cls m = .IM8 ∧
    parseOperand (plug E addr) (t ++ rest) = .ok (.ok ({ mode := m, val := ⟨w, .unsigned⟩ }, rest)) := by
  obtain ⟨m, h1, h2⟩ := number_some hw
  refine ⟨m, h1, h2, ?_⟩
  unfold parseOperand
  rw [hsp]
  dsimp only
  rw [hreg, Out.ok_bind]
  dsimp only
  rw [hsp, e, Out.ok_bind]
  dsimp only
  rw [if_neg (by decide), h1]

theorem plain_reads {w : Nat} {t : List Char} (hw : w < 65536) (h : NumText .fairchild .fairchild t w) :
    ∃ m, cls m = .IM8 ∧ ∀ rest, AfterOp rest →
      parseOperand (plug E addr) (t ++ rest) = .ok (.ok ({ mode := m, val := ⟨w, .unsigned⟩ }, rest)) := by
  obtain ⟨m, h1, h2⟩ := number_some hw
  refine ⟨m, h2, fun rest hr => ?_⟩
  obtain ⟨g1, g2⟩ := after_stop (E := E) (loc := addr) hr
  obtain ⟨m', k1, _, k2⟩ := number_reads (E := E) (addr := addr) hw (lead_space (h.lead.append rest))
    (reg_none regsOk regsNo (h.lead.append rest)) (eval_const (const_of lexOk h E '\x00' addr) g1 g2)
  rw [h1] at k1
  injection k1 with k1
  rw [k1]
  exact k2

theorem rel_text {o : Opts} (hsym : o.relative = true → o.curSym ∈ ['*', '$', '.'])
    (ha : addr < 65536) {w : Nat} (hw : w < 65536) (hd : ((w : Int) - addr).natAbs < 2 ^ 8) :
    ∃ m, cls m = .IM8 ∧ ∀ rest, AfterOp rest →
      parseOperand (plug E addr) (outRelAddr .fairchild o 16 w addr 8 ++ rest) =
        .ok (.ok ({ mode := m, val := ⟨w, .unsigned⟩ }, rest)) := by
  obtain ⟨m, h1, h2⟩ := number_some hw
  refine ⟨m, h2, fun rest hr => ?_⟩
  obtain ⟨g1, g2⟩ := after_stop (E := E) (loc := addr) hr
  have hlet : ∀ c ∈ ['*', '$', '.'], ∀ up, letter up c = c := by decide
  have hsym' : o.relative = true → Const (plug E addr) [letter o.upper o.curSym] ⟨addr, .unsigned⟩ := by
    intro hx
    have := hsym hx
    rw [hlet _ this]
    exact const_location (by simpa using this) E (by omega)
  obtain ⟨e, c, s, hcs, hc⟩ := rel_reads lexOk (pairs o) (lex_ops E addr)
    (show ∀ c ∈ firsts .fairchild, c ≠ '\x00' by decide) hsym' (width := 16)
    (by decide) (by decide) ha hw (bits := 8) (by decide) (by decide) hd g1 g2
  have head : ∀ c ∈ ['*', '$', '.'], ∀ s, skipSpaces (c :: s) = c :: s ∧ searchText regs (c :: s) = .ok none := by
    intro c hc s
    obtain ⟨k1, k2⟩ := (by decide : ∀ c ∈ ['*', '$', '.'], Ctype.isSpace c = false ∧ Table.isNameLetter c = false) c hc
    exact ⟨skip_head s k1, reg_none_head regsOk (by intro d hd; injection hd with hd; exact hd ▸ k2)⟩
  have key : skipSpaces (outRelAddr .fairchild o 16 w addr 8 ++ rest) = outRelAddr .fairchild o 16 w addr 8 ++ rest ∧
      searchText regs (outRelAddr .fairchild o 16 w addr 8 ++ rest) = .ok none := by
    rcases outRelAddr_text (pairs o) 16 w addr 8 hw (by decide) (by decide) ha (by decide) (by decide) hd
      with ⟨_, h⟩ | ⟨h0, _, h⟩ | ⟨h0, t, _, h⟩
    · exact ⟨lead_space (h.lead.append rest), reg_none regsOk regsNo (h.lead.append rest)⟩
    · rw [h, hlet _ (hsym h0)]
      exact head _ (hsym h0) _
    · rw [h, hlet _ (hsym h0)]
      exact head _ (hsym h0) _
  obtain ⟨m', k1, _, k2⟩ := number_reads (E := E) (addr := addr) hw key.1 key.2 e
  rw [h1] at k1
  injection k1 with k1
  rw [k1]
  exact k2

/-! ### What is printed of an operand -/

/-- The mode an operand is read with. -/
def pmode (b : Nat) (m : Mode) : Mode :=
  match m with
  | .REG =>
    match decodeRegName b with
    | some r => registerMode r
    | none => .IM8
  | .C1 | .C4 | .IM3 | .IM4 | .IM8 | .ADDR | .REL | .IOS | .IOA => .IM8
  | m => m

/-- The bytes `bs` of the operand and what is read of it; `b` is the code. -/
def Vals (b addr : Nat) (m : Mode) (bs : List Nat) (op : Operand) : Prop :=
  match m with
  | .IM8 => ∃ v, v < 256 ∧ bs = [v] ∧ op.val = ⟨v, .unsigned⟩
  | .IOA => ∃ v, v < 256 ∧ 4 ≤ v ∧ bs = [v] ∧ op.val = ⟨v, .unsigned⟩
  | .ADDR => ∃ v, v < 65536 ∧ bs = [v / 256, v % 256] ∧ op.val = ⟨v, .unsigned⟩
  | .REL => ∃ v w : Nat, v < 256 ∧ w < 65536 ∧ bs = [v] ∧ (w : Int) = ((addr + 1 : Nat) : Int) + int8 v ∧
      op.val = ⟨w, .unsigned⟩
  | .REG => bs = [] ∧ b % 16 ≠ 15 ∧ op.val = ⟨b % 16, .unsigned⟩
  | .IOS => bs = [] ∧ b % 16 ≠ 2 ∧ b % 16 ≠ 3 ∧ op.val = ⟨b % 16, .unsigned⟩
  | .IM4 => bs = [] ∧ op.val = ⟨b % 16, .unsigned⟩
  | .IM3 => bs = [] ∧ op.val = ⟨b % 8, .unsigned⟩
  | .C1 => bs = [] ∧ op.val = ⟨1, .unsigned⟩
  | .C4 => bs = [] ∧ op.val = ⟨4, .unsigned⟩
  | _ => bs = []

/-- The operand `op` was decoded from `r` to `r'`. -/
structure Rel (b addr : Nat) (m : Mode) (r r' : Rd) (op : Operand) : Prop where
  err : op.err = .OK
  mode : cls op.mode = pmode b m
  vals : ∃ bs, Took r r' bs ∧ bs.length ≤ 10 ∧ Vals b addr m bs op

theorem setIf_ok {c : Prop} [Decidable c] {r : Rd} {e : Err} (he : e ≠ .OK)
    (h : (if c then r.setErrorIf e else r).err = .OK) :
    ¬ c ∧ (if c then r.setErrorIf e else r) = r ∧ r.err = .OK := by
  by_cases hc : c
  · rw [if_pos hc] at h
    exact absurd (setErrorIf_ok h).2 he
  · rw [if_neg hc] at h ⊢
    exact ⟨hc, rfl, h⟩

theorem operand_mono {o : Opts} {b : Nat} (m : Mode) (r : Rd)
    (h : (decodeOperand o addr b m r).2.err = .OK) : r.err = .OK := by
  unfold decodeOperand at h
  cases m with
  | REG =>
    dsimp only at h
    split at h <;> exact (setIf_ok (by decide) h).2.2
  | IOS => exact (setIf_ok (by decide) h).2.2
  | IOA => exact byte_err (setIf_ok (by decide) h).2.2
  | IM8 => exact byte_err h
  | ADDR => exact byte_err (byte_err h)
  | REL =>
    unfold decodeRelative at h
    exact byte_err (setErrorIf_ok h).1
  | _ => exact h

theorem operand_reads {o : Opts} (hsym : o.relative = true → o.curSym ∈ ['*', '$', '.']) (ha : addr < 65536)
    {m : Mode} {b k : Nat} {r : Rd} (hm : m ≠ .NONE ∧ m ≠ .UNDEF) (hb : b < 256)
    (hroom : Room (k + 1) r) (h : (decodeOperand o addr b m r).2.err = .OK) :
    ∃ op, Rel b addr m r (decodeOperand o addr b m r).2 op ∧
      ∀ rest, AfterOp rest →
        parseOperand (plug E addr) ((decodeOperand o addr b m r).1 ++ rest) = .ok (.ok (op, rest)) := by
  have hP := pairs o
  have hmem := hroom.mem
  have hsep : ∀ {rest}, AfterOp rest → Sep rest := fun hr => (after_stop (E := E) (loc := addr) hr).1
  have num : ∀ {w : Nat} {t : List Char} {r' : Rd} {bs : List Nat}, NumText .fairchild .fairchild t w → w < 65536 →
      pmode b m = .IM8 → Took r r' bs → bs.length ≤ 10 →
      (∀ op : Operand, op.val = ⟨w, .unsigned⟩ → Vals b addr m bs op) →
      ∃ op, Rel b addr m r r' op ∧
        ∀ rest, AfterOp rest → parseOperand (plug E addr) (t ++ rest) = .ok (.ok (op, rest)) := by
    intro w t r' bs hn hw hp ht hl hv
    obtain ⟨m', k1, k2⟩ := plain_reads (E := E) (addr := addr) hw hn
    exact ⟨{ mode := m', val := ⟨w, .unsigned⟩ }, ⟨rfl, by rw [hp]; exact k1, bs, ht, hl, hv _ rfl⟩, k2⟩
  have reg : ∀ {rg : Reg}, known rg = true → cls (registerMode rg) = pmode b m → r.err = .OK →
      (∀ op : Operand, op.val = Value.setUnsigned ((rg + Config.W - REG_alias) % Config.W) → Vals b addr m [] op) →
      ∃ op, Rel b addr m r r op ∧
        ∀ rest, AfterOp rest → parseOperand (plug E addr) (outReg o rg ++ rest) = .ok (.ok (op, rest)) := by
    intro rg hk hp he hv
    exact ⟨{ mode := registerMode rg, val := Value.setUnsigned ((rg + Config.W - REG_alias) % Config.W) },
      ⟨rfl, hp, [], Took.refl he, by decide, hv _ rfl⟩, fun rest hr => reg_reads o hk (hsep hr)⟩
  unfold decodeOperand at h ⊢
  cases m with
  | NONE => exact absurd rfl hm.1
  | UNDEF => exact absurd rfl hm.2
  | REG =>
    dsimp only at h ⊢
    cases hd : decodeRegName b with
    | some rg =>
      rw [hd] at h
      dsimp only at h ⊢
      obtain ⟨h1, h2, h3⟩ := setIf_ok (by decide) h
      rw [h2]
      have hx : ∀ b < 256, ∀ rg ∈ decodeRegName b, known rg = true ∧ cls (registerMode rg) = registerMode rg ∧
          Value.setUnsigned ((rg + Config.W - REG_alias) % Config.W) = ⟨b % 16, .unsigned⟩ := by decide +kernel
      obtain ⟨g1, g2, g3⟩ := hx b hb rg hd
      refine reg g1 ?_ h3 (fun op ho => ⟨rfl, h1, ho.trans g3⟩)
      unfold pmode
      rw [hd]
      exact g2
    | none =>
      rw [hd] at h
      dsimp only at h ⊢
      obtain ⟨h1, h2, h3⟩ := setIf_ok (by decide) h
      rw [h2]
      refine num (outDec_num hP (b % 16) 4 (by omega) (by decide) (by decide)) (by omega) ?_ (Took.refl h3) (by decide)
        (fun op ho => ⟨rfl, h1, ho⟩)
      unfold pmode
      rw [hd]
  | C1 =>
    exact num (outDec_num hP 1 1 (by omega) (by decide) (by decide)) (by omega) rfl (Took.refl h) (by decide)
      (fun op ho => ⟨rfl, ho⟩)
  | C4 =>
    exact num (outDec_num hP 4 3 (by omega) (by decide) (by decide)) (by omega) rfl (Took.refl h) (by decide)
      (fun op ho => ⟨rfl, ho⟩)
  | IM3 =>
    exact num (outHex_num hP (b % 8) 3 true (by omega) (by decide) (by decide)) (by omega) rfl (Took.refl h)
      (by decide) (fun op ho => ⟨rfl, ho⟩)
  | IM4 =>
    exact num (outHex_num hP (b % 16) 4 true (by omega) (by decide) (by decide)) (by omega) rfl (Took.refl h)
      (by decide) (fun op ho => ⟨rfl, ho⟩)
  | IOS =>
    dsimp only at h ⊢
    obtain ⟨h1, h2, h3⟩ := setIf_ok (by decide) h
    rw [h2]
    exact num (outHex_num hP (b % 16) 4 true (by omega) (by decide) (by decide)) (by omega) rfl (Took.refl h3)
      (by decide) (fun op ho => ⟨rfl, fun hx => h1 (Or.inl hx), fun hx => h1 (Or.inr hx), ho⟩)
  | IOA =>
    dsimp only at h ⊢
    obtain ⟨h1, h2, h3⟩ := setIf_ok (by decide) h
    rw [h2]
    obtain ⟨g1, g2⟩ := byte_took hmem h3
    exact num (outHex_num hP r.byte.1 8 true g1 (by decide) (by decide)) (by omega) rfl g2 (by simp)
      (fun op ho => ⟨_, g1, by omega, rfl, ho⟩)
  | IM8 =>
    dsimp only at h ⊢
    obtain ⟨g1, g2⟩ := byte_took hmem h
    exact num (outHex_num hP r.byte.1 8 true g1 (by decide) (by decide)) (by omega) rfl g2 (by simp)
      (fun op ho => ⟨_, g1, rfl, ho⟩)
  | ADDR =>
    dsimp only at h ⊢
    obtain ⟨g1, g2⟩ := be16_took hmem h
    exact num (outAbsAddr_num hP r.be16.1 16 g1 (by decide) (by decide)) g1 rfl g2 (by simp)
      (fun op ho => ⟨_, g1, rfl, ho⟩)
  | REL =>
    unfold decodeRelative at h ⊢
    dsimp only at h ⊢
    generalize hT : (((addr + 1 : Nat) : Int) + int8 r.byte.1) % Config.W = T at *
    obtain ⟨g1, g2⟩ := setErrorIf_ok h
    obtain ⟨h1, h2⟩ := byte_took hmem g1
    have hi := int8_range _ h1
    have hT' : T.toNat < 65536 := by
      rw [Config.checkAddr_eq false (by decide) (by unfold Config.W at *; omega)] at g2
      split at g2
      · cases g2
      · rename_i hlt
        simpa using hlt
    have hsh : (T.toNat : Int) = ((addr + 1 : Nat) : Int) + int8 r.byte.1 := by
      unfold Config.W at hT
      omega
    obtain ⟨m', k1, k2⟩ := rel_text (E := E) (addr := addr) hsym ha hT' (by omega)
    exact ⟨{ mode := m', val := ⟨T.toNat, .unsigned⟩ }, ⟨rfl, k1, _, ⟨h2.err, h2.mem, h2.bytes⟩, by simp,
      _, _, h1, hT', rfl, hsh, rfl⟩, k2⟩
  | _ => exact reg (by decide) rfl h (fun op _ => rfl)

/-! ### What is emitted for an operand -/

/-- The bits of the code `b` that a mode puts there. -/
def field (b : Nat) (m : Mode) : Option Nat :=
  match m with
  | .REG | .IM4 | .IOS => some (b % 16)
  | .IM3 => some (b % 8)
  | _ => none

/-- What the table has to say for the code `b` and its entry. -/
def rowOk (b : Nat) (row : Row) : Bool :=
  decide ((modes row).length ≤ 2) &&
  (modes row).all (fun m => decide (m ≠ .NONE) && decide (m ≠ .UNDEF) &&
    (match field b m with
      | some f => (row.opcode ||| f) % 256 == b && (b ||| f) % 256 == b
      | none => true) && (decide (m ≠ .C4) || decide (modes row = [.C4]))) &&
  ((modes row).any (fun m => (field b m).isSome) || row.opcode == b)

/-- The instruction so far. -/
structure Sync (b : Nat) (row : Row) (a : Asm) (r : Rd) (c : Nat) : Prop where
  err : a.err = .OK
  opc : a.opc = c
  code : c = row.opcode ∨ c = b
  bytes : r.bytes = b :: a.ops

theorem getUnsigned_nat {v : Nat} (h : v < 65536) :
    (⟨v, .unsigned⟩ : Value).getUnsigned = v := getUnsigned_num (by omega)

theorem over_nat {v max : Nat} (h : v < 65536) (hm : v ≤ max) {min : Int} (h0 : min ≤ 0) :
    (⟨v, .unsigned⟩ : Value).overflow max min = false := overflow_num (by omega) hm (by omega)

theorem emit_one {b : Nat} {row : Row} (hrow : rowOk b row = true) (hb : b < 256) {m : Mode} (hm : m ∈ modes row)
    (hc4 : m ≠ .C4) (ha : addr < 65536) {r r' : Rd} {op : Operand} {a : Asm} {c : Nat}
    (h : Rel b addr m r r' op) (hs : Sync b row a r c) :
    ∃ a', encodeOperand addr m op a = .ok a' ∧ Sync b row a' r' (if (field b m).isSome then b else c) := by
  simp only [rowOk, Bool.and_eq_true, List.all_eq_true, decide_eq_true_eq, Bool.or_eq_true] at hrow
  obtain ⟨⟨w2, w3⟩, w4⟩ := hrow
  obtain ⟨⟨⟨w31, w32⟩, w34⟩, _⟩ := w3 m hm
  obtain ⟨k1, k2, bs, k3, k4, k5⟩ := h
  obtain ⟨s1, s2, s3, s4⟩ := hs
  have nop : ∀ {r' : Rd}, Took r r' [] → Sync b row a r' c := fun t =>
    ⟨s1, s2, s3, by rw [t.bytes, List.append_nil]; exact s4⟩
  have add : ∀ {bs : List Nat}, Took r r' bs → Sync b row { a with ops := a.ops ++ bs } r' c := fun t =>
    ⟨s1, s2, s3, by rw [t.bytes, s4]; rfl⟩
  have code : ∀ f, field b m = some f → (a.opc ||| f) % 256 = b := by
    intro f hf
    rw [hf] at w34
    simp only [Bool.and_eq_true, beq_iff_eq] at w34
    rw [s2]
    rcases s3 with rfl | rfl
    · exact w34.1
    · exact w34.2
  have embed : ∀ n f, field b m = some f → n = f → Took r r' [] →
      Sync b row (a.embed n) r' (if (field b m).isSome then b else c) := by
    intro n f hf hn t
    subst hn
    have hif : (if (field b m).isSome then b else c) = b := by rw [hf]; rfl
    rw [hif]
    exact ⟨s1, code _ hf, Or.inr rfl, (nop t).bytes⟩
  have put : ∀ {v : Nat}, v < 256 → Took r r' [v] → Sync b row (a.emit8 v) r' c := by
    intro v hv t
    unfold Asm.emit8
    rw [show v % 256 = v by omega]
    exact add t
  have ok1 : ∀ e : Err, a.check false e = a := fun _ => rfl
  unfold encodeOperand
  rw [k1, Asm.noError]
  cases m with
  | NONE => exact absurd rfl w31
  | UNDEF => exact absurd rfl w32
  | C4 => exact absurd rfl hc4
  | REG =>
    obtain ⟨rfl, k6, k7⟩ := k5
    refine ⟨_, rfl, ?_⟩
    rw [k7, over_nat (by omega) (by omega) (by decide), getUnsigned_nat (by omega), ok1,
      show (b % 16 == 15) = false by simpa using k6, ok1]
    exact embed _ _ rfl (by omega) k3
  | IOS =>
    obtain ⟨rfl, k6, k7, k8⟩ := k5
    refine ⟨_, rfl, ?_⟩
    rw [k8, over_nat (by omega) (by omega) (by decide), getUnsigned_nat (by omega),
      show (b % 16 == 2 || b % 16 == 3) = false by simp [k6, k7], ok1, ok1]
    exact embed _ _ rfl (by omega) k3
  | IM4 =>
    obtain ⟨rfl, k7⟩ := k5
    refine ⟨_, rfl, ?_⟩
    rw [k7, over_nat (by omega) (by omega) (by decide), getUnsigned_nat (by omega), ok1]
    exact embed _ _ rfl (by omega) k3
  | IM3 =>
    obtain ⟨rfl, k7⟩ := k5
    refine ⟨_, rfl, ?_⟩
    rw [k7, over_nat (by omega) (by omega) (by decide), getUnsigned_nat (by omega), ok1]
    exact embed _ _ rfl (by omega) k3
  | C1 =>
    obtain ⟨rfl, k7⟩ := k5
    refine ⟨a, ?_, nop k3⟩
    rw [k7]
    rfl
  | IM8 =>
    obtain ⟨v, h1, rfl, h3⟩ := k5
    refine ⟨_, rfl, ?_⟩
    unfold Value.overflowUint8
    rw [h3, over_nat (by omega) (by omega) (by decide), getUnsigned_nat (by omega), ok1]
    exact put h1 k3
  | IOA =>
    obtain ⟨v, h1, h2, rfl, h3⟩ := k5
    refine ⟨_, rfl, ?_⟩
    have hov : (⟨v, .unsigned⟩ : Value).overflow 3 0 = true := by
      exact (by decide +kernel : ∀ v < 256, 4 ≤ v → (⟨v, .unsigned⟩ : Value).overflow 3 0 = true) v h1 h2
    unfold Value.overflowUint8
    rw [h3, over_nat (max := 255) (by omega) (by omega) (by decide), getUnsigned_nat (by omega), hov]
    exact put h1 k3
  | ADDR =>
    obtain ⟨v, h1, rfl, h3⟩ := k5
    refine ⟨_, rfl, ?_⟩
    rw [h3, getUnsigned_nat h1]
    unfold Asm.emit16be
    rw [show v / 256 % 256 = v / 256 by omega]
    exact add k3
  | REL =>
    obtain ⟨v, w, h1, h2, rfl, h4, h5⟩ := k5
    refine ⟨{ a with ops := a.ops ++ [v] }, ?_, add k3⟩
    show encodeRelative addr op a = _
    unfold encodeRelative
    have hbase : (addr + 1) % Config.W = addr + 1 := by unfold Config.W; omega
    rw [hbase, k1]
    dsimp only
    rw [if_neg (by simp), h5, getUnsigned_nat h2]
    exact Asm.rel8_near (by decide) (by decide) h1 (by unfold Config.W; omega) (by omega) h4 s1
  | _ =>
    have : bs = [] := k5
    subst this
    exact ⟨_, rfl, nop k3⟩

end

/-! ### The table -/

theorem accept_cls (m t : Mode) : acceptMode m t = acceptMode (cls m) t := by
  cases m <;> cases t <;> rfl

theorem accept_ops (ops : List Mode) (r : Row) : acceptModes ops r = acceptModes (ops.map cls) r := by
  have : ∀ (ops ms : List Mode), ((ops.zip ms).all fun p => acceptMode p.1 p.2) =
      (((ops.map cls).zip ms).all fun p => acceptMode p.1 p.2) := by
    intro ops
    induction ops with
    | nil => intro ms; rfl
    | cons m ops ih =>
      intro ms
      cases ms with
      | nil => rfl
      | cons t ms =>
        rw [List.map_cons, List.zip_cons_cons, List.zip_cons_cons, List.all_cons, List.all_cons, ih, accept_cls]
  exact this _ _

theorem search_cls (name : List Char) (ops : List Mode) : searchName name ops = searchName name (ops.map cls) := by
  unfold searchName
  rw [show acceptModes ops = acceptModes (ops.map cls) from funext (accept_ops ops)]

/-- The entry that is found is this one. -/
def rowIs (x : Out (Except Err Row)) (row : Row) : Bool :=
  match x with
  | .ok (.ok r) => decide (r = row)
  | _ => false

theorem rowIs_eq {x : Out (Except Err Row)} {row : Row} (h : rowIs x row = true) : x = .ok (.ok row) := by
  unfold rowIs at h
  split at h
  · rw [of_decide_eq_true h]
  · cases h

/-- The entry of the shift by one, from which that by four is made. -/
def shiftIs (x : Out (Except Err Row)) (b : Nat) : Bool :=
  match x with
  | .ok (.ok r) => decide (modes r = [.C1]) && (r.opcode + 2) % 256 == b
  | _ => false

theorem shiftIs_eq {x : Out (Except Err Row)} {b : Nat} (h : shiftIs x b = true) :
    ∃ r, x = .ok (.ok r) ∧ modes r = [.C1] ∧ (r.opcode + 2) % 256 = b := by
  unfold shiftIs at h
  split at h
  · simp only [Bool.and_eq_true, decide_eq_true_eq, beq_iff_eq] at h
    exact ⟨_, rfl, h.1, h.2⟩
  · cases h

def nameOk (b : Nat) (row : Row) (up : Bool) : Bool :=
  nameB syntaxOf (row.name.map (letter up)) &&
  decide (hasOperand (row.name.map (letter up)) = .ok (decide (modes row ≠ []))) &&
  if modes row = [.C4] then shiftIs (searchName (row.name.map (letter up)) [.IM8, .NONE]) b
  else rowIs (searchName (row.name.map (letter up)) (pad 2 .NONE ((modes row).map (pmode b)))) row

/-- What the table has to say for a code. -/
def codeOk (b : Nat) : Bool :=
  match searchOpCode b with
  | none => true
  | some row => rowOk b row && nameOk b row false && nameOk b row true

theorem codes_ok : ∀ b < 256, codeOk b = true := by decide +kernel

end Libasm.Cpu.F3850
