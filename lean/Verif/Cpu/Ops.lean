import Verif.Cpu.Kit
import Verif.Cpu.Back
import Verif.Cpu.ListModel
/-
Lists of operands, as most CPUs have them: printing them one after the other, reading them one
after the other, and putting them into the instruction. The lemmas lift what is proved of one operand
to the list.
-/
namespace Libasm.Cpu
open Scan Number Number.Spec Eval

section
variable {M O A : Type}

theorem pad_length {α : Type} (d : α) : ∀ (n : Nat) (l : List α), (pad n d l).length = n
  | 0, _ => rfl
  | n + 1, [] => congrArg (· + 1) (pad_length d n [])
  | n + 1, _ :: l => congrArg (· + 1) (pad_length d n l)

theorem pad_map {α β : Type} (f : α → β) (d : α) : ∀ (n : Nat) (l : List α),
    (pad n d l).map f = pad n (f d) (l.map f)
  | 0, _ => rfl
  | n + 1, [] => by simp only [pad, List.map, pad_map f d n []]
  | n + 1, a :: l => by simp only [pad, List.map, pad_map f d n l]

theorem pad_full {α : Type} (d : α) : ∀ (l : List α), pad l.length d l = l
  | [] => rfl
  | a :: l => congrArg (a :: ·) (pad_full d l)

/-- Missing operands add nothing. -/
theorem emit_pad {emit : M → O → A → Out A} {m0 : M} {o0 : O} (h0 : ∀ a, emit m0 o0 a = .ok a) :
    ∀ (n : Nat) (ms : List M) (ops : List O) (a : A), ms.length = ops.length → ms.length ≤ n →
      emitList emit ((pad n m0 ms).zip (pad n o0 ops)) a = emitList emit (ms.zip ops) a
  | 0, [], _, a, _, _ => by simp [pad]
  | n + 1, [], [], a, _, _ => by
    have ih := emit_pad h0 n [] [] a rfl (Nat.zero_le _)
    simp only [pad, List.zip_cons_cons, emitList, h0, Out.ok_bind]
    exact ih
  | n + 1, m :: ms, op :: ops, a, hl, hn => by
    simp only [pad, List.zip_cons_cons, emitList]
    congr 1
    funext b
    exact emit_pad h0 n ms ops b (Nat.succ.inj hl) (Nat.le_of_succ_le_succ hn)
  | _, [], _ :: _, _, hl, _ => by cases hl
  | _, _ :: _, [], _, hl, _ => by cases hl
  | 0, _ :: _, _ :: _, _, _, hn => by cases hn

/-- One operand after the other. -/
def Chain (Rel : M → Rd → Rd → O → Prop) : List M → Rd → Rd → List O → Prop
  | [], r, r', [] => r = r'
  | m :: ms, r, r', op :: ops => ∃ r1, Rel m r r1 op ∧ Chain Rel ms r1 r' ops
  | _, _, _, _ => False

/-- What can follow an operand: the end, or a comma, a space and more. -/
def AfterOp (rest : List Char) : Prop := rest = [] ∨ ∃ t, rest = ',' :: ' ' :: t

/-- There is room for so many operands more. -/
structure Room (k : Nat) (r : Rd) : Prop where
  mem : ∀ b ∈ r.mem, b < 256
  len : r.bytes.length + 10 * k ≤ 100

theorem Room.less {k : Nat} {r : Rd} (h : Room (k + 1) r) : Room k r :=
  ⟨h.mem, by have := h.len; omega⟩

theorem Room.took {k : Nat} {r r' : Rd} {bs : List Nat} (h : Room (k + 1) r) (ht : Took r r' bs)
    (hb : bs.length ≤ 10) : Room k r' := by
  refine ⟨?_, ?_⟩
  · intro b hb
    exact h.mem b (by rw [ht.mem]; exact List.mem_append_right _ hb)
  · have := h.len
    rw [ht.bytes, List.length_append]
    omega

/-- What can follow an operand, when it matters how the next one begins. -/
def AfterHd (Hd : List Char → Prop) (rest : List Char) : Prop :=
  rest = [] ∨ ∃ t, rest = ',' :: ' ' :: t ∧ Hd t

/-- What is printed for a list of operands is read as that list. `Rel m r r' op` says that the operand
of mode `m` was decoded from `r` to `r'` and is read as `op`, `Hd` how the text of an operand begins. -/
theorem list_reads_hd {Hd : List Char → Prop} {dec : M → Rd → List Char × Rd}
    {parse : Scan → Out (Except (Err × Scan) (O × Scan))} {Rel : M → Rd → Rd → O → Prop}
    (hskip : ∀ s, parse (' ' :: s) = parse s)
    (hmono : ∀ m r, (dec m r).2.err = .OK → r.err = .OK)
    (hlen : ∀ m r r' op, Rel m r r' op → ∃ bs, Took r r' bs ∧ bs.length ≤ 10) :
    ∀ (ms : List M) (n : Nat) (r : Rd), ms ≠ [] → ms.length ≤ n → Room ms.length r →
      (∀ m ∈ ms, ∀ k r, Room (k + 1) r → (dec m r).2.err = .OK → ∃ op, Rel m r (dec m r).2 op ∧
        (∀ rest, Hd ((dec m r).1 ++ rest)) ∧
        ∀ rest, AfterHd Hd rest → parse ((dec m r).1 ++ rest) = .ok (.ok (op, rest))) →
      (decodeList dec ms r).2.err = .OK →
      Hd (decodeList dec ms r).1 ∧
      ∃ ops, Chain Rel ms r (decodeList dec ms r).2 ops ∧
        operandList parse n (decodeList dec ms r).1 = .ok (.ok (ops, []))
  | [], _, _, h, _, _, _, _ => absurd rfl h
  | [m], n + 1, r, _, _, hr, h1, he => by
    obtain ⟨op, h2, h0, h3⟩ := h1 m (List.mem_cons_self ..) _ r hr he
    have h0' := h0 []
    rw [List.append_nil] at h0'
    refine ⟨h0', [op], ⟨_, h2, rfl⟩, ?_⟩
    have := h3 [] (Or.inl rfl)
    rw [List.append_nil] at this
    show operandList parse (n + 1) (dec m r).1 = _
    unfold operandList
    rw [this, Out.ok_bind]
    cases n <;> rfl
  | m :: m' :: ms, 1, r, _, hn, _, _, _ => by simp at hn
  | m :: m' :: ms, n + 2, r, _, hn, hr, h1, he => by
    have hlist : ∀ (l : List M) (r : Rd), (decodeList dec l r).2.err = .OK → r.err = .OK := by
      intro l
      induction l with
      | nil => intro r h; exact h
      | cons a l ih =>
        intro r h
        cases l with
        | nil => exact hmono _ _ h
        | cons b l => exact hmono _ _ (ih _ h)
    have he1 : (dec m r).2.err = .OK := hlist (m' :: ms) _ he
    obtain ⟨op, h2, h0, h3⟩ := h1 m (List.mem_cons_self ..) _ r hr he1
    obtain ⟨bs, h4, h5⟩ := hlen m r _ op h2
    obtain ⟨hd, ops, h6, h7⟩ := list_reads_hd hskip hmono hlen (m' :: ms) (n + 1) (dec m r).2
      (List.cons_ne_nil _ _) (Nat.le_of_succ_le_succ hn) (hr.took h4 h5)
      (fun x hx => h1 x (List.mem_cons_of_mem _ hx)) he
    refine ⟨h0 _, op :: ops, ⟨_, h2, h6⟩, ?_⟩
    show operandList parse (n + 2) ((dec m r).1 ++ ',' :: ' ' :: (decodeList dec (m' :: ms) (dec m r).2).1) = _
    unfold operandList
    rw [h3 _ (Or.inr ⟨_, rfl, hd⟩), Out.ok_bind]
    show Out.bind (operandList parse (n + 1) (' ' :: (decodeList dec (m' :: ms) (dec m r).2).1)) _ = _
    have : operandList parse (n + 1) (' ' :: (decodeList dec (m' :: ms) (dec m r).2).1) =
        operandList parse (n + 1) (decodeList dec (m' :: ms) (dec m r).2).1 := by
      unfold operandList
      rw [hskip]
    rw [this, h7]
    rfl
  | _ :: _, 0, _, _, hn, _, _, _ => by cases hn

/-- `list_reads_hd`, when it does not matter how an operand begins. -/
theorem list_reads {dec : M → Rd → List Char × Rd}
    {parse : Scan → Out (Except (Err × Scan) (O × Scan))} {Rel : M → Rd → Rd → O → Prop}
    (hskip : ∀ s, parse (' ' :: s) = parse s)
    (hmono : ∀ m r, (dec m r).2.err = .OK → r.err = .OK)
    (hlen : ∀ m r r' op, Rel m r r' op → ∃ bs, Took r r' bs ∧ bs.length ≤ 10)
    (ms : List M) (n : Nat) (r : Rd) (h0 : ms ≠ []) (hn : ms.length ≤ n) (hr : Room ms.length r)
    (h : ∀ m ∈ ms, ∀ k r, Room (k + 1) r → (dec m r).2.err = .OK → ∃ op, Rel m r (dec m r).2 op ∧
        ∀ rest, AfterOp rest → parse ((dec m r).1 ++ rest) = .ok (.ok (op, rest)))
    (he : (decodeList dec ms r).2.err = .OK) :
    ∃ ops, Chain Rel ms r (decodeList dec ms r).2 ops ∧
      operandList parse n (decodeList dec ms r).1 = .ok (.ok (ops, [])) := by
  refine (list_reads_hd (Hd := fun _ => True) hskip hmono hlen ms n r h0 hn hr ?_ he).2
  intro m hm k r hr he
  obtain ⟨op, h1, h2⟩ := h m hm k r hr he
  refine ⟨op, h1, fun _ => trivial, fun rest hrest => h2 rest ?_⟩
  rcases hrest with h | ⟨t, h, _⟩
  · exact Or.inl h
  · exact Or.inr ⟨t, h⟩

theorem operands_skip {parse : Scan → Out (Except (Err × Scan) (O × Scan))}
    (h : ∀ s, parse (skipSpaces s) = parse s) (n : Nat) (s : Scan) :
    operandList parse (n + 1) (skipSpaces s) = operandList parse (n + 1) s := by
  unfold operandList
  rw [h]

/-- The operands of a chain have the modes of what they are read as. -/
theorem chain_map {β : Type} {Rel : M → Rd → Rd → O → Prop} {f : M → β} {g : O → β}
    (h : ∀ m r r' op, Rel m r r' op → g op = f m) : ∀ (ms : List M) (r r' : Rd) (ops : List O),
      Chain Rel ms r r' ops → ops.map g = ms.map f
  | [], _, _, [], _ => rfl
  | m :: ms, r, r', op :: ops, hc => by
    obtain ⟨r1, h1, h2⟩ := hc
    rw [List.map_cons, List.map_cons, h m r r1 op h1, chain_map h ms r1 r' ops h2]

theorem chain_length {Rel : M → Rd → Rd → O → Prop} : ∀ (ms : List M) (r r' : Rd) (ops : List O),
    Chain Rel ms r r' ops → ms.length = ops.length
  | [], _, _, [], _ => rfl
  | m :: ms, r, r', op :: ops, hc => by
    obtain ⟨r1, h1, h2⟩ := hc
    rw [List.length_cons, List.length_cons, chain_length ms r1 r' ops h2]

/-- What a chain takes from the memory. -/
theorem chain_took {Rel : M → Rd → Rd → O → Prop}
    (h : ∀ m r r' op, Rel m r r' op → ∃ bs, Took r r' bs) :
    ∀ (ms : List M) (r r' : Rd) (ops : List O), r'.err = .OK → Chain Rel ms r r' ops → ∃ bs, Took r r' bs
  | [], r, r', [], he, hc => by
    have : r = r' := hc
    subst this
    exact ⟨[], Took.refl he⟩
  | m :: ms, r, r', op :: ops, he, hc => by
    obtain ⟨r1, h1, h2⟩ := hc
    obtain ⟨b1, t1⟩ := h m r r1 op h1
    obtain ⟨b2, t2⟩ := chain_took h ms r1 r' ops he h2
    exact ⟨b1 ++ b2, t1.trans t2⟩

/-- The operands of a chain are put into the instruction. `Sync a r c`: the instruction `a` so far has
the code `c`, and the bytes that were read up to `r`; `emb` adds the bits of an operand. -/
theorem chain_emit {C : Type} {Rel : M → Rd → Rd → O → Prop} {emit : M → O → A → Out A}
    {Sync : A → Rd → C → Prop} {emb : M → C → C} : ∀ (ms : List M) (r r' : Rd) (ops : List O) (a : A) (c : C),
    (∀ m ∈ ms, ∀ r r' op a c, Rel m r r' op → Sync a r c →
      ∃ a', emit m op a = .ok a' ∧ Sync a' r' (emb m c)) →
    Chain Rel ms r r' ops → Sync a r c →
    ∃ a', emitList emit (ms.zip ops) a = .ok a' ∧ Sync a' r' (ms.foldl (fun c m => emb m c) c)
  | [], r, r', [], a, c, _, hc, hs => by
    have : r = r' := hc
    subst this
    exact ⟨a, rfl, hs⟩
  | m :: ms, r, r', op :: ops, a, c, h, hc, hs => by
    obtain ⟨r1, h1, h2⟩ := hc
    obtain ⟨a1, h3, h4⟩ := h m (List.mem_cons_self ..) r r1 op a c h1 hs
    obtain ⟨a2, h5, h6⟩ := chain_emit ms r1 r' ops a1 (emb m c)
      (fun x hx => h x (List.mem_cons_of_mem _ hx)) h2 h4
    refine ⟨a2, ?_, h6⟩
    show (emit m op a).bind _ = _
    rw [h3, Out.ok_bind]
    exact h5

/-- `encode_line`, for what skips the spaces before the operands. -/
theorem encode_operands_eq {S : Syntax} {width : Nat} {impl : List Char → Scan → Out Res} {addr : Nat}
    {name sep operands : List Char} (hS : SyntaxOk S) (hn : nameB S name = true)
    (hsep : Blank sep) (hskip : impl name (skipSpaces operands) = impl name operands)
    (ha : Config.checkAddr width addr false = .OK) :
    encode S width impl addr (name ++ sep ++ operands) = (impl name operands).bind fun r => .ok (.insn r) := by
  have hd : ∀ s : List Char, skipSpaces (skipSpaces s) = skipSpaces s := by
    intro s
    unfold skipSpaces trimStart
    induction s with
    | nil => rfl
    | cons c s ih =>
      rw [List.dropWhile_cons]
      split
      · exact ih
      · rw [List.dropWhile_cons, if_neg (by assumption)]
  have hsep' : Blank (sep ++ operands.takeWhile Ctype.isSpace) := by
    refine ⟨by simp [hsep.1], ?_⟩
    intro c hc
    rcases List.mem_append.1 hc with hc | hc
    · exact hsep.2 c hc
    · have : ∀ (l : List Char), c ∈ l.takeWhile Ctype.isSpace → Ctype.isSpace c = true := by
        intro l
        induction l with
        | nil => intro h; cases h
        | cons d l ih =>
          rw [List.takeWhile_cons]
          split
          · intro h
            rcases List.mem_cons.1 h with rfl | h
            · assumption
            · exact ih h
          · intro h; cases h
      exact this _ hc
  unfold nameB at hn
  simp only [Bool.and_eq_true, decide_eq_true_eq, List.all_eq_true, Bool.not_eq_true'] at hn
  obtain ⟨⟨⟨h1, h2⟩, h3⟩, h4⟩ := hn
  cases name with
  | nil => cases h1
  | cons c t =>
    have := encode_line (impl := impl) (operands := skipSpaces operands)
      ⟨List.cons_ne_nil _ _, h2, fun d hd => ⟨(h3 d hd).1.1, (h3 d hd).1.2, (h3 d hd).2⟩⟩
      hS.space (fun rest => hS.comment c _ h1) h4 hsep' (hd operands) ha
    rw [hskip] at this
    rw [← this]
    congr 1
    unfold skipSpaces trimStart
    simp only [List.append_assoc]
    rw [List.takeWhile_append_dropWhile]

/-- `encode_name`, for what skips the spaces before the operands. -/
theorem encode_operands {S : Syntax} {width : Nat} {impl : List Char → Scan → Out Res} {addr : Nat}
    {name sep operands : List Char} (hS : SyntaxOk S) (hn : nameB S name = true)
    (hsep : Blank sep) (hskip : impl name (skipSpaces operands) = impl name operands)
    (ha : Config.checkAddr width addr false = .OK) {r : Res} (hi : impl name operands = .ok r) :
    encode S width impl addr (name ++ sep ++ operands) = .ok (.insn r) := by
  rw [encode_operands_eq hS hn hsep hskip ha, hi]
  rfl

/-! ### Back: from the operands to their bytes -/

/-- Bytes that fit the modes, one after the other; `n` bytes come before. -/
def Fit (Fits : M → Nat → List Nat → Prop) : List M → Nat → List Nat → Prop
  | [], _, bs => bs = []
  | m :: ms, n, bs => ∃ x y, bs = x ++ y ∧ Fits m n x ∧ Fit Fits ms (n + x.length) y

theorem emit_mono {emit : M → O → Asm → Out Asm}
    (hmono : ∀ m op a a', emit m op a = .ok a' → a'.err = .OK → a.err = .OK) :
    ∀ (l : List (M × O)) (a a' : Asm), emitList emit l a = .ok a' → a'.err = .OK → a.err = .OK
  | [], a, a', he, ho => by
    have : a = a' := by injection he
    rw [this]; exact ho
  | (m, op) :: l, a, a', he, ho => by
    obtain ⟨a1, h1, h2⟩ := bind_ok he
    exact hmono _ _ _ _ h1 (emit_mono hmono l a1 a' h2 ho)

/-- What is emitted for the operands fits their modes. `P` says what is known of the instruction when
some modes are still to come. -/
theorem emit_fit {emit : M → O → Asm → Out Asm} {P : List M → Asm → Prop} {Q : M → O → Prop}
    {Fits : M → Nat → List Nat → Prop}
    (hmono : ∀ m op a a', emit m op a = .ok a' → a'.err = .OK → a.err = .OK)
    (h : ∀ m ms op a a', Q m op → P (m :: ms) a → emit m op a = .ok a' → a'.err = .OK →
      P ms a' ∧ ∃ x, a'.ops = a.ops ++ x ∧ Fits m (1 + a.ops.length) x) :
    ∀ (l : List (M × O)) (a a' : Asm), (∀ p ∈ l, Q p.1 p.2) → P (l.map (·.1)) a →
      emitList emit l a = .ok a' → a'.err = .OK →
      a.err = .OK ∧ P [] a' ∧ ∃ x, a'.ops = a.ops ++ x ∧ Fit Fits (l.map (·.1)) (1 + a.ops.length) x
  | [], a, a', _, hp, he, ho => by
    have : a = a' := by injection he
    subst this
    exact ⟨ho, hp, [], by rw [List.append_nil], rfl⟩
  | (m, op) :: l, a, a', hq, hp, he, ho => by
    obtain ⟨a1, h1, h2⟩ := bind_ok he
    have key := fun hx : a1.err = .OK => h m (l.map (fun p : M × O => p.1)) op a a1
      (hq (m, op) (List.mem_cons_self ..)) hp h1 hx
    have hq' : ∀ p ∈ l, Q p.1 p.2 := fun p hp => hq p (List.mem_cons_of_mem _ hp)
    have mono : a1.err = .OK := emit_mono hmono l a1 a' h2 ho
    obtain ⟨k2, x, k3, k4⟩ := key mono
    obtain ⟨_, g2, y, g3, g4⟩ := emit_fit hmono h l a1 a' hq' k2 h2 ho
    refine ⟨hmono _ _ _ _ h1 mono, g2, x ++ y, by rw [g3, k3, List.append_assoc], x, y, rfl, k4, ?_⟩
    rw [k3, List.length_append] at g4
    rw [Nat.add_assoc]
    exact g4

/-- Missing operands have no bytes. -/
theorem fit_pad {Fits : M → Nat → List Nat → Prop} {m0 : M} (h0 : ∀ n x, Fits m0 n x → x = []) :
    ∀ (k : Nat) (ms : List M) (n : Nat) (bs : List Nat), ms.length ≤ k →
      Fit Fits (pad k m0 ms) n bs → Fit Fits ms n bs
  | 0, [], _, _, _, h => h
  | k + 1, [], n, bs, _, h => by
    obtain ⟨x, y, rfl, h1, h2⟩ := h
    have := h0 n x h1
    subst this
    exact fit_pad h0 k [] n y (Nat.zero_le _) h2
  | k + 1, m :: ms, n, bs, hl, h => by
    obtain ⟨x, y, rfl, h1, h2⟩ := h
    exact ⟨x, y, rfl, h1, fit_pad h0 k ms _ y (Nat.le_of_succ_le_succ hl) h2⟩
  | 0, _ :: _, _, _, hl, _ => by cases hl

/-- Bytes that fit are decoded without error, all of them. -/
theorem list_decoded {dec : M → Rd → List Char × Rd} {Fits : M → Nat → List Nat → Prop} (T : Nat) :
    ∀ (ms : List M) (bs : List Nat) (rest bytes : List Nat),
      (∀ m ∈ ms, ∀ x rest bytes, bytes.length + x.length ≤ T → Fits m bytes.length x →
        (dec m ⟨x ++ rest, bytes, .OK⟩).2 = ⟨rest, bytes ++ x, .OK⟩) →
      bytes.length + bs.length ≤ T → Fit Fits ms bytes.length bs →
      (decodeList dec ms ⟨bs ++ rest, bytes, .OK⟩).2 = ⟨rest, bytes ++ bs, .OK⟩
  | [], bs, rest, bytes, _, _, hf => by
    have : bs = [] := hf
    subst this
    rw [List.append_nil]
    rfl
  | [m], bs, rest, bytes, h, hT, hf => by
    obtain ⟨x, y, rfl, h1, h2⟩ := hf
    have : y = [] := h2
    subst this
    rw [List.append_nil] at hT ⊢
    exact h m (List.mem_cons_self ..) x rest bytes hT h1
  | m :: m' :: ms, bs, rest, bytes, h, hT, hf => by
    obtain ⟨x, y, rfl, h1, h2⟩ := hf
    rw [List.length_append] at hT
    have e := h m (List.mem_cons_self ..) x (y ++ rest) bytes (by omega) h1
    show (decodeList dec (m' :: ms) (dec m ⟨x ++ y ++ rest, bytes, .OK⟩).2).2 = _
    rw [List.append_assoc, e]
    have := list_decoded T (m' :: ms) y rest (bytes ++ x) (fun k hk => h k (List.mem_cons_of_mem _ hk))
      (by rw [List.length_append]; omega) (by rw [List.length_append]; exact h2)
    rw [this, List.append_assoc]

/-- Every operand read is as `parse` leaves it, and there are not too many. -/
theorem operands_all {parse : Scan → Out (Except (Err × Scan) (O × Scan))} {Q : O → Prop}
    (h : ∀ s op p, parse s = .ok (.ok (op, p)) → Q op) : ∀ (n : Nat) (s : Scan) (ops : List O) (p : Scan),
      operandList parse n s = .ok (.ok (ops, p)) → (∀ op ∈ ops, Q op) ∧ ops.length ≤ n
  | 0, s, ops, p, he => by
    injection he with he
    injection he with he
    injection he with h1 h2
    subst h1
    exact ⟨by simp, Nat.le_refl _⟩
  | n + 1, s, ops, p, he => by
    unfold operandList at he
    obtain ⟨r, h1, h2⟩ := bind_ok he
    cases r with
    | error e => injection h2 with h2; cases h2
    | ok r =>
      obtain ⟨op, s'⟩ := r
      have hq := h _ _ _ h1
      have one : ∀ p', Out.ok (Except.ok ([op], p')) = (Out.ok (Except.ok (ops, p)) :
          Out (Except (Err × Scan) (List O × Scan))) → (∀ op ∈ ops, Q op) ∧ ops.length ≤ n + 1 := by
        intro p' he
        injection he with he
        injection he with he
        injection he with h3 h4
        subst h3
        refine ⟨?_, by simp⟩
        intro x hx
        rw [List.mem_singleton] at hx
        exact hx ▸ hq
      dsimp only at h2
      split at h2
      · exact one _ h2
      · exact one _ h2
      · obtain ⟨r, h3, h4⟩ := bind_ok h2
        cases r with
        | error e => injection h4 with h4; cases h4
        | ok r =>
          obtain ⟨ops', s2⟩ := r
          obtain ⟨g1, g2⟩ := operands_all h _ _ _ _ h3
          injection h4 with h4
          injection h4 with h4
          injection h4 with h5 h6
          subst h5
          refine ⟨?_, ?_⟩
          · intro x hx
            rcases List.mem_cons.1 hx with rfl | hx
            · exact hq
            · exact g1 x hx
          · rw [List.length_cons]; omega

/-- The error that ends the operands is that of one of them. -/
theorem operands_err {parse : Scan → Out (Except (Err × Scan) (O × Scan))} {Q : Err → Prop}
    (h : ∀ s e p, parse s = .ok (.error (e, p)) → Q e) : ∀ (n : Nat) (s : Scan) (e : Err) (p : Scan),
      operandList parse n s = .ok (.error (e, p)) → Q e
  | 0, s, e, p, he => by
    injection he with he
    cases he
  | n + 1, s, e, p, he => by
    unfold operandList at he
    obtain ⟨r, h1, h2⟩ := bind_ok he
    cases r with
    | error e' =>
      injection h2 with h2
      injection h2 with h2
      subst h2
      exact h _ _ _ h1
    | ok r =>
      obtain ⟨op, s'⟩ := r
      dsimp only at h2
      split at h2
      · injection h2 with h2; cases h2
      · injection h2 with h2; cases h2
      · obtain ⟨r, h3, h4⟩ := bind_ok h2
        cases r with
        | error e' =>
          injection h4 with h4
          injection h4 with h4
          subst h4
          exact operands_err h _ _ _ _ h3
        | ok r => injection h4 with h4; cases h4

theorem zip_fst {α β : Type} : ∀ (a : List α) (b : List β), a.length = b.length → (a.zip b).map (·.1) = a
  | [], _, _ => rfl
  | x :: a, y :: b, h => by rw [List.zip_cons_cons, List.map_cons, zip_fst a b (Nat.succ.inj h)]

/-- What is said of each operand with the mode of the table. -/
theorem zip_all {N : Type} {f : N → M → Bool} {g : O → N} : ∀ (ms : List M) (ops : List O),
    ((ops.map g).zip ms).all (fun p => f p.1 p.2) = true → ∀ p ∈ ms.zip ops, f (g p.2) p.1 = true
  | [], ops, _, p, hp => by simp at hp
  | _ :: _, [], _, p, hp => by simp at hp
  | m :: ms, op :: ops, h, p, hp => by
    rw [List.map_cons, List.zip_cons_cons, List.all_cons, Bool.and_eq_true] at h
    rw [List.zip_cons_cons] at hp
    rcases List.mem_cons.1 hp with rfl | hp
    · exact h.1
    · exact zip_all ms ops h.2 p hp

theorem pad_all {α : Type} {d : α} {f : α → Prop} (hd : f d) : ∀ (n : Nat) (l : List α), (∀ x ∈ l, f x) →
    ∀ x ∈ pad n d l, f x
  | 0, _, _, x, hx => by cases hx
  | n + 1, [], h, x, hx => by
    rcases List.mem_cons.1 hx with rfl | hx
    · exact hd
    · exact pad_all hd n [] h x hx
  | n + 1, a :: l, h, x, hx => by
    rcases List.mem_cons.1 hx with rfl | hx
    · exact h _ (List.mem_cons_self ..)
    · exact pad_all hd n l (fun y hy => h y (List.mem_cons_of_mem _ hy)) x hx

theorem length_three {α : Type} {l : List α} (h : l.length = 3) : ∃ a b c, l = [a, b, c] := by
  match l, h with
  | [a, b, c], _ => exact ⟨a, b, c, rfl⟩

/-! ### The instruction -/

theorem Asm.noError (a : Asm) : a.setErrorIf .OK = a := by
  unfold Asm.setErrorIf Config.setErrorIf
  simp

theorem Asm.check_ok {a : Asm} {c : Bool} {e : Err} (he : e ≠ .OK) (h : (a.check c e).err = .OK) :
    a.err = .OK ∧ c = false ∧ a.check c e = a := by
  unfold Asm.check at *
  cases c with
  | false => exact ⟨h, rfl, rfl⟩
  | true => exact absurd (setErrorIf_ok h).2 he

theorem int8_range (v : Nat) (h : v < 256) : -128 ≤ int8 v ∧ int8 v < 128 := by
  unfold int8
  split <;> omega

/-- A branch to a target in reach. -/
theorem Asm.rel8_near {a : Asm} {w base v target : Nat} (h0 : 8 ≤ w) (hw : w ≤ 32) (hv : v < 256)
    (hb : base < Config.W) (ht : target < 2 ^ w) (hd : (target : Int) = base + int8 v)
    (he : a.err = .OK) : a.rel8 w base target = .ok { a with ops := a.ops ++ [v] } := by
  have hi := int8_range v hv
  have h8 : 2 ^ 7 ≤ 2 ^ (w - 1) := Nat.pow_le_pow_right (by decide) (by omega)
  unfold Asm.rel8
  rw [he, branch_near (by omega) hw hb ht (by omega) (by omega)]
  show Out.bind (.ok _) _ = _
  rw [Out.ok_bind]
  dsimp only
  rw [show (target : Int) - base = int8 v by omega, Config.overflowDelta_eq (by decide) (by decide)]
  show Out.bind (.ok _) _ = _
  rw [Out.ok_bind, show (decide ¬(-((2 ^ (8 - 1) : Nat) : Int) ≤ int8 v ∧ int8 v < ((2 ^ (8 - 1) : Nat) : Int))) = false by
    simp only [Nat.reduceSub, Nat.reducePow, decide_eq_false_iff_not]; omega]
  have hb : (int8 v % 256).toNat % 256 = v := by
    unfold int8
    split <;> omega
  unfold Asm.check Asm.emit8
  simp only [hb, ← he]
  rfl

/-- What a displacement that was emitted without error was computed from. -/
theorem Asm.rel8_back {a a' : Asm} {w base target : Nat} (h0 : 0 < w) (hw : w ≤ 32)
    (h : a.rel8 w base target = .ok a') (he : a'.err = .OK) :
    a.err = .OK ∧ a'.opc = a.opc ∧ ∃ v, v < 256 ∧ a'.ops = a.ops ++ [v] ∧
      (base ≤ 2 ^ w → base < Config.W → target < Config.W →
        target < 2 ^ w ∧ (target : Int) = base + int8 v) := by
  unfold Asm.rel8 at h
  obtain ⟨⟨d, e⟩, h1, h2⟩ := bind_ok h
  obtain ⟨far, h3, h4⟩ := bind_ok h2
  injection h4 with h4
  subst h4
  have hc := Asm.check_ok (by decide) (show ((({ a with err := e } : Asm).check far .OPERAND_TOO_FAR)).err = .OK from he)
  obtain ⟨k1, k2, k3⟩ := hc
  have k1 : e = .OK := k1
  subst k1 k2
  have hb : Config.branchDelta w base target a.err = some (d, .OK) := by
    unfold ofOption at h1
    split at h1
    · rename_i heq
      rw [heq]
      injection h1 with h1
      rw [h1]
    · cases h1
  have ho : Config.overflowDelta d 8 = some false := by
    unfold ofOption at h3
    split at h3
    · rename_i heq
      rw [heq]
      injection h3 with h3
      rw [h3]
    · cases h3
  rw [Config.overflowDelta_eq (by decide) (by decide)] at ho
  injection ho with ho
  simp only [Nat.reduceSub, Nat.reducePow, decide_eq_false_iff_not, Decidable.not_not] at ho
  have hi : int8 ((d % 256).toNat % 256) = d := by
    unfold int8
    split <;> omega
  refine ⟨?_, by rw [k3]; rfl, (d % 256).toNat % 256, Nat.mod_lt _ (by decide), by rw [k3]; rfl, ?_⟩
  · by_cases hn : a.err = .OK
    · exact hn
    · exact absurd rfl (Config.branchDelta_err hn hb)
  · intro g1 g2 g3
    obtain ⟨_, k4, k5⟩ := branch_back h0 hw g1 g2 g3 hb rfl
    refine ⟨k4, ?_⟩
    rw [hi, k5]
    omega

end

end Libasm.Cpu
