import Verif.Cpu.Pdp8.Names
import Verif.Cpu.Pdp8.Spec
import Verif.Cpu.Back
/-
C80: what the PDP-8 disassembler prints assembles to the bytes it read.
-/
namespace Libasm.Cpu.Pdp8
open Scan Number Number.Spec Eval

theorem nameB_cpu {cpu : CpuType} {n : List Char} (h : nameB (syntaxOf .HD6120) n = true) : nameB (syntaxOf cpu) n = true := by
  cases cpu
  · unfold nameB at h ⊢
    simp only [Bool.and_eq_true, Bool.not_eq_true'] at h ⊢
    refine ⟨h.1, ?_⟩
    have := h.2
    unfold isPseudo at this ⊢
    simp [syntaxOf] at this ⊢
    simp [this]
  · exact h

/-- The digits of an address, or of a field of three or six bits. -/
theorem parse_last {E : Env} {addr : Nat} {radix : Radix} {t : List Char} {v : Nat} (h : Num radix t v) :
    parseNumber (lexer.plugins E '\x00' addr) radix t .OK = .ok (⟨v, .unsigned⟩, .OK, []) := by
  have := parse_num (E := E) (addr := addr) h (rest := []) (Or.inl rfl)
  rwa [List.append_nil] at this

theorem Num.skip' {radix : Radix} {t : List Char} {v : Nat} (h : Num radix t v) : skipSpaces t = t := by
  have := h.skip []
  rwa [List.append_nil] at this

/-! ### The kinds of instruction -/

section
variable {o : Opts} {E : Env} {radix : Radix} {cpu : CpuType} {addr k : Nat}

theorem mem_back (ho : o.octal = true) (hr : radix = .r8 ∨ o.cstyle = true ∨ o.intelHex = true)
    (ha : addr < 2 ^ width cpu) (hz : k / 128 % 2 = 1 → 128 ≤ addr) {op op' : Op} {t : List Char}
    (h1 : op'.mode = .MEM)
    (h2 : (let c := if k / 256 % 2 = 1 then op'.opcode ||| 0x100 else op'.opcode
         (if k / 128 % 2 = 0 then c ||| k % 128 else c ||| (0x80 ||| k % 128))) = k) :
    ∃ s, parseOperands (lexer.plugins E '\x00' addr) radix (pages cpu) addr op' (decodeOperands o cpu addr k .MEM t) = .ok (s, []) ∧
      s.err = .OK ∧ s.opcode = k := by
  have hw : width cpu ≤ 15 := by cases cpu <;> decide
  have hw7 : 7 ≤ width cpu := by cases cpu <;> decide
  have hwe : 2 ^ width cpu = 4096 ∨ 2 ^ width cpu = 32768 := by cases cpu <;> simp [width]
  have hpa : pageOf addr = addr / 128 := by unfold pageOf; omega
  have ht : offsetOf k + (if k / 128 % 2 = 0 then 0 else pageOf addr) * 128 < 2 ^ width cpu := by
    unfold offsetOf
    rw [hpa]
    split <;> omega
  generalize htgt : offsetOf k + (if k / 128 % 2 = 0 then 0 else pageOf addr) * 128 = tgt at ht
  have hn := num_addr (radix := radix) ho hr tgt (width cpu) ht (by omega) (by omega)
  obtain ⟨c, u, hc, hcu⟩ := hn.head
  have hdig := (digit_lexes hc u).2.2.2.2.2.2.2.2
  have h32 : tgt < 2 ^ 32 := hn.small
  have hp : ∀ s : Asm, s.err = .OK → ∀ indir q, (indir = true ↔ k / 256 % 2 = 1) → s.opcode = op'.opcode →
      q = outAbsAddr .plain o (width cpu) tgt → ∀ scan,
      ∃ s', ((parseNumber (lexer.plugins E '\x00' addr) radix q s.err).bind fun (v, err, q) =>
        let s := { s with err := err }
        if hasError err then .ok (s, scan)
        else
          let target := v.getUnsigned
          let s := if indir then { s with opcode := s.opcode ||| 0x100 } else s
          if pageOf target = 0 then .ok ({ s with opcode := s.opcode ||| offsetOf target }, q)
          else if pageOf addr = pageOf target then
            .ok ({ s with opcode := s.opcode ||| (0x80 ||| offsetOf target) }, q)
          else .ok ({ s with err := .OPERAND_TOO_FAR }, scan)) = .ok (s', []) ∧ s'.err = .OK ∧ s'.opcode = k := by
    intro s hs indir q hi hop hq scan
    rw [hq, hs, parse_last hn, Out.ok_bind]
    dsimp only
    rw [if_neg (by decide), getUnsigned_num h32]
    have hoff : offsetOf tgt = k % 128 := by rw [← htgt]; unfold offsetOf; omega
    rw [hoff, hop]
    have e0 : (if indir = true then ({ s with opcode := op'.opcode ||| 0x100, err := .OK } : Asm) else { s with opcode := op'.opcode, err := .OK }) =
        { s with opcode := if k / 256 % 2 = 1 then op'.opcode ||| 0x100 else op'.opcode, err := .OK } := by
      by_cases hx : k / 256 % 2 = 1
      · rw [if_pos (hi.2 hx), if_pos hx]
      · rw [if_neg (fun hy => hx (hi.1 hy)), if_neg hx]
    rw [e0]
    by_cases hx : k / 128 % 2 = 0
    · have hpg : pageOf tgt = 0 := by rw [← htgt, if_pos hx]; unfold pageOf offsetOf; omega
      rw [if_pos hpg]
      refine ⟨_, rfl, rfl, ?_⟩
      dsimp only at h2 ⊢
      rw [if_pos hx] at h2
      exact h2
    · have h128 : 128 ≤ addr := hz (by omega)
      have hpg : pageOf tgt = addr / 128 := by rw [← htgt, if_neg hx, hpa]; unfold pageOf offsetOf; omega
      rw [if_neg (by rw [hpg]; omega), if_pos (by rw [hpg, hpa])]
      refine ⟨_, rfl, rfl, ?_⟩
      dsimp only at h2 ⊢
      rw [if_neg hx] at h2
      exact h2
  unfold parseOperands decodeOperands
  rw [h1, htgt]
  dsimp only
  unfold parseMem
  by_cases hx : k / 256 % 2 = 1
  · rw [if_pos hx]
    have e1 : iexpect 'i' ([letter o.upper 'i', ' '] ++ outAbsAddr .plain o (width cpu) tgt) =
        some (' ' :: outAbsAddr .plain o (width cpu) tgt) := by
      cases o.upper <;> rfl
    rw [e1]
    dsimp only
    have e2 : expect ' ' (' ' :: outAbsAddr .plain o (width cpu) tgt) = some (outAbsAddr .plain o (width cpu) tgt) := rfl
    rw [e2]
    exact hp ⟨op'.opcode, .OK, .MEM, 0⟩ rfl true _ (by simp [hx]) rfl rfl _
  · rw [if_neg hx, List.nil_append]
    have e1 : iexpect 'i' (outAbsAddr .plain o (width cpu) tgt) = none := by rw [hcu]; exact hdig
    rw [e1]
    exact hp ⟨op'.opcode, .OK, .MEM, 0⟩ rfl false _ (by simp [hx]) rfl rfl _

theorem iot_back (ho : o.octal = true) (hr : radix = .r8 ∨ o.cstyle = true ∨ o.intelHex = true)
    {op' : Op} {t : List Char} (h1 : op'.mode = .IOT) (h2 : op'.opcode ||| (k / 8 % 64 * 8 ||| k % 8) % 65536 = k) :
    ∃ s, parseOperands (lexer.plugins E '\x00' addr) radix (pages cpu) addr op' (decodeOperands o cpu addr k .IOT t) = .ok (s, []) ∧
      s.err = .OK ∧ s.opcode = k := by
  have n1 := num_hex (radix := radix) ho hr (k / 8 % 64) 6 (by omega) (by decide) (by decide)
  have n2 := num_hex (radix := radix) ho hr (k % 8) 3 (by omega) (by decide) (by decide)
  obtain ⟨c, u, hc, hcu⟩ := n2.head
  have e1 := parse_num (E := E) (addr := addr) n1 (rest := ' ' :: outHex .plain o (k % 8) 3 true)
    (Or.inr ⟨c, u, hc, by rw [← hcu]; rfl⟩)
  have e2 : skipSpaces (' ' :: outHex .plain o (k % 8) 3 true) = outHex .plain o (k % 8) 3 true := n2.skip'
  have e3 : endOfLine (outHex .plain o (k % 8) 3 true) = false := by
    have := (digit_lexes hc u).2.1
    rwa [← hcu] at this
  unfold parseOperands decodeOperands
  rw [h1]
  dsimp only
  unfold parseTransfer
  dsimp only
  rw [List.append_assoc, List.singleton_append]
  have e1' : parseNumber (lexer.plugins E '\x00' addr) radix
      (outHex .plain o (k / 8 % 64) 6 true ++ ' ' :: outHex .plain o (k % 8) 3 true) .OK = _ := e1
  rw [e1', Out.ok_bind]
  dsimp only
  rw [if_neg (by decide), e2, if_neg (by rw [e3]; decide)]
  have e4 : parseNumber (lexer.plugins E '\x00' addr) radix (outHex .plain o (k % 8) 3 true) .OK = _ := parse_last n2
  rw [e4, Out.ok_bind]
  dsimp only
  rw [if_neg (by decide), overflow_num n1.small (by omega) (by omega), if_neg (by decide),
    overflow_num n2.small (by omega) (by omega), if_neg (by decide), getUnsigned_num n1.small, getUnsigned_num n2.small]
  exact ⟨_, rfl, rfl, h2⟩

/-- The number of a field is not the name of an instruction. -/
theorem field_no_name (cpu : CpuType) : ∀ f, f < 8 → ∀ cs ih uh : Bool,
    (match searchName (fast cpu) ((readMicro (formatSigned
        ((formatter .plain ⟨uh, false, true, false, cs, ih, '.'⟩).oct uh) uh (f * 8) 6)).1.take 11) with
      | some (.error _) => true
      | _ => false) = true := by
  cases cpu <;> decide +kernel

theorem field_back (ho : o.octal = true) (hr : radix = .r8 ∨ o.cstyle = true ∨ o.intelHex = true) {s : Asm} (hs : s.err = .OK)
    {fuel : Nat} :
    ∃ s', extensionLoop (lexer.plugins E '\x00' addr) radix (pages cpu) (fuel + 1) (outHex .plain o (k / 8 % 8 * 8) 6 true) s =
      .ok (s', []) ∧ s'.err = .OK ∧ s'.opcode = s.opcode ||| k / 8 % 8 * 8 := by
  have n1 := num_hex (radix := radix) ho hr (k / 8 % 8 * 8) 6 (by omega) (by decide) (by decide)
  obtain ⟨c, u, hc, hcu⟩ := n1.head
  have e2 : skipSpaces (outHex .plain o (k / 8 % 8 * 8) 6 true) = outHex .plain o (k / 8 % 8 * 8) 6 true := n1.skip'
  have e3 : endOfLine (outHex .plain o (k / 8 % 8 * 8) 6 true) = false := by
    have := (digit_lexes hc u).2.1
    rwa [← hcu] at this
  have hf : k / 8 % 8 < 8 := Nat.mod_lt _ (by decide)
  have e4 := field_no_name cpu (k / 8 % 8) hf o.cstyle o.intelHex o.upperHex
  have e5 : outHex .plain o (k / 8 % 8 * 8) 6 true = formatSigned
        ((formatter .plain ⟨o.upperHex, false, true, false, o.cstyle, o.intelHex, '.'⟩).oct o.upperHex) o.upperHex (k / 8 % 8 * 8) 6 := by
    unfold outHex
    rw [if_pos ho]
    rfl
  rw [← e5] at e4
  have hfield : ∃ s', parseField (lexer.plugins E '\x00' addr) radix (outHex .plain o (k / 8 % 8 * 8) 6 true) s = .ok (s', []) ∧
      s'.err = .OK ∧ s'.opcode = s.opcode ||| k / 8 % 8 * 8 := by
    unfold parseField
    have e6 : parseNumber (lexer.plugins E '\x00' addr) radix (outHex .plain o (k / 8 % 8 * 8) 6 true) .OK = _ := parse_last n1
    rw [hs, e6, Out.ok_bind]
    dsimp only
    rw [if_neg (by decide), getUnsigned_num n1.small]
    by_cases h0 : k / 8 % 8 = 0
    · rw [h0]
      exact ⟨_, rfl, rfl, rfl⟩
    · rw [if_neg (by omega)]
      have : (k / 8 % 8 * 8) &&& 0xFFFFFFC7 = 0 :=
        (by decide +kernel : ∀ f, f < 8 → (f * 8) &&& 0xFFFFFFC7 = 0) _ hf
      rw [if_neg (by rw [this]; decide)]
      refine ⟨_, rfl, rfl, ?_⟩
      show s.opcode ||| k / 8 % 8 * 8 % 65536 = _
      rw [Nat.mod_eq_of_lt (show k / 8 % 8 * 8 < 65536 by omega)]
  unfold extensionLoop
  rw [e2]
  dsimp only
  rw [e3, if_neg (by decide)]
  split
  · exact hfield
  · rename_i name q hne heq
    rw [heq] at e4
    dsimp only at e4
    rw [pages_eq]
    split at e4
    · rename_i e hx
      rw [hx]
      exact hfield
    · cases e4

/-- The operands of a code are read to the code. -/
theorem operands_back (ho : o.octal = true) (hr : radix = .r8 ∨ o.cstyle = true ∨ o.intelHex = true)
    (ha : addr < 2 ^ width cpu) (hk : k < 4096) (hz : Spec.CurrentPage k → 128 ≤ addr) (hx : ¬ Spec.Twin k) {op : Op}
    (hop : searchOpCode (pages cpu) k = some op) (hleft : (microsOf (pages cpu) op k).2 = 0) :
    nameB (syntaxOf cpu) (outText o op.name) = true ∧ ∃ op' s, searchName (pages cpu) (outText o op.name) = some (.ok op') ∧
      parseOperands (lexer.plugins E '\x00' addr) radix (pages cpu) addr op'
        (decodeOperands o cpu addr k op.mode (((microsOf (pages cpu) op k).1.map (outMicros o)).flatten)) = .ok (s, []) ∧
      s.err = .OK ∧ s.opcode = k ∧
      skipSpaces (decodeOperands o cpu addr k op.mode (((microsOf (pages cpu) op k).1.map (outMicros o)).flatten)) =
        decodeOperands o cpu addr k op.mode (((microsOf (pages cpu) op k).1.map (outMicros o)).flatten) := by
  have micros_skip : ∀ {ns : List (List Char)} {rest : List Char}, ns ≠ [] → (∀ n ∈ ns, microB n = true) →
      skipSpaces (outMicros o ns ++ rest) = outMicros o ns ++ rest := by
    intro ns rest hne hns
    cases ns with
    | nil => exact absurd rfl hne
    | cons n ns =>
      have hb := microB_text (hns n (List.mem_cons_self ..)) o
      obtain ⟨c, u, hcu⟩ : ∃ c u, outMicros o (n :: ns) = c :: u ∧ Ctype.isAlpha c = true := by
        unfold nameB at hb
        simp only [Bool.and_eq_true] at hb
        have h1 := hb.1.1.1
        cases he : outText o n with
        | nil => rw [he] at h1; cases h1
        | cons c u =>
          rw [he] at h1
          cases ns with
          | nil => exact ⟨c, u, he, h1⟩
          | cons m ms =>
            refine ⟨c, u ++ [' '] ++ outMicros o (m :: ms), ?_, h1⟩
            show outText o n ++ [' '] ++ outMicros o (m :: ms) = _
            rw [he]
            rfl
      rw [hcu.1]
      show skipSpaces (c :: (u ++ rest)) = _
      unfold skipSpaces trimStart
      rw [List.dropWhile_cons, alpha_not_space hcu.2]
      rfl
  rw [searchName_letter]
  by_cases hmem : k < 0xC00
  · have hc := memory_rows cpu (k / 64) (by omega) (k % 64) (by omega)
    rw [show k / 64 * 64 + k % 64 = k by omega] at hc
    unfold memoryOk at hc
    rw [← pages_eq, hop] at hc
    dsimp only at hc
    simp only [Bool.and_eq_true, decide_eq_true_eq] at hc
    obtain ⟨⟨c1, c2⟩, c3⟩ := hc
    refine ⟨nameB_cpu (microB_text c1 o), ?_⟩
    split at c3
    · rename_i op' hs'
      simp only [decide_eq_true_eq] at c3
      rw [c2]
      obtain ⟨s, s1, s2, s3⟩ := mem_back (E := E) (op := op) ho hr ha (fun h => hz ⟨hmem, h⟩) c3.1 c3.2
        (t := (((microsOf (pages cpu) op k).1.map (outMicros o)).flatten))
      refine ⟨op', s, hs', s1, s2, s3, ?_⟩
      have hw : width cpu ≤ 15 := by cases cpu <;> decide
      have hw7 : 7 ≤ width cpu := by cases cpu <;> decide
      have hwe : 2 ^ width cpu = 4096 ∨ 2 ^ width cpu = 32768 := by cases cpu <;> simp [width]
      have ht : offsetOf k + (if k / 128 % 2 = 0 then 0 else pageOf addr) * 128 < 2 ^ width cpu := by
        unfold offsetOf pageOf
        split <;> omega
      have hn := num_addr (radix := radix) ho hr _ (width cpu) ht (by omega) (by omega)
      unfold decodeOperands
      dsimp only
      by_cases hi : k / 256 % 2 = 1
      · rw [if_pos hi]
        cases o.upper <;> rfl
      · rw [if_neg hi, List.nil_append, hn.skip']
    · cases c3
  · by_cases hiot : k < 0xE00
    · have hc := transfer_rows cpu ((k - 0xC00) / 32) (by omega) ((k - 0xC00) % 32) (by omega)
      rw [show 0xC00 + (k - 0xC00) / 32 * 32 + (k - 0xC00) % 32 = k by omega] at hc
      unfold transferOk at hc
      rw [← pages_eq, hop] at hc
      dsimp only at hc
      rw [Bool.and_eq_true, Bool.and_eq_true] at hc
      obtain ⟨⟨_, c1⟩, c2⟩ := hc
      refine ⟨nameB_cpu (microB_text c1 o), ?_⟩
      split at c2
      · rename_i op' hm hs'
        simp only [decide_eq_true_eq] at c2
        have e : microsOf (pages cpu) op k = ([], 0) := by unfold microsOf; rw [hm, if_neg (by decide)]
        rw [e, hm]
        refine ⟨op', ⟨op'.opcode, .OK, op'.mode, 0⟩, hs', ?_, rfl, c2.2, rfl⟩
        unfold parseOperands
        rw [c2.1]
        rfl
      · rename_i op' hm hs'
        simp only [decide_eq_true_eq] at c2
        rw [hm]
        obtain ⟨s, s1, s2, s3⟩ := iot_back (E := E) (addr := addr) (cpu := cpu) (k := k) ho hr c2.1 c2.2
          (t := (((microsOf (pages cpu) op k).1.map (outMicros o)).flatten))
        refine ⟨op', s, hs', s1, s2, s3, ?_⟩
        have n1 := num_hex (radix := radix) ho hr (k / 8 % 64) 6 (by omega) (by decide) (by decide)
        unfold decodeOperands
        dsimp only
        rw [List.append_assoc]
        exact n1.skip _
      · rename_i op' hm hs'
        rw [Bool.and_eq_true, decide_eq_true_eq] at c2
        obtain ⟨c3, c4⟩ := c2
        split at c4
        · rename_i ns hns
          rw [oneList_text o hns, hm]
          rw [Bool.and_eq_true, List.all_eq_true] at c4
          obtain ⟨c5, c6⟩ := c4
          split at c6
          · rename_i s hrun
            simp only [decide_eq_true_eq] at c6
            refine ⟨op', ?_⟩
            unfold parseOperands decodeOperands
            rw [c3]
            dsimp only
            cases ns with
            | nil =>
              cases hrun
              obtain ⟨s', s1, s2, s3⟩ := field_back (E := E) (addr := addr) (cpu := cpu) (k := k) (radix := radix) ho hr
                (s := ⟨op'.opcode, .OK, .MEX, andNot op'.opcode op'.bits⟩) rfl
                (fuel := (outHex .plain o (k / 8 % 8 * 8) 6 true).length)
              have n1 := num_hex (radix := radix) ho hr (k / 8 % 8 * 8) 6 (by omega) (by decide) (by decide)
              exact ⟨s', hs', s1, s2, by rw [s3]; exact c6.1, n1.skip'⟩
            | cons n ns =>
              have hb := microB_text (c5 n (List.mem_cons_self ..)) o
              have hpos : 0 < (outMicros o (n :: ns)).length := by
                apply List.length_pos_iff.2
                intro he
                have h1 := micro_read (rest := []) hb (fun c hc => nomatch hc)
                cases ns with
                | nil => exact h1.2.2.2.2 he
                | cons m ms =>
                  have : outText o n ++ [' '] ++ outMicros o (m :: ms) = [] := he
                  simp at this
              have hlen : ∀ l : List (List Char), l.length ≤ (outMicros o l).length + 1 := by
                intro l
                induction l with
                | nil => simp
                | cons a l ih =>
                  cases l with
                  | nil => simp
                  | cons b l =>
                    have : (outMicros o (a :: b :: l)).length = (outText o a).length + 1 + (outMicros o (b :: l)).length := by
                      show (outText o a ++ [' '] ++ outMicros o (b :: l)).length = _
                      simp only [List.length_append, List.length_cons, List.length_nil]
                    rw [List.length_cons, this]
                    omega
              have hl := hlen (n :: ns)
              rw [if_pos hpos, List.append_assoc, List.singleton_append]
              have hnum := num_hex (radix := radix) ho hr (k / 8 % 8 * 8) 6 (by omega) (by decide) (by decide)
              obtain ⟨d, u, _, hdu⟩ := hnum.head
              have hnl : 0 < (outHex .plain o (k / 8 % 8 * 8) 6 true).length := by
                have : outHex .plain o (k / 8 % 8 * 8) 6 true = d :: u := hdu
                rw [this]
                simp
              obtain ⟨j, hj, hh⟩ := extension_names o (lexer.plugins E '\x00' addr) radix (pages cpu)
                (rest := outHex .plain o (k / 8 % 8 * 8) 6 true) ns n
                ((outMicros o (n :: ns) ++ ' ' :: outHex .plain o (k / 8 % 8 * 8) 6 true).length + 1) _ _ c5
                (by rw [List.length_append, List.length_cons]; rw [List.length_cons] at hl; omega) hrun
              obtain ⟨i, rfl⟩ : ∃ i, j = i + 1 := by
                refine ⟨j - 1, ?_⟩
                rw [List.length_append, List.length_cons] at hj
                rw [List.length_cons] at hl
                omega
              rw [hh]
              obtain ⟨s', s1, s2, s3⟩ := field_back (E := E) (addr := addr) (cpu := cpu) (k := k) (radix := radix) ho hr
                (s := s) c6.2 (fuel := i)
              exact ⟨s', hs', s1, s2, by rw [s3]; exact c6.1, micros_skip (List.cons_ne_nil _ _) c5⟩
          · cases c6
        · cases c4
      · cases c2
    · have hc := group_rows cpu ((k - 0xE00) / 32) (by omega) ((k - 0xE00) % 32) (by omega)
      rw [show 0xE00 + (k - 0xE00) / 32 * 32 + (k - 0xE00) % 32 = k by omega] at hc
      have hex : Exception k = false := by
        unfold Exception
        unfold Spec.Twin at hx
        simp only [Bool.or_eq_false_iff, beq_eq_false_iff_ne]
        omega
      unfold groupOk at hc
      rw [← pages_eq, hop] at hc
      dsimp only at hc
      rw [if_neg (by rw [hleft]; decide), hex, Bool.false_or] at hc
      rw [Bool.and_eq_true, Bool.and_eq_true, decide_eq_true_eq] at hc
      obtain ⟨⟨c1, c2⟩, c3⟩ := hc
      refine ⟨nameB_cpu (microB_text c1 o), ?_⟩
      split at c3
      · rename_i ns op' hns hs'
        rw [Bool.and_eq_true, Bool.and_eq_true, decide_eq_true_eq, List.all_eq_true] at c3
        obtain ⟨⟨c4, c5⟩, c6⟩ := c3
        rw [oneList_text o hns]
        split at c6
        · rename_i s hrun
          simp only [decide_eq_true_eq] at c6
          have e1 : decodeOperands o cpu addr k op.mode (outMicros o ns) = outMicros o ns := by
            unfold decodeOperands
            rcases c2 with h | h | h <;> rw [h]
          have e2 : parseOperands (lexer.plugins E '\x00' addr) radix (pages cpu) addr op' (outMicros o ns) =
              operateLoop (pages cpu) (outMicros o ns) ((outMicros o ns).length + 1) (outMicros o ns)
                ⟨op'.opcode, .OK, if op'.multi then .NONE else op'.mode, op'.bits⟩ := by
            unfold parseOperands
            rcases c5 with h | h | h <;> rw [h]
          rw [e1]
          refine ⟨op', s, hs', ?_, c6.2, c6.1, ?_⟩
          · rw [e2, operate_names o _ _ ns _ _ c4 (Nat.le_refl _), hrun]
            rfl
          · cases ns with
            | nil => rfl
            | cons n ns =>
              have := micros_skip (rest := []) (List.cons_ne_nil n ns) c4
              rwa [List.append_nil] at this
        · cases c6
      · cases c3

end

/-- What the disassembler prints of any word it takes without error assembles at the same address to
the same bytes without error, and nothing of the line is left; the bytes are the first two of those given. The numbers are printed in
octal, as the disassembler does unless told otherwise, and read with the radix 8, as the assembler does unless told
otherwise, or printed in a notation that tells the radix.
Missing are the cases in which it does not hold, each with a theorem `C80_violated_…`: NOP and CLA of the second and third
group (`nop`, `cla`); a reference to the current page when that is page zero (`page_zero`); a word with one of its four most
significant bits set (`upper_bits`); one byte only to read the word from (`short`); numbers printed in hexadecimal and
read with the radix 8 (`hex`). -/
theorem C80_partial (o : Opts) (E : Env) (radix : Radix) (cpu : CpuType) (addr : Nat) (b c : Nat) (rest : List Nat)
    (sep : List Char)
    (hoct : o.octal = true) (hradix : radix = .r8 ∨ o.cstyle = true ∨ o.intelHex = true)
    (haddr : addr < 2 ^ (if cpu = .IM6100 then 12 else 15))
    (hbytes : ∀ x ∈ b :: c :: rest, x < 256)
    (hsep : sep ≠ [] ∧ ∀ c ∈ sep, Ctype.isSpace c = true)
    (hword : b * 256 + c < 2 ^ 12)
    (hzero : Spec.CurrentPage (b * 256 + c) → 0o200 ≤ addr)
    (htwin : ¬ Spec.Twin (b * 256 + c))
    (hd : (disassemble o cpu addr (b :: c :: rest)).err = .OK) :
    assemble E radix cpu addr ((disassemble o cpu addr (b :: c :: rest)).name ++ sep ++
        (disassemble o cpu addr (b :: c :: rest)).operands) =
      .ok (.insn ⟨.OK, (disassemble o cpu addr (b :: c :: rest)).bytes, []⟩) ∧
    (disassemble o cpu addr (b :: c :: rest)).bytes = [b, c] := by
  have hwidth : (if cpu = .IM6100 then 12 else 15) = width cpu := by cases cpu <;> rfl
  rw [hwidth] at haddr
  have hok : Config.checkAddr (width cpu) addr false = .OK := address_ok (by cases cpu <;> decide) haddr
  have hdis : disassemble o cpu addr (b :: c :: rest) = decodeImpl o cpu addr (b :: c :: rest) := by
    unfold disassemble decode
    rw [if_neg (by rw [hok]; simp)]
  rw [hdis] at hd ⊢
  have hb : b < 256 := hbytes b (List.mem_cons_self ..)
  have hc : c < 256 := hbytes c (List.mem_cons_of_mem _ (List.mem_cons_self ..))
  have e : (⟨b :: c :: rest, [], .OK⟩ : Rd).be16 = (b * 256 + c, ⟨rest, [b, c], .OK⟩) := by
    show (b % 256 * 256 + c % 256, (⟨rest, [] ++ [b % 256] ++ [c % 256], .OK⟩ : Rd)) = _
    rw [Nat.mod_eq_of_lt hb, Nat.mod_eq_of_lt hc]
    rfl
  unfold decodeImpl at hd ⊢
  rw [e] at hd ⊢
  dsimp only at hd ⊢
  cases hrow : searchOpCode (pages cpu) (b * 256 + c) with
  | none => rw [hrow] at hd; cases hd
  | some op =>
    rw [hrow] at hd
    dsimp only at hd ⊢
    by_cases hleft : (microsOf (pages cpu) op (b * 256 + c)).2 = 0
    · rw [if_neg (by rw [hleft]; decide)]
      dsimp only
      obtain ⟨h1, op', s, h2, h3, h4, h5, h6⟩ := operands_back (E := E) hoct hradix haddr hword hzero htwin hrow hleft
      refine ⟨?_, rfl⟩
      refine encode_name (syntaxOk cpu) h1 hsep h6 hok ?_
      unfold encodeImpl
      rw [h2]
      dsimp only
      rw [h6, h3, Out.ok_bind]
      dsimp only
      rw [h4, h5, show (b * 256 + c) / 256 % 256 = b by omega, show (b * 256 + c) % 256 = c by omega]
    · rw [if_pos hleft] at hd
      cases hd

/-- The hypotheses of `C80_partial` hold of a reference to the current page, a transfer, and micro-operations. -/
example :
    let o : Opts := ⟨true, true, true, false, false, false, '.'⟩
    (let d := disassemble o .IM6100 0o1234 [0o1775 / 256, 0o1775 % 256]
     d.err = .OK ∧ d.name = "TAD".toList ∧ d.operands = "I 1375".toList ∧
      assemble noEnv .r8 .IM6100 0o1234 (d.name ++ [' '] ++ d.operands) = .ok (.insn ⟨.OK, d.bytes, []⟩)) ∧
    (let d := disassemble o .IM6100 0o1234 [0o6773 / 256, 0o6773 % 256]
     d.err = .OK ∧ d.name = "IOT".toList ∧ d.operands = "77 3".toList ∧
      assemble noEnv .r8 .IM6100 0o1234 (d.name ++ [' '] ++ d.operands) = .ok (.insn ⟨.OK, d.bytes, []⟩)) ∧
    (let d := disassemble o .HD6120 0o71234 [0o7650 / 256, 0o7650 % 256]
     d.err = .OK ∧ d.name = "SNA".toList ∧ d.operands = "CLA".toList ∧
      assemble noEnv .r8 .HD6120 0o71234 (d.name ++ [' '] ++ d.operands) = .ok (.insn ⟨.OK, d.bytes, []⟩)) ∧
    (let d := disassemble o .HD6120 0o71234 [0o6233 / 256, 0o6233 % 256]
     d.err = .OK ∧ d.name = "CDF".toList ∧ d.operands = "CIF 30".toList ∧
      assemble noEnv .r8 .HD6120 0o71234 (d.name ++ [' '] ++ d.operands) = .ok (.insn ⟨.OK, d.bytes, []⟩)) := by
  decide +kernel

/-- The assembler has no way to write NOP of the second and of the third group: what is printed for them is NOP of
the first. -/
theorem C80_violated_nop :
    let o : Opts := ⟨true, true, true, false, false, false, '.'⟩
    (disassemble o .IM6100 0o1234 [0o7400 / 256, 0o7400 % 256]).err = .OK ∧
    (disassemble o .IM6100 0o1234 [0o7400 / 256, 0o7400 % 256]).name = "NOP".toList ∧
    (disassemble o .IM6100 0o1234 [0o7401 / 256, 0o7401 % 256]).name = "NOP".toList ∧
    assemble noEnv .r8 .IM6100 0o1234 "NOP ".toList = .ok (.insn ⟨.OK, [0o7000 / 256, 0o7000 % 256], []⟩) := by
  decide +kernel

/-- CLA of the second and of the third group come back as CLA of the first. -/
theorem C80_violated_cla :
    let o : Opts := ⟨true, true, true, false, false, false, '.'⟩
    (disassemble o .HD6120 0o1234 [0o7600 / 256, 0o7600 % 256]).err = .OK ∧
    (disassemble o .HD6120 0o1234 [0o7600 / 256, 0o7600 % 256]).name = "CLA".toList ∧
    (disassemble o .HD6120 0o1234 [0o7601 / 256, 0o7601 % 256]).name = "CLA".toList ∧
    (disassemble o .HD6120 0o1234 [0o7601 / 256, 0o7601 % 256]).operands = [] ∧
    assemble noEnv .r8 .HD6120 0o1234 "CLA ".toList = .ok (.insn ⟨.OK, [0o7200 / 256, 0o7200 % 256], []⟩) := by
  decide +kernel

/-- In page zero the bit that says "the current page" is lost. -/
theorem C80_violated_page_zero :
    let o : Opts := ⟨true, true, true, false, false, false, '.'⟩
    (disassemble o .IM6100 0o10 [0o1234 / 256, 0o1234 % 256]).err = .OK ∧
    (disassemble o .IM6100 0o10 [0o1234 / 256, 0o1234 % 256]).name = "TAD".toList ∧
    (disassemble o .IM6100 0o10 [0o1234 / 256, 0o1234 % 256]).operands = "0034".toList ∧
    assemble noEnv .r8 .IM6100 0o10 "TAD 0034".toList = .ok (.insn ⟨.OK, [0o1034 / 256, 0o1034 % 256], []⟩) := by
  decide +kernel

/-- The four bits above the word are not looked at. -/
theorem C80_violated_upper_bits :
    let o : Opts := ⟨true, true, true, false, false, false, '.'⟩
    (disassemble o .IM6100 0o1234 [0xF2, 0x1C]).err = .OK ∧
    (disassemble o .IM6100 0o1234 [0xF2, 0x1C]).bytes = [0xF2, 0x1C] ∧
    (disassemble o .IM6100 0o1234 [0xF2, 0x1C]).name = "TAD".toList ∧
    (disassemble o .IM6100 0o1234 [0xF2, 0x1C]).operands = "0034".toList ∧
    assemble noEnv .r8 .IM6100 0o1234 "TAD 0034".toList = .ok (.insn ⟨.OK, [0x02, 0x1C], []⟩) := by
  decide +kernel

/-- A word of which only one byte is there is disassembled, and without error. -/
theorem C80_violated_short :
    let o : Opts := ⟨true, true, true, false, false, false, '.'⟩
    (disassemble o .IM6100 0o1234 [0x0E]).err = .OK ∧ (disassemble o .IM6100 0o1234 [0x0E]).bytes = [0x0E] ∧
    (disassemble o .IM6100 0o1234 [0x0E]).name = "NOP".toList ∧
    assemble noEnv .r8 .IM6100 0o1234 "NOP ".toList = .ok (.insn ⟨.OK, [0x0E, 0], []⟩) := by
  decide +kernel

/-- With the option for hexadecimal numbers they are printed without a mark, and read as octal. -/
theorem C80_violated_hex :
    let o : Opts := ⟨true, true, false, false, false, false, '.'⟩
    (disassemble o .IM6100 0o1234 [0o1020 / 256, 0o1020 % 256]).err = .OK ∧
    (disassemble o .IM6100 0o1234 [0o1020 / 256, 0o1020 % 256]).operands = "010".toList ∧
    assemble noEnv .r8 .IM6100 0o1234 "TAD 010".toList = .ok (.insn ⟨.OK, [0o1010 / 256, 0o1010 % 256], []⟩) := by
  decide +kernel

end Libasm.Cpu.Pdp8
