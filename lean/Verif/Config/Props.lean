import Verif.Config.Lemmas
import Verif.Value.Spec
/-
C21: branch displacements round trip.  C22: address checks are exact.  C42: alignment.
C46: origin and space directives.
-/
namespace Libasm.Config

/-! ### C22 -/

/-- C22: an address is accepted exactly when it fits the address width and, if asked for, is even;
a too large address is OVERFLOW_RANGE, an odd one OPERAND_NOT_ALIGNED. -/
theorem C22_checkAddr (w a : Nat) (align : Bool) (hw : w ≤ 32) (ha : a < 2 ^ 32) :
    (checkAddr w a align = .OK ↔ a < 2 ^ w ∧ (align = true → a % 2 = 0)) ∧
      (checkAddr w a align = .OVERFLOW_RANGE ↔ 2 ^ w ≤ a) ∧
      (checkAddr w a align = .OPERAND_NOT_ALIGNED ↔ a < 2 ^ w ∧ align = true ∧ a % 2 = 1) := by
  rw [checkAddr_eq align hw ha]
  by_cases h1 : 2 ^ w ≤ a
  · rw [if_pos h1]
    exact ⟨⟨nofun, fun h => absurd h.1 (by omega)⟩, ⟨fun _ => h1, fun _ => rfl⟩,
      ⟨nofun, fun h => absurd h.1 (by omega)⟩⟩
  · rw [if_neg h1]
    by_cases h2 : align = true ∧ a % 2 = 1
    · rw [if_pos h2]
      exact ⟨⟨nofun, fun h => by have := h.2 h2.1; omega⟩, ⟨nofun, fun h => absurd h h1⟩,
        ⟨fun _ => ⟨by omega, h2⟩, fun _ => rfl⟩⟩
    · rw [if_neg h2]
      refine ⟨⟨fun _ => ⟨by omega, fun h => ?_⟩, fun _ => rfl⟩, ⟨nofun, fun h => absurd h h1⟩,
        ⟨nofun, fun h => absurd h.2 h2⟩⟩
      by_cases h3 : a % 2 = 1
      · exact absurd ⟨h, h3⟩ h2
      · omega

/-- C22: with a base and a segment of `seg` bits, the address is accepted exactly when in addition
both addresses agree above the low `seg` bits. -/
theorem C22_segment (w a b seg : Nat) (align : Bool) (hw : w ≤ 32) (ha : a < 2 ^ 32)
    (hb : b < 2 ^ 32) (hs : seg < 64) :
    ∃ e, checkAddrSeg w a b seg align = some e ∧
      (e = .OK ↔ a < 2 ^ w ∧ (align = true → a % 2 = 0) ∧ a / 2 ^ seg = b / 2 ^ seg) ∧
      (e = .OVERWRAP_SEGMENT ↔
        a < 2 ^ w ∧ (align = true → a % 2 = 0) ∧ a / 2 ^ seg ≠ b / 2 ^ seg) := by
  have hC := C22_checkAddr w a align hw ha
  unfold checkAddrSeg
  rw [if_neg (by omega)]
  by_cases h : checkAddr w a align = .OK
  · have hok := hC.1.1 h
    simp only [h, ne_eq, not_true_eq_false, if_false]
    have hagree : (a &&& not32 (((1 <<< seg) + 18446744073709551616 - 1) % 18446744073709551616) =
        b &&& not32 (((1 <<< seg) + 18446744073709551616 - 1) % 18446744073709551616)) ↔
        a / 2 ^ seg = b / 2 ^ seg := by
      rw [Nat.one_shiftLeft]
      have hpos : 0 < 2 ^ seg := Nat.two_pow_pos seg
      have hlt : 2 ^ seg < 2 ^ 64 := Nat.pow_lt_pow_right (by omega) hs
      rw [show (2 ^ seg + 18446744073709551616 - 1) % 18446744073709551616 = 2 ^ seg - 1 from by
        simp only [show (2 : Nat) ^ 64 = 18446744073709551616 from rfl] at hlt; omega]
      by_cases h32 : seg ≤ 32
      · have h1 : not32 (2 ^ seg - 1) = W - 1 - (2 ^ seg - 1) := by
          unfold not32
          have := pow_le_W h32
          have hlt' : 2 ^ seg - 1 < W := by omega
          rw [Nat.mod_eq_of_lt hlt']
        rw [h1, and_high ha h32, and_high hb h32]
        constructor
        · intro h; exact Nat.eq_of_mul_eq_mul_right hpos h
        · intro h; rw [h]
      · have hdv : W ∣ 2 ^ seg := by
          rw [show W = 2 ^ 32 from rfl]; exact Nat.pow_dvd_pow 2 (by omega)
        have h1 : not32 (2 ^ seg - 1) = 0 := by
          obtain ⟨k, hk⟩ := hdv
          have hk0 : 0 < k := by
            rcases Nat.eq_zero_or_pos k with h | h
            · subst h; omega
            · exact h
          obtain ⟨j, rfl⟩ : ∃ j, k = j + 1 := ⟨k - 1, by omega⟩
          unfold not32
          have : (2 ^ seg - 1) % W = W - 1 := by
            rw [hk, Nat.mul_add, Nat.mul_one,
              show W * j + W - 1 = (W - 1) + W * j from by
                have hW : 0 < W := by decide
                omega,
              Nat.add_mul_mod_self_left, Nat.mod_eq_of_lt (by decide)]
          rw [this, Nat.sub_self]
        have hge : 2 ^ 32 ≤ 2 ^ seg := Nat.pow_le_pow_right (by omega) (by omega)
        rw [h1, Nat.and_zero, Nat.and_zero, Nat.div_eq_of_lt (by omega), Nat.div_eq_of_lt (by omega)]
    refine ⟨_, rfl, ?_⟩
    by_cases hc : a / 2 ^ seg = b / 2 ^ seg
    · rw [if_pos (hagree.2 hc)]
      exact ⟨⟨fun _ => ⟨hok.1, hok.2, hc⟩, fun _ => rfl⟩, ⟨nofun, fun h => absurd hc h.2.2⟩⟩
    · rw [if_neg (fun h => hc (hagree.1 h))]
      exact ⟨⟨nofun, fun h => absurd h.2.2 hc⟩, ⟨fun _ => ⟨hok.1, hok.2, hc⟩, fun _ => rfl⟩⟩
  · refine ⟨checkAddr w a align, ?_, ?_, ?_⟩
    · simp only [ne_eq, h, not_false_eq_true, if_true]
    · exact ⟨fun hh => absurd hh h, fun hh => absurd (hC.1.2 ⟨hh.1, hh.2.1⟩) h⟩
    · constructor
      · intro hh
        rw [checkAddr_eq align hw ha] at hh
        split at hh
        · cases hh
        · split at hh <;> cases hh
      · intro hh; exact absurd (hC.1.2 ⟨hh.1, hh.2.1⟩) h

/-- Hypotheses of C22 are met; one case of each outcome. -/
example : checkAddr 12 0xFFF false = .OK ∧ checkAddr 12 0x1000 false = .OVERFLOW_RANGE ∧
    checkAddr 32 0xFFFFFFFF false = .OK ∧ checkAddr 16 0x101 true = .OPERAND_NOT_ALIGNED := by decide
example : checkAddrSeg 15 0x2001 0x3FFF 13 false = some .OK ∧
    checkAddrSeg 15 0x4001 0x3FFF 13 false = some .OVERWRAP_SEGMENT := by decide

/-! ### C21 -/

/-- Sign extension reads the low bits as a two's complement number. -/
theorem C21_signExtend (u w : Nat) (h0 : 0 < w) (hw : w ≤ 32) :
    ∃ d, signExtend u w = some d ∧ -(2 ^ (w - 1) : Int) ≤ d ∧ d < (2 ^ (w - 1) : Int) ∧
      (d - u) % (2 ^ w : Int) = 0 := by
  refine ⟨_, signExtend_eq h0 hw, ?_⟩
  have hs : 2 ^ w = 2 * 2 ^ (w - 1) := by rw [← Nat.pow_succ']; congr 1; omega
  have hpos : 0 < 2 ^ (w - 1) := Nat.two_pow_pos _
  have h1 : ((2 : Int) ^ (w - 1)) = ((2 ^ (w - 1) : Nat) : Int) := by simp
  have h2 : ((2 : Int) ^ w) = ((2 ^ w : Nat) : Int) := by simp
  rw [h1, h2]
  have hm := Nat.mod_lt u (show 0 < 2 ^ w by omega)
  have hd := Nat.mod_add_div u (2 ^ w)
  have hz : ∀ k : Int, (((2 ^ w : Nat) : Int) * k) % ((2 ^ w : Nat) : Int) = 0 :=
    fun k => Int.mul_emod_right _ _
  split
  · refine ⟨by omega, by omega, ?_⟩
    rw [← hz (-((u / 2 ^ w : Nat) : Int))]
    congr 1
    have : ((u % 2 ^ w + 2 ^ w * (u / 2 ^ w) : Nat) : Int) = u := by rw [hd]
    rw [Int.natCast_add, Int.natCast_mul] at this
    rw [Int.mul_neg]; omega
  · refine ⟨by omega, by omega, ?_⟩
    rw [← hz (-((u / 2 ^ w : Nat) : Int) - 1)]
    congr 1
    have : ((u % 2 ^ w + 2 ^ w * (u / 2 ^ w) : Nat) : Int) = u := by rw [hd]
    rw [Int.natCast_add, Int.natCast_mul] at this
    rw [Int.mul_sub, Int.mul_neg]; omega

theorem setErrorIf_ok {e : Err} : setErrorIf .OK e = e := by
  unfold setErrorIf
  by_cases h : e = .OK
  · subst h; rfl
  · rw [if_pos ⟨rfl, h⟩]

/-- C21 (acceptance): a branch with a field of `n` bits from `base` is accepted exactly for the
targets inside the address space whose distance from `base` an `n` bit signed number can hold, and
the field is that distance. `base` may be the first address after the address space (an instruction
at its very end). -/
theorem C21_accept (w n base target : Nat) (h0 : 0 < n) (hn : n ≤ w) (hn31 : n ≤ 31) (hw : w ≤ 32)
    (hb : base ≤ 2 ^ w) (hb32 : base < 2 ^ 32) (ht : target < 2 ^ 32) :
    ∃ field e, encodeRel w n base target .OK = some (field, e) ∧
      (e = .OK ↔ target < 2 ^ w ∧ -(2 ^ (n - 1) : Int) ≤ (target : Int) - base ∧
        (target : Int) - base < (2 ^ (n - 1) : Int)) ∧
      (e = .OK → (field : Int) = ((target : Int) - base) % (2 ^ n : Int)) := by
  obtain ⟨d, e, hd, h1, h2, h3⟩ := branchDelta_eq (w := w) (by omega) hw hb hb32 ht
  unfold encodeRel
  rw [hd]
  simp only
  rw [overflowDelta_eq h0 (by omega)]
  simp only
  refine ⟨_, _, rfl, ?_, ?_⟩
  · have hmono : 2 ^ (n - 1) ≤ 2 ^ (w - 1) := Nat.pow_le_pow_right (by omega) (by omega)
    rw [show ((2 : Int) ^ (n - 1)) = ((2 ^ (n - 1) : Nat) : Int) from by simp]
    generalize 2 ^ (n - 1) = s at *
    generalize 2 ^ (w - 1) = t at *
    by_cases he : e = .OK
    · subst he
      have hd' := h2 rfl
      have hr := h1.1 rfl
      subst hd'
      by_cases hc : -(s : Int) ≤ (target : Int) - base ∧ (target : Int) - base < s
      · simp [hc, hr.1]
      · simp only [hc, not_false_eq_true, decide_true, if_true, setErrorIf_ok]
        constructor
        · nofun
        · intro h; exact absurd h.2 (by simp)
    · have hne : (if decide ¬(-(s : Int) ≤ d ∧ d < s) then setErrorIf e .OPERAND_TOO_FAR else e) = e := by
        rw [h3 he]; split <;> rfl
      rw [hne]
      constructor
      · intro h; exact absurd h he
      · intro h; exact absurd (h1.2 ⟨h.1, by omega, by omega⟩) he
  · intro he
    have hok : e = .OK := by
      by_cases h : e = .OK
      · exact h
      · rw [h3 h] at he
        revert he
        split <;> nofun
    rw [h2 hok]
    unfold uint32
    have hdv : ((2 ^ n : Nat) : Int) ∣ (W : Int) := by
      rw [show W = 2 ^ 32 from rfl]
      exact Int.natCast_dvd_natCast.2 (Nat.pow_dvd_pow 2 (by omega))
    have hnn := Int.emod_nonneg ((target : Int) - base) (show (W : Int) ≠ 0 by decide)
    rw [Int.natCast_emod, Int.toNat_of_nonneg hnn, Int.emod_emod_of_dvd _ hdv]
    simp

theorem uint32_nat {x : Int} (h0 : 0 ≤ x) (h : x < 2 ^ 32) : ((uint32 x : Nat) : Int) = x := by
  unfold uint32
  have hW : (W : Int) = 2 ^ 32 := rfl
  have : x % (W : Int) = x := Int.emod_eq_of_lt h0 (by rw [hW]; exact h)
  rw [this]
  omega

theorem int8_field {d : Int} {field : Nat} (hf : (field : Int) = d % 256) (h1 : -128 ≤ d)
    (h2 : d < 128) : int8 field = d := by
  unfold int8
  split <;> omega

theorem int16_field {d : Int} {field : Nat} (hf : (field : Int) = d % 65536) (h1 : -32768 ≤ d)
    (h2 : d < 32768) : int16 field = d := by
  unfold int16
  split <;> omega

theorem checkAddr_ok {w a : Nat} (hw : w ≤ 32) (h : a < 2 ^ w) : checkAddr w a false = .OK := by
  have : a < 2 ^ 32 := Nat.lt_of_lt_of_le h (Nat.pow_le_pow_right (by omega) hw)
  exact ((C22_checkAddr w a false hw this).1.2 ⟨h, nofun⟩)

/-- C21 (round trip, 8 bit fields): the displacement byte of every accepted branch decodes, from
the same base, to exactly the target, without an error. -/
theorem C21_rel8 (w base target : Nat) (hw8 : 8 ≤ w) (hw : w ≤ 32) (hb : base ≤ 2 ^ w)
    (hb32 : base < 2 ^ 32) (ht : target < 2 ^ 32) (field : Nat)
    (hacc : encodeRel w 8 base target .OK = some (field, .OK)) :
    decodeRel8 w base field = (target, .OK) := by
  obtain ⟨f, e, h1, h2, h3⟩ := C21_accept w 8 base target (by omega) hw8 (by omega) hw hb hb32 ht
  rw [hacc] at h1
  cases h1
  obtain ⟨a1, a2, a3⟩ := h2.1 rfl
  have hd := int8_field (h3 rfl) a2 a3
  unfold decodeRel8
  rw [hd]
  have ht' : uint32 ((base : Int) + ((target : Int) - base)) = target := by
    have := uint32_nat (x := (base : Int) + ((target : Int) - base)) (by omega) (by omega)
    omega
  rw [ht']
  simp only [checkAddr_ok hw a1]

/-- C21 (round trip, 16 bit fields). -/
theorem C21_rel16 (w base target : Nat) (hw16 : 16 ≤ w) (hw : w ≤ 32) (hb : base ≤ 2 ^ w)
    (hb32 : base < 2 ^ 32) (ht : target < 2 ^ 32) (field : Nat)
    (hacc : encodeRel w 16 base target .OK = some (field, .OK)) :
    decodeRel16 w base field = (target, .OK) := by
  obtain ⟨f, e, h1, h2, h3⟩ := C21_accept w 16 base target (by omega) hw16 (by omega) hw hb hb32 ht
  rw [hacc] at h1
  cases h1
  obtain ⟨a1, a2, a3⟩ := h2.1 rfl
  have hd := int16_field (h3 rfl) a2 a3
  unfold decodeRel16
  rw [hd]
  have ht' : uint32 ((base : Int) + ((target : Int) - base)) = target := by
    have := uint32_nat (x := (base : Int) + ((target : Int) - base)) (by omega) (by omega)
    omega
  rw [ht']
  simp only [checkAddr_ok hw a1]

/-- C21 (round trip, fields of any width, decoded with `signExtend`). -/
theorem C21_relN (w n base target : Nat) (h0 : 0 < n) (hn : n ≤ w) (hn31 : n ≤ 31) (hw : w ≤ 32)
    (hb : base ≤ 2 ^ w) (hb32 : base < 2 ^ 32) (ht : target < 2 ^ 32) (field : Nat)
    (hacc : encodeRel w n base target .OK = some (field, .OK)) :
    decodeRelN w n base field = some (target, .OK) := by
  obtain ⟨f, e, h1, h2, h3⟩ := C21_accept w n base target h0 hn hn31 hw hb hb32 ht
  rw [hacc] at h1
  cases h1
  obtain ⟨a1, a2, a3⟩ := h2.1 rfl
  obtain ⟨d, g1, g2, g3, g4⟩ := C21_signExtend field n h0 (by omega)
  have hd : d = (target : Int) - base := by
    have hs : (2 : Int) ^ n = 2 * 2 ^ (n - 1) := by
      rw [← Int.pow_succ']; congr 1; omega
    have h5 : (d - ((target : Int) - base)) % (2 ^ n : Int) = 0 := by
      have e1 : ((field : Int) - ((target : Int) - base)) % (2 ^ n : Int) = 0 := by
        rw [h3 rfl, Int.sub_emod, Int.emod_emod_of_dvd _ (Int.dvd_refl _), Int.sub_self]; simp
      have e2 : d - ((target : Int) - base) = (d - field) + ((field : Int) - ((target : Int) - base)) := by
        omega
      rw [e2, Int.add_emod, g4, e1]; simp
    obtain ⟨k, hk⟩ := Int.dvd_of_emod_eq_zero h5
    have hpos : (0 : Int) < 2 ^ (n - 1) := Int.pow_pos (by decide)
    rw [hs] at hk
    generalize (2 : Int) ^ (n - 1) = s at *
    have hk1 : k < 1 := by
      by_cases h : 1 ≤ k
      · have := Int.mul_le_mul_of_nonneg_left h (show (0 : Int) ≤ 2 * s by omega)
        omega
      · omega
    have hk2 : -1 < k := by
      by_cases h : k ≤ -1
      · have := Int.mul_le_mul_of_nonneg_left h (show (0 : Int) ≤ 2 * s by omega)
        omega
      · omega
    have : k = 0 := by omega
    subst this
    omega
  unfold decodeRelN
  rw [g1]
  simp only [hd]
  have ht' : uint32 ((base : Int) + ((target : Int) - base)) = target := by
    have := uint32_nat (x := (base : Int) + ((target : Int) - base)) (by omega) (by omega)
    omega
  rw [ht', checkAddr_ok hw a1]

/-- C21 (converse): a displacement byte the disassembler decodes without an error is the one the
assembler produces for the decoded target. In a 32 bit address space the sum may wrap around, which
the assembler rejects (`C21_violated_wrap32`), hence `w < 32`. -/
theorem C21_rel8_back (w base field : Nat) (hw8 : 8 ≤ w) (hw : w < 32) (hb : base ≤ 2 ^ w)
    (hf : field < 256) (target : Nat) (hdec : decodeRel8 w base field = (target, .OK)) :
    encodeRel w 8 base target .OK = some (field, .OK) := by
  unfold decodeRel8 at hdec
  have hpow : 2 ^ w ≤ 2 ^ 31 := Nat.pow_le_pow_right (by omega) (by omega)
  have h31 : (2 : Nat) ^ 31 = 2147483648 := rfl
  have hd1 : -128 ≤ int8 field := by unfold int8; split <;> omega
  have hd2 : int8 field < 128 := by unfold int8; split <;> omega
  have hd3 : (field : Int) = int8 field % 256 := by unfold int8; split <;> omega
  generalize hdd : int8 field = d at *
  injection hdec with ht he
  have htlt : target < 2 ^ 32 := by
    rw [← ht]; unfold uint32
    have := Int.emod_lt_of_pos ((base : Int) + d) (show (0 : Int) < W by decide)
    have := Int.emod_nonneg ((base : Int) + d) (show (W : Int) ≠ 0 by decide)
    have hW : (W : Int) = 2 ^ 32 := rfl
    omega
  rw [ht] at he
  have hfit := ((C22_checkAddr w target false (by omega) htlt).1.1 he).1
  -- no wrap: the sum is not negative
  have hnn : 0 ≤ (base : Int) + d := by
    by_cases h : 0 ≤ (base : Int) + d
    · exact h
    · have : (uint32 ((base : Int) + d) : Int) = (base : Int) + d + 4294967296 := by
        unfold uint32
        have hW : (W : Int) = 4294967296 := rfl
        rw [hW]; omega
      rw [ht] at this
      omega
  have hsum : (target : Int) = base + d := by
    have := uint32_nat hnn (by omega)
    rw [ht] at this; exact this
  obtain ⟨f, e, h1, h2, h3⟩ := C21_accept w 8 base target (by omega) hw8 (by omega) (by omega) hb
    (by omega) htlt
  have hok : e = .OK := h2.2 ⟨hfit, by omega, by omega⟩
  subst hok
  have hfield := h3 rfl
  have : f = field := by
    have : ((2 : Int) ^ 8) = 256 := rfl
    rw [this] at hfield
    omega
  rw [h1, this]

/-- C21 for the CPUs with a signed byte displacement: assembler and disassembler agree about the
base. `len` is the number of bytes before the displacement; the assembler's buffer may still be
empty when only the opcode precedes it. -/
theorem C21_bases (address len : Nat) (h1 : 1 ≤ len) :
    (∀ cpu ∈ [i8051, mc6800, mc6805, tms7000, mos6502],
      cpu.asmBase address len = cpu.disBase address (len + 1) ∧
      cpu.asmBase address 0 = cpu.disBase address 2) ∧
    z80.asmBase address len = z80.disBase address 2 ∧
    f3850.asmBase address len = f3850.disBase address (len + 1) := by
  have hl : len ≠ 0 := by omega
  refine ⟨?_, rfl, rfl⟩
  intro cpu hc
  simp only [List.mem_cons, List.not_mem_nil, or_false] at hc
  rcases hc with rfl | rfl | rfl | rfl | rfl
  · simp [i8051, hl]; constructor <;> first | rfl | (congr 1)
  · simp [mc6800, hl]
  · simp [mc6805, hl]; constructor <;> first | rfl | (congr 1)
  · simp [tms7000, hl]
  · simp [mos6502, hl]; constructor <;> first | rfl | (congr 1)

/-- C21 needs the base inside the address space or right after it. An instruction that starts at
the last address and has its displacement beyond it has the base 2^w + 1, and a branch to 0 is then
accepted with a displacement that leads elsewhere. -/
theorem C21_violated_end : encodeRel 16 8 0x10001 0 .OK = some (0xFF, .OK) ∧
    decodeRel8 16 0x10001 0xFF = (0x10000, .OVERFLOW_RANGE) := by decide

/-- C21 (converse) fails where 32 bit addresses wrap around. -/
theorem C21_violated_wrap32 : decodeRel8 32 0 0xFF = (0xFFFFFFFF, .OK) ∧
    encodeRel 32 8 0 0xFFFFFFFF .OK = some (0xFF, .OVERFLOW_RANGE) := by decide

theorem setErrorIf_ne {a b : Err} (h : setErrorIf a b = .OK) : a = .OK ∧ b = .OK := by
  unfold setErrorIf at h
  split at h
  case isTrue hc => exact absurd h hc.2
  case isFalse hc =>
    subst h
    refine ⟨rfl, ?_⟩
    by_cases hb : b = .OK
    · exact hb
    · exact absurd ⟨rfl, hb⟩ hc

theorem branchDelta_err {w base target : Nat} {e : Err} (he : e ≠ .OK) {d : Int} {e' : Err}
    (h : branchDelta w base target e = some (d, e')) : e' ≠ .OK := by
  unfold branchDelta at h
  have hk : ∀ x, setErrorIf e x = e := fun x => by unfold setErrorIf; rw [if_neg (fun hh => he hh.1)]
  cases hse : signExtend (sub32 target base) w with
  | none => rw [hse] at h; cases h
  | some dd =>
    rw [hse] at h
    simp only [hk] at h
    split at h <;> (cases h; exact he)

/-- C21 for the TMS9900 family: an accepted jump decodes to its target. Jumps count words. -/
theorem C21_tms9900 (w address target : Nat) (hw9 : 9 ≤ w) (hw : w ≤ 31) (ha : address % 2 = 0)
    (hb : address + 2 ≤ 2 ^ w) (ht : target < 2 ^ 32) (field : Nat)
    (hacc : encodeTms9900 w address target .OK = some (field, .OK)) :
    decodeTms9900 w address field = (target, .OK) := by
  have hpow : 2 ^ w ≤ 2 ^ 31 := Nat.pow_le_pow_right (by omega) (by omega)
  have h31 : (2 : Nat) ^ 31 = 2147483648 := rfl
  have hW0 : W = 4294967296 := rfl
  have hbase : (address + 2) % W = address + 2 := Nat.mod_eq_of_lt (by omega)
  unfold encodeTms9900 at hacc
  simp only [hbase] at hacc
  by_cases hal : checkAddr w target true = .OK
  · obtain ⟨hfit, heven⟩ := (C22_checkAddr w target true (by omega) ht).1.1 hal
    have heven := heven rfl
    rw [hal, show setErrorIf Err.OK Err.OK = .OK from rfl] at hacc
    obtain ⟨d, e, hd, h1, h2, h3⟩ := branchDelta_eq (w := w) (target := target) (by omega) (by omega)
      hb (by omega) ht
    rw [hd] at hacc
    simp only at hacc
    rw [overflowDelta_eq (by omega) (by omega)] at hacc
    simp only [Option.some.injEq, Prod.mk.injEq] at hacc
    obtain ⟨hf, herr⟩ := hacc
    have hok : e = .OK := by
      by_cases h : e = .OK
      · exact h
      · rw [h3 h] at herr
        revert herr
        split <;> nofun
    subst hok
    have hde := h2 rfl
    have hrange : -128 ≤ Int.tdiv d 2 ∧ Int.tdiv d 2 < 128 := by
      by_cases h : -((2 ^ (8 - 1) : Nat) : Int) ≤ Int.tdiv d 2 ∧ Int.tdiv d 2 < ((2 ^ (8 - 1) : Nat) : Int)
      · exact h
      · rw [if_pos (decide_eq_true h)] at herr; cases herr
    have hdiv : Int.tdiv d 2 * 2 = d := by
      have : d % 2 = 0 := by omega
      exact Int.tdiv_mul_cancel (Int.dvd_of_emod_eq_zero this)
    have hfield : (field : Int) = Int.tdiv d 2 % 256 := by
      rw [← hf]; unfold uint32
      have hW : (W : Int) = 4294967296 := rfl
      rw [hW]; omega
    unfold decodeTms9900
    rw [int8_field hfield hrange.1 hrange.2, hdiv, hbase, hde]
    simp only
    have ht' : uint32 (((address + 2 : Nat) : Int) + ((target : Int) - ((address + 2 : Nat) : Int))) = target := by
      have := uint32_nat (x := ((address + 2 : Nat) : Int) + ((target : Int) - ((address + 2 : Nat) : Int)))
        (by omega) (by omega)
      omega
    rw [ht']
    simp only [checkAddr_ok (show w ≤ 32 by omega) hfit]
  · exfalso
    cases hbd : branchDelta w (address + 2) target (setErrorIf .OK (checkAddr w target true)) with
    | none => rw [hbd] at hacc; cases hacc
    | some r =>
      obtain ⟨d, e⟩ := r
      rw [setErrorIf_ok] at hbd hacc
      have he := branchDelta_err hal hbd
      rw [hbd] at hacc
      simp only at hacc
      rw [overflowDelta_eq (by omega) (by omega)] at hacc
      simp only [Option.some.injEq, Prod.mk.injEq] at hacc
      have := hacc.2
      split at this
      · exact he (setErrorIf_ne this).1
      · exact he this

/-- C21 for the PDP-11: accepted branches (`BR` and the backward `SOB`) decode to their target. -/
theorem C21_pdp11 (sob : Bool) (address target : Nat) (ha : address % 2 = 0)
    (hb : address + 2 ≤ 65536) (ht : target < 2 ^ 32) (field : Nat)
    (hacc : encodePdp11 sob address target .OK = some (field, .OK)) :
    decodePdp11 sob address field = (target, .OK) := by
  have hW0 : W = 4294967296 := rfl
  have hbase : (address + 2) % W = address + 2 := Nat.mod_eq_of_lt (by omega)
  unfold encodePdp11 at hacc
  simp only [hbase] at hacc
  have hW : (W : Int) = 4294967296 := rfl
  by_cases hal : checkAddr 16 target true = .OK
  · obtain ⟨hfit, heven⟩ := (C22_checkAddr 16 target true (by omega) ht).1.1 hal
    have heven := heven rfl
    rw [hal, show setErrorIf Err.OK Err.OK = .OK from rfl] at hacc
    obtain ⟨d, e, hd, h1, h2, h3⟩ := branchDelta_eq (w := 16) (target := target) (by omega) (by omega)
      hb (by omega) ht
    rw [hd] at hacc
    have hchk : checkAddr 16 target true = .OK := hal
    have ht' : uint32 (((address + 2 : Nat) : Int) + ((target : Int) - ((address + 2 : Nat) : Int))) = target := by
      have := uint32_nat (x := ((address + 2 : Nat) : Int) + ((target : Int) - ((address + 2 : Nat) : Int)))
        (by omega) (by omega)
      omega
    cases sob
    · simp only [Bool.false_eq_true, if_false] at hacc
      rw [overflowDelta_eq (by omega) (by omega)] at hacc
      simp only [Option.some.injEq, Prod.mk.injEq] at hacc
      obtain ⟨hf, herr⟩ := hacc
      have hok : e = .OK := by
        by_cases h : e = .OK
        · exact h
        · rw [h3 h] at herr
          revert herr
          split <;> nofun
      subst hok
      have hde := h2 rfl
      have hrange : -256 ≤ d ∧ d < 256 := by
        by_cases h : -((2 ^ (9 - 1) : Nat) : Int) ≤ d ∧ d < ((2 ^ (9 - 1) : Nat) : Int)
        · exact h
        · rw [if_pos (decide_eq_true h)] at herr; cases herr
      have hdiv : Int.tdiv d 2 * 2 = d := by
        have : d % 2 = 0 := by omega
        exact Int.tdiv_mul_cancel (Int.dvd_of_emod_eq_zero this)
      have hfield : (field : Int) = Int.tdiv d 2 % 256 := by
        rw [← hf]; unfold uint32
        rw [hW]; omega
      unfold decodePdp11
      simp only [Bool.false_eq_true, if_false]
      rw [int8_field hfield (by omega) (by omega), Int.mul_comm, hdiv, hbase, hde, ht', hchk]
    · simp only [if_true, Option.some.injEq, Prod.mk.injEq] at hacc
      obtain ⟨hf, herr⟩ := hacc
      have hok : e = .OK := by
        by_cases h : e = .OK
        · exact h
        · rw [h3 h] at herr
          revert herr
          split <;> nofun
      subst hok
      have hde := h2 rfl
      have hrange : -126 ≤ d ∧ d ≤ 0 := by
        by_cases h : d > 0 ∨ d ≤ -128
        · rw [if_pos h] at herr; cases herr
        · omega
      have hdiv : Int.tdiv (-d) 2 * 2 = -d := by
        have : (-d) % 2 = 0 := by omega
        exact Int.tdiv_mul_cancel (Int.dvd_of_emod_eq_zero this)
      have hfield : (field : Int) = Int.tdiv (-d) 2 := by
        rw [← hf]; unfold uint32
        rw [hW]; omega
      have hfl : field % 64 = field := Nat.mod_eq_of_lt (by omega)
      have hneg : int8 (uint32 (-((field % 64 : Nat) : Int))) = -Int.tdiv (-d) 2 := by
        unfold int8 uint32
        rw [hW, hfl]
        split <;> omega
      unfold decodePdp11
      simp only [if_true]
      rw [hneg, show 2 * -Int.tdiv (-d) 2 = d from by omega, hbase, hde, ht', hchk]
  · exfalso
    cases hbd : branchDelta 16 (address + 2) target (setErrorIf .OK (checkAddr 16 target true)) with
    | none => rw [hbd] at hacc; cases hacc
    | some r =>
      obtain ⟨d, e⟩ := r
      rw [setErrorIf_ok] at hbd hacc
      have he := branchDelta_err hal hbd
      rw [hbd] at hacc
      cases sob
      · simp only [Bool.false_eq_true, if_false] at hacc
        rw [overflowDelta_eq (by omega) (by omega)] at hacc
        simp only [Option.some.injEq, Prod.mk.injEq] at hacc
        have := hacc.2
        split at this
        · exact he (setErrorIf_ne this).1
        · exact he this
      · simp only [if_true, Option.some.injEq, Prod.mk.injEq] at hacc
        have := hacc.2
        split at this
        · exact he (setErrorIf_ne this).1
        · exact he this

/-- Hypotheses are met. -/
example : encodeRel 16 8 0x1002 0x0FF0 .OK = some (0xEE, .OK) ∧ 0x1002 ≤ 2 ^ 16 := by decide
example : encodeRel 16 8 0x1002 0x1082 .OK = some (0x80, .OPERAND_TOO_FAR) := by decide
example : encodeRel 16 8 0x10000 0xFF80 .OK = some (0x80, .OK) := by decide
example : encodeRel 16 11 0x1002 0x0C02 .OK = some (0x400, .OK) := by decide
example : encodeTms9900 16 0x100 0x82 .OK = some (0xC0, .OK) ∧
    encodePdp11 false 0x100 0x90 .OK = some (0xC7, .OK) ∧
    encodePdp11 true 0x100 0x90 .OK = some (0x39, .OK) := by decide

end Libasm.Config
