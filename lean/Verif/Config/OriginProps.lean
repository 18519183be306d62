import Verif.Config.Props
import Verif.Value.Props
/-
C42: alignment directives.  C46: origin and space directives.
-/
namespace Libasm.Config
open Value.Spec (Valid denote)

/-- `m` is the least number satisfying `P` that is not below `a`. -/
def LeastFrom (a : Nat) (P : Nat → Prop) (m : Nat) : Prop :=
  P m ∧ a ≤ m ∧ ∀ k, P k → a ≤ k → m ≤ k

/-- An aligned location: `e` tells whether it fits the address width. -/
def Moved (w : Nat) (s s' : Asm) (e : Err) (P : Nat → Prop) : Prop :=
  LeastFrom s.insn.address P s'.location ∧ s'.insn.address = s'.location ∧
    (s.insn.error = .OK → (e = .OK ↔ s'.location < 2 ^ w))

theorem least_multiple {a n : Nat} (hn : 0 < n) :
    LeastFrom a (fun m => m % n = 0) (if a % n ≠ 0 then a + (n - a % n) else a) := by
  have hlt := Nat.mod_lt a hn
  have hda := Nat.mod_add_div a n
  by_cases h : a % n = 0
  · rw [if_neg (by simp [h])]
    exact ⟨h, Nat.le_refl _, fun k _ hk => hk⟩
  · rw [if_pos h]
    have hx : a + (n - a % n) = n * (a / n + 1) := by rw [Nat.mul_add]; omega
    refine ⟨?_, by omega, ?_⟩
    · rw [hx]; exact Nat.mul_mod_right _ _
    · intro k hk hak
      rw [hx]
      have hk' := Nat.mod_add_div k n
      rw [hk, Nat.zero_add] at hk'
      rw [← hk']
      apply Nat.mul_le_mul_left
      by_cases hc : k / n ≤ a / n
      · exfalso
        have := Nat.mul_le_mul_left n hc
        omega
      · omega

theorem small_value {v : Value} (hv : Valid v) (h0 : 0 ≤ denote v) (h : denote v < 4294967296) :
    v.getUnsigned = v.bits ∧ (v.bits : Int) = denote v := by
  obtain ⟨bits, t⟩ := v
  cases t
  · have h0 : bits = 0 := hv
    subst h0
    exact ⟨rfl, rfl⟩
  · have h' : (bits : Int) < 4294967296 := h
    exact ⟨Nat.mod_eq_of_lt (by show bits < _; omega), rfl⟩
  · have h' : 2 ^ 63 ≤ bits ∧ bits < 2 ^ 64 := hv
    have h'' : 0 ≤ (bits : Int) - 2 ^ 64 := h0
    omega

theorem setErrorIf_iff {a b : Err} (ha : a = .OK) : setErrorIf a b = .OK ↔ b = .OK := by
  subst ha; rw [setErrorIf_ok]

theorem alignBy_eq {w : Nat} {s : Asm} {n : Nat} (hw : w ≤ 32) (h0 : 0 < n) (h255 : n ≤ 255)
    (hfit : s.insn.address + n ≤ 2 ^ 32) :
    ∃ s' e, alignBy w s n = some (s', e) ∧ Moved w s s' e (fun m => m % n = 0) := by
  have hn : n % 256 = n := Nat.mod_eq_of_lt (by omega)
  have hlt := Nat.mod_lt s.insn.address h0
  have hr : s.insn.address % n % 256 = s.insn.address % n := Nat.mod_eq_of_lt (by omega)
  have hl := least_multiple (a := s.insn.address) h0
  unfold alignBy Insn.Buf.align
  simp only [hn, hr]
  rw [if_neg (by omega)]
  by_cases hz : s.insn.address % n = 0
  · rw [if_neg (by simp [hz])] at hl
    rw [if_neg (by simp [hz])]
    refine ⟨_, _, rfl, hl, rfl, ?_⟩
    intro he
    show setErrorIf s.insn.error (checkAddr w s.insn.address false) = .OK ↔ _
    rw [setErrorIf_iff he, (C22_checkAddr w s.insn.address false hw (by omega)).1]
    simp [Asm.setCurrentLocation]
  · rw [if_pos hz] at hl
    rw [if_pos hz]
    have hm : (s.insn.address + (n - s.insn.address % n)) % 4294967296 =
        s.insn.address + (n - s.insn.address % n) := Nat.mod_eq_of_lt (by
      have : (2 : Nat) ^ 32 = 4294967296 := rfl
      have hne : s.insn.address + n - s.insn.address % n < 4294967296 := by omega
      omega)
    rw [hm]
    refine ⟨_, _, rfl, hl, rfl, ?_⟩
    intro he
    show setErrorIf s.insn.error (checkAddr w _ false) = .OK ↔ _
    have : (2 : Nat) ^ 32 = 4294967296 := rfl
    rw [setErrorIf_iff he, (C22_checkAddr w _ false hw (by simp only; omega)).1]
    simp [Asm.setCurrentLocation]

/-- C42: `ALIGN n` moves the location to the least multiple of `n` not below it, and reports an
error exactly when that multiple is outside the address space. The hypothesis `hfit` keeps the sum
inside 32 bits (`C42_violated_wrap`). -/
theorem C42_align_partial (w : Nat) (s : Asm) (v : Value) (hv : Valid v) (hw : w ≤ 32)
    (h1 : 1 ≤ denote v) (h255 : denote v ≤ 255)
    (hfit : (s.insn.address : Int) + denote v ≤ 2 ^ 32) :
    ∃ s' e, alignOrigin w s 0 (v, .OK) = some (s', e) ∧
      Moved w s s' e (fun m => (m : Int) % denote v = 0) := by
  have hov : v.overflow 255 0 = false := by
    have := Value.C14_overflow v hv 255 0 (by decide) (by decide) (by decide)
    simp only [Bool.eq_false_iff, ne_eq, this]
    omega
  have hb := small_value hv (by omega) (by omega)
  unfold alignOrigin
  rw [if_neg (by decide), if_pos (by decide), if_neg (by simp)]
  simp only [hov, Bool.false_eq_true, if_false, hb.1]
  obtain ⟨s', e, h, hm⟩ := alignBy_eq (w := w) (s := s) (n := v.bits) hw (by omega) (by omega) (by omega)
  refine ⟨s', e, h, ?_⟩
  rw [← hb.2]
  have : (fun m : Nat => (m : Int) % (v.bits : Int) = 0) = fun m => m % v.bits = 0 := by
    funext m
    exact propext ⟨fun h => by omega, fun h => by omega⟩
  rw [this]
  exact hm

/-- C42: an `ALIGN` operand that is not in 0..255 is refused and the location stays. -/
theorem C42_range (w : Nat) (s : Asm) (v : Value) (hv : Valid v)
    (h : denote v < 0 ∨ 255 < denote v) :
    alignOrigin w s 0 (v, .OK) =
      some ({ s with insn := { s.insn with error := .OVERFLOW_RANGE } }, .OVERFLOW_RANGE) := by
  have hov : v.overflow 255 0 = true := by
    have := Value.C14_overflow v hv 255 0 (by decide) (by decide) (by decide)
    rw [this]
    omega
  unfold alignOrigin
  rw [if_neg (by decide), if_pos (by decide), if_neg (by simp)]
  simp only [hov, if_true]
  rfl

/-- C42: the directives with a fixed step (`EVEN`, `ALIGN4`, ...). -/
theorem C42_fixed_partial (w : Nat) (s : Asm) (op : Operand) (n : Nat) (hw : w ≤ 32) (h1 : 2 ≤ n)
    (h255 : n ≤ 255) (hfit : s.insn.address + n ≤ 2 ^ 32) :
    ∃ s' e, alignOrigin w s n op = some (s', e) ∧ Moved w s s' e (fun m => m % n = 0) := by
  unfold alignOrigin
  rw [if_neg (by simp only [alignOdd]; omega), if_neg (by simp only [alignVar]; omega)]
  exact alignBy_eq hw (by omega) h255 hfit

/-- C42: `ODD` moves to the least odd location not below. -/
theorem C42_odd (w : Nat) (s : Asm) (op : Operand) (hw : w ≤ 32) (ha : s.insn.address < 2 ^ 32) :
    ∃ s' e, alignOrigin w s 1 op = some (s', e) ∧ Moved w s s' e (fun m => m % 2 = 1) := by
  have hW : W = 4294967296 := rfl
  unfold alignOrigin
  rw [if_pos (by decide)]
  by_cases he : s.insn.address % 2 = 0
  · have hm : (s.insn.address + 1) % W % 4294967296 = s.insn.address + 1 := by
      rw [hW]; omega
    simp only [he, if_true]
    refine ⟨_, _, rfl, ⟨?_, ?_, ?_⟩, rfl, ?_⟩
    · show ((s.insn.address + 1) % W % 4294967296) % 2 = 1
      rw [hm]; omega
    · show s.insn.address ≤ (s.insn.address + 1) % W % 4294967296
      rw [hm]; omega
    · intro k hk hak
      show (s.insn.address + 1) % W % 4294967296 ≤ k
      rw [hm]; omega
    · intro _
      show setErrorIf .OK (checkAddr w ((s.insn.address + 1) % W % 4294967296) false) = .OK ↔
        (s.insn.address + 1) % W % 4294967296 < 2 ^ w
      rw [hm, setErrorIf_ok, (C22_checkAddr w _ false hw (by omega)).1]
      simp
  · simp only [he, if_false]
    refine ⟨_, _, rfl, ⟨?_, Nat.le_refl _, fun k _ h => h⟩, rfl, ?_⟩
    · show s.insn.address % 2 = 1
      omega
    · intro hok
      show setErrorIf s.insn.error (checkAddr w s.insn.address false) = .OK ↔ s.insn.address < 2 ^ w
      rw [setErrorIf_iff hok, (C22_checkAddr w _ false hw ha).1]
      simp

/-- An assembler at `location` with an empty instruction there. -/
def start (location : Nat) : Asm := ⟨location, ⟨location, 0, List.replicate 64 0, .OK⟩⟩

/-- `ALIGN 0` takes a remainder by zero: undefined behaviour. -/
theorem C42_violated_zero : alignOrigin 16 (start 0x100) 0 (⟨0, .unsigned⟩, .OK) = none := by decide

/-- Near the end of a 32 bit address space alignment wraps to 0 without an error. -/
theorem C42_violated_wrap :
    (alignOrigin 32 (start 0xFFFFFFFD) 0 (⟨8, .unsigned⟩, .OK)).map (fun r => (r.1.location, r.2)) =
      some (0, .OK) := by decide

example : (alignOrigin 16 (start 0x101) 0 (⟨24, .unsigned⟩, .OK)).map
    (fun r => (r.1.location, r.2)) = some (264, .OK) := by decide
example : (alignOrigin 16 (start 0xFFFD) 0 (⟨8, .unsigned⟩, .OK)).map
    (fun r => (r.1.location, r.2)) = some (0x10000, .OVERFLOW_RANGE) := by decide
example : (alignOrigin 16 (start 0x100) 1 (⟨0, .undef⟩, .OK)).map
    (fun r => (r.1.location, r.2)) = some (0x101, .OK) := by decide

/-! ### C46 -/

/-- C46: `ORG v` with a value inside the address space moves the location to `v` and is not an
error; a value outside of it, up to 32 bits, is an error. -/
theorem C46_origin_partial (w : Nat) (s : Asm) (v : Value) (hv : Valid v) (hw : w ≤ 32)
    (h0 : 0 ≤ denote v) (h32 : denote v < 2 ^ 32) (hs : s.insn.error = .OK) :
    let r := defineOrigin w s (v, .OK)
    (r.1.location : Int) = denote v ∧
      (r.2 = .OK ↔ denote v < 2 ^ w) ∧
      (r.2 = .OK → (r.1.insn.address : Int) = denote v ∧ r.1.insn.length = 0) ∧
      (r.2 ≠ .OK → r.2 = .OVERFLOW_RANGE) := by
  have h4 : (2 : Nat) ^ 32 = 4294967296 := rfl
  have hb := small_value hv (by omega) (by omega)
  have hlt : v.bits < 2 ^ 32 := by omega
  have hc := C22_checkAddr w v.bits false hw hlt
  have hcast : ((v.bits : Int) < 2 ^ w) ↔ v.bits < 2 ^ w := by norm_cast
  rw [← hb.2, hcast]
  intro r
  have hr : r = if checkAddr w v.bits false ≠ .OK then
      ({ s with location := v.bits, insn := { s.insn with error := checkAddr w v.bits false } },
        checkAddr w v.bits false)
      else (⟨v.bits, s.insn.reset v.bits 0⟩, .OK) := by
    show defineOrigin w s (v, .OK) = _
    unfold defineOrigin
    rw [if_neg (by simp)]
    simp only [Asm.setCurrentLocation, Asm.setErrorIf, hs, setErrorIf_ok, hb.1]
    split
    · rfl
    · have : checkAddr w v.bits false = .OK := by simp_all
      simp only [this, Insn.Buf.reset]
  by_cases hk : checkAddr w v.bits false = .OK
  · rw [if_neg (by simp [hk])] at hr
    rw [hr]
    refine ⟨rfl, ⟨fun _ => (hc.1.1 hk).1, fun _ => rfl⟩, fun _ => ⟨?_, rfl⟩, fun h => absurd rfl h⟩
    show ((v.bits % 4294967296 : Nat) : Int) = v.bits
    omega
  · rw [if_pos hk] at hr
    rw [hr]
    have hov : checkAddr w v.bits false = .OVERFLOW_RANGE := by
      apply hc.2.1.2
      by_cases h : v.bits < 2 ^ w
      · exact absurd (hc.1.2 ⟨h, nofun⟩) hk
      · omega
    exact ⟨rfl, ⟨fun h => absurd h hk, fun h => absurd (hc.1.2 ⟨h, nofun⟩) hk⟩,
      fun h => absurd h hk, fun _ => hov⟩

/-- `ORG` keeps only 32 bits: an origin of 2^32 is accepted as 0, and so is a negative one on a 32
bit CPU. -/
theorem C46_violated_origin :
    ((defineOrigin 16 (start 0x100) (⟨4294967296, .unsigned⟩, .OK)).1.location,
      (defineOrigin 16 (start 0x100) (⟨4294967296, .unsigned⟩, .OK)).2) = (0, .OK) := by decide

/-- C46: reserving `n` units of `unit` bytes (`DS`, `DSW`, `DSL`) moves the location forward by
exactly the memory they take, in the address units of the CPU; an error is recorded exactly when
the new location does not fit. For aligned data see the next theorem. -/
theorem C46_space_partial (w au unit : Nat) (s : Asm) (v : Value) (hv : Valid v) (hw : w ≤ 32)
    (hu : unit = 1 ∨ unit = 2 ∨ unit = 4)
    (h0 : 0 ≤ denote v) (h16 : denote v < 2 ^ 16)
    (hs : s.insn.error = .OK) (hfit : s.insn.address + 2 ^ 18 ≤ 2 ^ 32) :
    ∃ s', allocateSpaces w au unit false s (v, .OK) = some (s', .OK) ∧
      (s'.location : Int) = s.insn.address + denote v * unit / au ∧
      (s'.insn.error = .OK ↔ s'.location < 2 ^ w) := by
  have hW : W = 4294967296 := rfl
  have hb := small_value hv (by omega) (by omega)
  have hov : v.overflowUint16 = false := by
    have := ((Value.C14_fixed_widths v hv).2.2.2.1)
    simp only [Bool.eq_false_iff, ne_eq, this]
    omega
  have hbl : v.bits < 65536 := by omega
  have hbytes : v.bits * unit % W = v.bits * unit := Nat.mod_eq_of_lt (by
    rcases hu with rfl | rfl | rfl <;> omega)
  have hdiv : v.bits * unit / au ≤ v.bits * unit := Nat.div_le_self _ _
  have hle : v.bits * unit < 262144 := by rcases hu with rfl | rfl | rfl <;> omega
  have haddr : (s.insn.address + v.bits * unit / au) % W = s.insn.address + v.bits * unit / au :=
    Nat.mod_eq_of_lt (by omega)
  unfold allocateSpaces
  simp only [Bool.false_and, Bool.false_eq_true, if_false, ne_eq, not_true_eq_false, hov, hb.1,
    hbytes, haddr]
  refine ⟨_, rfl, ?_, ?_⟩
  · show ((s.insn.address + v.bits * unit / au : Nat) : Int) = _
    rw [← hb.2]; simp
  · show setErrorIf s.insn.error (checkAddr w (s.insn.address + v.bits * unit / au) false) = .OK ↔
      s.insn.address + v.bits * unit / au < 2 ^ w
    rw [setErrorIf_iff hs, (C22_checkAddr w _ false hw (by omega)).1]
    simp

/-- C46: aligned data (`DATA_ALIGN2`) is first moved to an even address. -/
theorem C46_space_aligned_partial (w unit : Nat) (s : Asm) (v : Value) (hv : Valid v) (hw : w ≤ 32)
    (hu : unit = 2 ∨ unit = 4) (h0 : 0 ≤ denote v) (h16 : denote v < 2 ^ 16)
    (hs : s.insn.error = .OK) (hfit : s.insn.address + 2 ^ 18 + 1 ≤ 2 ^ 32) :
    ∃ s', allocateSpaces w 1 unit true s (v, .OK) = some (s', .OK) ∧
      (s'.location : Int) = s.insn.address + s.insn.address % 2 + denote v * unit ∧
      s'.location % 2 = 0 ∧
      (s'.insn.error = .OK ↔ s'.location < 2 ^ w) := by
  have hW : W = 4294967296 := rfl
  have hb := small_value hv (by omega) (by omega)
  have hov : v.overflowUint16 = false := by
    have := ((Value.C14_fixed_widths v hv).2.2.2.1)
    simp only [Bool.eq_false_iff, ne_eq, this]
    omega
  have hbl : v.bits < 65536 := by omega
  have hbytes : v.bits * unit % W = v.bits * unit := Nat.mod_eq_of_lt (by
    rcases hu with rfl | rfl <;> omega)
  have hle : v.bits * unit < 262144 ∧ v.bits * unit % 2 = 0 := by
    rcases hu with rfl | rfl <;> omega
  have hal : ∃ i, (if (true && decide (s.insn.address % 2 ≠ 0)) = true then s.insn.align 2 else some s.insn) = some i ∧
      i.address = s.insn.address + s.insn.address % 2 ∧ i.error = .OK := by
    by_cases h : s.insn.address % 2 = 0
    · rw [if_neg (by simp [h])]
      exact ⟨_, rfl, by omega, hs⟩
    · rw [if_pos (by simp [h])]
      have h1 : s.insn.address % 2 = 1 := by omega
      unfold Insn.Buf.align
      simp only [Nat.reduceMod, h1]
      refine ⟨_, rfl, ?_, hs⟩
      show (s.insn.address + 1) % 4294967296 = s.insn.address + 1
      omega
  obtain ⟨i, hi, hia, hie⟩ := hal
  unfold allocateSpaces
  rw [hi]
  have haddr : (i.address + v.bits * unit) % W = i.address + v.bits * unit :=
    Nat.mod_eq_of_lt (by omega)
  simp only [ne_eq, not_true_eq_false, if_false, hov, Bool.false_eq_true, hb.1, hbytes, Nat.div_one, haddr]
  refine ⟨_, rfl, ?_, ?_, ?_⟩
  · show ((i.address + v.bits * unit : Nat) : Int) = _
    rw [← hb.2, hia]; simp
  · show (i.address + v.bits * unit) % 2 = 0
    omega
  · show setErrorIf i.error (checkAddr w (i.address + v.bits * unit) true) = .OK ↔
      i.address + v.bits * unit < 2 ^ w
    rw [setErrorIf_iff hie, (C22_checkAddr w _ true hw (by omega)).1]
    constructor
    · exact fun h => h.1
    · exact fun h => ⟨h, fun _ => by omega⟩

/-- `DS -1` is accepted and moves the location back. -/
theorem C46_violated_space :
    (allocateSpaces 16 1 1 false (start 0x100) (⟨2 ^ 64 - 1, .signed⟩, .OK)).map
      (fun r => (r.1.location, r.1.insn.error, r.2)) = some (0xFF, .OK, .OK) := by decide

example : (allocateSpaces 16 1 2 true (start 0x101) (⟨5, .unsigned⟩, .OK)).map
      (fun r => (r.1.location, r.1.insn.error, r.2)) = some (0x10C, .OK, .OK) := by decide
example : ((defineOrigin 16 (start 0x100) (⟨0x10000, .unsigned⟩, .OK)).1.location,
      (defineOrigin 16 (start 0x100) (⟨0x10000, .unsigned⟩, .OK)).2) = (0x10000, .OVERFLOW_RANGE) := by decide

end Libasm.Config
