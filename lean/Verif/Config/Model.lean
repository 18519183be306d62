import Verif.Insn.Model
import Verif.Value.Model
/-
Model of src/config_base.cpp, of the branch and origin helpers of src/asm_base.cpp, and of the
relative branches of several CPUs.

`none` stands for undefined behaviour: a shift by a negative or too large count, negation of
INT32_MIN, a remainder by zero.  `unsigned long` is taken to have 64 bits, as on the hosts the
command line tools run on.
-/
namespace Libasm.Config

/-- 2^32 -/
def W : Nat := 4294967296

/-- The bits of a uint32_t read as an int32_t. -/
def int32 (u : Nat) : Int := if u % W < 2147483648 then ((u % W : Nat) : Int) else ((u % W : Nat) : Int) - W
/-- The low 8 bits of a number read as an int8_t: `static_cast<int8_t>`. -/
def int8 (u : Nat) : Int := if u % 256 < 128 then ((u % 256 : Nat) : Int) else ((u % 256 : Nat) : Int) - 256
/-- `static_cast<int16_t>`. -/
def int16 (u : Nat) : Int :=
  if u % 65536 < 32768 then ((u % 65536 : Nat) : Int) else ((u % 65536 : Nat) : Int) - 65536
/-- The bits of an int32_t as a uint32_t. -/
def uint32 (s : Int) : Nat := (s % (W : Int)).toNat
/-- Bitwise complement of a uint32_t. -/
def not32 (u : Nat) : Nat := W - 1 - u % W
/-- Difference of two uint32_t. -/
def sub32 (a b : Nat) : Nat := (a % W + W - b % W) % W

/-- src/config_base.cpp:21-24 `overflowDelta`: the shift is undefined for widths 0 and above 32,
and `-sign` for width 32. -/
def overflowDelta (s32 : Int) (bitw : Nat) : Option Bool :=
  if bitw = 0 ∨ 32 ≤ bitw then none
  else
    let sign : Int := 1 <<< (bitw - 1)
    some (decide (s32 < -sign) || decide (s32 ≥ sign))

/-- src/config_base.cpp:26-30 `signExtend`. -/
def signExtend (u32 width : Nat) : Option Int :=
  if width = 0 ∨ 32 < width then none
  else
    let sign := 1 <<< (width - 1)
    let mask := sub32 ((sign <<< 1) % W) 1
    some (int32 (sub32 (((u32 + sign) % W) &&& mask) sign))

/-- src/config_base.cpp:32-40 `checkAddr(addr, align)`, for a CPU of address width `width`. -/
def checkAddr (width addr : Nat) (align : Bool) : Err :=
  let max := (1 <<< width) % W
  if addr &&& not32 (sub32 max 1) ≠ 0 then .OVERFLOW_RANGE
  else if align && addr % 2 ≠ 0 then .OPERAND_NOT_ALIGNED
  else .OK

/-- src/config_base.cpp:42-48 `checkAddr(addr, base, width, align)`: `seg` is the parameter `width`;
the shift is of an unsigned long. -/
def checkAddrSeg (width addr base seg : Nat) (align : Bool) : Option Err :=
  if 64 ≤ seg then none
  else
    let error := checkAddr width addr align
    if error ≠ .OK then some error
    else
      let mask := not32 (((1 <<< seg) + 18446744073709551616 - 1) % 18446744073709551616)
      some (if addr &&& mask = base &&& mask then .OK else .OVERWRAP_SEGMENT)

/-- `error.setErrorIf(at, e)` on the error code alone, src/error_reporter.h:139-141. -/
def setErrorIf (error e : Err) : Err := if error = .OK ∧ e ≠ .OK then e else error

/-- src/asm_base.cpp:126-133 `branchDelta`: the displacement and the error slot afterwards. -/
def branchDelta (width base target : Nat) (error : Err) : Option (Int × Err) :=
  let error := setErrorIf error (checkAddr width target false)
  match signExtend (sub32 target base) width with
  | none => none
  | some delta =>
    let error :=
      if (delta ≥ 0 ∧ target < base) ∨ (delta < 0 ∧ target ≥ base) then
        setErrorIf error .OVERFLOW_RANGE
      else error
    some (delta, error)

/-- The common tail of the relative encoders: `branchDelta`, `overflowDelta(delta, bits)` with
OPERAND_TOO_FAR, and the low `bits` bits of the displacement as the field.
asm_f3850.cpp:101-108, asm_i8051.cpp:149-157, asm_mc6800.cpp:105-112, asm_mc6805.cpp:140-147,
asm_tms7000.cpp:174-182, asm_z8.cpp:275-282, asm_z80.cpp:61-68, asm_tlcs90.cpp:72-84 with 8 bits;
the 16 bit forms (asm_mos6502.cpp:131-138, asm_mc6809.cpp:131-137) leave out the check, which
cannot fail there. -/
def encodeRel (width bits base target : Nat) (error : Err) : Option (Nat × Err) :=
  match branchDelta width base target error with
  | none => none
  | some (delta, error) =>
    match overflowDelta delta bits with
    | none => none
    | some far =>
      let error := if far then setErrorIf error .OPERAND_TOO_FAR else error
      some (uint32 delta % 2 ^ bits, error)

/-- The relative decoders: `target = base + static_cast<int8_t>(field)` and `checkAddr(target)`.
dis_f3850.cpp:37-43, dis_i8051.cpp:35-41, dis_mc6800.cpp:58-64, dis_mc6805.cpp:103-109,
dis_tms7000.cpp:66-72, dis_z8.cpp:260-268, dis_z80.cpp:79-85. -/
def decodeRel8 (width base field : Nat) : Nat × Err :=
  let target := uint32 (base + int8 field)
  (target, checkAddr width target false)

/-- The same with `static_cast<int16_t>`, dis_mos6502.cpp:152-163 (M_LREL). -/
def decodeRel16 (width base field : Nat) : Nat × Err :=
  let target := uint32 (base + int16 field)
  (target, checkAddr width target false)

/-- The same with `signExtend(field, bits)`: dis_tlcs90.cpp:82-89, dis_i8096.cpp:76. -/
def decodeRelN (width bits base field : Nat) : Option (Nat × Err) :=
  match signExtend field bits with
  | none => none
  | some delta =>
    let target := uint32 (base + delta)
    some (target, checkAddr width target false)

/-- How a CPU computes the base of a branch from the address of the instruction and a number of
bytes. The address width is a parameter of the theorems. -/
structure BranchCpu where
  name : String
  /-- bytes before the displacement the assembler may have emitted already (`insn.length()`; 0
  means only the opcode, not yet emitted) -/
  asmBase : Nat → Nat → Nat
  /-- `insn.length()` counts the displacement itself here -/
  disBase : Nat → Nat → Nat

/-- asm_f3850.cpp:102, dis_f3850.cpp:39: relative to the displacement byte. -/
def f3850 : BranchCpu := ⟨"F3850", fun a _ => (a + 1) % W, fun a _ => (a + 1) % W⟩
/-- asm_i8051.cpp:150-151, dis_i8051.cpp:37. -/
def i8051 : BranchCpu :=
  ⟨"I8051", fun a len => (a + (if len ≠ 0 then len else 1) + 1) % W, fun a len => (a + len) % W⟩
/-- asm_mc6800.cpp:106, dis_mc6800.cpp:60. -/
def mc6800 : BranchCpu :=
  ⟨"MC6800", fun a len => (a + (if len = 0 then 2 else len + 1)) % W, fun a len => (a + len) % W⟩
/-- asm_mc6805.cpp:141, dis_mc6805.cpp:105. -/
def mc6805 : BranchCpu :=
  ⟨"MC6805", fun a len => (a + len + (if len = 0 then 2 else 1)) % W, fun a len => (a + len) % W⟩
/-- asm_tms7000.cpp:175-176, dis_tms7000.cpp:68. -/
def tms7000 : BranchCpu :=
  ⟨"TMS7000", fun a len => (a + (if len ≠ 0 then len + 1 else 2)) % W, fun a len => (a + len) % W⟩
/-- asm_mos6502.cpp:116-117, dis_mos6502.cpp:155 (8 bit form, not the bank model). -/
def mos6502 : BranchCpu :=
  ⟨"MOS6502", fun a len => (a + (if len ≠ 0 then len else 1) + 1) % W, fun a len => (a + len) % W⟩
/-- asm_z80.cpp:62, dis_z80.cpp:81: the displacement is always the second byte. -/
def z80 : BranchCpu := ⟨"Z80", fun a _ => (a + 2) % W, fun a len => (a + len) % W⟩

/-- src/asm_tms9900.cpp:55-63 `encodeRelative` (address width 16, or 14 for the TMS9980): the field is the displacement in
words. C++ division truncates. -/
def encodeTms9900 (width address target : Nat) (error : Err) : Option (Nat × Err) :=
  let base := (address + 2) % W
  let error := setErrorIf error (checkAddr width target true)
  match branchDelta width base target error with
  | none => none
  | some (d, error) =>
    let delta := Int.tdiv d 2
    match overflowDelta delta 8 with
    | none => none
    | some far =>
      let error := if far then setErrorIf error .OPERAND_TOO_FAR else error
      some (uint32 delta % 256, error)

/-- src/dis_tms9900.cpp:83-89 `decodeRelative`. -/
def decodeTms9900 (width address field : Nat) : Nat × Err :=
  let delta := int8 field * 2
  let target := uint32 (((address + 2) % W : Nat) + delta)
  (target, checkAddr width target false)

/-- src/asm_pdp11.cpp:263-278 `encodeRelative`, M_REL8 and M_REL6 (address width 16). `embed` takes
the low 8 or 6 bits. -/
def encodePdp11 (sob : Bool) (address target : Nat) (error : Err) : Option (Nat × Err) :=
  let base := (address + 2) % W
  let error := setErrorIf error (checkAddr 16 target true)
  match branchDelta 16 base target error with
  | none => none
  | some (delta, error) =>
    if sob then
      let error := if delta > 0 ∨ delta ≤ -128 then setErrorIf error .OPERAND_TOO_FAR else error
      some (uint32 (Int.tdiv (-delta) 2) % 64, error)
    else
      match overflowDelta delta 9 with
      | none => none
      | some far =>
        let error := if far then setErrorIf error .OPERAND_TOO_FAR else error
        some (uint32 (Int.tdiv delta 2) % 256, error)

/-- src/dis_pdp11.cpp:184-192 `decodeRelative`. -/
def decodePdp11 (sob : Bool) (address field : Nat) : Nat × Err :=
  let base := (address + 2) % W
  let delta := 2 * int8 (if sob then uint32 (-((field % 64 : Nat) : Int)) else field)
  let target := uint32 (base + delta)
  (target, checkAddr 16 target true)

/-! ### Origin, alignment and space -/

/-- What an assembler keeps while a directive runs: `_currentLocation` and the instruction. -/
structure Asm where
  location : Nat
  insn : Insn.Buf
deriving DecidableEq, Repr

/-- src/asm_base.cpp:74-76 `setCurrentLocation`. -/
def Asm.setCurrentLocation (width : Nat) (s : Asm) (location : Nat) (align : Bool) : Asm × Err :=
  ({ s with location := location }, checkAddr width location align)

/-- `insn.setError(e)` -/
def Asm.setError (s : Asm) (e : Err) : Asm × Err := ({ s with insn := { s.insn with error := e } }, e)
/-- `insn.setErrorIf(at, e)`: src/error_reporter.h:139-161; returns the slot. -/
def Asm.setErrorIf (s : Asm) (e : Err) : Asm × Err :=
  let e := Config.setErrorIf s.insn.error e
  ({ s with insn := { s.insn with error := e } }, e)

/-- What `parseExpr` gave: the value and the error. Parsing itself is modelled in Verif/Eval. -/
abbrev Operand := Value × Err

/-- src/asm_base.cpp:175-187 `defineOrigin`. -/
def defineOrigin (width : Nat) (s : Asm) (op : Operand) : Asm × Err :=
  if op.2 ≠ .OK then s.setError op.2
  else
    let addr := op.1.getUnsigned
    let (s, e) := s.setCurrentLocation width addr false
    let (s, e) := s.setErrorIf e
    if e ≠ .OK then (s, e)
    else ({ s with insn := s.insn.reset addr 0 }, .OK)

/-- src/asm_base.h:66-70: the steps with a meaning of their own. -/
def alignVar : Nat := 0
def alignOdd : Nat := 1

/-- src/asm_base.cpp:209-210: the common end of `alignOrigin`. -/
def alignBy (width : Nat) (s : Asm) (step : Nat) : Option (Asm × Err) :=
  match s.insn.align step with
  | none => none
  | some insn =>
    let s := { s with insn := insn }
    let (s, e) := s.setCurrentLocation width s.insn.address false
    some (s.setErrorIf e)

/-- src/asm_base.cpp:189-211 `alignOrigin`. -/
def alignOrigin (width : Nat) (s : Asm) (step : Nat) (op : Operand) : Option (Asm × Err) :=
  if step = alignOdd then
    let s :=
      if s.insn.address % 2 = 0 then
        { s with insn := s.insn.reset ((s.insn.address + 1) % W) s.insn.length }
      else s
    let (s, e) := s.setCurrentLocation width s.insn.address false
    some (s.setErrorIf e)
  else if step = alignVar then
    if op.2 ≠ .OK then some (s.setError op.2)
    else if op.1.overflow 255 0 then some (s.setError .OVERFLOW_RANGE)
    else alignBy width s op.1.getUnsigned
  else alignBy width s step

/-- src/asm_base.cpp:213-242 `allocateSpaces`: `unit` is 1, 2 or 4; `addrUnit` is 1 or 2;
`dataAlign` is the flag DATA_ALIGN2. -/
def allocateSpaces (width addrUnit unit : Nat) (dataAlign : Bool) (s : Asm) (op : Operand) :
    Option (Asm × Err) :=
  match (if dataAlign && s.insn.address % 2 ≠ 0 then s.insn.align 2 else some s.insn) with
  | none => none
  | some insn =>
    let s := { s with insn := insn }
    if op.2 ≠ .OK then some (s.setError op.2)
    else if op.1.overflowUint16 then some (s.setError .OVERFLOW_RANGE)
    else
      let bytes := op.1.getUnsigned * unit % W
      let addr := (s.insn.address + bytes / addrUnit) % W
      let (s, e) := s.setCurrentLocation width addr dataAlign
      some ((s.setErrorIf e).1, .OK)

end Libasm.Config
