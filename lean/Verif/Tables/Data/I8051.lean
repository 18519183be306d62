import Verif.Tables.Row
/-
Generated by tools/gen_tables.py from src/table_i8051.cpp: names, codes, operands and indexes as written
there. Do not edit.
-/
namespace Libasm.Tables.I8051
open Table

/-- src/table_i8051.cpp:34-146 -/
def TABLE_I8051 : List Row := [
  ⟨0x0, ['N', 'O', 'P'], ["E0"]⟩,
  ⟨0x1, ['A', 'J', 'M', 'P'], ["E1", "M_ADR11"]⟩,
  ⟨0x2, ['L', 'J', 'M', 'P'], ["E1", "M_ADR16"]⟩,
  ⟨0x3, ['R', 'R'], ["E1", "M_AREG"]⟩,
  ⟨0x4, ['I', 'N', 'C'], ["E1", "M_AREG"]⟩,
  ⟨0x5, ['I', 'N', 'C'], ["E1", "M_ADR8"]⟩,
  ⟨0x6, ['I', 'N', 'C'], ["E1", "M_IDIRR"]⟩,
  ⟨0x8, ['I', 'N', 'C'], ["E1", "M_RREG"]⟩,
  ⟨0x10, ['J', 'B', 'C'], ["E2", "M_BITAD", "M_REL"]⟩,
  ⟨0x11, ['A', 'C', 'A', 'L', 'L'], ["E1", "M_ADR11"]⟩,
  ⟨0x12, ['L', 'C', 'A', 'L', 'L'], ["E1", "M_ADR16"]⟩,
  ⟨0x13, ['R', 'R', 'C'], ["E1", "M_AREG"]⟩,
  ⟨0x14, ['D', 'E', 'C'], ["E1", "M_AREG"]⟩,
  ⟨0x15, ['D', 'E', 'C'], ["E1", "M_ADR8"]⟩,
  ⟨0x16, ['D', 'E', 'C'], ["E1", "M_IDIRR"]⟩,
  ⟨0x18, ['D', 'E', 'C'], ["E1", "M_RREG"]⟩,
  ⟨0x20, ['J', 'B'], ["E2", "M_BITAD", "M_REL"]⟩,
  ⟨0x22, ['R', 'E', 'T'], ["E0"]⟩,
  ⟨0x23, ['R', 'L'], ["E1", "M_AREG"]⟩,
  ⟨0x24, ['A', 'D', 'D'], ["E2", "M_AREG", "M_IMM8"]⟩,
  ⟨0x25, ['A', 'D', 'D'], ["E2", "M_AREG", "M_ADR8"]⟩,
  ⟨0x26, ['A', 'D', 'D'], ["E2", "M_AREG", "M_IDIRR"]⟩,
  ⟨0x28, ['A', 'D', 'D'], ["E2", "M_AREG", "M_RREG"]⟩,
  ⟨0x30, ['J', 'N', 'B'], ["E2", "M_BITAD", "M_REL"]⟩,
  ⟨0x32, ['R', 'E', 'T', 'I'], ["E0"]⟩,
  ⟨0x33, ['R', 'L', 'C'], ["E1", "M_AREG"]⟩,
  ⟨0x34, ['A', 'D', 'D', 'C'], ["E2", "M_AREG", "M_IMM8"]⟩,
  ⟨0x35, ['A', 'D', 'D', 'C'], ["E2", "M_AREG", "M_ADR8"]⟩,
  ⟨0x36, ['A', 'D', 'D', 'C'], ["E2", "M_AREG", "M_IDIRR"]⟩,
  ⟨0x38, ['A', 'D', 'D', 'C'], ["E2", "M_AREG", "M_RREG"]⟩,
  ⟨0x40, ['J', 'C'], ["E1", "M_REL"]⟩,
  ⟨0x42, ['O', 'R', 'L'], ["E2", "M_ADR8", "M_AREG"]⟩,
  ⟨0x43, ['O', 'R', 'L'], ["E2", "M_ADR8", "M_IMM8"]⟩,
  ⟨0x44, ['O', 'R', 'L'], ["E2", "M_AREG", "M_IMM8"]⟩,
  ⟨0x45, ['O', 'R', 'L'], ["E2", "M_AREG", "M_ADR8"]⟩,
  ⟨0x46, ['O', 'R', 'L'], ["E2", "M_AREG", "M_IDIRR"]⟩,
  ⟨0x48, ['O', 'R', 'L'], ["E2", "M_AREG", "M_RREG"]⟩,
  ⟨0x50, ['J', 'N', 'C'], ["E1", "M_REL"]⟩,
  ⟨0x52, ['A', 'N', 'L'], ["E2", "M_ADR8", "M_AREG"]⟩,
  ⟨0x53, ['A', 'N', 'L'], ["E2", "M_ADR8", "M_IMM8"]⟩,
  ⟨0x54, ['A', 'N', 'L'], ["E2", "M_AREG", "M_IMM8"]⟩,
  ⟨0x55, ['A', 'N', 'L'], ["E2", "M_AREG", "M_ADR8"]⟩,
  ⟨0x56, ['A', 'N', 'L'], ["E2", "M_AREG", "M_IDIRR"]⟩,
  ⟨0x58, ['A', 'N', 'L'], ["E2", "M_AREG", "M_RREG"]⟩,
  ⟨0x60, ['J', 'Z'], ["E1", "M_REL"]⟩,
  ⟨0x62, ['X', 'R', 'L'], ["E2", "M_ADR8", "M_AREG"]⟩,
  ⟨0x63, ['X', 'R', 'L'], ["E2", "M_ADR8", "M_IMM8"]⟩,
  ⟨0x64, ['X', 'R', 'L'], ["E2", "M_AREG", "M_IMM8"]⟩,
  ⟨0x65, ['X', 'R', 'L'], ["E2", "M_AREG", "M_ADR8"]⟩,
  ⟨0x66, ['X', 'R', 'L'], ["E2", "M_AREG", "M_IDIRR"]⟩,
  ⟨0x68, ['X', 'R', 'L'], ["E2", "M_AREG", "M_RREG"]⟩,
  ⟨0x70, ['J', 'N', 'Z'], ["E1", "M_REL"]⟩,
  ⟨0x72, ['O', 'R', 'L'], ["E2", "M_CREG", "M_BITAD"]⟩,
  ⟨0x73, ['J', 'M', 'P'], ["E1", "M_INDXD"]⟩,
  ⟨0x74, ['M', 'O', 'V'], ["E2", "M_AREG", "M_IMM8"]⟩,
  ⟨0x75, ['M', 'O', 'V'], ["E2", "M_ADR8", "M_IMM8"]⟩,
  ⟨0x76, ['M', 'O', 'V'], ["E2", "M_IDIRR", "M_IMM8"]⟩,
  ⟨0x78, ['M', 'O', 'V'], ["E2", "M_RREG", "M_IMM8"]⟩,
  ⟨0x80, ['S', 'J', 'M', 'P'], ["E1", "M_REL"]⟩,
  ⟨0x82, ['A', 'N', 'L'], ["E2", "M_CREG", "M_BITAD"]⟩,
  ⟨0x83, ['M', 'O', 'V', 'C'], ["E2", "M_AREG", "M_INDXP"]⟩,
  ⟨0x84, ['D', 'I', 'V'], ["E1", "M_ABREG"]⟩,
  ⟨0x85, ['M', 'O', 'V'], ["E2", "M_ADR8", "M_ADR8"]⟩,
  ⟨0x86, ['M', 'O', 'V'], ["E2", "M_ADR8", "M_IDIRR"]⟩,
  ⟨0x88, ['M', 'O', 'V'], ["E2", "M_ADR8", "M_RREG"]⟩,
  ⟨0x90, ['M', 'O', 'V'], ["E2", "M_DREG", "M_IMM16"]⟩,
  ⟨0x92, ['M', 'O', 'V'], ["E2", "M_BITAD", "M_CREG"]⟩,
  ⟨0x93, ['M', 'O', 'V', 'C'], ["E2", "M_AREG", "M_INDXD"]⟩,
  ⟨0x94, ['S', 'U', 'B', 'B'], ["E2", "M_AREG", "M_IMM8"]⟩,
  ⟨0x95, ['S', 'U', 'B', 'B'], ["E2", "M_AREG", "M_ADR8"]⟩,
  ⟨0x96, ['S', 'U', 'B', 'B'], ["E2", "M_AREG", "M_IDIRR"]⟩,
  ⟨0x98, ['S', 'U', 'B', 'B'], ["E2", "M_AREG", "M_RREG"]⟩,
  ⟨0xa0, ['O', 'R', 'L'], ["E2", "M_CREG", "M_NOTAD"]⟩,
  ⟨0xa2, ['M', 'O', 'V'], ["E2", "M_CREG", "M_BITAD"]⟩,
  ⟨0xa3, ['I', 'N', 'C'], ["E1", "M_DREG"]⟩,
  ⟨0xa4, ['M', 'U', 'L'], ["E1", "M_ABREG"]⟩,
  ⟨0xa6, ['M', 'O', 'V'], ["E2", "M_IDIRR", "M_ADR8"]⟩,
  ⟨0xa8, ['M', 'O', 'V'], ["E2", "M_RREG", "M_ADR8"]⟩,
  ⟨0xb0, ['A', 'N', 'L'], ["E2", "M_CREG", "M_NOTAD"]⟩,
  ⟨0xb2, ['C', 'P', 'L'], ["E1", "M_BITAD"]⟩,
  ⟨0xb3, ['C', 'P', 'L'], ["E1", "M_CREG"]⟩,
  ⟨0xb4, ['C', 'J', 'N', 'E'], ["E3", "M_AREG", "M_IMM8", "M_REL"]⟩,
  ⟨0xb5, ['C', 'J', 'N', 'E'], ["E3", "M_AREG", "M_ADR8", "M_REL"]⟩,
  ⟨0xb6, ['C', 'J', 'N', 'E'], ["E3", "M_IDIRR", "M_IMM8", "M_REL"]⟩,
  ⟨0xb8, ['C', 'J', 'N', 'E'], ["E3", "M_RREG", "M_IMM8", "M_REL"]⟩,
  ⟨0xc0, ['P', 'U', 'S', 'H'], ["E1", "M_ADR8"]⟩,
  ⟨0xc2, ['C', 'L', 'R'], ["E1", "M_BITAD"]⟩,
  ⟨0xc3, ['C', 'L', 'R'], ["E1", "M_CREG"]⟩,
  ⟨0xc4, ['S', 'W', 'A', 'P'], ["E1", "M_AREG"]⟩,
  ⟨0xc5, ['X', 'C', 'H'], ["E2", "M_AREG", "M_ADR8"]⟩,
  ⟨0xc6, ['X', 'C', 'H'], ["E2", "M_AREG", "M_IDIRR"]⟩,
  ⟨0xc8, ['X', 'C', 'H'], ["E2", "M_AREG", "M_RREG"]⟩,
  ⟨0xd0, ['P', 'O', 'P'], ["E1", "M_ADR8"]⟩,
  ⟨0xd2, ['S', 'E', 'T', 'B'], ["E1", "M_BITAD"]⟩,
  ⟨0xd3, ['S', 'E', 'T', 'B'], ["E1", "M_CREG"]⟩,
  ⟨0xd4, ['D', 'A'], ["E1", "M_AREG"]⟩,
  ⟨0xd5, ['D', 'J', 'N', 'Z'], ["E2", "M_ADR8", "M_REL"]⟩,
  ⟨0xd6, ['X', 'C', 'H', 'D'], ["E2", "M_AREG", "M_IDIRR"]⟩,
  ⟨0xd8, ['D', 'J', 'N', 'Z'], ["E2", "M_RREG", "M_REL"]⟩,
  ⟨0xe0, ['M', 'O', 'V', 'X'], ["E2", "M_AREG", "M_IDIRD"]⟩,
  ⟨0xe2, ['M', 'O', 'V', 'X'], ["E2", "M_AREG", "M_IDIRR"]⟩,
  ⟨0xe4, ['C', 'L', 'R'], ["E1", "M_AREG"]⟩,
  ⟨0xe5, ['M', 'O', 'V'], ["E2", "M_AREG", "M_ADR8"]⟩,
  ⟨0xe6, ['M', 'O', 'V'], ["E2", "M_AREG", "M_IDIRR"]⟩,
  ⟨0xe8, ['M', 'O', 'V'], ["E2", "M_AREG", "M_RREG"]⟩,
  ⟨0xf0, ['M', 'O', 'V', 'X'], ["E2", "M_IDIRD", "M_AREG"]⟩,
  ⟨0xf2, ['M', 'O', 'V', 'X'], ["E2", "M_IDIRR", "M_AREG"]⟩,
  ⟨0xf4, ['C', 'P', 'L'], ["E1", "M_AREG"]⟩,
  ⟨0xf5, ['M', 'O', 'V'], ["E2", "M_ADR8", "M_AREG"]⟩,
  ⟨0xf6, ['M', 'O', 'V'], ["E2", "M_IDIRR", "M_AREG"]⟩,
  ⟨0xf8, ['M', 'O', 'V'], ["E2", "M_RREG", "M_AREG"]⟩]

/-- src/table_i8051.cpp:148-260 -/
def INDEX_I8051 : List Nat := [
  9, 19, 20, 21, 22, 26, 27, 28, 29, 1, 38, 39, 40, 41, 42, 43,
  59, 78, 81, 82, 83, 84, 86, 87, 101, 79, 80, 107, 95, 12, 13, 14,
  15, 61, 96, 98, 4, 5, 6, 7, 74, 16, 8, 30, 53, 23, 37, 51,
  44, 10, 2, 54, 55, 56, 57, 62, 63, 64, 65, 66, 73, 76, 77, 102,
  103, 104, 108, 109, 110, 60, 67, 99, 100, 105, 106, 75, 0, 31, 32, 33,
  34, 35, 36, 52, 72, 92, 85, 17, 24, 18, 25, 3, 11, 93, 94, 58,
  68, 69, 70, 71, 88, 89, 90, 91, 97, 45, 46, 47, 48, 49, 50]

/-- src/table_i8051.cpp:265-267 -/
def I8051_PAGES : List (Page Row) := [
  ⟨0x0, [], TABLE_I8051, INDEX_I8051⟩]

/-- The processors of src/table_i8051.cpp: CPU_TABLE 271-273 -/
def cpus : List Cpu := [
  ⟨['8', '0', '5', '1'], I8051_PAGES⟩]

theorem TABLE_I8051_INDEX_I8051 (n : Nat) (x : List String) : PageOk ⟨n, x, TABLE_I8051, INDEX_I8051⟩ :=
  pageB_sound ⟨n, x, TABLE_I8051, INDEX_I8051⟩ (show pageB ⟨0, [], TABLE_I8051, INDEX_I8051⟩ = true by decide +kernel)

theorem I8051_PAGES_ok : ∀ p ∈ I8051_PAGES, PageOk p :=
  List.forall_mem_cons.mpr <| And.intro (TABLE_I8051_INDEX_I8051 _ _) nofun

theorem cpus_ok : ∀ c ∈ cpus, ∀ p ∈ c.pages, PageOk p :=
  List.forall_mem_cons.mpr <| And.intro I8051_PAGES_ok nofun

end Libasm.Tables.I8051
