import Verif.Tables.Row
/-
Generated by tools/gen_tables.py from src/table_i8096.cpp: names, codes, operands and indexes as written
there. Do not edit.
-/
namespace Libasm.Tables.I8096
open Table

/-- src/table_i8096.cpp:37-135 -/
def TABLE_00 : List Row := [
  ⟨0x64, ['A', 'D', 'D'], ["E2", "M_WREG", "M_WAOP"]⟩,
  ⟨0x44, ['A', 'D', 'D'], ["E3", "M_WREG", "M_WREG", "M_WAOP"]⟩,
  ⟨0x74, ['A', 'D', 'D', 'B'], ["E2", "M_BREG", "M_BAOP"]⟩,
  ⟨0x54, ['A', 'D', 'D', 'B'], ["E3", "M_BREG", "M_BREG", "M_BAOP"]⟩,
  ⟨0xa4, ['A', 'D', 'D', 'C'], ["E2", "M_WREG", "M_WAOP"]⟩,
  ⟨0xb4, ['A', 'D', 'D', 'C', 'B'], ["E2", "M_BREG", "M_BAOP"]⟩,
  ⟨0x60, ['A', 'N', 'D'], ["E2", "M_WREG", "M_WAOP"]⟩,
  ⟨0x40, ['A', 'N', 'D'], ["E3", "M_WREG", "M_WREG", "M_WAOP"]⟩,
  ⟨0x70, ['A', 'N', 'D', 'B'], ["E2", "M_BREG", "M_BAOP"]⟩,
  ⟨0x50, ['A', 'N', 'D', 'B'], ["E3", "M_BREG", "M_BREG", "M_BAOP"]⟩,
  ⟨0xe3, ['B', 'R'], ["E1", "M_INDIR"]⟩,
  ⟨0x1, ['C', 'L', 'R'], ["E1", "M_WREG"]⟩,
  ⟨0x11, ['C', 'L', 'R', 'B'], ["E1", "M_BREG"]⟩,
  ⟨0xf8, ['C', 'L', 'R', 'C'], ["E0"]⟩,
  ⟨0xfc, ['C', 'L', 'R', 'V', 'T'], ["E0"]⟩,
  ⟨0x88, ['C', 'M', 'P'], ["E2", "M_WREG", "M_WAOP"]⟩,
  ⟨0x98, ['C', 'M', 'P', 'B'], ["E2", "M_BREG", "M_BAOP"]⟩,
  ⟨0x5, ['D', 'E', 'C'], ["E1", "M_WREG"]⟩,
  ⟨0x15, ['D', 'E', 'C', 'B'], ["E1", "M_BREG"]⟩,
  ⟨0xfa, ['D', 'I'], ["E0"]⟩,
  ⟨0x8c, ['D', 'I', 'V', 'U'], ["E2", "M_LREG", "M_WAOP"]⟩,
  ⟨0x9c, ['D', 'I', 'V', 'U', 'B'], ["E2", "M_WREG", "M_BAOP"]⟩,
  ⟨0xe0, ['D', 'J', 'N', 'Z'], ["E2", "M_BREG", "M_REL8"]⟩,
  ⟨0xfb, ['E', 'I'], ["E0"]⟩,
  ⟨0x6, ['E', 'X', 'T'], ["E1", "M_LREG"]⟩,
  ⟨0x16, ['E', 'X', 'T', 'B'], ["E1", "M_WREG"]⟩,
  ⟨0x7, ['I', 'N', 'C'], ["E1", "M_WREG"]⟩,
  ⟨0x17, ['I', 'N', 'C', 'B'], ["E1", "M_BREG"]⟩,
  ⟨0x30, ['J', 'B', 'C'], ["E3", "M_BREG", "M_BITNO", "M_REL8"]⟩,
  ⟨0x38, ['J', 'B', 'S'], ["E3", "M_BREG", "M_BITNO", "M_REL8"]⟩,
  ⟨0xdb, ['J', 'C'], ["E1", "M_REL8"]⟩,
  ⟨0xdf, ['J', 'E'], ["E1", "M_REL8"]⟩,
  ⟨0xd6, ['J', 'G', 'E'], ["E1", "M_REL8"]⟩,
  ⟨0xd2, ['J', 'G', 'T'], ["E1", "M_REL8"]⟩,
  ⟨0xd9, ['J', 'H'], ["E1", "M_REL8"]⟩,
  ⟨0xda, ['J', 'L', 'E'], ["E1", "M_REL8"]⟩,
  ⟨0xde, ['J', 'L', 'T'], ["E1", "M_REL8"]⟩,
  ⟨0xd3, ['J', 'N', 'C'], ["E1", "M_REL8"]⟩,
  ⟨0xd7, ['J', 'N', 'E'], ["E1", "M_REL8"]⟩,
  ⟨0xd1, ['J', 'N', 'H'], ["E1", "M_REL8"]⟩,
  ⟨0xd0, ['J', 'N', 'S', 'T'], ["E1", "M_REL8"]⟩,
  ⟨0xd5, ['J', 'N', 'V'], ["E1", "M_REL8"]⟩,
  ⟨0xd4, ['J', 'N', 'V', 'T'], ["E1", "M_REL8"]⟩,
  ⟨0xd8, ['J', 'S', 'T'], ["E1", "M_REL8"]⟩,
  ⟨0xdd, ['J', 'V'], ["E1", "M_REL8"]⟩,
  ⟨0xdc, ['J', 'V', 'T'], ["E1", "M_REL8"]⟩,
  ⟨0xef, ['L', 'C', 'A', 'L', 'L'], ["E1", "M_REL16"]⟩,
  ⟨0xa0, ['L', 'D'], ["E2", "M_WREG", "M_WAOP"]⟩,
  ⟨0xb0, ['L', 'D', 'B'], ["E2", "M_BREG", "M_BAOP"]⟩,
  ⟨0xbc, ['L', 'D', 'B', 'S', 'E'], ["E2", "M_WREG", "M_BAOP"]⟩,
  ⟨0xac, ['L', 'D', 'B', 'Z', 'E'], ["E2", "M_WREG", "M_BAOP"]⟩,
  ⟨0xe7, ['L', 'J', 'M', 'P'], ["E1", "M_REL16"]⟩,
  ⟨0x6c, ['M', 'U', 'L', 'U'], ["E2", "M_LREG", "M_WAOP"]⟩,
  ⟨0x4c, ['M', 'U', 'L', 'U'], ["E3", "M_LREG", "M_WREG", "M_WAOP"]⟩,
  ⟨0x7c, ['M', 'U', 'L', 'U', 'B'], ["E2", "M_WREG", "M_BAOP"]⟩,
  ⟨0x5c, ['M', 'U', 'L', 'U', 'B'], ["E3", "M_WREG", "M_BREG", "M_BAOP"]⟩,
  ⟨0x3, ['N', 'E', 'G'], ["E1", "M_WREG"]⟩,
  ⟨0x13, ['N', 'E', 'G', 'B'], ["E1", "M_BREG"]⟩,
  ⟨0xfd, ['N', 'O', 'P'], ["E0"]⟩,
  ⟨0xf, ['N', 'O', 'R', 'M', 'L'], ["E2", "M_LREG", "M_BREG"]⟩,
  ⟨0x2, ['N', 'O', 'T'], ["E1", "M_WREG"]⟩,
  ⟨0x12, ['N', 'O', 'T', 'B'], ["E1", "M_BREG"]⟩,
  ⟨0x80, ['O', 'R'], ["E2", "M_WREG", "M_WAOP"]⟩,
  ⟨0x90, ['O', 'R', 'B'], ["E2", "M_BREG", "M_BAOP"]⟩,
  ⟨0xcd, ['P', 'O', 'P'], ["U1", "M_IMM16"]⟩,
  ⟨0xcc, ['P', 'O', 'P'], ["E1", "M_WAOP"]⟩,
  ⟨0xf3, ['P', 'O', 'P', 'F'], ["E0"]⟩,
  ⟨0xc8, ['P', 'U', 'S', 'H'], ["E1", "M_WAOP"]⟩,
  ⟨0xf2, ['P', 'U', 'S', 'H', 'F'], ["E0"]⟩,
  ⟨0xf0, ['R', 'E', 'T'], ["E0"]⟩,
  ⟨0xff, ['R', 'S', 'T'], ["E0"]⟩,
  ⟨0x28, ['S', 'C', 'A', 'L', 'L'], ["E1", "M_REL11"]⟩,
  ⟨0xf9, ['S', 'E', 'T', 'C'], ["E0"]⟩,
  ⟨0x9, ['S', 'H', 'L'], ["E2", "M_WREG", "M_COUNT"]⟩,
  ⟨0x19, ['S', 'H', 'L', 'B'], ["E2", "M_BREG", "M_COUNT"]⟩,
  ⟨0xd, ['S', 'H', 'L', 'L'], ["E2", "M_LREG", "M_COUNT"]⟩,
  ⟨0x8, ['S', 'H', 'R'], ["E2", "M_WREG", "M_COUNT"]⟩,
  ⟨0xa, ['S', 'H', 'R', 'A'], ["E2", "M_WREG", "M_COUNT"]⟩,
  ⟨0x1a, ['S', 'H', 'R', 'A', 'B'], ["E2", "M_BREG", "M_COUNT"]⟩,
  ⟨0xe, ['S', 'H', 'R', 'A', 'L'], ["E2", "M_LREG", "M_COUNT"]⟩,
  ⟨0x18, ['S', 'H', 'R', 'B'], ["E2", "M_BREG", "M_COUNT"]⟩,
  ⟨0xc, ['S', 'H', 'R', 'L'], ["E2", "M_LREG", "M_COUNT"]⟩,
  ⟨0x20, ['S', 'J', 'M', 'P'], ["E1", "M_REL11"]⟩,
  ⟨0x0, ['S', 'K', 'I', 'P'], ["E1", "M_BREG"]⟩,
  ⟨0xc1, ['S', 'T'], ["U2", "M_WREG", "M_IMM16"]⟩,
  ⟨0xc0, ['S', 'T'], ["E2", "M_WREG", "M_WAOP"]⟩,
  ⟨0xc5, ['S', 'T', 'B'], ["U2", "M_BREG", "M_IMM8"]⟩,
  ⟨0xc4, ['S', 'T', 'B'], ["E2", "M_BREG", "M_BAOP"]⟩,
  ⟨0x68, ['S', 'U', 'B'], ["E2", "M_WREG", "M_WAOP"]⟩,
  ⟨0x48, ['S', 'U', 'B'], ["E3", "M_WREG", "M_WREG", "M_WAOP"]⟩,
  ⟨0x78, ['S', 'U', 'B', 'B'], ["E2", "M_BREG", "M_BAOP"]⟩,
  ⟨0x58, ['S', 'U', 'B', 'B'], ["E3", "M_BREG", "M_BREG", "M_BAOP"]⟩,
  ⟨0xa8, ['S', 'U', 'B', 'C'], ["E2", "M_WREG", "M_WAOP"]⟩,
  ⟨0xb8, ['S', 'U', 'B', 'C', 'B'], ["E2", "M_BREG", "M_BAOP"]⟩,
  ⟨0xf7, ['T', 'R', 'A', 'P'], ["E0"]⟩,
  ⟨0x84, ['X', 'O', 'R'], ["E2", "M_WREG", "M_WAOP"]⟩,
  ⟨0x94, ['X', 'O', 'R', 'B'], ["E2", "M_BREG", "M_BAOP"]⟩]

/-- src/table_i8096.cpp:137-235 -/
def INDEX_00 : List Nat := [
  0, 1, 2, 3, 4, 5, 6, 7, 8, 9, 10, 11, 12, 13, 14, 15,
  16, 17, 18, 19, 20, 21, 22, 23, 24, 25, 26, 27, 28, 29, 30, 31,
  32, 33, 34, 35, 36, 37, 38, 39, 40, 41, 42, 43, 44, 45, 46, 47,
  48, 49, 50, 51, 52, 53, 54, 55, 56, 57, 58, 59, 60, 61, 62, 63,
  64, 65, 66, 67, 68, 69, 70, 71, 72, 73, 74, 75, 76, 77, 78, 79,
  80, 81, 82, 83, 84, 85, 86, 87, 88, 89, 90, 91, 92, 93, 94, 95,
  96]

/-- src/table_i8096.cpp:237-244 -/
def TABLE_FE : List Row := [
  ⟨0x8c, ['D', 'I', 'V'], ["E2", "M_LREG", "M_WAOP"]⟩,
  ⟨0x9c, ['D', 'I', 'V', 'B'], ["E2", "M_WREG", "M_BAOP"]⟩,
  ⟨0x6c, ['M', 'U', 'L'], ["E2", "M_LREG", "M_WAOP"]⟩,
  ⟨0x4c, ['M', 'U', 'L'], ["E3", "M_LREG", "M_WREG", "M_WAOP"]⟩,
  ⟨0x7c, ['M', 'U', 'L', 'B'], ["E2", "M_WREG", "M_BAOP"]⟩,
  ⟨0x5c, ['M', 'U', 'L', 'B'], ["E3", "M_WREG", "M_BREG", "M_BAOP"]⟩]

/-- src/table_i8096.cpp:246-253 -/
def INDEX_FE : List Nat := [
  0, 1, 2, 3, 4, 5]

/-- src/table_i8096.cpp:258-261 -/
def I8096_PAGES : List (Page Row) := [
  ⟨0x0, [], TABLE_00, INDEX_00⟩,
  ⟨0xfe, [], TABLE_FE, INDEX_FE⟩]

/-- The processors of src/table_i8096.cpp: CPU_TABLE 265-267 -/
def cpus : List Cpu := [
  ⟨['8', '0', '9', '6'], I8096_PAGES⟩]

theorem TABLE_00_INDEX_00 (n : Nat) (x : List String) : PageOk ⟨n, x, TABLE_00, INDEX_00⟩ :=
  pageB_sound ⟨n, x, TABLE_00, INDEX_00⟩ (show pageB ⟨0, [], TABLE_00, INDEX_00⟩ = true by decide +kernel)

theorem TABLE_FE_INDEX_FE (n : Nat) (x : List String) : PageOk ⟨n, x, TABLE_FE, INDEX_FE⟩ :=
  pageB_sound ⟨n, x, TABLE_FE, INDEX_FE⟩ (show pageB ⟨0, [], TABLE_FE, INDEX_FE⟩ = true by decide +kernel)

theorem I8096_PAGES_ok : ∀ p ∈ I8096_PAGES, PageOk p :=
  List.forall_mem_cons.mpr <| And.intro (TABLE_00_INDEX_00 _ _) <| List.forall_mem_cons.mpr <| And.intro (TABLE_FE_INDEX_FE _ _) nofun

theorem cpus_ok : ∀ c ∈ cpus, ∀ p ∈ c.pages, PageOk p :=
  List.forall_mem_cons.mpr <| And.intro I8096_PAGES_ok nofun

end Libasm.Tables.I8096
