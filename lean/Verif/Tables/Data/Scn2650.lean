import Verif.Tables.Row
/-
Generated by tools/gen_tables.py from src/table_scn2650.cpp: names, codes, operands and indexes as written
there. Do not edit.
-/
namespace Libasm.Tables.Scn2650
open Table

/-- src/table_scn2650.cpp:33-118 -/
def TABLE_2650 : List Row := [
  ⟨0x0, ['L', 'O', 'D', 'Z'], ["E1", "M_R123"]⟩,
  ⟨0x4, ['L', 'O', 'D', 'I'], ["E2", "M_REGN", "M_IMM8"]⟩,
  ⟨0x8, ['L', 'O', 'D', 'R'], ["E2", "M_REGN", "M_REL7"]⟩,
  ⟨0xc, ['L', 'O', 'D', 'A'], ["E2", "M_REG0", "M_IX13"]⟩,
  ⟨0xc, ['L', 'O', 'D', 'A'], ["E2", "M_REGN", "M_AB13"]⟩,
  ⟨0x12, ['S', 'P', 'S', 'U'], ["E0"]⟩,
  ⟨0x13, ['S', 'P', 'S', 'L'], ["E0"]⟩,
  ⟨0x14, ['R', 'E', 'T', 'C'], ["E1", "M_CCVN"]⟩,
  ⟨0x18, ['B', 'C', 'T', 'R'], ["E2", "M_CCVN", "M_REL7"]⟩,
  ⟨0x1c, ['B', 'C', 'T', 'A'], ["E2", "M_CCVN", "M_AB15"]⟩,
  ⟨0x20, ['E', 'O', 'R', 'Z'], ["E1", "M_REGN"]⟩,
  ⟨0x24, ['E', 'O', 'R', 'I'], ["E2", "M_REGN", "M_IMM8"]⟩,
  ⟨0x28, ['E', 'O', 'R', 'R'], ["E2", "M_REGN", "M_REL7"]⟩,
  ⟨0x2c, ['E', 'O', 'R', 'A'], ["E2", "M_REG0", "M_IX13"]⟩,
  ⟨0x2c, ['E', 'O', 'R', 'A'], ["E2", "M_REGN", "M_AB13"]⟩,
  ⟨0x30, ['R', 'E', 'D', 'C'], ["E1", "M_REGN"]⟩,
  ⟨0x34, ['R', 'E', 'T', 'E'], ["E1", "M_CCVN"]⟩,
  ⟨0x38, ['B', 'S', 'T', 'R'], ["E2", "M_CCVN", "M_REL7"]⟩,
  ⟨0x3c, ['B', 'S', 'T', 'A'], ["E2", "M_CCVN", "M_AB15"]⟩,
  ⟨0x40, ['H', 'A', 'L', 'T'], ["E0"]⟩,
  ⟨0x40, ['A', 'N', 'D', 'Z'], ["E1", "M_R123"]⟩,
  ⟨0x44, ['A', 'N', 'D', 'I'], ["E2", "M_REGN", "M_IMM8"]⟩,
  ⟨0x48, ['A', 'N', 'D', 'R'], ["E2", "M_REGN", "M_REL7"]⟩,
  ⟨0x4c, ['A', 'N', 'D', 'A'], ["E2", "M_REG0", "M_IX13"]⟩,
  ⟨0x4c, ['A', 'N', 'D', 'A'], ["E2", "M_REGN", "M_AB13"]⟩,
  ⟨0x50, ['R', 'R', 'R'], ["E1", "M_REGN"]⟩,
  ⟨0x54, ['R', 'E', 'D', 'E'], ["E2", "M_REGN", "M_IMM8"]⟩,
  ⟨0x58, ['B', 'R', 'N', 'R'], ["E2", "M_REGN", "M_REL7"]⟩,
  ⟨0x5c, ['B', 'R', 'N', 'A'], ["E2", "M_REGN", "M_AB15"]⟩,
  ⟨0x60, ['L', 'O', 'D', 'Z'], ["E1", "M_REG0"]⟩,
  ⟨0x60, ['I', 'O', 'R', 'Z'], ["E1", "M_REGN"]⟩,
  ⟨0x64, ['I', 'O', 'R', 'I'], ["E2", "M_REGN", "M_IMM8"]⟩,
  ⟨0x68, ['I', 'O', 'R', 'R'], ["E2", "M_REGN", "M_REL7"]⟩,
  ⟨0x6c, ['I', 'O', 'R', 'A'], ["E2", "M_REG0", "M_IX13"]⟩,
  ⟨0x6c, ['I', 'O', 'R', 'A'], ["E2", "M_REGN", "M_AB13"]⟩,
  ⟨0x70, ['R', 'E', 'D', 'D'], ["E1", "M_REGN"]⟩,
  ⟨0x74, ['C', 'P', 'S', 'U'], ["E1", "M_IMM8"]⟩,
  ⟨0x75, ['C', 'P', 'S', 'L'], ["E1", "M_IMM8"]⟩,
  ⟨0x76, ['P', 'P', 'S', 'U'], ["E1", "M_IMM8"]⟩,
  ⟨0x77, ['P', 'P', 'S', 'L'], ["E1", "M_IMM8"]⟩,
  ⟨0x78, ['B', 'S', 'N', 'R'], ["E2", "M_REGN", "M_REL7"]⟩,
  ⟨0x7c, ['B', 'S', 'N', 'A'], ["E2", "M_REGN", "M_AB15"]⟩,
  ⟨0x80, ['A', 'D', 'D', 'Z'], ["E1", "M_REGN"]⟩,
  ⟨0x84, ['A', 'D', 'D', 'I'], ["E2", "M_REGN", "M_IMM8"]⟩,
  ⟨0x88, ['A', 'D', 'D', 'R'], ["E2", "M_REGN", "M_REL7"]⟩,
  ⟨0x8c, ['A', 'D', 'D', 'A'], ["E2", "M_REG0", "M_IX13"]⟩,
  ⟨0x8c, ['A', 'D', 'D', 'A'], ["E2", "M_REGN", "M_AB13"]⟩,
  ⟨0x92, ['L', 'P', 'S', 'U'], ["E0"]⟩,
  ⟨0x93, ['L', 'P', 'S', 'L'], ["E0"]⟩,
  ⟨0x94, ['D', 'A', 'R'], ["E1", "M_REGN"]⟩,
  ⟨0x9b, ['Z', 'B', 'R', 'R'], ["E1", "M_ABS7"]⟩,
  ⟨0x98, ['B', 'C', 'F', 'R'], ["E2", "M_C012", "M_REL7"]⟩,
  ⟨0x9f, ['B', 'X', 'A'], ["E1", "M_IX15"]⟩,
  ⟨0x9c, ['B', 'C', 'F', 'A'], ["E2", "M_C012", "M_AB15"]⟩,
  ⟨0xa0, ['S', 'U', 'B', 'Z'], ["E1", "M_REGN"]⟩,
  ⟨0xa4, ['S', 'U', 'B', 'I'], ["E2", "M_REGN", "M_IMM8"]⟩,
  ⟨0xa8, ['S', 'U', 'B', 'R'], ["E2", "M_REGN", "M_REL7"]⟩,
  ⟨0xac, ['S', 'U', 'B', 'A'], ["E2", "M_REG0", "M_IX13"]⟩,
  ⟨0xac, ['S', 'U', 'B', 'A'], ["E2", "M_REGN", "M_AB13"]⟩,
  ⟨0xb0, ['W', 'R', 'T', 'C'], ["E1", "M_REGN"]⟩,
  ⟨0xb4, ['T', 'P', 'S', 'U'], ["E1", "M_IMM8"]⟩,
  ⟨0xb5, ['T', 'P', 'S', 'L'], ["E1", "M_IMM8"]⟩,
  ⟨0xbb, ['Z', 'B', 'S', 'R'], ["E1", "M_ABS7"]⟩,
  ⟨0xb8, ['B', 'S', 'F', 'R'], ["E2", "M_C012", "M_REL7"]⟩,
  ⟨0xbf, ['B', 'S', 'X', 'A'], ["E1", "M_IX15"]⟩,
  ⟨0xbc, ['B', 'S', 'F', 'A'], ["E2", "M_C012", "M_AB15"]⟩,
  ⟨0xc0, ['N', 'O', 'P'], ["E0"]⟩,
  ⟨0xc0, ['S', 'T', 'R', 'Z'], ["E1", "M_R123"]⟩,
  ⟨0xc8, ['S', 'T', 'R', 'R'], ["E2", "M_REGN", "M_REL7"]⟩,
  ⟨0xcc, ['S', 'T', 'R', 'A'], ["E2", "M_REG0", "M_IX13"]⟩,
  ⟨0xcc, ['S', 'T', 'R', 'A'], ["E2", "M_REGN", "M_AB13"]⟩,
  ⟨0xd0, ['R', 'R', 'L'], ["E1", "M_REGN"]⟩,
  ⟨0xd4, ['W', 'R', 'T', 'E'], ["E2", "M_REGN", "M_IMM8"]⟩,
  ⟨0xd8, ['B', 'I', 'R', 'R'], ["E2", "M_REGN", "M_REL7"]⟩,
  ⟨0xdc, ['B', 'I', 'R', 'A'], ["E2", "M_REGN", "M_AB15"]⟩,
  ⟨0xe0, ['C', 'O', 'M', 'Z'], ["E1", "M_REGN"]⟩,
  ⟨0xe4, ['C', 'O', 'M', 'I'], ["E2", "M_REGN", "M_IMM8"]⟩,
  ⟨0xe8, ['C', 'O', 'M', 'R'], ["E2", "M_REGN", "M_REL7"]⟩,
  ⟨0xec, ['C', 'O', 'M', 'A'], ["E2", "M_REG0", "M_IX13"]⟩,
  ⟨0xec, ['C', 'O', 'M', 'A'], ["E2", "M_REGN", "M_AB13"]⟩,
  ⟨0xf0, ['W', 'R', 'T', 'D'], ["E1", "M_REGN"]⟩,
  ⟨0xf4, ['T', 'M', 'I'], ["E2", "M_REGN", "M_IMM8"]⟩,
  ⟨0xf8, ['B', 'D', 'R', 'R'], ["E2", "M_REGN", "M_REL7"]⟩,
  ⟨0xfc, ['B', 'D', 'R', 'A'], ["E2", "M_REGN", "M_AB15"]⟩]

/-- src/table_scn2650.cpp:120-205 -/
def INDEX_2650 : List Nat := [
  45, 46, 43, 44, 42, 23, 24, 21, 22, 20, 53, 51, 9, 8, 83, 82,
  74, 73, 28, 27, 65, 63, 41, 40, 18, 17, 64, 52, 78, 79, 76, 77,
  75, 37, 36, 49, 13, 14, 11, 12, 10, 19, 33, 34, 31, 32, 30, 3,
  4, 1, 2, 0, 29, 48, 47, 66, 39, 38, 15, 35, 26, 7, 16, 71,
  25, 6, 5, 69, 70, 68, 67, 57, 58, 55, 56, 54, 81, 61, 60, 59,
  80, 72, 50, 62]

/-- src/table_scn2650.cpp:211-213 -/
def SCN2650_PAGES : List (Page Row) := [
  ⟨0x0, [], TABLE_2650, INDEX_2650⟩]

/-- The processors of src/table_scn2650.cpp: CPU_TABLE 217-219 -/
def cpus : List Cpu := [
  ⟨['2', '6', '5', '0'], SCN2650_PAGES⟩]

theorem TABLE_2650_INDEX_2650 (n : Nat) (x : List String) : PageOk ⟨n, x, TABLE_2650, INDEX_2650⟩ :=
  pageB_sound ⟨n, x, TABLE_2650, INDEX_2650⟩ (show pageB ⟨0, [], TABLE_2650, INDEX_2650⟩ = true by decide +kernel)

theorem SCN2650_PAGES_ok : ∀ p ∈ SCN2650_PAGES, PageOk p :=
  List.forall_mem_cons.mpr <| And.intro (TABLE_2650_INDEX_2650 _ _) nofun

theorem cpus_ok : ∀ c ∈ cpus, ∀ p ∈ c.pages, PageOk p :=
  List.forall_mem_cons.mpr <| And.intro SCN2650_PAGES_ok nofun

end Libasm.Tables.Scn2650
