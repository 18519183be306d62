import Verif.Tables.Row
/-
Generated by tools/gen_tables.py from src/table_ins8070.cpp: names, codes, operands and indexes as written
there. Do not edit.
-/
namespace Libasm.Tables.Ins8070
open Table

/-- src/table_ins8070.cpp:38-109 -/
def TABLE_INS8070 : List Row := [
  ⟨0x0, ['N', 'O', 'P'], ["E0"]⟩,
  ⟨0x1, ['X', 'C', 'H'], ["E2", "M_AR", "M_ER", "SZ_BYTE"]⟩,
  ⟨0x1, ['X', 'C', 'H'], ["E2", "M_ER", "M_AR", "SZ_BYTE"]⟩,
  ⟨0x6, ['L', 'D'], ["E2", "M_AR", "M_SR", "SZ_BYTE"]⟩,
  ⟨0x7, ['L', 'D'], ["E2", "M_SR", "M_AR", "SZ_BYTE"]⟩,
  ⟨0x8, ['P', 'U', 'S', 'H'], ["E1", "M_EA", "SZ_WORD"]⟩,
  ⟨0x9, ['L', 'D'], ["E2", "M_TR", "M_EA", "SZ_WORD"]⟩,
  ⟨0xa, ['P', 'U', 'S', 'H'], ["E1", "M_AR", "SZ_BYTE"]⟩,
  ⟨0xb, ['L', 'D'], ["E2", "M_EA", "M_TR", "SZ_WORD"]⟩,
  ⟨0xc, ['S', 'R'], ["E1", "M_EA", "SZ_WORD"]⟩,
  ⟨0xd, ['D', 'I', 'V'], ["E2", "M_EA", "M_TR", "SZ_WORD"]⟩,
  ⟨0xe, ['S', 'L'], ["E1", "M_AR", "SZ_BYTE"]⟩,
  ⟨0xf, ['S', 'L'], ["E1", "M_EA", "SZ_WORD"]⟩,
  ⟨0x10, ['C', 'A', 'L', 'L'], ["E1", "M_VEC", "SZ_NONE"]⟩,
  ⟨0x20, ['J', 'S', 'R'], ["X1", "M_ADR"]⟩,
  ⟨0x22, ['P', 'L', 'I'], ["E2", "M_P23", "M_IMM", "SZ_WORD"]⟩,
  ⟨0x24, ['J', 'M', 'P'], ["X1", "M_ADR"]⟩,
  ⟨0x24, ['L', 'D'], ["E2", "M_PTR", "M_IMM", "SZ_WORD"]⟩,
  ⟨0x2c, ['M', 'P', 'Y'], ["E2", "M_EA", "M_TR", "SZ_WORD"]⟩,
  ⟨0x2d, ['B', 'N', 'D'], ["X1", "M_PCR"]⟩,
  ⟨0x2e, ['S', 'S', 'M'], ["E1", "M_P23", "SZ_BYTE"]⟩,
  ⟨0x30, ['L', 'D'], ["E2", "M_EA", "M_PTR", "SZ_WORD"]⟩,
  ⟨0x38, ['P', 'O', 'P'], ["E1", "M_AR", "SZ_BYTE"]⟩,
  ⟨0x39, ['A', 'N', 'D'], ["E2", "M_SR", "M_IMM", "SZ_BYTE"]⟩,
  ⟨0x3a, ['P', 'O', 'P'], ["E1", "M_EA", "SZ_WORD"]⟩,
  ⟨0x3b, ['O', 'R'], ["E2", "M_SR", "M_IMM", "SZ_BYTE"]⟩,
  ⟨0x3c, ['S', 'R'], ["E1", "M_AR", "SZ_BYTE"]⟩,
  ⟨0x3d, ['S', 'R', 'L'], ["E1", "M_AR", "SZ_BYTE"]⟩,
  ⟨0x3e, ['R', 'R'], ["E1", "M_AR", "SZ_BYTE"]⟩,
  ⟨0x3f, ['R', 'R', 'L'], ["E1", "M_AR", "SZ_BYTE"]⟩,
  ⟨0x40, ['L', 'D'], ["E2", "M_AR", "M_ER", "SZ_BYTE"]⟩,
  ⟨0x44, ['L', 'D'], ["E2", "M_PTR", "M_EA", "SZ_WORD"]⟩,
  ⟨0x48, ['L', 'D'], ["E2", "M_ER", "M_AR", "SZ_BYTE"]⟩,
  ⟨0x4c, ['X', 'C', 'H'], ["E2", "M_EA", "M_PTR", "SZ_WORD"]⟩,
  ⟨0x4c, ['X', 'C', 'H'], ["E2", "M_PTR", "M_EA", "SZ_WORD"]⟩,
  ⟨0x50, ['A', 'N', 'D'], ["E2", "M_AR", "M_ER", "SZ_BYTE"]⟩,
  ⟨0x55, ['P', 'U', 'S', 'H'], ["U1", "M_SP"]⟩,
  ⟨0x54, ['P', 'U', 'S', 'H'], ["E1", "M_PTR", "SZ_WORD"]⟩,
  ⟨0x58, ['O', 'R'], ["E2", "M_AR", "M_ER", "SZ_BYTE"]⟩,
  ⟨0x5c, ['R', 'E', 'T'], ["E0"]⟩,
  ⟨0x5e, ['P', 'O', 'P'], ["E1", "M_P23", "SZ_WORD"]⟩,
  ⟨0x60, ['X', 'O', 'R'], ["E2", "M_AR", "M_ER", "SZ_BYTE"]⟩,
  ⟨0x64, ['B', 'P'], ["X1", "M_PCR"]⟩,
  ⟨0x66, ['B', 'P'], ["X1", "M_IDX"]⟩,
  ⟨0x6c, ['B', 'Z'], ["X1", "M_PCR"]⟩,
  ⟨0x6e, ['B', 'Z'], ["X1", "M_IDX"]⟩,
  ⟨0x70, ['A', 'D', 'D'], ["E2", "M_AR", "M_ER", "SZ_BYTE"]⟩,
  ⟨0x74, ['B', 'R', 'A'], ["X1", "M_PCR"]⟩,
  ⟨0x76, ['B', 'R', 'A'], ["X1", "M_IDX"]⟩,
  ⟨0x78, ['S', 'U', 'B'], ["E2", "M_AR", "M_ER", "SZ_BYTE"]⟩,
  ⟨0x7c, ['B', 'N', 'Z'], ["X1", "M_PCR"]⟩,
  ⟨0x7e, ['B', 'N', 'Z'], ["X1", "M_IDX"]⟩,
  ⟨0x80, ['L', 'D'], ["E2", "M_EA", "M_GEN", "SZ_WORD"]⟩,
  ⟨0x8c, ['S', 'T'], ["U2", "M_EA", "M_IMM"]⟩,
  ⟨0x88, ['S', 'T'], ["E2", "M_EA", "M_GEN", "SZ_WORD"]⟩,
  ⟨0x94, ['I', 'L', 'D'], ["U2", "M_AR", "M_IMM"]⟩,
  ⟨0x90, ['I', 'L', 'D'], ["E2", "M_AR", "M_GEN", "SZ_BYTE"]⟩,
  ⟨0x9c, ['D', 'L', 'D'], ["U2", "M_AR", "M_IMM"]⟩,
  ⟨0x98, ['D', 'L', 'D'], ["E2", "M_AR", "M_GEN", "SZ_BYTE"]⟩,
  ⟨0xa0, ['L', 'D'], ["E2", "M_TR", "M_GEN", "SZ_WORD"]⟩,
  ⟨0xb0, ['A', 'D', 'D'], ["E2", "M_EA", "M_GEN", "SZ_WORD"]⟩,
  ⟨0xb8, ['S', 'U', 'B'], ["E2", "M_EA", "M_GEN", "SZ_WORD"]⟩,
  ⟨0xc0, ['L', 'D'], ["E2", "M_AR", "M_GEN", "SZ_BYTE"]⟩,
  ⟨0xcc, ['S', 'T'], ["U2", "M_AR", "M_IMM"]⟩,
  ⟨0xc8, ['S', 'T'], ["E2", "M_AR", "M_GEN", "SZ_BYTE"]⟩,
  ⟨0xd0, ['A', 'N', 'D'], ["E2", "M_AR", "M_GEN", "SZ_BYTE"]⟩,
  ⟨0xd8, ['O', 'R'], ["E2", "M_AR", "M_GEN", "SZ_BYTE"]⟩,
  ⟨0xe0, ['X', 'O', 'R'], ["E2", "M_AR", "M_GEN", "SZ_BYTE"]⟩,
  ⟨0xf0, ['A', 'D', 'D'], ["E2", "M_AR", "M_GEN", "SZ_BYTE"]⟩,
  ⟨0xf8, ['S', 'U', 'B'], ["E2", "M_AR", "M_GEN", "SZ_BYTE"]⟩]

/-- src/table_ins8070.cpp:111-182 -/
def INDEX_INS8070 : List Nat := [
  46, 60, 68, 23, 35, 65, 19, 50, 51, 42, 43, 47, 48, 44, 45, 13,
  10, 57, 58, 55, 56, 16, 14, 3, 4, 6, 8, 17, 21, 30, 31, 32,
  52, 59, 62, 18, 0, 25, 38, 66, 15, 22, 24, 40, 5, 7, 36, 37,
  39, 28, 29, 11, 12, 9, 26, 27, 20, 53, 54, 63, 64, 49, 61, 69,
  1, 2, 33, 34, 41, 67]

/-- src/table_ins8070.cpp:187-189 -/
def INS8070_PAGES : List (Page Row) := [
  ⟨0x0, [], TABLE_INS8070, INDEX_INS8070⟩]

/-- The processors of src/table_ins8070.cpp: CPU_TABLE 193-195 -/
def cpus : List Cpu := [
  ⟨['8', '0', '7', '0'], INS8070_PAGES⟩]

theorem TABLE_INS8070_INDEX_INS8070 (n : Nat) (x : List String) : PageOk ⟨n, x, TABLE_INS8070, INDEX_INS8070⟩ :=
  pageB_sound ⟨n, x, TABLE_INS8070, INDEX_INS8070⟩ (show pageB ⟨0, [], TABLE_INS8070, INDEX_INS8070⟩ = true by decide +kernel)

theorem INS8070_PAGES_ok : ∀ p ∈ INS8070_PAGES, PageOk p :=
  List.forall_mem_cons.mpr <| And.intro (TABLE_INS8070_INDEX_INS8070 _ _) nofun

theorem cpus_ok : ∀ c ∈ cpus, ∀ p ∈ c.pages, PageOk p :=
  List.forall_mem_cons.mpr <| And.intro INS8070_PAGES_ok nofun

end Libasm.Tables.Ins8070
