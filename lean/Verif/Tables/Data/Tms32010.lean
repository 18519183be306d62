import Verif.Tables.Row
/-
Generated by tools/gen_tables.py from src/table_tms32010.cpp: names, codes, operands and indexes as written
there. Do not edit.
-/
namespace Libasm.Tables.Tms32010
open Table

/-- src/table_tms32010.cpp:34-95 -/
def TABLE_TMS32010 : List Row := [
  ⟨0x0, ['A', 'D', 'D'], ["E3", "M_MAM", "M_LS4", "M_NARP"]⟩,
  ⟨0x1000, ['S', 'U', 'B'], ["E3", "M_MAM", "M_LS4", "M_NARP"]⟩,
  ⟨0x2000, ['L', 'A', 'C'], ["E3", "M_MAM", "M_LS4", "M_NARP"]⟩,
  ⟨0x3000, ['S', 'A', 'R'], ["E3", "M_AR", "M_MAM", "M_NARP"]⟩,
  ⟨0x3800, ['L', 'A', 'R'], ["E3", "M_AR", "M_MAM", "M_NARP"]⟩,
  ⟨0x4000, ['I', 'N'], ["E3", "M_MAM", "M_PA", "M_NARP"]⟩,
  ⟨0x4800, ['O', 'U', 'T'], ["E3", "M_MAM", "M_PA", "M_NARP"]⟩,
  ⟨0x5000, ['S', 'A', 'C', 'L'], ["E3", "M_MAM", "M_LS0", "M_NARP"]⟩,
  ⟨0x5800, ['S', 'A', 'C', 'H'], ["E3", "M_MAM", "M_LS3", "M_NARP"]⟩,
  ⟨0x6000, ['A', 'D', 'D', 'H'], ["E2", "M_MAM", "M_NARP"]⟩,
  ⟨0x6100, ['A', 'D', 'D', 'S'], ["E2", "M_MAM", "M_NARP"]⟩,
  ⟨0x6200, ['S', 'U', 'B', 'H'], ["E2", "M_MAM", "M_NARP"]⟩,
  ⟨0x6300, ['S', 'U', 'B', 'S'], ["E2", "M_MAM", "M_NARP"]⟩,
  ⟨0x6400, ['S', 'U', 'B', 'C'], ["E2", "M_MAM", "M_NARP"]⟩,
  ⟨0x6500, ['Z', 'A', 'L', 'H'], ["E2", "M_MAM", "M_NARP"]⟩,
  ⟨0x6600, ['Z', 'A', 'L', 'S'], ["E2", "M_MAM", "M_NARP"]⟩,
  ⟨0x6700, ['T', 'B', 'L', 'R'], ["E2", "M_MAM", "M_NARP"]⟩,
  ⟨0x6880, ['L', 'A', 'R', 'P'], ["E1", "M_ARK"]⟩,
  ⟨0x6800, ['M', 'A', 'R'], ["E2", "M_MAM", "M_NARP"]⟩,
  ⟨0x6900, ['D', 'M', 'O', 'V'], ["E2", "M_MAM", "M_NARP"]⟩,
  ⟨0x6a00, ['L', 'T'], ["E2", "M_MAM", "M_NARP"]⟩,
  ⟨0x6b00, ['L', 'T', 'D'], ["E2", "M_MAM", "M_NARP"]⟩,
  ⟨0x6c00, ['L', 'T', 'A'], ["E2", "M_MAM", "M_NARP"]⟩,
  ⟨0x6d00, ['M', 'P', 'Y'], ["E2", "M_MAM", "M_NARP"]⟩,
  ⟨0x6e00, ['L', 'D', 'P', 'K'], ["E1", "M_DPK"]⟩,
  ⟨0x6f00, ['L', 'D', 'P'], ["E2", "M_MAM", "M_NARP"]⟩,
  ⟨0x7000, ['L', 'A', 'R', 'K'], ["E2", "M_AR", "M_IM8"]⟩,
  ⟨0x7800, ['X', 'O', 'R'], ["E2", "M_MAM", "M_NARP"]⟩,
  ⟨0x7900, ['A', 'N', 'D'], ["E2", "M_MAM", "M_NARP"]⟩,
  ⟨0x7a00, ['O', 'R'], ["E2", "M_MAM", "M_NARP"]⟩,
  ⟨0x7b00, ['L', 'S', 'T'], ["E2", "M_MAM", "M_NARP"]⟩,
  ⟨0x7c00, ['S', 'S', 'T'], ["E2", "M_MAM", "M_NARP"]⟩,
  ⟨0x7d00, ['T', 'B', 'L', 'W'], ["E2", "M_MAM", "M_NARP"]⟩,
  ⟨0x7e00, ['L', 'A', 'C', 'K'], ["E1", "M_IM8"]⟩,
  ⟨0x7f80, ['N', 'O', 'P'], ["E0"]⟩,
  ⟨0x7f81, ['D', 'I', 'N', 'T'], ["E0"]⟩,
  ⟨0x7f82, ['E', 'I', 'N', 'T'], ["E0"]⟩,
  ⟨0x7f88, ['A', 'B', 'S'], ["E0"]⟩,
  ⟨0x7f89, ['Z', 'A', 'C'], ["E0"]⟩,
  ⟨0x7f8a, ['R', 'O', 'V', 'M'], ["E0"]⟩,
  ⟨0x7f8b, ['S', 'O', 'V', 'M'], ["E0"]⟩,
  ⟨0x7f8c, ['C', 'A', 'L', 'A'], ["E0"]⟩,
  ⟨0x7f8d, ['R', 'E', 'T'], ["E0"]⟩,
  ⟨0x7f8e, ['P', 'A', 'C'], ["E0"]⟩,
  ⟨0x7f8f, ['A', 'P', 'A', 'C'], ["E0"]⟩,
  ⟨0x7f90, ['S', 'P', 'A', 'C'], ["E0"]⟩,
  ⟨0x7f9c, ['P', 'U', 'S', 'H'], ["E0"]⟩,
  ⟨0x7f9d, ['P', 'O', 'P'], ["E0"]⟩,
  ⟨0x8000, ['M', 'P', 'Y', 'K'], ["E1", "M_IM13"]⟩,
  ⟨0xf400, ['B', 'A', 'N', 'Z'], ["E1", "M_PMA"]⟩,
  ⟨0xf500, ['B', 'V'], ["E1", "M_PMA"]⟩,
  ⟨0xf600, ['B', 'I', 'O', 'Z'], ["E1", "M_PMA"]⟩,
  ⟨0xf800, ['C', 'A', 'L', 'L'], ["E1", "M_PMA"]⟩,
  ⟨0xf900, ['B'], ["E1", "M_PMA"]⟩,
  ⟨0xfa00, ['B', 'L', 'Z'], ["E1", "M_PMA"]⟩,
  ⟨0xfb00, ['B', 'L', 'E', 'Z'], ["E1", "M_PMA"]⟩,
  ⟨0xfc00, ['B', 'G', 'Z'], ["E1", "M_PMA"]⟩,
  ⟨0xfd00, ['B', 'G', 'E', 'Z'], ["E1", "M_PMA"]⟩,
  ⟨0xfe00, ['B', 'N', 'Z'], ["E1", "M_PMA"]⟩,
  ⟨0xff00, ['B', 'Z'], ["E1", "M_PMA"]⟩]

/-- src/table_tms32010.cpp:97-158 -/
def INDEX_TMS32010 : List Nat := [
  37, 0, 9, 10, 28, 44, 53, 49, 57, 56, 51, 55, 54, 58, 50, 59,
  41, 52, 35, 19, 36, 5, 2, 33, 4, 26, 17, 25, 24, 30, 20, 22,
  21, 18, 23, 48, 34, 29, 6, 43, 47, 46, 42, 39, 8, 7, 3, 40,
  45, 31, 1, 13, 11, 12, 16, 32, 27, 38, 14, 15]

/-- src/table_tms32010.cpp:163-165 -/
def TMS32010_PAGES : List (Page Row) := [
  ⟨0x0, [], TABLE_TMS32010, INDEX_TMS32010⟩]

/-- The processors of src/table_tms32010.cpp: CPU_TABLE 169-172 -/
def cpus : List Cpu := [
  ⟨['3', '2', '0', '1', '0'], TMS32010_PAGES⟩,
  ⟨['3', '2', '0', '1', '5'], TMS32010_PAGES⟩]

theorem TABLE_TMS32010_INDEX_TMS32010 (n : Nat) (x : List String) : PageOk ⟨n, x, TABLE_TMS32010, INDEX_TMS32010⟩ :=
  pageB_sound ⟨n, x, TABLE_TMS32010, INDEX_TMS32010⟩ (show pageB ⟨0, [], TABLE_TMS32010, INDEX_TMS32010⟩ = true by decide +kernel)

theorem TMS32010_PAGES_ok : ∀ p ∈ TMS32010_PAGES, PageOk p :=
  List.forall_mem_cons.mpr <| And.intro (TABLE_TMS32010_INDEX_TMS32010 _ _) nofun

theorem cpus_ok : ∀ c ∈ cpus, ∀ p ∈ c.pages, PageOk p :=
  List.forall_mem_cons.mpr <| And.intro TMS32010_PAGES_ok <| List.forall_mem_cons.mpr <| And.intro TMS32010_PAGES_ok nofun

end Libasm.Tables.Tms32010
