import Verif.Tables.Row
/-
Generated by tools/gen_tables.py from src/table_f3850.cpp: names, codes, operands and indexes as written
there. Do not edit.
-/
namespace Libasm.Tables.F3850
open Table

/-- src/table_f3850.cpp:33-110 -/
def TABLE_3850 : List Row := [
  ⟨0x0, ['L', 'R'], ["E2", "M_A", "M_KU"]⟩,
  ⟨0x1, ['L', 'R'], ["E2", "M_A", "M_KL"]⟩,
  ⟨0x2, ['L', 'R'], ["E2", "M_A", "M_QU"]⟩,
  ⟨0x3, ['L', 'R'], ["E2", "M_A", "M_QL"]⟩,
  ⟨0x4, ['L', 'R'], ["E2", "M_KU", "M_A"]⟩,
  ⟨0x5, ['L', 'R'], ["E2", "M_KL", "M_A"]⟩,
  ⟨0x6, ['L', 'R'], ["E2", "M_QU", "M_A"]⟩,
  ⟨0x7, ['L', 'R'], ["E2", "M_QL", "M_A"]⟩,
  ⟨0x8, ['L', 'R'], ["E2", "M_K", "M_P"]⟩,
  ⟨0x9, ['L', 'R'], ["E2", "M_P", "M_K"]⟩,
  ⟨0xa, ['L', 'R'], ["E2", "M_A", "M_IS"]⟩,
  ⟨0xb, ['L', 'R'], ["E2", "M_IS", "M_A"]⟩,
  ⟨0xc, ['P', 'K'], ["E0"]⟩,
  ⟨0xd, ['L', 'R'], ["E2", "M_P0", "M_Q"]⟩,
  ⟨0xe, ['L', 'R'], ["E2", "M_Q", "M_DC"]⟩,
  ⟨0xf, ['L', 'R'], ["E2", "M_DC", "M_Q"]⟩,
  ⟨0x10, ['L', 'R'], ["E2", "M_DC", "M_H"]⟩,
  ⟨0x11, ['L', 'R'], ["E2", "M_H", "M_DC"]⟩,
  ⟨0x12, ['S', 'R'], ["E1", "M_C1"]⟩,
  ⟨0x13, ['S', 'L'], ["E1", "M_C1"]⟩,
  ⟨0x14, ['S', 'R'], ["E1", "M_C4"]⟩,
  ⟨0x15, ['S', 'L'], ["E1", "M_C4"]⟩,
  ⟨0x16, ['L', 'M'], ["E0"]⟩,
  ⟨0x17, ['S', 'T'], ["E0"]⟩,
  ⟨0x18, ['C', 'O', 'M'], ["E0"]⟩,
  ⟨0x19, ['L', 'N', 'K'], ["E0"]⟩,
  ⟨0x1a, ['D', 'I'], ["E0"]⟩,
  ⟨0x1b, ['E', 'I'], ["E0"]⟩,
  ⟨0x1c, ['P', 'O', 'P'], ["E0"]⟩,
  ⟨0x1d, ['L', 'R'], ["E2", "M_W", "M_J"]⟩,
  ⟨0x1e, ['L', 'R'], ["E2", "M_J", "M_W"]⟩,
  ⟨0x1f, ['I', 'N', 'C'], ["E0"]⟩,
  ⟨0x20, ['L', 'I'], ["E1", "M_IM8"]⟩,
  ⟨0x21, ['N', 'I'], ["E1", "M_IM8"]⟩,
  ⟨0x22, ['O', 'I'], ["E1", "M_IM8"]⟩,
  ⟨0x23, ['X', 'I'], ["E1", "M_IM8"]⟩,
  ⟨0x24, ['A', 'I'], ["E1", "M_IM8"]⟩,
  ⟨0x25, ['C', 'I'], ["E1", "M_IM8"]⟩,
  ⟨0x26, ['I', 'N'], ["E1", "M_IOA"]⟩,
  ⟨0x27, ['O', 'U', 'T'], ["E1", "M_IOA"]⟩,
  ⟨0x28, ['P', 'I'], ["E1", "M_ADDR"]⟩,
  ⟨0x29, ['J', 'M', 'P'], ["E1", "M_ADDR"]⟩,
  ⟨0x2a, ['D', 'C', 'I'], ["E1", "M_ADDR"]⟩,
  ⟨0x2b, ['N', 'O', 'P'], ["E0"]⟩,
  ⟨0x2c, ['X', 'D', 'C'], ["E0"]⟩,
  ⟨0x30, ['d', 's'], ["E1", "M_REG"]⟩,
  ⟨0x40, ['L', 'R'], ["E2", "M_A", "M_REG"]⟩,
  ⟨0x50, ['L', 'R'], ["E2", "M_REG", "M_A"]⟩,
  ⟨0x60, ['L', 'I', 'S', 'U'], ["E1", "M_IM3"]⟩,
  ⟨0x68, ['L', 'I', 'S', 'L'], ["E1", "M_IM3"]⟩,
  ⟨0x70, ['C', 'L', 'R'], ["E0"]⟩,
  ⟨0x70, ['L', 'I', 'S'], ["E1", "M_IM4"]⟩,
  ⟨0x81, ['B', 'P'], ["E1", "M_REL"]⟩,
  ⟨0x82, ['B', 'C'], ["E1", "M_REL"]⟩,
  ⟨0x84, ['B', 'Z'], ["E1", "M_REL"]⟩,
  ⟨0x88, ['A', 'M'], ["E0"]⟩,
  ⟨0x89, ['A', 'M', 'D'], ["E0"]⟩,
  ⟨0x8a, ['N', 'M'], ["E0"]⟩,
  ⟨0x8b, ['O', 'M'], ["E0"]⟩,
  ⟨0x8c, ['X', 'M'], ["E0"]⟩,
  ⟨0x8d, ['C', 'M'], ["E0"]⟩,
  ⟨0x8e, ['A', 'D', 'C'], ["E0"]⟩,
  ⟨0x8f, ['B', 'R', '7'], ["E1", "M_REL"]⟩,
  ⟨0x80, ['B', 'T'], ["E2", "M_IM3", "M_REL"]⟩,
  ⟨0x90, ['B', 'R'], ["E1", "M_REL"]⟩,
  ⟨0x91, ['B', 'M'], ["E1", "M_REL"]⟩,
  ⟨0x92, ['B', 'N', 'C'], ["E1", "M_REL"]⟩,
  ⟨0x94, ['B', 'N', 'Z'], ["E1", "M_REL"]⟩,
  ⟨0x98, ['B', 'N', 'O'], ["E1", "M_REL"]⟩,
  ⟨0x90, ['B', 'F'], ["E2", "M_IM4", "M_REL"]⟩,
  ⟨0xa0, ['I', 'N', 'S'], ["E1", "M_IOS"]⟩,
  ⟨0xb0, ['O', 'U', 'T', 'S'], ["E1", "M_IOS"]⟩,
  ⟨0xc0, ['A', 'S'], ["E1", "M_REG"]⟩,
  ⟨0xd0, ['A', 'S', 'D'], ["E1", "M_REG"]⟩,
  ⟨0xe0, ['X', 'S'], ["E1", "M_REG"]⟩,
  ⟨0xf0, ['N', 'S'], ["E1", "M_REG"]⟩]

/-- src/table_f3850.cpp:112-189 -/
def INDEX_3850 : List Nat := [
  61, 36, 55, 56, 72, 73, 53, 69, 65, 66, 68, 67, 52, 64, 62, 63,
  54, 37, 50, 60, 24, 42, 26, 45, 27, 38, 31, 70, 41, 32, 51, 49,
  48, 22, 25, 0, 1, 2, 3, 4, 5, 6, 7, 8, 9, 10, 11, 13,
  14, 15, 16, 17, 29, 30, 46, 47, 33, 57, 43, 75, 34, 58, 39, 71,
  40, 12, 28, 19, 21, 18, 20, 23, 44, 35, 59, 74]

/-- src/table_f3850.cpp:195-197 -/
def F3850_PAGES : List (Page Row) := [
  ⟨0x0, [], TABLE_3850, INDEX_3850⟩]

/-- The processors of src/table_f3850.cpp: CPU_TABLE 201-203 -/
def cpus : List Cpu := [
  ⟨['3', '8', '5', '0'], F3850_PAGES⟩]

theorem TABLE_3850_INDEX_3850 (n : Nat) (x : List String) : PageOk ⟨n, x, TABLE_3850, INDEX_3850⟩ :=
  pageB_sound ⟨n, x, TABLE_3850, INDEX_3850⟩ (show pageB ⟨0, [], TABLE_3850, INDEX_3850⟩ = true by decide +kernel)

theorem F3850_PAGES_ok : ∀ p ∈ F3850_PAGES, PageOk p :=
  List.forall_mem_cons.mpr <| And.intro (TABLE_3850_INDEX_3850 _ _) nofun

theorem cpus_ok : ∀ c ∈ cpus, ∀ p ∈ c.pages, PageOk p :=
  List.forall_mem_cons.mpr <| And.intro F3850_PAGES_ok nofun

end Libasm.Tables.F3850
