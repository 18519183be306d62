import Verif.Tables.Row
/-
Generated by tools/gen_tables.py from src/table_ins8060.cpp: names, codes, operands and indexes as written
there. Do not edit.
-/
namespace Libasm.Tables.Ins8060
open Table

/-- src/table_ins8060.cpp:32-80 -/
def TABLE_INS8060 : List Row := [
  ⟨0x0, ['H', 'A', 'L', 'T'], ["E0"]⟩,
  ⟨0x1, ['X', 'A', 'E'], ["E0"]⟩,
  ⟨0x2, ['C', 'C', 'L'], ["E0"]⟩,
  ⟨0x3, ['S', 'C', 'L'], ["E0"]⟩,
  ⟨0x4, ['D', 'I', 'N', 'T'], ["E0"]⟩,
  ⟨0x5, ['I', 'E', 'N'], ["E0"]⟩,
  ⟨0x6, ['C', 'S', 'A'], ["E0"]⟩,
  ⟨0x7, ['C', 'A', 'S'], ["E0"]⟩,
  ⟨0x8, ['N', 'O', 'P'], ["E0"]⟩,
  ⟨0x19, ['S', 'I', 'O'], ["E0"]⟩,
  ⟨0x1c, ['S', 'R'], ["E0"]⟩,
  ⟨0x1d, ['S', 'R', 'L'], ["E0"]⟩,
  ⟨0x1e, ['R', 'R'], ["E0"]⟩,
  ⟨0x1f, ['R', 'R', 'L'], ["E0"]⟩,
  ⟨0x30, ['X', 'P', 'A', 'L'], ["E1", "M_PNTR"]⟩,
  ⟨0x34, ['X', 'P', 'A', 'H'], ["E1", "M_PNTR"]⟩,
  ⟨0x3c, ['X', 'P', 'P', 'C'], ["E1", "M_PNTR"]⟩,
  ⟨0x40, ['L', 'D', 'E'], ["E0"]⟩,
  ⟨0x50, ['A', 'N', 'E'], ["E0"]⟩,
  ⟨0x58, ['O', 'R', 'E'], ["E0"]⟩,
  ⟨0x60, ['X', 'R', 'E'], ["E0"]⟩,
  ⟨0x68, ['D', 'A', 'E'], ["E0"]⟩,
  ⟨0x70, ['A', 'D', 'E'], ["E0"]⟩,
  ⟨0x78, ['C', 'A', 'E'], ["E0"]⟩,
  ⟨0x8f, ['D', 'L', 'Y'], ["E1", "M_IMM8"]⟩,
  ⟨0x90, ['J', 'M', 'P'], ["E1", "M_REL8"]⟩,
  ⟨0x94, ['J', 'P'], ["E1", "M_REL8"]⟩,
  ⟨0x98, ['J', 'Z'], ["E1", "M_REL8"]⟩,
  ⟨0x9c, ['J', 'N', 'Z'], ["E1", "M_REL8"]⟩,
  ⟨0xa8, ['I', 'L', 'D'], ["E1", "M_DISP"]⟩,
  ⟨0xb8, ['D', 'L', 'D'], ["E1", "M_DISP"]⟩,
  ⟨0xc4, ['L', 'D', 'I'], ["E1", "M_IMM8"]⟩,
  ⟨0xc0, ['L', 'D'], ["E1", "M_INDX"]⟩,
  ⟨0xcc, ['S', 'T'], ["E1", "M_UNDEF"]⟩,
  ⟨0xc8, ['S', 'T'], ["E1", "M_INDX"]⟩,
  ⟨0xd4, ['A', 'N', 'I'], ["E1", "M_IMM8"]⟩,
  ⟨0xd0, ['A', 'N', 'D'], ["E1", "M_INDX"]⟩,
  ⟨0xdc, ['O', 'R', 'I'], ["E1", "M_IMM8"]⟩,
  ⟨0xd8, ['O', 'R'], ["E1", "M_INDX"]⟩,
  ⟨0xe4, ['X', 'R', 'I'], ["E1", "M_IMM8"]⟩,
  ⟨0xe0, ['X', 'O', 'R'], ["E1", "M_INDX"]⟩,
  ⟨0xec, ['D', 'A', 'I'], ["E1", "M_IMM8"]⟩,
  ⟨0xe8, ['D', 'A', 'D'], ["E1", "M_INDX"]⟩,
  ⟨0xf4, ['A', 'D', 'I'], ["E1", "M_IMM8"]⟩,
  ⟨0xf0, ['A', 'D', 'D'], ["E1", "M_INDX"]⟩,
  ⟨0xfc, ['C', 'A', 'I'], ["E1", "M_IMM8"]⟩,
  ⟨0xf8, ['C', 'A', 'D'], ["E1", "M_INDX"]⟩]

/-- src/table_ins8060.cpp:82-130 -/
def INDEX_INS8060 : List Nat := [
  44, 22, 43, 36, 18, 35, 46, 23, 45, 7, 2, 6, 42, 21, 41, 4,
  30, 24, 0, 5, 29, 25, 28, 26, 27, 32, 17, 31, 8, 38, 19, 37,
  12, 13, 3, 9, 10, 11, 33, 34, 1, 40, 15, 14, 16, 20, 39]

/-- src/table_ins8060.cpp:135-137 -/
def INS8060_PAGES : List (Page Row) := [
  ⟨0x0, [], TABLE_INS8060, INDEX_INS8060⟩]

/-- The processors of src/table_ins8060.cpp: CPU_TABLE 141-143 -/
def cpus : List Cpu := [
  ⟨['S', 'C', '/', 'M', 'P'], INS8060_PAGES⟩]

theorem TABLE_INS8060_INDEX_INS8060 (n : Nat) (x : List String) : PageOk ⟨n, x, TABLE_INS8060, INDEX_INS8060⟩ :=
  pageB_sound ⟨n, x, TABLE_INS8060, INDEX_INS8060⟩ (show pageB ⟨0, [], TABLE_INS8060, INDEX_INS8060⟩ = true by decide +kernel)

theorem INS8060_PAGES_ok : ∀ p ∈ INS8060_PAGES, PageOk p :=
  List.forall_mem_cons.mpr <| And.intro (TABLE_INS8060_INDEX_INS8060 _ _) nofun

theorem cpus_ok : ∀ c ∈ cpus, ∀ p ∈ c.pages, PageOk p :=
  List.forall_mem_cons.mpr <| And.intro INS8060_PAGES_ok nofun

end Libasm.Tables.Ins8060
