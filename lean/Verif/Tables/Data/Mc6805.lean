import Verif.Tables.Row
/-
Generated by tools/gen_tables.py from src/table_mc6805.cpp: names, codes, operands and indexes as written
there. Do not edit.
-/
namespace Libasm.Tables.Mc6805
open Table

/-- src/table_mc6805.cpp:36-127 -/
def MC6805_TABLE : List Row := [
  ⟨0x20, ['B', 'R', 'A'], ["E1", "M_REL"]⟩,
  ⟨0x21, ['B', 'R', 'N'], ["E1", "M_REL"]⟩,
  ⟨0x22, ['B', 'H', 'I'], ["E1", "M_REL"]⟩,
  ⟨0x23, ['B', 'L', 'S'], ["E1", "M_REL"]⟩,
  ⟨0x24, ['B', 'H', 'S'], ["E1", "M_REL"]⟩,
  ⟨0x24, ['B', 'C', 'C'], ["E1", "M_REL"]⟩,
  ⟨0x25, ['B', 'L', 'O'], ["E1", "M_REL"]⟩,
  ⟨0x25, ['B', 'C', 'S'], ["E1", "M_REL"]⟩,
  ⟨0x26, ['B', 'N', 'E'], ["E1", "M_REL"]⟩,
  ⟨0x27, ['B', 'E', 'Q'], ["E1", "M_REL"]⟩,
  ⟨0x28, ['B', 'H', 'C', 'C'], ["E1", "M_REL"]⟩,
  ⟨0x29, ['B', 'H', 'C', 'S'], ["E1", "M_REL"]⟩,
  ⟨0x2a, ['B', 'P', 'L'], ["E1", "M_REL"]⟩,
  ⟨0x2b, ['B', 'M', 'I'], ["E1", "M_REL"]⟩,
  ⟨0x2c, ['B', 'M', 'C'], ["E1", "M_REL"]⟩,
  ⟨0x2d, ['B', 'M', 'S'], ["E1", "M_REL"]⟩,
  ⟨0x2e, ['B', 'I', 'L'], ["E1", "M_REL"]⟩,
  ⟨0x2f, ['B', 'I', 'H'], ["E1", "M_REL"]⟩,
  ⟨0x30, ['N', 'E', 'G'], ["E1", "M_MEM"]⟩,
  ⟨0x33, ['C', 'O', 'M'], ["E1", "M_MEM"]⟩,
  ⟨0x34, ['L', 'S', 'R'], ["E1", "M_MEM"]⟩,
  ⟨0x36, ['R', 'O', 'R'], ["E1", "M_MEM"]⟩,
  ⟨0x37, ['A', 'S', 'R'], ["E1", "M_MEM"]⟩,
  ⟨0x38, ['A', 'S', 'L'], ["E1", "M_MEM"]⟩,
  ⟨0x38, ['L', 'S', 'L'], ["E1", "M_MEM"]⟩,
  ⟨0x39, ['R', 'O', 'L'], ["E1", "M_MEM"]⟩,
  ⟨0x3a, ['D', 'E', 'C'], ["E1", "M_MEM"]⟩,
  ⟨0x3c, ['I', 'N', 'C'], ["E1", "M_MEM"]⟩,
  ⟨0x3d, ['T', 'S', 'T'], ["E1", "M_MEM"]⟩,
  ⟨0x3f, ['C', 'L', 'R'], ["E1", "M_MEM"]⟩,
  ⟨0x40, ['N', 'E', 'G', 'A'], ["E0"]⟩,
  ⟨0x43, ['C', 'O', 'M', 'A'], ["E0"]⟩,
  ⟨0x44, ['L', 'S', 'R', 'A'], ["E0"]⟩,
  ⟨0x46, ['R', 'O', 'R', 'A'], ["E0"]⟩,
  ⟨0x47, ['A', 'S', 'R', 'A'], ["E0"]⟩,
  ⟨0x48, ['A', 'S', 'L', 'A'], ["E0"]⟩,
  ⟨0x48, ['L', 'S', 'L', 'A'], ["E0"]⟩,
  ⟨0x49, ['R', 'O', 'L', 'A'], ["E0"]⟩,
  ⟨0x4a, ['D', 'E', 'C', 'A'], ["E0"]⟩,
  ⟨0x4c, ['I', 'N', 'C', 'A'], ["E0"]⟩,
  ⟨0x4d, ['T', 'S', 'T', 'A'], ["E0"]⟩,
  ⟨0x4f, ['C', 'L', 'R', 'A'], ["E0"]⟩,
  ⟨0x50, ['N', 'E', 'G', 'X'], ["E0"]⟩,
  ⟨0x53, ['C', 'O', 'M', 'X'], ["E0"]⟩,
  ⟨0x54, ['L', 'S', 'R', 'X'], ["E0"]⟩,
  ⟨0x56, ['R', 'O', 'R', 'X'], ["E0"]⟩,
  ⟨0x57, ['A', 'S', 'R', 'X'], ["E0"]⟩,
  ⟨0x58, ['A', 'S', 'L', 'X'], ["E0"]⟩,
  ⟨0x58, ['L', 'S', 'L', 'X'], ["E0"]⟩,
  ⟨0x59, ['R', 'O', 'L', 'X'], ["E0"]⟩,
  ⟨0x5a, ['D', 'E', 'C', 'X'], ["E0"]⟩,
  ⟨0x5c, ['I', 'N', 'C', 'X'], ["E0"]⟩,
  ⟨0x5d, ['T', 'S', 'T', 'X'], ["E0"]⟩,
  ⟨0x5f, ['C', 'L', 'R', 'X'], ["E0"]⟩,
  ⟨0xa0, ['S', 'U', 'B'], ["E1", "M_GEN"]⟩,
  ⟨0xa1, ['C', 'M', 'P'], ["E1", "M_GEN"]⟩,
  ⟨0xa2, ['S', 'B', 'C'], ["E1", "M_GEN"]⟩,
  ⟨0xa3, ['C', 'P', 'X'], ["E1", "M_GEN"]⟩,
  ⟨0xa4, ['A', 'N', 'D'], ["E1", "M_GEN"]⟩,
  ⟨0xa5, ['B', 'I', 'T'], ["E1", "M_GEN"]⟩,
  ⟨0xa6, ['L', 'D', 'A'], ["E1", "M_GEN"]⟩,
  ⟨0xa7, ['S', 'T', 'A'], ["U1", "M_IMM"]⟩,
  ⟨0xa7, ['S', 'T', 'A'], ["E1", "M_GEN"]⟩,
  ⟨0xa8, ['E', 'O', 'R'], ["E1", "M_GEN"]⟩,
  ⟨0xa9, ['A', 'D', 'C'], ["E1", "M_GEN"]⟩,
  ⟨0xaa, ['O', 'R', 'A'], ["E1", "M_GEN"]⟩,
  ⟨0xab, ['A', 'D', 'D'], ["E1", "M_GEN"]⟩,
  ⟨0xac, ['J', 'M', 'P'], ["U1", "M_IMM"]⟩,
  ⟨0xac, ['J', 'M', 'P'], ["E1", "M_GEN"]⟩,
  ⟨0xae, ['L', 'D', 'X'], ["E1", "M_GEN"]⟩,
  ⟨0xaf, ['S', 'T', 'X'], ["U1", "M_IMM"]⟩,
  ⟨0xaf, ['S', 'T', 'X'], ["E1", "M_GEN"]⟩,
  ⟨0xad, ['B', 'S', 'R'], ["E1", "M_REL"]⟩,
  ⟨0xad, ['J', 'S', 'R'], ["U1", "M_IMM"]⟩,
  ⟨0xad, ['J', 'S', 'R'], ["E1", "M_GEN"]⟩,
  ⟨0x80, ['R', 'T', 'I'], ["E0"]⟩,
  ⟨0x81, ['R', 'T', 'S'], ["E0"]⟩,
  ⟨0x83, ['S', 'W', 'I'], ["E0"]⟩,
  ⟨0x97, ['T', 'A', 'X'], ["E0"]⟩,
  ⟨0x98, ['C', 'L', 'C'], ["E0"]⟩,
  ⟨0x99, ['S', 'E', 'C'], ["E0"]⟩,
  ⟨0x9a, ['C', 'L', 'I'], ["E0"]⟩,
  ⟨0x9b, ['S', 'E', 'I'], ["E0"]⟩,
  ⟨0x9c, ['R', 'S', 'P'], ["E0"]⟩,
  ⟨0x9d, ['N', 'O', 'P'], ["E0"]⟩,
  ⟨0x9f, ['T', 'X', 'A'], ["E0"]⟩,
  ⟨0x10, ['B', 'S', 'E', 'T'], ["E2", "M_BNO", "M_DIR"]⟩,
  ⟨0x11, ['B', 'C', 'L', 'R'], ["E2", "M_BNO", "M_DIR"]⟩,
  ⟨0x0, ['B', 'R', 'S', 'E', 'T'], ["E3", "M_BNO", "M_DIR", "M_REL"]⟩,
  ⟨0x1, ['B', 'R', 'C', 'L', 'R'], ["E3", "M_BNO", "M_DIR", "M_REL"]⟩]

/-- src/table_mc6805.cpp:129-220 -/
def MC6805_INDEX : List Nat := [
  64, 66, 58, 23, 35, 47, 22, 34, 46, 5, 87, 7, 9, 10, 11, 2,
  4, 17, 16, 59, 6, 3, 14, 13, 15, 8, 12, 0, 89, 1, 88, 86,
  72, 79, 81, 29, 41, 53, 55, 19, 31, 43, 57, 26, 38, 50, 63, 27,
  39, 51, 67, 68, 73, 74, 60, 69, 24, 36, 48, 20, 32, 44, 18, 30,
  42, 84, 65, 25, 37, 49, 21, 33, 45, 83, 75, 76, 56, 80, 82, 61,
  62, 70, 71, 54, 77, 78, 28, 40, 52, 85]

/-- src/table_mc6805.cpp:222-225 -/
def MC146805_TABLE : List Row := [
  ⟨0x8e, ['S', 'T', 'O', 'P'], ["E0"]⟩,
  ⟨0x8f, ['W', 'A', 'I', 'T'], ["E0"]⟩]

/-- src/table_mc6805.cpp:227-230 -/
def MC146805_INDEX : List Nat := [
  0, 1]

/-- src/table_mc6805.cpp:232-234 -/
def MC68HC05_TABLE : List Row := [
  ⟨0x42, ['M', 'U', 'L'], ["E0"]⟩]

/-- src/table_mc6805.cpp:236-238 -/
def MC68HC05_INDEX : List Nat := [
  0]

/-- src/table_mc6805.cpp:243-245 -/
def MC6805_PAGES : List (Page Row) := [
  ⟨0x0, [], MC6805_TABLE, MC6805_INDEX⟩]

/-- src/table_mc6805.cpp:247-250 -/
def MC146805_PAGES : List (Page Row) := [
  ⟨0x0, [], MC6805_TABLE, MC6805_INDEX⟩,
  ⟨0x0, [], MC146805_TABLE, MC146805_INDEX⟩]

/-- src/table_mc6805.cpp:252-256 -/
def MC68HC05_PAGES : List (Page Row) := [
  ⟨0x0, [], MC6805_TABLE, MC6805_INDEX⟩,
  ⟨0x0, [], MC146805_TABLE, MC146805_INDEX⟩,
  ⟨0x0, [], MC68HC05_TABLE, MC68HC05_INDEX⟩]

/-- The processors of src/table_mc6805.cpp: CPU_TABLE 260-264 -/
def cpus : List Cpu := [
  ⟨['6', '8', '0', '5'], MC6805_PAGES⟩,
  ⟨['1', '4', '6', '8', '0', '5'], MC146805_PAGES⟩,
  ⟨['6', '8', 'H', 'C', '0', '5'], MC68HC05_PAGES⟩]

theorem MC6805_TABLE_MC6805_INDEX (n : Nat) (x : List String) : PageOk ⟨n, x, MC6805_TABLE, MC6805_INDEX⟩ :=
  pageB_sound ⟨n, x, MC6805_TABLE, MC6805_INDEX⟩ (show pageB ⟨0, [], MC6805_TABLE, MC6805_INDEX⟩ = true by decide +kernel)

theorem MC146805_TABLE_MC146805_INDEX (n : Nat) (x : List String) : PageOk ⟨n, x, MC146805_TABLE, MC146805_INDEX⟩ :=
  pageB_sound ⟨n, x, MC146805_TABLE, MC146805_INDEX⟩ (show pageB ⟨0, [], MC146805_TABLE, MC146805_INDEX⟩ = true by decide +kernel)

theorem MC68HC05_TABLE_MC68HC05_INDEX (n : Nat) (x : List String) : PageOk ⟨n, x, MC68HC05_TABLE, MC68HC05_INDEX⟩ :=
  pageB_sound ⟨n, x, MC68HC05_TABLE, MC68HC05_INDEX⟩ (show pageB ⟨0, [], MC68HC05_TABLE, MC68HC05_INDEX⟩ = true by decide +kernel)

theorem MC6805_PAGES_ok : ∀ p ∈ MC6805_PAGES, PageOk p :=
  List.forall_mem_cons.mpr <| And.intro (MC6805_TABLE_MC6805_INDEX _ _) nofun

theorem MC146805_PAGES_ok : ∀ p ∈ MC146805_PAGES, PageOk p :=
  List.forall_mem_cons.mpr <| And.intro (MC6805_TABLE_MC6805_INDEX _ _) <| List.forall_mem_cons.mpr <| And.intro (MC146805_TABLE_MC146805_INDEX _ _) nofun

theorem MC68HC05_PAGES_ok : ∀ p ∈ MC68HC05_PAGES, PageOk p :=
  List.forall_mem_cons.mpr <| And.intro (MC6805_TABLE_MC6805_INDEX _ _) <| List.forall_mem_cons.mpr <| And.intro (MC146805_TABLE_MC146805_INDEX _ _) <| List.forall_mem_cons.mpr <| And.intro (MC68HC05_TABLE_MC68HC05_INDEX _ _) nofun

theorem cpus_ok : ∀ c ∈ cpus, ∀ p ∈ c.pages, PageOk p :=
  List.forall_mem_cons.mpr <| And.intro MC6805_PAGES_ok <| List.forall_mem_cons.mpr <| And.intro MC146805_PAGES_ok <| List.forall_mem_cons.mpr <| And.intro MC68HC05_PAGES_ok nofun

end Libasm.Tables.Mc6805
