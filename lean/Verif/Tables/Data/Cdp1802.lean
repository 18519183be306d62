import Verif.Tables.Row
/-
Generated by tools/gen_tables.py from src/table_cdp1802.cpp: names, codes, operands and indexes as written
there. Do not edit.
-/
namespace Libasm.Tables.Cdp1802
open Table

/-- src/table_cdp1802.cpp:33-125 -/
def TABLE_CDP1802 : List Row := [
  ⟨0x0, ['I', 'D', 'L'], ["E0"]⟩,
  ⟨0x0, ['L', 'D', 'N'], ["E1", "M_REG1"]⟩,
  ⟨0x10, ['I', 'N', 'C'], ["E1", "M_REGN"]⟩,
  ⟨0x20, ['D', 'E', 'C'], ["E1", "M_REGN"]⟩,
  ⟨0x30, ['B', 'R'], ["E1", "M_SHRT"]⟩,
  ⟨0x31, ['B', 'Q'], ["E1", "M_SHRT"]⟩,
  ⟨0x32, ['B', 'Z'], ["E1", "M_SHRT"]⟩,
  ⟨0x33, ['B', 'D', 'F'], ["E1", "M_SHRT"]⟩,
  ⟨0x33, ['B', 'P', 'Z'], ["E1", "M_SHRT"]⟩,
  ⟨0x33, ['B', 'G', 'E'], ["E1", "M_SHRT"]⟩,
  ⟨0x34, ['B', '1'], ["E1", "M_PAGE"]⟩,
  ⟨0x35, ['B', '2'], ["E1", "M_PAGE"]⟩,
  ⟨0x36, ['B', '3'], ["E1", "M_PAGE"]⟩,
  ⟨0x37, ['B', '4'], ["E1", "M_PAGE"]⟩,
  ⟨0x38, ['S', 'K', 'P'], ["E0"]⟩,
  ⟨0x38, ['N', 'B', 'R'], ["E1", "M_PAGE"]⟩,
  ⟨0x39, ['B', 'N', 'Q'], ["E1", "M_SHRT"]⟩,
  ⟨0x3a, ['B', 'N', 'Z'], ["E1", "M_SHRT"]⟩,
  ⟨0x3b, ['B', 'N', 'F'], ["E1", "M_SHRT"]⟩,
  ⟨0x3b, ['B', 'M'], ["E1", "M_SHRT"]⟩,
  ⟨0x3b, ['B', 'L'], ["E1", "M_SHRT"]⟩,
  ⟨0x3c, ['B', 'N', '1'], ["E1", "M_PAGE"]⟩,
  ⟨0x3d, ['B', 'N', '2'], ["E1", "M_PAGE"]⟩,
  ⟨0x3e, ['B', 'N', '3'], ["E1", "M_PAGE"]⟩,
  ⟨0x3f, ['B', 'N', '4'], ["E1", "M_PAGE"]⟩,
  ⟨0x40, ['L', 'D', 'A'], ["E1", "M_REGN"]⟩,
  ⟨0x50, ['S', 'T', 'R'], ["E1", "M_REGN"]⟩,
  ⟨0x60, ['I', 'R', 'X'], ["E0"]⟩,
  ⟨0x60, ['O', 'U', 'T'], ["E1", "M_IOAD"]⟩,
  ⟨0x68, ['I', 'N', 'P'], ["E1", "M_IOAD"]⟩,
  ⟨0x70, ['R', 'E', 'T'], ["E0"]⟩,
  ⟨0x71, ['D', 'I', 'S'], ["E0"]⟩,
  ⟨0x72, ['L', 'D', 'X', 'A'], ["E0"]⟩,
  ⟨0x73, ['S', 'T', 'X', 'D'], ["E0"]⟩,
  ⟨0x74, ['A', 'D', 'C'], ["E0"]⟩,
  ⟨0x75, ['S', 'D', 'B'], ["E0"]⟩,
  ⟨0x76, ['S', 'H', 'R', 'C'], ["E0"]⟩,
  ⟨0x76, ['R', 'S', 'H', 'R'], ["E0"]⟩,
  ⟨0x77, ['S', 'M', 'B'], ["E0"]⟩,
  ⟨0x78, ['S', 'A', 'V'], ["E0"]⟩,
  ⟨0x79, ['M', 'A', 'R', 'K'], ["E0"]⟩,
  ⟨0x7a, ['R', 'E', 'Q'], ["E0"]⟩,
  ⟨0x7b, ['S', 'E', 'Q'], ["E0"]⟩,
  ⟨0x7c, ['A', 'D', 'C', 'I'], ["E1", "M_IMM8"]⟩,
  ⟨0x7d, ['S', 'D', 'B', 'I'], ["E1", "M_IMM8"]⟩,
  ⟨0x7e, ['S', 'H', 'L', 'C'], ["E0"]⟩,
  ⟨0x7e, ['R', 'S', 'H', 'L'], ["E0"]⟩,
  ⟨0x7f, ['S', 'M', 'B', 'I'], ["E1", "M_IMM8"]⟩,
  ⟨0x80, ['G', 'L', 'O'], ["E1", "M_REGN"]⟩,
  ⟨0x90, ['G', 'H', 'I'], ["E1", "M_REGN"]⟩,
  ⟨0xa0, ['P', 'L', 'O'], ["E1", "M_REGN"]⟩,
  ⟨0xb0, ['P', 'H', 'I'], ["E1", "M_REGN"]⟩,
  ⟨0xc0, ['L', 'B', 'R'], ["E1", "M_LONG"]⟩,
  ⟨0xc1, ['L', 'B', 'Q'], ["E1", "M_LONG"]⟩,
  ⟨0xc2, ['L', 'B', 'Z'], ["E1", "M_LONG"]⟩,
  ⟨0xc3, ['L', 'B', 'D', 'F'], ["E1", "M_LONG"]⟩,
  ⟨0xc3, ['L', 'B', 'P', 'Z'], ["E1", "M_LONG"]⟩,
  ⟨0xc3, ['L', 'B', 'G', 'E'], ["E1", "M_LONG"]⟩,
  ⟨0xc4, ['N', 'O', 'P'], ["E0"]⟩,
  ⟨0xc5, ['L', 'S', 'N', 'Q'], ["E0"]⟩,
  ⟨0xc6, ['L', 'S', 'N', 'Z'], ["E0"]⟩,
  ⟨0xc7, ['L', 'S', 'N', 'F'], ["E0"]⟩,
  ⟨0xc8, ['L', 'S', 'K', 'P'], ["E0"]⟩,
  ⟨0xc8, ['N', 'L', 'B', 'R'], ["E1", "M_ADDR"]⟩,
  ⟨0xc9, ['L', 'B', 'N', 'Q'], ["E1", "M_LONG"]⟩,
  ⟨0xca, ['L', 'B', 'N', 'Z'], ["E1", "M_LONG"]⟩,
  ⟨0xcb, ['L', 'B', 'N', 'F'], ["E1", "M_LONG"]⟩,
  ⟨0xcb, ['L', 'B', 'M'], ["E1", "M_LONG"]⟩,
  ⟨0xcb, ['L', 'B', 'L'], ["E1", "M_LONG"]⟩,
  ⟨0xcc, ['L', 'S', 'I', 'E'], ["E0"]⟩,
  ⟨0xcd, ['L', 'S', 'Q'], ["E0"]⟩,
  ⟨0xce, ['L', 'S', 'Z'], ["E0"]⟩,
  ⟨0xcf, ['L', 'S', 'D', 'F'], ["E0"]⟩,
  ⟨0xd0, ['S', 'E', 'P'], ["E1", "M_REGN"]⟩,
  ⟨0xe0, ['S', 'E', 'X'], ["E1", "M_REGN"]⟩,
  ⟨0xf0, ['L', 'D', 'X'], ["E0"]⟩,
  ⟨0xf1, ['O', 'R'], ["E0"]⟩,
  ⟨0xf2, ['A', 'N', 'D'], ["E0"]⟩,
  ⟨0xf3, ['X', 'O', 'R'], ["E0"]⟩,
  ⟨0xf4, ['A', 'D', 'D'], ["E0"]⟩,
  ⟨0xf5, ['S', 'D'], ["E0"]⟩,
  ⟨0xf6, ['S', 'H', 'R'], ["E0"]⟩,
  ⟨0xf7, ['S', 'M'], ["E0"]⟩,
  ⟨0xf8, ['L', 'D', 'I'], ["E1", "M_IMM8"]⟩,
  ⟨0xf9, ['O', 'R', 'I'], ["E1", "M_IMM8"]⟩,
  ⟨0xfa, ['A', 'N', 'I'], ["E1", "M_IMM8"]⟩,
  ⟨0xfb, ['X', 'R', 'I'], ["E1", "M_IMM8"]⟩,
  ⟨0xfc, ['A', 'D', 'I'], ["E1", "M_IMM8"]⟩,
  ⟨0xfd, ['S', 'D', 'I'], ["E1", "M_IMM8"]⟩,
  ⟨0xfe, ['S', 'H', 'L'], ["E0"]⟩,
  ⟨0xff, ['S', 'M', 'I'], ["E1", "M_IMM8"]⟩]

/-- src/table_cdp1802.cpp:127-219 -/
def INDEX_CDP1802 : List Nat := [
  34, 43, 79, 87, 77, 85, 10, 11, 12, 13, 7, 9, 20, 19, 21, 22,
  23, 24, 18, 16, 17, 8, 5, 4, 6, 3, 31, 49, 48, 0, 2, 29,
  27, 55, 57, 68, 67, 66, 64, 65, 56, 53, 52, 54, 25, 83, 1, 75,
  32, 72, 69, 62, 61, 59, 60, 70, 71, 40, 15, 63, 58, 76, 84, 28,
  51, 50, 41, 30, 46, 37, 39, 80, 35, 44, 88, 73, 42, 74, 89, 45,
  81, 36, 14, 82, 38, 47, 90, 26, 33, 78, 86]

/-- src/table_cdp1802.cpp:221-244 -/
def TABLE_CDP1804 : List Row := [
  ⟨0x0, ['S', 'T', 'P', 'C'], ["E0"]⟩,
  ⟨0x1, ['D', 'T', 'C'], ["E0"]⟩,
  ⟨0x2, ['S', 'P', 'M', '2'], ["E0"]⟩,
  ⟨0x3, ['S', 'C', 'M', '2'], ["E0"]⟩,
  ⟨0x4, ['S', 'P', 'M', '1'], ["E0"]⟩,
  ⟨0x5, ['S', 'C', 'M', '1'], ["E0"]⟩,
  ⟨0x6, ['L', 'D', 'C'], ["E0"]⟩,
  ⟨0x7, ['S', 'T', 'M'], ["E0"]⟩,
  ⟨0x8, ['G', 'E', 'C'], ["E0"]⟩,
  ⟨0x9, ['E', 'T', 'Q'], ["E0"]⟩,
  ⟨0xa, ['X', 'I', 'E'], ["E0"]⟩,
  ⟨0xb, ['X', 'I', 'D'], ["E0"]⟩,
  ⟨0xc, ['C', 'I', 'E'], ["E0"]⟩,
  ⟨0xd, ['C', 'I', 'D'], ["E0"]⟩,
  ⟨0x3e, ['B', 'C', 'I'], ["E1", "M_PAGE"]⟩,
  ⟨0x3f, ['B', 'X', 'I'], ["E1", "M_PAGE"]⟩,
  ⟨0x60, ['R', 'L', 'X', 'A'], ["E1", "M_REGN"]⟩,
  ⟨0x80, ['S', 'C', 'A', 'L'], ["E2", "M_REGN", "M_ADDR"]⟩,
  ⟨0x90, ['S', 'R', 'E', 'T'], ["E1", "M_REGN"]⟩,
  ⟨0xa0, ['R', 'S', 'X', 'D'], ["E1", "M_REGN"]⟩,
  ⟨0xb0, ['R', 'N', 'X'], ["E1", "M_REGN"]⟩,
  ⟨0xc0, ['R', 'L', 'D', 'I'], ["E2", "M_REGN", "M_ADDR"]⟩]

/-- src/table_cdp1802.cpp:246-269 -/
def INDEX_CDP1804 : List Nat := [
  14, 15, 13, 12, 1, 9, 8, 6, 21, 16, 20, 19, 17, 5, 3, 4,
  2, 18, 7, 0, 11, 10]

/-- src/table_cdp1802.cpp:271-282 -/
def TABLE_CDP1804A : List Row := [
  ⟨0x20, ['D', 'B', 'N', 'Z'], ["E2", "M_REGN", "M_ADDR"]⟩,
  ⟨0x74, ['D', 'A', 'D', 'C'], ["E0"]⟩,
  ⟨0x76, ['D', 'S', 'A', 'V'], ["E0"]⟩,
  ⟨0x77, ['D', 'S', 'M', 'B'], ["E0"]⟩,
  ⟨0x7c, ['D', 'A', 'C', 'I'], ["E1", "M_IMM8"]⟩,
  ⟨0x7f, ['D', 'S', 'B', 'I'], ["E1", "M_IMM8"]⟩,
  ⟨0xf4, ['D', 'A', 'D', 'D'], ["E0"]⟩,
  ⟨0xf7, ['D', 'S', 'M'], ["E0"]⟩,
  ⟨0xfc, ['D', 'A', 'D', 'I'], ["E1", "M_IMM8"]⟩,
  ⟨0xff, ['D', 'S', 'M', 'I'], ["E1", "M_IMM8"]⟩]

/-- src/table_cdp1802.cpp:284-295 -/
def INDEX_CDP1804A : List Nat := [
  4, 1, 6, 8, 0, 2, 5, 7, 3, 9]

/-- src/table_cdp1802.cpp:300-302 -/
def CDP1802_PAGES : List (Page Row) := [
  ⟨0x0, [], TABLE_CDP1802, INDEX_CDP1802⟩]

/-- src/table_cdp1802.cpp:304-307 -/
def CDP1804_PAGES : List (Page Row) := [
  ⟨0x0, [], TABLE_CDP1802, INDEX_CDP1802⟩,
  ⟨0x68, [], TABLE_CDP1804, INDEX_CDP1804⟩]

/-- src/table_cdp1802.cpp:309-313 -/
def CDP1804A_PAGES : List (Page Row) := [
  ⟨0x0, [], TABLE_CDP1802, INDEX_CDP1802⟩,
  ⟨0x68, [], TABLE_CDP1804, INDEX_CDP1804⟩,
  ⟨0x68, [], TABLE_CDP1804A, INDEX_CDP1804A⟩]

/-- The processors of src/table_cdp1802.cpp: CPU_TABLE 317-321 -/
def cpus : List Cpu := [
  ⟨['1', '8', '0', '2'], CDP1802_PAGES⟩,
  ⟨['1', '8', '0', '4'], CDP1804_PAGES⟩,
  ⟨['1', '8', '0', '4', 'A'], CDP1804A_PAGES⟩]

theorem TABLE_CDP1802_INDEX_CDP1802 (n : Nat) (x : List String) : PageOk ⟨n, x, TABLE_CDP1802, INDEX_CDP1802⟩ :=
  pageB_sound ⟨n, x, TABLE_CDP1802, INDEX_CDP1802⟩ (show pageB ⟨0, [], TABLE_CDP1802, INDEX_CDP1802⟩ = true by decide +kernel)

theorem TABLE_CDP1804_INDEX_CDP1804 (n : Nat) (x : List String) : PageOk ⟨n, x, TABLE_CDP1804, INDEX_CDP1804⟩ :=
  pageB_sound ⟨n, x, TABLE_CDP1804, INDEX_CDP1804⟩ (show pageB ⟨0, [], TABLE_CDP1804, INDEX_CDP1804⟩ = true by decide +kernel)

theorem TABLE_CDP1804A_INDEX_CDP1804A (n : Nat) (x : List String) : PageOk ⟨n, x, TABLE_CDP1804A, INDEX_CDP1804A⟩ :=
  pageB_sound ⟨n, x, TABLE_CDP1804A, INDEX_CDP1804A⟩ (show pageB ⟨0, [], TABLE_CDP1804A, INDEX_CDP1804A⟩ = true by decide +kernel)

theorem CDP1802_PAGES_ok : ∀ p ∈ CDP1802_PAGES, PageOk p :=
  List.forall_mem_cons.mpr <| And.intro (TABLE_CDP1802_INDEX_CDP1802 _ _) nofun

theorem CDP1804_PAGES_ok : ∀ p ∈ CDP1804_PAGES, PageOk p :=
  List.forall_mem_cons.mpr <| And.intro (TABLE_CDP1802_INDEX_CDP1802 _ _) <| List.forall_mem_cons.mpr <| And.intro (TABLE_CDP1804_INDEX_CDP1804 _ _) nofun

theorem CDP1804A_PAGES_ok : ∀ p ∈ CDP1804A_PAGES, PageOk p :=
  List.forall_mem_cons.mpr <| And.intro (TABLE_CDP1802_INDEX_CDP1802 _ _) <| List.forall_mem_cons.mpr <| And.intro (TABLE_CDP1804_INDEX_CDP1804 _ _) <| List.forall_mem_cons.mpr <| And.intro (TABLE_CDP1804A_INDEX_CDP1804A _ _) nofun

theorem cpus_ok : ∀ c ∈ cpus, ∀ p ∈ c.pages, PageOk p :=
  List.forall_mem_cons.mpr <| And.intro CDP1802_PAGES_ok <| List.forall_mem_cons.mpr <| And.intro CDP1804_PAGES_ok <| List.forall_mem_cons.mpr <| And.intro CDP1804A_PAGES_ok nofun

end Libasm.Tables.Cdp1802
