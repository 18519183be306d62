import Verif.Tables.Row
/-
Generated by tools/gen_tables.py from src/table_mn1610.cpp: names, codes, operands and indexes as written
there. Do not edit.
-/
namespace Libasm.Tables.Mn1610
open Table

/-- src/table_mn1610.cpp:35-41 -/
def TABLE_COMMON : List Row := [
  ⟨0x2000, ['H'], ["E0"]⟩,
  ⟨0x2003, ['R', 'E', 'T'], ["E0"]⟩,
  ⟨0x2001, ['P', 'U', 'S', 'H'], ["E1", "M_RD"]⟩,
  ⟨0x2002, ['P', 'O', 'P'], ["E1", "M_RD"]⟩,
  ⟨0x2004, ['L', 'P', 'S', 'W'], ["E1", "M_ILVL"]⟩]

/-- src/table_mn1610.cpp:43-49 -/
def INDEX_COMMON : List Nat := [
  0, 4, 3, 2, 1]

/-- src/table_mn1610.cpp:51-82 -/
def TABLE_MN1610 : List Row := [
  ⟨0x800, ['M', 'V', 'I'], ["E2", "M_RD", "M_IM8"]⟩,
  ⟨0x1000, ['W', 'T'], ["E2", "M_RD", "M_IOA"]⟩,
  ⟨0x1800, ['R', 'D'], ["E2", "M_RD", "M_IOA"]⟩,
  ⟨0x2008, ['S', 'R'], ["E3", "M_RD", "M_EOP", "M_SKIP"]⟩,
  ⟨0x2008, ['S', 'R'], ["E2", "M_RD", "M_SKIP"]⟩,
  ⟨0x200c, ['S', 'L'], ["E3", "M_RD", "M_EOP", "M_SKIP"]⟩,
  ⟨0x200c, ['S', 'L'], ["E2", "M_RD", "M_SKIP"]⟩,
  ⟨0x2800, ['T', 'B', 'I', 'T'], ["E3", "M_RD", "M_BIT", "M_SKIP"]⟩,
  ⟨0x3000, ['R', 'B', 'I', 'T'], ["E3", "M_RD", "M_BIT", "M_SKIP"]⟩,
  ⟨0x3800, ['S', 'B', 'I', 'T'], ["E3", "M_RD", "M_BIT", "M_SKIP"]⟩,
  ⟨0x4000, ['S', 'I'], ["E3", "M_RD", "M_IM4", "M_SKIP"]⟩,
  ⟨0x4800, ['A', 'I'], ["E3", "M_RD", "M_IM4", "M_SKIP"]⟩,
  ⟨0x5000, ['C', 'B'], ["E3", "M_RD", "M_RS", "M_SKIP"]⟩,
  ⟨0x5008, ['C'], ["E3", "M_RD", "M_RS", "M_SKIP"]⟩,
  ⟨0x5800, ['S'], ["E3", "M_RD", "M_RS", "M_SKIP"]⟩,
  ⟨0x5808, ['A'], ["E3", "M_RD", "M_RS", "M_SKIP"]⟩,
  ⟨0x6000, ['E', 'O', 'R'], ["E3", "M_RD", "M_RS", "M_SKIP"]⟩,
  ⟨0x6008, ['O', 'R'], ["E3", "M_RD", "M_RS", "M_SKIP"]⟩,
  ⟨0x6800, ['L', 'A', 'D'], ["E3", "M_RD", "M_RS", "M_SKIP"]⟩,
  ⟨0x6808, ['A', 'N', 'D'], ["E3", "M_RD", "M_RS", "M_SKIP"]⟩,
  ⟨0x7000, ['D', 'S', 'W', 'P'], ["E3", "M_RD", "M_RS", "M_SKIP"]⟩,
  ⟨0x7008, ['B', 'S', 'W', 'P'], ["E3", "M_RD", "M_RS", "M_SKIP"]⟩,
  ⟨0x7800, ['M', 'V', 'B'], ["E3", "M_RD", "M_RS", "M_SKIP"]⟩,
  ⟨0x7808, ['M', 'V'], ["E3", "M_RD", "M_RS", "M_SKIP"]⟩,
  ⟨0x8600, ['D', 'M', 'S'], ["E1", "M_GEN"]⟩,
  ⟨0x8700, ['B', 'A', 'L'], ["E1", "M_GEN"]⟩,
  ⟨0x8000, ['S', 'T'], ["E2", "M_RDG", "M_GEN"]⟩,
  ⟨0xc600, ['I', 'M', 'S'], ["E1", "M_GEN"]⟩,
  ⟨0xc700, ['B'], ["E1", "M_GEN"]⟩,
  ⟨0xc000, ['L'], ["E2", "M_RDG", "M_GEN"]⟩]

/-- src/table_mn1610.cpp:84-115 -/
def INDEX_MN1610 : List Nat := [
  15, 11, 19, 28, 25, 21, 13, 12, 24, 20, 16, 27, 29, 18, 23, 22,
  0, 17, 8, 2, 14, 9, 10, 5, 6, 3, 4, 26, 7, 1]

/-- src/table_mn1610.cpp:117-191 -/
def TABLE_MN1613 : List Row := [
  ⟨0xf07, ['L', 'B'], ["E2", "M_RBW", "M_ABS"]⟩,
  ⟨0xf00, ['S', 'E', 'T', 'B'], ["E2", "M_RS", "M_RBW"]⟩,
  ⟨0xf0f, ['L', 'S'], ["E2", "M_RP", "M_ABS"]⟩,
  ⟨0xf08, ['S', 'E', 'T', 'S'], ["E2", "M_RS", "M_RP"]⟩,
  ⟨0xf87, ['S', 'T', 'B'], ["E2", "M_RB", "M_ABS"]⟩,
  ⟨0xf80, ['C', 'P', 'Y', 'B'], ["E2", "M_RS", "M_RB"]⟩,
  ⟨0xf8f, ['S', 'T', 'S'], ["E2", "M_RP", "M_ABS"]⟩,
  ⟨0xf88, ['C', 'P', 'Y', 'S'], ["E2", "M_RS", "M_RP"]⟩,
  ⟨0x1707, ['P', 'O', 'P', 'M'], ["E0"]⟩,
  ⟨0x1700, ['T', 'R', 'S', 'T'], ["E3", "M_RS", "M_ABS", "M_SKIP"]⟩,
  ⟨0x170f, ['P', 'S', 'H', 'M'], ["E0"]⟩,
  ⟨0x1708, ['T', 'S', 'E', 'T'], ["E3", "M_RS", "M_ABS", "M_SKIP"]⟩,
  ⟨0x1f07, ['F', 'L', 'T'], ["E3", "M_DR0", "M_R0", "M_SKIP"]⟩,
  ⟨0x1f0f, ['F', 'I', 'X'], ["E3", "M_R0", "M_DR0", "M_SKIP"]⟩,
  ⟨0x1f00, ['N', 'E', 'G'], ["E3", "M_RS", "M_COP", "M_SKIP"]⟩,
  ⟨0x1f00, ['N', 'E', 'G'], ["E2", "M_RS", "M_SKIP"]⟩,
  ⟨0x2607, ['B', 'D'], ["E1", "M_ABS"]⟩,
  ⟨0x2617, ['B', 'A', 'L', 'D'], ["E1", "M_ABS"]⟩,
  ⟨0x270f, ['B', 'L'], ["E1", "M_IABS"]⟩,
  ⟨0x2704, ['B', 'R'], ["E1", "M_RI"]⟩,
  ⟨0x271f, ['B', 'A', 'L', 'L'], ["E1", "M_IABS"]⟩,
  ⟨0x2714, ['B', 'A', 'L', 'R'], ["E1", "M_RI"]⟩,
  ⟨0x2708, ['L', 'D'], ["E3", "M_RSG", "M_SB", "M_ABS"]⟩,
  ⟨0x2708, ['L', 'D'], ["E2", "M_RSG", "M_ABS"]⟩,
  ⟨0x2748, ['S', 'T', 'D'], ["E3", "M_RSG", "M_SB", "M_ABS"]⟩,
  ⟨0x2748, ['S', 'T', 'D'], ["E2", "M_RSG", "M_ABS"]⟩,
  ⟨0x2010, ['W', 'T', 'R'], ["E2", "M_RDG", "M_RI"]⟩,
  ⟨0x2014, ['R', 'D', 'R'], ["E2", "M_RDG", "M_RI"]⟩,
  ⟨0x2000, ['L', 'R'], ["E3", "M_RDG", "M_SB", "M_RIAU"]⟩,
  ⟨0x2000, ['L', 'R'], ["E2", "M_RDG", "M_RIAU"]⟩,
  ⟨0x2004, ['S', 'T', 'R'], ["E3", "M_RDG", "M_SB", "M_RIAU"]⟩,
  ⟨0x2004, ['S', 'T', 'R'], ["E2", "M_RDG", "M_RIAU"]⟩,
  ⟨0x3f07, ['R', 'E', 'T', 'L'], ["E0"]⟩,
  ⟨0x3f17, ['B', 'L', 'K'], ["E3", "M_RI2", "M_RI1", "M_R0"]⟩,
  ⟨0x3f70, ['S', 'R', 'B', 'T'], ["E2", "M_R0", "M_RS"]⟩,
  ⟨0x3f00, ['S', 'E', 'T', 'H'], ["E2", "M_RS", "M_RHW"]⟩,
  ⟨0x3ff0, ['D', 'E', 'B', 'P'], ["E2", "M_RS", "M_R0"]⟩,
  ⟨0x3f80, ['C', 'P', 'Y', 'H'], ["E2", "M_RS", "M_RHR"]⟩,
  ⟨0x4704, ['S', 'D'], ["E4", "M_DR0", "M_RI", "M_COP", "M_SKIP"]⟩,
  ⟨0x4704, ['S', 'D'], ["E3", "M_DR0", "M_RI", "M_SKIP"]⟩,
  ⟨0x4f04, ['A', 'D'], ["E4", "M_DR0", "M_RI", "M_COP", "M_SKIP"]⟩,
  ⟨0x4f04, ['A', 'D'], ["E3", "M_DR0", "M_RI", "M_SKIP"]⟩,
  ⟨0x5704, ['D', 'A', 'S'], ["E4", "M_R0", "M_RI", "M_COP", "M_SKIP"]⟩,
  ⟨0x5704, ['D', 'A', 'S'], ["E3", "M_R0", "M_RI", "M_SKIP"]⟩,
  ⟨0x5700, ['C', 'B', 'R'], ["E3", "M_R0", "M_RI", "M_SKIP"]⟩,
  ⟨0x5708, ['C', 'W', 'R'], ["E3", "M_R0", "M_RI", "M_SKIP"]⟩,
  ⟨0x5007, ['C', 'B', 'I'], ["E3", "M_RD", "M_IM8W", "M_SKIP"]⟩,
  ⟨0x500f, ['C', 'W', 'I'], ["E3", "M_RD", "M_IM16", "M_SKIP"]⟩,
  ⟨0x5f04, ['D', 'A', 'A'], ["E4", "M_R0", "M_RI", "M_COP", "M_SKIP"]⟩,
  ⟨0x5f04, ['D', 'A', 'A'], ["E3", "M_R0", "M_RI", "M_SKIP"]⟩,
  ⟨0x5f00, ['S', 'W', 'R'], ["E3", "M_R0", "M_RI", "M_SKIP"]⟩,
  ⟨0x5f08, ['A', 'W', 'R'], ["E3", "M_R0", "M_RI", "M_SKIP"]⟩,
  ⟨0x5807, ['S', 'W', 'I'], ["E3", "M_RD", "M_IM16", "M_SKIP"]⟩,
  ⟨0x580f, ['A', 'W', 'I'], ["E3", "M_RD", "M_IM16", "M_SKIP"]⟩,
  ⟨0x6704, ['F', 'D'], ["E3", "M_DR0", "M_RI", "M_SKIP"]⟩,
  ⟨0x670c, ['F', 'M'], ["E3", "M_DR0", "M_RI", "M_SKIP"]⟩,
  ⟨0x6700, ['E', 'O', 'R', 'R'], ["E3", "M_R0", "M_RI", "M_SKIP"]⟩,
  ⟨0x6708, ['O', 'R', 'R'], ["E3", "M_R0", "M_RI", "M_SKIP"]⟩,
  ⟨0x6007, ['E', 'O', 'R', 'I'], ["E3", "M_RD", "M_IM16", "M_SKIP"]⟩,
  ⟨0x600f, ['O', 'R', 'I'], ["E3", "M_RD", "M_IM16", "M_SKIP"]⟩,
  ⟨0x6f08, ['A', 'N', 'D', 'R'], ["E3", "M_R0", "M_RI", "M_SKIP"]⟩,
  ⟨0x6f00, ['L', 'A', 'D', 'R'], ["E3", "M_R0", "M_RI", "M_SKIP"]⟩,
  ⟨0x6f04, ['F', 'S'], ["E3", "M_DR0", "M_RI", "M_SKIP"]⟩,
  ⟨0x6f0c, ['F', 'A'], ["E3", "M_DR0", "M_RI", "M_SKIP"]⟩,
  ⟨0x6807, ['L', 'A', 'D', 'I'], ["E3", "M_RD", "M_IM16", "M_SKIP"]⟩,
  ⟨0x680f, ['A', 'N', 'D', 'I'], ["E3", "M_RD", "M_IM16", "M_SKIP"]⟩,
  ⟨0x7700, ['D', 'S', 'W', 'R'], ["E3", "M_R0", "M_RI", "M_SKIP"]⟩,
  ⟨0x7708, ['B', 'S', 'W', 'R'], ["E3", "M_R0", "M_RI", "M_SKIP"]⟩,
  ⟨0x770c, ['D'], ["E3", "M_DR0", "M_RI", "M_SKIP"]⟩,
  ⟨0x7f00, ['M', 'V', 'B', 'R'], ["E3", "M_R0", "M_RI", "M_SKIP"]⟩,
  ⟨0x7f08, ['M', 'V', 'W', 'R'], ["E3", "M_R0", "M_RI", "M_SKIP"]⟩,
  ⟨0x7f0c, ['M'], ["E3", "M_DR0", "M_RI", "M_SKIP"]⟩,
  ⟨0x780f, ['M', 'V', 'W', 'I'], ["E3", "M_RD", "M_IM16", "M_SKIP"]⟩]

/-- src/table_mn1610.cpp:193-267 -/
def INDEX_MN1613 : List Nat := [
  40, 41, 65, 60, 53, 51, 17, 20, 21, 16, 18, 33, 19, 67, 46, 44,
  5, 37, 7, 47, 45, 68, 48, 49, 42, 43, 36, 66, 58, 56, 63, 54,
  13, 12, 55, 62, 64, 61, 0, 22, 23, 28, 29, 2, 71, 69, 72, 70,
  14, 15, 59, 57, 8, 10, 27, 32, 38, 39, 1, 35, 3, 34, 4, 24,
  25, 30, 31, 6, 52, 50, 9, 11, 26]

/-- src/table_mn1610.cpp:272-275 -/
def MN1610_PAGES : List (Page Row) := [
  ⟨0x0, [], TABLE_COMMON, INDEX_COMMON⟩,
  ⟨0x0, [], TABLE_MN1610, INDEX_MN1610⟩]

/-- src/table_mn1610.cpp:277-281 -/
def MN1613_PAGES : List (Page Row) := [
  ⟨0x0, [], TABLE_COMMON, INDEX_COMMON⟩,
  ⟨0x0, [], TABLE_MN1613, INDEX_MN1613⟩,
  ⟨0x0, [], TABLE_MN1610, INDEX_MN1610⟩]

/-- The processors of src/table_mn1610.cpp: CPU_TABLE 285-289 -/
def cpus : List Cpu := [
  ⟨['M', 'N', '1', '6', '1', '0'], MN1610_PAGES⟩,
  ⟨['M', 'N', '1', '6', '1', '3'], MN1613_PAGES⟩,
  ⟨['M', 'N', '1', '6', '1', '3', 'A'], MN1613_PAGES⟩]

theorem TABLE_COMMON_INDEX_COMMON (n : Nat) (x : List String) : PageOk ⟨n, x, TABLE_COMMON, INDEX_COMMON⟩ :=
  pageB_sound ⟨n, x, TABLE_COMMON, INDEX_COMMON⟩ (show pageB ⟨0, [], TABLE_COMMON, INDEX_COMMON⟩ = true by decide +kernel)

theorem TABLE_MN1610_INDEX_MN1610 (n : Nat) (x : List String) : PageOk ⟨n, x, TABLE_MN1610, INDEX_MN1610⟩ :=
  pageB_sound ⟨n, x, TABLE_MN1610, INDEX_MN1610⟩ (show pageB ⟨0, [], TABLE_MN1610, INDEX_MN1610⟩ = true by decide +kernel)

theorem TABLE_MN1613_INDEX_MN1613 (n : Nat) (x : List String) : PageOk ⟨n, x, TABLE_MN1613, INDEX_MN1613⟩ :=
  pageB_sound ⟨n, x, TABLE_MN1613, INDEX_MN1613⟩ (show pageB ⟨0, [], TABLE_MN1613, INDEX_MN1613⟩ = true by decide +kernel)

theorem MN1610_PAGES_ok : ∀ p ∈ MN1610_PAGES, PageOk p :=
  List.forall_mem_cons.mpr <| And.intro (TABLE_COMMON_INDEX_COMMON _ _) <| List.forall_mem_cons.mpr <| And.intro (TABLE_MN1610_INDEX_MN1610 _ _) nofun

theorem MN1613_PAGES_ok : ∀ p ∈ MN1613_PAGES, PageOk p :=
  List.forall_mem_cons.mpr <| And.intro (TABLE_COMMON_INDEX_COMMON _ _) <| List.forall_mem_cons.mpr <| And.intro (TABLE_MN1613_INDEX_MN1613 _ _) <| List.forall_mem_cons.mpr <| And.intro (TABLE_MN1610_INDEX_MN1610 _ _) nofun

theorem cpus_ok : ∀ c ∈ cpus, ∀ p ∈ c.pages, PageOk p :=
  List.forall_mem_cons.mpr <| And.intro MN1610_PAGES_ok <| List.forall_mem_cons.mpr <| And.intro MN1613_PAGES_ok <| List.forall_mem_cons.mpr <| And.intro MN1613_PAGES_ok nofun

end Libasm.Tables.Mn1610
