import Verif.Tables.Row
/-
Generated by tools/gen_tables.py from src/table_i8080.cpp: names, codes, operands and indexes as written
there. Do not edit.
-/
namespace Libasm.Tables.I8080
open Table

/-- src/table_i8080.cpp:35-114 -/
def TABLE_I8080 : List Row := [
  ⟨0x0, ['N', 'O', 'P'], ["E0"]⟩,
  ⟨0x1, ['L', 'X', 'I'], ["E2", "M_PTR", "M_IM16"]⟩,
  ⟨0x9, ['D', 'A', 'D'], ["E1", "M_PTR"]⟩,
  ⟨0x2, ['S', 'T', 'A', 'X'], ["E1", "M_IDX"]⟩,
  ⟨0x22, ['S', 'H', 'L', 'D'], ["E1", "M_ABS"]⟩,
  ⟨0x32, ['S', 'T', 'A'], ["E1", "M_ABS"]⟩,
  ⟨0xa, ['L', 'D', 'A', 'X'], ["E1", "M_IDX"]⟩,
  ⟨0x2a, ['L', 'H', 'L', 'D'], ["E1", "M_ABS"]⟩,
  ⟨0x3a, ['L', 'D', 'A'], ["E1", "M_ABS"]⟩,
  ⟨0x3, ['I', 'N', 'X'], ["E1", "M_PTR"]⟩,
  ⟨0xb, ['D', 'C', 'X'], ["E1", "M_PTR"]⟩,
  ⟨0x4, ['I', 'N', 'R'], ["E1", "M_DST"]⟩,
  ⟨0x5, ['D', 'C', 'R'], ["E1", "M_DST"]⟩,
  ⟨0x6, ['M', 'V', 'I'], ["E2", "M_DST", "M_IM8"]⟩,
  ⟨0x7, ['R', 'L', 'C'], ["E0"]⟩,
  ⟨0xf, ['R', 'R', 'C'], ["E0"]⟩,
  ⟨0x17, ['R', 'A', 'L'], ["E0"]⟩,
  ⟨0x1f, ['R', 'A', 'R'], ["E0"]⟩,
  ⟨0x27, ['D', 'A', 'A'], ["E0"]⟩,
  ⟨0x2f, ['C', 'M', 'A'], ["E0"]⟩,
  ⟨0x37, ['S', 'T', 'C'], ["E0"]⟩,
  ⟨0x3f, ['C', 'M', 'C'], ["E0"]⟩,
  ⟨0x76, ['H', 'L', 'T'], ["E0"]⟩,
  ⟨0x40, ['M', 'O', 'V'], ["E2", "M_DST", "M_SRC"]⟩,
  ⟨0x80, ['A', 'D', 'D'], ["E1", "M_SRC"]⟩,
  ⟨0x88, ['A', 'D', 'C'], ["E1", "M_SRC"]⟩,
  ⟨0x90, ['S', 'U', 'B'], ["E1", "M_SRC"]⟩,
  ⟨0x98, ['S', 'B', 'B'], ["E1", "M_SRC"]⟩,
  ⟨0xa0, ['A', 'N', 'A'], ["E1", "M_SRC"]⟩,
  ⟨0xa8, ['X', 'R', 'A'], ["E1", "M_SRC"]⟩,
  ⟨0xb0, ['O', 'R', 'A'], ["E1", "M_SRC"]⟩,
  ⟨0xb8, ['C', 'M', 'P'], ["E1", "M_SRC"]⟩,
  ⟨0xc0, ['R', 'N', 'Z'], ["E0"]⟩,
  ⟨0xc8, ['R', 'Z'], ["E0"]⟩,
  ⟨0xd0, ['R', 'N', 'C'], ["E0"]⟩,
  ⟨0xd8, ['R', 'C'], ["E0"]⟩,
  ⟨0xe0, ['R', 'P', 'O'], ["E0"]⟩,
  ⟨0xe8, ['R', 'P', 'E'], ["E0"]⟩,
  ⟨0xf0, ['R', 'P'], ["E0"]⟩,
  ⟨0xf8, ['R', 'M'], ["E0"]⟩,
  ⟨0xc1, ['P', 'O', 'P'], ["E1", "M_STK"]⟩,
  ⟨0xc9, ['R', 'E', 'T'], ["E0"]⟩,
  ⟨0xe9, ['P', 'C', 'H', 'L'], ["E0"]⟩,
  ⟨0xf9, ['S', 'P', 'H', 'L'], ["E0"]⟩,
  ⟨0xc2, ['J', 'N', 'Z'], ["E1", "M_ABS"]⟩,
  ⟨0xca, ['J', 'Z'], ["E1", "M_ABS"]⟩,
  ⟨0xd2, ['J', 'N', 'C'], ["E1", "M_ABS"]⟩,
  ⟨0xda, ['J', 'C'], ["E1", "M_ABS"]⟩,
  ⟨0xe2, ['J', 'P', 'O'], ["E1", "M_ABS"]⟩,
  ⟨0xea, ['J', 'P', 'E'], ["E1", "M_ABS"]⟩,
  ⟨0xf2, ['J', 'P'], ["E1", "M_ABS"]⟩,
  ⟨0xfa, ['J', 'M'], ["E1", "M_ABS"]⟩,
  ⟨0xc3, ['J', 'M', 'P'], ["E1", "M_ABS"]⟩,
  ⟨0xd3, ['O', 'U', 'T'], ["E1", "M_IOA"]⟩,
  ⟨0xdb, ['I', 'N'], ["E1", "M_IOA"]⟩,
  ⟨0xe3, ['X', 'T', 'H', 'L'], ["E0"]⟩,
  ⟨0xeb, ['X', 'C', 'H', 'G'], ["E0"]⟩,
  ⟨0xf3, ['D', 'I'], ["E0"]⟩,
  ⟨0xfb, ['E', 'I'], ["E0"]⟩,
  ⟨0xc4, ['C', 'N', 'Z'], ["E1", "M_ABS"]⟩,
  ⟨0xcc, ['C', 'Z'], ["E1", "M_ABS"]⟩,
  ⟨0xd4, ['C', 'N', 'C'], ["E1", "M_ABS"]⟩,
  ⟨0xdc, ['C', 'C'], ["E1", "M_ABS"]⟩,
  ⟨0xe4, ['C', 'P', 'O'], ["E1", "M_ABS"]⟩,
  ⟨0xec, ['C', 'P', 'E'], ["E1", "M_ABS"]⟩,
  ⟨0xf4, ['C', 'P'], ["E1", "M_ABS"]⟩,
  ⟨0xfc, ['C', 'M'], ["E1", "M_ABS"]⟩,
  ⟨0xc5, ['P', 'U', 'S', 'H'], ["E1", "M_STK"]⟩,
  ⟨0xcd, ['C', 'A', 'L', 'L'], ["E1", "M_ABS"]⟩,
  ⟨0xc6, ['A', 'D', 'I'], ["E1", "M_IM8"]⟩,
  ⟨0xce, ['A', 'C', 'I'], ["E1", "M_IM8"]⟩,
  ⟨0xd6, ['S', 'U', 'I'], ["E1", "M_IM8"]⟩,
  ⟨0xde, ['S', 'B', 'I'], ["E1", "M_IM8"]⟩,
  ⟨0xe6, ['A', 'N', 'I'], ["E1", "M_IM8"]⟩,
  ⟨0xee, ['X', 'R', 'I'], ["E1", "M_IM8"]⟩,
  ⟨0xf6, ['O', 'R', 'I'], ["E1", "M_IM8"]⟩,
  ⟨0xfe, ['C', 'P', 'I'], ["E1", "M_IM8"]⟩,
  ⟨0xc7, ['R', 'S', 'T'], ["E1", "M_VEC"]⟩]

/-- src/table_i8080.cpp:116-195 -/
def INDEX_I8080 : List Nat := [
  70, 25, 24, 69, 28, 73, 68, 62, 66, 19, 21, 31, 61, 59, 65, 64,
  76, 63, 60, 18, 2, 12, 10, 57, 58, 22, 54, 11, 9, 47, 51, 52,
  46, 44, 50, 49, 48, 45, 8, 6, 7, 1, 23, 13, 0, 30, 75, 53,
  42, 40, 67, 16, 17, 35, 41, 14, 39, 34, 32, 38, 37, 36, 15, 77,
  33, 27, 72, 4, 43, 5, 3, 20, 26, 71, 56, 29, 74, 55]

/-- src/table_i8080.cpp:197-268 -/
def TABLE_Z8080 : List Row := [
  ⟨0x0, ['N', 'O', 'P'], ["E0"]⟩,
  ⟨0x1, ['L', 'D'], ["E2", "M_PTR", "M_IM16"]⟩,
  ⟨0x9, ['A', 'D', 'D'], ["E2", "R_HL", "M_PTR"]⟩,
  ⟨0x2, ['L', 'D'], ["E2", "M_IDX", "R_A"]⟩,
  ⟨0xa, ['L', 'D'], ["E2", "R_A", "M_IDX"]⟩,
  ⟨0x22, ['L', 'D'], ["E2", "M_ABS", "R_HL"]⟩,
  ⟨0x2a, ['L', 'D'], ["E2", "R_HL", "M_ABS"]⟩,
  ⟨0x32, ['L', 'D'], ["E2", "M_ABS", "R_A"]⟩,
  ⟨0x3a, ['L', 'D'], ["E2", "R_A", "M_ABS"]⟩,
  ⟨0x3, ['I', 'N', 'C'], ["E1", "M_PTR"]⟩,
  ⟨0xb, ['D', 'E', 'C'], ["E1", "M_PTR"]⟩,
  ⟨0x4, ['I', 'N', 'C'], ["E1", "M_DST"]⟩,
  ⟨0x5, ['D', 'E', 'C'], ["E1", "M_DST"]⟩,
  ⟨0x6, ['L', 'D'], ["E2", "M_DST", "M_IM8"]⟩,
  ⟨0x7, ['R', 'L', 'C', 'A'], ["E0"]⟩,
  ⟨0xf, ['R', 'R', 'C', 'A'], ["E0"]⟩,
  ⟨0x17, ['R', 'L', 'A'], ["E0"]⟩,
  ⟨0x1f, ['R', 'R', 'A'], ["E0"]⟩,
  ⟨0x27, ['D', 'A', 'A'], ["E0"]⟩,
  ⟨0x2f, ['C', 'P', 'L'], ["E0"]⟩,
  ⟨0x37, ['S', 'C', 'F'], ["E0"]⟩,
  ⟨0x3f, ['C', 'C', 'F'], ["E0"]⟩,
  ⟨0x76, ['H', 'A', 'L', 'T'], ["E0"]⟩,
  ⟨0x76, ['L', 'D'], ["U2", "I_HL", "I_HL"]⟩,
  ⟨0x40, ['L', 'D'], ["E2", "M_DST", "M_SRC"]⟩,
  ⟨0x80, ['A', 'D', 'D'], ["E2", "R_A", "M_SRC"]⟩,
  ⟨0x88, ['A', 'D', 'C'], ["E2", "R_A", "M_SRC"]⟩,
  ⟨0x90, ['S', 'U', 'B'], ["E2", "R_A", "M_SRC"]⟩,
  ⟨0x90, ['S', 'U', 'B'], ["E1", "M_SRC"]⟩,
  ⟨0x98, ['S', 'B', 'C'], ["E2", "R_A", "M_SRC"]⟩,
  ⟨0xa0, ['A', 'N', 'D'], ["E2", "R_A", "M_SRC"]⟩,
  ⟨0xa0, ['A', 'N', 'D'], ["E1", "M_SRC"]⟩,
  ⟨0xa8, ['X', 'O', 'R'], ["E2", "R_A", "M_SRC"]⟩,
  ⟨0xa8, ['X', 'O', 'R'], ["E1", "M_SRC"]⟩,
  ⟨0xb0, ['O', 'R'], ["E2", "R_A", "M_SRC"]⟩,
  ⟨0xb0, ['O', 'R'], ["E1", "M_SRC"]⟩,
  ⟨0xb8, ['C', 'P'], ["E2", "R_A", "M_SRC"]⟩,
  ⟨0xb8, ['C', 'P'], ["E1", "M_SRC"]⟩,
  ⟨0xc0, ['R', 'E', 'T'], ["E1", "M_CC"]⟩,
  ⟨0xc1, ['P', 'O', 'P'], ["E1", "M_STK"]⟩,
  ⟨0xc9, ['R', 'E', 'T'], ["E0"]⟩,
  ⟨0xf9, ['L', 'D'], ["E2", "R_SP", "R_HL"]⟩,
  ⟨0xc2, ['J', 'P'], ["E2", "M_CC", "M_IM16"]⟩,
  ⟨0xc3, ['J', 'P'], ["E1", "M_IM16"]⟩,
  ⟨0xe9, ['J', 'P'], ["E1", "I_HL"]⟩,
  ⟨0xd3, ['O', 'U', 'T'], ["E2", "M_IOA", "R_A"]⟩,
  ⟨0xdb, ['I', 'N'], ["E2", "R_A", "M_IOA"]⟩,
  ⟨0xe3, ['E', 'X'], ["E2", "I_SP", "R_HL"]⟩,
  ⟨0xe3, ['E', 'X'], ["E2", "R_HL", "I_SP"]⟩,
  ⟨0xeb, ['E', 'X'], ["E2", "R_DE", "R_HL"]⟩,
  ⟨0xeb, ['E', 'X'], ["E2", "R_HL", "R_DE"]⟩,
  ⟨0xf3, ['D', 'I'], ["E0"]⟩,
  ⟨0xfb, ['E', 'I'], ["E0"]⟩,
  ⟨0xc4, ['C', 'A', 'L', 'L'], ["E2", "M_CC", "M_IM16"]⟩,
  ⟨0xc5, ['P', 'U', 'S', 'H'], ["E1", "M_STK"]⟩,
  ⟨0xcd, ['C', 'A', 'L', 'L'], ["E1", "M_IM16"]⟩,
  ⟨0xc6, ['A', 'D', 'D'], ["E2", "R_A", "M_IM8"]⟩,
  ⟨0xce, ['A', 'D', 'C'], ["E2", "R_A", "M_IM8"]⟩,
  ⟨0xd6, ['S', 'U', 'B'], ["E2", "R_A", "M_IM8"]⟩,
  ⟨0xd6, ['S', 'U', 'B'], ["E1", "M_IM8"]⟩,
  ⟨0xde, ['S', 'B', 'C'], ["E2", "R_A", "M_IM8"]⟩,
  ⟨0xe6, ['A', 'N', 'D'], ["E2", "R_A", "M_IM8"]⟩,
  ⟨0xe6, ['A', 'N', 'D'], ["E1", "M_IM8"]⟩,
  ⟨0xee, ['X', 'O', 'R'], ["E2", "R_A", "M_IM8"]⟩,
  ⟨0xee, ['X', 'O', 'R'], ["E1", "M_IM8"]⟩,
  ⟨0xf6, ['O', 'R'], ["E2", "R_A", "M_IM8"]⟩,
  ⟨0xf6, ['O', 'R'], ["E1", "M_IM8"]⟩,
  ⟨0xfe, ['C', 'P'], ["E2", "R_A", "M_IM8"]⟩,
  ⟨0xfe, ['C', 'P'], ["E1", "M_IM8"]⟩,
  ⟨0xc7, ['R', 'S', 'T'], ["E1", "M_VEC"]⟩]

/-- src/table_i8080.cpp:270-341 -/
def INDEX_Z8080 : List Nat := [
  26, 57, 2, 25, 56, 30, 31, 61, 62, 53, 55, 21, 36, 37, 67, 68,
  19, 18, 10, 12, 51, 52, 47, 48, 49, 50, 22, 46, 9, 11, 42, 43,
  44, 1, 3, 4, 5, 6, 7, 8, 13, 23, 24, 41, 0, 34, 35, 65,
  66, 45, 39, 54, 38, 40, 16, 14, 17, 15, 69, 29, 60, 20, 27, 28,
  58, 59, 32, 33, 63, 64]

/-- src/table_i8080.cpp:343-346 -/
def TABLE_I8085 : List Row := [
  ⟨0x20, ['R', 'I', 'M'], ["E0"]⟩,
  ⟨0x30, ['S', 'I', 'M'], ["E0"]⟩]

/-- src/table_i8080.cpp:348-351 -/
def INDEX_I8085 : List Nat := [
  0, 1]

/-- src/table_i8080.cpp:353-356 -/
def TABLE_Z8085 : List Row := [
  ⟨0x20, ['L', 'D'], ["E2", "R_A", "R_IM"]⟩,
  ⟨0x30, ['L', 'D'], ["E2", "R_IM", "R_A"]⟩]

/-- src/table_i8080.cpp:358-361 -/
def INDEX_Z8085 : List Nat := [
  0, 1]

/-- src/table_i8080.cpp:363-366 -/
def TABLE_V30EMU : List Row := [
  ⟨0xed, ['C', 'A', 'L', 'L', 'N'], ["E1", "M_IM8"]⟩,
  ⟨0xfd, ['R', 'E', 'T', 'E', 'M'], ["E0"]⟩]

/-- src/table_i8080.cpp:368-371 -/
def INDEX_V30EMU : List Nat := [
  0, 1]

/-- src/table_i8080.cpp:377-379 -/
def I8080_PAGES : List (Page Row) := [
  ⟨0x0, [], TABLE_I8080, INDEX_I8080⟩]

/-- src/table_i8080.cpp:381-383 -/
def Z8080_PAGES : List (Page Row) := [
  ⟨0x0, [], TABLE_Z8080, INDEX_Z8080⟩]

/-- src/table_i8080.cpp:385-388 -/
def I8085_PAGES : List (Page Row) := [
  ⟨0x0, [], TABLE_I8080, INDEX_I8080⟩,
  ⟨0x0, [], TABLE_I8085, INDEX_I8085⟩]

/-- src/table_i8080.cpp:390-393 -/
def Z8085_PAGES : List (Page Row) := [
  ⟨0x0, [], TABLE_Z8080, INDEX_Z8080⟩,
  ⟨0x0, [], TABLE_Z8085, INDEX_Z8085⟩]

/-- src/table_i8080.cpp:395-398 -/
def V30EMU_PAGES : List (Page Row) := [
  ⟨0x0, [], TABLE_I8080, INDEX_I8080⟩,
  ⟨0xed, [], TABLE_V30EMU, INDEX_V30EMU⟩]

/-- src/table_i8080.cpp:400-403 -/
def Z30EMU_PAGES : List (Page Row) := [
  ⟨0x0, [], TABLE_Z8080, INDEX_Z8080⟩,
  ⟨0xed, [], TABLE_V30EMU, INDEX_V30EMU⟩]

/-- The processors of src/table_i8080.cpp: INTEL_TABLE 407-411, ZILOG_TABLE 413-417 -/
def cpus : List Cpu := [
  ⟨['8', '0', '8', '0'], I8080_PAGES⟩,
  ⟨['8', '0', '8', '5'], I8085_PAGES⟩,
  ⟨['V', '3', '0', 'E', 'M', 'U'], V30EMU_PAGES⟩,
  ⟨['8', '0', '8', '0'], Z8080_PAGES⟩,
  ⟨['8', '0', '8', '5'], Z8085_PAGES⟩,
  ⟨['V', '3', '0', 'E', 'M', 'U'], Z30EMU_PAGES⟩]

theorem TABLE_I8080_INDEX_I8080 (n : Nat) (x : List String) : PageOk ⟨n, x, TABLE_I8080, INDEX_I8080⟩ :=
  pageB_sound ⟨n, x, TABLE_I8080, INDEX_I8080⟩ (show pageB ⟨0, [], TABLE_I8080, INDEX_I8080⟩ = true by decide +kernel)

theorem TABLE_Z8080_INDEX_Z8080 (n : Nat) (x : List String) : PageOk ⟨n, x, TABLE_Z8080, INDEX_Z8080⟩ :=
  pageB_sound ⟨n, x, TABLE_Z8080, INDEX_Z8080⟩ (show pageB ⟨0, [], TABLE_Z8080, INDEX_Z8080⟩ = true by decide +kernel)

theorem TABLE_I8085_INDEX_I8085 (n : Nat) (x : List String) : PageOk ⟨n, x, TABLE_I8085, INDEX_I8085⟩ :=
  pageB_sound ⟨n, x, TABLE_I8085, INDEX_I8085⟩ (show pageB ⟨0, [], TABLE_I8085, INDEX_I8085⟩ = true by decide +kernel)

theorem TABLE_Z8085_INDEX_Z8085 (n : Nat) (x : List String) : PageOk ⟨n, x, TABLE_Z8085, INDEX_Z8085⟩ :=
  pageB_sound ⟨n, x, TABLE_Z8085, INDEX_Z8085⟩ (show pageB ⟨0, [], TABLE_Z8085, INDEX_Z8085⟩ = true by decide +kernel)

theorem TABLE_V30EMU_INDEX_V30EMU (n : Nat) (x : List String) : PageOk ⟨n, x, TABLE_V30EMU, INDEX_V30EMU⟩ :=
  pageB_sound ⟨n, x, TABLE_V30EMU, INDEX_V30EMU⟩ (show pageB ⟨0, [], TABLE_V30EMU, INDEX_V30EMU⟩ = true by decide +kernel)

theorem I8080_PAGES_ok : ∀ p ∈ I8080_PAGES, PageOk p :=
  List.forall_mem_cons.mpr <| And.intro (TABLE_I8080_INDEX_I8080 _ _) nofun

theorem Z8080_PAGES_ok : ∀ p ∈ Z8080_PAGES, PageOk p :=
  List.forall_mem_cons.mpr <| And.intro (TABLE_Z8080_INDEX_Z8080 _ _) nofun

theorem I8085_PAGES_ok : ∀ p ∈ I8085_PAGES, PageOk p :=
  List.forall_mem_cons.mpr <| And.intro (TABLE_I8080_INDEX_I8080 _ _) <| List.forall_mem_cons.mpr <| And.intro (TABLE_I8085_INDEX_I8085 _ _) nofun

theorem Z8085_PAGES_ok : ∀ p ∈ Z8085_PAGES, PageOk p :=
  List.forall_mem_cons.mpr <| And.intro (TABLE_Z8080_INDEX_Z8080 _ _) <| List.forall_mem_cons.mpr <| And.intro (TABLE_Z8085_INDEX_Z8085 _ _) nofun

theorem V30EMU_PAGES_ok : ∀ p ∈ V30EMU_PAGES, PageOk p :=
  List.forall_mem_cons.mpr <| And.intro (TABLE_I8080_INDEX_I8080 _ _) <| List.forall_mem_cons.mpr <| And.intro (TABLE_V30EMU_INDEX_V30EMU _ _) nofun

theorem Z30EMU_PAGES_ok : ∀ p ∈ Z30EMU_PAGES, PageOk p :=
  List.forall_mem_cons.mpr <| And.intro (TABLE_Z8080_INDEX_Z8080 _ _) <| List.forall_mem_cons.mpr <| And.intro (TABLE_V30EMU_INDEX_V30EMU _ _) nofun

theorem cpus_ok : ∀ c ∈ cpus, ∀ p ∈ c.pages, PageOk p :=
  List.forall_mem_cons.mpr <| And.intro I8080_PAGES_ok <| List.forall_mem_cons.mpr <| And.intro I8085_PAGES_ok <| List.forall_mem_cons.mpr <| And.intro V30EMU_PAGES_ok <| List.forall_mem_cons.mpr <| And.intro Z8080_PAGES_ok <| List.forall_mem_cons.mpr <| And.intro Z8085_PAGES_ok <| List.forall_mem_cons.mpr <| And.intro Z30EMU_PAGES_ok nofun

end Libasm.Tables.I8080
