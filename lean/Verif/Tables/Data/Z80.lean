import Verif.Tables.Row
/-
Generated by tools/gen_tables.py from src/table_z80.cpp: names, codes, operands and indexes as written
there. Do not edit.
-/
namespace Libasm.Tables.Z80
open Table

/-- src/table_z80.cpp:36-107 -/
def TABLE_I8080 : List Row := [
  ⟨0x0, ['N', 'O', 'P'], ["E0"]⟩,
  ⟨0x1, ['L', 'D'], ["E2", "M_R16", "M_IM16"]⟩,
  ⟨0x9, ['A', 'D', 'D'], ["E2", "R_HL", "M_R16"]⟩,
  ⟨0x2, ['L', 'D'], ["E2", "I_PTR", "R_A"]⟩,
  ⟨0xa, ['L', 'D'], ["E2", "R_A", "I_PTR"]⟩,
  ⟨0x22, ['L', 'D'], ["E2", "M_ABS", "R_HL"]⟩,
  ⟨0x2a, ['L', 'D'], ["E2", "R_HL", "M_ABS"]⟩,
  ⟨0x32, ['L', 'D'], ["E2", "M_ABS", "R_A"]⟩,
  ⟨0x3a, ['L', 'D'], ["E2", "R_A", "M_ABS"]⟩,
  ⟨0x3, ['I', 'N', 'C'], ["E1", "M_R16"]⟩,
  ⟨0xb, ['D', 'E', 'C'], ["E1", "M_R16"]⟩,
  ⟨0x4, ['I', 'N', 'C'], ["E1", "M_DST"]⟩,
  ⟨0x5, ['D', 'E', 'C'], ["E1", "M_DST"]⟩,
  ⟨0x6, ['L', 'D'], ["E2", "M_DST", "M_IM8"]⟩,
  ⟨0x7, ['R', 'L', 'C', 'A'], ["E0"]⟩,
  ⟨0xf, ['R', 'R', 'C', 'A'], ["E0"]⟩,
  ⟨0x17, ['R', 'L', 'A'], ["E0"]⟩,
  ⟨0x1f, ['R', 'R', 'A'], ["E0"]⟩,
  ⟨0x27, ['D', 'A', 'A'], ["E0"]⟩,
  ⟨0x2f, ['C', 'P', 'L'], ["E0"]⟩,
  ⟨0x37, ['S', 'C', 'F'], ["E0"]⟩,
  ⟨0x3f, ['C', 'C', 'F'], ["E0"]⟩,
  ⟨0x76, ['H', 'A', 'L', 'T'], ["E0"]⟩,
  ⟨0x40, ['L', 'D'], ["E2", "M_DST", "M_SR8"]⟩,
  ⟨0x40, ['L', 'D'], ["E2", "M_DR8", "M_SRC"]⟩,
  ⟨0x80, ['A', 'D', 'D'], ["E2", "R_A", "M_SRC"]⟩,
  ⟨0x88, ['A', 'D', 'C'], ["E2", "R_A", "M_SRC"]⟩,
  ⟨0x90, ['S', 'U', 'B'], ["E2", "R_A", "M_SRC"]⟩,
  ⟨0x90, ['S', 'U', 'B'], ["E1", "M_SRC"]⟩,
  ⟨0x98, ['S', 'B', 'C'], ["E2", "R_A", "M_SRC"]⟩,
  ⟨0xa0, ['A', 'N', 'D'], ["E2", "R_A", "M_SRC"]⟩,
  ⟨0xa0, ['A', 'N', 'D'], ["E1", "M_SRC"]⟩,
  ⟨0xa8, ['X', 'O', 'R'], ["E2", "R_A", "M_SRC"]⟩,
  ⟨0xa8, ['X', 'O', 'R'], ["E1", "M_SRC"]⟩,
  ⟨0xb0, ['O', 'R'], ["E2", "R_A", "M_SRC"]⟩,
  ⟨0xb0, ['O', 'R'], ["E1", "M_SRC"]⟩,
  ⟨0xb8, ['C', 'P'], ["E2", "R_A", "M_SRC"]⟩,
  ⟨0xb8, ['C', 'P'], ["E1", "M_SRC"]⟩,
  ⟨0xc0, ['R', 'E', 'T'], ["E1", "M_CC8"]⟩,
  ⟨0xc1, ['P', 'O', 'P'], ["E1", "M_STK"]⟩,
  ⟨0xc9, ['R', 'E', 'T'], ["E0"]⟩,
  ⟨0xf9, ['L', 'D'], ["E2", "R_SP", "R_HL"]⟩,
  ⟨0xc2, ['J', 'P'], ["E2", "M_CC8", "M_IM16"]⟩,
  ⟨0xc3, ['J', 'P'], ["E1", "M_IM16"]⟩,
  ⟨0xe9, ['J', 'P'], ["E1", "I_HL"]⟩,
  ⟨0xd3, ['O', 'U', 'T'], ["E2", "M_IOA", "R_A"]⟩,
  ⟨0xdb, ['I', 'N'], ["E2", "R_A", "M_IOA"]⟩,
  ⟨0xe3, ['E', 'X'], ["E2", "I_SP", "R_HL"]⟩,
  ⟨0xe3, ['E', 'X'], ["E2", "R_HL", "I_SP"]⟩,
  ⟨0xeb, ['E', 'X'], ["E2", "R_DE", "R_HL"]⟩,
  ⟨0xeb, ['E', 'X'], ["E2", "R_HL", "R_DE"]⟩,
  ⟨0xf3, ['D', 'I'], ["E0"]⟩,
  ⟨0xfb, ['E', 'I'], ["E0"]⟩,
  ⟨0xc4, ['C', 'A', 'L', 'L'], ["E2", "M_CC8", "M_IM16"]⟩,
  ⟨0xc5, ['P', 'U', 'S', 'H'], ["E1", "M_STK"]⟩,
  ⟨0xcd, ['C', 'A', 'L', 'L'], ["E1", "M_IM16"]⟩,
  ⟨0xc6, ['A', 'D', 'D'], ["E2", "R_A", "M_IM8"]⟩,
  ⟨0xce, ['A', 'D', 'C'], ["E2", "R_A", "M_IM8"]⟩,
  ⟨0xd6, ['S', 'U', 'B'], ["E2", "R_A", "M_IM8"]⟩,
  ⟨0xd6, ['S', 'U', 'B'], ["E1", "M_IM8"]⟩,
  ⟨0xde, ['S', 'B', 'C'], ["E2", "R_A", "M_IM8"]⟩,
  ⟨0xe6, ['A', 'N', 'D'], ["E2", "R_A", "M_IM8"]⟩,
  ⟨0xe6, ['A', 'N', 'D'], ["E1", "M_IM8"]⟩,
  ⟨0xee, ['X', 'O', 'R'], ["E2", "R_A", "M_IM8"]⟩,
  ⟨0xee, ['X', 'O', 'R'], ["E1", "M_IM8"]⟩,
  ⟨0xf6, ['O', 'R'], ["E2", "R_A", "M_IM8"]⟩,
  ⟨0xf6, ['O', 'R'], ["E1", "M_IM8"]⟩,
  ⟨0xfe, ['C', 'P'], ["E2", "R_A", "M_IM8"]⟩,
  ⟨0xfe, ['C', 'P'], ["E1", "M_IM8"]⟩,
  ⟨0xc7, ['R', 'S', 'T'], ["E1", "M_VEC"]⟩]

/-- src/table_z80.cpp:109-180 -/
def INDEX_I8080 : List Nat := [
  26, 57, 2, 25, 56, 30, 31, 61, 62, 53, 55, 21, 36, 37, 67, 68,
  19, 18, 10, 12, 51, 52, 47, 48, 49, 50, 22, 46, 9, 11, 42, 43,
  44, 1, 3, 4, 5, 6, 7, 8, 13, 23, 24, 41, 0, 34, 35, 65,
  66, 45, 39, 54, 38, 40, 16, 14, 17, 15, 69, 29, 60, 20, 27, 28,
  58, 59, 32, 33, 63, 64]

/-- src/table_z80.cpp:182-188 -/
def TABLE_Z80 : List Row := [
  ⟨0x8, ['E', 'X'], ["E2", "R_AF", "R_AFP"]⟩,
  ⟨0x10, ['D', 'J', 'N', 'Z'], ["E1", "M_REL"]⟩,
  ⟨0x20, ['J', 'R'], ["E2", "M_CC4", "M_REL"]⟩,
  ⟨0x18, ['J', 'R'], ["E1", "M_REL"]⟩,
  ⟨0xd9, ['E', 'X', 'X'], ["E0"]⟩]

/-- src/table_z80.cpp:190-196 -/
def INDEX_Z80 : List Nat := [
  1, 0, 4, 2, 3]

/-- src/table_z80.cpp:198-219 -/
def TABLE_CB : List Row := [
  ⟨0x0, ['R', 'L', 'C'], ["E1", "M_SRC"]⟩,
  ⟨0x8, ['R', 'R', 'C'], ["E1", "M_SRC"]⟩,
  ⟨0x10, ['R', 'L'], ["E1", "M_SRC"]⟩,
  ⟨0x18, ['R', 'R'], ["E1", "M_SRC"]⟩,
  ⟨0x20, ['S', 'L', 'A'], ["E1", "M_SRC"]⟩,
  ⟨0x28, ['S', 'R', 'A'], ["E1", "M_SRC"]⟩,
  ⟨0x38, ['S', 'R', 'L'], ["E1", "M_SRC"]⟩,
  ⟨0x40, ['B', 'I', 'T'], ["E2", "M_BIT", "M_SRC"]⟩,
  ⟨0x80, ['R', 'E', 'S'], ["E2", "M_BIT", "M_SRC"]⟩,
  ⟨0xc0, ['S', 'E', 'T'], ["E2", "M_BIT", "M_SRC"]⟩,
  ⟨0x6, ['R', 'L', 'C'], ["I1", "M_IDX"]⟩,
  ⟨0xe, ['R', 'R', 'C'], ["I1", "M_IDX"]⟩,
  ⟨0x16, ['R', 'L'], ["I1", "M_IDX"]⟩,
  ⟨0x1e, ['R', 'R'], ["I1", "M_IDX"]⟩,
  ⟨0x26, ['S', 'L', 'A'], ["I1", "M_IDX"]⟩,
  ⟨0x2e, ['S', 'R', 'A'], ["I1", "M_IDX"]⟩,
  ⟨0x3e, ['S', 'R', 'L'], ["I1", "M_IDX"]⟩,
  ⟨0x46, ['B', 'I', 'T'], ["I2", "M_BIT", "M_IDX"]⟩,
  ⟨0x86, ['R', 'E', 'S'], ["I2", "M_BIT", "M_IDX"]⟩,
  ⟨0xc6, ['S', 'E', 'T'], ["I2", "M_BIT", "M_IDX"]⟩]

/-- src/table_z80.cpp:221-242 -/
def INDEX_CB : List Nat := [
  7, 17, 8, 18, 2, 12, 0, 10, 3, 13, 1, 11, 9, 19, 4, 14,
  5, 15, 6, 16]

/-- src/table_z80.cpp:244-277 -/
def TABLE_ED : List Row := [
  ⟨0x40, ['I', 'N'], ["E2", "M_DR8", "I_C"]⟩,
  ⟨0x41, ['O', 'U', 'T'], ["E2", "I_C", "M_DR8"]⟩,
  ⟨0x42, ['S', 'B', 'C'], ["E2", "R_HL", "M_R16"]⟩,
  ⟨0x4a, ['A', 'D', 'C'], ["E2", "R_HL", "M_R16"]⟩,
  ⟨0x43, ['L', 'D'], ["E2", "M_ABS", "M_NOHL"]⟩,
  ⟨0x4b, ['L', 'D'], ["E2", "M_NOHL", "M_ABS"]⟩,
  ⟨0x44, ['N', 'E', 'G'], ["E0"]⟩,
  ⟨0x45, ['R', 'E', 'T', 'N'], ["E0"]⟩,
  ⟨0x4d, ['R', 'E', 'T', 'I'], ["E0"]⟩,
  ⟨0x46, ['I', 'M'], ["E1", "M_IMMD"]⟩,
  ⟨0x47, ['L', 'D'], ["E2", "R_I", "R_A"]⟩,
  ⟨0x4f, ['L', 'D'], ["E2", "R_R", "R_A"]⟩,
  ⟨0x57, ['L', 'D'], ["E2", "R_A", "R_I"]⟩,
  ⟨0x5f, ['L', 'D'], ["E2", "R_A", "R_R"]⟩,
  ⟨0x67, ['R', 'R', 'D'], ["E0"]⟩,
  ⟨0x6f, ['R', 'L', 'D'], ["E0"]⟩,
  ⟨0xa0, ['L', 'D', 'I'], ["E0"]⟩,
  ⟨0xa8, ['L', 'D', 'D'], ["E0"]⟩,
  ⟨0xb0, ['L', 'D', 'I', 'R'], ["E0"]⟩,
  ⟨0xb8, ['L', 'D', 'D', 'R'], ["E0"]⟩,
  ⟨0xa1, ['C', 'P', 'I'], ["E0"]⟩,
  ⟨0xa9, ['C', 'P', 'D'], ["E0"]⟩,
  ⟨0xb1, ['C', 'P', 'I', 'R'], ["E0"]⟩,
  ⟨0xb9, ['C', 'P', 'D', 'R'], ["E0"]⟩,
  ⟨0xa2, ['I', 'N', 'I'], ["E0"]⟩,
  ⟨0xaa, ['I', 'N', 'D'], ["E0"]⟩,
  ⟨0xb2, ['I', 'N', 'I', 'R'], ["E0"]⟩,
  ⟨0xba, ['I', 'N', 'D', 'R'], ["E0"]⟩,
  ⟨0xa3, ['O', 'U', 'T', 'I'], ["E0"]⟩,
  ⟨0xab, ['O', 'U', 'T', 'D'], ["E0"]⟩,
  ⟨0xb3, ['O', 'T', 'I', 'R'], ["E0"]⟩,
  ⟨0xbb, ['O', 'T', 'D', 'R'], ["E0"]⟩]

/-- src/table_z80.cpp:279-312 -/
def INDEX_ED : List Nat := [
  3, 21, 23, 20, 22, 9, 0, 25, 27, 24, 26, 4, 5, 10, 11, 12,
  13, 17, 19, 16, 18, 6, 31, 30, 1, 29, 28, 8, 7, 15, 14, 2]

/-- src/table_z80.cpp:314-345 -/
def TABLE_IX : List Row := [
  ⟨0x9, ['A', 'D', 'D'], ["E2", "R_IDX", "M_R16X"]⟩,
  ⟨0x21, ['L', 'D'], ["E2", "R_IDX", "M_IM16"]⟩,
  ⟨0x22, ['L', 'D'], ["E2", "M_ABS", "R_IDX"]⟩,
  ⟨0x2a, ['L', 'D'], ["E2", "R_IDX", "M_ABS"]⟩,
  ⟨0x23, ['I', 'N', 'C'], ["E1", "R_IDX"]⟩,
  ⟨0x2b, ['D', 'E', 'C'], ["E1", "R_IDX"]⟩,
  ⟨0x34, ['I', 'N', 'C'], ["E1", "M_IDX"]⟩,
  ⟨0x35, ['D', 'E', 'C'], ["E1", "M_IDX"]⟩,
  ⟨0x36, ['L', 'D'], ["E2", "M_IDX", "M_IM8"]⟩,
  ⟨0x46, ['L', 'D'], ["E2", "M_DR8", "M_IDX"]⟩,
  ⟨0x70, ['L', 'D'], ["E2", "M_IDX", "M_SR8"]⟩,
  ⟨0x86, ['A', 'D', 'D'], ["E2", "R_A", "M_IDX"]⟩,
  ⟨0x8e, ['A', 'D', 'C'], ["E2", "R_A", "M_IDX"]⟩,
  ⟨0x96, ['S', 'U', 'B'], ["E2", "R_A", "M_IDX"]⟩,
  ⟨0x96, ['S', 'U', 'B'], ["E1", "M_IDX"]⟩,
  ⟨0x9e, ['S', 'B', 'C'], ["E2", "R_A", "M_IDX"]⟩,
  ⟨0xa6, ['A', 'N', 'D'], ["E2", "R_A", "M_IDX"]⟩,
  ⟨0xa6, ['A', 'N', 'D'], ["E1", "M_IDX"]⟩,
  ⟨0xae, ['X', 'O', 'R'], ["E2", "R_A", "M_IDX"]⟩,
  ⟨0xae, ['X', 'O', 'R'], ["E1", "M_IDX"]⟩,
  ⟨0xb6, ['O', 'R'], ["E2", "R_A", "M_IDX"]⟩,
  ⟨0xb6, ['O', 'R'], ["E1", "M_IDX"]⟩,
  ⟨0xbe, ['C', 'P'], ["E2", "R_A", "M_IDX"]⟩,
  ⟨0xbe, ['C', 'P'], ["E1", "M_IDX"]⟩,
  ⟨0xcb, ['B', 'I', 'T'], ["E2", "T_IXB", "T_IXB"]⟩,
  ⟨0xe1, ['P', 'O', 'P'], ["E1", "R_IDX"]⟩,
  ⟨0xe9, ['J', 'P'], ["E1", "I_IDX"]⟩,
  ⟨0xf9, ['L', 'D'], ["E2", "R_SP", "R_IDX"]⟩,
  ⟨0xe3, ['E', 'X'], ["E2", "I_SP", "R_IDX"]⟩,
  ⟨0xe5, ['P', 'U', 'S', 'H'], ["E1", "R_IDX"]⟩]

/-- src/table_z80.cpp:347-378 -/
def INDEX_IX : List Nat := [
  12, 0, 11, 16, 17, 24, 22, 23, 5, 7, 28, 4, 6, 26, 1, 2,
  3, 8, 9, 10, 27, 20, 21, 25, 29, 15, 13, 14, 18, 19]

/-- src/table_z80.cpp:383-390 -/
def Z80_PAGES : List (Page Row) := [
  ⟨0x0, [], TABLE_I8080, INDEX_I8080⟩,
  ⟨0x0, [], TABLE_Z80, INDEX_Z80⟩,
  ⟨0xcb, [], TABLE_CB, INDEX_CB⟩,
  ⟨0xed, [], TABLE_ED, INDEX_ED⟩,
  ⟨0x0, ["TableZ80::PREFIX_IX"], TABLE_IX, INDEX_IX⟩,
  ⟨0x0, ["TableZ80::PREFIX_IY"], TABLE_IX, INDEX_IX⟩]

/-- The processors of src/table_z80.cpp: CPU_TABLE 394-396 -/
def cpus : List Cpu := [
  ⟨['Z', '8', '0'], Z80_PAGES⟩]

theorem TABLE_I8080_INDEX_I8080 (n : Nat) (x : List String) : PageOk ⟨n, x, TABLE_I8080, INDEX_I8080⟩ :=
  pageB_sound ⟨n, x, TABLE_I8080, INDEX_I8080⟩ (show pageB ⟨0, [], TABLE_I8080, INDEX_I8080⟩ = true by decide +kernel)

theorem TABLE_Z80_INDEX_Z80 (n : Nat) (x : List String) : PageOk ⟨n, x, TABLE_Z80, INDEX_Z80⟩ :=
  pageB_sound ⟨n, x, TABLE_Z80, INDEX_Z80⟩ (show pageB ⟨0, [], TABLE_Z80, INDEX_Z80⟩ = true by decide +kernel)

theorem TABLE_CB_INDEX_CB (n : Nat) (x : List String) : PageOk ⟨n, x, TABLE_CB, INDEX_CB⟩ :=
  pageB_sound ⟨n, x, TABLE_CB, INDEX_CB⟩ (show pageB ⟨0, [], TABLE_CB, INDEX_CB⟩ = true by decide +kernel)

theorem TABLE_ED_INDEX_ED (n : Nat) (x : List String) : PageOk ⟨n, x, TABLE_ED, INDEX_ED⟩ :=
  pageB_sound ⟨n, x, TABLE_ED, INDEX_ED⟩ (show pageB ⟨0, [], TABLE_ED, INDEX_ED⟩ = true by decide +kernel)

theorem TABLE_IX_INDEX_IX (n : Nat) (x : List String) : PageOk ⟨n, x, TABLE_IX, INDEX_IX⟩ :=
  pageB_sound ⟨n, x, TABLE_IX, INDEX_IX⟩ (show pageB ⟨0, [], TABLE_IX, INDEX_IX⟩ = true by decide +kernel)

theorem Z80_PAGES_ok : ∀ p ∈ Z80_PAGES, PageOk p :=
  List.forall_mem_cons.mpr <| And.intro (TABLE_I8080_INDEX_I8080 _ _) <| List.forall_mem_cons.mpr <| And.intro (TABLE_Z80_INDEX_Z80 _ _) <| List.forall_mem_cons.mpr <| And.intro (TABLE_CB_INDEX_CB _ _) <| List.forall_mem_cons.mpr <| And.intro (TABLE_ED_INDEX_ED _ _) <| List.forall_mem_cons.mpr <| And.intro (TABLE_IX_INDEX_IX _ _) <| List.forall_mem_cons.mpr <| And.intro (TABLE_IX_INDEX_IX _ _) nofun

theorem cpus_ok : ∀ c ∈ cpus, ∀ p ∈ c.pages, PageOk p :=
  List.forall_mem_cons.mpr <| And.intro Z80_PAGES_ok nofun

end Libasm.Tables.Z80
