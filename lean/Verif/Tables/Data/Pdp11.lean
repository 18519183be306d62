import Verif.Tables.Row
/-
Generated by tools/gen_tables.py from src/table_pdp11.cpp: names, codes, operands and indexes as written
there. Do not edit.
-/
namespace Libasm.Tables.Pdp11
open Table

/-- src/table_pdp11.cpp:34-120 -/
def TABLE_BASE : List Row := [
  ⟨0x1000, ['M', 'O', 'V'], ["E2", "SZ_WORD", "M_GENS", "P_7700", "M_GEND", "P_0077"]⟩,
  ⟨0x9000, ['M', 'O', 'V', 'B'], ["E2", "SZ_BYTE", "M_GENS", "P_7700", "M_GEND", "P_0077"]⟩,
  ⟨0x2000, ['C', 'M', 'P'], ["E2", "SZ_WORD", "M_GENS", "P_7700", "M_GENS", "P_0077"]⟩,
  ⟨0xa000, ['C', 'M', 'P', 'B'], ["E2", "SZ_BYTE", "M_GENS", "P_7700", "M_GENS", "P_0077"]⟩,
  ⟨0x3000, ['B', 'I', 'T'], ["E2", "SZ_WORD", "M_GENS", "P_7700", "M_GEND", "P_0077"]⟩,
  ⟨0xb000, ['B', 'I', 'T', 'B'], ["E2", "SZ_BYTE", "M_GENS", "P_7700", "M_GEND", "P_0077"]⟩,
  ⟨0x4000, ['B', 'I', 'C'], ["E2", "SZ_WORD", "M_GENS", "P_7700", "M_GEND", "P_0077"]⟩,
  ⟨0xc000, ['B', 'I', 'C', 'B'], ["E2", "SZ_BYTE", "M_GENS", "P_7700", "M_GEND", "P_0077"]⟩,
  ⟨0x5000, ['B', 'I', 'S'], ["E2", "SZ_WORD", "M_GENS", "P_7700", "M_GEND", "P_0077"]⟩,
  ⟨0xd000, ['B', 'I', 'S', 'B'], ["E2", "SZ_BYTE", "M_GENS", "P_7700", "M_GEND", "P_0077"]⟩,
  ⟨0x6000, ['A', 'D', 'D'], ["E2", "SZ_INTG", "M_GENS", "P_7700", "M_GEND", "P_0077"]⟩,
  ⟨0xe000, ['S', 'U', 'B'], ["E2", "SZ_INTG", "M_GENS", "P_7700", "M_GEND", "P_0077"]⟩,
  ⟨0x7800, ['X', 'O', 'R'], ["E2", "SZ_WORD", "M_GENR", "P_0700", "M_GEND", "P_0077"]⟩,
  ⟨0x40, ['J', 'M', 'P'], ["E1", "SZ_WORD", "M_GENA", "P_0077"]⟩,
  ⟨0xc0, ['S', 'W', 'A', 'B'], ["E1", "SZ_WORD", "M_GEND", "P_0077"]⟩,
  ⟨0xa00, ['C', 'L', 'R'], ["E1", "SZ_WORD", "M_GEND", "P_0077"]⟩,
  ⟨0x8a00, ['C', 'L', 'R', 'B'], ["E1", "SZ_BYTE", "M_GEND", "P_0077"]⟩,
  ⟨0xa40, ['C', 'O', 'M'], ["E1", "SZ_WORD", "M_GEND", "P_0077"]⟩,
  ⟨0x8a40, ['C', 'O', 'M', 'B'], ["E1", "SZ_BYTE", "M_GEND", "P_0077"]⟩,
  ⟨0xa80, ['I', 'N', 'C'], ["E1", "SZ_WORD", "M_GEND", "P_0077"]⟩,
  ⟨0x8a80, ['I', 'N', 'C', 'B'], ["E1", "SZ_BYTE", "M_GEND", "P_0077"]⟩,
  ⟨0xac0, ['D', 'E', 'C'], ["E1", "SZ_WORD", "M_GEND", "P_0077"]⟩,
  ⟨0x8ac0, ['D', 'E', 'C', 'B'], ["E1", "SZ_BYTE", "M_GEND", "P_0077"]⟩,
  ⟨0xb00, ['N', 'E', 'G'], ["E1", "SZ_WORD", "M_GEND", "P_0077"]⟩,
  ⟨0x8b00, ['N', 'E', 'G', 'B'], ["E1", "SZ_BYTE", "M_GEND", "P_0077"]⟩,
  ⟨0xb40, ['A', 'D', 'C'], ["E1", "SZ_WORD", "M_GEND", "P_0077"]⟩,
  ⟨0x8b40, ['A', 'D', 'C', 'B'], ["E1", "SZ_BYTE", "M_GEND", "P_0077"]⟩,
  ⟨0xb80, ['S', 'B', 'C'], ["E1", "SZ_WORD", "M_GEND", "P_0077"]⟩,
  ⟨0x8b80, ['S', 'B', 'C', 'B'], ["E1", "SZ_BYTE", "M_GEND", "P_0077"]⟩,
  ⟨0xbc0, ['T', 'S', 'T'], ["E1", "SZ_WORD", "M_GENS", "P_0077"]⟩,
  ⟨0x8bc0, ['T', 'S', 'T', 'B'], ["E1", "SZ_BYTE", "M_GENS", "P_0077"]⟩,
  ⟨0xc00, ['R', 'O', 'R'], ["E1", "SZ_WORD", "M_GEND", "P_0077"]⟩,
  ⟨0x8c00, ['R', 'O', 'R', 'B'], ["E1", "SZ_BYTE", "M_GEND", "P_0077"]⟩,
  ⟨0xc40, ['R', 'O', 'L'], ["E1", "SZ_WORD", "M_GEND", "P_0077"]⟩,
  ⟨0x8c40, ['R', 'O', 'L', 'B'], ["E1", "SZ_BYTE", "M_GEND", "P_0077"]⟩,
  ⟨0xc80, ['A', 'S', 'R'], ["E1", "SZ_WORD", "M_GEND", "P_0077"]⟩,
  ⟨0x8c80, ['A', 'S', 'R', 'B'], ["E1", "SZ_BYTE", "M_GEND", "P_0077"]⟩,
  ⟨0xcc0, ['A', 'S', 'L'], ["E1", "SZ_WORD", "M_GEND", "P_0077"]⟩,
  ⟨0x8cc0, ['A', 'S', 'L', 'B'], ["E1", "SZ_BYTE", "M_GEND", "P_0077"]⟩,
  ⟨0x8d00, ['M', 'T', 'P', 'S'], ["E1", "SZ_BYTE", "M_GENS", "P_0077"]⟩,
  ⟨0xdc0, ['S', 'X', 'T'], ["E1", "SZ_WORD", "M_GEND", "P_0077"]⟩,
  ⟨0x8dc0, ['M', 'F', 'P', 'S'], ["E1", "SZ_BYTE", "M_GEND", "P_0077"]⟩,
  ⟨0x100, ['B', 'R'], ["E1", "SZ_NONE", "M_REL8", "P_0377"]⟩,
  ⟨0x200, ['B', 'N', 'E'], ["E1", "SZ_NONE", "M_REL8", "P_0377"]⟩,
  ⟨0x300, ['B', 'E', 'Q'], ["E1", "SZ_NONE", "M_REL8", "P_0377"]⟩,
  ⟨0x400, ['B', 'G', 'E'], ["E1", "SZ_NONE", "M_REL8", "P_0377"]⟩,
  ⟨0x500, ['B', 'L', 'T'], ["E1", "SZ_NONE", "M_REL8", "P_0377"]⟩,
  ⟨0x600, ['B', 'G', 'T'], ["E1", "SZ_NONE", "M_REL8", "P_0377"]⟩,
  ⟨0x700, ['B', 'L', 'E'], ["E1", "SZ_NONE", "M_REL8", "P_0377"]⟩,
  ⟨0x8000, ['B', 'P', 'L'], ["E1", "SZ_NONE", "M_REL8", "P_0377"]⟩,
  ⟨0x8100, ['B', 'M', 'I'], ["E1", "SZ_NONE", "M_REL8", "P_0377"]⟩,
  ⟨0x8200, ['B', 'H', 'I'], ["E1", "SZ_NONE", "M_REL8", "P_0377"]⟩,
  ⟨0x8300, ['B', 'L', 'O', 'S'], ["E1", "SZ_NONE", "M_REL8", "P_0377"]⟩,
  ⟨0x8400, ['B', 'V', 'C'], ["E1", "SZ_NONE", "M_REL8", "P_0377"]⟩,
  ⟨0x8500, ['B', 'V', 'S'], ["E1", "SZ_NONE", "M_REL8", "P_0377"]⟩,
  ⟨0x8600, ['B', 'C', 'C'], ["E1", "SZ_NONE", "M_REL8", "P_0377"]⟩,
  ⟨0x8700, ['B', 'C', 'S'], ["E1", "SZ_NONE", "M_REL8", "P_0377"]⟩,
  ⟨0x8600, ['B', 'H', 'I', 'S'], ["E1", "SZ_NONE", "M_REL8", "P_0377"]⟩,
  ⟨0x8700, ['B', 'L', 'O'], ["E1", "SZ_NONE", "M_REL8", "P_0377"]⟩,
  ⟨0x7e00, ['S', 'O', 'B'], ["E2", "SZ_NONE", "M_GENR", "P_0700", "M_REL6", "P_0077"]⟩,
  ⟨0x800, ['J', 'S', 'R'], ["E2", "SZ_WORD", "M_GENR", "P_0700", "M_GENA", "P_0077"]⟩,
  ⟨0x80, ['R', 'T', 'S'], ["E1", "SZ_NONE", "M_GENR", "P_0007"]⟩,
  ⟨0x8800, ['E', 'M', 'T'], ["E1", "SZ_NONE", "M_IMM8", "P_0377"]⟩,
  ⟨0x8900, ['T', 'R', 'A', 'P'], ["E1", "SZ_NONE", "M_IMM8", "P_0377"]⟩,
  ⟨0x2, ['R', 'T', 'I'], ["E0", "SZ_NONE"]⟩,
  ⟨0x3, ['B', 'P', 'T'], ["E0", "SZ_NONE"]⟩,
  ⟨0x4, ['I', 'O', 'T'], ["E0", "SZ_NONE"]⟩,
  ⟨0x6, ['R', 'T', 'T'], ["E0", "SZ_NONE"]⟩,
  ⟨0x0, ['H', 'A', 'L', 'T'], ["E0", "SZ_NONE"]⟩,
  ⟨0x1, ['W', 'A', 'I', 'T'], ["E0", "SZ_NONE"]⟩,
  ⟨0x5, ['R', 'E', 'S', 'E', 'T'], ["E0", "SZ_NONE"]⟩,
  ⟨0x7, ['M', 'F', 'P', 'T'], ["E0", "SZ_NONE"]⟩,
  ⟨0xa0, ['N', 'O', 'P'], ["E0", "SZ_NONE"]⟩,
  ⟨0xa1, ['C', 'L', 'C'], ["E0", "SZ_NONE"]⟩,
  ⟨0xa2, ['C', 'L', 'V'], ["E0", "SZ_NONE"]⟩,
  ⟨0xa4, ['C', 'L', 'Z'], ["E0", "SZ_NONE"]⟩,
  ⟨0xa8, ['C', 'L', 'N'], ["E0", "SZ_NONE"]⟩,
  ⟨0xaf, ['C', 'C', 'C'], ["E0", "SZ_NONE"]⟩,
  ⟨0xb1, ['S', 'E', 'C'], ["E0", "SZ_NONE"]⟩,
  ⟨0xb2, ['S', 'E', 'V'], ["E0", "SZ_NONE"]⟩,
  ⟨0xb4, ['S', 'E', 'Z'], ["E0", "SZ_NONE"]⟩,
  ⟨0xb8, ['S', 'E', 'N'], ["E0", "SZ_NONE"]⟩,
  ⟨0xbf, ['S', 'C', 'C'], ["E0", "SZ_NONE"]⟩,
  ⟨0xb0, ['N', 'O', 'P'], ["E0", "SZ_NONE"]⟩]

/-- src/table_pdp11.cpp:122-206 -/
def INDEX_BASE : List Nat := [
  25, 26, 10, 37, 38, 35, 36, 55, 56, 44, 45, 47, 51, 57, 6, 7,
  8, 9, 4, 5, 48, 58, 52, 46, 50, 43, 49, 65, 42, 53, 54, 77,
  73, 76, 15, 16, 74, 75, 2, 3, 17, 18, 21, 22, 62, 68, 19, 20,
  66, 13, 60, 41, 71, 0, 1, 39, 23, 24, 72, 70, 33, 34, 31, 32,
  64, 61, 67, 27, 28, 82, 78, 81, 79, 80, 59, 11, 14, 40, 63, 29,
  30, 69, 12]

/-- src/table_pdp11.cpp:208-213 -/
def TABLE_EIS : List Row := [
  ⟨0x7000, ['M', 'U', 'L'], ["E2", "SZ_INTG", "M_GENS", "P_0077", "M_GENR", "P_0700"]⟩,
  ⟨0x7200, ['D', 'I', 'V'], ["E2", "SZ_INTG", "M_GENS", "P_0077", "M_GENR", "P_0700"]⟩,
  ⟨0x7400, ['A', 'S', 'H'], ["E2", "SZ_WORD", "M_GENS", "P_0077", "M_GENR", "P_0700"]⟩,
  ⟨0x7600, ['A', 'S', 'H', 'C'], ["E2", "SZ_WORD", "M_GENS", "P_0077", "M_GENR", "P_0700"]⟩]

/-- src/table_pdp11.cpp:215-220 -/
def INDEX_EIS : List Nat := [
  2, 3, 1, 0]

/-- src/table_pdp11.cpp:222-227 -/
def TABLE_MFPMTP : List Row := [
  ⟨0xd40, ['M', 'F', 'P', 'I'], ["E1", "SZ_WORD", "M_GENA", "P_0077"]⟩,
  ⟨0x8d40, ['M', 'F', 'P', 'D'], ["E1", "SZ_WORD", "M_GENA", "P_0077"]⟩,
  ⟨0xd80, ['M', 'T', 'P', 'I'], ["E1", "SZ_WORD", "M_GENA", "P_0077"]⟩,
  ⟨0x8d80, ['M', 'T', 'P', 'D'], ["E1", "SZ_WORD", "M_GENA", "P_0077"]⟩]

/-- src/table_pdp11.cpp:229-234 -/
def INDEX_MFPMTP : List Nat := [
  1, 0, 3, 2]

/-- src/table_pdp11.cpp:236-242 -/
def TABLE_J11 : List Row := [
  ⟨0xd00, ['M', 'A', 'R', 'K'], ["E1", "SZ_NONE", "M_IMM6", "P_0077"]⟩,
  ⟨0xe00, ['C', 'S', 'M'], ["E1", "SZ_WORD", "M_GENS", "P_0077"]⟩,
  ⟨0x98, ['S', 'P', 'L'], ["E1", "SZ_NONE", "M_IMM3", "P_0007"]⟩,
  ⟨0xe80, ['T', 'S', 'T', 'S', 'E', 'T'], ["E1", "SZ_WORD", "M_GENA", "P_0077"]⟩,
  ⟨0xec0, ['W', 'R', 'T', 'L', 'C', 'K'], ["E1", "SZ_WORD", "M_GENA", "P_0077"]⟩]

/-- src/table_pdp11.cpp:244-250 -/
def INDEX_J11 : List Nat := [
  1, 0, 2, 3, 4]

/-- src/table_pdp11.cpp:252-299 -/
def TABLE_FP11 : List Row := [
  ⟨0xf000, ['C', 'F', 'C', 'C'], ["E0", "SZ_NONE"]⟩,
  ⟨0xf009, ['S', 'E', 'T', 'D'], ["E0", "SZ_NONE"]⟩,
  ⟨0xf001, ['S', 'E', 'T', 'F'], ["E0", "SZ_NONE"]⟩,
  ⟨0xf002, ['S', 'E', 'T', 'I'], ["E0", "SZ_NONE"]⟩,
  ⟨0xf00a, ['S', 'E', 'T', 'L'], ["E0", "SZ_NONE"]⟩,
  ⟨0xf040, ['L', 'D', 'F', 'P', 'S'], ["E1", "SZ_WORD", "M_GENS", "P_0077"]⟩,
  ⟨0xf080, ['S', 'T', 'F', 'P', 'S'], ["E1", "SZ_WORD", "M_GEND", "P_0077"]⟩,
  ⟨0xf0c0, ['S', 'T', 'S', 'T'], ["E1", "SZ_DWRD", "M_GEND", "P_0077"]⟩,
  ⟨0xfd00, ['L', 'D', 'E', 'X', 'P'], ["E2", "SZ_WORD", "M_GENS", "P_0077", "M_AC03", "P_0300"]⟩,
  ⟨0xfa00, ['S', 'T', 'E', 'X', 'P'], ["E2", "SZ_WORD", "M_AC03", "P_0300", "M_GEND", "P_0077"]⟩,
  ⟨0xf180, ['A', 'B', 'S', 'D'], ["E1", "SZ_DUBL", "M_GENG", "P_0077"]⟩,
  ⟨0xf400, ['A', 'D', 'D', 'D'], ["E2", "SZ_DUBL", "M_GENF", "P_0077", "M_AC03", "P_0300"]⟩,
  ⟨0xf100, ['C', 'L', 'R', 'D'], ["E1", "SZ_DUBL", "M_GENG", "P_0077"]⟩,
  ⟨0xf700, ['C', 'M', 'P', 'D'], ["E2", "SZ_DUBL", "M_GENF", "P_0077", "M_AC03", "P_0300"]⟩,
  ⟨0xf900, ['D', 'I', 'V', 'D'], ["E2", "SZ_DUBL", "M_GENF", "P_0077", "M_AC03", "P_0300"]⟩,
  ⟨0xff00, ['L', 'D', 'C', 'D', 'F'], ["E2", "SZ_DUBL", "M_GENF", "P_0077", "M_AC03", "P_0300"]⟩,
  ⟨0xfe00, ['L', 'D', 'C', 'L', 'D'], ["E2", "SZ_LONG", "M_GENS", "P_0077", "M_AC03", "P_0300"]⟩,
  ⟨0xfe00, ['L', 'D', 'C', 'I', 'D'], ["E2", "SZ_INTG", "M_GENS", "P_0077", "M_AC03", "P_0300"]⟩,
  ⟨0xf500, ['L', 'D', 'D'], ["E2", "SZ_DUBL", "M_GENF", "P_0077", "M_AC03", "P_0300"]⟩,
  ⟨0xf300, ['M', 'O', 'D', 'D'], ["E2", "SZ_DUBL", "M_GENF", "P_0077", "M_AC03", "P_0300"]⟩,
  ⟨0xf200, ['M', 'U', 'L', 'D'], ["E2", "SZ_DUBL", "M_GENF", "P_0077", "M_AC03", "P_0300"]⟩,
  ⟨0xf1c0, ['N', 'E', 'G', 'D'], ["E1", "SZ_DUBL", "M_GENG", "P_0077"]⟩,
  ⟨0xfc00, ['S', 'T', 'C', 'D', 'F'], ["E2", "SZ_FLOT", "M_AC03", "P_0300", "M_GENG", "P_0077"]⟩,
  ⟨0xf800, ['S', 'T', 'D'], ["E2", "SZ_DUBL", "M_AC03", "P_0300", "M_GENA", "P_0077"]⟩,
  ⟨0xfb00, ['S', 'T', 'C', 'D', 'L'], ["E2", "SZ_LONG", "M_AC03", "P_0300", "M_GEND", "P_0077"]⟩,
  ⟨0xfb00, ['S', 'T', 'C', 'D', 'I'], ["E2", "SZ_INTG", "M_AC03", "P_0300", "M_GEND", "P_0077"]⟩,
  ⟨0xf600, ['S', 'U', 'B', 'D'], ["E2", "SZ_DUBL", "M_GENF", "P_0077", "M_AC03", "P_0300"]⟩,
  ⟨0xf140, ['T', 'S', 'T', 'D'], ["E1", "SZ_DUBL", "M_GENF", "P_0077"]⟩,
  ⟨0xf180, ['A', 'B', 'S', 'F'], ["E1", "SZ_FLOT", "M_GENG", "P_0077"]⟩,
  ⟨0xf400, ['A', 'D', 'D', 'F'], ["E2", "SZ_FLOT", "M_GENF", "P_0077", "M_AC03", "P_0300"]⟩,
  ⟨0xf100, ['C', 'L', 'R', 'F'], ["E1", "SZ_FLOT", "M_GENG", "P_0077"]⟩,
  ⟨0xf700, ['C', 'M', 'P', 'F'], ["E2", "SZ_FLOT", "M_GENF", "P_0077", "M_AC03", "P_0300"]⟩,
  ⟨0xf900, ['D', 'I', 'V', 'F'], ["E2", "SZ_FLOT", "M_GENF", "P_0077", "M_AC03", "P_0300"]⟩,
  ⟨0xff00, ['L', 'D', 'C', 'F', 'D'], ["E2", "SZ_FLOT", "M_GENF", "P_0077", "M_AC03", "P_0300"]⟩,
  ⟨0xfe00, ['L', 'D', 'C', 'L', 'F'], ["E2", "SZ_LONG", "M_GENS", "P_0077", "M_AC03", "P_0300"]⟩,
  ⟨0xfe00, ['L', 'D', 'C', 'I', 'F'], ["E2", "SZ_INTG", "M_GENS", "P_0077", "M_AC03", "P_0300"]⟩,
  ⟨0xf500, ['L', 'D', 'F'], ["E2", "SZ_FLOT", "M_GENF", "P_0077", "M_AC03", "P_0300"]⟩,
  ⟨0xf300, ['M', 'O', 'D', 'F'], ["E2", "SZ_FLOT", "M_GENF", "P_0077", "M_AC03", "P_0300"]⟩,
  ⟨0xf200, ['M', 'U', 'L', 'F'], ["E2", "SZ_FLOT", "M_GENF", "P_0077", "M_AC03", "P_0300"]⟩,
  ⟨0xf1c0, ['N', 'E', 'G', 'F'], ["E1", "SZ_FLOT", "M_GENG", "P_0077"]⟩,
  ⟨0xfc00, ['S', 'T', 'C', 'F', 'D'], ["E2", "SZ_DUBL", "M_AC03", "P_0300", "M_GENG", "P_0077"]⟩,
  ⟨0xf800, ['S', 'T', 'F'], ["E2", "SZ_FLOT", "M_AC03", "P_0300", "M_GENA", "P_0077"]⟩,
  ⟨0xfb00, ['S', 'T', 'C', 'F', 'L'], ["E2", "SZ_LONG", "M_AC03", "P_0300", "M_GEND", "P_0077"]⟩,
  ⟨0xfb00, ['S', 'T', 'C', 'F', 'I'], ["E2", "SZ_INTG", "M_AC03", "P_0300", "M_GEND", "P_0077"]⟩,
  ⟨0xf600, ['S', 'U', 'B', 'F'], ["E2", "SZ_FLOT", "M_GENF", "P_0077", "M_AC03", "P_0300"]⟩,
  ⟨0xf140, ['T', 'S', 'T', 'F'], ["E1", "SZ_FLOT", "M_GENF", "P_0077"]⟩]

/-- src/table_pdp11.cpp:301-348 -/
def INDEX_FP11 : List Nat := [
  10, 28, 11, 29, 0, 12, 30, 13, 31, 14, 32, 15, 33, 17, 35, 16,
  34, 18, 8, 36, 5, 19, 37, 20, 38, 21, 39, 1, 2, 3, 4, 22,
  25, 24, 40, 43, 42, 23, 9, 41, 6, 7, 26, 44, 27, 45]

/-- src/table_pdp11.cpp:354-360 -/
def DCJ11_PAGES : List (Page Row) := [
  ⟨0x0, [], TABLE_BASE, INDEX_BASE⟩,
  ⟨0x0, [], TABLE_EIS, INDEX_EIS⟩,
  ⟨0x0, [], TABLE_J11, INDEX_J11⟩,
  ⟨0x0, [], TABLE_FP11, INDEX_FP11⟩,
  ⟨0x0, [], TABLE_MFPMTP, INDEX_MFPMTP⟩]

/-- src/table_pdp11.cpp:362-364 -/
def DCT11_PAGES : List (Page Row) := [
  ⟨0x0, [], TABLE_BASE, INDEX_BASE⟩]

/-- The processors of src/table_pdp11.cpp: CPU_TABLE 368-371 -/
def cpus : List Cpu := [
  ⟨['J', '1', '1'], DCJ11_PAGES⟩,
  ⟨['T', '1', '1'], DCT11_PAGES⟩]

theorem TABLE_BASE_INDEX_BASE (n : Nat) (x : List String) : PageOk ⟨n, x, TABLE_BASE, INDEX_BASE⟩ :=
  pageB_sound ⟨n, x, TABLE_BASE, INDEX_BASE⟩ (show pageB ⟨0, [], TABLE_BASE, INDEX_BASE⟩ = true by decide +kernel)

theorem TABLE_EIS_INDEX_EIS (n : Nat) (x : List String) : PageOk ⟨n, x, TABLE_EIS, INDEX_EIS⟩ :=
  pageB_sound ⟨n, x, TABLE_EIS, INDEX_EIS⟩ (show pageB ⟨0, [], TABLE_EIS, INDEX_EIS⟩ = true by decide +kernel)

theorem TABLE_J11_INDEX_J11 (n : Nat) (x : List String) : PageOk ⟨n, x, TABLE_J11, INDEX_J11⟩ :=
  pageB_sound ⟨n, x, TABLE_J11, INDEX_J11⟩ (show pageB ⟨0, [], TABLE_J11, INDEX_J11⟩ = true by decide +kernel)

theorem TABLE_FP11_INDEX_FP11 (n : Nat) (x : List String) : PageOk ⟨n, x, TABLE_FP11, INDEX_FP11⟩ :=
  pageB_sound ⟨n, x, TABLE_FP11, INDEX_FP11⟩ (show pageB ⟨0, [], TABLE_FP11, INDEX_FP11⟩ = true by decide +kernel)

theorem TABLE_MFPMTP_INDEX_MFPMTP (n : Nat) (x : List String) : PageOk ⟨n, x, TABLE_MFPMTP, INDEX_MFPMTP⟩ :=
  pageB_sound ⟨n, x, TABLE_MFPMTP, INDEX_MFPMTP⟩ (show pageB ⟨0, [], TABLE_MFPMTP, INDEX_MFPMTP⟩ = true by decide +kernel)

theorem DCJ11_PAGES_ok : ∀ p ∈ DCJ11_PAGES, PageOk p :=
  List.forall_mem_cons.mpr <| And.intro (TABLE_BASE_INDEX_BASE _ _) <| List.forall_mem_cons.mpr <| And.intro (TABLE_EIS_INDEX_EIS _ _) <| List.forall_mem_cons.mpr <| And.intro (TABLE_J11_INDEX_J11 _ _) <| List.forall_mem_cons.mpr <| And.intro (TABLE_FP11_INDEX_FP11 _ _) <| List.forall_mem_cons.mpr <| And.intro (TABLE_MFPMTP_INDEX_MFPMTP _ _) nofun

theorem DCT11_PAGES_ok : ∀ p ∈ DCT11_PAGES, PageOk p :=
  List.forall_mem_cons.mpr <| And.intro (TABLE_BASE_INDEX_BASE _ _) nofun

theorem cpus_ok : ∀ c ∈ cpus, ∀ p ∈ c.pages, PageOk p :=
  List.forall_mem_cons.mpr <| And.intro DCJ11_PAGES_ok <| List.forall_mem_cons.mpr <| And.intro DCT11_PAGES_ok nofun

end Libasm.Tables.Pdp11
