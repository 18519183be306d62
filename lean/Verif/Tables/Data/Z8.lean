import Verif.Tables.Row
/-
Generated by tools/gen_tables.py from src/table_z8.cpp: names, codes, operands and indexes as written
there. Do not edit.
-/
namespace Libasm.Tables.Z8
open Table

/-- src/table_z8.cpp:36-139 -/
def TABLE_COMMON : List Row := [
  ⟨0x8, ['L', 'D'], ["E2", "PF_NONE", "M_r", "M_R", "OP_CODE", "OP_BYT1"]⟩,
  ⟨0x9, ['L', 'D'], ["E2", "PF_NONE", "M_R", "M_r", "OP_BYT1", "OP_CODE"]⟩,
  ⟨0xc, ['L', 'D'], ["E2", "PF_NONE", "M_r", "M_IM", "OP_CODE", "OP_BYT1"]⟩,
  ⟨0xe4, ['L', 'D'], ["E2", "PF_NONE", "M_R", "M_R", "OP_BYT2", "OP_BYT1"]⟩,
  ⟨0xe5, ['L', 'D'], ["E2", "PF_NONE", "M_R", "M_IR", "OP_BYT2", "OP_BYT1"]⟩,
  ⟨0xe6, ['L', 'D'], ["E2", "PF_NONE", "M_R", "M_IM", "OP_BYT1", "OP_BYT2"]⟩,
  ⟨0xf5, ['L', 'D'], ["E2", "PF_NONE", "M_IR", "M_R", "OP_BYT2", "OP_BYT1"]⟩,
  ⟨0xa, ['D', 'J', 'N', 'Z'], ["E2", "PF_NONE", "M_r", "M_RA", "OP_CODE", "OP_BYT1"]⟩,
  ⟨0x8b, ['J', 'R'], ["E1", "PF_NONE", "M_RA", "OP_BYT1"]⟩,
  ⟨0xb, ['J', 'R'], ["E2", "PF_NONE", "M_cc", "M_RA", "OP_CODE", "OP_BYT1"]⟩,
  ⟨0x8d, ['J', 'P'], ["E1", "PF_NONE", "M_DA", "OP_W1BE"]⟩,
  ⟨0xd, ['J', 'P'], ["E2", "PF_NONE", "M_cc", "M_DA", "OP_CODE", "OP_W1BE"]⟩,
  ⟨0x30, ['J', 'P'], ["E1", "PF_NONE", "M_IRR", "OP_BYT1"]⟩,
  ⟨0x2, ['A', 'D', 'D'], ["E2", "PF_NONE", "M_r", "M_r", "OP_B1HI", "OP_B1LO"]⟩,
  ⟨0x3, ['A', 'D', 'D'], ["E2", "PF_NONE", "M_r", "M_Ir", "OP_B1HI", "OP_B1LO"]⟩,
  ⟨0x4, ['A', 'D', 'D'], ["E2", "PF_NONE", "M_R", "M_R", "OP_BYT2", "OP_BYT1"]⟩,
  ⟨0x5, ['A', 'D', 'D'], ["E2", "PF_NONE", "M_R", "M_IR", "OP_BYT2", "OP_BYT1"]⟩,
  ⟨0x6, ['A', 'D', 'D'], ["E2", "PF_NONE", "M_R", "M_IM", "OP_BYT1", "OP_BYT2"]⟩,
  ⟨0x12, ['A', 'D', 'C'], ["E2", "PF_NONE", "M_r", "M_r", "OP_B1HI", "OP_B1LO"]⟩,
  ⟨0x13, ['A', 'D', 'C'], ["E2", "PF_NONE", "M_r", "M_Ir", "OP_B1HI", "OP_B1LO"]⟩,
  ⟨0x14, ['A', 'D', 'C'], ["E2", "PF_NONE", "M_R", "M_R", "OP_BYT2", "OP_BYT1"]⟩,
  ⟨0x15, ['A', 'D', 'C'], ["E2", "PF_NONE", "M_R", "M_IR", "OP_BYT2", "OP_BYT1"]⟩,
  ⟨0x16, ['A', 'D', 'C'], ["E2", "PF_NONE", "M_R", "M_IM", "OP_BYT1", "OP_BYT2"]⟩,
  ⟨0x22, ['S', 'U', 'B'], ["E2", "PF_NONE", "M_r", "M_r", "OP_B1HI", "OP_B1LO"]⟩,
  ⟨0x23, ['S', 'U', 'B'], ["E2", "PF_NONE", "M_r", "M_Ir", "OP_B1HI", "OP_B1LO"]⟩,
  ⟨0x24, ['S', 'U', 'B'], ["E2", "PF_NONE", "M_R", "M_R", "OP_BYT2", "OP_BYT1"]⟩,
  ⟨0x25, ['S', 'U', 'B'], ["E2", "PF_NONE", "M_R", "M_IR", "OP_BYT2", "OP_BYT1"]⟩,
  ⟨0x26, ['S', 'U', 'B'], ["E2", "PF_NONE", "M_R", "M_IM", "OP_BYT1", "OP_BYT2"]⟩,
  ⟨0x32, ['S', 'B', 'C'], ["E2", "PF_NONE", "M_r", "M_r", "OP_B1HI", "OP_B1LO"]⟩,
  ⟨0x33, ['S', 'B', 'C'], ["E2", "PF_NONE", "M_r", "M_Ir", "OP_B1HI", "OP_B1LO"]⟩,
  ⟨0x34, ['S', 'B', 'C'], ["E2", "PF_NONE", "M_R", "M_R", "OP_BYT2", "OP_BYT1"]⟩,
  ⟨0x35, ['S', 'B', 'C'], ["E2", "PF_NONE", "M_R", "M_IR", "OP_BYT2", "OP_BYT1"]⟩,
  ⟨0x36, ['S', 'B', 'C'], ["E2", "PF_NONE", "M_R", "M_IM", "OP_BYT1", "OP_BYT2"]⟩,
  ⟨0x42, ['O', 'R'], ["E2", "PF_NONE", "M_r", "M_r", "OP_B1HI", "OP_B1LO"]⟩,
  ⟨0x43, ['O', 'R'], ["E2", "PF_NONE", "M_r", "M_Ir", "OP_B1HI", "OP_B1LO"]⟩,
  ⟨0x44, ['O', 'R'], ["E2", "PF_NONE", "M_R", "M_R", "OP_BYT2", "OP_BYT1"]⟩,
  ⟨0x45, ['O', 'R'], ["E2", "PF_NONE", "M_R", "M_IR", "OP_BYT2", "OP_BYT1"]⟩,
  ⟨0x46, ['O', 'R'], ["E2", "PF_NONE", "M_R", "M_IM", "OP_BYT1", "OP_BYT2"]⟩,
  ⟨0x52, ['A', 'N', 'D'], ["E2", "PF_NONE", "M_r", "M_r", "OP_B1HI", "OP_B1LO"]⟩,
  ⟨0x53, ['A', 'N', 'D'], ["E2", "PF_NONE", "M_r", "M_Ir", "OP_B1HI", "OP_B1LO"]⟩,
  ⟨0x54, ['A', 'N', 'D'], ["E2", "PF_NONE", "M_R", "M_R", "OP_BYT2", "OP_BYT1"]⟩,
  ⟨0x55, ['A', 'N', 'D'], ["E2", "PF_NONE", "M_R", "M_IR", "OP_BYT2", "OP_BYT1"]⟩,
  ⟨0x56, ['A', 'N', 'D'], ["E2", "PF_NONE", "M_R", "M_IM", "OP_BYT1", "OP_BYT2"]⟩,
  ⟨0x62, ['T', 'C', 'M'], ["E2", "PF_NONE", "M_r", "M_r", "OP_B1HI", "OP_B1LO"]⟩,
  ⟨0x63, ['T', 'C', 'M'], ["E2", "PF_NONE", "M_r", "M_Ir", "OP_B1HI", "OP_B1LO"]⟩,
  ⟨0x64, ['T', 'C', 'M'], ["E2", "PF_NONE", "M_R", "M_R", "OP_BYT2", "OP_BYT1"]⟩,
  ⟨0x65, ['T', 'C', 'M'], ["E2", "PF_NONE", "M_R", "M_IR", "OP_BYT2", "OP_BYT1"]⟩,
  ⟨0x66, ['T', 'C', 'M'], ["E2", "PF_NONE", "M_R", "M_IM", "OP_BYT1", "OP_BYT2"]⟩,
  ⟨0x72, ['T', 'M'], ["E2", "PF_NONE", "M_r", "M_r", "OP_B1HI", "OP_B1LO"]⟩,
  ⟨0x73, ['T', 'M'], ["E2", "PF_NONE", "M_r", "M_Ir", "OP_B1HI", "OP_B1LO"]⟩,
  ⟨0x74, ['T', 'M'], ["E2", "PF_NONE", "M_R", "M_R", "OP_BYT2", "OP_BYT1"]⟩,
  ⟨0x75, ['T', 'M'], ["E2", "PF_NONE", "M_R", "M_IR", "OP_BYT2", "OP_BYT1"]⟩,
  ⟨0x76, ['T', 'M'], ["E2", "PF_NONE", "M_R", "M_IM", "OP_BYT1", "OP_BYT2"]⟩,
  ⟨0xa2, ['C', 'P'], ["E2", "PF_NONE", "M_r", "M_r", "OP_B1HI", "OP_B1LO"]⟩,
  ⟨0xa3, ['C', 'P'], ["E2", "PF_NONE", "M_r", "M_Ir", "OP_B1HI", "OP_B1LO"]⟩,
  ⟨0xa4, ['C', 'P'], ["E2", "PF_NONE", "M_R", "M_R", "OP_BYT2", "OP_BYT1"]⟩,
  ⟨0xa5, ['C', 'P'], ["E2", "PF_NONE", "M_R", "M_IR", "OP_BYT2", "OP_BYT1"]⟩,
  ⟨0xa6, ['C', 'P'], ["E2", "PF_NONE", "M_R", "M_IM", "OP_BYT1", "OP_BYT2"]⟩,
  ⟨0xb2, ['X', 'O', 'R'], ["E2", "PF_NONE", "M_r", "M_r", "OP_B1HI", "OP_B1LO"]⟩,
  ⟨0xb3, ['X', 'O', 'R'], ["E2", "PF_NONE", "M_r", "M_Ir", "OP_B1HI", "OP_B1LO"]⟩,
  ⟨0xb4, ['X', 'O', 'R'], ["E2", "PF_NONE", "M_R", "M_R", "OP_BYT2", "OP_BYT1"]⟩,
  ⟨0xb5, ['X', 'O', 'R'], ["E2", "PF_NONE", "M_R", "M_IR", "OP_BYT2", "OP_BYT1"]⟩,
  ⟨0xb6, ['X', 'O', 'R'], ["E2", "PF_NONE", "M_R", "M_IM", "OP_BYT1", "OP_BYT2"]⟩,
  ⟨0x0, ['D', 'E', 'C'], ["E1", "PF_NONE", "M_R", "OP_BYT1"]⟩,
  ⟨0x1, ['D', 'E', 'C'], ["E1", "PF_NONE", "M_IR", "OP_BYT1"]⟩,
  ⟨0x10, ['R', 'L', 'C'], ["E1", "PF_NONE", "M_R", "OP_BYT1"]⟩,
  ⟨0x11, ['R', 'L', 'C'], ["E1", "PF_NONE", "M_IR", "OP_BYT1"]⟩,
  ⟨0xe, ['I', 'N', 'C'], ["E1", "PF_NONE", "M_r", "OP_CODE"]⟩,
  ⟨0x20, ['I', 'N', 'C'], ["E1", "PF_NONE", "M_R", "OP_BYT1"]⟩,
  ⟨0x21, ['I', 'N', 'C'], ["E1", "PF_NONE", "M_IR", "OP_BYT1"]⟩,
  ⟨0x40, ['D', 'A'], ["E1", "PF_NONE", "M_R", "OP_BYT1"]⟩,
  ⟨0x41, ['D', 'A'], ["E1", "PF_NONE", "M_IR", "OP_BYT1"]⟩,
  ⟨0x50, ['P', 'O', 'P'], ["E1", "PF_NONE", "M_R", "OP_BYT1"]⟩,
  ⟨0x51, ['P', 'O', 'P'], ["E1", "PF_NONE", "M_IR", "OP_BYT1"]⟩,
  ⟨0x60, ['C', 'O', 'M'], ["E1", "PF_NONE", "M_R", "OP_BYT1"]⟩,
  ⟨0x61, ['C', 'O', 'M'], ["E1", "PF_NONE", "M_IR", "OP_BYT1"]⟩,
  ⟨0x70, ['P', 'U', 'S', 'H'], ["E1", "PF_NONE", "M_R", "OP_BYT1"]⟩,
  ⟨0x71, ['P', 'U', 'S', 'H'], ["E1", "PF_NONE", "M_IR", "OP_BYT1"]⟩,
  ⟨0x80, ['D', 'E', 'C', 'W'], ["E1", "PF_NONE", "M_RR", "OP_BYT1"]⟩,
  ⟨0x81, ['D', 'E', 'C', 'W'], ["E1", "PF_NONE", "M_IR", "OP_BYT1"]⟩,
  ⟨0x90, ['R', 'L'], ["E1", "PF_NONE", "M_R", "OP_BYT1"]⟩,
  ⟨0x91, ['R', 'L'], ["E1", "PF_NONE", "M_IR", "OP_BYT1"]⟩,
  ⟨0xa0, ['I', 'N', 'C', 'W'], ["E1", "PF_NONE", "M_RR", "OP_BYT1"]⟩,
  ⟨0xa1, ['I', 'N', 'C', 'W'], ["E1", "PF_NONE", "M_IR", "OP_BYT1"]⟩,
  ⟨0xb0, ['C', 'L', 'R'], ["E1", "PF_NONE", "M_R", "OP_BYT1"]⟩,
  ⟨0xb1, ['C', 'L', 'R'], ["E1", "PF_NONE", "M_IR", "OP_BYT1"]⟩,
  ⟨0xc0, ['R', 'R', 'C'], ["E1", "PF_NONE", "M_R", "OP_BYT1"]⟩,
  ⟨0xc1, ['R', 'R', 'C'], ["E1", "PF_NONE", "M_IR", "OP_BYT1"]⟩,
  ⟨0xd0, ['S', 'R', 'A'], ["E1", "PF_NONE", "M_R", "OP_BYT1"]⟩,
  ⟨0xd1, ['S', 'R', 'A'], ["E1", "PF_NONE", "M_IR", "OP_BYT1"]⟩,
  ⟨0xe0, ['R', 'R'], ["E1", "PF_NONE", "M_R", "OP_BYT1"]⟩,
  ⟨0xe1, ['R', 'R'], ["E1", "PF_NONE", "M_IR", "OP_BYT1"]⟩,
  ⟨0xf0, ['S', 'W', 'A', 'P'], ["E1", "PF_NONE", "M_R", "OP_BYT1"]⟩,
  ⟨0xf1, ['S', 'W', 'A', 'P'], ["E1", "PF_NONE", "M_IR", "OP_BYT1"]⟩,
  ⟨0x8f, ['D', 'I'], ["E0", "PF_NONE"]⟩,
  ⟨0x9f, ['E', 'I'], ["E0", "PF_NONE"]⟩,
  ⟨0xaf, ['R', 'E', 'T'], ["E0", "PF_NONE"]⟩,
  ⟨0xbf, ['I', 'R', 'E', 'T'], ["E0", "PF_NONE"]⟩,
  ⟨0xcf, ['R', 'C', 'F'], ["E0", "PF_NONE"]⟩,
  ⟨0xdf, ['S', 'C', 'F'], ["E0", "PF_NONE"]⟩,
  ⟨0xef, ['C', 'C', 'F'], ["E0", "PF_NONE"]⟩,
  ⟨0xff, ['N', 'O', 'P'], ["E0", "PF_NONE"]⟩]

/-- src/table_z8.cpp:141-244 -/
def INDEX_COMMON : List Nat := [
  18, 19, 20, 21, 22, 13, 14, 15, 16, 17, 38, 39, 40, 41, 42, 100,
  84, 85, 74, 75, 53, 54, 55, 56, 57, 70, 71, 63, 64, 78, 79, 94,
  7, 95, 67, 68, 69, 82, 83, 97, 10, 11, 12, 8, 9, 0, 1, 2,
  3, 4, 5, 6, 101, 33, 34, 35, 36, 37, 72, 73, 76, 77, 98, 96,
  80, 81, 65, 66, 90, 91, 86, 87, 28, 29, 30, 31, 32, 99, 88, 89,
  23, 24, 25, 26, 27, 92, 93, 43, 44, 45, 46, 47, 48, 49, 50, 51,
  52, 58, 59, 60, 61, 62]

/-- src/table_z8.cpp:246-273 -/
def TABLE_Z8 : List Row := [
  ⟨0x31, ['S', 'R', 'P'], ["E1", "PF_NONE", "M_IM", "OP_BYT1"]⟩,
  ⟨0x7, ['A', 'D', 'D'], ["E2", "PF_NONE", "M_IR", "M_IM", "OP_BYT1", "OP_BYT2"]⟩,
  ⟨0x17, ['A', 'D', 'C'], ["E2", "PF_NONE", "M_IR", "M_IM", "OP_BYT1", "OP_BYT2"]⟩,
  ⟨0x27, ['S', 'U', 'B'], ["E2", "PF_NONE", "M_IR", "M_IM", "OP_BYT1", "OP_BYT2"]⟩,
  ⟨0x37, ['S', 'B', 'C'], ["E2", "PF_NONE", "M_IR", "M_IM", "OP_BYT1", "OP_BYT2"]⟩,
  ⟨0x47, ['O', 'R'], ["E2", "PF_NONE", "M_IR", "M_IM", "OP_BYT1", "OP_BYT2"]⟩,
  ⟨0x57, ['A', 'N', 'D'], ["E2", "PF_NONE", "M_IR", "M_IM", "OP_BYT1", "OP_BYT2"]⟩,
  ⟨0x67, ['T', 'C', 'M'], ["E2", "PF_NONE", "M_IR", "M_IM", "OP_BYT1", "OP_BYT2"]⟩,
  ⟨0x77, ['T', 'M'], ["E2", "PF_NONE", "M_IR", "M_IM", "OP_BYT1", "OP_BYT2"]⟩,
  ⟨0xa7, ['C', 'P'], ["E2", "PF_NONE", "M_IR", "M_IM", "OP_BYT1", "OP_BYT2"]⟩,
  ⟨0xb7, ['X', 'O', 'R'], ["E2", "PF_NONE", "M_IR", "M_IM", "OP_BYT1", "OP_BYT2"]⟩,
  ⟨0xc7, ['L', 'D'], ["E2", "PF_NONE", "M_r", "M_X", "OP_B1HI", "OP_BYT2"]⟩,
  ⟨0xd7, ['L', 'D'], ["E2", "PF_NONE", "M_X", "M_r", "OP_BYT2", "OP_B1HI"]⟩,
  ⟨0xe3, ['L', 'D'], ["E2", "PF_NONE", "M_r", "M_Ir", "OP_B1HI", "OP_B1LO"]⟩,
  ⟨0xe7, ['L', 'D'], ["E2", "PF_NONE", "M_IR", "M_IM", "OP_BYT1", "OP_BYT2"]⟩,
  ⟨0xf3, ['L', 'D'], ["E2", "PF_NONE", "M_Ir", "M_r", "OP_B1HI", "OP_B1LO"]⟩,
  ⟨0x82, ['L', 'D', 'E'], ["E2", "PF_NONE", "M_r", "M_Irr", "OP_B1HI", "OP_B1LO"]⟩,
  ⟨0x92, ['L', 'D', 'E'], ["E2", "PF_NONE", "M_Irr", "M_r", "OP_B1LO", "OP_B1HI"]⟩,
  ⟨0x83, ['L', 'D', 'E', 'I'], ["E2", "PF_NONE", "M_Ir", "M_Irr", "OP_B1HI", "OP_B1LO"]⟩,
  ⟨0x93, ['L', 'D', 'E', 'I'], ["E2", "PF_NONE", "M_Irr", "M_Ir", "OP_B1LO", "OP_B1HI"]⟩,
  ⟨0xc2, ['L', 'D', 'C'], ["E2", "PF_NONE", "M_r", "M_Irr", "OP_B1HI", "OP_B1LO"]⟩,
  ⟨0xd2, ['L', 'D', 'C'], ["E2", "PF_NONE", "M_Irr", "M_r", "OP_B1LO", "OP_B1HI"]⟩,
  ⟨0xc3, ['L', 'D', 'C', 'I'], ["E2", "PF_NONE", "M_Ir", "M_Irr", "OP_B1HI", "OP_B1LO"]⟩,
  ⟨0xd3, ['L', 'D', 'C', 'I'], ["E2", "PF_NONE", "M_Irr", "M_Ir", "OP_B1LO", "OP_B1HI"]⟩,
  ⟨0xd6, ['C', 'A', 'L', 'L'], ["E1", "PF_NONE", "M_DA", "OP_W1BE"]⟩,
  ⟨0xd4, ['C', 'A', 'L', 'L'], ["E1", "PF_NONE", "M_IRR", "OP_BYT1"]⟩]

/-- src/table_z8.cpp:275-302 -/
def INDEX_Z8 : List Nat := [
  2, 1, 6, 24, 25, 9, 11, 12, 13, 14, 15, 20, 21, 22, 23, 16,
  17, 18, 19, 5, 4, 0, 3, 7, 8, 10]

/-- src/table_z8.cpp:304-307 -/
def TABLE_Z86C : List Row := [
  ⟨0x6f, ['S', 'T', 'O', 'P'], ["E0", "PF_NONE"]⟩,
  ⟨0x7f, ['H', 'A', 'L', 'T'], ["E0", "PF_NONE"]⟩]

/-- src/table_z8.cpp:309-312 -/
def INDEX_Z86C : List Nat := [
  1, 0]

/-- src/table_z8.cpp:314-344 -/
def TABLE_SUPER8 : List Row := [
  ⟨0xf, ['N', 'E', 'X', 'T'], ["E0", "PF_NONE"]⟩,
  ⟨0x1f, ['E', 'N', 'T', 'E', 'R'], ["E0", "PF_NONE"]⟩,
  ⟨0x2f, ['E', 'X', 'I', 'T'], ["E0", "PF_NONE"]⟩,
  ⟨0x3f, ['W', 'F', 'I'], ["E0", "PF_NONE"]⟩,
  ⟨0x4f, ['S', 'B', '0'], ["E0", "PF_NONE"]⟩,
  ⟨0x5f, ['S', 'B', '1'], ["E0", "PF_NONE"]⟩,
  ⟨0xf6, ['C', 'A', 'L', 'L'], ["E1", "PF_NONE", "M_DA", "OP_W1BE"]⟩,
  ⟨0xf4, ['C', 'A', 'L', 'L'], ["E1", "PF_NONE", "M_IRR", "OP_BYT1"]⟩,
  ⟨0xd4, ['C', 'A', 'L', 'L'], ["E1", "PF_NONE", "M_IA", "OP_BYT1"]⟩,
  ⟨0x87, ['L', 'D'], ["E2", "PF_NONE", "M_r", "M_X", "OP_B1HI", "OP_BYT2"]⟩,
  ⟨0x97, ['L', 'D'], ["E2", "PF_NONE", "M_X", "M_r", "OP_BYT2", "OP_B1HI"]⟩,
  ⟨0xc7, ['L', 'D'], ["E2", "PF_NONE", "M_r", "M_Ir", "OP_B1HI", "OP_B1LO"]⟩,
  ⟨0xd7, ['L', 'D'], ["E2", "PF_NONE", "M_Ir", "M_r", "OP_B1HI", "OP_B1LO"]⟩,
  ⟨0xd6, ['L', 'D'], ["E2", "PF_NONE", "M_IR", "M_IM", "OP_BYT1", "OP_BYT2"]⟩,
  ⟨0xc4, ['L', 'D', 'W'], ["E2", "PF_NONE", "M_RR", "M_RR", "OP_BYT2", "OP_BYT1"]⟩,
  ⟨0xc5, ['L', 'D', 'W'], ["E2", "PF_NONE", "M_RR", "M_IR", "OP_BYT2", "OP_BYT1"]⟩,
  ⟨0xc6, ['L', 'D', 'W'], ["E2", "PF_NONE", "M_RR", "M_IML", "OP_BYT1", "OP_W2BE"]⟩,
  ⟨0x94, ['D', 'I', 'V'], ["E2", "PF_NONE", "M_RR", "M_R", "OP_BYT2", "OP_BYT1"]⟩,
  ⟨0x95, ['D', 'I', 'V'], ["E2", "PF_NONE", "M_RR", "M_IR", "OP_BYT2", "OP_BYT1"]⟩,
  ⟨0x96, ['D', 'I', 'V'], ["E2", "PF_NONE", "M_RR", "M_IM", "OP_BYT2", "OP_BYT1"]⟩,
  ⟨0x84, ['M', 'U', 'L', 'T'], ["E2", "PF_NONE", "M_RR", "M_R", "OP_BYT2", "OP_BYT1"]⟩,
  ⟨0x85, ['M', 'U', 'L', 'T'], ["E2", "PF_NONE", "M_RR", "M_IR", "OP_BYT2", "OP_BYT1"]⟩,
  ⟨0x86, ['M', 'U', 'L', 'T'], ["E2", "PF_NONE", "M_RR", "M_IM", "OP_BYT2", "OP_BYT1"]⟩,
  ⟨0x82, ['P', 'U', 'S', 'H', 'U', 'D'], ["E2", "PF_NONE", "M_IR", "M_R", "OP_BYT1", "OP_BYT2"]⟩,
  ⟨0x83, ['P', 'U', 'S', 'H', 'U', 'I'], ["E2", "PF_NONE", "M_IR", "M_R", "OP_BYT1", "OP_BYT2"]⟩,
  ⟨0x92, ['P', 'O', 'P', 'U', 'D'], ["E2", "PF_NONE", "M_R", "M_IR", "OP_BYT2", "OP_BYT1"]⟩,
  ⟨0x93, ['P', 'O', 'P', 'U', 'I'], ["E2", "PF_NONE", "M_R", "M_IR", "OP_BYT2", "OP_BYT1"]⟩,
  ⟨0xc2, ['C', 'P', 'I', 'J', 'E'], ["E3", "PF_NONE", "M_r", "M_Ir", "M_RA", "OP_B1LO", "OP_B1HI", "OP_BYT2"]⟩,
  ⟨0xd2, ['C', 'P', 'I', 'J', 'N', 'E'], ["E3", "PF_NONE", "M_r", "M_Ir", "M_RA", "OP_B1LO", "OP_B1HI", "OP_BYT2"]⟩]

/-- src/table_z8.cpp:346-376 -/
def INDEX_SUPER8 : List Nat := [
  6, 7, 8, 27, 28, 17, 18, 19, 1, 2, 9, 10, 11, 12, 13, 14,
  15, 16, 20, 21, 22, 0, 25, 26, 23, 24, 4, 5, 3]

/-- src/table_z8.cpp:378-420 -/
def TABLE_SUPER8_POST : List Row := [
  ⟨0xa7, ['L', 'D', 'C'], ["E2", "PF4_0", "M_r", "M_DA", "OP_B1HI", "OP_W2LE"]⟩,
  ⟨0xa7, ['L', 'D', 'E'], ["E2", "PF4_1", "M_r", "M_DA", "OP_B1HI", "OP_W2LE"]⟩,
  ⟨0xb7, ['L', 'D', 'C'], ["E2", "PF4_0", "M_DA", "M_r", "OP_W2LE", "OP_B1HI"]⟩,
  ⟨0xb7, ['L', 'D', 'E'], ["E2", "PF4_1", "M_DA", "M_r", "OP_W2LE", "OP_B1HI"]⟩,
  ⟨0xe7, ['L', 'D', 'C'], ["E2", "PF1_0", "M_r", "M_XS", "OP_B1HI", "OP_BYT2"]⟩,
  ⟨0xe7, ['L', 'D', 'E'], ["E2", "PF1_1", "M_r", "M_XS", "OP_B1HI", "OP_BYT2"]⟩,
  ⟨0xf7, ['L', 'D', 'C'], ["E2", "PF1_0", "M_XS", "M_r", "OP_BYT2", "OP_B1HI"]⟩,
  ⟨0xf7, ['L', 'D', 'E'], ["E2", "PF1_1", "M_XS", "M_r", "OP_BYT2", "OP_B1HI"]⟩,
  ⟨0xa7, ['L', 'D', 'C'], ["E2", "PF1_0", "M_r", "M_XL", "OP_B1HI", "OP_W2LE"]⟩,
  ⟨0xa7, ['L', 'D', 'E'], ["E2", "PF1_1", "M_r", "M_XL", "OP_B1HI", "OP_W2LE"]⟩,
  ⟨0xb7, ['L', 'D', 'C'], ["E2", "PF1_0", "M_XL", "M_r", "OP_W2LE", "OP_B1HI"]⟩,
  ⟨0xb7, ['L', 'D', 'E'], ["E2", "PF1_1", "M_XL", "M_r", "OP_W2LE", "OP_B1HI"]⟩,
  ⟨0x31, ['S', 'R', 'P'], ["E1", "PF2_0", "M_IM", "OP_BYT1"]⟩,
  ⟨0x31, ['S', 'R', 'P', '0'], ["E1", "PF2_2", "M_IM", "OP_BYT1"]⟩,
  ⟨0x31, ['S', 'R', 'P', '1'], ["E1", "PF2_1", "M_IM", "OP_BYT1"]⟩,
  ⟨0xc3, ['L', 'D', 'C'], ["E2", "PF1_0", "M_r", "M_Irr", "OP_B1HI", "OP_B1LO"]⟩,
  ⟨0xc3, ['L', 'D', 'E'], ["E2", "PF1_1", "M_r", "M_Irr", "OP_B1HI", "OP_B1LO"]⟩,
  ⟨0xd3, ['L', 'D', 'C'], ["E2", "PF1_0", "M_Irr", "M_r", "OP_B1LO", "OP_B1HI"]⟩,
  ⟨0xd3, ['L', 'D', 'E'], ["E2", "PF1_1", "M_Irr", "M_r", "OP_B1LO", "OP_B1HI"]⟩,
  ⟨0xe2, ['L', 'D', 'C', 'D'], ["E2", "PF1_0", "M_r", "M_Irr", "OP_B1HI", "OP_B1LO"]⟩,
  ⟨0xe2, ['L', 'D', 'E', 'D'], ["E2", "PF1_1", "M_r", "M_Irr", "OP_B1HI", "OP_B1LO"]⟩,
  ⟨0xe3, ['L', 'D', 'C', 'I'], ["E2", "PF1_0", "M_r", "M_Irr", "OP_B1HI", "OP_B1LO"]⟩,
  ⟨0xe3, ['L', 'D', 'E', 'I'], ["E2", "PF1_1", "M_r", "M_Irr", "OP_B1HI", "OP_B1LO"]⟩,
  ⟨0xf2, ['L', 'D', 'C', 'P', 'D'], ["E2", "PF1_0", "M_Irr", "M_r", "OP_B1LO", "OP_B1HI"]⟩,
  ⟨0xf2, ['L', 'D', 'E', 'P', 'D'], ["E2", "PF1_1", "M_Irr", "M_r", "OP_B1LO", "OP_B1HI"]⟩,
  ⟨0xf3, ['L', 'D', 'C', 'P', 'I'], ["E2", "PF1_0", "M_Irr", "M_r", "OP_B1LO", "OP_B1HI"]⟩,
  ⟨0xf3, ['L', 'D', 'E', 'P', 'I'], ["E2", "PF1_1", "M_Irr", "M_r", "OP_B1LO", "OP_B1HI"]⟩,
  ⟨0x17, ['B', 'C', 'P'], ["E3", "PF1_0", "M_r", "M_R", "M_IMb", "OP_B1HI", "OP_BYT2", "OP_B1LO"]⟩,
  ⟨0x57, ['B', 'I', 'T', 'C'], ["E2", "PF1_0", "M_r", "M_IMb", "OP_B1HI", "OP_B1LO"]⟩,
  ⟨0x77, ['B', 'I', 'T', 'R'], ["E2", "PF1_0", "M_r", "M_IMb", "OP_B1HI", "OP_B1LO"]⟩,
  ⟨0x77, ['B', 'I', 'T', 'S'], ["E2", "PF1_1", "M_r", "M_IMb", "OP_B1HI", "OP_B1LO"]⟩,
  ⟨0x7, ['B', 'O', 'R'], ["E3", "PF1_0", "M_r", "M_R", "M_IMb", "OP_B1HI", "OP_BYT2", "OP_B1LO"]⟩,
  ⟨0x7, ['B', 'O', 'R'], ["E3", "PF1_1", "M_R", "M_IMb", "M_r", "OP_BYT2", "OP_B1LO", "OP_B1HI"]⟩,
  ⟨0x27, ['B', 'X', 'O', 'R'], ["E3", "PF1_0", "M_r", "M_R", "M_IMb", "OP_B1HI", "OP_BYT2", "OP_B1LO"]⟩,
  ⟨0x27, ['B', 'X', 'O', 'R'], ["E3", "PF1_1", "M_R", "M_IMb", "M_r", "OP_BYT2", "OP_B1LO", "OP_B1HI"]⟩,
  ⟨0x47, ['L', 'D', 'B'], ["E3", "PF1_0", "M_r", "M_R", "M_IMb", "OP_B1HI", "OP_BYT2", "OP_B1LO"]⟩,
  ⟨0x47, ['L', 'D', 'B'], ["E3", "PF1_1", "M_R", "M_IMb", "M_r", "OP_BYT2", "OP_B1LO", "OP_B1HI"]⟩,
  ⟨0x67, ['B', 'A', 'N', 'D'], ["E3", "PF1_0", "M_r", "M_R", "M_IMb", "OP_B1HI", "OP_BYT2", "OP_B1LO"]⟩,
  ⟨0x67, ['B', 'A', 'N', 'D'], ["E3", "PF1_1", "M_R", "M_IMb", "M_r", "OP_BYT2", "OP_B1LO", "OP_B1HI"]⟩,
  ⟨0x37, ['B', 'T', 'J', 'R', 'F'], ["E3", "PF1_0", "M_RA", "M_r", "M_IMb", "OP_BYT2", "OP_B1HI", "OP_B1LO"]⟩,
  ⟨0x37, ['B', 'T', 'J', 'R', 'T'], ["E3", "PF1_1", "M_RA", "M_r", "M_IMb", "OP_BYT2", "OP_B1HI", "OP_B1LO"]⟩]

/-- src/table_z8.cpp:422-464 -/
def INDEX_SUPER8_POST : List Nat := [
  37, 38, 27, 28, 29, 30, 31, 32, 39, 40, 33, 34, 35, 36, 0, 2,
  4, 6, 8, 10, 15, 17, 19, 21, 23, 25, 1, 3, 5, 7, 9, 11,
  16, 18, 20, 22, 24, 26, 12, 13, 14]

/-- src/table_z8.cpp:469-472 -/
def Z8_PAGES : List (Page Row) := [
  ⟨0x0, [], TABLE_Z8, INDEX_Z8⟩,
  ⟨0x0, [], TABLE_COMMON, INDEX_COMMON⟩]

/-- src/table_z8.cpp:474-478 -/
def Z86C_PAGES : List (Page Row) := [
  ⟨0x0, [], TABLE_Z8, INDEX_Z8⟩,
  ⟨0x0, [], TABLE_COMMON, INDEX_COMMON⟩,
  ⟨0x0, [], TABLE_Z86C, INDEX_Z86C⟩]

/-- src/table_z8.cpp:480-484 -/
def SUPER8_PAGES : List (Page Row) := [
  ⟨0x0, [], TABLE_SUPER8, INDEX_SUPER8⟩,
  ⟨0x0, [], TABLE_SUPER8_POST, INDEX_SUPER8_POST⟩,
  ⟨0x0, [], TABLE_COMMON, INDEX_COMMON⟩]

/-- The processors of src/table_z8.cpp: CPU_TABLE 488-492 -/
def cpus : List Cpu := [
  ⟨['Z', '8'], Z8_PAGES⟩,
  ⟨['Z', '8', '6', 'C'], Z86C_PAGES⟩,
  ⟨['Z', '8', '8'], SUPER8_PAGES⟩]

theorem TABLE_Z8_INDEX_Z8 (n : Nat) (x : List String) : PageOk ⟨n, x, TABLE_Z8, INDEX_Z8⟩ :=
  pageB_sound ⟨n, x, TABLE_Z8, INDEX_Z8⟩ (show pageB ⟨0, [], TABLE_Z8, INDEX_Z8⟩ = true by decide +kernel)

theorem TABLE_COMMON_INDEX_COMMON (n : Nat) (x : List String) : PageOk ⟨n, x, TABLE_COMMON, INDEX_COMMON⟩ :=
  pageB_sound ⟨n, x, TABLE_COMMON, INDEX_COMMON⟩ (show pageB ⟨0, [], TABLE_COMMON, INDEX_COMMON⟩ = true by decide +kernel)

theorem TABLE_Z86C_INDEX_Z86C (n : Nat) (x : List String) : PageOk ⟨n, x, TABLE_Z86C, INDEX_Z86C⟩ :=
  pageB_sound ⟨n, x, TABLE_Z86C, INDEX_Z86C⟩ (show pageB ⟨0, [], TABLE_Z86C, INDEX_Z86C⟩ = true by decide +kernel)

theorem TABLE_SUPER8_INDEX_SUPER8 (n : Nat) (x : List String) : PageOk ⟨n, x, TABLE_SUPER8, INDEX_SUPER8⟩ :=
  pageB_sound ⟨n, x, TABLE_SUPER8, INDEX_SUPER8⟩ (show pageB ⟨0, [], TABLE_SUPER8, INDEX_SUPER8⟩ = true by decide +kernel)

theorem TABLE_SUPER8_POST_INDEX_SUPER8_POST (n : Nat) (x : List String) : PageOk ⟨n, x, TABLE_SUPER8_POST, INDEX_SUPER8_POST⟩ :=
  pageB_sound ⟨n, x, TABLE_SUPER8_POST, INDEX_SUPER8_POST⟩ (show pageB ⟨0, [], TABLE_SUPER8_POST, INDEX_SUPER8_POST⟩ = true by decide +kernel)

theorem Z8_PAGES_ok : ∀ p ∈ Z8_PAGES, PageOk p :=
  List.forall_mem_cons.mpr <| And.intro (TABLE_Z8_INDEX_Z8 _ _) <| List.forall_mem_cons.mpr <| And.intro (TABLE_COMMON_INDEX_COMMON _ _) nofun

theorem Z86C_PAGES_ok : ∀ p ∈ Z86C_PAGES, PageOk p :=
  List.forall_mem_cons.mpr <| And.intro (TABLE_Z8_INDEX_Z8 _ _) <| List.forall_mem_cons.mpr <| And.intro (TABLE_COMMON_INDEX_COMMON _ _) <| List.forall_mem_cons.mpr <| And.intro (TABLE_Z86C_INDEX_Z86C _ _) nofun

theorem SUPER8_PAGES_ok : ∀ p ∈ SUPER8_PAGES, PageOk p :=
  List.forall_mem_cons.mpr <| And.intro (TABLE_SUPER8_INDEX_SUPER8 _ _) <| List.forall_mem_cons.mpr <| And.intro (TABLE_SUPER8_POST_INDEX_SUPER8_POST _ _) <| List.forall_mem_cons.mpr <| And.intro (TABLE_COMMON_INDEX_COMMON _ _) nofun

theorem cpus_ok : ∀ c ∈ cpus, ∀ p ∈ c.pages, PageOk p :=
  List.forall_mem_cons.mpr <| And.intro Z8_PAGES_ok <| List.forall_mem_cons.mpr <| And.intro Z86C_PAGES_ok <| List.forall_mem_cons.mpr <| And.intro SUPER8_PAGES_ok nofun

end Libasm.Tables.Z8
