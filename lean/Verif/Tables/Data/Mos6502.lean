import Verif.Tables.Row
/-
Generated by tools/gen_tables.py from src/table_mos6502.cpp: names, codes, operands and indexes as written
there. Do not edit.
-/
namespace Libasm.Tables.Mos6502
open Table

/-- src/table_mos6502.cpp:34-186 -/
def MOS6502_TABLE : List Row := [
  ⟨0x0, ['B', 'R', 'K'], ["E0"]⟩,
  ⟨0x40, ['R', 'T', 'I'], ["E0"]⟩,
  ⟨0x60, ['R', 'T', 'S'], ["E0"]⟩,
  ⟨0xea, ['N', 'O', 'P'], ["E0"]⟩,
  ⟨0x8, ['P', 'H', 'P'], ["E0"]⟩,
  ⟨0x28, ['P', 'L', 'P'], ["E0"]⟩,
  ⟨0x48, ['P', 'H', 'A'], ["E0"]⟩,
  ⟨0x68, ['P', 'L', 'A'], ["E0"]⟩,
  ⟨0x88, ['D', 'E', 'Y'], ["E0"]⟩,
  ⟨0xc8, ['I', 'N', 'Y'], ["E0"]⟩,
  ⟨0xca, ['D', 'E', 'X'], ["E0"]⟩,
  ⟨0xe8, ['I', 'N', 'X'], ["E0"]⟩,
  ⟨0x98, ['T', 'Y', 'A'], ["E0"]⟩,
  ⟨0xa8, ['T', 'A', 'Y'], ["E0"]⟩,
  ⟨0x8a, ['T', 'X', 'A'], ["E0"]⟩,
  ⟨0xaa, ['T', 'A', 'X'], ["E0"]⟩,
  ⟨0x9a, ['T', 'X', 'S'], ["E0"]⟩,
  ⟨0xba, ['T', 'S', 'X'], ["E0"]⟩,
  ⟨0x18, ['C', 'L', 'C'], ["E0"]⟩,
  ⟨0x38, ['S', 'E', 'C'], ["E0"]⟩,
  ⟨0x58, ['C', 'L', 'I'], ["E0"]⟩,
  ⟨0x78, ['S', 'E', 'I'], ["E0"]⟩,
  ⟨0xb8, ['C', 'L', 'V'], ["E0"]⟩,
  ⟨0xd8, ['C', 'L', 'D'], ["E0"]⟩,
  ⟨0xf8, ['S', 'E', 'D'], ["E0"]⟩,
  ⟨0xa, ['A', 'S', 'L'], ["E1", "M_REGA"]⟩,
  ⟨0x2a, ['R', 'O', 'L'], ["E1", "M_REGA"]⟩,
  ⟨0x4a, ['L', 'S', 'R'], ["E1", "M_REGA"]⟩,
  ⟨0x6a, ['R', 'O', 'R'], ["E1", "M_REGA"]⟩,
  ⟨0xa0, ['L', 'D', 'Y'], ["E1", "M_IMX"]⟩,
  ⟨0xa2, ['L', 'D', 'X'], ["E1", "M_IMX"]⟩,
  ⟨0xc0, ['C', 'P', 'Y'], ["E1", "M_IMX"]⟩,
  ⟨0xe0, ['C', 'P', 'X'], ["E1", "M_IMX"]⟩,
  ⟨0x9, ['O', 'R', 'A'], ["E1", "M_IMA"]⟩,
  ⟨0x29, ['A', 'N', 'D'], ["E1", "M_IMA"]⟩,
  ⟨0x49, ['E', 'O', 'R'], ["E1", "M_IMA"]⟩,
  ⟨0x69, ['A', 'D', 'C'], ["E1", "M_IMA"]⟩,
  ⟨0xa9, ['L', 'D', 'A'], ["E1", "M_IMA"]⟩,
  ⟨0xc9, ['C', 'M', 'P'], ["E1", "M_IMA"]⟩,
  ⟨0xe9, ['S', 'B', 'C'], ["E1", "M_IMA"]⟩,
  ⟨0x24, ['B', 'I', 'T'], ["E1", "M_DPG"]⟩,
  ⟨0x5, ['O', 'R', 'A'], ["E1", "M_DPG"]⟩,
  ⟨0x25, ['A', 'N', 'D'], ["E1", "M_DPG"]⟩,
  ⟨0x45, ['E', 'O', 'R'], ["E1", "M_DPG"]⟩,
  ⟨0x65, ['A', 'D', 'C'], ["E1", "M_DPG"]⟩,
  ⟨0x85, ['S', 'T', 'A'], ["E1", "M_DPG"]⟩,
  ⟨0xa5, ['L', 'D', 'A'], ["E1", "M_DPG"]⟩,
  ⟨0xc5, ['C', 'M', 'P'], ["E1", "M_DPG"]⟩,
  ⟨0xe5, ['S', 'B', 'C'], ["E1", "M_DPG"]⟩,
  ⟨0x84, ['S', 'T', 'Y'], ["E1", "M_DPG"]⟩,
  ⟨0xa4, ['L', 'D', 'Y'], ["E1", "M_DPG"]⟩,
  ⟨0xc4, ['C', 'P', 'Y'], ["E1", "M_DPG"]⟩,
  ⟨0x86, ['S', 'T', 'X'], ["E1", "M_DPG"]⟩,
  ⟨0xa6, ['L', 'D', 'X'], ["E1", "M_DPG"]⟩,
  ⟨0xe4, ['C', 'P', 'X'], ["E1", "M_DPG"]⟩,
  ⟨0xc6, ['D', 'E', 'C'], ["E1", "M_DPG"]⟩,
  ⟨0xe6, ['I', 'N', 'C'], ["E1", "M_DPG"]⟩,
  ⟨0x6, ['A', 'S', 'L'], ["E1", "M_DPG"]⟩,
  ⟨0x26, ['R', 'O', 'L'], ["E1", "M_DPG"]⟩,
  ⟨0x46, ['L', 'S', 'R'], ["E1", "M_DPG"]⟩,
  ⟨0x66, ['R', 'O', 'R'], ["E1", "M_DPG"]⟩,
  ⟨0x15, ['O', 'R', 'A'], ["E2", "M_DPG", "M_REGX"]⟩,
  ⟨0x35, ['A', 'N', 'D'], ["E2", "M_DPG", "M_REGX"]⟩,
  ⟨0x55, ['E', 'O', 'R'], ["E2", "M_DPG", "M_REGX"]⟩,
  ⟨0x75, ['A', 'D', 'C'], ["E2", "M_DPG", "M_REGX"]⟩,
  ⟨0x95, ['S', 'T', 'A'], ["E2", "M_DPG", "M_REGX"]⟩,
  ⟨0xb5, ['L', 'D', 'A'], ["E2", "M_DPG", "M_REGX"]⟩,
  ⟨0xd5, ['C', 'M', 'P'], ["E2", "M_DPG", "M_REGX"]⟩,
  ⟨0xf5, ['S', 'B', 'C'], ["E2", "M_DPG", "M_REGX"]⟩,
  ⟨0x94, ['S', 'T', 'Y'], ["E2", "M_DPG", "M_REGX"]⟩,
  ⟨0xb4, ['L', 'D', 'Y'], ["E2", "M_DPG", "M_REGX"]⟩,
  ⟨0x96, ['S', 'T', 'X'], ["E2", "M_DPG", "M_REGY"]⟩,
  ⟨0xb6, ['L', 'D', 'X'], ["E2", "M_DPG", "M_REGY"]⟩,
  ⟨0xd6, ['D', 'E', 'C'], ["E2", "M_DPG", "M_REGX"]⟩,
  ⟨0xf6, ['I', 'N', 'C'], ["E2", "M_DPG", "M_REGX"]⟩,
  ⟨0x16, ['A', 'S', 'L'], ["E2", "M_DPG", "M_REGX"]⟩,
  ⟨0x36, ['R', 'O', 'L'], ["E2", "M_DPG", "M_REGX"]⟩,
  ⟨0x56, ['L', 'S', 'R'], ["E2", "M_DPG", "M_REGX"]⟩,
  ⟨0x76, ['R', 'O', 'R'], ["E2", "M_DPG", "M_REGX"]⟩,
  ⟨0x2c, ['B', 'I', 'T'], ["E1", "M_ABS"]⟩,
  ⟨0xd, ['O', 'R', 'A'], ["E1", "M_ABS"]⟩,
  ⟨0x2d, ['A', 'N', 'D'], ["E1", "M_ABS"]⟩,
  ⟨0x4d, ['E', 'O', 'R'], ["E1", "M_ABS"]⟩,
  ⟨0x6d, ['A', 'D', 'C'], ["E1", "M_ABS"]⟩,
  ⟨0x8d, ['S', 'T', 'A'], ["E1", "M_ABS"]⟩,
  ⟨0xad, ['L', 'D', 'A'], ["E1", "M_ABS"]⟩,
  ⟨0xcd, ['C', 'M', 'P'], ["E1", "M_ABS"]⟩,
  ⟨0xed, ['S', 'B', 'C'], ["E1", "M_ABS"]⟩,
  ⟨0x8c, ['S', 'T', 'Y'], ["E1", "M_ABS"]⟩,
  ⟨0xac, ['L', 'D', 'Y'], ["E1", "M_ABS"]⟩,
  ⟨0xcc, ['C', 'P', 'Y'], ["E1", "M_ABS"]⟩,
  ⟨0x8e, ['S', 'T', 'X'], ["E1", "M_ABS"]⟩,
  ⟨0xae, ['L', 'D', 'X'], ["E1", "M_ABS"]⟩,
  ⟨0xec, ['C', 'P', 'X'], ["E1", "M_ABS"]⟩,
  ⟨0xce, ['D', 'E', 'C'], ["E1", "M_ABS"]⟩,
  ⟨0xee, ['I', 'N', 'C'], ["E1", "M_ABS"]⟩,
  ⟨0xe, ['A', 'S', 'L'], ["E1", "M_ABS"]⟩,
  ⟨0x2e, ['R', 'O', 'L'], ["E1", "M_ABS"]⟩,
  ⟨0x4e, ['L', 'S', 'R'], ["E1", "M_ABS"]⟩,
  ⟨0x6e, ['R', 'O', 'R'], ["E1", "M_ABS"]⟩,
  ⟨0x4c, ['J', 'M', 'P'], ["E1", "M_ABS"]⟩,
  ⟨0x20, ['J', 'S', 'R'], ["E1", "M_ABS"]⟩,
  ⟨0x1d, ['O', 'R', 'A'], ["E2", "M_ABS", "M_REGX"]⟩,
  ⟨0x3d, ['A', 'N', 'D'], ["E2", "M_ABS", "M_REGX"]⟩,
  ⟨0x5d, ['E', 'O', 'R'], ["E2", "M_ABS", "M_REGX"]⟩,
  ⟨0x7d, ['A', 'D', 'C'], ["E2", "M_ABS", "M_REGX"]⟩,
  ⟨0x9d, ['S', 'T', 'A'], ["E2", "M_ABS", "M_REGX"]⟩,
  ⟨0xbd, ['L', 'D', 'A'], ["E2", "M_ABS", "M_REGX"]⟩,
  ⟨0xdd, ['C', 'M', 'P'], ["E2", "M_ABS", "M_REGX"]⟩,
  ⟨0xfd, ['S', 'B', 'C'], ["E2", "M_ABS", "M_REGX"]⟩,
  ⟨0x19, ['O', 'R', 'A'], ["E2", "M_ABS", "M_REGY"]⟩,
  ⟨0x39, ['A', 'N', 'D'], ["E2", "M_ABS", "M_REGY"]⟩,
  ⟨0x59, ['E', 'O', 'R'], ["E2", "M_ABS", "M_REGY"]⟩,
  ⟨0x79, ['A', 'D', 'C'], ["E2", "M_ABS", "M_REGY"]⟩,
  ⟨0x99, ['S', 'T', 'A'], ["E2", "M_ABS", "M_REGY"]⟩,
  ⟨0xb9, ['L', 'D', 'A'], ["E2", "M_ABS", "M_REGY"]⟩,
  ⟨0xd9, ['C', 'M', 'P'], ["E2", "M_ABS", "M_REGY"]⟩,
  ⟨0xf9, ['S', 'B', 'C'], ["E2", "M_ABS", "M_REGY"]⟩,
  ⟨0xbc, ['L', 'D', 'Y'], ["E2", "M_ABS", "M_REGX"]⟩,
  ⟨0xbe, ['L', 'D', 'X'], ["E2", "M_ABS", "M_REGY"]⟩,
  ⟨0xde, ['D', 'E', 'C'], ["E2", "M_ABS", "M_REGX"]⟩,
  ⟨0xfe, ['I', 'N', 'C'], ["E2", "M_ABS", "M_REGX"]⟩,
  ⟨0x1e, ['A', 'S', 'L'], ["E2", "M_ABS", "M_REGX"]⟩,
  ⟨0x3e, ['R', 'O', 'L'], ["E2", "M_ABS", "M_REGX"]⟩,
  ⟨0x5e, ['L', 'S', 'R'], ["E2", "M_ABS", "M_REGX"]⟩,
  ⟨0x7e, ['R', 'O', 'R'], ["E2", "M_ABS", "M_REGX"]⟩,
  ⟨0x6c, ['J', 'M', 'P'], ["E1", "I_ABS"]⟩,
  ⟨0x1, ['O', 'R', 'A'], ["E2", "I_DPG", "I_REGX"]⟩,
  ⟨0x21, ['A', 'N', 'D'], ["E2", "I_DPG", "I_REGX"]⟩,
  ⟨0x41, ['E', 'O', 'R'], ["E2", "I_DPG", "I_REGX"]⟩,
  ⟨0x61, ['A', 'D', 'C'], ["E2", "I_DPG", "I_REGX"]⟩,
  ⟨0x81, ['S', 'T', 'A'], ["E2", "I_DPG", "I_REGX"]⟩,
  ⟨0xa1, ['L', 'D', 'A'], ["E2", "I_DPG", "I_REGX"]⟩,
  ⟨0xc1, ['C', 'M', 'P'], ["E2", "I_DPG", "I_REGX"]⟩,
  ⟨0xe1, ['S', 'B', 'C'], ["E2", "I_DPG", "I_REGX"]⟩,
  ⟨0x11, ['O', 'R', 'A'], ["E2", "I_DPG", "M_REGY"]⟩,
  ⟨0x31, ['A', 'N', 'D'], ["E2", "I_DPG", "M_REGY"]⟩,
  ⟨0x51, ['E', 'O', 'R'], ["E2", "I_DPG", "M_REGY"]⟩,
  ⟨0x71, ['A', 'D', 'C'], ["E2", "I_DPG", "M_REGY"]⟩,
  ⟨0x91, ['S', 'T', 'A'], ["E2", "I_DPG", "M_REGY"]⟩,
  ⟨0xb1, ['L', 'D', 'A'], ["E2", "I_DPG", "M_REGY"]⟩,
  ⟨0xd1, ['C', 'M', 'P'], ["E2", "I_DPG", "M_REGY"]⟩,
  ⟨0xf1, ['S', 'B', 'C'], ["E2", "I_DPG", "M_REGY"]⟩,
  ⟨0x10, ['B', 'P', 'L'], ["E1", "M_REL"]⟩,
  ⟨0x30, ['B', 'M', 'I'], ["E1", "M_REL"]⟩,
  ⟨0x50, ['B', 'V', 'C'], ["E1", "M_REL"]⟩,
  ⟨0x70, ['B', 'V', 'S'], ["E1", "M_REL"]⟩,
  ⟨0x90, ['B', 'C', 'C'], ["E1", "M_REL"]⟩,
  ⟨0xb0, ['B', 'C', 'S'], ["E1", "M_REL"]⟩,
  ⟨0xd0, ['B', 'N', 'E'], ["E1", "M_REL"]⟩,
  ⟨0xf0, ['B', 'E', 'Q'], ["E1", "M_REL"]⟩]

/-- src/table_mos6502.cpp:188-340 -/
def MOS6502_INDEX : List Nat := [
  36, 44, 64, 83, 105, 113, 130, 138, 34, 42, 62, 81, 103, 111, 128, 136,
  25, 57, 75, 96, 122, 147, 148, 150, 40, 79, 144, 149, 143, 0, 145, 146,
  18, 23, 20, 22, 38, 47, 67, 86, 108, 116, 133, 141, 32, 54, 93, 31,
  51, 90, 55, 73, 94, 120, 10, 8, 35, 43, 63, 82, 104, 112, 129, 137,
  56, 74, 95, 121, 11, 9, 100, 126, 101, 37, 46, 66, 85, 107, 115, 132,
  140, 30, 53, 72, 92, 119, 29, 50, 70, 89, 118, 27, 59, 77, 98, 124,
  3, 33, 41, 61, 80, 102, 110, 127, 135, 6, 4, 7, 5, 26, 58, 76,
  97, 123, 28, 60, 78, 99, 125, 1, 2, 39, 48, 68, 87, 109, 117, 134,
  142, 19, 24, 21, 45, 65, 84, 106, 114, 131, 139, 52, 71, 91, 49, 69,
  88, 15, 13, 17, 14, 16, 12]

/-- src/table_mos6502.cpp:342-370 -/
def G65SC02_TABLE : List Row := [
  ⟨0x5a, ['P', 'H', 'Y'], ["E0"]⟩,
  ⟨0x7a, ['P', 'L', 'Y'], ["E0"]⟩,
  ⟨0xda, ['P', 'H', 'X'], ["E0"]⟩,
  ⟨0xfa, ['P', 'L', 'X'], ["E0"]⟩,
  ⟨0x1a, ['I', 'N', 'C'], ["E1", "M_REGA"]⟩,
  ⟨0x3a, ['D', 'E', 'C'], ["E1", "M_REGA"]⟩,
  ⟨0x89, ['B', 'I', 'T'], ["E1", "M_IMA"]⟩,
  ⟨0x4, ['T', 'S', 'B'], ["E1", "M_DPG"]⟩,
  ⟨0x14, ['T', 'R', 'B'], ["E1", "M_DPG"]⟩,
  ⟨0x64, ['S', 'T', 'Z'], ["E1", "M_DPG"]⟩,
  ⟨0x34, ['B', 'I', 'T'], ["E2", "M_DPG", "M_REGX"]⟩,
  ⟨0x74, ['S', 'T', 'Z'], ["E2", "M_DPG", "M_REGX"]⟩,
  ⟨0xc, ['T', 'S', 'B'], ["E1", "M_ABS"]⟩,
  ⟨0x1c, ['T', 'R', 'B'], ["E1", "M_ABS"]⟩,
  ⟨0x9c, ['S', 'T', 'Z'], ["E1", "M_ABS"]⟩,
  ⟨0x3c, ['B', 'I', 'T'], ["E2", "M_ABS", "M_REGX"]⟩,
  ⟨0x9e, ['S', 'T', 'Z'], ["E2", "M_ABS", "M_REGX"]⟩,
  ⟨0x7c, ['J', 'M', 'P'], ["E2", "I_ABS", "I_REGX"]⟩,
  ⟨0x12, ['O', 'R', 'A'], ["E1", "I_DPG"]⟩,
  ⟨0x32, ['A', 'N', 'D'], ["E1", "I_DPG"]⟩,
  ⟨0x52, ['E', 'O', 'R'], ["E1", "I_DPG"]⟩,
  ⟨0x72, ['A', 'D', 'C'], ["E1", "I_DPG"]⟩,
  ⟨0x92, ['S', 'T', 'A'], ["E1", "I_DPG"]⟩,
  ⟨0xb2, ['L', 'D', 'A'], ["E1", "I_DPG"]⟩,
  ⟨0xd2, ['C', 'M', 'P'], ["E1", "I_DPG"]⟩,
  ⟨0xf2, ['S', 'B', 'C'], ["E1", "I_DPG"]⟩,
  ⟨0x80, ['B', 'R', 'A'], ["E1", "M_REL"]⟩]

/-- src/table_mos6502.cpp:372-400 -/
def G65SC02_INDEX : List Nat := [
  21, 19, 6, 10, 15, 26, 24, 5, 20, 4, 17, 23, 18, 2, 0, 3,
  1, 25, 22, 9, 11, 14, 16, 8, 13, 7, 12]

/-- src/table_mos6502.cpp:402-435 -/
def R65C02_TABLE : List Row := [
  ⟨0xf, ['B', 'B', 'R', '0'], ["E2", "M_DPG", "M_REL"]⟩,
  ⟨0x1f, ['B', 'B', 'R', '1'], ["E2", "M_DPG", "M_REL"]⟩,
  ⟨0x2f, ['B', 'B', 'R', '2'], ["E2", "M_DPG", "M_REL"]⟩,
  ⟨0x3f, ['B', 'B', 'R', '3'], ["E2", "M_DPG", "M_REL"]⟩,
  ⟨0x4f, ['B', 'B', 'R', '4'], ["E2", "M_DPG", "M_REL"]⟩,
  ⟨0x5f, ['B', 'B', 'R', '5'], ["E2", "M_DPG", "M_REL"]⟩,
  ⟨0x6f, ['B', 'B', 'R', '6'], ["E2", "M_DPG", "M_REL"]⟩,
  ⟨0x7f, ['B', 'B', 'R', '7'], ["E2", "M_DPG", "M_REL"]⟩,
  ⟨0x8f, ['B', 'B', 'S', '0'], ["E2", "M_DPG", "M_REL"]⟩,
  ⟨0x9f, ['B', 'B', 'S', '1'], ["E2", "M_DPG", "M_REL"]⟩,
  ⟨0xaf, ['B', 'B', 'S', '2'], ["E2", "M_DPG", "M_REL"]⟩,
  ⟨0xbf, ['B', 'B', 'S', '3'], ["E2", "M_DPG", "M_REL"]⟩,
  ⟨0xcf, ['B', 'B', 'S', '4'], ["E2", "M_DPG", "M_REL"]⟩,
  ⟨0xdf, ['B', 'B', 'S', '5'], ["E2", "M_DPG", "M_REL"]⟩,
  ⟨0xef, ['B', 'B', 'S', '6'], ["E2", "M_DPG", "M_REL"]⟩,
  ⟨0xff, ['B', 'B', 'S', '7'], ["E2", "M_DPG", "M_REL"]⟩,
  ⟨0x7, ['R', 'M', 'B', '0'], ["E1", "M_DPG"]⟩,
  ⟨0x17, ['R', 'M', 'B', '1'], ["E1", "M_DPG"]⟩,
  ⟨0x27, ['R', 'M', 'B', '2'], ["E1", "M_DPG"]⟩,
  ⟨0x37, ['R', 'M', 'B', '3'], ["E1", "M_DPG"]⟩,
  ⟨0x47, ['R', 'M', 'B', '4'], ["E1", "M_DPG"]⟩,
  ⟨0x57, ['R', 'M', 'B', '5'], ["E1", "M_DPG"]⟩,
  ⟨0x67, ['R', 'M', 'B', '6'], ["E1", "M_DPG"]⟩,
  ⟨0x77, ['R', 'M', 'B', '7'], ["E1", "M_DPG"]⟩,
  ⟨0x87, ['S', 'M', 'B', '0'], ["E1", "M_DPG"]⟩,
  ⟨0x97, ['S', 'M', 'B', '1'], ["E1", "M_DPG"]⟩,
  ⟨0xa7, ['S', 'M', 'B', '2'], ["E1", "M_DPG"]⟩,
  ⟨0xb7, ['S', 'M', 'B', '3'], ["E1", "M_DPG"]⟩,
  ⟨0xc7, ['S', 'M', 'B', '4'], ["E1", "M_DPG"]⟩,
  ⟨0xd7, ['S', 'M', 'B', '5'], ["E1", "M_DPG"]⟩,
  ⟨0xe7, ['S', 'M', 'B', '6'], ["E1", "M_DPG"]⟩,
  ⟨0xf7, ['S', 'M', 'B', '7'], ["E1", "M_DPG"]⟩]

/-- src/table_mos6502.cpp:437-470 -/
def R65C02_INDEX : List Nat := [
  0, 1, 2, 3, 4, 5, 6, 7, 8, 9, 10, 11, 12, 13, 14, 15,
  16, 17, 18, 19, 20, 21, 22, 23, 24, 25, 26, 27, 28, 29, 30, 31]

/-- src/table_mos6502.cpp:472-475 -/
def W65C02S_TABLE : List Row := [
  ⟨0xcb, ['W', 'A', 'I'], ["E0"]⟩,
  ⟨0xdb, ['S', 'T', 'P'], ["E0"]⟩]

/-- src/table_mos6502.cpp:477-480 -/
def W65C02S_INDEX : List Nat := [
  1, 0]

/-- src/table_mos6502.cpp:482-576 -/
def W65C816_TABLE : List Row := [
  ⟨0xb, ['P', 'H', 'D'], ["E0"]⟩,
  ⟨0x1b, ['T', 'C', 'S'], ["E0"]⟩,
  ⟨0x2b, ['P', 'L', 'D'], ["E0"]⟩,
  ⟨0x3b, ['T', 'S', 'C'], ["E0"]⟩,
  ⟨0x4b, ['P', 'H', 'K'], ["E0"]⟩,
  ⟨0x5b, ['T', 'C', 'D'], ["E0"]⟩,
  ⟨0x6b, ['R', 'T', 'L'], ["E0"]⟩,
  ⟨0x7b, ['T', 'D', 'C'], ["E0"]⟩,
  ⟨0x8b, ['P', 'H', 'B'], ["E0"]⟩,
  ⟨0x9b, ['T', 'X', 'Y'], ["E0"]⟩,
  ⟨0xab, ['P', 'L', 'B'], ["E0"]⟩,
  ⟨0xbb, ['T', 'Y', 'X'], ["E0"]⟩,
  ⟨0xeb, ['X', 'B', 'A'], ["E0"]⟩,
  ⟨0xfb, ['X', 'C', 'E'], ["E0"]⟩,
  ⟨0x2, ['C', 'O', 'P'], ["E1", "M_IM8"]⟩,
  ⟨0x42, ['W', 'D', 'M'], ["E1", "M_IM8"]⟩,
  ⟨0xc2, ['R', 'E', 'P'], ["E1", "M_IM8"]⟩,
  ⟨0xe2, ['S', 'E', 'P'], ["E1", "M_IM8"]⟩,
  ⟨0x5c, ['J', 'M', 'P'], ["E1", "M_ABSL"]⟩,
  ⟨0xdc, ['J', 'M', 'P'], ["E1", "L_ABS"]⟩,
  ⟨0xfc, ['J', 'S', 'R'], ["E2", "I_ABS", "I_REGX"]⟩,
  ⟨0x22, ['J', 'S', 'L'], ["E1", "M_ABSL"]⟩,
  ⟨0x62, ['P', 'E', 'R'], ["E1", "M_LREL"]⟩,
  ⟨0x82, ['B', 'R', 'L'], ["E1", "M_LREL"]⟩,
  ⟨0xd4, ['P', 'E', 'I'], ["E1", "I_DPG"]⟩,
  ⟨0xf4, ['P', 'E', 'A'], ["E1", "M_ABS"]⟩,
  ⟨0x44, ['M', 'V', 'P'], ["E2", "M_BANK", "M_BANK"]⟩,
  ⟨0x54, ['M', 'V', 'N'], ["E2", "M_BANK", "M_BANK"]⟩,
  ⟨0x3, ['O', 'R', 'A'], ["E2", "M_DPG", "M_REGS"]⟩,
  ⟨0x13, ['O', 'R', 'A'], ["E3", "I_DPG", "I_REGS", "M_REGY"]⟩,
  ⟨0x7, ['O', 'R', 'A'], ["E1", "L_DPG"]⟩,
  ⟨0x17, ['O', 'R', 'A'], ["E2", "L_DPG", "M_REGY"]⟩,
  ⟨0xf, ['O', 'R', 'A'], ["E1", "M_ABSL"]⟩,
  ⟨0x1f, ['O', 'R', 'A'], ["E2", "M_ABSL", "M_REGX"]⟩,
  ⟨0x23, ['A', 'N', 'D'], ["E2", "M_DPG", "M_REGS"]⟩,
  ⟨0x33, ['A', 'N', 'D'], ["E3", "I_DPG", "I_REGS", "M_REGY"]⟩,
  ⟨0x27, ['A', 'N', 'D'], ["E1", "L_DPG"]⟩,
  ⟨0x37, ['A', 'N', 'D'], ["E2", "L_DPG", "M_REGY"]⟩,
  ⟨0x2f, ['A', 'N', 'D'], ["E1", "M_ABSL"]⟩,
  ⟨0x3f, ['A', 'N', 'D'], ["E2", "M_ABSL", "M_REGX"]⟩,
  ⟨0x43, ['E', 'O', 'R'], ["E2", "M_DPG", "M_REGS"]⟩,
  ⟨0x53, ['E', 'O', 'R'], ["E3", "I_DPG", "I_REGS", "M_REGY"]⟩,
  ⟨0x47, ['E', 'O', 'R'], ["E1", "L_DPG"]⟩,
  ⟨0x57, ['E', 'O', 'R'], ["E2", "L_DPG", "M_REGY"]⟩,
  ⟨0x4f, ['E', 'O', 'R'], ["E1", "M_ABSL"]⟩,
  ⟨0x5f, ['E', 'O', 'R'], ["E2", "M_ABSL", "M_REGX"]⟩,
  ⟨0x63, ['A', 'D', 'C'], ["E2", "M_DPG", "M_REGS"]⟩,
  ⟨0x73, ['A', 'D', 'C'], ["E3", "I_DPG", "I_REGS", "M_REGY"]⟩,
  ⟨0x67, ['A', 'D', 'C'], ["E1", "L_DPG"]⟩,
  ⟨0x77, ['A', 'D', 'C'], ["E2", "L_DPG", "M_REGY"]⟩,
  ⟨0x6f, ['A', 'D', 'C'], ["E1", "M_ABSL"]⟩,
  ⟨0x7f, ['A', 'D', 'C'], ["E2", "M_ABSL", "M_REGX"]⟩,
  ⟨0x83, ['S', 'T', 'A'], ["E2", "M_DPG", "M_REGS"]⟩,
  ⟨0x93, ['S', 'T', 'A'], ["E3", "I_DPG", "I_REGS", "M_REGY"]⟩,
  ⟨0x87, ['S', 'T', 'A'], ["E1", "L_DPG"]⟩,
  ⟨0x97, ['S', 'T', 'A'], ["E2", "L_DPG", "M_REGY"]⟩,
  ⟨0x8f, ['S', 'T', 'A'], ["E1", "M_ABSL"]⟩,
  ⟨0x9f, ['S', 'T', 'A'], ["E2", "M_ABSL", "M_REGX"]⟩,
  ⟨0xa3, ['L', 'D', 'A'], ["E2", "M_DPG", "M_REGS"]⟩,
  ⟨0xb3, ['L', 'D', 'A'], ["E3", "I_DPG", "I_REGS", "M_REGY"]⟩,
  ⟨0xa7, ['L', 'D', 'A'], ["E1", "L_DPG"]⟩,
  ⟨0xb7, ['L', 'D', 'A'], ["E2", "L_DPG", "M_REGY"]⟩,
  ⟨0xaf, ['L', 'D', 'A'], ["E1", "M_ABSL"]⟩,
  ⟨0xbf, ['L', 'D', 'A'], ["E2", "M_ABSL", "M_REGX"]⟩,
  ⟨0xc3, ['C', 'M', 'P'], ["E2", "M_DPG", "M_REGS"]⟩,
  ⟨0xd3, ['C', 'M', 'P'], ["E3", "I_DPG", "I_REGS", "M_REGY"]⟩,
  ⟨0xc7, ['C', 'M', 'P'], ["E1", "L_DPG"]⟩,
  ⟨0xd7, ['C', 'M', 'P'], ["E2", "L_DPG", "M_REGY"]⟩,
  ⟨0xcf, ['C', 'M', 'P'], ["E1", "M_ABSL"]⟩,
  ⟨0xdf, ['C', 'M', 'P'], ["E2", "M_ABSL", "M_REGX"]⟩,
  ⟨0xe3, ['S', 'B', 'C'], ["E2", "M_DPG", "M_REGS"]⟩,
  ⟨0xf3, ['S', 'B', 'C'], ["E3", "I_DPG", "I_REGS", "M_REGY"]⟩,
  ⟨0xe7, ['S', 'B', 'C'], ["E1", "L_DPG"]⟩,
  ⟨0xf7, ['S', 'B', 'C'], ["E2", "L_DPG", "M_REGY"]⟩,
  ⟨0xef, ['S', 'B', 'C'], ["E1", "M_ABSL"]⟩,
  ⟨0xff, ['S', 'B', 'C'], ["E2", "M_ABSL", "M_REGX"]⟩,
  ⟨0xdc, ['J', 'M', 'P', 'L'], ["E1", "I_ABS"]⟩,
  ⟨0x7, ['O', 'R', 'A', 'L'], ["E1", "I_DPG"]⟩,
  ⟨0x17, ['O', 'R', 'A', 'L'], ["E2", "I_DPG", "M_REGY"]⟩,
  ⟨0x27, ['A', 'N', 'D', 'L'], ["E1", "I_DPG"]⟩,
  ⟨0x37, ['A', 'N', 'D', 'L'], ["E2", "I_DPG", "M_REGY"]⟩,
  ⟨0x47, ['E', 'O', 'R', 'L'], ["E1", "I_DPG"]⟩,
  ⟨0x57, ['E', 'O', 'R', 'L'], ["E2", "I_DPG", "M_REGY"]⟩,
  ⟨0x67, ['A', 'D', 'C', 'L'], ["E1", "I_DPG"]⟩,
  ⟨0x77, ['A', 'D', 'C', 'L'], ["E2", "I_DPG", "M_REGY"]⟩,
  ⟨0x87, ['S', 'T', 'A', 'L'], ["E1", "I_DPG"]⟩,
  ⟨0x97, ['S', 'T', 'A', 'L'], ["E2", "I_DPG", "M_REGY"]⟩,
  ⟨0xa7, ['L', 'D', 'A', 'L'], ["E1", "I_DPG"]⟩,
  ⟨0xb7, ['L', 'D', 'A', 'L'], ["E2", "I_DPG", "M_REGY"]⟩,
  ⟨0xc7, ['C', 'M', 'P', 'L'], ["E1", "I_DPG"]⟩,
  ⟨0xd7, ['C', 'M', 'P', 'L'], ["E2", "I_DPG", "M_REGY"]⟩,
  ⟨0xe7, ['S', 'B', 'C', 'L'], ["E1", "I_DPG"]⟩,
  ⟨0xf7, ['S', 'B', 'C', 'L'], ["E2", "I_DPG", "M_REGY"]⟩]

/-- src/table_mos6502.cpp:578-672 -/
def W65C816_INDEX : List Nat := [
  46, 47, 48, 49, 50, 51, 83, 84, 34, 35, 36, 37, 38, 39, 79, 80,
  23, 64, 65, 66, 67, 68, 69, 89, 90, 14, 40, 41, 42, 43, 44, 45,
  81, 82, 18, 19, 76, 21, 20, 58, 59, 60, 61, 62, 63, 87, 88, 27,
  26, 28, 29, 30, 31, 32, 33, 77, 78, 25, 24, 22, 8, 0, 4, 10,
  2, 16, 6, 70, 71, 72, 73, 74, 75, 91, 92, 17, 52, 53, 54, 55,
  56, 57, 85, 86, 5, 1, 7, 3, 9, 11, 15, 12, 13]

/-- src/table_mos6502.cpp:677-679 -/
def MOS6502_PAGES : List (Page Row) := [
  ⟨0x0, [], MOS6502_TABLE, MOS6502_INDEX⟩]

/-- src/table_mos6502.cpp:680-683 -/
def G65SC02_PAGES : List (Page Row) := [
  ⟨0x0, [], MOS6502_TABLE, MOS6502_INDEX⟩,
  ⟨0x0, [], G65SC02_TABLE, G65SC02_INDEX⟩]

/-- src/table_mos6502.cpp:684-688 -/
def R65C02_PAGES : List (Page Row) := [
  ⟨0x0, [], MOS6502_TABLE, MOS6502_INDEX⟩,
  ⟨0x0, [], G65SC02_TABLE, G65SC02_INDEX⟩,
  ⟨0x0, [], R65C02_TABLE, R65C02_INDEX⟩]

/-- src/table_mos6502.cpp:689-694 -/
def W65C02S_PAGES : List (Page Row) := [
  ⟨0x0, [], MOS6502_TABLE, MOS6502_INDEX⟩,
  ⟨0x0, [], G65SC02_TABLE, G65SC02_INDEX⟩,
  ⟨0x0, [], R65C02_TABLE, R65C02_INDEX⟩,
  ⟨0x0, [], W65C02S_TABLE, W65C02S_INDEX⟩]

/-- src/table_mos6502.cpp:695-700 -/
def W65C816_PAGES : List (Page Row) := [
  ⟨0x0, [], MOS6502_TABLE, MOS6502_INDEX⟩,
  ⟨0x0, [], G65SC02_TABLE, G65SC02_INDEX⟩,
  ⟨0x0, [], W65C02S_TABLE, W65C02S_INDEX⟩,
  ⟨0x0, [], W65C816_TABLE, W65C816_INDEX⟩]

/-- The processors of src/table_mos6502.cpp: CPU_TABLE 704-710 -/
def cpus : List Cpu := [
  ⟨['6', '5', '0', '2'], MOS6502_PAGES⟩,
  ⟨['6', '5', 'S', 'C', '0', '2'], G65SC02_PAGES⟩,
  ⟨['6', '5', 'C', '0', '2'], R65C02_PAGES⟩,
  ⟨['W', '6', '5', 'C', '0', '2', 'S'], W65C02S_PAGES⟩,
  ⟨['6', '5', '8', '1', '6'], W65C816_PAGES⟩]

theorem MOS6502_TABLE_MOS6502_INDEX (n : Nat) (x : List String) : PageOk ⟨n, x, MOS6502_TABLE, MOS6502_INDEX⟩ :=
  pageB_sound ⟨n, x, MOS6502_TABLE, MOS6502_INDEX⟩ (show pageB ⟨0, [], MOS6502_TABLE, MOS6502_INDEX⟩ = true by decide +kernel)

theorem G65SC02_TABLE_G65SC02_INDEX (n : Nat) (x : List String) : PageOk ⟨n, x, G65SC02_TABLE, G65SC02_INDEX⟩ :=
  pageB_sound ⟨n, x, G65SC02_TABLE, G65SC02_INDEX⟩ (show pageB ⟨0, [], G65SC02_TABLE, G65SC02_INDEX⟩ = true by decide +kernel)

theorem R65C02_TABLE_R65C02_INDEX (n : Nat) (x : List String) : PageOk ⟨n, x, R65C02_TABLE, R65C02_INDEX⟩ :=
  pageB_sound ⟨n, x, R65C02_TABLE, R65C02_INDEX⟩ (show pageB ⟨0, [], R65C02_TABLE, R65C02_INDEX⟩ = true by decide +kernel)

theorem W65C02S_TABLE_W65C02S_INDEX (n : Nat) (x : List String) : PageOk ⟨n, x, W65C02S_TABLE, W65C02S_INDEX⟩ :=
  pageB_sound ⟨n, x, W65C02S_TABLE, W65C02S_INDEX⟩ (show pageB ⟨0, [], W65C02S_TABLE, W65C02S_INDEX⟩ = true by decide +kernel)

theorem W65C816_TABLE_W65C816_INDEX (n : Nat) (x : List String) : PageOk ⟨n, x, W65C816_TABLE, W65C816_INDEX⟩ :=
  pageB_sound ⟨n, x, W65C816_TABLE, W65C816_INDEX⟩ (show pageB ⟨0, [], W65C816_TABLE, W65C816_INDEX⟩ = true by decide +kernel)

theorem MOS6502_PAGES_ok : ∀ p ∈ MOS6502_PAGES, PageOk p :=
  List.forall_mem_cons.mpr <| And.intro (MOS6502_TABLE_MOS6502_INDEX _ _) nofun

theorem G65SC02_PAGES_ok : ∀ p ∈ G65SC02_PAGES, PageOk p :=
  List.forall_mem_cons.mpr <| And.intro (MOS6502_TABLE_MOS6502_INDEX _ _) <| List.forall_mem_cons.mpr <| And.intro (G65SC02_TABLE_G65SC02_INDEX _ _) nofun

theorem R65C02_PAGES_ok : ∀ p ∈ R65C02_PAGES, PageOk p :=
  List.forall_mem_cons.mpr <| And.intro (MOS6502_TABLE_MOS6502_INDEX _ _) <| List.forall_mem_cons.mpr <| And.intro (G65SC02_TABLE_G65SC02_INDEX _ _) <| List.forall_mem_cons.mpr <| And.intro (R65C02_TABLE_R65C02_INDEX _ _) nofun

theorem W65C02S_PAGES_ok : ∀ p ∈ W65C02S_PAGES, PageOk p :=
  List.forall_mem_cons.mpr <| And.intro (MOS6502_TABLE_MOS6502_INDEX _ _) <| List.forall_mem_cons.mpr <| And.intro (G65SC02_TABLE_G65SC02_INDEX _ _) <| List.forall_mem_cons.mpr <| And.intro (R65C02_TABLE_R65C02_INDEX _ _) <| List.forall_mem_cons.mpr <| And.intro (W65C02S_TABLE_W65C02S_INDEX _ _) nofun

theorem W65C816_PAGES_ok : ∀ p ∈ W65C816_PAGES, PageOk p :=
  List.forall_mem_cons.mpr <| And.intro (MOS6502_TABLE_MOS6502_INDEX _ _) <| List.forall_mem_cons.mpr <| And.intro (G65SC02_TABLE_G65SC02_INDEX _ _) <| List.forall_mem_cons.mpr <| And.intro (W65C02S_TABLE_W65C02S_INDEX _ _) <| List.forall_mem_cons.mpr <| And.intro (W65C816_TABLE_W65C816_INDEX _ _) nofun

theorem cpus_ok : ∀ c ∈ cpus, ∀ p ∈ c.pages, PageOk p :=
  List.forall_mem_cons.mpr <| And.intro MOS6502_PAGES_ok <| List.forall_mem_cons.mpr <| And.intro G65SC02_PAGES_ok <| List.forall_mem_cons.mpr <| And.intro R65C02_PAGES_ok <| List.forall_mem_cons.mpr <| And.intro W65C02S_PAGES_ok <| List.forall_mem_cons.mpr <| And.intro W65C816_PAGES_ok nofun

end Libasm.Tables.Mos6502
