import Verif.Tables.Row
/-
Generated by tools/gen_tables.py from src/table_tlcs90.cpp: names, codes, operands and indexes as written
there. Do not edit.
-/
namespace Libasm.Tables.Tlcs90
open Table

/-- src/table_tlcs90.cpp:34-131 -/
def TABLE_TLCS90 : List Row := [
  ⟨0x0, ['N', 'O', 'P'], ["E0"]⟩,
  ⟨0x1, ['H', 'A', 'L', 'T'], ["E0"]⟩,
  ⟨0x2, ['D', 'I'], ["E0"]⟩,
  ⟨0x3, ['E', 'I'], ["E0"]⟩,
  ⟨0x7, ['I', 'N', 'C', 'X'], ["E1", "M_DIR"]⟩,
  ⟨0x8, ['E', 'X'], ["E2", "R_DE", "R_HL"]⟩,
  ⟨0x8, ['E', 'X'], ["E2", "R_HL", "R_DE"]⟩,
  ⟨0x9, ['E', 'X'], ["E2", "R_AF", "R_AFP"]⟩,
  ⟨0xa, ['E', 'X', 'X'], ["E0"]⟩,
  ⟨0xb, ['D', 'A', 'A'], ["E1", "R_A"]⟩,
  ⟨0xc, ['R', 'C', 'F'], ["E0"]⟩,
  ⟨0xd, ['S', 'C', 'F'], ["E0"]⟩,
  ⟨0xe, ['C', 'C', 'F'], ["E0"]⟩,
  ⟨0xf, ['D', 'E', 'C', 'X'], ["E1", "M_DIR"]⟩,
  ⟨0x10, ['C', 'P', 'L'], ["E1", "R_A"]⟩,
  ⟨0x11, ['N', 'E', 'G'], ["E1", "R_A"]⟩,
  ⟨0x12, ['M', 'U', 'L'], ["E2", "R_HL", "M_IMM8"]⟩,
  ⟨0x13, ['D', 'I', 'V'], ["E2", "R_HL", "M_IMM8"]⟩,
  ⟨0x17, ['L', 'D', 'A', 'R'], ["E2", "R_HL", "M_REL16"]⟩,
  ⟨0x14, ['A', 'D', 'D'], ["E2", "M_REGIX", "M_IMM16"]⟩,
  ⟨0x18, ['D', 'J', 'N', 'Z'], ["E1", "M_REL8"]⟩,
  ⟨0x19, ['D', 'J', 'N', 'Z'], ["E2", "R_BC", "M_REL8"]⟩,
  ⟨0x1a, ['J', 'P'], ["E1", "M_IMM16"]⟩,
  ⟨0x1b, ['J', 'R', 'L'], ["E1", "M_REL16"]⟩,
  ⟨0x1c, ['C', 'A', 'L', 'L'], ["E1", "M_IMM16"]⟩,
  ⟨0x1d, ['C', 'A', 'L', 'R'], ["E1", "M_REL16"]⟩,
  ⟨0x1e, ['R', 'E', 'T'], ["E0"]⟩,
  ⟨0x1f, ['R', 'E', 'T', 'I'], ["E0"]⟩,
  ⟨0x27, ['L', 'D'], ["E2", "R_A", "M_DIR"]⟩,
  ⟨0x20, ['L', 'D'], ["E2", "R_A", "M_REG8"]⟩,
  ⟨0x2f, ['L', 'D'], ["E2", "M_DIR", "R_A"]⟩,
  ⟨0x28, ['L', 'D'], ["E2", "M_REG8", "R_A"]⟩,
  ⟨0x37, ['L', 'D'], ["E2", "M_DIR", "M_IMM8"]⟩,
  ⟨0x30, ['L', 'D'], ["E2", "M_REG8", "M_IMM8"]⟩,
  ⟨0x3f, ['L', 'D', 'W'], ["E2", "M_DIR", "M_IMM16"]⟩,
  ⟨0x38, ['L', 'D'], ["E2", "M_REG16", "M_IMM16"]⟩,
  ⟨0x47, ['L', 'D'], ["E2", "R_HL", "M_DIR"]⟩,
  ⟨0x40, ['L', 'D'], ["E2", "R_HL", "M_REG16"]⟩,
  ⟨0x4f, ['L', 'D'], ["E2", "M_DIR", "R_HL"]⟩,
  ⟨0x48, ['L', 'D'], ["E2", "M_REG16", "R_HL"]⟩,
  ⟨0x50, ['P', 'U', 'S', 'H'], ["E1", "M_STACK"]⟩,
  ⟨0x58, ['P', 'O', 'P'], ["E1", "M_STACK"]⟩,
  ⟨0x60, ['A', 'D', 'D'], ["E2", "R_A", "M_DIR"]⟩,
  ⟨0x61, ['A', 'D', 'C'], ["E2", "R_A", "M_DIR"]⟩,
  ⟨0x62, ['S', 'U', 'B'], ["E2", "R_A", "M_DIR"]⟩,
  ⟨0x63, ['S', 'B', 'C'], ["E2", "R_A", "M_DIR"]⟩,
  ⟨0x64, ['A', 'N', 'D'], ["E2", "R_A", "M_DIR"]⟩,
  ⟨0x65, ['X', 'O', 'R'], ["E2", "R_A", "M_DIR"]⟩,
  ⟨0x66, ['O', 'R'], ["E2", "R_A", "M_DIR"]⟩,
  ⟨0x67, ['C', 'P'], ["E2", "R_A", "M_DIR"]⟩,
  ⟨0x68, ['A', 'D', 'D'], ["E2", "R_A", "M_IMM8"]⟩,
  ⟨0x69, ['A', 'D', 'C'], ["E2", "R_A", "M_IMM8"]⟩,
  ⟨0x6a, ['S', 'U', 'B'], ["E2", "R_A", "M_IMM8"]⟩,
  ⟨0x6b, ['S', 'B', 'C'], ["E2", "R_A", "M_IMM8"]⟩,
  ⟨0x6c, ['A', 'N', 'D'], ["E2", "R_A", "M_IMM8"]⟩,
  ⟨0x6d, ['X', 'O', 'R'], ["E2", "R_A", "M_IMM8"]⟩,
  ⟨0x6e, ['O', 'R'], ["E2", "R_A", "M_IMM8"]⟩,
  ⟨0x6f, ['C', 'P'], ["E2", "R_A", "M_IMM8"]⟩,
  ⟨0x70, ['A', 'D', 'D'], ["E2", "R_HL", "M_DIR"]⟩,
  ⟨0x71, ['A', 'D', 'C'], ["E2", "R_HL", "M_DIR"]⟩,
  ⟨0x72, ['S', 'U', 'B'], ["E2", "R_HL", "M_DIR"]⟩,
  ⟨0x73, ['S', 'B', 'C'], ["E2", "R_HL", "M_DIR"]⟩,
  ⟨0x74, ['A', 'N', 'D'], ["E2", "R_HL", "M_DIR"]⟩,
  ⟨0x75, ['X', 'O', 'R'], ["E2", "R_HL", "M_DIR"]⟩,
  ⟨0x76, ['O', 'R'], ["E2", "R_HL", "M_DIR"]⟩,
  ⟨0x77, ['C', 'P'], ["E2", "R_HL", "M_DIR"]⟩,
  ⟨0x78, ['A', 'D', 'D'], ["E2", "R_HL", "M_IMM16"]⟩,
  ⟨0x79, ['A', 'D', 'C'], ["E2", "R_HL", "M_IMM16"]⟩,
  ⟨0x7a, ['S', 'U', 'B'], ["E2", "R_HL", "M_IMM16"]⟩,
  ⟨0x7b, ['S', 'B', 'C'], ["E2", "R_HL", "M_IMM16"]⟩,
  ⟨0x7c, ['A', 'N', 'D'], ["E2", "R_HL", "M_IMM16"]⟩,
  ⟨0x7d, ['X', 'O', 'R'], ["E2", "R_HL", "M_IMM16"]⟩,
  ⟨0x7e, ['O', 'R'], ["E2", "R_HL", "M_IMM16"]⟩,
  ⟨0x7f, ['C', 'P'], ["E2", "R_HL", "M_IMM16"]⟩,
  ⟨0x87, ['I', 'N', 'C'], ["E1", "M_DIR"]⟩,
  ⟨0x80, ['I', 'N', 'C'], ["E1", "M_REG8"]⟩,
  ⟨0x8f, ['D', 'E', 'C'], ["E1", "M_DIR"]⟩,
  ⟨0x88, ['D', 'E', 'C'], ["E1", "M_REG8"]⟩,
  ⟨0x97, ['I', 'N', 'C', 'W'], ["E1", "M_DIR"]⟩,
  ⟨0x90, ['I', 'N', 'C'], ["E1", "M_REG16"]⟩,
  ⟨0x9f, ['D', 'E', 'C', 'W'], ["E1", "M_DIR"]⟩,
  ⟨0x98, ['D', 'E', 'C'], ["E1", "M_REG16"]⟩,
  ⟨0xa0, ['R', 'L', 'C', 'A'], ["E0"]⟩,
  ⟨0xa1, ['R', 'R', 'C', 'A'], ["E0"]⟩,
  ⟨0xa2, ['R', 'L', 'A'], ["E0"]⟩,
  ⟨0xa3, ['R', 'R', 'A'], ["E0"]⟩,
  ⟨0xa4, ['S', 'L', 'A', 'A'], ["E0"]⟩,
  ⟨0xa5, ['S', 'R', 'A', 'A'], ["E0"]⟩,
  ⟨0xa6, ['S', 'L', 'L', 'A'], ["E0"]⟩,
  ⟨0xa7, ['S', 'R', 'L', 'A'], ["E0"]⟩,
  ⟨0xa8, ['B', 'I', 'T'], ["E2", "M_BIT", "M_DIR"]⟩,
  ⟨0xb0, ['R', 'E', 'S'], ["E2", "M_BIT", "M_DIR"]⟩,
  ⟨0xb8, ['S', 'E', 'T'], ["E2", "M_BIT", "M_DIR"]⟩,
  ⟨0xc8, ['J', 'R'], ["E1", "M_REL8"]⟩,
  ⟨0xc0, ['J', 'R'], ["E2", "M_CC", "M_REL8"]⟩,
  ⟨0xff, ['S', 'W', 'I'], ["E0"]⟩]

/-- src/table_tlcs90.cpp:133-230 -/
def INDEX_TLCS90 : List Nat := [
  43, 51, 59, 67, 19, 42, 50, 58, 66, 46, 54, 62, 70, 90, 24, 25,
  12, 49, 57, 65, 73, 14, 9, 76, 77, 81, 80, 13, 2, 17, 20, 21,
  3, 5, 6, 7, 8, 1, 74, 75, 79, 78, 4, 22, 93, 94, 23, 28,
  29, 30, 31, 32, 33, 35, 36, 37, 38, 39, 18, 34, 16, 15, 0, 48,
  56, 64, 72, 41, 40, 10, 91, 26, 27, 84, 82, 85, 83, 45, 53, 61,
  69, 11, 92, 86, 88, 87, 89, 44, 52, 60, 68, 95, 47, 55, 63, 71]

/-- src/table_tlcs90.cpp:232-274 -/
def TABLE_SRC : List Row := [
  ⟨0x10, ['R', 'L', 'D'], ["E1", "M_DST"]⟩,
  ⟨0x11, ['R', 'R', 'D'], ["E1", "M_DST"]⟩,
  ⟨0x12, ['M', 'U', 'L'], ["E2", "R_HL", "M_SRC"]⟩,
  ⟨0x13, ['D', 'I', 'V'], ["E2", "R_HL", "M_SRC"]⟩,
  ⟨0x14, ['A', 'D', 'D'], ["E2", "M_REGIX", "M_SRC"]⟩,
  ⟨0x18, ['T', 'S', 'E', 'T'], ["E2", "M_BIT", "M_SRC"]⟩,
  ⟨0x28, ['L', 'D'], ["E2", "M_REG8", "M_SRC"]⟩,
  ⟨0x48, ['L', 'D'], ["E2", "M_REG16", "M_SRC"]⟩,
  ⟨0x50, ['E', 'X'], ["E2", "M_DST", "M_REG16"]⟩,
  ⟨0x50, ['E', 'X'], ["E2", "M_REG16", "M_SRC"]⟩,
  ⟨0x60, ['A', 'D', 'D'], ["E2", "R_A", "M_SRC"]⟩,
  ⟨0x61, ['A', 'D', 'C'], ["E2", "R_A", "M_SRC"]⟩,
  ⟨0x62, ['S', 'U', 'B'], ["E2", "R_A", "M_SRC"]⟩,
  ⟨0x63, ['S', 'B', 'C'], ["E2", "R_A", "M_SRC"]⟩,
  ⟨0x64, ['A', 'N', 'D'], ["E2", "R_A", "M_SRC"]⟩,
  ⟨0x65, ['X', 'O', 'R'], ["E2", "R_A", "M_SRC"]⟩,
  ⟨0x66, ['O', 'R'], ["E2", "R_A", "M_SRC"]⟩,
  ⟨0x67, ['C', 'P'], ["E2", "R_A", "M_SRC"]⟩,
  ⟨0x70, ['A', 'D', 'D'], ["E2", "R_HL", "M_SRC"]⟩,
  ⟨0x71, ['A', 'D', 'C'], ["E2", "R_HL", "M_SRC"]⟩,
  ⟨0x72, ['S', 'U', 'B'], ["E2", "R_HL", "M_SRC"]⟩,
  ⟨0x73, ['S', 'B', 'C'], ["E2", "R_HL", "M_SRC"]⟩,
  ⟨0x74, ['A', 'N', 'D'], ["E2", "R_HL", "M_SRC"]⟩,
  ⟨0x75, ['X', 'O', 'R'], ["E2", "R_HL", "M_SRC"]⟩,
  ⟨0x76, ['O', 'R'], ["E2", "R_HL", "M_SRC"]⟩,
  ⟨0x77, ['C', 'P'], ["E2", "R_HL", "M_SRC"]⟩,
  ⟨0x87, ['I', 'N', 'C'], ["E1", "M_DST"]⟩,
  ⟨0x8f, ['D', 'E', 'C'], ["E1", "M_DST"]⟩,
  ⟨0x97, ['I', 'N', 'C', 'W'], ["E1", "M_DST"]⟩,
  ⟨0x9f, ['D', 'E', 'C', 'W'], ["E1", "M_DST"]⟩,
  ⟨0xa0, ['R', 'L', 'C'], ["E1", "M_DST"]⟩,
  ⟨0xa1, ['R', 'R', 'C'], ["E1", "M_DST"]⟩,
  ⟨0xa2, ['R', 'L'], ["E1", "M_DST"]⟩,
  ⟨0xa3, ['R', 'R'], ["E1", "M_DST"]⟩,
  ⟨0xa4, ['S', 'L', 'A'], ["E1", "M_DST"]⟩,
  ⟨0xa5, ['S', 'R', 'A'], ["E1", "M_DST"]⟩,
  ⟨0xa6, ['S', 'L', 'L'], ["E1", "M_DST"]⟩,
  ⟨0xa7, ['S', 'R', 'L'], ["E1", "M_DST"]⟩,
  ⟨0xa8, ['B', 'I', 'T'], ["E2", "M_BIT", "M_SRC"]⟩,
  ⟨0xb0, ['R', 'E', 'S'], ["E2", "M_BIT", "M_SRC"]⟩,
  ⟨0xb8, ['S', 'E', 'T'], ["E2", "M_BIT", "M_SRC"]⟩]

/-- src/table_tlcs90.cpp:276-318 -/
def INDEX_SRC : List Nat := [
  11, 19, 4, 10, 18, 14, 22, 38, 17, 25, 27, 29, 3, 8, 9, 26,
  28, 6, 7, 2, 16, 24, 39, 32, 30, 0, 33, 31, 1, 13, 21, 40,
  34, 36, 35, 37, 12, 20, 5, 15, 23]

/-- src/table_tlcs90.cpp:320-333 -/
def TABLE_DST : List Row := [
  ⟨0x20, ['L', 'D'], ["E2", "M_DST", "M_REG8"]⟩,
  ⟨0x37, ['L', 'D'], ["E2", "M_DST", "M_IMM8"]⟩,
  ⟨0x3f, ['L', 'D', 'W'], ["E2", "M_DST", "M_IMM16"]⟩,
  ⟨0x40, ['L', 'D'], ["E2", "M_DST", "M_REG16"]⟩,
  ⟨0x68, ['A', 'D', 'D'], ["E2", "M_DST", "M_IMM8"]⟩,
  ⟨0x69, ['A', 'D', 'C'], ["E2", "M_DST", "M_IMM8"]⟩,
  ⟨0x6a, ['S', 'U', 'B'], ["E2", "M_DST", "M_IMM8"]⟩,
  ⟨0x6b, ['S', 'B', 'C'], ["E2", "M_DST", "M_IMM8"]⟩,
  ⟨0x6c, ['A', 'N', 'D'], ["E2", "M_DST", "M_IMM8"]⟩,
  ⟨0x6d, ['X', 'O', 'R'], ["E2", "M_DST", "M_IMM8"]⟩,
  ⟨0x6e, ['O', 'R'], ["E2", "M_DST", "M_IMM8"]⟩,
  ⟨0x6f, ['C', 'P'], ["E2", "M_DST", "M_IMM8"]⟩]

/-- src/table_tlcs90.cpp:335-348 -/
def INDEX_DST : List Nat := [
  5, 4, 8, 11, 0, 1, 3, 2, 10, 7, 6, 9]

/-- src/table_tlcs90.cpp:350-392 -/
def TABLE_REG : List Row := [
  ⟨0x12, ['M', 'U', 'L'], ["E2", "R_HL", "M_SRC"]⟩,
  ⟨0x13, ['D', 'I', 'V'], ["E2", "R_HL", "M_SRC"]⟩,
  ⟨0x18, ['T', 'S', 'E', 'T'], ["E2", "M_BIT", "M_SRC"]⟩,
  ⟨0x30, ['L', 'D'], ["E2", "M_REG8", "M_SRC"]⟩,
  ⟨0x60, ['A', 'D', 'D'], ["E2", "R_A", "M_SRC"]⟩,
  ⟨0x61, ['A', 'D', 'C'], ["E2", "R_A", "M_SRC"]⟩,
  ⟨0x62, ['S', 'U', 'B'], ["E2", "R_A", "M_SRC"]⟩,
  ⟨0x63, ['S', 'B', 'C'], ["E2", "R_A", "M_SRC"]⟩,
  ⟨0x64, ['A', 'N', 'D'], ["E2", "R_A", "M_SRC"]⟩,
  ⟨0x65, ['X', 'O', 'R'], ["E2", "R_A", "M_SRC"]⟩,
  ⟨0x66, ['O', 'R'], ["E2", "R_A", "M_SRC"]⟩,
  ⟨0x67, ['C', 'P'], ["E2", "R_A", "M_SRC"]⟩,
  ⟨0x68, ['A', 'D', 'D'], ["E2", "M_DST", "M_IMM8"]⟩,
  ⟨0x69, ['A', 'D', 'C'], ["E2", "M_DST", "M_IMM8"]⟩,
  ⟨0x6a, ['S', 'U', 'B'], ["E2", "M_DST", "M_IMM8"]⟩,
  ⟨0x6b, ['S', 'B', 'C'], ["E2", "M_DST", "M_IMM8"]⟩,
  ⟨0x6c, ['A', 'N', 'D'], ["E2", "M_DST", "M_IMM8"]⟩,
  ⟨0x6d, ['X', 'O', 'R'], ["E2", "M_DST", "M_IMM8"]⟩,
  ⟨0x6e, ['O', 'R'], ["E2", "M_DST", "M_IMM8"]⟩,
  ⟨0x6f, ['C', 'P'], ["E2", "M_DST", "M_IMM8"]⟩,
  ⟨0xa0, ['R', 'L', 'C'], ["E1", "M_DST"]⟩,
  ⟨0xa1, ['R', 'R', 'C'], ["E1", "M_DST"]⟩,
  ⟨0xa2, ['R', 'L'], ["E1", "M_DST"]⟩,
  ⟨0xa3, ['R', 'R'], ["E1", "M_DST"]⟩,
  ⟨0xa4, ['S', 'L', 'A'], ["E1", "M_DST"]⟩,
  ⟨0xa5, ['S', 'R', 'A'], ["E1", "M_DST"]⟩,
  ⟨0xa6, ['S', 'L', 'L'], ["E1", "M_DST"]⟩,
  ⟨0xa7, ['S', 'R', 'L'], ["E1", "M_DST"]⟩,
  ⟨0xa8, ['B', 'I', 'T'], ["E2", "M_BIT", "M_SRC"]⟩,
  ⟨0xb0, ['R', 'E', 'S'], ["E2", "M_BIT", "M_SRC"]⟩,
  ⟨0xb8, ['S', 'E', 'T'], ["E2", "M_BIT", "M_SRC"]⟩,
  ⟨0x14, ['A', 'D', 'D'], ["E2", "M_REGIX", "M_SRC16"]⟩,
  ⟨0x38, ['L', 'D'], ["E2", "M_REG16", "M_SRC16"]⟩,
  ⟨0x70, ['A', 'D', 'D'], ["E2", "R_HL", "M_SRC16"]⟩,
  ⟨0x71, ['A', 'D', 'C'], ["E2", "R_HL", "M_SRC16"]⟩,
  ⟨0x72, ['S', 'U', 'B'], ["E2", "R_HL", "M_SRC16"]⟩,
  ⟨0x73, ['S', 'B', 'C'], ["E2", "R_HL", "M_SRC16"]⟩,
  ⟨0x74, ['A', 'N', 'D'], ["E2", "R_HL", "M_SRC16"]⟩,
  ⟨0x75, ['X', 'O', 'R'], ["E2", "R_HL", "M_SRC16"]⟩,
  ⟨0x76, ['O', 'R'], ["E2", "R_HL", "M_SRC16"]⟩,
  ⟨0x77, ['C', 'P'], ["E2", "R_HL", "M_SRC16"]⟩]

/-- src/table_tlcs90.cpp:394-436 -/
def INDEX_REG : List Nat := [
  5, 13, 34, 4, 12, 31, 33, 8, 16, 37, 28, 11, 19, 40, 1, 3,
  32, 0, 10, 18, 39, 29, 22, 20, 23, 21, 7, 15, 36, 30, 24, 26,
  25, 27, 6, 14, 35, 2, 9, 17, 38]

/-- src/table_tlcs90.cpp:438-440 -/
def TABLE_LDA : List Row := [
  ⟨0x38, ['L', 'D', 'A'], ["E2", "M_REG16", "M_SRC"]⟩]

/-- src/table_tlcs90.cpp:443-445 -/
def INDEX_LDA : List Nat := [
  0]

/-- src/table_tlcs90.cpp:447-452 -/
def TABLE_JMP : List Row := [
  ⟨0xc0, ['J', 'P'], ["E2", "M_CC", "M_SRC"]⟩,
  ⟨0xc8, ['J', 'P'], ["E1", "M_DST"]⟩,
  ⟨0xd0, ['C', 'A', 'L', 'L'], ["E2", "M_CC", "M_SRC"]⟩,
  ⟨0xd8, ['C', 'A', 'L', 'L'], ["E1", "M_DST"]⟩]

/-- src/table_tlcs90.cpp:454-459 -/
def INDEX_JMP : List Nat := [
  2, 3, 0, 1]

/-- src/table_tlcs90.cpp:461-464 -/
def TABLE_COND : List Row := [
  ⟨0xd8, ['R', 'E', 'T'], ["E0"]⟩,
  ⟨0xd0, ['R', 'E', 'T'], ["E1", "M_CC"]⟩]

/-- src/table_tlcs90.cpp:466-469 -/
def INDEX_COND : List Nat := [
  0, 1]

/-- src/table_tlcs90.cpp:471-480 -/
def TABLE_BLOCK : List Row := [
  ⟨0x58, ['L', 'D', 'I'], ["E0"]⟩,
  ⟨0x59, ['L', 'D', 'I', 'R'], ["E0"]⟩,
  ⟨0x5a, ['L', 'D', 'D'], ["E0"]⟩,
  ⟨0x5b, ['L', 'D', 'D', 'R'], ["E0"]⟩,
  ⟨0x5c, ['C', 'P', 'I'], ["E0"]⟩,
  ⟨0x5d, ['C', 'P', 'I', 'R'], ["E0"]⟩,
  ⟨0x5e, ['C', 'P', 'D'], ["E0"]⟩,
  ⟨0x5f, ['C', 'P', 'D', 'R'], ["E0"]⟩]

/-- src/table_tlcs90.cpp:482-491 -/
def INDEX_BLOCK : List Nat := [
  6, 7, 4, 5, 2, 3, 0, 1]

/-- src/table_tlcs90.cpp:524-545 -/
def TLCS90_PAGES : List (Page Row) := [
  ⟨0x0, ["M_NONE"], TABLE_TLCS90, INDEX_TLCS90⟩,
  ⟨0xe7, ["M_DIR"], TABLE_SRC, INDEX_SRC⟩,
  ⟨0xe3, ["M_EXT"], TABLE_SRC, INDEX_SRC⟩,
  ⟨0xe0, ["M_IND"], TABLE_SRC, INDEX_SRC⟩,
  ⟨0xf3, ["M_BASE"], TABLE_SRC, INDEX_SRC⟩,
  ⟨0xf0, ["M_IDX"], TABLE_SRC, INDEX_SRC⟩,
  ⟨0xef, ["M_DIR"], TABLE_DST, INDEX_DST⟩,
  ⟨0xeb, ["M_EXT"], TABLE_DST, INDEX_DST⟩,
  ⟨0xe8, ["M_IND"], TABLE_DST, INDEX_DST⟩,
  ⟨0xf7, ["M_BASE"], TABLE_DST, INDEX_DST⟩,
  ⟨0xf4, ["M_IDX"], TABLE_DST, INDEX_DST⟩,
  ⟨0xeb, ["M_IMM16"], TABLE_JMP, INDEX_JMP⟩,
  ⟨0xe8, ["M_REG16"], TABLE_JMP, INDEX_JMP⟩,
  ⟨0xf7, ["M_HLPA"], TABLE_JMP, INDEX_JMP⟩,
  ⟨0xf4, ["M_IXPD"], TABLE_JMP, INDEX_JMP⟩,
  ⟨0xf8, ["M_REG8"], TABLE_REG, INDEX_REG⟩,
  ⟨0xf7, ["M_HLPA"], TABLE_LDA, INDEX_LDA⟩,
  ⟨0xf4, ["M_IXPD"], TABLE_LDA, INDEX_LDA⟩,
  ⟨0xfe, ["M_NONE"], TABLE_COND, INDEX_COND⟩,
  ⟨0xfe, ["M_NONE"], TABLE_BLOCK, INDEX_BLOCK⟩]

/-- The processors of src/table_tlcs90.cpp: CPU_TABLE 565-567 -/
def cpus : List Cpu := [
  ⟨['T', 'L', 'C', 'S', '9', '0'], TLCS90_PAGES⟩]

theorem TABLE_TLCS90_INDEX_TLCS90 (n : Nat) (x : List String) : PageOk ⟨n, x, TABLE_TLCS90, INDEX_TLCS90⟩ :=
  pageB_sound ⟨n, x, TABLE_TLCS90, INDEX_TLCS90⟩ (show pageB ⟨0, [], TABLE_TLCS90, INDEX_TLCS90⟩ = true by decide +kernel)

theorem TABLE_SRC_INDEX_SRC (n : Nat) (x : List String) : PageOk ⟨n, x, TABLE_SRC, INDEX_SRC⟩ :=
  pageB_sound ⟨n, x, TABLE_SRC, INDEX_SRC⟩ (show pageB ⟨0, [], TABLE_SRC, INDEX_SRC⟩ = true by decide +kernel)

theorem TABLE_DST_INDEX_DST (n : Nat) (x : List String) : PageOk ⟨n, x, TABLE_DST, INDEX_DST⟩ :=
  pageB_sound ⟨n, x, TABLE_DST, INDEX_DST⟩ (show pageB ⟨0, [], TABLE_DST, INDEX_DST⟩ = true by decide +kernel)

theorem TABLE_JMP_INDEX_JMP (n : Nat) (x : List String) : PageOk ⟨n, x, TABLE_JMP, INDEX_JMP⟩ :=
  pageB_sound ⟨n, x, TABLE_JMP, INDEX_JMP⟩ (show pageB ⟨0, [], TABLE_JMP, INDEX_JMP⟩ = true by decide +kernel)

theorem TABLE_REG_INDEX_REG (n : Nat) (x : List String) : PageOk ⟨n, x, TABLE_REG, INDEX_REG⟩ :=
  pageB_sound ⟨n, x, TABLE_REG, INDEX_REG⟩ (show pageB ⟨0, [], TABLE_REG, INDEX_REG⟩ = true by decide +kernel)

theorem TABLE_LDA_INDEX_LDA (n : Nat) (x : List String) : PageOk ⟨n, x, TABLE_LDA, INDEX_LDA⟩ :=
  pageB_sound ⟨n, x, TABLE_LDA, INDEX_LDA⟩ (show pageB ⟨0, [], TABLE_LDA, INDEX_LDA⟩ = true by decide +kernel)

theorem TABLE_COND_INDEX_COND (n : Nat) (x : List String) : PageOk ⟨n, x, TABLE_COND, INDEX_COND⟩ :=
  pageB_sound ⟨n, x, TABLE_COND, INDEX_COND⟩ (show pageB ⟨0, [], TABLE_COND, INDEX_COND⟩ = true by decide +kernel)

theorem TABLE_BLOCK_INDEX_BLOCK (n : Nat) (x : List String) : PageOk ⟨n, x, TABLE_BLOCK, INDEX_BLOCK⟩ :=
  pageB_sound ⟨n, x, TABLE_BLOCK, INDEX_BLOCK⟩ (show pageB ⟨0, [], TABLE_BLOCK, INDEX_BLOCK⟩ = true by decide +kernel)

theorem TLCS90_PAGES_ok : ∀ p ∈ TLCS90_PAGES, PageOk p :=
  List.forall_mem_cons.mpr <| And.intro (TABLE_TLCS90_INDEX_TLCS90 _ _) <| List.forall_mem_cons.mpr <| And.intro (TABLE_SRC_INDEX_SRC _ _) <| List.forall_mem_cons.mpr <| And.intro (TABLE_SRC_INDEX_SRC _ _) <| List.forall_mem_cons.mpr <| And.intro (TABLE_SRC_INDEX_SRC _ _) <| List.forall_mem_cons.mpr <| And.intro (TABLE_SRC_INDEX_SRC _ _) <| List.forall_mem_cons.mpr <| And.intro (TABLE_SRC_INDEX_SRC _ _) <| List.forall_mem_cons.mpr <| And.intro (TABLE_DST_INDEX_DST _ _) <| List.forall_mem_cons.mpr <| And.intro (TABLE_DST_INDEX_DST _ _) <| List.forall_mem_cons.mpr <| And.intro (TABLE_DST_INDEX_DST _ _) <| List.forall_mem_cons.mpr <| And.intro (TABLE_DST_INDEX_DST _ _) <| List.forall_mem_cons.mpr <| And.intro (TABLE_DST_INDEX_DST _ _) <| List.forall_mem_cons.mpr <| And.intro (TABLE_JMP_INDEX_JMP _ _) <| List.forall_mem_cons.mpr <| And.intro (TABLE_JMP_INDEX_JMP _ _) <| List.forall_mem_cons.mpr <| And.intro (TABLE_JMP_INDEX_JMP _ _) <| List.forall_mem_cons.mpr <| And.intro (TABLE_JMP_INDEX_JMP _ _) <| List.forall_mem_cons.mpr <| And.intro (TABLE_REG_INDEX_REG _ _) <| List.forall_mem_cons.mpr <| And.intro (TABLE_LDA_INDEX_LDA _ _) <| List.forall_mem_cons.mpr <| And.intro (TABLE_LDA_INDEX_LDA _ _) <| List.forall_mem_cons.mpr <| And.intro (TABLE_COND_INDEX_COND _ _) <| List.forall_mem_cons.mpr <| And.intro (TABLE_BLOCK_INDEX_BLOCK _ _) nofun

theorem cpus_ok : ∀ c ∈ cpus, ∀ p ∈ c.pages, PageOk p :=
  List.forall_mem_cons.mpr <| And.intro TLCS90_PAGES_ok nofun

end Libasm.Tables.Tlcs90
