import Verif.Tables.Row
/-
Generated by tools/gen_tables.py from src/table_mc6809.cpp: names, codes, operands and indexes as written
there. Do not edit.
-/
namespace Libasm.Tables.Mc6809
open Table

/-- src/table_mc6809.cpp:35-153 -/
def MC6809_P00 : List Row := [
  ⟨0x0, ['N', 'E', 'G'], ["E1", "M_GMEM"]⟩,
  ⟨0x3, ['C', 'O', 'M'], ["E1", "M_GMEM"]⟩,
  ⟨0x4, ['L', 'S', 'R'], ["E1", "M_GMEM"]⟩,
  ⟨0x6, ['R', 'O', 'R'], ["E1", "M_GMEM"]⟩,
  ⟨0x7, ['A', 'S', 'R'], ["E1", "M_GMEM"]⟩,
  ⟨0x8, ['A', 'S', 'L'], ["E1", "M_GMEM"]⟩,
  ⟨0x8, ['L', 'S', 'L'], ["E1", "M_GMEM"]⟩,
  ⟨0x9, ['R', 'O', 'L'], ["E1", "M_GMEM"]⟩,
  ⟨0xa, ['D', 'E', 'C'], ["E1", "M_GMEM"]⟩,
  ⟨0xc, ['I', 'N', 'C'], ["E1", "M_GMEM"]⟩,
  ⟨0xd, ['T', 'S', 'T'], ["E1", "M_GMEM"]⟩,
  ⟨0xe, ['J', 'M', 'P'], ["E1", "M_GMEM"]⟩,
  ⟨0xf, ['C', 'L', 'R'], ["E1", "M_GMEM"]⟩,
  ⟨0x12, ['N', 'O', 'P'], ["E0"]⟩,
  ⟨0x13, ['S', 'Y', 'N', 'C'], ["E0"]⟩,
  ⟨0x16, ['L', 'B', 'R', 'A'], ["E1", "M_LREL"]⟩,
  ⟨0x17, ['L', 'B', 'S', 'R'], ["E1", "M_LREL"]⟩,
  ⟨0x19, ['D', 'A', 'A'], ["E0"]⟩,
  ⟨0x1a, ['O', 'R', 'C', 'C'], ["E1", "M_IM8"]⟩,
  ⟨0x1c, ['A', 'N', 'D', 'C', 'C'], ["E1", "M_IM8"]⟩,
  ⟨0x1d, ['S', 'E', 'X'], ["E0"]⟩,
  ⟨0x1e, ['E', 'X', 'G'], ["E1", "M_PAIR"]⟩,
  ⟨0x1f, ['T', 'F', 'R'], ["E1", "M_PAIR"]⟩,
  ⟨0x20, ['B', 'R', 'A'], ["E1", "M_REL"]⟩,
  ⟨0x21, ['B', 'R', 'N'], ["E1", "M_REL"]⟩,
  ⟨0x22, ['B', 'H', 'I'], ["E1", "M_REL"]⟩,
  ⟨0x23, ['B', 'L', 'S'], ["E1", "M_REL"]⟩,
  ⟨0x24, ['B', 'H', 'S'], ["E1", "M_REL"]⟩,
  ⟨0x24, ['B', 'C', 'C'], ["E1", "M_REL"]⟩,
  ⟨0x25, ['B', 'L', 'O'], ["E1", "M_REL"]⟩,
  ⟨0x25, ['B', 'C', 'S'], ["E1", "M_REL"]⟩,
  ⟨0x26, ['B', 'N', 'E'], ["E1", "M_REL"]⟩,
  ⟨0x27, ['B', 'E', 'Q'], ["E1", "M_REL"]⟩,
  ⟨0x28, ['B', 'V', 'C'], ["E1", "M_REL"]⟩,
  ⟨0x29, ['B', 'V', 'S'], ["E1", "M_REL"]⟩,
  ⟨0x2a, ['B', 'P', 'L'], ["E1", "M_REL"]⟩,
  ⟨0x2b, ['B', 'M', 'I'], ["E1", "M_REL"]⟩,
  ⟨0x2c, ['B', 'G', 'E'], ["E1", "M_REL"]⟩,
  ⟨0x2d, ['B', 'L', 'T'], ["E1", "M_REL"]⟩,
  ⟨0x2e, ['B', 'G', 'T'], ["E1", "M_REL"]⟩,
  ⟨0x2f, ['B', 'L', 'E'], ["E1", "M_REL"]⟩,
  ⟨0x30, ['L', 'E', 'A', 'X'], ["E1", "M_IDX"]⟩,
  ⟨0x31, ['L', 'E', 'A', 'Y'], ["E1", "M_IDX"]⟩,
  ⟨0x32, ['L', 'E', 'A', 'S'], ["E1", "M_IDX"]⟩,
  ⟨0x33, ['L', 'E', 'A', 'U'], ["E1", "M_IDX"]⟩,
  ⟨0x34, ['P', 'S', 'H', 'S'], ["E1", "M_LIST"]⟩,
  ⟨0x35, ['P', 'U', 'L', 'S'], ["E1", "M_LIST"]⟩,
  ⟨0x36, ['P', 'S', 'H', 'U'], ["E1", "M_LIST"]⟩,
  ⟨0x37, ['P', 'U', 'L', 'U'], ["E1", "M_LIST"]⟩,
  ⟨0x39, ['R', 'T', 'S'], ["E0"]⟩,
  ⟨0x3a, ['A', 'B', 'X'], ["E0"]⟩,
  ⟨0x3b, ['R', 'T', 'I'], ["E0"]⟩,
  ⟨0x3c, ['C', 'W', 'A', 'I'], ["E1", "M_IM8"]⟩,
  ⟨0x3d, ['M', 'U', 'L'], ["E0"]⟩,
  ⟨0x3f, ['S', 'W', 'I'], ["E0"]⟩,
  ⟨0x40, ['N', 'E', 'G', 'A'], ["E0"]⟩,
  ⟨0x43, ['C', 'O', 'M', 'A'], ["E0"]⟩,
  ⟨0x44, ['L', 'S', 'R', 'A'], ["E0"]⟩,
  ⟨0x46, ['R', 'O', 'R', 'A'], ["E0"]⟩,
  ⟨0x47, ['A', 'S', 'R', 'A'], ["E0"]⟩,
  ⟨0x48, ['A', 'S', 'L', 'A'], ["E0"]⟩,
  ⟨0x48, ['L', 'S', 'L', 'A'], ["E0"]⟩,
  ⟨0x49, ['R', 'O', 'L', 'A'], ["E0"]⟩,
  ⟨0x4a, ['D', 'E', 'C', 'A'], ["E0"]⟩,
  ⟨0x4c, ['I', 'N', 'C', 'A'], ["E0"]⟩,
  ⟨0x4d, ['T', 'S', 'T', 'A'], ["E0"]⟩,
  ⟨0x4f, ['C', 'L', 'R', 'A'], ["E0"]⟩,
  ⟨0x50, ['N', 'E', 'G', 'B'], ["E0"]⟩,
  ⟨0x53, ['C', 'O', 'M', 'B'], ["E0"]⟩,
  ⟨0x54, ['L', 'S', 'R', 'B'], ["E0"]⟩,
  ⟨0x56, ['R', 'O', 'R', 'B'], ["E0"]⟩,
  ⟨0x57, ['A', 'S', 'R', 'B'], ["E0"]⟩,
  ⟨0x58, ['A', 'S', 'L', 'B'], ["E0"]⟩,
  ⟨0x58, ['L', 'S', 'L', 'B'], ["E0"]⟩,
  ⟨0x59, ['R', 'O', 'L', 'B'], ["E0"]⟩,
  ⟨0x5a, ['D', 'E', 'C', 'B'], ["E0"]⟩,
  ⟨0x5c, ['I', 'N', 'C', 'B'], ["E0"]⟩,
  ⟨0x5d, ['T', 'S', 'T', 'B'], ["E0"]⟩,
  ⟨0x5f, ['C', 'L', 'R', 'B'], ["E0"]⟩,
  ⟨0x80, ['S', 'U', 'B', 'A'], ["E1", "M_GEN8"]⟩,
  ⟨0x81, ['C', 'M', 'P', 'A'], ["E1", "M_GEN8"]⟩,
  ⟨0x82, ['S', 'B', 'C', 'A'], ["E1", "M_GEN8"]⟩,
  ⟨0x83, ['S', 'U', 'B', 'D'], ["E1", "M_GEN16"]⟩,
  ⟨0x84, ['A', 'N', 'D', 'A'], ["E1", "M_GEN8"]⟩,
  ⟨0x85, ['B', 'I', 'T', 'A'], ["E1", "M_GEN8"]⟩,
  ⟨0x86, ['L', 'D', 'A'], ["E1", "M_GEN8"]⟩,
  ⟨0x87, ['S', 'T', 'A'], ["U1", "M_IM8"]⟩,
  ⟨0x87, ['S', 'T', 'A'], ["E1", "M_GEN8"]⟩,
  ⟨0x88, ['E', 'O', 'R', 'A'], ["E1", "M_GEN8"]⟩,
  ⟨0x89, ['A', 'D', 'C', 'A'], ["E1", "M_GEN8"]⟩,
  ⟨0x8a, ['O', 'R', 'A'], ["E1", "M_GEN8"]⟩,
  ⟨0x8b, ['A', 'D', 'D', 'A'], ["E1", "M_GEN8"]⟩,
  ⟨0x8c, ['C', 'M', 'P', 'X'], ["E1", "M_GEN16"]⟩,
  ⟨0x8d, ['B', 'S', 'R'], ["E1", "M_REL"]⟩,
  ⟨0x8d, ['J', 'S', 'R'], ["E1", "M_GEN16"]⟩,
  ⟨0x8e, ['L', 'D', 'X'], ["E1", "M_GEN16"]⟩,
  ⟨0x8f, ['S', 'T', 'X'], ["U1", "M_IM32"]⟩,
  ⟨0x8f, ['S', 'T', 'X'], ["E1", "M_GEN16"]⟩,
  ⟨0xc0, ['S', 'U', 'B', 'B'], ["E1", "M_GEN8"]⟩,
  ⟨0xc1, ['C', 'M', 'P', 'B'], ["E1", "M_GEN8"]⟩,
  ⟨0xc2, ['S', 'B', 'C', 'B'], ["E1", "M_GEN8"]⟩,
  ⟨0xc3, ['A', 'D', 'D', 'D'], ["E1", "M_GEN16"]⟩,
  ⟨0xc4, ['A', 'N', 'D', 'B'], ["E1", "M_GEN8"]⟩,
  ⟨0xc5, ['B', 'I', 'T', 'B'], ["E1", "M_GEN8"]⟩,
  ⟨0xc6, ['L', 'D', 'B'], ["E1", "M_GEN8"]⟩,
  ⟨0xc7, ['S', 'T', 'B'], ["U1", "M_IM8"]⟩,
  ⟨0xc7, ['S', 'T', 'B'], ["E1", "M_GEN8"]⟩,
  ⟨0xc8, ['E', 'O', 'R', 'B'], ["E1", "M_GEN8"]⟩,
  ⟨0xc9, ['A', 'D', 'C', 'B'], ["E1", "M_GEN8"]⟩,
  ⟨0xca, ['O', 'R', 'B'], ["E1", "M_GEN8"]⟩,
  ⟨0xcb, ['A', 'D', 'D', 'B'], ["E1", "M_GEN8"]⟩,
  ⟨0xcc, ['L', 'D', 'D'], ["E1", "M_GEN16"]⟩,
  ⟨0xcd, ['S', 'T', 'D'], ["U1", "M_IM32"]⟩,
  ⟨0xcd, ['S', 'T', 'D'], ["E1", "M_GEN16"]⟩,
  ⟨0xce, ['L', 'D', 'U'], ["E1", "M_GEN16"]⟩,
  ⟨0xcf, ['S', 'T', 'U'], ["U1", "M_IM32"]⟩,
  ⟨0xcf, ['S', 'T', 'U'], ["E1", "M_GEN16"]⟩]

/-- src/table_mc6809.cpp:155-273 -/
def MC6809_I00 : List Nat := [
  50, 89, 108, 91, 110, 101, 83, 102, 19, 5, 60, 72, 4, 59, 71, 28,
  30, 32, 37, 39, 25, 27, 84, 103, 40, 29, 26, 38, 36, 31, 35, 23,
  24, 93, 33, 34, 12, 66, 78, 80, 99, 92, 1, 56, 68, 52, 17, 8,
  63, 75, 88, 107, 21, 9, 64, 76, 11, 94, 15, 16, 85, 104, 111, 114,
  95, 43, 44, 41, 42, 6, 61, 73, 2, 57, 69, 53, 0, 55, 67, 13,
  90, 109, 18, 45, 47, 46, 48, 7, 62, 74, 3, 58, 70, 51, 49, 81,
  100, 20, 86, 87, 105, 106, 112, 113, 115, 116, 96, 97, 79, 98, 82, 54,
  14, 22, 10, 65, 77]

/-- src/table_mc6809.cpp:275-302 -/
def MC6809_P10 : List Row := [
  ⟨0x21, ['L', 'B', 'R', 'N'], ["E1", "M_LREL"]⟩,
  ⟨0x22, ['L', 'B', 'H', 'I'], ["E1", "M_LREL"]⟩,
  ⟨0x23, ['L', 'B', 'L', 'S'], ["E1", "M_LREL"]⟩,
  ⟨0x24, ['L', 'B', 'H', 'S'], ["E1", "M_LREL"]⟩,
  ⟨0x24, ['L', 'B', 'C', 'C'], ["E1", "M_LREL"]⟩,
  ⟨0x25, ['L', 'B', 'L', 'O'], ["E1", "M_LREL"]⟩,
  ⟨0x25, ['L', 'B', 'C', 'S'], ["E1", "M_LREL"]⟩,
  ⟨0x26, ['L', 'B', 'N', 'E'], ["E1", "M_LREL"]⟩,
  ⟨0x27, ['L', 'B', 'E', 'Q'], ["E1", "M_LREL"]⟩,
  ⟨0x28, ['L', 'B', 'V', 'C'], ["E1", "M_LREL"]⟩,
  ⟨0x29, ['L', 'B', 'V', 'S'], ["E1", "M_LREL"]⟩,
  ⟨0x2a, ['L', 'B', 'P', 'L'], ["E1", "M_LREL"]⟩,
  ⟨0x2b, ['L', 'B', 'M', 'I'], ["E1", "M_LREL"]⟩,
  ⟨0x2c, ['L', 'B', 'G', 'E'], ["E1", "M_LREL"]⟩,
  ⟨0x2d, ['L', 'B', 'L', 'T'], ["E1", "M_LREL"]⟩,
  ⟨0x2e, ['L', 'B', 'G', 'T'], ["E1", "M_LREL"]⟩,
  ⟨0x2f, ['L', 'B', 'L', 'E'], ["E1", "M_LREL"]⟩,
  ⟨0x3f, ['S', 'W', 'I', '2'], ["E0"]⟩,
  ⟨0x83, ['C', 'M', 'P', 'D'], ["E1", "M_GEN16"]⟩,
  ⟨0x8c, ['C', 'M', 'P', 'Y'], ["E1", "M_GEN16"]⟩,
  ⟨0x8e, ['L', 'D', 'Y'], ["E1", "M_GEN16"]⟩,
  ⟨0x8f, ['S', 'T', 'Y'], ["U1", "M_IM32"]⟩,
  ⟨0x8f, ['S', 'T', 'Y'], ["E1", "M_GEN16"]⟩,
  ⟨0xce, ['L', 'D', 'S'], ["E1", "M_GEN16"]⟩,
  ⟨0xcf, ['S', 'T', 'S'], ["U1", "M_IM32"]⟩,
  ⟨0xcf, ['S', 'T', 'S'], ["E1", "M_GEN16"]⟩]

/-- src/table_mc6809.cpp:304-331 -/
def MC6809_I10 : List Nat := [
  18, 19, 4, 6, 8, 13, 15, 1, 3, 16, 5, 2, 14, 12, 7, 11,
  0, 9, 10, 23, 20, 24, 25, 21, 22, 17]

/-- src/table_mc6809.cpp:333-337 -/
def MC6809_P11 : List Row := [
  ⟨0x3f, ['S', 'W', 'I', '3'], ["E0"]⟩,
  ⟨0x83, ['C', 'M', 'P', 'U'], ["E1", "M_GEN16"]⟩,
  ⟨0x8c, ['C', 'M', 'P', 'S'], ["E1", "M_GEN16"]⟩]

/-- src/table_mc6809.cpp:339-343 -/
def MC6809_I11 : List Nat := [
  2, 1, 0]

/-- src/table_mc6809.cpp:345-352 -/
def HD6309_P00 : List Row := [
  ⟨0x1, ['O', 'I', 'M'], ["E2", "M_IM8", "M_GMEM"]⟩,
  ⟨0x2, ['A', 'I', 'M'], ["E2", "M_IM8", "M_GMEM"]⟩,
  ⟨0x5, ['E', 'I', 'M'], ["E2", "M_IM8", "M_GMEM"]⟩,
  ⟨0xb, ['T', 'I', 'M'], ["E2", "M_IM8", "M_GMEM"]⟩,
  ⟨0x14, ['S', 'E', 'X', 'W'], ["E0"]⟩,
  ⟨0xcd, ['L', 'D', 'Q'], ["E1", "M_IM32"]⟩]

/-- src/table_mc6809.cpp:354-361 -/
def HD6309_I00 : List Nat := [
  1, 2, 5, 0, 4, 3]

/-- src/table_mc6809.cpp:363-412 -/
def HD6309_P10 : List Row := [
  ⟨0x30, ['A', 'D', 'D', 'R'], ["E1", "M_PAIR"]⟩,
  ⟨0x31, ['A', 'D', 'C', 'R'], ["E1", "M_PAIR"]⟩,
  ⟨0x32, ['S', 'U', 'B', 'R'], ["E1", "M_PAIR"]⟩,
  ⟨0x33, ['S', 'B', 'C', 'R'], ["E1", "M_PAIR"]⟩,
  ⟨0x34, ['A', 'N', 'D', 'R'], ["E1", "M_PAIR"]⟩,
  ⟨0x35, ['O', 'R', 'R'], ["E1", "M_PAIR"]⟩,
  ⟨0x36, ['E', 'O', 'R', 'R'], ["E1", "M_PAIR"]⟩,
  ⟨0x37, ['C', 'M', 'P', 'R'], ["E1", "M_PAIR"]⟩,
  ⟨0x38, ['P', 'S', 'H', 'S', 'W'], ["E0"]⟩,
  ⟨0x39, ['P', 'U', 'L', 'S', 'W'], ["E0"]⟩,
  ⟨0x3a, ['P', 'S', 'H', 'U', 'W'], ["E0"]⟩,
  ⟨0x3b, ['P', 'U', 'L', 'U', 'W'], ["E0"]⟩,
  ⟨0x40, ['N', 'E', 'G', 'D'], ["E0"]⟩,
  ⟨0x43, ['C', 'O', 'M', 'D'], ["E0"]⟩,
  ⟨0x44, ['L', 'S', 'R', 'D'], ["E0"]⟩,
  ⟨0x46, ['R', 'O', 'R', 'D'], ["E0"]⟩,
  ⟨0x47, ['A', 'S', 'R', 'D'], ["E0"]⟩,
  ⟨0x48, ['A', 'S', 'L', 'D'], ["E0"]⟩,
  ⟨0x48, ['L', 'S', 'L', 'D'], ["E0"]⟩,
  ⟨0x49, ['R', 'O', 'L', 'D'], ["E0"]⟩,
  ⟨0x4a, ['D', 'E', 'C', 'D'], ["E0"]⟩,
  ⟨0x4c, ['I', 'N', 'C', 'D'], ["E0"]⟩,
  ⟨0x4d, ['T', 'S', 'T', 'D'], ["E0"]⟩,
  ⟨0x4f, ['C', 'L', 'R', 'D'], ["E0"]⟩,
  ⟨0x53, ['C', 'O', 'M', 'W'], ["E0"]⟩,
  ⟨0x54, ['L', 'S', 'R', 'W'], ["E0"]⟩,
  ⟨0x56, ['R', 'O', 'R', 'W'], ["E0"]⟩,
  ⟨0x59, ['R', 'O', 'L', 'W'], ["E0"]⟩,
  ⟨0x5a, ['D', 'E', 'C', 'W'], ["E0"]⟩,
  ⟨0x5c, ['I', 'N', 'C', 'W'], ["E0"]⟩,
  ⟨0x5d, ['T', 'S', 'T', 'W'], ["E0"]⟩,
  ⟨0x5f, ['C', 'L', 'R', 'W'], ["E0"]⟩,
  ⟨0x80, ['S', 'U', 'B', 'W'], ["E1", "M_GEN16"]⟩,
  ⟨0x81, ['C', 'M', 'P', 'W'], ["E1", "M_GEN16"]⟩,
  ⟨0x82, ['S', 'B', 'C', 'D'], ["E1", "M_GEN16"]⟩,
  ⟨0x84, ['A', 'N', 'D', 'D'], ["E1", "M_GEN16"]⟩,
  ⟨0x85, ['B', 'I', 'T', 'D'], ["E1", "M_GEN16"]⟩,
  ⟨0x86, ['L', 'D', 'W'], ["E1", "M_GEN16"]⟩,
  ⟨0x87, ['S', 'T', 'W'], ["U1", "M_IM32"]⟩,
  ⟨0x87, ['S', 'T', 'W'], ["E1", "M_GEN16"]⟩,
  ⟨0x88, ['E', 'O', 'R', 'D'], ["E1", "M_GEN16"]⟩,
  ⟨0x89, ['A', 'D', 'C', 'D'], ["E1", "M_GEN16"]⟩,
  ⟨0x8a, ['O', 'R', 'D'], ["E1", "M_GEN16"]⟩,
  ⟨0x8b, ['A', 'D', 'D', 'W'], ["E1", "M_GEN16"]⟩,
  ⟨0xcc, ['L', 'D', 'Q'], ["U1", "M_IM32"]⟩,
  ⟨0xcc, ['L', 'D', 'Q'], ["E1", "M_GEN16"]⟩,
  ⟨0xcd, ['S', 'T', 'Q'], ["U1", "M_IM32"]⟩,
  ⟨0xcd, ['S', 'T', 'Q'], ["E1", "M_GEN16"]⟩]

/-- src/table_mc6809.cpp:414-463 -/
def HD6309_I10 : List Nat := [
  41, 1, 0, 43, 35, 4, 17, 16, 36, 23, 31, 7, 33, 13, 24, 20,
  28, 40, 6, 21, 29, 44, 45, 37, 18, 14, 25, 12, 42, 5, 8, 10,
  9, 11, 19, 27, 15, 26, 34, 3, 46, 47, 38, 39, 2, 32, 22, 30]

/-- src/table_mc6809.cpp:465-505 -/
def HD6309_P11 : List Row := [
  ⟨0x30, ['B', 'A', 'N', 'D'], ["E2", "M_RBIT", "M_DBIT"]⟩,
  ⟨0x31, ['B', 'I', 'A', 'N', 'D'], ["E2", "M_RBIT", "M_DBIT"]⟩,
  ⟨0x32, ['B', 'O', 'R'], ["E2", "M_RBIT", "M_DBIT"]⟩,
  ⟨0x33, ['B', 'I', 'O', 'R'], ["E2", "M_RBIT", "M_DBIT"]⟩,
  ⟨0x34, ['B', 'E', 'O', 'R'], ["E2", "M_RBIT", "M_DBIT"]⟩,
  ⟨0x35, ['B', 'I', 'E', 'O', 'R'], ["E2", "M_RBIT", "M_DBIT"]⟩,
  ⟨0x36, ['L', 'D', 'B', 'T'], ["E2", "M_RBIT", "M_DBIT"]⟩,
  ⟨0x37, ['S', 'T', 'B', 'T'], ["E2", "M_RBIT", "M_DBIT"]⟩,
  ⟨0x38, ['T', 'F', 'M'], ["E2", "M_RTFM", "M_RTFM"]⟩,
  ⟨0x39, ['T', 'F', 'M'], ["E2", "M_RTFM", "M_RTFM"]⟩,
  ⟨0x3a, ['T', 'F', 'M'], ["E2", "M_RTFM", "M_RTFM"]⟩,
  ⟨0x3b, ['T', 'F', 'M'], ["E2", "M_RTFM", "M_RTFM"]⟩,
  ⟨0x3c, ['B', 'I', 'T', 'M', 'D'], ["E1", "M_IM8"]⟩,
  ⟨0x3d, ['L', 'D', 'M', 'D'], ["E1", "M_IM8"]⟩,
  ⟨0x43, ['C', 'O', 'M', 'E'], ["E0"]⟩,
  ⟨0x4a, ['D', 'E', 'C', 'E'], ["E0"]⟩,
  ⟨0x4c, ['I', 'N', 'C', 'E'], ["E0"]⟩,
  ⟨0x4d, ['T', 'S', 'T', 'E'], ["E0"]⟩,
  ⟨0x4f, ['C', 'L', 'R', 'E'], ["E0"]⟩,
  ⟨0x53, ['C', 'O', 'M', 'F'], ["E0"]⟩,
  ⟨0x5a, ['D', 'E', 'C', 'F'], ["E0"]⟩,
  ⟨0x5c, ['I', 'N', 'C', 'F'], ["E0"]⟩,
  ⟨0x5d, ['T', 'S', 'T', 'F'], ["E0"]⟩,
  ⟨0x5f, ['C', 'L', 'R', 'F'], ["E0"]⟩,
  ⟨0x80, ['S', 'U', 'B', 'E'], ["E1", "M_GEN8"]⟩,
  ⟨0x81, ['C', 'M', 'P', 'E'], ["E1", "M_GEN8"]⟩,
  ⟨0x86, ['L', 'D', 'E'], ["E1", "M_GEN8"]⟩,
  ⟨0x87, ['S', 'T', 'E'], ["U1", "M_IM8"]⟩,
  ⟨0x87, ['S', 'T', 'E'], ["E1", "M_GEN8"]⟩,
  ⟨0x8b, ['A', 'D', 'D', 'E'], ["E1", "M_GEN8"]⟩,
  ⟨0x8d, ['D', 'I', 'V', 'D'], ["E1", "M_GEN8"]⟩,
  ⟨0x8e, ['D', 'I', 'V', 'Q'], ["E1", "M_GEN16"]⟩,
  ⟨0x8f, ['M', 'U', 'L', 'D'], ["E1", "M_GEN16"]⟩,
  ⟨0xc0, ['S', 'U', 'B', 'F'], ["E1", "M_GEN8"]⟩,
  ⟨0xc1, ['C', 'M', 'P', 'F'], ["E1", "M_GEN8"]⟩,
  ⟨0xc6, ['L', 'D', 'F'], ["E1", "M_GEN8"]⟩,
  ⟨0xc7, ['S', 'T', 'F'], ["U1", "M_IM8"]⟩,
  ⟨0xc7, ['S', 'T', 'F'], ["E1", "M_GEN8"]⟩,
  ⟨0xcb, ['A', 'D', 'D', 'F'], ["E1", "M_GEN8"]⟩]

/-- src/table_mc6809.cpp:507-547 -/
def HD6309_I11 : List Nat := [
  29, 38, 0, 4, 1, 5, 3, 12, 2, 18, 23, 25, 34, 14, 19, 15,
  20, 30, 31, 16, 21, 6, 26, 35, 13, 32, 7, 27, 28, 36, 37, 24,
  33, 8, 9, 10, 11, 17, 22]

/-- src/table_mc6809.cpp:552-556 -/
def MC6809_PAGES : List (Page Row) := [
  ⟨0x0, [], MC6809_P00, MC6809_I00⟩,
  ⟨0x10, [], MC6809_P10, MC6809_I10⟩,
  ⟨0x11, [], MC6809_P11, MC6809_I11⟩]

/-- src/table_mc6809.cpp:558-565 -/
def HD6309_PAGES : List (Page Row) := [
  ⟨0x0, [], HD6309_P00, HD6309_I00⟩,
  ⟨0x0, [], MC6809_P00, MC6809_I00⟩,
  ⟨0x10, [], MC6809_P10, MC6809_I10⟩,
  ⟨0x11, [], MC6809_P11, MC6809_I11⟩,
  ⟨0x10, [], HD6309_P10, HD6309_I10⟩,
  ⟨0x11, [], HD6309_P11, HD6309_I11⟩]

/-- The processors of src/table_mc6809.cpp: CPU_TABLE 639-642 -/
def cpus : List Cpu := [
  ⟨['6', '8', '0', '9'], MC6809_PAGES⟩,
  ⟨['6', '3', '0', '9'], HD6309_PAGES⟩]

theorem MC6809_P00_MC6809_I00 (n : Nat) (x : List String) : PageOk ⟨n, x, MC6809_P00, MC6809_I00⟩ :=
  pageB_sound ⟨n, x, MC6809_P00, MC6809_I00⟩ (show pageB ⟨0, [], MC6809_P00, MC6809_I00⟩ = true by decide +kernel)

theorem MC6809_P10_MC6809_I10 (n : Nat) (x : List String) : PageOk ⟨n, x, MC6809_P10, MC6809_I10⟩ :=
  pageB_sound ⟨n, x, MC6809_P10, MC6809_I10⟩ (show pageB ⟨0, [], MC6809_P10, MC6809_I10⟩ = true by decide +kernel)

theorem MC6809_P11_MC6809_I11 (n : Nat) (x : List String) : PageOk ⟨n, x, MC6809_P11, MC6809_I11⟩ :=
  pageB_sound ⟨n, x, MC6809_P11, MC6809_I11⟩ (show pageB ⟨0, [], MC6809_P11, MC6809_I11⟩ = true by decide +kernel)

theorem HD6309_P00_HD6309_I00 (n : Nat) (x : List String) : PageOk ⟨n, x, HD6309_P00, HD6309_I00⟩ :=
  pageB_sound ⟨n, x, HD6309_P00, HD6309_I00⟩ (show pageB ⟨0, [], HD6309_P00, HD6309_I00⟩ = true by decide +kernel)

theorem HD6309_P10_HD6309_I10 (n : Nat) (x : List String) : PageOk ⟨n, x, HD6309_P10, HD6309_I10⟩ :=
  pageB_sound ⟨n, x, HD6309_P10, HD6309_I10⟩ (show pageB ⟨0, [], HD6309_P10, HD6309_I10⟩ = true by decide +kernel)

theorem HD6309_P11_HD6309_I11 (n : Nat) (x : List String) : PageOk ⟨n, x, HD6309_P11, HD6309_I11⟩ :=
  pageB_sound ⟨n, x, HD6309_P11, HD6309_I11⟩ (show pageB ⟨0, [], HD6309_P11, HD6309_I11⟩ = true by decide +kernel)

theorem MC6809_PAGES_ok : ∀ p ∈ MC6809_PAGES, PageOk p :=
  List.forall_mem_cons.mpr <| And.intro (MC6809_P00_MC6809_I00 _ _) <| List.forall_mem_cons.mpr <| And.intro (MC6809_P10_MC6809_I10 _ _) <| List.forall_mem_cons.mpr <| And.intro (MC6809_P11_MC6809_I11 _ _) nofun

theorem HD6309_PAGES_ok : ∀ p ∈ HD6309_PAGES, PageOk p :=
  List.forall_mem_cons.mpr <| And.intro (HD6309_P00_HD6309_I00 _ _) <| List.forall_mem_cons.mpr <| And.intro (MC6809_P00_MC6809_I00 _ _) <| List.forall_mem_cons.mpr <| And.intro (MC6809_P10_MC6809_I10 _ _) <| List.forall_mem_cons.mpr <| And.intro (MC6809_P11_MC6809_I11 _ _) <| List.forall_mem_cons.mpr <| And.intro (HD6309_P10_HD6309_I10 _ _) <| List.forall_mem_cons.mpr <| And.intro (HD6309_P11_HD6309_I11 _ _) nofun

theorem cpus_ok : ∀ c ∈ cpus, ∀ p ∈ c.pages, PageOk p :=
  List.forall_mem_cons.mpr <| And.intro MC6809_PAGES_ok <| List.forall_mem_cons.mpr <| And.intro HD6309_PAGES_ok nofun

end Libasm.Tables.Mc6809
