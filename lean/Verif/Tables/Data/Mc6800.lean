import Verif.Tables.Row
/-
Generated by tools/gen_tables.py from src/table_mc6800.cpp: names, codes, operands and indexes as written
there. Do not edit.
-/
namespace Libasm.Tables.Mc6800
open Table

/-- src/table_mc6800.cpp:36-154 -/
def MC6800_TABLE : List Row := [
  ⟨0x1, ['N', 'O', 'P'], ["E0"]⟩,
  ⟨0x6, ['T', 'A', 'P'], ["E0"]⟩,
  ⟨0x7, ['T', 'P', 'A'], ["E0"]⟩,
  ⟨0x8, ['I', 'N', 'X'], ["E0"]⟩,
  ⟨0x9, ['D', 'E', 'X'], ["E0"]⟩,
  ⟨0xa, ['C', 'L', 'V'], ["E0"]⟩,
  ⟨0xb, ['S', 'E', 'V'], ["E0"]⟩,
  ⟨0xc, ['C', 'L', 'C'], ["E0"]⟩,
  ⟨0xd, ['S', 'E', 'C'], ["E0"]⟩,
  ⟨0xe, ['C', 'L', 'I'], ["E0"]⟩,
  ⟨0xf, ['S', 'E', 'I'], ["E0"]⟩,
  ⟨0x10, ['S', 'B', 'A'], ["E0"]⟩,
  ⟨0x11, ['C', 'B', 'A'], ["E0"]⟩,
  ⟨0x16, ['T', 'A', 'B'], ["E0"]⟩,
  ⟨0x17, ['T', 'B', 'A'], ["E0"]⟩,
  ⟨0x19, ['D', 'A', 'A'], ["E0"]⟩,
  ⟨0x1b, ['A', 'B', 'A'], ["E0"]⟩,
  ⟨0x20, ['B', 'R', 'A'], ["E1", "M_REL"]⟩,
  ⟨0x22, ['B', 'H', 'I'], ["E1", "M_REL"]⟩,
  ⟨0x23, ['B', 'L', 'S'], ["E1", "M_REL"]⟩,
  ⟨0x24, ['B', 'H', 'S'], ["E1", "M_REL"]⟩,
  ⟨0x24, ['B', 'C', 'C'], ["E1", "M_REL"]⟩,
  ⟨0x25, ['B', 'L', 'O'], ["E1", "M_REL"]⟩,
  ⟨0x25, ['B', 'C', 'S'], ["E1", "M_REL"]⟩,
  ⟨0x26, ['B', 'N', 'E'], ["E1", "M_REL"]⟩,
  ⟨0x27, ['B', 'E', 'Q'], ["E1", "M_REL"]⟩,
  ⟨0x28, ['B', 'V', 'C'], ["E1", "M_REL"]⟩,
  ⟨0x29, ['B', 'V', 'S'], ["E1", "M_REL"]⟩,
  ⟨0x2a, ['B', 'P', 'L'], ["E1", "M_REL"]⟩,
  ⟨0x2b, ['B', 'M', 'I'], ["E1", "M_REL"]⟩,
  ⟨0x2c, ['B', 'G', 'E'], ["E1", "M_REL"]⟩,
  ⟨0x2d, ['B', 'L', 'T'], ["E1", "M_REL"]⟩,
  ⟨0x2e, ['B', 'G', 'T'], ["E1", "M_REL"]⟩,
  ⟨0x2f, ['B', 'L', 'E'], ["E1", "M_REL"]⟩,
  ⟨0x30, ['T', 'S', 'X'], ["E0"]⟩,
  ⟨0x31, ['I', 'N', 'S'], ["E0"]⟩,
  ⟨0x32, ['P', 'U', 'L', 'A'], ["E0"]⟩,
  ⟨0x33, ['P', 'U', 'L', 'B'], ["E0"]⟩,
  ⟨0x34, ['D', 'E', 'S'], ["E0"]⟩,
  ⟨0x35, ['T', 'X', 'S'], ["E0"]⟩,
  ⟨0x36, ['P', 'S', 'H', 'A'], ["E0"]⟩,
  ⟨0x37, ['P', 'S', 'H', 'B'], ["E0"]⟩,
  ⟨0x39, ['R', 'T', 'S'], ["E0"]⟩,
  ⟨0x3b, ['R', 'T', 'I'], ["E0"]⟩,
  ⟨0x3e, ['W', 'A', 'I'], ["E0"]⟩,
  ⟨0x3f, ['S', 'W', 'I'], ["E0"]⟩,
  ⟨0x40, ['N', 'E', 'G', 'A'], ["E0"]⟩,
  ⟨0x50, ['N', 'E', 'G', 'B'], ["E0"]⟩,
  ⟨0x43, ['C', 'O', 'M', 'A'], ["E0"]⟩,
  ⟨0x53, ['C', 'O', 'M', 'B'], ["E0"]⟩,
  ⟨0x44, ['L', 'S', 'R', 'A'], ["E0"]⟩,
  ⟨0x54, ['L', 'S', 'R', 'B'], ["E0"]⟩,
  ⟨0x46, ['R', 'O', 'R', 'A'], ["E0"]⟩,
  ⟨0x56, ['R', 'O', 'R', 'B'], ["E0"]⟩,
  ⟨0x47, ['A', 'S', 'R', 'A'], ["E0"]⟩,
  ⟨0x57, ['A', 'S', 'R', 'B'], ["E0"]⟩,
  ⟨0x48, ['A', 'S', 'L', 'A'], ["E0"]⟩,
  ⟨0x58, ['A', 'S', 'L', 'B'], ["E0"]⟩,
  ⟨0x48, ['L', 'S', 'L', 'A'], ["E0"]⟩,
  ⟨0x58, ['L', 'S', 'L', 'B'], ["E0"]⟩,
  ⟨0x49, ['R', 'O', 'L', 'A'], ["E0"]⟩,
  ⟨0x59, ['R', 'O', 'L', 'B'], ["E0"]⟩,
  ⟨0x4a, ['D', 'E', 'C', 'A'], ["E0"]⟩,
  ⟨0x5a, ['D', 'E', 'C', 'B'], ["E0"]⟩,
  ⟨0x4c, ['I', 'N', 'C', 'A'], ["E0"]⟩,
  ⟨0x5c, ['I', 'N', 'C', 'B'], ["E0"]⟩,
  ⟨0x4d, ['T', 'S', 'T', 'A'], ["E0"]⟩,
  ⟨0x5d, ['T', 'S', 'T', 'B'], ["E0"]⟩,
  ⟨0x4f, ['C', 'L', 'R', 'A'], ["E0"]⟩,
  ⟨0x5f, ['C', 'L', 'R', 'B'], ["E0"]⟩,
  ⟨0x60, ['N', 'E', 'G'], ["E1", "M_GMEM"]⟩,
  ⟨0x63, ['C', 'O', 'M'], ["E1", "M_GMEM"]⟩,
  ⟨0x64, ['L', 'S', 'R'], ["E1", "M_GMEM"]⟩,
  ⟨0x66, ['R', 'O', 'R'], ["E1", "M_GMEM"]⟩,
  ⟨0x67, ['A', 'S', 'R'], ["E1", "M_GMEM"]⟩,
  ⟨0x68, ['A', 'S', 'L'], ["E1", "M_GMEM"]⟩,
  ⟨0x68, ['L', 'S', 'L'], ["E1", "M_GMEM"]⟩,
  ⟨0x69, ['R', 'O', 'L'], ["E1", "M_GMEM"]⟩,
  ⟨0x6a, ['D', 'E', 'C'], ["E1", "M_GMEM"]⟩,
  ⟨0x6c, ['I', 'N', 'C'], ["E1", "M_GMEM"]⟩,
  ⟨0x6d, ['T', 'S', 'T'], ["E1", "M_GMEM"]⟩,
  ⟨0x6e, ['J', 'M', 'P'], ["E1", "M_GMEM"]⟩,
  ⟨0x6f, ['C', 'L', 'R'], ["E1", "M_GMEM"]⟩,
  ⟨0x80, ['S', 'U', 'B', 'A'], ["E1", "M_GN8"]⟩,
  ⟨0xc0, ['S', 'U', 'B', 'B'], ["E1", "M_GN8"]⟩,
  ⟨0x81, ['C', 'M', 'P', 'A'], ["E1", "M_GN8"]⟩,
  ⟨0xc1, ['C', 'M', 'P', 'B'], ["E1", "M_GN8"]⟩,
  ⟨0x82, ['S', 'B', 'C', 'A'], ["E1", "M_GN8"]⟩,
  ⟨0xc2, ['S', 'B', 'C', 'B'], ["E1", "M_GN8"]⟩,
  ⟨0x84, ['A', 'N', 'D', 'A'], ["E1", "M_GN8"]⟩,
  ⟨0xc4, ['A', 'N', 'D', 'B'], ["E1", "M_GN8"]⟩,
  ⟨0x85, ['B', 'I', 'T', 'A'], ["E1", "M_GN8"]⟩,
  ⟨0xc5, ['B', 'I', 'T', 'B'], ["E1", "M_GN8"]⟩,
  ⟨0x86, ['L', 'D', 'A', 'A'], ["E1", "M_GN8"]⟩,
  ⟨0xc6, ['L', 'D', 'A', 'B'], ["E1", "M_GN8"]⟩,
  ⟨0x87, ['S', 'T', 'A', 'A'], ["U1", "M_IM8"]⟩,
  ⟨0xc7, ['S', 'T', 'A', 'B'], ["U1", "M_IM8"]⟩,
  ⟨0x87, ['S', 'T', 'A', 'A'], ["E1", "M_GN8"]⟩,
  ⟨0xc7, ['S', 'T', 'A', 'B'], ["E1", "M_GN8"]⟩,
  ⟨0x88, ['E', 'O', 'R', 'A'], ["E1", "M_GN8"]⟩,
  ⟨0xc8, ['E', 'O', 'R', 'B'], ["E1", "M_GN8"]⟩,
  ⟨0x89, ['A', 'D', 'C', 'A'], ["E1", "M_GN8"]⟩,
  ⟨0xc9, ['A', 'D', 'C', 'B'], ["E1", "M_GN8"]⟩,
  ⟨0x8a, ['O', 'R', 'A', 'A'], ["E1", "M_GN8"]⟩,
  ⟨0xca, ['O', 'R', 'A', 'B'], ["E1", "M_GN8"]⟩,
  ⟨0x8b, ['A', 'D', 'D', 'A'], ["E1", "M_GN8"]⟩,
  ⟨0xcb, ['A', 'D', 'D', 'B'], ["E1", "M_GN8"]⟩,
  ⟨0x8c, ['C', 'P', 'X'], ["E1", "M_GN16"]⟩,
  ⟨0x8d, ['B', 'S', 'R'], ["E1", "M_REL"]⟩,
  ⟨0x8e, ['L', 'D', 'S'], ["E1", "M_GN16"]⟩,
  ⟨0x8f, ['S', 'T', 'S'], ["U1", "M_IM16"]⟩,
  ⟨0x8f, ['S', 'T', 'S'], ["E1", "M_GN16"]⟩,
  ⟨0xad, ['J', 'S', 'R'], ["E1", "M_IDX"]⟩,
  ⟨0xbd, ['J', 'S', 'R'], ["E1", "M_EXT"]⟩,
  ⟨0xce, ['L', 'D', 'X'], ["E1", "M_GN16"]⟩,
  ⟨0xcf, ['S', 'T', 'X'], ["U1", "M_IM16"]⟩,
  ⟨0xcf, ['S', 'T', 'X'], ["E1", "M_GN16"]⟩]

/-- src/table_mc6800.cpp:156-274 -/
def MC6800_INDEX : List Nat := [
  16, 101, 102, 105, 106, 89, 90, 75, 56, 57, 74, 54, 55, 21, 23, 25,
  30, 32, 18, 20, 91, 92, 33, 22, 19, 31, 29, 24, 28, 17, 108, 26,
  27, 12, 7, 9, 82, 68, 69, 5, 85, 86, 71, 48, 49, 107, 15, 78,
  62, 63, 38, 4, 99, 100, 79, 64, 65, 35, 3, 81, 112, 113, 93, 94,
  109, 114, 76, 58, 59, 72, 50, 51, 70, 46, 47, 0, 103, 104, 40, 41,
  36, 37, 77, 60, 61, 73, 52, 53, 43, 42, 11, 87, 88, 8, 10, 6,
  95, 97, 96, 98, 110, 111, 115, 116, 83, 84, 45, 13, 1, 14, 2, 80,
  66, 67, 34, 39, 44]

/-- src/table_mc6800.cpp:276-283 -/
def MB8861_TABLE : List Row := [
  ⟨0x71, ['N', 'I', 'M'], ["E2", "M_IM8", "M_IDX"]⟩,
  ⟨0x72, ['O', 'I', 'M'], ["E2", "M_IM8", "M_IDX"]⟩,
  ⟨0x75, ['X', 'I', 'M'], ["E2", "M_IM8", "M_IDX"]⟩,
  ⟨0x7b, ['T', 'M', 'M'], ["E2", "M_IM8", "M_IDX"]⟩,
  ⟨0xec, ['A', 'D', 'X'], ["E1", "M_IM8"]⟩,
  ⟨0xfc, ['A', 'D', 'X'], ["E1", "M_EXT"]⟩]

/-- src/table_mc6800.cpp:285-292 -/
def MB8861_INDEX : List Nat := [
  4, 5, 0, 1, 3, 2]

/-- src/table_mc6800.cpp:294-309 -/
def MC6801_TABLE : List Row := [
  ⟨0x4, ['L', 'S', 'R', 'D'], ["E0"]⟩,
  ⟨0x5, ['A', 'S', 'L', 'D'], ["E0"]⟩,
  ⟨0x5, ['L', 'S', 'L', 'D'], ["E0"]⟩,
  ⟨0x21, ['B', 'R', 'N'], ["E1", "M_REL"]⟩,
  ⟨0x38, ['P', 'U', 'L', 'X'], ["E0"]⟩,
  ⟨0x3a, ['A', 'B', 'X'], ["E0"]⟩,
  ⟨0x3c, ['P', 'S', 'H', 'X'], ["E0"]⟩,
  ⟨0x3d, ['M', 'U', 'L'], ["E0"]⟩,
  ⟨0x83, ['S', 'U', 'B', 'D'], ["E1", "M_GN16"]⟩,
  ⟨0x9d, ['J', 'S', 'R'], ["E1", "M_DIR"]⟩,
  ⟨0xc3, ['A', 'D', 'D', 'D'], ["E1", "M_GN16"]⟩,
  ⟨0xcc, ['L', 'D', 'D'], ["E1", "M_GN16"]⟩,
  ⟨0xcd, ['S', 'T', 'D'], ["U1", "M_IM16"]⟩,
  ⟨0xcd, ['S', 'T', 'D'], ["E1", "M_GN16"]⟩]

/-- src/table_mc6800.cpp:311-326 -/
def MC6801_INDEX : List Nat := [
  5, 10, 1, 3, 9, 11, 2, 0, 7, 6, 4, 12, 13, 8]

/-- src/table_mc6800.cpp:328-347 -/
def HD6301_TABLE : List Row := [
  ⟨0x18, ['X', 'G', 'D', 'X'], ["E0"]⟩,
  ⟨0x1a, ['S', 'L', 'P'], ["E0"]⟩,
  ⟨0x61, ['A', 'I', 'M'], ["E2", "M_BMM", "M_IDX"]⟩,
  ⟨0x61, ['B', 'C', 'L', 'R'], ["E2", "M_BIT", "M_IDX"]⟩,
  ⟨0x62, ['O', 'I', 'M'], ["E2", "M_BMM", "M_IDX"]⟩,
  ⟨0x62, ['B', 'S', 'E', 'T'], ["E2", "M_BIT", "M_IDX"]⟩,
  ⟨0x65, ['E', 'I', 'M'], ["E2", "M_BMM", "M_IDX"]⟩,
  ⟨0x65, ['B', 'T', 'G', 'L'], ["E2", "M_BIT", "M_IDX"]⟩,
  ⟨0x6b, ['T', 'I', 'M'], ["E2", "M_BMM", "M_IDX"]⟩,
  ⟨0x6b, ['B', 'T', 'S', 'T'], ["E2", "M_BIT", "M_IDX"]⟩,
  ⟨0x71, ['A', 'I', 'M'], ["E2", "M_BMM", "M_DIR"]⟩,
  ⟨0x71, ['B', 'C', 'L', 'R'], ["E2", "M_BIT", "M_DIR"]⟩,
  ⟨0x72, ['O', 'I', 'M'], ["E2", "M_BMM", "M_DIR"]⟩,
  ⟨0x72, ['B', 'S', 'E', 'T'], ["E2", "M_BIT", "M_DIR"]⟩,
  ⟨0x75, ['E', 'I', 'M'], ["E2", "M_BMM", "M_DIR"]⟩,
  ⟨0x75, ['B', 'T', 'G', 'L'], ["E2", "M_BIT", "M_DIR"]⟩,
  ⟨0x7b, ['T', 'I', 'M'], ["E2", "M_BMM", "M_DIR"]⟩,
  ⟨0x7b, ['B', 'T', 'S', 'T'], ["E2", "M_BIT", "M_DIR"]⟩]

/-- src/table_mc6800.cpp:349-368 -/
def HD6301_INDEX : List Nat := [
  2, 10, 3, 11, 5, 13, 7, 15, 9, 17, 6, 14, 4, 12, 1, 8,
  16, 0]

/-- src/table_mc6800.cpp:370-383 -/
def MC68HC11_P00 : List Row := [
  ⟨0x2, ['I', 'D', 'I', 'V'], ["E0"]⟩,
  ⟨0x3, ['F', 'D', 'I', 'V'], ["E0"]⟩,
  ⟨0x12, ['B', 'R', 'S', 'E', 'T'], ["E3", "M_DIR", "M_IM8", "M_REL"]⟩,
  ⟨0x13, ['B', 'R', 'C', 'L', 'R'], ["E3", "M_DIR", "M_IM8", "M_REL"]⟩,
  ⟨0x14, ['B', 'S', 'E', 'T'], ["E2", "M_DIR", "M_IM8"]⟩,
  ⟨0x15, ['B', 'C', 'L', 'R'], ["E2", "M_DIR", "M_IM8"]⟩,
  ⟨0x1c, ['B', 'S', 'E', 'T'], ["E2", "M_IDX", "M_IM8"]⟩,
  ⟨0x1d, ['B', 'C', 'L', 'R'], ["E2", "M_IDX", "M_IM8"]⟩,
  ⟨0x1e, ['B', 'R', 'S', 'E', 'T'], ["E3", "M_IDX", "M_IM8", "M_REL"]⟩,
  ⟨0x1f, ['B', 'R', 'C', 'L', 'R'], ["E3", "M_IDX", "M_IM8", "M_REL"]⟩,
  ⟨0x8f, ['X', 'G', 'D', 'X'], ["E0"]⟩,
  ⟨0xcf, ['S', 'T', 'O', 'P'], ["E0"]⟩]

/-- src/table_mc6800.cpp:385-398 -/
def MC68HC11_I00 : List Nat := [
  5, 7, 3, 9, 2, 8, 4, 6, 1, 0, 11, 10]

/-- src/table_mc6800.cpp:400-466 -/
def MC68HC11_P18 : List Row := [
  ⟨0x8, ['I', 'N', 'Y'], ["E0"]⟩,
  ⟨0x9, ['D', 'E', 'Y'], ["E0"]⟩,
  ⟨0x1c, ['B', 'S', 'E', 'T'], ["E2", "M_IDY", "M_IM8"]⟩,
  ⟨0x1d, ['B', 'C', 'L', 'R'], ["E2", "M_IDY", "M_IM8"]⟩,
  ⟨0x1e, ['B', 'R', 'S', 'E', 'T'], ["E3", "M_IDY", "M_IM8", "M_REL"]⟩,
  ⟨0x1f, ['B', 'R', 'C', 'L', 'R'], ["E3", "M_IDY", "M_IM8", "M_REL"]⟩,
  ⟨0x30, ['T', 'S', 'Y'], ["E0"]⟩,
  ⟨0x35, ['T', 'Y', 'S'], ["E0"]⟩,
  ⟨0x38, ['P', 'U', 'L', 'Y'], ["E0"]⟩,
  ⟨0x3a, ['A', 'B', 'Y'], ["E0"]⟩,
  ⟨0x3c, ['P', 'S', 'H', 'Y'], ["E0"]⟩,
  ⟨0x60, ['N', 'E', 'G'], ["E1", "M_IDY"]⟩,
  ⟨0x63, ['C', 'O', 'M'], ["E1", "M_IDY"]⟩,
  ⟨0x64, ['L', 'S', 'R'], ["E1", "M_IDY"]⟩,
  ⟨0x66, ['R', 'O', 'R'], ["E1", "M_IDY"]⟩,
  ⟨0x67, ['A', 'S', 'R'], ["E1", "M_IDY"]⟩,
  ⟨0x68, ['A', 'S', 'L'], ["E1", "M_IDY"]⟩,
  ⟨0x68, ['L', 'S', 'L'], ["E1", "M_IDY"]⟩,
  ⟨0x69, ['R', 'O', 'L'], ["E1", "M_IDY"]⟩,
  ⟨0x6a, ['D', 'E', 'C'], ["E1", "M_IDY"]⟩,
  ⟨0x6c, ['I', 'N', 'C'], ["E1", "M_IDY"]⟩,
  ⟨0x6d, ['T', 'S', 'T'], ["E1", "M_IDY"]⟩,
  ⟨0x6e, ['J', 'M', 'P'], ["E1", "M_IDY"]⟩,
  ⟨0x6f, ['C', 'L', 'R'], ["E1", "M_IDY"]⟩,
  ⟨0x8c, ['C', 'P', 'Y'], ["E1", "M_IM16"]⟩,
  ⟨0x8f, ['X', 'G', 'D', 'Y'], ["E0"]⟩,
  ⟨0x9c, ['C', 'P', 'Y'], ["E1", "M_DIR"]⟩,
  ⟨0xa0, ['S', 'U', 'B', 'A'], ["E1", "M_IDY"]⟩,
  ⟨0xe0, ['S', 'U', 'B', 'B'], ["E1", "M_IDY"]⟩,
  ⟨0xa1, ['C', 'M', 'P', 'A'], ["E1", "M_IDY"]⟩,
  ⟨0xe1, ['C', 'M', 'P', 'B'], ["E1", "M_IDY"]⟩,
  ⟨0xa2, ['S', 'B', 'C', 'A'], ["E1", "M_IDY"]⟩,
  ⟨0xe2, ['S', 'B', 'C', 'B'], ["E1", "M_IDY"]⟩,
  ⟨0xa3, ['S', 'U', 'B', 'D'], ["E1", "M_IDY"]⟩,
  ⟨0xe3, ['A', 'D', 'D', 'D'], ["E1", "M_IDY"]⟩,
  ⟨0xa4, ['A', 'N', 'D', 'A'], ["E1", "M_IDY"]⟩,
  ⟨0xe4, ['A', 'N', 'D', 'B'], ["E1", "M_IDY"]⟩,
  ⟨0xa5, ['B', 'I', 'T', 'A'], ["E1", "M_IDY"]⟩,
  ⟨0xe5, ['B', 'I', 'T', 'B'], ["E1", "M_IDY"]⟩,
  ⟨0xa6, ['L', 'D', 'A', 'A'], ["E1", "M_IDY"]⟩,
  ⟨0xe6, ['L', 'D', 'A', 'B'], ["E1", "M_IDY"]⟩,
  ⟨0xa7, ['S', 'T', 'A', 'A'], ["E1", "M_IDY"]⟩,
  ⟨0xe7, ['S', 'T', 'A', 'B'], ["E1", "M_IDY"]⟩,
  ⟨0xa8, ['E', 'O', 'R', 'A'], ["E1", "M_IDY"]⟩,
  ⟨0xe8, ['E', 'O', 'R', 'B'], ["E1", "M_IDY"]⟩,
  ⟨0xa9, ['A', 'D', 'C', 'A'], ["E1", "M_IDY"]⟩,
  ⟨0xe9, ['A', 'D', 'C', 'B'], ["E1", "M_IDY"]⟩,
  ⟨0xaa, ['O', 'R', 'A', 'A'], ["E1", "M_IDY"]⟩,
  ⟨0xea, ['O', 'R', 'A', 'B'], ["E1", "M_IDY"]⟩,
  ⟨0xab, ['A', 'D', 'D', 'A'], ["E1", "M_IDY"]⟩,
  ⟨0xeb, ['A', 'D', 'D', 'B'], ["E1", "M_IDY"]⟩,
  ⟨0xac, ['C', 'P', 'Y'], ["E1", "M_IDY"]⟩,
  ⟨0xad, ['J', 'S', 'R'], ["E1", "M_IDY"]⟩,
  ⟨0xae, ['L', 'D', 'S'], ["E1", "M_IDY"]⟩,
  ⟨0xaf, ['S', 'T', 'S'], ["E1", "M_IDY"]⟩,
  ⟨0xbc, ['C', 'P', 'Y'], ["E1", "M_EXT"]⟩,
  ⟨0xce, ['L', 'D', 'Y'], ["E1", "M_IM16"]⟩,
  ⟨0xde, ['L', 'D', 'Y'], ["E1", "M_DIR"]⟩,
  ⟨0xdf, ['S', 'T', 'Y'], ["E1", "M_DIR"]⟩,
  ⟨0xec, ['L', 'D', 'D'], ["E1", "M_IDY"]⟩,
  ⟨0xed, ['S', 'T', 'D'], ["E1", "M_IDY"]⟩,
  ⟨0xee, ['L', 'D', 'Y'], ["E1", "M_IDY"]⟩,
  ⟨0xef, ['S', 'T', 'Y'], ["E1", "M_IDY"]⟩,
  ⟨0xfe, ['L', 'D', 'Y'], ["E1", "M_EXT"]⟩,
  ⟨0xff, ['S', 'T', 'Y'], ["E1", "M_EXT"]⟩]

/-- src/table_mc6800.cpp:468-534 -/
def MC68HC11_I18 : List Nat := [
  9, 45, 46, 49, 50, 34, 35, 36, 16, 15, 3, 37, 38, 5, 4, 2,
  23, 29, 30, 12, 24, 26, 51, 55, 19, 1, 43, 44, 20, 0, 22, 52,
  39, 40, 59, 53, 56, 57, 61, 63, 17, 13, 11, 47, 48, 10, 8, 18,
  14, 31, 32, 41, 42, 60, 54, 58, 62, 64, 27, 28, 33, 21, 6, 7,
  25]

/-- src/table_mc6800.cpp:536-541 -/
def MC68HC11_P1A : List Row := [
  ⟨0x83, ['C', 'P', 'D'], ["E1", "M_GN16"]⟩,
  ⟨0xac, ['C', 'P', 'Y'], ["E1", "M_IDX"]⟩,
  ⟨0xee, ['L', 'D', 'Y'], ["E1", "M_IDX"]⟩,
  ⟨0xef, ['S', 'T', 'Y'], ["E1", "M_IDX"]⟩]

/-- src/table_mc6800.cpp:543-548 -/
def MC68HC11_I1A : List Nat := [
  0, 1, 2, 3]

/-- src/table_mc6800.cpp:550-555 -/
def MC68HC11_PCD : List Row := [
  ⟨0xa3, ['C', 'P', 'D'], ["E1", "M_IDY"]⟩,
  ⟨0xac, ['C', 'P', 'X'], ["E1", "M_IDY"]⟩,
  ⟨0xee, ['L', 'D', 'X'], ["E1", "M_IDY"]⟩,
  ⟨0xef, ['S', 'T', 'X'], ["E1", "M_IDY"]⟩]

/-- src/table_mc6800.cpp:557-562 -/
def MC68HC11_ICD : List Nat := [
  0, 1, 2, 3]

/-- src/table_mc6800.cpp:567-569 -/
def MC6800_PAGES : List (Page Row) := [
  ⟨0x0, [], MC6800_TABLE, MC6800_INDEX⟩]

/-- src/table_mc6800.cpp:571-574 -/
def MB8861_PAGES : List (Page Row) := [
  ⟨0x0, [], MC6800_TABLE, MC6800_INDEX⟩,
  ⟨0x0, [], MB8861_TABLE, MB8861_INDEX⟩]

/-- src/table_mc6800.cpp:576-579 -/
def MC6801_PAGES : List (Page Row) := [
  ⟨0x0, [], MC6801_TABLE, MC6801_INDEX⟩,
  ⟨0x0, [], MC6800_TABLE, MC6800_INDEX⟩]

/-- src/table_mc6800.cpp:581-585 -/
def HD6301_PAGES : List (Page Row) := [
  ⟨0x0, [], HD6301_TABLE, HD6301_INDEX⟩,
  ⟨0x0, [], MC6801_TABLE, MC6801_INDEX⟩,
  ⟨0x0, [], MC6800_TABLE, MC6800_INDEX⟩]

/-- src/table_mc6800.cpp:587-594 -/
def MC68HC11_PAGES : List (Page Row) := [
  ⟨0x0, [], MC68HC11_P00, MC68HC11_I00⟩,
  ⟨0x0, [], MC6801_TABLE, MC6801_INDEX⟩,
  ⟨0x0, [], MC6800_TABLE, MC6800_INDEX⟩,
  ⟨0x18, [], MC68HC11_P18, MC68HC11_I18⟩,
  ⟨0x1a, [], MC68HC11_P1A, MC68HC11_I1A⟩,
  ⟨0xcd, [], MC68HC11_PCD, MC68HC11_ICD⟩]

/-- The processors of src/table_mc6800.cpp: CPU_TABLE 598-604 -/
def cpus : List Cpu := [
  ⟨['6', '8', '0', '0'], MC6800_PAGES⟩,
  ⟨['M', 'B', '8', '8', '6', '1'], MB8861_PAGES⟩,
  ⟨['6', '8', '0', '1'], MC6801_PAGES⟩,
  ⟨['6', '3', '0', '1'], HD6301_PAGES⟩,
  ⟨['6', '8', '1', '1'], MC68HC11_PAGES⟩]

theorem MC6800_TABLE_MC6800_INDEX (n : Nat) (x : List String) : PageOk ⟨n, x, MC6800_TABLE, MC6800_INDEX⟩ :=
  pageB_sound ⟨n, x, MC6800_TABLE, MC6800_INDEX⟩ (show pageB ⟨0, [], MC6800_TABLE, MC6800_INDEX⟩ = true by decide +kernel)

theorem MB8861_TABLE_MB8861_INDEX (n : Nat) (x : List String) : PageOk ⟨n, x, MB8861_TABLE, MB8861_INDEX⟩ :=
  pageB_sound ⟨n, x, MB8861_TABLE, MB8861_INDEX⟩ (show pageB ⟨0, [], MB8861_TABLE, MB8861_INDEX⟩ = true by decide +kernel)

theorem MC6801_TABLE_MC6801_INDEX (n : Nat) (x : List String) : PageOk ⟨n, x, MC6801_TABLE, MC6801_INDEX⟩ :=
  pageB_sound ⟨n, x, MC6801_TABLE, MC6801_INDEX⟩ (show pageB ⟨0, [], MC6801_TABLE, MC6801_INDEX⟩ = true by decide +kernel)

theorem HD6301_TABLE_HD6301_INDEX (n : Nat) (x : List String) : PageOk ⟨n, x, HD6301_TABLE, HD6301_INDEX⟩ :=
  pageB_sound ⟨n, x, HD6301_TABLE, HD6301_INDEX⟩ (show pageB ⟨0, [], HD6301_TABLE, HD6301_INDEX⟩ = true by decide +kernel)

theorem MC68HC11_P00_MC68HC11_I00 (n : Nat) (x : List String) : PageOk ⟨n, x, MC68HC11_P00, MC68HC11_I00⟩ :=
  pageB_sound ⟨n, x, MC68HC11_P00, MC68HC11_I00⟩ (show pageB ⟨0, [], MC68HC11_P00, MC68HC11_I00⟩ = true by decide +kernel)

theorem MC68HC11_P18_MC68HC11_I18 (n : Nat) (x : List String) : PageOk ⟨n, x, MC68HC11_P18, MC68HC11_I18⟩ :=
  pageB_sound ⟨n, x, MC68HC11_P18, MC68HC11_I18⟩ (show pageB ⟨0, [], MC68HC11_P18, MC68HC11_I18⟩ = true by decide +kernel)

theorem MC68HC11_P1A_MC68HC11_I1A (n : Nat) (x : List String) : PageOk ⟨n, x, MC68HC11_P1A, MC68HC11_I1A⟩ :=
  pageB_sound ⟨n, x, MC68HC11_P1A, MC68HC11_I1A⟩ (show pageB ⟨0, [], MC68HC11_P1A, MC68HC11_I1A⟩ = true by decide +kernel)

theorem MC68HC11_PCD_MC68HC11_ICD (n : Nat) (x : List String) : PageOk ⟨n, x, MC68HC11_PCD, MC68HC11_ICD⟩ :=
  pageB_sound ⟨n, x, MC68HC11_PCD, MC68HC11_ICD⟩ (show pageB ⟨0, [], MC68HC11_PCD, MC68HC11_ICD⟩ = true by decide +kernel)

theorem MC6800_PAGES_ok : ∀ p ∈ MC6800_PAGES, PageOk p :=
  List.forall_mem_cons.mpr <| And.intro (MC6800_TABLE_MC6800_INDEX _ _) nofun

theorem MB8861_PAGES_ok : ∀ p ∈ MB8861_PAGES, PageOk p :=
  List.forall_mem_cons.mpr <| And.intro (MC6800_TABLE_MC6800_INDEX _ _) <| List.forall_mem_cons.mpr <| And.intro (MB8861_TABLE_MB8861_INDEX _ _) nofun

theorem MC6801_PAGES_ok : ∀ p ∈ MC6801_PAGES, PageOk p :=
  List.forall_mem_cons.mpr <| And.intro (MC6801_TABLE_MC6801_INDEX _ _) <| List.forall_mem_cons.mpr <| And.intro (MC6800_TABLE_MC6800_INDEX _ _) nofun

theorem HD6301_PAGES_ok : ∀ p ∈ HD6301_PAGES, PageOk p :=
  List.forall_mem_cons.mpr <| And.intro (HD6301_TABLE_HD6301_INDEX _ _) <| List.forall_mem_cons.mpr <| And.intro (MC6801_TABLE_MC6801_INDEX _ _) <| List.forall_mem_cons.mpr <| And.intro (MC6800_TABLE_MC6800_INDEX _ _) nofun

theorem MC68HC11_PAGES_ok : ∀ p ∈ MC68HC11_PAGES, PageOk p :=
  List.forall_mem_cons.mpr <| And.intro (MC68HC11_P00_MC68HC11_I00 _ _) <| List.forall_mem_cons.mpr <| And.intro (MC6801_TABLE_MC6801_INDEX _ _) <| List.forall_mem_cons.mpr <| And.intro (MC6800_TABLE_MC6800_INDEX _ _) <| List.forall_mem_cons.mpr <| And.intro (MC68HC11_P18_MC68HC11_I18 _ _) <| List.forall_mem_cons.mpr <| And.intro (MC68HC11_P1A_MC68HC11_I1A _ _) <| List.forall_mem_cons.mpr <| And.intro (MC68HC11_PCD_MC68HC11_ICD _ _) nofun

theorem cpus_ok : ∀ c ∈ cpus, ∀ p ∈ c.pages, PageOk p :=
  List.forall_mem_cons.mpr <| And.intro MC6800_PAGES_ok <| List.forall_mem_cons.mpr <| And.intro MB8861_PAGES_ok <| List.forall_mem_cons.mpr <| And.intro MC6801_PAGES_ok <| List.forall_mem_cons.mpr <| And.intro HD6301_PAGES_ok <| List.forall_mem_cons.mpr <| And.intro MC68HC11_PAGES_ok nofun

end Libasm.Tables.Mc6800
