import Verif.Tables.Row
/-
Generated by tools/gen_tables.py from src/table_ns32000.cpp: names, codes, operands and indexes as written
there. Do not edit.
-/
namespace Libasm.Tables.Ns32000
open Table

/-- src/table_ns32000.cpp:44-60 -/
def FORMAT_0 : List Row := [
  ⟨0xa, ['B', 'E', 'Q'], ["E1", "SZ_NONE", "M_REL", "P_DISP"]⟩,
  ⟨0x1a, ['B', 'N', 'E'], ["E1", "SZ_NONE", "M_REL", "P_DISP"]⟩,
  ⟨0x2a, ['B', 'C', 'S'], ["E1", "SZ_NONE", "M_REL", "P_DISP"]⟩,
  ⟨0x3a, ['B', 'C', 'C'], ["E1", "SZ_NONE", "M_REL", "P_DISP"]⟩,
  ⟨0x4a, ['B', 'H', 'I'], ["E1", "SZ_NONE", "M_REL", "P_DISP"]⟩,
  ⟨0x5a, ['B', 'L', 'S'], ["E1", "SZ_NONE", "M_REL", "P_DISP"]⟩,
  ⟨0x6a, ['B', 'G', 'T'], ["E1", "SZ_NONE", "M_REL", "P_DISP"]⟩,
  ⟨0x7a, ['B', 'L', 'E'], ["E1", "SZ_NONE", "M_REL", "P_DISP"]⟩,
  ⟨0x8a, ['B', 'F', 'S'], ["E1", "SZ_NONE", "M_REL", "P_DISP"]⟩,
  ⟨0x9a, ['B', 'F', 'C'], ["E1", "SZ_NONE", "M_REL", "P_DISP"]⟩,
  ⟨0xaa, ['B', 'L', 'O'], ["E1", "SZ_NONE", "M_REL", "P_DISP"]⟩,
  ⟨0xba, ['B', 'H', 'S'], ["E1", "SZ_NONE", "M_REL", "P_DISP"]⟩,
  ⟨0xca, ['B', 'L', 'T'], ["E1", "SZ_NONE", "M_REL", "P_DISP"]⟩,
  ⟨0xda, ['B', 'G', 'E'], ["E1", "SZ_NONE", "M_REL", "P_DISP"]⟩,
  ⟨0xea, ['B', 'R'], ["E1", "SZ_NONE", "M_REL", "P_DISP"]⟩]

/-- src/table_ns32000.cpp:61-77 -/
def INDEX_0 : List Nat := [
  3, 2, 0, 9, 8, 13, 6, 4, 11, 7, 10, 5, 12, 1, 14]

/-- src/table_ns32000.cpp:80-97 -/
def FORMAT_1 : List Row := [
  ⟨0x2, ['B', 'S', 'R'], ["E1", "SZ_NONE", "M_REL", "P_DISP"]⟩,
  ⟨0x12, ['R', 'E', 'T'], ["E1", "SZ_NONE", "M_DISP", "P_DISP"]⟩,
  ⟨0x22, ['C', 'X', 'P'], ["E1", "SZ_NONE", "M_DISP", "P_DISP"]⟩,
  ⟨0x32, ['R', 'X', 'P'], ["E1", "SZ_NONE", "M_DISP", "P_DISP"]⟩,
  ⟨0x42, ['R', 'E', 'T', 'T'], ["E1", "SZ_NONE", "M_DISP", "P_DISP"]⟩,
  ⟨0x52, ['R', 'E', 'T', 'I'], ["E0"]⟩,
  ⟨0x62, ['S', 'A', 'V', 'E'], ["E1", "SZ_NONE", "M_RLST", "P_IMPL"]⟩,
  ⟨0x72, ['R', 'E', 'S', 'T', 'O', 'R', 'E'], ["E1", "SZ_QUAD", "M_RLST", "P_IMPL"]⟩,
  ⟨0x82, ['E', 'N', 'T', 'E', 'R'], ["E2", "SZ_NONE", "M_RLST", "M_DISP", "P_IMPL", "P_DISP"]⟩,
  ⟨0x92, ['E', 'X', 'I', 'T'], ["E1", "SZ_QUAD", "M_RLST", "P_IMPL"]⟩,
  ⟨0xa2, ['N', 'O', 'P'], ["E0"]⟩,
  ⟨0xb2, ['W', 'A', 'I', 'T'], ["E0"]⟩,
  ⟨0xc2, ['D', 'I', 'A'], ["E0"]⟩,
  ⟨0xd2, ['F', 'L', 'A', 'G'], ["E0"]⟩,
  ⟨0xe2, ['S', 'V', 'C'], ["E0"]⟩,
  ⟨0xf2, ['B', 'P', 'T'], ["E0"]⟩]

/-- src/table_ns32000.cpp:98-115 -/
def INDEX_1 : List Nat := [
  15, 0, 2, 12, 8, 9, 13, 10, 7, 1, 5, 4, 3, 6, 14, 11]

/-- src/table_ns32000.cpp:118-153 -/
def FORMAT_4 : List Row := [
  ⟨0x0, ['A', 'D', 'D', 'B'], ["E2", "SZ_BYTE", "M_GENR", "M_GENW", "P_GEN1", "P_GEN2"]⟩,
  ⟨0x1, ['A', 'D', 'D', 'W'], ["E2", "SZ_WORD", "M_GENR", "M_GENW", "P_GEN1", "P_GEN2"]⟩,
  ⟨0x3, ['A', 'D', 'D', 'D'], ["E2", "SZ_QUAD", "M_GENR", "M_GENW", "P_GEN1", "P_GEN2"]⟩,
  ⟨0x4, ['C', 'M', 'P', 'B'], ["E2", "SZ_BYTE", "M_GENR", "M_GENR", "P_GEN1", "P_GEN2"]⟩,
  ⟨0x5, ['C', 'M', 'P', 'W'], ["E2", "SZ_WORD", "M_GENR", "M_GENR", "P_GEN1", "P_GEN2"]⟩,
  ⟨0x7, ['C', 'M', 'P', 'D'], ["E2", "SZ_QUAD", "M_GENR", "M_GENR", "P_GEN1", "P_GEN2"]⟩,
  ⟨0x8, ['B', 'I', 'C', 'B'], ["E2", "SZ_BYTE", "M_GENR", "M_GENW", "P_GEN1", "P_GEN2"]⟩,
  ⟨0x9, ['B', 'I', 'C', 'W'], ["E2", "SZ_WORD", "M_GENR", "M_GENW", "P_GEN1", "P_GEN2"]⟩,
  ⟨0xb, ['B', 'I', 'C', 'D'], ["E2", "SZ_QUAD", "M_GENR", "M_GENW", "P_GEN1", "P_GEN2"]⟩,
  ⟨0x10, ['A', 'D', 'D', 'C', 'B'], ["E2", "SZ_BYTE", "M_GENR", "M_GENW", "P_GEN1", "P_GEN2"]⟩,
  ⟨0x11, ['A', 'D', 'D', 'C', 'W'], ["E2", "SZ_WORD", "M_GENR", "M_GENW", "P_GEN1", "P_GEN2"]⟩,
  ⟨0x13, ['A', 'D', 'D', 'C', 'D'], ["E2", "SZ_QUAD", "M_GENR", "M_GENW", "P_GEN1", "P_GEN2"]⟩,
  ⟨0x14, ['M', 'O', 'V', 'B'], ["E2", "SZ_BYTE", "M_GENR", "M_GENW", "P_GEN1", "P_GEN2"]⟩,
  ⟨0x15, ['M', 'O', 'V', 'W'], ["E2", "SZ_WORD", "M_GENR", "M_GENW", "P_GEN1", "P_GEN2"]⟩,
  ⟨0x17, ['M', 'O', 'V', 'D'], ["E2", "SZ_QUAD", "M_GENR", "M_GENW", "P_GEN1", "P_GEN2"]⟩,
  ⟨0x18, ['O', 'R', 'B'], ["E2", "SZ_BYTE", "M_GENR", "M_GENW", "P_GEN1", "P_GEN2"]⟩,
  ⟨0x19, ['O', 'R', 'W'], ["E2", "SZ_WORD", "M_GENR", "M_GENW", "P_GEN1", "P_GEN2"]⟩,
  ⟨0x1b, ['O', 'R', 'D'], ["E2", "SZ_QUAD", "M_GENR", "M_GENW", "P_GEN1", "P_GEN2"]⟩,
  ⟨0x20, ['S', 'U', 'B', 'B'], ["E2", "SZ_BYTE", "M_GENR", "M_GENW", "P_GEN1", "P_GEN2"]⟩,
  ⟨0x21, ['S', 'U', 'B', 'W'], ["E2", "SZ_WORD", "M_GENR", "M_GENW", "P_GEN1", "P_GEN2"]⟩,
  ⟨0x23, ['S', 'U', 'B', 'D'], ["E2", "SZ_QUAD", "M_GENR", "M_GENW", "P_GEN1", "P_GEN2"]⟩,
  ⟨0x27, ['A', 'D', 'D', 'R'], ["E2", "SZ_QUAD", "M_GENA", "M_GENW", "P_GEN1", "P_GEN2"]⟩,
  ⟨0x28, ['A', 'N', 'D', 'B'], ["E2", "SZ_BYTE", "M_GENR", "M_GENW", "P_GEN1", "P_GEN2"]⟩,
  ⟨0x29, ['A', 'N', 'D', 'W'], ["E2", "SZ_WORD", "M_GENR", "M_GENW", "P_GEN1", "P_GEN2"]⟩,
  ⟨0x2b, ['A', 'N', 'D', 'D'], ["E2", "SZ_QUAD", "M_GENR", "M_GENW", "P_GEN1", "P_GEN2"]⟩,
  ⟨0x30, ['S', 'U', 'B', 'C', 'B'], ["E2", "SZ_BYTE", "M_GENR", "M_GENW", "P_GEN1", "P_GEN2"]⟩,
  ⟨0x31, ['S', 'U', 'B', 'C', 'W'], ["E2", "SZ_WORD", "M_GENR", "M_GENW", "P_GEN1", "P_GEN2"]⟩,
  ⟨0x33, ['S', 'U', 'B', 'C', 'D'], ["E2", "SZ_QUAD", "M_GENR", "M_GENW", "P_GEN1", "P_GEN2"]⟩,
  ⟨0x34, ['T', 'B', 'I', 'T', 'B'], ["E2", "SZ_BYTE", "M_GENR", "M_GENW", "P_GEN1", "P_GEN2"]⟩,
  ⟨0x35, ['T', 'B', 'I', 'T', 'W'], ["E2", "SZ_WORD", "M_GENR", "M_GENW", "P_GEN1", "P_GEN2"]⟩,
  ⟨0x37, ['T', 'B', 'I', 'T', 'D'], ["E2", "SZ_QUAD", "M_GENR", "M_GENW", "P_GEN1", "P_GEN2"]⟩,
  ⟨0x38, ['X', 'O', 'R', 'B'], ["E2", "SZ_BYTE", "M_GENR", "M_GENW", "P_GEN1", "P_GEN2"]⟩,
  ⟨0x39, ['X', 'O', 'R', 'W'], ["E2", "SZ_WORD", "M_GENR", "M_GENW", "P_GEN1", "P_GEN2"]⟩,
  ⟨0x3b, ['X', 'O', 'R', 'D'], ["E2", "SZ_QUAD", "M_GENR", "M_GENW", "P_GEN1", "P_GEN2"]⟩]

/-- src/table_ns32000.cpp:154-189 -/
def INDEX_4 : List Nat := [
  0, 9, 11, 10, 2, 21, 1, 22, 24, 23, 6, 8, 7, 3, 5, 4,
  12, 14, 13, 15, 17, 16, 18, 25, 27, 26, 20, 19, 28, 30, 29, 31,
  33, 32]

/-- src/table_ns32000.cpp:192-211 -/
def FORMAT_2_0 : List Row := [
  ⟨0xc, ['A', 'D', 'D', 'Q', 'B'], ["E2", "SZ_BYTE", "M_INT4", "M_GENW", "P_SHORT", "P_GEN1"]⟩,
  ⟨0xd, ['A', 'D', 'D', 'Q', 'W'], ["E2", "SZ_WORD", "M_INT4", "M_GENW", "P_SHORT", "P_GEN1"]⟩,
  ⟨0xf, ['A', 'D', 'D', 'Q', 'D'], ["E2", "SZ_QUAD", "M_INT4", "M_GENW", "P_SHORT", "P_GEN1"]⟩,
  ⟨0x1c, ['C', 'M', 'P', 'Q', 'B'], ["E2", "SZ_BYTE", "M_INT4", "M_GENR", "P_SHORT", "P_GEN1"]⟩,
  ⟨0x1d, ['C', 'M', 'P', 'Q', 'W'], ["E2", "SZ_WORD", "M_INT4", "M_GENR", "P_SHORT", "P_GEN1"]⟩,
  ⟨0x1f, ['C', 'M', 'P', 'Q', 'D'], ["E2", "SZ_QUAD", "M_INT4", "M_GENR", "P_SHORT", "P_GEN1"]⟩,
  ⟨0x2c, ['S', 'P', 'R', 'B'], ["E2", "SZ_BYTE", "M_PREG", "M_GENW", "P_SHORT", "P_GEN1"]⟩,
  ⟨0x2d, ['S', 'P', 'R', 'W'], ["E2", "SZ_WORD", "M_PREG", "M_GENW", "P_SHORT", "P_GEN1"]⟩,
  ⟨0x2f, ['S', 'P', 'R', 'D'], ["E2", "SZ_QUAD", "M_PREG", "M_GENW", "P_SHORT", "P_GEN1"]⟩,
  ⟨0x4c, ['A', 'C', 'B', 'B'], ["E3", "SZ_BYTE", "M_INT4", "M_GENW", "P_SHORT", "P_GEN1", "M_REL", "P_DISP"]⟩,
  ⟨0x4d, ['A', 'C', 'B', 'W'], ["E3", "SZ_WORD", "M_INT4", "M_GENW", "P_SHORT", "P_GEN1", "M_REL", "P_DISP"]⟩,
  ⟨0x4f, ['A', 'C', 'B', 'D'], ["E3", "SZ_QUAD", "M_INT4", "M_GENW", "P_SHORT", "P_GEN1", "M_REL", "P_DISP"]⟩,
  ⟨0x5c, ['M', 'O', 'V', 'Q', 'B'], ["E2", "SZ_BYTE", "M_INT4", "M_GENW", "P_SHORT", "P_GEN1"]⟩,
  ⟨0x5d, ['M', 'O', 'V', 'Q', 'W'], ["E2", "SZ_WORD", "M_INT4", "M_GENW", "P_SHORT", "P_GEN1"]⟩,
  ⟨0x5f, ['M', 'O', 'V', 'Q', 'D'], ["E2", "SZ_QUAD", "M_INT4", "M_GENW", "P_SHORT", "P_GEN1"]⟩,
  ⟨0x6c, ['L', 'P', 'R', 'B'], ["E2", "SZ_BYTE", "M_PREG", "M_GENR", "P_SHORT", "P_GEN1"]⟩,
  ⟨0x6d, ['L', 'P', 'R', 'W'], ["E2", "SZ_WORD", "M_PREG", "M_GENR", "P_SHORT", "P_GEN1"]⟩,
  ⟨0x6f, ['L', 'P', 'R', 'D'], ["E2", "SZ_QUAD", "M_PREG", "M_GENR", "P_SHORT", "P_GEN1"]⟩]

/-- src/table_ns32000.cpp:213-221 -/
def FORMAT_2_1 : List Row := [
  ⟨0x0, ['S', 'E', 'Q', 'B'], ["E1", "SZ_BYTE", "M_GENW", "P_GEN1"]⟩,
  ⟨0x1, ['S', 'C', 'S', 'B'], ["E1", "SZ_BYTE", "M_GENW", "P_GEN1"]⟩,
  ⟨0x2, ['S', 'H', 'I', 'B'], ["E1", "SZ_BYTE", "M_GENW", "P_GEN1"]⟩,
  ⟨0x3, ['S', 'G', 'T', 'B'], ["E1", "SZ_BYTE", "M_GENW", "P_GEN1"]⟩,
  ⟨0x4, ['S', 'F', 'S', 'B'], ["E1", "SZ_BYTE", "M_GENW", "P_GEN1"]⟩,
  ⟨0x5, ['S', 'L', 'O', 'B'], ["E1", "SZ_BYTE", "M_GENW", "P_GEN1"]⟩,
  ⟨0x6, ['S', 'L', 'T', 'B'], ["E1", "SZ_BYTE", "M_GENW", "P_GEN1"]⟩]

/-- src/table_ns32000.cpp:222-230 -/
def FORMAT_2_2 : List Row := [
  ⟨0x0, ['S', 'N', 'E', 'B'], ["E1", "SZ_BYTE", "M_GENW", "P_GEN1"]⟩,
  ⟨0x1, ['S', 'C', 'C', 'B'], ["E1", "SZ_BYTE", "M_GENW", "P_GEN1"]⟩,
  ⟨0x2, ['S', 'L', 'S', 'B'], ["E1", "SZ_BYTE", "M_GENW", "P_GEN1"]⟩,
  ⟨0x3, ['S', 'L', 'E', 'B'], ["E1", "SZ_BYTE", "M_GENW", "P_GEN1"]⟩,
  ⟨0x4, ['S', 'F', 'C', 'B'], ["E1", "SZ_BYTE", "M_GENW", "P_GEN1"]⟩,
  ⟨0x5, ['S', 'H', 'S', 'B'], ["E1", "SZ_BYTE", "M_GENW", "P_GEN1"]⟩,
  ⟨0x6, ['S', 'G', 'E', 'B'], ["E1", "SZ_BYTE", "M_GENW", "P_GEN1"]⟩]

/-- src/table_ns32000.cpp:231-239 -/
def FORMAT_2_3 : List Row := [
  ⟨0x0, ['S', 'E', 'Q', 'W'], ["E1", "SZ_WORD", "M_GENW", "P_GEN1"]⟩,
  ⟨0x1, ['S', 'C', 'S', 'W'], ["E1", "SZ_WORD", "M_GENW", "P_GEN1"]⟩,
  ⟨0x2, ['S', 'H', 'I', 'W'], ["E1", "SZ_WORD", "M_GENW", "P_GEN1"]⟩,
  ⟨0x3, ['S', 'G', 'T', 'W'], ["E1", "SZ_WORD", "M_GENW", "P_GEN1"]⟩,
  ⟨0x4, ['S', 'F', 'S', 'W'], ["E1", "SZ_WORD", "M_GENW", "P_GEN1"]⟩,
  ⟨0x5, ['S', 'L', 'O', 'W'], ["E1", "SZ_WORD", "M_GENW", "P_GEN1"]⟩,
  ⟨0x6, ['S', 'L', 'T', 'W'], ["E1", "SZ_WORD", "M_GENW", "P_GEN1"]⟩]

/-- src/table_ns32000.cpp:240-248 -/
def FORMAT_2_4 : List Row := [
  ⟨0x0, ['S', 'N', 'E', 'W'], ["E1", "SZ_WORD", "M_GENW", "P_GEN1"]⟩,
  ⟨0x1, ['S', 'C', 'C', 'W'], ["E1", "SZ_WORD", "M_GENW", "P_GEN1"]⟩,
  ⟨0x2, ['S', 'L', 'S', 'W'], ["E1", "SZ_WORD", "M_GENW", "P_GEN1"]⟩,
  ⟨0x3, ['S', 'L', 'E', 'W'], ["E1", "SZ_WORD", "M_GENW", "P_GEN1"]⟩,
  ⟨0x4, ['S', 'F', 'C', 'W'], ["E1", "SZ_WORD", "M_GENW", "P_GEN1"]⟩,
  ⟨0x5, ['S', 'H', 'S', 'W'], ["E1", "SZ_WORD", "M_GENW", "P_GEN1"]⟩,
  ⟨0x6, ['S', 'G', 'E', 'W'], ["E1", "SZ_WORD", "M_GENW", "P_GEN1"]⟩]

/-- src/table_ns32000.cpp:249-257 -/
def FORMAT_2_5 : List Row := [
  ⟨0x0, ['S', 'E', 'Q', 'D'], ["E1", "SZ_QUAD", "M_GENW", "P_GEN1"]⟩,
  ⟨0x1, ['S', 'C', 'S', 'D'], ["E1", "SZ_QUAD", "M_GENW", "P_GEN1"]⟩,
  ⟨0x2, ['S', 'H', 'I', 'D'], ["E1", "SZ_QUAD", "M_GENW", "P_GEN1"]⟩,
  ⟨0x3, ['S', 'G', 'T', 'D'], ["E1", "SZ_QUAD", "M_GENW", "P_GEN1"]⟩,
  ⟨0x4, ['S', 'F', 'S', 'D'], ["E1", "SZ_QUAD", "M_GENW", "P_GEN1"]⟩,
  ⟨0x5, ['S', 'L', 'O', 'D'], ["E1", "SZ_QUAD", "M_GENW", "P_GEN1"]⟩,
  ⟨0x6, ['S', 'L', 'T', 'D'], ["E1", "SZ_QUAD", "M_GENW", "P_GEN1"]⟩]

/-- src/table_ns32000.cpp:258-266 -/
def FORMAT_2_6 : List Row := [
  ⟨0x0, ['S', 'N', 'E', 'D'], ["E1", "SZ_QUAD", "M_GENW", "P_GEN1"]⟩,
  ⟨0x1, ['S', 'C', 'C', 'D'], ["E1", "SZ_QUAD", "M_GENW", "P_GEN1"]⟩,
  ⟨0x2, ['S', 'L', 'S', 'D'], ["E1", "SZ_QUAD", "M_GENW", "P_GEN1"]⟩,
  ⟨0x3, ['S', 'L', 'E', 'D'], ["E1", "SZ_QUAD", "M_GENW", "P_GEN1"]⟩,
  ⟨0x4, ['S', 'F', 'C', 'D'], ["E1", "SZ_QUAD", "M_GENW", "P_GEN1"]⟩,
  ⟨0x5, ['S', 'H', 'S', 'D'], ["E1", "SZ_QUAD", "M_GENW", "P_GEN1"]⟩,
  ⟨0x6, ['S', 'G', 'E', 'D'], ["E1", "SZ_QUAD", "M_GENW", "P_GEN1"]⟩]

/-- src/table_ns32000.cpp:267-286 -/
def INDEX_2_0 : List Nat := [
  9, 11, 10, 0, 2, 1, 3, 5, 4, 15, 17, 16, 12, 14, 13, 6,
  8, 7]

/-- src/table_ns32000.cpp:287-295 -/
def INDEX_2_1 : List Nat := [
  1, 0, 4, 3, 2, 5, 6]

/-- src/table_ns32000.cpp:296-304 -/
def INDEX_2_2 : List Nat := [
  1, 4, 6, 5, 3, 2, 0]

/-- src/table_ns32000.cpp:305-313 -/
def INDEX_2_3 : List Nat := [
  1, 0, 4, 3, 2, 5, 6]

/-- src/table_ns32000.cpp:314-322 -/
def INDEX_2_4 : List Nat := [
  1, 4, 6, 5, 3, 2, 0]

/-- src/table_ns32000.cpp:323-331 -/
def INDEX_2_5 : List Nat := [
  1, 0, 4, 3, 2, 5, 6]

/-- src/table_ns32000.cpp:332-340 -/
def INDEX_2_6 : List Nat := [
  1, 4, 6, 5, 3, 2, 0]

/-- src/table_ns32000.cpp:343-348 -/
def FORMAT_3_1 : List Row := [
  ⟨0x1, ['B', 'I', 'C', 'P', 'S', 'R', 'B'], ["E1", "SZ_BYTE", "M_GENR", "P_GEN1"]⟩,
  ⟨0x3, ['B', 'I', 'S', 'P', 'S', 'R', 'B'], ["E1", "SZ_BYTE", "M_GENR", "P_GEN1"]⟩,
  ⟨0x5, ['A', 'D', 'J', 'S', 'P', 'B'], ["E1", "SZ_BYTE", "M_GENR", "P_GEN1"]⟩,
  ⟨0x7, ['C', 'A', 'S', 'E', 'B'], ["E1", "SZ_BYTE", "M_GENR", "P_GEN1"]⟩]

/-- src/table_ns32000.cpp:349-354 -/
def FORMAT_3_2 : List Row := [
  ⟨0x1, ['B', 'I', 'C', 'P', 'S', 'R', 'W'], ["E1", "SZ_WORD", "M_GENR", "P_GEN1"]⟩,
  ⟨0x3, ['B', 'I', 'S', 'P', 'S', 'R', 'W'], ["E1", "SZ_WORD", "M_GENR", "P_GEN1"]⟩,
  ⟨0x5, ['A', 'D', 'J', 'S', 'P', 'W'], ["E1", "SZ_WORD", "M_GENR", "P_GEN1"]⟩,
  ⟨0x7, ['C', 'A', 'S', 'E', 'W'], ["E1", "SZ_WORD", "M_GENR", "P_GEN1"]⟩]

/-- src/table_ns32000.cpp:355-361 -/
def FORMAT_3_3 : List Row := [
  ⟨0x0, ['C', 'X', 'P', 'D'], ["E1", "SZ_QUAD", "M_GENA", "P_GEN1"]⟩,
  ⟨0x2, ['J', 'U', 'M', 'P'], ["E1", "SZ_QUAD", "M_GENA", "P_GEN1"]⟩,
  ⟨0x5, ['A', 'D', 'J', 'S', 'P', 'D'], ["E1", "SZ_QUAD", "M_GENR", "P_GEN1"]⟩,
  ⟨0x6, ['J', 'S', 'R'], ["E1", "SZ_QUAD", "M_GENA", "P_GEN1"]⟩,
  ⟨0x7, ['C', 'A', 'S', 'E', 'D'], ["E1", "SZ_QUAD", "M_GENR", "P_GEN1"]⟩]

/-- src/table_ns32000.cpp:362-367 -/
def INDEX_3_1 : List Nat := [
  2, 0, 1, 3]

/-- src/table_ns32000.cpp:368-373 -/
def INDEX_3_2 : List Nat := [
  2, 0, 1, 3]

/-- src/table_ns32000.cpp:374-380 -/
def INDEX_3_3 : List Nat := [
  2, 4, 0, 3, 1]

/-- src/table_ns32000.cpp:383-385 -/
def FORMAT_5_0 : List Row := [
  ⟨0xb, ['S', 'E', 'T', 'C', 'F', 'G'], ["E2", "SZ_NONE", "M_CONF", "M_ZERO", "P_SHORT", "P_GEN1"]⟩]

/-- src/table_ns32000.cpp:387-400 -/
def FORMAT_5_1 : List Row := [
  ⟨0x0, ['M', 'O', 'V', 'S', 'B'], ["E2", "SZ_BYTE", "M_SOPT", "M_ZERO", "P_SHORT", "P_GEN1"]⟩,
  ⟨0x1, ['M', 'O', 'V', 'S', 'W'], ["E2", "SZ_WORD", "M_SOPT", "M_ZERO", "P_SHORT", "P_GEN1"]⟩,
  ⟨0x3, ['M', 'O', 'V', 'S', 'D'], ["E2", "SZ_QUAD", "M_SOPT", "M_ZERO", "P_SHORT", "P_GEN1"]⟩,
  ⟨0x80, ['M', 'O', 'V', 'S', 'T'], ["E2", "SZ_BYTE", "M_SOPT", "M_ZERO", "P_SHORT", "P_GEN1"]⟩,
  ⟨0x4, ['C', 'M', 'P', 'S', 'B'], ["E2", "SZ_BYTE", "M_SOPT", "M_ZERO", "P_SHORT", "P_GEN1"]⟩,
  ⟨0x5, ['C', 'M', 'P', 'S', 'W'], ["E2", "SZ_WORD", "M_SOPT", "M_ZERO", "P_SHORT", "P_GEN1"]⟩,
  ⟨0x7, ['C', 'M', 'P', 'S', 'D'], ["E2", "SZ_QUAD", "M_SOPT", "M_ZERO", "P_SHORT", "P_GEN1"]⟩,
  ⟨0x84, ['C', 'M', 'P', 'S', 'T'], ["E2", "SZ_BYTE", "M_SOPT", "M_ZERO", "P_SHORT", "P_GEN1"]⟩,
  ⟨0xc, ['S', 'K', 'P', 'S', 'B'], ["E2", "SZ_BYTE", "M_SOPT", "M_ZERO", "P_SHORT", "P_GEN1"]⟩,
  ⟨0xd, ['S', 'K', 'P', 'S', 'W'], ["E2", "SZ_WORD", "M_SOPT", "M_ZERO", "P_SHORT", "P_GEN1"]⟩,
  ⟨0xf, ['S', 'K', 'P', 'S', 'D'], ["E2", "SZ_QUAD", "M_SOPT", "M_ZERO", "P_SHORT", "P_GEN1"]⟩,
  ⟨0x8c, ['S', 'K', 'P', 'S', 'T'], ["E2", "SZ_BYTE", "M_SOPT", "M_ZERO", "P_SHORT", "P_GEN1"]⟩]

/-- src/table_ns32000.cpp:401-403 -/
def INDEX_5_0 : List Nat := [
  0]

/-- src/table_ns32000.cpp:404-417 -/
def INDEX_5_1 : List Nat := [
  4, 6, 7, 5, 0, 2, 3, 1, 8, 10, 11, 9]

/-- src/table_ns32000.cpp:420-463 -/
def FORMAT_6 : List Row := [
  ⟨0x0, ['R', 'O', 'T', 'B'], ["E2", "SZ_BYTE", "M_GENC", "M_GENW", "P_GEN1", "P_GEN2"]⟩,
  ⟨0x1, ['R', 'O', 'T', 'W'], ["E2", "SZ_WORD", "M_GENC", "M_GENW", "P_GEN1", "P_GEN2"]⟩,
  ⟨0x3, ['R', 'O', 'T', 'D'], ["E2", "SZ_QUAD", "M_GENC", "M_GENW", "P_GEN1", "P_GEN2"]⟩,
  ⟨0x4, ['A', 'S', 'H', 'B'], ["E2", "SZ_BYTE", "M_GENC", "M_GENW", "P_GEN1", "P_GEN2"]⟩,
  ⟨0x5, ['A', 'S', 'H', 'W'], ["E2", "SZ_WORD", "M_GENC", "M_GENW", "P_GEN1", "P_GEN2"]⟩,
  ⟨0x7, ['A', 'S', 'H', 'D'], ["E2", "SZ_QUAD", "M_GENC", "M_GENW", "P_GEN1", "P_GEN2"]⟩,
  ⟨0x8, ['C', 'B', 'I', 'T', 'B'], ["E2", "SZ_BYTE", "M_GENR", "M_GENW", "P_GEN1", "P_GEN2"]⟩,
  ⟨0x9, ['C', 'B', 'I', 'T', 'W'], ["E2", "SZ_WORD", "M_GENR", "M_GENW", "P_GEN1", "P_GEN2"]⟩,
  ⟨0xb, ['C', 'B', 'I', 'T', 'D'], ["E2", "SZ_QUAD", "M_GENR", "M_GENW", "P_GEN1", "P_GEN2"]⟩,
  ⟨0xc, ['C', 'B', 'I', 'T', 'I', 'B'], ["E2", "SZ_BYTE", "M_GENR", "M_GENW", "P_GEN1", "P_GEN2"]⟩,
  ⟨0xd, ['C', 'B', 'I', 'T', 'I', 'W'], ["E2", "SZ_WORD", "M_GENR", "M_GENW", "P_GEN1", "P_GEN2"]⟩,
  ⟨0xf, ['C', 'B', 'I', 'T', 'I', 'D'], ["E2", "SZ_QUAD", "M_GENR", "M_GENW", "P_GEN1", "P_GEN2"]⟩,
  ⟨0x14, ['L', 'S', 'H', 'B'], ["E2", "SZ_BYTE", "M_GENC", "M_GENW", "P_GEN1", "P_GEN2"]⟩,
  ⟨0x15, ['L', 'S', 'H', 'W'], ["E2", "SZ_WORD", "M_GENC", "M_GENW", "P_GEN1", "P_GEN2"]⟩,
  ⟨0x17, ['L', 'S', 'H', 'D'], ["E2", "SZ_QUAD", "M_GENC", "M_GENW", "P_GEN1", "P_GEN2"]⟩,
  ⟨0x18, ['S', 'B', 'I', 'T', 'B'], ["E2", "SZ_BYTE", "M_GENR", "M_GENW", "P_GEN1", "P_GEN2"]⟩,
  ⟨0x19, ['S', 'B', 'I', 'T', 'W'], ["E2", "SZ_WORD", "M_GENR", "M_GENW", "P_GEN1", "P_GEN2"]⟩,
  ⟨0x1b, ['S', 'B', 'I', 'T', 'D'], ["E2", "SZ_QUAD", "M_GENR", "M_GENW", "P_GEN1", "P_GEN2"]⟩,
  ⟨0x1c, ['S', 'B', 'I', 'T', 'I', 'B'], ["E2", "SZ_BYTE", "M_GENR", "M_GENW", "P_GEN1", "P_GEN2"]⟩,
  ⟨0x1d, ['S', 'B', 'I', 'T', 'I', 'W'], ["E2", "SZ_WORD", "M_GENR", "M_GENW", "P_GEN1", "P_GEN2"]⟩,
  ⟨0x1f, ['S', 'B', 'I', 'T', 'I', 'D'], ["E2", "SZ_QUAD", "M_GENR", "M_GENW", "P_GEN1", "P_GEN2"]⟩,
  ⟨0x20, ['N', 'E', 'G', 'B'], ["E2", "SZ_BYTE", "M_GENR", "M_GENW", "P_GEN1", "P_GEN2"]⟩,
  ⟨0x21, ['N', 'E', 'G', 'W'], ["E2", "SZ_WORD", "M_GENR", "M_GENW", "P_GEN1", "P_GEN2"]⟩,
  ⟨0x23, ['N', 'E', 'G', 'D'], ["E2", "SZ_QUAD", "M_GENR", "M_GENW", "P_GEN1", "P_GEN2"]⟩,
  ⟨0x24, ['N', 'O', 'T', 'B'], ["E2", "SZ_BYTE", "M_GENR", "M_GENW", "P_GEN1", "P_GEN2"]⟩,
  ⟨0x25, ['N', 'O', 'T', 'W'], ["E2", "SZ_WORD", "M_GENR", "M_GENW", "P_GEN1", "P_GEN2"]⟩,
  ⟨0x27, ['N', 'O', 'T', 'D'], ["E2", "SZ_QUAD", "M_GENR", "M_GENW", "P_GEN1", "P_GEN2"]⟩,
  ⟨0x2c, ['S', 'U', 'B', 'P', 'B'], ["E2", "SZ_BYTE", "M_GENR", "M_GENW", "P_GEN1", "P_GEN2"]⟩,
  ⟨0x2d, ['S', 'U', 'B', 'P', 'W'], ["E2", "SZ_WORD", "M_GENR", "M_GENW", "P_GEN1", "P_GEN2"]⟩,
  ⟨0x2f, ['S', 'U', 'B', 'P', 'D'], ["E2", "SZ_QUAD", "M_GENR", "M_GENW", "P_GEN1", "P_GEN2"]⟩,
  ⟨0x30, ['A', 'B', 'S', 'B'], ["E2", "SZ_BYTE", "M_GENR", "M_GENW", "P_GEN1", "P_GEN2"]⟩,
  ⟨0x31, ['A', 'B', 'S', 'W'], ["E2", "SZ_WORD", "M_GENR", "M_GENW", "P_GEN1", "P_GEN2"]⟩,
  ⟨0x33, ['A', 'B', 'S', 'D'], ["E2", "SZ_QUAD", "M_GENR", "M_GENW", "P_GEN1", "P_GEN2"]⟩,
  ⟨0x34, ['C', 'O', 'M', 'B'], ["E2", "SZ_BYTE", "M_GENR", "M_GENW", "P_GEN1", "P_GEN2"]⟩,
  ⟨0x35, ['C', 'O', 'M', 'W'], ["E2", "SZ_WORD", "M_GENR", "M_GENW", "P_GEN1", "P_GEN2"]⟩,
  ⟨0x37, ['C', 'O', 'M', 'D'], ["E2", "SZ_QUAD", "M_GENR", "M_GENW", "P_GEN1", "P_GEN2"]⟩,
  ⟨0x38, ['I', 'B', 'I', 'T', 'B'], ["E2", "SZ_BYTE", "M_GENR", "M_GENW", "P_GEN1", "P_GEN2"]⟩,
  ⟨0x39, ['I', 'B', 'I', 'T', 'W'], ["E2", "SZ_WORD", "M_GENR", "M_GENW", "P_GEN1", "P_GEN2"]⟩,
  ⟨0x3b, ['I', 'B', 'I', 'T', 'D'], ["E2", "SZ_QUAD", "M_GENR", "M_GENW", "P_GEN1", "P_GEN2"]⟩,
  ⟨0x3c, ['A', 'D', 'D', 'P', 'B'], ["E2", "SZ_BYTE", "M_GENR", "M_GENW", "P_GEN1", "P_GEN2"]⟩,
  ⟨0x3d, ['A', 'D', 'D', 'P', 'W'], ["E2", "SZ_WORD", "M_GENR", "M_GENW", "P_GEN1", "P_GEN2"]⟩,
  ⟨0x3f, ['A', 'D', 'D', 'P', 'D'], ["E2", "SZ_QUAD", "M_GENR", "M_GENW", "P_GEN1", "P_GEN2"]⟩]

/-- src/table_ns32000.cpp:464-507 -/
def INDEX_6 : List Nat := [
  30, 32, 31, 39, 41, 40, 3, 5, 4, 6, 8, 9, 11, 10, 7, 33,
  35, 34, 36, 38, 37, 12, 14, 13, 21, 23, 22, 24, 26, 25, 0, 2,
  1, 15, 17, 18, 20, 19, 16, 27, 29, 28]

/-- src/table_ns32000.cpp:510-551 -/
def FORMAT_7 : List Row := [
  ⟨0x0, ['M', 'O', 'V', 'M', 'B'], ["E3", "SZ_BYTE", "M_GENA", "M_GENA", "P_GEN1", "P_GEN2", "M_LEN16", "P_DISP"]⟩,
  ⟨0x1, ['M', 'O', 'V', 'M', 'W'], ["E3", "SZ_WORD", "M_GENA", "M_GENA", "P_GEN1", "P_GEN2", "M_LEN16", "P_DISP"]⟩,
  ⟨0x3, ['M', 'O', 'V', 'M', 'D'], ["E3", "SZ_QUAD", "M_GENA", "M_GENA", "P_GEN1", "P_GEN2", "M_LEN16", "P_DISP"]⟩,
  ⟨0x4, ['C', 'M', 'P', 'M', 'B'], ["E3", "SZ_BYTE", "M_GENA", "M_GENA", "P_GEN1", "P_GEN2", "M_LEN16", "P_DISP"]⟩,
  ⟨0x5, ['C', 'M', 'P', 'M', 'W'], ["E3", "SZ_WORD", "M_GENA", "M_GENA", "P_GEN1", "P_GEN2", "M_LEN16", "P_DISP"]⟩,
  ⟨0x7, ['C', 'M', 'P', 'M', 'D'], ["E3", "SZ_QUAD", "M_GENA", "M_GENA", "P_GEN1", "P_GEN2", "M_LEN16", "P_DISP"]⟩,
  ⟨0x8, ['I', 'N', 'S', 'S', 'B'], ["E4", "SZ_BYTE", "M_GENR", "M_GENW", "P_GEN1", "P_GEN2", "M_BFOFF", "EM2_BFLEN", "P_IMPL", "EP2_IMPL"]⟩,
  ⟨0x9, ['I', 'N', 'S', 'S', 'W'], ["E4", "SZ_WORD", "M_GENR", "M_GENW", "P_GEN1", "P_GEN2", "M_BFOFF", "EM2_BFLEN", "P_IMPL", "EP2_IMPL"]⟩,
  ⟨0xb, ['I', 'N', 'S', 'S', 'D'], ["E4", "SZ_QUAD", "M_GENR", "M_GENW", "P_GEN1", "P_GEN2", "M_BFOFF", "EM2_BFLEN", "P_IMPL", "EP2_IMPL"]⟩,
  ⟨0xc, ['E', 'X', 'T', 'S', 'B'], ["E4", "SZ_BYTE", "M_GENW", "M_GENW", "P_GEN1", "P_GEN2", "M_BFOFF", "EM2_BFLEN", "P_IMPL", "EP2_IMPL"]⟩,
  ⟨0xd, ['E', 'X', 'T', 'S', 'W'], ["E4", "SZ_WORD", "M_GENW", "M_GENW", "P_GEN1", "P_GEN2", "M_BFOFF", "EM2_BFLEN", "P_IMPL", "EP2_IMPL"]⟩,
  ⟨0xf, ['E', 'X', 'T', 'S', 'D'], ["E4", "SZ_QUAD", "M_GENW", "M_GENW", "P_GEN1", "P_GEN2", "M_BFOFF", "EM2_BFLEN", "P_IMPL", "EP2_IMPL"]⟩,
  ⟨0x10, ['M', 'O', 'V', 'X', 'B', 'W'], ["E2", "SZ_BYTE", "M_GENR", "M_GENW", "P_GEN1", "P_GEN2"]⟩,
  ⟨0x1c, ['M', 'O', 'V', 'X', 'B', 'D'], ["E2", "SZ_BYTE", "M_GENR", "M_GENW", "P_GEN1", "P_GEN2"]⟩,
  ⟨0x1d, ['M', 'O', 'V', 'X', 'W', 'D'], ["E2", "SZ_WORD", "M_GENR", "M_GENW", "P_GEN1", "P_GEN2"]⟩,
  ⟨0x14, ['M', 'O', 'V', 'Z', 'B', 'W'], ["E2", "SZ_BYTE", "M_GENR", "M_GENW", "P_GEN1", "P_GEN2"]⟩,
  ⟨0x18, ['M', 'O', 'V', 'Z', 'B', 'D'], ["E2", "SZ_BYTE", "M_GENR", "M_GENW", "P_GEN1", "P_GEN2"]⟩,
  ⟨0x19, ['M', 'O', 'V', 'Z', 'W', 'D'], ["E2", "SZ_WORD", "M_GENR", "M_GENW", "P_GEN1", "P_GEN2"]⟩,
  ⟨0x20, ['M', 'U', 'L', 'B'], ["E2", "SZ_BYTE", "M_GENR", "M_GENW", "P_GEN1", "P_GEN2"]⟩,
  ⟨0x21, ['M', 'U', 'L', 'W'], ["E2", "SZ_WORD", "M_GENR", "M_GENW", "P_GEN1", "P_GEN2"]⟩,
  ⟨0x23, ['M', 'U', 'L', 'D'], ["E2", "SZ_QUAD", "M_GENR", "M_GENW", "P_GEN1", "P_GEN2"]⟩,
  ⟨0x24, ['M', 'E', 'I', 'B'], ["W2", "SZ_BYTE", "M_GENR", "M_GENW", "P_GEN1", "P_GEN2", "false", "true"]⟩,
  ⟨0x25, ['M', 'E', 'I', 'W'], ["W2", "SZ_WORD", "M_GENR", "M_GENW", "P_GEN1", "P_GEN2", "false", "true"]⟩,
  ⟨0x27, ['M', 'E', 'I', 'D'], ["W2", "SZ_QUAD", "M_GENR", "M_GENW", "P_GEN1", "P_GEN2", "false", "true"]⟩,
  ⟨0x2c, ['D', 'E', 'I', 'B'], ["W2", "SZ_BYTE", "M_GENR", "M_GENW", "P_GEN1", "P_GEN2", "false", "true"]⟩,
  ⟨0x2d, ['D', 'E', 'I', 'W'], ["W2", "SZ_WORD", "M_GENR", "M_GENW", "P_GEN1", "P_GEN2", "false", "true"]⟩,
  ⟨0x2f, ['D', 'E', 'I', 'D'], ["W2", "SZ_QUAD", "M_GENR", "M_GENW", "P_GEN1", "P_GEN2", "false", "true"]⟩,
  ⟨0x30, ['Q', 'U', 'O', 'B'], ["E2", "SZ_BYTE", "M_GENR", "M_GENW", "P_GEN1", "P_GEN2"]⟩,
  ⟨0x31, ['Q', 'U', 'O', 'W'], ["E2", "SZ_WORD", "M_GENR", "M_GENW", "P_GEN1", "P_GEN2"]⟩,
  ⟨0x33, ['Q', 'U', 'O', 'D'], ["E2", "SZ_QUAD", "M_GENR", "M_GENW", "P_GEN1", "P_GEN2"]⟩,
  ⟨0x34, ['R', 'E', 'M', 'B'], ["E2", "SZ_BYTE", "M_GENR", "M_GENW", "P_GEN1", "P_GEN2"]⟩,
  ⟨0x35, ['R', 'E', 'M', 'W'], ["E2", "SZ_WORD", "M_GENR", "M_GENW", "P_GEN1", "P_GEN2"]⟩,
  ⟨0x37, ['R', 'E', 'M', 'D'], ["E2", "SZ_QUAD", "M_GENR", "M_GENW", "P_GEN1", "P_GEN2"]⟩,
  ⟨0x38, ['M', 'O', 'D', 'B'], ["E2", "SZ_BYTE", "M_GENR", "M_GENW", "P_GEN1", "P_GEN2"]⟩,
  ⟨0x39, ['M', 'O', 'D', 'W'], ["E2", "SZ_WORD", "M_GENR", "M_GENW", "P_GEN1", "P_GEN2"]⟩,
  ⟨0x3b, ['M', 'O', 'D', 'D'], ["E2", "SZ_QUAD", "M_GENR", "M_GENW", "P_GEN1", "P_GEN2"]⟩,
  ⟨0x3c, ['D', 'I', 'V', 'B'], ["E2", "SZ_BYTE", "M_GENR", "M_GENW", "P_GEN1", "P_GEN2"]⟩,
  ⟨0x3d, ['D', 'I', 'V', 'W'], ["E2", "SZ_WORD", "M_GENR", "M_GENW", "P_GEN1", "P_GEN2"]⟩,
  ⟨0x3f, ['D', 'I', 'V', 'D'], ["E2", "SZ_QUAD", "M_GENR", "M_GENW", "P_GEN1", "P_GEN2"]⟩]

/-- src/table_ns32000.cpp:552-592 -/
def INDEX_7 : List Nat := [
  3, 5, 4, 24, 26, 25, 36, 38, 37, 9, 11, 10, 6, 8, 7, 21,
  23, 22, 33, 35, 34, 0, 2, 1, 13, 12, 14, 16, 15, 17, 18, 20,
  19, 27, 29, 28, 30, 32, 31]

/-- src/table_ns32000.cpp:595-602 -/
def FORMAT_8_1 : List Row := [
  ⟨0x0, ['E', 'X', 'T', 'B'], ["E4", "SZ_BYTE", "M_GREG", "M_GENW", "P_REG", "P_GEN1", "M_GENW", "EM2_LEN32", "P_GEN2", "EP2_DISP"]⟩,
  ⟨0x1, ['E', 'X', 'T', 'W'], ["E4", "SZ_WORD", "M_GREG", "M_GENW", "P_REG", "P_GEN1", "M_GENW", "EM2_LEN32", "P_GEN2", "EP2_DISP"]⟩,
  ⟨0x3, ['E', 'X', 'T', 'D'], ["E4", "SZ_QUAD", "M_GREG", "M_GENW", "P_REG", "P_GEN1", "M_GENW", "EM2_LEN32", "P_GEN2", "EP2_DISP"]⟩,
  ⟨0x4, ['I', 'N', 'D', 'E', 'X', 'B'], ["E3", "SZ_BYTE", "M_GREG", "M_GENR", "P_REG", "P_GEN1", "M_GENR", "P_GEN2"]⟩,
  ⟨0x5, ['I', 'N', 'D', 'E', 'X', 'W'], ["E3", "SZ_WORD", "M_GREG", "M_GENR", "P_REG", "P_GEN1", "M_GENR", "P_GEN2"]⟩,
  ⟨0x7, ['I', 'N', 'D', 'E', 'X', 'D'], ["E3", "SZ_QUAD", "M_GREG", "M_GENR", "P_REG", "P_GEN1", "M_GENR", "P_GEN2"]⟩]

/-- src/table_ns32000.cpp:603-605 -/
def FORMAT_8_2 : List Row := [
  ⟨0x3, ['C', 'V', 'T', 'P'], ["E3", "SZ_QUAD", "M_GREG", "M_GENA", "P_REG", "P_GEN1", "M_GENW", "P_GEN2"]⟩]

/-- src/table_ns32000.cpp:606-610 -/
def FORMAT_8_2_1 : List Row := [
  ⟨0x4, ['F', 'F', 'S', 'B'], ["E2", "SZ_BYTE", "M_GENR", "M_GENW", "P_GEN1", "P_GEN2"]⟩,
  ⟨0x5, ['F', 'F', 'S', 'W'], ["E2", "SZ_WORD", "M_GENR", "M_GENW", "P_GEN1", "P_GEN2"]⟩,
  ⟨0x7, ['F', 'F', 'S', 'D'], ["E2", "SZ_QUAD", "M_GENR", "M_GENW", "P_GEN1", "P_GEN2"]⟩]

/-- src/table_ns32000.cpp:611-615 -/
def FORMAT_8_3 : List Row := [
  ⟨0x0, ['I', 'N', 'S', 'B'], ["E4", "SZ_BYTE", "M_GREG", "M_GENR", "P_REG", "P_GEN1", "M_GENW", "EM2_LEN32", "P_GEN2", "EP2_DISP"]⟩,
  ⟨0x1, ['I', 'N', 'S', 'W'], ["E4", "SZ_WORD", "M_GREG", "M_GENR", "P_REG", "P_GEN1", "M_GENW", "EM2_LEN32", "P_GEN2", "EP2_DISP"]⟩,
  ⟨0x3, ['I', 'N', 'S', 'D'], ["E4", "SZ_QUAD", "M_GREG", "M_GENR", "P_REG", "P_GEN1", "M_GENW", "EM2_LEN32", "P_GEN2", "EP2_DISP"]⟩]

/-- src/table_ns32000.cpp:616-620 -/
def FORMAT_8_4 : List Row := [
  ⟨0x0, ['C', 'H', 'E', 'C', 'K', 'B'], ["E3", "SZ_BYTE", "M_GREG", "M_GENA", "P_REG", "P_GEN1", "M_GENR", "P_GEN2"]⟩,
  ⟨0x1, ['C', 'H', 'E', 'C', 'K', 'W'], ["E3", "SZ_WORD", "M_GREG", "M_GENA", "P_REG", "P_GEN1", "M_GENR", "P_GEN2"]⟩,
  ⟨0x3, ['C', 'H', 'E', 'C', 'K', 'D'], ["E3", "SZ_QUAD", "M_GREG", "M_GENA", "P_REG", "P_GEN1", "M_GENR", "P_GEN2"]⟩]

/-- src/table_ns32000.cpp:621-628 -/
def INDEX_8_1 : List Nat := [
  0, 2, 1, 3, 5, 4]

/-- src/table_ns32000.cpp:629-631 -/
def INDEX_8_2 : List Nat := [
  0]

/-- src/table_ns32000.cpp:632-636 -/
def INDEX_8_2_1 : List Nat := [
  0, 2, 1]

/-- src/table_ns32000.cpp:637-641 -/
def INDEX_8_3 : List Nat := [
  0, 2, 1]

/-- src/table_ns32000.cpp:642-646 -/
def INDEX_8_4 : List Nat := [
  0, 2, 1]

/-- src/table_ns32000.cpp:649-656 -/
def FORMAT_8_3_1_MMU : List Row := [
  ⟨0xc, ['M', 'O', 'V', 'S', 'U', 'B'], ["E2", "SZ_BYTE", "M_GENA", "M_GENA", "P_GEN1", "P_GEN2"]⟩,
  ⟨0xd, ['M', 'O', 'V', 'S', 'U', 'W'], ["E2", "SZ_WORD", "M_GENA", "M_GENA", "P_GEN1", "P_GEN2"]⟩,
  ⟨0xf, ['M', 'O', 'V', 'S', 'U', 'D'], ["E2", "SZ_QUAD", "M_GENA", "M_GENA", "P_GEN1", "P_GEN2"]⟩,
  ⟨0x1c, ['M', 'O', 'V', 'U', 'S', 'B'], ["E2", "SZ_BYTE", "M_GENA", "M_GENA", "P_GEN1", "P_GEN2"]⟩,
  ⟨0x1d, ['M', 'O', 'V', 'U', 'S', 'W'], ["E2", "SZ_WORD", "M_GENA", "M_GENA", "P_GEN1", "P_GEN2"]⟩,
  ⟨0x1f, ['M', 'O', 'V', 'U', 'S', 'D'], ["E2", "SZ_QUAD", "M_GENA", "M_GENA", "P_GEN1", "P_GEN2"]⟩]

/-- src/table_ns32000.cpp:657-664 -/
def INDEX_8_3_1_MMU : List Nat := [
  0, 2, 1, 3, 5, 4]

/-- src/table_ns32000.cpp:670-702 -/
def FORMAT_9_FPU : List Row := [
  ⟨0x0, ['M', 'O', 'V', 'B', 'L'], ["W2", "SZ_BYTE", "M_GENR", "M_FENW", "P_GEN1", "P_GEN2", "false", "true"]⟩,
  ⟨0x1, ['M', 'O', 'V', 'W', 'L'], ["W2", "SZ_WORD", "M_GENR", "M_FENW", "P_GEN1", "P_GEN2", "false", "true"]⟩,
  ⟨0x3, ['M', 'O', 'V', 'D', 'L'], ["W2", "SZ_QUAD", "M_GENR", "M_FENW", "P_GEN1", "P_GEN2", "false", "true"]⟩,
  ⟨0x4, ['M', 'O', 'V', 'B', 'F'], ["E2", "SZ_BYTE", "M_GENR", "M_FENW", "P_GEN1", "P_GEN2"]⟩,
  ⟨0x5, ['M', 'O', 'V', 'W', 'F'], ["E2", "SZ_WORD", "M_GENR", "M_FENW", "P_GEN1", "P_GEN2"]⟩,
  ⟨0x7, ['M', 'O', 'V', 'D', 'F'], ["E2", "SZ_QUAD", "M_GENR", "M_FENW", "P_GEN1", "P_GEN2"]⟩,
  ⟨0xf, ['L', 'F', 'S', 'R'], ["E2", "SZ_QUAD", "M_GENR", "M_ZERO", "P_GEN1", "P_GEN2"]⟩,
  ⟨0x37, ['S', 'F', 'S', 'R'], ["E2", "SZ_QUAD", "M_GENW", "M_ZERO", "P_GEN2", "P_GEN1"]⟩,
  ⟨0x16, ['M', 'O', 'V', 'L', 'F'], ["W2", "SZ_QUAD", "M_FENR", "M_FENW", "P_GEN1", "P_GEN2", "true", "false"]⟩,
  ⟨0x1b, ['M', 'O', 'V', 'F', 'L'], ["W2", "SZ_QUAD", "M_FENR", "M_FENW", "P_GEN1", "P_GEN2", "false", "true"]⟩,
  ⟨0x20, ['R', 'O', 'U', 'N', 'D', 'L', 'B'], ["E2", "SZ_OCTA", "M_FENR", "M_GENW", "P_GEN1", "P_GEN2"]⟩,
  ⟨0x21, ['R', 'O', 'U', 'N', 'D', 'L', 'W'], ["E2", "SZ_OCTA", "M_FENR", "M_GENW", "P_GEN1", "P_GEN2"]⟩,
  ⟨0x23, ['R', 'O', 'U', 'N', 'D', 'L', 'D'], ["E2", "SZ_OCTA", "M_FENR", "M_GENW", "P_GEN1", "P_GEN2"]⟩,
  ⟨0x24, ['R', 'O', 'U', 'N', 'D', 'F', 'B'], ["E2", "SZ_QUAD", "M_FENR", "M_GENW", "P_GEN1", "P_GEN2"]⟩,
  ⟨0x25, ['R', 'O', 'U', 'N', 'D', 'F', 'W'], ["E2", "SZ_QUAD", "M_FENR", "M_GENW", "P_GEN1", "P_GEN2"]⟩,
  ⟨0x27, ['R', 'O', 'U', 'N', 'D', 'F', 'D'], ["E2", "SZ_QUAD", "M_FENR", "M_GENW", "P_GEN1", "P_GEN2"]⟩,
  ⟨0x28, ['T', 'R', 'U', 'N', 'C', 'L', 'B'], ["E2", "SZ_OCTA", "M_FENR", "M_GENW", "P_GEN1", "P_GEN2"]⟩,
  ⟨0x29, ['T', 'R', 'U', 'N', 'C', 'L', 'W'], ["E2", "SZ_OCTA", "M_FENR", "M_GENW", "P_GEN1", "P_GEN2"]⟩,
  ⟨0x2b, ['T', 'R', 'U', 'N', 'C', 'L', 'D'], ["E2", "SZ_OCTA", "M_FENR", "M_GENW", "P_GEN1", "P_GEN2"]⟩,
  ⟨0x2c, ['T', 'R', 'U', 'N', 'C', 'F', 'B'], ["E2", "SZ_QUAD", "M_FENR", "M_GENW", "P_GEN1", "P_GEN2"]⟩,
  ⟨0x2d, ['T', 'R', 'U', 'N', 'C', 'F', 'W'], ["E2", "SZ_QUAD", "M_FENR", "M_GENW", "P_GEN1", "P_GEN2"]⟩,
  ⟨0x2f, ['T', 'R', 'U', 'N', 'C', 'F', 'D'], ["E2", "SZ_QUAD", "M_FENR", "M_GENW", "P_GEN1", "P_GEN2"]⟩,
  ⟨0x38, ['F', 'L', 'O', 'O', 'R', 'L', 'B'], ["E2", "SZ_OCTA", "M_FENR", "M_GENW", "P_GEN1", "P_GEN2"]⟩,
  ⟨0x39, ['F', 'L', 'O', 'O', 'R', 'L', 'W'], ["E2", "SZ_OCTA", "M_FENR", "M_GENW", "P_GEN1", "P_GEN2"]⟩,
  ⟨0x3b, ['F', 'L', 'O', 'O', 'R', 'L', 'D'], ["E2", "SZ_OCTA", "M_FENR", "M_GENW", "P_GEN1", "P_GEN2"]⟩,
  ⟨0x3c, ['F', 'L', 'O', 'O', 'R', 'F', 'B'], ["E2", "SZ_QUAD", "M_FENR", "M_GENW", "P_GEN1", "P_GEN2"]⟩,
  ⟨0x3d, ['F', 'L', 'O', 'O', 'R', 'F', 'W'], ["E2", "SZ_QUAD", "M_FENR", "M_GENW", "P_GEN1", "P_GEN2"]⟩,
  ⟨0x3f, ['F', 'L', 'O', 'O', 'R', 'F', 'D'], ["E2", "SZ_QUAD", "M_FENR", "M_GENW", "P_GEN1", "P_GEN2"]⟩]

/-- src/table_ns32000.cpp:703-732 -/
def INDEX_9_FPU : List Nat := [
  25, 27, 26, 22, 24, 23, 6, 3, 0, 5, 2, 9, 8, 4, 1, 13,
  15, 14, 10, 12, 11, 7, 19, 21, 20, 16, 18, 17]

/-- src/table_ns32000.cpp:735-752 -/
def FORMAT_11_FPU : List Row := [
  ⟨0x0, ['A', 'D', 'D', 'L'], ["E2", "SZ_OCTA", "M_FENR", "M_FENW", "P_GEN1", "P_GEN2"]⟩,
  ⟨0x1, ['A', 'D', 'D', 'F'], ["E2", "SZ_QUAD", "M_FENR", "M_FENW", "P_GEN1", "P_GEN2"]⟩,
  ⟨0x4, ['M', 'O', 'V', 'L'], ["E2", "SZ_OCTA", "M_FENR", "M_FENW", "P_GEN1", "P_GEN2"]⟩,
  ⟨0x5, ['M', 'O', 'V', 'F'], ["E2", "SZ_QUAD", "M_FENR", "M_FENW", "P_GEN1", "P_GEN2"]⟩,
  ⟨0x8, ['C', 'M', 'P', 'L'], ["E2", "SZ_OCTA", "M_FENR", "M_FENR", "P_GEN1", "P_GEN2"]⟩,
  ⟨0x9, ['C', 'M', 'P', 'F'], ["E2", "SZ_QUAD", "M_FENR", "M_FENR", "P_GEN1", "P_GEN2"]⟩,
  ⟨0x10, ['S', 'U', 'B', 'L'], ["E2", "SZ_OCTA", "M_FENR", "M_FENW", "P_GEN1", "P_GEN2"]⟩,
  ⟨0x11, ['S', 'U', 'B', 'F'], ["E2", "SZ_QUAD", "M_FENR", "M_FENW", "P_GEN1", "P_GEN2"]⟩,
  ⟨0x14, ['N', 'E', 'G', 'L'], ["E2", "SZ_OCTA", "M_FENR", "M_FENW", "P_GEN1", "P_GEN2"]⟩,
  ⟨0x15, ['N', 'E', 'G', 'F'], ["E2", "SZ_QUAD", "M_FENR", "M_FENW", "P_GEN1", "P_GEN2"]⟩,
  ⟨0x20, ['D', 'I', 'V', 'L'], ["E2", "SZ_OCTA", "M_FENR", "M_FENW", "P_GEN1", "P_GEN2"]⟩,
  ⟨0x21, ['D', 'I', 'V', 'F'], ["E2", "SZ_QUAD", "M_FENR", "M_FENW", "P_GEN1", "P_GEN2"]⟩,
  ⟨0x30, ['M', 'U', 'L', 'L'], ["E2", "SZ_OCTA", "M_FENR", "M_FENW", "P_GEN1", "P_GEN2"]⟩,
  ⟨0x31, ['M', 'U', 'L', 'F'], ["E2", "SZ_QUAD", "M_FENR", "M_FENW", "P_GEN1", "P_GEN2"]⟩,
  ⟨0x34, ['A', 'B', 'S', 'L'], ["E2", "SZ_OCTA", "M_FENR", "M_FENW", "P_GEN1", "P_GEN2"]⟩,
  ⟨0x35, ['A', 'B', 'S', 'F'], ["E2", "SZ_QUAD", "M_FENR", "M_FENW", "P_GEN1", "P_GEN2"]⟩]

/-- src/table_ns32000.cpp:753-770 -/
def INDEX_11_FPU : List Nat := [
  15, 14, 1, 0, 5, 4, 11, 10, 3, 2, 13, 12, 9, 8, 7, 6]

/-- src/table_ns32000.cpp:776-779 -/
def FORMAT_14_1_MMU : List Row := [
  ⟨0x3, ['R', 'D', 'V', 'A', 'L'], ["E2", "SZ_QUAD", "M_GENA", "M_ZERO", "P_GEN1", "P_GEN2"]⟩,
  ⟨0x7, ['W', 'R', 'V', 'A', 'L'], ["E2", "SZ_QUAD", "M_GENA", "M_ZERO", "P_GEN1", "P_GEN2"]⟩]

/-- src/table_ns32000.cpp:780-783 -/
def FORMAT_14_2_MMU : List Row := [
  ⟨0xb, ['L', 'M', 'R'], ["E2", "SZ_QUAD", "M_MREG", "M_GENR", "P_SHORT", "P_GEN1"]⟩,
  ⟨0xf, ['S', 'M', 'R'], ["E2", "SZ_QUAD", "M_MREG", "M_GENW", "P_SHORT", "P_GEN1"]⟩]

/-- src/table_ns32000.cpp:784-787 -/
def INDEX_14_1_MMU : List Nat := [
  0, 1]

/-- src/table_ns32000.cpp:788-791 -/
def INDEX_14_2_MMU : List Nat := [
  0, 1]

/-- src/table_ns32000.cpp:810-833 -/
def NS32032_PAGES : List (Page Row) := [
  ⟨0x0, ["0x00", "0"], FORMAT_0, INDEX_0⟩,
  ⟨0x0, ["0x00", "0"], FORMAT_1, INDEX_1⟩,
  ⟨0x0, ["0xC0", "1"], FORMAT_4, INDEX_4⟩,
  ⟨0x0, ["0x80", "1"], FORMAT_2_0, INDEX_2_0⟩,
  ⟨0x3c, ["0xF8", "0"], FORMAT_2_1, INDEX_2_1⟩,
  ⟨0xbc, ["0xF8", "0"], FORMAT_2_2, INDEX_2_2⟩,
  ⟨0x3d, ["0xF8", "0"], FORMAT_2_3, INDEX_2_3⟩,
  ⟨0xbd, ["0xF8", "0"], FORMAT_2_4, INDEX_2_4⟩,
  ⟨0x3f, ["0xF8", "0"], FORMAT_2_5, INDEX_2_5⟩,
  ⟨0xbf, ["0xF8", "0"], FORMAT_2_6, INDEX_2_6⟩,
  ⟨0x7c, ["0xF8", "0"], FORMAT_3_1, INDEX_3_1⟩,
  ⟨0x7d, ["0xF8", "0"], FORMAT_3_2, INDEX_3_2⟩,
  ⟨0x7f, ["0xF8", "0"], FORMAT_3_3, INDEX_3_3⟩,
  ⟨0xe, ["0x80", "1"], FORMAT_5_0, INDEX_5_0⟩,
  ⟨0xe, ["0x00", "1"], FORMAT_5_1, INDEX_5_1⟩,
  ⟨0x4e, ["0xC0", "1"], FORMAT_6, INDEX_6⟩,
  ⟨0xce, ["0xC0", "1"], FORMAT_7, INDEX_7⟩,
  ⟨0x2e, ["0xF8", "1"], FORMAT_8_1, INDEX_8_1⟩,
  ⟨0x6e, ["0xF8", "1"], FORMAT_8_2, INDEX_8_2⟩,
  ⟨0x6e, ["0xC0", "1"], FORMAT_8_2_1, INDEX_8_2_1⟩,
  ⟨0xae, ["0xF8", "1"], FORMAT_8_3, INDEX_8_3⟩,
  ⟨0xee, ["0xF8", "1"], FORMAT_8_4, INDEX_8_4⟩]

/-- src/table_ns32000.cpp:837-840 -/
def NS32081_PAGES : List (Page Row) := [
  ⟨0x3e, ["0xC0", "1"], FORMAT_9_FPU, INDEX_9_FPU⟩,
  ⟨0xbe, ["0xC0", "1"], FORMAT_11_FPU, INDEX_11_FPU⟩]

/-- src/table_ns32000.cpp:845-849 -/
def NS32082_PAGES : List (Page Row) := [
  ⟨0xae, ["0xC0", "1"], FORMAT_8_3_1_MMU, INDEX_8_3_1_MMU⟩,
  ⟨0x1e, ["0x00", "1"], FORMAT_14_1_MMU, INDEX_14_1_MMU⟩,
  ⟨0x1e, ["0x80", "1"], FORMAT_14_2_MMU, INDEX_14_2_MMU⟩]

/-- The processors of src/table_ns32000.cpp: CPU_TABLE 897-899, FPU_TABLE 908-911, MMU_TABLE 919-922 -/
def cpus : List Cpu := [
  ⟨['3', '2', '0', '3', '2'], NS32032_PAGES⟩,
  ⟨['N', 'S', '3', '2', '0', '8', '1'], NS32081_PAGES⟩,
  ⟨['n', 'o', 'n', 'e'], []⟩,
  ⟨['N', 'S', '3', '2', '0', '8', '2'], NS32082_PAGES⟩,
  ⟨['n', 'o', 'n', 'e'], []⟩]

theorem FORMAT_0_INDEX_0 (n : Nat) (x : List String) : PageOk ⟨n, x, FORMAT_0, INDEX_0⟩ :=
  pageB_sound ⟨n, x, FORMAT_0, INDEX_0⟩ (show pageB ⟨0, [], FORMAT_0, INDEX_0⟩ = true by decide +kernel)

theorem FORMAT_1_INDEX_1 (n : Nat) (x : List String) : PageOk ⟨n, x, FORMAT_1, INDEX_1⟩ :=
  pageB_sound ⟨n, x, FORMAT_1, INDEX_1⟩ (show pageB ⟨0, [], FORMAT_1, INDEX_1⟩ = true by decide +kernel)

theorem FORMAT_4_INDEX_4 (n : Nat) (x : List String) : PageOk ⟨n, x, FORMAT_4, INDEX_4⟩ :=
  pageB_sound ⟨n, x, FORMAT_4, INDEX_4⟩ (show pageB ⟨0, [], FORMAT_4, INDEX_4⟩ = true by decide +kernel)

theorem FORMAT_2_0_INDEX_2_0 (n : Nat) (x : List String) : PageOk ⟨n, x, FORMAT_2_0, INDEX_2_0⟩ :=
  pageB_sound ⟨n, x, FORMAT_2_0, INDEX_2_0⟩ (show pageB ⟨0, [], FORMAT_2_0, INDEX_2_0⟩ = true by decide +kernel)

theorem FORMAT_2_1_INDEX_2_1 (n : Nat) (x : List String) : PageOk ⟨n, x, FORMAT_2_1, INDEX_2_1⟩ :=
  pageB_sound ⟨n, x, FORMAT_2_1, INDEX_2_1⟩ (show pageB ⟨0, [], FORMAT_2_1, INDEX_2_1⟩ = true by decide +kernel)

theorem FORMAT_2_2_INDEX_2_2 (n : Nat) (x : List String) : PageOk ⟨n, x, FORMAT_2_2, INDEX_2_2⟩ :=
  pageB_sound ⟨n, x, FORMAT_2_2, INDEX_2_2⟩ (show pageB ⟨0, [], FORMAT_2_2, INDEX_2_2⟩ = true by decide +kernel)

theorem FORMAT_2_3_INDEX_2_3 (n : Nat) (x : List String) : PageOk ⟨n, x, FORMAT_2_3, INDEX_2_3⟩ :=
  pageB_sound ⟨n, x, FORMAT_2_3, INDEX_2_3⟩ (show pageB ⟨0, [], FORMAT_2_3, INDEX_2_3⟩ = true by decide +kernel)

theorem FORMAT_2_4_INDEX_2_4 (n : Nat) (x : List String) : PageOk ⟨n, x, FORMAT_2_4, INDEX_2_4⟩ :=
  pageB_sound ⟨n, x, FORMAT_2_4, INDEX_2_4⟩ (show pageB ⟨0, [], FORMAT_2_4, INDEX_2_4⟩ = true by decide +kernel)

theorem FORMAT_2_5_INDEX_2_5 (n : Nat) (x : List String) : PageOk ⟨n, x, FORMAT_2_5, INDEX_2_5⟩ :=
  pageB_sound ⟨n, x, FORMAT_2_5, INDEX_2_5⟩ (show pageB ⟨0, [], FORMAT_2_5, INDEX_2_5⟩ = true by decide +kernel)

theorem FORMAT_2_6_INDEX_2_6 (n : Nat) (x : List String) : PageOk ⟨n, x, FORMAT_2_6, INDEX_2_6⟩ :=
  pageB_sound ⟨n, x, FORMAT_2_6, INDEX_2_6⟩ (show pageB ⟨0, [], FORMAT_2_6, INDEX_2_6⟩ = true by decide +kernel)

theorem FORMAT_3_1_INDEX_3_1 (n : Nat) (x : List String) : PageOk ⟨n, x, FORMAT_3_1, INDEX_3_1⟩ :=
  pageB_sound ⟨n, x, FORMAT_3_1, INDEX_3_1⟩ (show pageB ⟨0, [], FORMAT_3_1, INDEX_3_1⟩ = true by decide +kernel)

theorem FORMAT_3_2_INDEX_3_2 (n : Nat) (x : List String) : PageOk ⟨n, x, FORMAT_3_2, INDEX_3_2⟩ :=
  pageB_sound ⟨n, x, FORMAT_3_2, INDEX_3_2⟩ (show pageB ⟨0, [], FORMAT_3_2, INDEX_3_2⟩ = true by decide +kernel)

theorem FORMAT_3_3_INDEX_3_3 (n : Nat) (x : List String) : PageOk ⟨n, x, FORMAT_3_3, INDEX_3_3⟩ :=
  pageB_sound ⟨n, x, FORMAT_3_3, INDEX_3_3⟩ (show pageB ⟨0, [], FORMAT_3_3, INDEX_3_3⟩ = true by decide +kernel)

theorem FORMAT_5_0_INDEX_5_0 (n : Nat) (x : List String) : PageOk ⟨n, x, FORMAT_5_0, INDEX_5_0⟩ :=
  pageB_sound ⟨n, x, FORMAT_5_0, INDEX_5_0⟩ (show pageB ⟨0, [], FORMAT_5_0, INDEX_5_0⟩ = true by decide +kernel)

theorem FORMAT_5_1_INDEX_5_1 (n : Nat) (x : List String) : PageOk ⟨n, x, FORMAT_5_1, INDEX_5_1⟩ :=
  pageB_sound ⟨n, x, FORMAT_5_1, INDEX_5_1⟩ (show pageB ⟨0, [], FORMAT_5_1, INDEX_5_1⟩ = true by decide +kernel)

theorem FORMAT_6_INDEX_6 (n : Nat) (x : List String) : PageOk ⟨n, x, FORMAT_6, INDEX_6⟩ :=
  pageB_sound ⟨n, x, FORMAT_6, INDEX_6⟩ (show pageB ⟨0, [], FORMAT_6, INDEX_6⟩ = true by decide +kernel)

theorem FORMAT_7_INDEX_7 (n : Nat) (x : List String) : PageOk ⟨n, x, FORMAT_7, INDEX_7⟩ :=
  pageB_sound ⟨n, x, FORMAT_7, INDEX_7⟩ (show pageB ⟨0, [], FORMAT_7, INDEX_7⟩ = true by decide +kernel)

theorem FORMAT_8_1_INDEX_8_1 (n : Nat) (x : List String) : PageOk ⟨n, x, FORMAT_8_1, INDEX_8_1⟩ :=
  pageB_sound ⟨n, x, FORMAT_8_1, INDEX_8_1⟩ (show pageB ⟨0, [], FORMAT_8_1, INDEX_8_1⟩ = true by decide +kernel)

theorem FORMAT_8_2_INDEX_8_2 (n : Nat) (x : List String) : PageOk ⟨n, x, FORMAT_8_2, INDEX_8_2⟩ :=
  pageB_sound ⟨n, x, FORMAT_8_2, INDEX_8_2⟩ (show pageB ⟨0, [], FORMAT_8_2, INDEX_8_2⟩ = true by decide +kernel)

theorem FORMAT_8_2_1_INDEX_8_2_1 (n : Nat) (x : List String) : PageOk ⟨n, x, FORMAT_8_2_1, INDEX_8_2_1⟩ :=
  pageB_sound ⟨n, x, FORMAT_8_2_1, INDEX_8_2_1⟩ (show pageB ⟨0, [], FORMAT_8_2_1, INDEX_8_2_1⟩ = true by decide +kernel)

theorem FORMAT_8_3_INDEX_8_3 (n : Nat) (x : List String) : PageOk ⟨n, x, FORMAT_8_3, INDEX_8_3⟩ :=
  pageB_sound ⟨n, x, FORMAT_8_3, INDEX_8_3⟩ (show pageB ⟨0, [], FORMAT_8_3, INDEX_8_3⟩ = true by decide +kernel)

theorem FORMAT_8_4_INDEX_8_4 (n : Nat) (x : List String) : PageOk ⟨n, x, FORMAT_8_4, INDEX_8_4⟩ :=
  pageB_sound ⟨n, x, FORMAT_8_4, INDEX_8_4⟩ (show pageB ⟨0, [], FORMAT_8_4, INDEX_8_4⟩ = true by decide +kernel)

theorem FORMAT_9_FPU_INDEX_9_FPU (n : Nat) (x : List String) : PageOk ⟨n, x, FORMAT_9_FPU, INDEX_9_FPU⟩ :=
  pageB_sound ⟨n, x, FORMAT_9_FPU, INDEX_9_FPU⟩ (show pageB ⟨0, [], FORMAT_9_FPU, INDEX_9_FPU⟩ = true by decide +kernel)

theorem FORMAT_11_FPU_INDEX_11_FPU (n : Nat) (x : List String) : PageOk ⟨n, x, FORMAT_11_FPU, INDEX_11_FPU⟩ :=
  pageB_sound ⟨n, x, FORMAT_11_FPU, INDEX_11_FPU⟩ (show pageB ⟨0, [], FORMAT_11_FPU, INDEX_11_FPU⟩ = true by decide +kernel)

theorem FORMAT_8_3_1_MMU_INDEX_8_3_1_MMU (n : Nat) (x : List String) : PageOk ⟨n, x, FORMAT_8_3_1_MMU, INDEX_8_3_1_MMU⟩ :=
  pageB_sound ⟨n, x, FORMAT_8_3_1_MMU, INDEX_8_3_1_MMU⟩ (show pageB ⟨0, [], FORMAT_8_3_1_MMU, INDEX_8_3_1_MMU⟩ = true by decide +kernel)

theorem FORMAT_14_1_MMU_INDEX_14_1_MMU (n : Nat) (x : List String) : PageOk ⟨n, x, FORMAT_14_1_MMU, INDEX_14_1_MMU⟩ :=
  pageB_sound ⟨n, x, FORMAT_14_1_MMU, INDEX_14_1_MMU⟩ (show pageB ⟨0, [], FORMAT_14_1_MMU, INDEX_14_1_MMU⟩ = true by decide +kernel)

theorem FORMAT_14_2_MMU_INDEX_14_2_MMU (n : Nat) (x : List String) : PageOk ⟨n, x, FORMAT_14_2_MMU, INDEX_14_2_MMU⟩ :=
  pageB_sound ⟨n, x, FORMAT_14_2_MMU, INDEX_14_2_MMU⟩ (show pageB ⟨0, [], FORMAT_14_2_MMU, INDEX_14_2_MMU⟩ = true by decide +kernel)

theorem NS32032_PAGES_ok : ∀ p ∈ NS32032_PAGES, PageOk p :=
  List.forall_mem_cons.mpr <| And.intro (FORMAT_0_INDEX_0 _ _) <| List.forall_mem_cons.mpr <| And.intro (FORMAT_1_INDEX_1 _ _) <| List.forall_mem_cons.mpr <| And.intro (FORMAT_4_INDEX_4 _ _) <| List.forall_mem_cons.mpr <| And.intro (FORMAT_2_0_INDEX_2_0 _ _) <| List.forall_mem_cons.mpr <| And.intro (FORMAT_2_1_INDEX_2_1 _ _) <| List.forall_mem_cons.mpr <| And.intro (FORMAT_2_2_INDEX_2_2 _ _) <| List.forall_mem_cons.mpr <| And.intro (FORMAT_2_3_INDEX_2_3 _ _) <| List.forall_mem_cons.mpr <| And.intro (FORMAT_2_4_INDEX_2_4 _ _) <| List.forall_mem_cons.mpr <| And.intro (FORMAT_2_5_INDEX_2_5 _ _) <| List.forall_mem_cons.mpr <| And.intro (FORMAT_2_6_INDEX_2_6 _ _) <| List.forall_mem_cons.mpr <| And.intro (FORMAT_3_1_INDEX_3_1 _ _) <| List.forall_mem_cons.mpr <| And.intro (FORMAT_3_2_INDEX_3_2 _ _) <| List.forall_mem_cons.mpr <| And.intro (FORMAT_3_3_INDEX_3_3 _ _) <| List.forall_mem_cons.mpr <| And.intro (FORMAT_5_0_INDEX_5_0 _ _) <| List.forall_mem_cons.mpr <| And.intro (FORMAT_5_1_INDEX_5_1 _ _) <| List.forall_mem_cons.mpr <| And.intro (FORMAT_6_INDEX_6 _ _) <| List.forall_mem_cons.mpr <| And.intro (FORMAT_7_INDEX_7 _ _) <| List.forall_mem_cons.mpr <| And.intro (FORMAT_8_1_INDEX_8_1 _ _) <| List.forall_mem_cons.mpr <| And.intro (FORMAT_8_2_INDEX_8_2 _ _) <| List.forall_mem_cons.mpr <| And.intro (FORMAT_8_2_1_INDEX_8_2_1 _ _) <| List.forall_mem_cons.mpr <| And.intro (FORMAT_8_3_INDEX_8_3 _ _) <| List.forall_mem_cons.mpr <| And.intro (FORMAT_8_4_INDEX_8_4 _ _) nofun

theorem NS32081_PAGES_ok : ∀ p ∈ NS32081_PAGES, PageOk p :=
  List.forall_mem_cons.mpr <| And.intro (FORMAT_9_FPU_INDEX_9_FPU _ _) <| List.forall_mem_cons.mpr <| And.intro (FORMAT_11_FPU_INDEX_11_FPU _ _) nofun

theorem NS32082_PAGES_ok : ∀ p ∈ NS32082_PAGES, PageOk p :=
  List.forall_mem_cons.mpr <| And.intro (FORMAT_8_3_1_MMU_INDEX_8_3_1_MMU _ _) <| List.forall_mem_cons.mpr <| And.intro (FORMAT_14_1_MMU_INDEX_14_1_MMU _ _) <| List.forall_mem_cons.mpr <| And.intro (FORMAT_14_2_MMU_INDEX_14_2_MMU _ _) nofun

theorem cpus_ok : ∀ c ∈ cpus, ∀ p ∈ c.pages, PageOk p :=
  List.forall_mem_cons.mpr <| And.intro NS32032_PAGES_ok <| List.forall_mem_cons.mpr <| And.intro NS32081_PAGES_ok <| List.forall_mem_cons.mpr <| And.intro nofun <| List.forall_mem_cons.mpr <| And.intro NS32082_PAGES_ok <| List.forall_mem_cons.mpr <| And.intro nofun nofun

end Libasm.Tables.Ns32000
