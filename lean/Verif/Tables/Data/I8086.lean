import Verif.Tables.Row
/-
Generated by tools/gen_tables.py from src/table_i8086.cpp: names, codes, operands and indexes as written
there. Do not edit.
-/
namespace Libasm.Tables.I8086
open Table

/-- src/table_i8086.cpp:45-252 -/
def TABLE_00 : List Row := [
  ⟨0xa0, ['M', 'O', 'V'], ["E2", "SZ_BYTE", "M_AL", "M_BDIR", "P_NONE", "P_OPR"]⟩,
  ⟨0xa1, ['M', 'O', 'V'], ["E2", "SZ_WORD", "M_AX", "M_WDIR", "P_NONE", "P_OPR"]⟩,
  ⟨0xa2, ['M', 'O', 'V'], ["E2", "SZ_BYTE", "M_BDIR", "M_AL", "P_OPR", "P_NONE"]⟩,
  ⟨0xa3, ['M', 'O', 'V'], ["E2", "SZ_WORD", "M_WDIR", "M_AX", "P_OPR", "P_NONE"]⟩,
  ⟨0x90, ['N', 'O', 'P'], ["E0", "SZ_NONE"]⟩,
  ⟨0x90, ['X', 'C', 'H', 'G'], ["E2", "SZ_WORD", "M_AX", "M_WREG", "P_NONE", "P_OREG"]⟩,
  ⟨0x90, ['X', 'C', 'H', 'G'], ["E2", "SZ_WORD", "M_WREG", "M_AX", "P_OREG", "P_NONE"]⟩,
  ⟨0x4, ['A', 'D', 'D'], ["E2", "SZ_BYTE", "M_AL", "M_IMM", "P_NONE", "P_OPR"]⟩,
  ⟨0x5, ['A', 'D', 'D'], ["E2", "SZ_WORD", "M_AX", "M_IMM", "P_NONE", "P_OPR"]⟩,
  ⟨0xc, ['O', 'R'], ["E2", "SZ_BYTE", "M_AL", "M_IMM", "P_NONE", "P_OPR"]⟩,
  ⟨0xd, ['O', 'R'], ["E2", "SZ_WORD", "M_AX", "M_IMM", "P_NONE", "P_OPR"]⟩,
  ⟨0x2, ['A', 'D', 'D'], ["E2", "SZ_BYTE", "M_BREG", "M_BMOD", "P_REG", "P_MOD"]⟩,
  ⟨0x0, ['A', 'D', 'D'], ["E2", "SZ_BYTE", "M_BMOD", "M_BREG", "P_MOD", "P_REG"]⟩,
  ⟨0x3, ['A', 'D', 'D'], ["E2", "SZ_WORD", "M_WREG", "M_WMOD", "P_REG", "P_MOD"]⟩,
  ⟨0x1, ['A', 'D', 'D'], ["E2", "SZ_WORD", "M_WMOD", "M_WREG", "P_MOD", "P_REG"]⟩,
  ⟨0x6, ['P', 'U', 'S', 'H'], ["E1", "SZ_WORD", "M_SREG", "P_OSEG"]⟩,
  ⟨0xf, ['P', 'O', 'P'], ["E1", "SZ_WORD", "M_CS", "P_NONE"]⟩,
  ⟨0x7, ['P', 'O', 'P'], ["E1", "SZ_WORD", "M_SREG", "P_OSEG"]⟩,
  ⟨0xa, ['O', 'R'], ["E2", "SZ_BYTE", "M_BREG", "M_BMOD", "P_REG", "P_MOD"]⟩,
  ⟨0x8, ['O', 'R'], ["E2", "SZ_BYTE", "M_BMOD", "M_BREG", "P_MOD", "P_REG"]⟩,
  ⟨0xb, ['O', 'R'], ["E2", "SZ_WORD", "M_WREG", "M_WMOD", "P_REG", "P_MOD"]⟩,
  ⟨0x9, ['O', 'R'], ["E2", "SZ_WORD", "M_WMOD", "M_WREG", "P_MOD", "P_REG"]⟩,
  ⟨0x12, ['A', 'D', 'C'], ["E2", "SZ_BYTE", "M_BREG", "M_BMOD", "P_REG", "P_MOD"]⟩,
  ⟨0x10, ['A', 'D', 'C'], ["E2", "SZ_BYTE", "M_BMOD", "M_BREG", "P_MOD", "P_REG"]⟩,
  ⟨0x13, ['A', 'D', 'C'], ["E2", "SZ_WORD", "M_WREG", "M_WMOD", "P_REG", "P_MOD"]⟩,
  ⟨0x11, ['A', 'D', 'C'], ["E2", "SZ_WORD", "M_WMOD", "M_WREG", "P_MOD", "P_REG"]⟩,
  ⟨0x14, ['A', 'D', 'C'], ["E2", "SZ_BYTE", "M_AL", "M_IMM", "P_NONE", "P_OPR"]⟩,
  ⟨0x15, ['A', 'D', 'C'], ["E2", "SZ_WORD", "M_AX", "M_IMM", "P_NONE", "P_OPR"]⟩,
  ⟨0x1a, ['S', 'B', 'B'], ["E2", "SZ_BYTE", "M_BREG", "M_BMOD", "P_REG", "P_MOD"]⟩,
  ⟨0x18, ['S', 'B', 'B'], ["E2", "SZ_BYTE", "M_BMOD", "M_BREG", "P_MOD", "P_REG"]⟩,
  ⟨0x1b, ['S', 'B', 'B'], ["E2", "SZ_WORD", "M_WREG", "M_WMOD", "P_REG", "P_MOD"]⟩,
  ⟨0x19, ['S', 'B', 'B'], ["E2", "SZ_WORD", "M_WMOD", "M_WREG", "P_MOD", "P_REG"]⟩,
  ⟨0x1c, ['S', 'B', 'B'], ["E2", "SZ_BYTE", "M_AL", "M_IMM", "P_NONE", "P_OPR"]⟩,
  ⟨0x1d, ['S', 'B', 'B'], ["E2", "SZ_WORD", "M_AX", "M_IMM", "P_NONE", "P_OPR"]⟩,
  ⟨0x22, ['A', 'N', 'D'], ["E2", "SZ_BYTE", "M_BREG", "M_BMOD", "P_REG", "P_MOD"]⟩,
  ⟨0x20, ['A', 'N', 'D'], ["E2", "SZ_BYTE", "M_BMOD", "M_BREG", "P_MOD", "P_REG"]⟩,
  ⟨0x23, ['A', 'N', 'D'], ["E2", "SZ_WORD", "M_WREG", "M_WMOD", "P_REG", "P_MOD"]⟩,
  ⟨0x21, ['A', 'N', 'D'], ["E2", "SZ_WORD", "M_WMOD", "M_WREG", "P_MOD", "P_REG"]⟩,
  ⟨0x24, ['A', 'N', 'D'], ["E2", "SZ_BYTE", "M_AL", "M_IMM", "P_NONE", "P_OPR"]⟩,
  ⟨0x25, ['A', 'N', 'D'], ["E2", "SZ_WORD", "M_AX", "M_IMM", "P_NONE", "P_OPR"]⟩,
  ⟨0x26, ['S', 'E', 'G', 'E', 'S'], ["E0", "SZ_BYTE"]⟩,
  ⟨0x27, ['D', 'A', 'A'], ["E0", "SZ_BYTE"]⟩,
  ⟨0x2a, ['S', 'U', 'B'], ["E2", "SZ_BYTE", "M_BREG", "M_BMOD", "P_REG", "P_MOD"]⟩,
  ⟨0x28, ['S', 'U', 'B'], ["E2", "SZ_BYTE", "M_BMOD", "M_BREG", "P_MOD", "P_REG"]⟩,
  ⟨0x2b, ['S', 'U', 'B'], ["E2", "SZ_WORD", "M_WREG", "M_WMOD", "P_REG", "P_MOD"]⟩,
  ⟨0x29, ['S', 'U', 'B'], ["E2", "SZ_WORD", "M_WMOD", "M_WREG", "P_MOD", "P_REG"]⟩,
  ⟨0x2c, ['S', 'U', 'B'], ["E2", "SZ_BYTE", "M_AL", "M_IMM", "P_NONE", "P_OPR"]⟩,
  ⟨0x2d, ['S', 'U', 'B'], ["E2", "SZ_WORD", "M_AX", "M_IMM", "P_NONE", "P_OPR"]⟩,
  ⟨0x2e, ['S', 'E', 'G', 'C', 'S'], ["E0", "SZ_BYTE"]⟩,
  ⟨0x2f, ['D', 'A', 'S'], ["E0", "SZ_BYTE"]⟩,
  ⟨0x32, ['X', 'O', 'R'], ["E2", "SZ_BYTE", "M_BREG", "M_BMOD", "P_REG", "P_MOD"]⟩,
  ⟨0x30, ['X', 'O', 'R'], ["E2", "SZ_BYTE", "M_BMOD", "M_BREG", "P_MOD", "P_REG"]⟩,
  ⟨0x33, ['X', 'O', 'R'], ["E2", "SZ_WORD", "M_WREG", "M_WMOD", "P_REG", "P_MOD"]⟩,
  ⟨0x31, ['X', 'O', 'R'], ["E2", "SZ_WORD", "M_WMOD", "M_WREG", "P_MOD", "P_REG"]⟩,
  ⟨0x34, ['X', 'O', 'R'], ["E2", "SZ_BYTE", "M_AL", "M_IMM", "P_NONE", "P_OPR"]⟩,
  ⟨0x35, ['X', 'O', 'R'], ["E2", "SZ_WORD", "M_AX", "M_IMM", "P_NONE", "P_OPR"]⟩,
  ⟨0x36, ['S', 'E', 'G', 'S', 'S'], ["E0", "SZ_BYTE"]⟩,
  ⟨0x37, ['A', 'A', 'A'], ["E0", "SZ_BYTE"]⟩,
  ⟨0x3a, ['C', 'M', 'P'], ["E2", "SZ_BYTE", "M_BREG", "M_BMOD", "P_REG", "P_MOD"]⟩,
  ⟨0x38, ['C', 'M', 'P'], ["E2", "SZ_BYTE", "M_BMOD", "M_BREG", "P_MOD", "P_REG"]⟩,
  ⟨0x3b, ['C', 'M', 'P'], ["E2", "SZ_WORD", "M_WREG", "M_WMOD", "P_REG", "P_MOD"]⟩,
  ⟨0x39, ['C', 'M', 'P'], ["E2", "SZ_WORD", "M_WMOD", "M_WREG", "P_MOD", "P_REG"]⟩,
  ⟨0x3c, ['C', 'M', 'P'], ["E2", "SZ_BYTE", "M_AL", "M_IMM", "P_NONE", "P_OPR"]⟩,
  ⟨0x3d, ['C', 'M', 'P'], ["E2", "SZ_WORD", "M_AX", "M_IMM", "P_NONE", "P_OPR"]⟩,
  ⟨0x3e, ['S', 'E', 'G', 'D', 'S'], ["E0", "SZ_BYTE"]⟩,
  ⟨0x3f, ['A', 'A', 'S'], ["E0", "SZ_BYTE"]⟩,
  ⟨0x40, ['I', 'N', 'C'], ["E1", "SZ_WORD", "M_WREG", "P_OREG"]⟩,
  ⟨0x48, ['D', 'E', 'C'], ["E1", "SZ_WORD", "M_WREG", "P_OREG"]⟩,
  ⟨0x50, ['P', 'U', 'S', 'H'], ["E1", "SZ_WORD", "M_WREG", "P_OREG"]⟩,
  ⟨0x58, ['P', 'O', 'P'], ["E1", "SZ_WORD", "M_WREG", "P_OREG"]⟩,
  ⟨0x70, ['J', 'O'], ["E1", "SZ_NONE", "M_REL8", "P_OPR"]⟩,
  ⟨0x71, ['J', 'N', 'O'], ["E1", "SZ_NONE", "M_REL8", "P_OPR"]⟩,
  ⟨0x72, ['J', 'B'], ["E1", "SZ_NONE", "M_REL8", "P_OPR"]⟩,
  ⟨0x72, ['J', 'C'], ["E1", "SZ_NONE", "M_REL8", "P_OPR"]⟩,
  ⟨0x72, ['J', 'N', 'A', 'E'], ["E1", "SZ_NONE", "M_REL8", "P_OPR"]⟩,
  ⟨0x73, ['J', 'A', 'E'], ["E1", "SZ_NONE", "M_REL8", "P_OPR"]⟩,
  ⟨0x73, ['J', 'N', 'B'], ["E1", "SZ_NONE", "M_REL8", "P_OPR"]⟩,
  ⟨0x73, ['J', 'N', 'C'], ["E1", "SZ_NONE", "M_REL8", "P_OPR"]⟩,
  ⟨0x74, ['J', 'E'], ["E1", "SZ_NONE", "M_REL8", "P_OPR"]⟩,
  ⟨0x74, ['J', 'Z'], ["E1", "SZ_NONE", "M_REL8", "P_OPR"]⟩,
  ⟨0x75, ['J', 'N', 'E'], ["E1", "SZ_NONE", "M_REL8", "P_OPR"]⟩,
  ⟨0x75, ['J', 'N', 'Z'], ["E1", "SZ_NONE", "M_REL8", "P_OPR"]⟩,
  ⟨0x76, ['J', 'B', 'E'], ["E1", "SZ_NONE", "M_REL8", "P_OPR"]⟩,
  ⟨0x76, ['J', 'N', 'A'], ["E1", "SZ_NONE", "M_REL8", "P_OPR"]⟩,
  ⟨0x77, ['J', 'A'], ["E1", "SZ_NONE", "M_REL8", "P_OPR"]⟩,
  ⟨0x77, ['J', 'N', 'B', 'E'], ["E1", "SZ_NONE", "M_REL8", "P_OPR"]⟩,
  ⟨0x78, ['J', 'S'], ["E1", "SZ_NONE", "M_REL8", "P_OPR"]⟩,
  ⟨0x79, ['J', 'N', 'S'], ["E1", "SZ_NONE", "M_REL8", "P_OPR"]⟩,
  ⟨0x7a, ['J', 'P', 'E'], ["E1", "SZ_NONE", "M_REL8", "P_OPR"]⟩,
  ⟨0x7a, ['J', 'P'], ["E1", "SZ_NONE", "M_REL8", "P_OPR"]⟩,
  ⟨0x7b, ['J', 'P', 'O'], ["E1", "SZ_NONE", "M_REL8", "P_OPR"]⟩,
  ⟨0x7b, ['J', 'N', 'P'], ["E1", "SZ_NONE", "M_REL8", "P_OPR"]⟩,
  ⟨0x7c, ['J', 'L'], ["E1", "SZ_NONE", "M_REL8", "P_OPR"]⟩,
  ⟨0x7c, ['J', 'N', 'G', 'E'], ["E1", "SZ_NONE", "M_REL8", "P_OPR"]⟩,
  ⟨0x7d, ['J', 'G', 'E'], ["E1", "SZ_NONE", "M_REL8", "P_OPR"]⟩,
  ⟨0x7d, ['J', 'N', 'L'], ["E1", "SZ_NONE", "M_REL8", "P_OPR"]⟩,
  ⟨0x7e, ['J', 'L', 'E'], ["E1", "SZ_NONE", "M_REL8", "P_OPR"]⟩,
  ⟨0x7e, ['J', 'N', 'G'], ["E1", "SZ_NONE", "M_REL8", "P_OPR"]⟩,
  ⟨0x7f, ['J', 'G'], ["E1", "SZ_NONE", "M_REL8", "P_OPR"]⟩,
  ⟨0x7f, ['J', 'N', 'L', 'E'], ["E1", "SZ_NONE", "M_REL8", "P_OPR"]⟩,
  ⟨0x84, ['T', 'E', 'S', 'T'], ["E2", "SZ_BYTE", "M_BREG", "M_BMOD", "P_REG", "P_MOD"]⟩,
  ⟨0x84, ['T', 'E', 'S', 'T'], ["E2", "SZ_BYTE", "M_BMOD", "M_BREG", "P_MOD", "P_REG"]⟩,
  ⟨0x85, ['T', 'E', 'S', 'T'], ["E2", "SZ_WORD", "M_WREG", "M_WMOD", "P_REG", "P_MOD"]⟩,
  ⟨0x85, ['T', 'E', 'S', 'T'], ["E2", "SZ_WORD", "M_WMOD", "M_WREG", "P_MOD", "P_REG"]⟩,
  ⟨0x86, ['X', 'C', 'H', 'G'], ["E2", "SZ_BYTE", "M_BREG", "M_BMOD", "P_REG", "P_MOD"]⟩,
  ⟨0x86, ['X', 'C', 'H', 'G'], ["E2", "SZ_BYTE", "M_BMOD", "M_BREG", "P_MOD", "P_REG"]⟩,
  ⟨0x87, ['X', 'C', 'H', 'G'], ["E2", "SZ_WORD", "M_WREG", "M_WMOD", "P_REG", "P_MOD"]⟩,
  ⟨0x87, ['X', 'C', 'H', 'G'], ["E2", "SZ_WORD", "M_WMOD", "M_WREG", "P_MOD", "P_REG"]⟩,
  ⟨0x8a, ['M', 'O', 'V'], ["E2", "SZ_BYTE", "M_BREG", "M_BMOD", "P_REG", "P_MOD"]⟩,
  ⟨0x88, ['M', 'O', 'V'], ["E2", "SZ_BYTE", "M_BMOD", "M_BREG", "P_MOD", "P_REG"]⟩,
  ⟨0x8b, ['M', 'O', 'V'], ["E2", "SZ_WORD", "M_WREG", "M_WMOD", "P_REG", "P_MOD"]⟩,
  ⟨0x89, ['M', 'O', 'V'], ["E2", "SZ_WORD", "M_WMOD", "M_WREG", "P_MOD", "P_REG"]⟩,
  ⟨0x8c, ['M', 'O', 'V'], ["E2", "SZ_WORD", "M_WMOD", "M_SREG", "P_MOD", "P_REG"]⟩,
  ⟨0x8d, ['L', 'E', 'A'], ["E2", "SZ_WORD", "M_WREG", "M_BMEM", "P_REG", "P_MOD"]⟩,
  ⟨0x8d, ['L', 'E', 'A'], ["E2", "SZ_WORD", "M_WREG", "M_WMEM", "P_REG", "P_MOD"]⟩,
  ⟨0x8e, ['M', 'O', 'V'], ["E2", "SZ_WORD", "M_SREG", "M_WMOD", "P_REG", "P_MOD"]⟩,
  ⟨0x98, ['C', 'B', 'W'], ["E0", "SZ_BYTE"]⟩,
  ⟨0x99, ['C', 'W', 'D'], ["E0", "SZ_WORD"]⟩,
  ⟨0x9a, ['C', 'A', 'L', 'L', 'F'], ["E1", "SZ_NONE", "M_FAR", "P_OPR"]⟩,
  ⟨0x9b, ['W', 'A', 'I', 'T'], ["E0", "SZ_NONE"]⟩,
  ⟨0x9c, ['P', 'U', 'S', 'H', 'F'], ["E0", "SZ_WORD"]⟩,
  ⟨0x9d, ['P', 'O', 'P', 'F'], ["E0", "SZ_WORD"]⟩,
  ⟨0x9e, ['S', 'A', 'H', 'F'], ["E0", "SZ_BYTE"]⟩,
  ⟨0x9f, ['L', 'A', 'H', 'F'], ["E0", "SZ_BYTE"]⟩,
  ⟨0xa4, ['M', 'O', 'V', 'S', 'B'], ["S0", "SZ_BYTE"]⟩,
  ⟨0xa5, ['M', 'O', 'V', 'S', 'W'], ["S0", "SZ_WORD"]⟩,
  ⟨0xa4, ['M', 'O', 'V', 'S', 'B'], ["S2", "SZ_BYTE", "M_BMEM", "M_BMEM"]⟩,
  ⟨0xa5, ['M', 'O', 'V', 'S', 'W'], ["S2", "SZ_WORD", "M_WMEM", "M_WMEM"]⟩,
  ⟨0xa4, ['M', 'O', 'V', 'S'], ["S2", "SZ_BYTE", "M_BMEM", "M_BMEM"]⟩,
  ⟨0xa5, ['M', 'O', 'V', 'S'], ["S2", "SZ_WORD", "M_WMEM", "M_WMEM"]⟩,
  ⟨0xa6, ['C', 'M', 'P', 'S', 'B'], ["S0", "SZ_BYTE"]⟩,
  ⟨0xa7, ['C', 'M', 'P', 'S', 'W'], ["S0", "SZ_WORD"]⟩,
  ⟨0xa6, ['C', 'M', 'P', 'S', 'B'], ["S2", "SZ_BYTE", "M_BMEM", "M_BMEM"]⟩,
  ⟨0xa7, ['C', 'M', 'P', 'S', 'W'], ["S2", "SZ_WORD", "M_WMEM", "M_WMEM"]⟩,
  ⟨0xa6, ['C', 'M', 'P', 'S'], ["S2", "SZ_BYTE", "M_BMEM", "M_BMEM"]⟩,
  ⟨0xa7, ['C', 'M', 'P', 'S'], ["S2", "SZ_WORD", "M_WMEM", "M_WMEM"]⟩,
  ⟨0xa8, ['T', 'E', 'S', 'T'], ["E2", "SZ_BYTE", "M_AL", "M_IMM", "P_NONE", "P_OPR"]⟩,
  ⟨0xa9, ['T', 'E', 'S', 'T'], ["E2", "SZ_WORD", "M_AX", "M_IMM", "P_NONE", "P_OPR"]⟩,
  ⟨0xaa, ['S', 'T', 'O', 'S', 'B'], ["S0", "SZ_BYTE"]⟩,
  ⟨0xab, ['S', 'T', 'O', 'S', 'W'], ["S0", "SZ_WORD"]⟩,
  ⟨0xaa, ['S', 'T', 'O', 'S', 'B'], ["S1", "SZ_NONE", "M_BMEM"]⟩,
  ⟨0xab, ['S', 'T', 'O', 'S', 'W'], ["S1", "SZ_NONE", "M_WMEM"]⟩,
  ⟨0xaa, ['S', 'T', 'O', 'S'], ["S1", "SZ_BYTE", "M_BMEM"]⟩,
  ⟨0xab, ['S', 'T', 'O', 'S'], ["S1", "SZ_WORD", "M_WMEM"]⟩,
  ⟨0xac, ['L', 'O', 'D', 'S', 'B'], ["S0", "SZ_BYTE"]⟩,
  ⟨0xad, ['L', 'O', 'D', 'S', 'W'], ["S0", "SZ_WORD"]⟩,
  ⟨0xac, ['L', 'O', 'D', 'S', 'B'], ["S1", "SZ_NONE", "M_BMEM"]⟩,
  ⟨0xad, ['L', 'O', 'D', 'S', 'W'], ["S1", "SZ_NONE", "M_WMEM"]⟩,
  ⟨0xac, ['L', 'O', 'D', 'S'], ["S1", "SZ_BYTE", "M_BMEM"]⟩,
  ⟨0xad, ['L', 'O', 'D', 'S'], ["S1", "SZ_WORD", "M_WMEM"]⟩,
  ⟨0xae, ['S', 'C', 'A', 'S', 'B'], ["S0", "SZ_BYTE"]⟩,
  ⟨0xaf, ['S', 'C', 'A', 'S', 'W'], ["S0", "SZ_WORD"]⟩,
  ⟨0xae, ['S', 'C', 'A', 'S', 'B'], ["S1", "SZ_NONE", "M_BMEM"]⟩,
  ⟨0xaf, ['S', 'C', 'A', 'S', 'W'], ["S1", "SZ_NONE", "M_WMEM"]⟩,
  ⟨0xae, ['S', 'C', 'A', 'S'], ["S1", "SZ_BYTE", "M_BMEM"]⟩,
  ⟨0xaf, ['S', 'C', 'A', 'S'], ["S1", "SZ_WORD", "M_WMEM"]⟩,
  ⟨0xb0, ['M', 'O', 'V'], ["E2", "SZ_BYTE", "M_BREG", "M_IMM", "P_OREG", "P_OPR"]⟩,
  ⟨0xb8, ['M', 'O', 'V'], ["E2", "SZ_WORD", "M_WREG", "M_IMM", "P_OREG", "P_OPR"]⟩,
  ⟨0xc2, ['R', 'E', 'T'], ["E1", "SZ_WORD", "M_UI16", "P_OPR"]⟩,
  ⟨0xc3, ['R', 'E', 'T'], ["E0", "SZ_NONE"]⟩,
  ⟨0xc4, ['L', 'E', 'S'], ["E2", "SZ_WORD", "M_WREG", "M_WMEM", "P_REG", "P_MOD"]⟩,
  ⟨0xc5, ['L', 'D', 'S'], ["E2", "SZ_WORD", "M_WREG", "M_WMEM", "P_REG", "P_MOD"]⟩,
  ⟨0xca, ['R', 'E', 'T', 'F'], ["E1", "SZ_WORD", "M_UI16", "P_OPR"]⟩,
  ⟨0xcb, ['R', 'E', 'T', 'F'], ["E0", "SZ_NONE"]⟩,
  ⟨0xcc, ['I', 'N', 'T'], ["E1", "SZ_NONE", "M_VAL3", "P_NONE"]⟩,
  ⟨0xcd, ['I', 'N', 'T'], ["E1", "SZ_BYTE", "M_IMM", "P_OPR"]⟩,
  ⟨0xce, ['I', 'N', 'T', 'O'], ["E0", "SZ_NONE"]⟩,
  ⟨0xcf, ['I', 'R', 'E', 'T'], ["E0", "SZ_NONE"]⟩,
  ⟨0xd7, ['X', 'L', 'A', 'T'], ["E0", "SZ_NONE"]⟩,
  ⟨0xe0, ['L', 'O', 'O', 'P', 'N', 'E'], ["E1", "SZ_NONE", "M_REL8", "P_OPR"]⟩,
  ⟨0xe0, ['L', 'O', 'O', 'P', 'N', 'Z'], ["E1", "SZ_NONE", "M_REL8", "P_OPR"]⟩,
  ⟨0xe1, ['L', 'O', 'O', 'P', 'E'], ["E1", "SZ_NONE", "M_REL8", "P_OPR"]⟩,
  ⟨0xe1, ['L', 'O', 'O', 'P', 'Z'], ["E1", "SZ_NONE", "M_REL8", "P_OPR"]⟩,
  ⟨0xe2, ['L', 'O', 'O', 'P'], ["E1", "SZ_NONE", "M_REL8", "P_OPR"]⟩,
  ⟨0xe3, ['J', 'C', 'X', 'Z'], ["E1", "SZ_NONE", "M_REL8", "P_OPR"]⟩,
  ⟨0xe4, ['I', 'N'], ["E2", "SZ_BYTE", "M_AL", "M_IOA", "P_NONE", "P_OPR"]⟩,
  ⟨0xe5, ['I', 'N'], ["E2", "SZ_WORD", "M_AX", "M_IOA", "P_NONE", "P_OPR"]⟩,
  ⟨0xe6, ['O', 'U', 'T'], ["E2", "SZ_BYTE", "M_IOA", "M_AL", "P_OPR", "P_NONE"]⟩,
  ⟨0xe7, ['O', 'U', 'T'], ["E2", "SZ_WORD", "M_IOA", "M_AX", "P_OPR", "P_NONE"]⟩,
  ⟨0xe8, ['C', 'A', 'L', 'L'], ["E1", "SZ_NONE", "M_REL", "P_OPR"]⟩,
  ⟨0xeb, ['J', 'M', 'P'], ["E1", "SZ_NONE", "M_REL8", "P_OPR"]⟩,
  ⟨0xe9, ['J', 'M', 'P'], ["E1", "SZ_NONE", "M_REL", "P_OPR"]⟩,
  ⟨0xea, ['J', 'M', 'P', 'F'], ["E1", "SZ_NONE", "M_FAR", "P_OPR"]⟩,
  ⟨0xec, ['I', 'N'], ["E2", "SZ_BYTE", "M_AL", "M_DX", "P_NONE", "P_NONE"]⟩,
  ⟨0xed, ['I', 'N'], ["E2", "SZ_WORD", "M_AX", "M_DX", "P_NONE", "P_NONE"]⟩,
  ⟨0xee, ['O', 'U', 'T'], ["E2", "SZ_BYTE", "M_DX", "M_AL", "P_NONE", "P_NONE"]⟩,
  ⟨0xef, ['O', 'U', 'T'], ["E2", "SZ_WORD", "M_DX", "M_AX", "P_NONE", "P_NONE"]⟩,
  ⟨0xf0, ['L', 'O', 'C', 'K'], ["E0", "SZ_NONE"]⟩,
  ⟨0xf2, ['R', 'E', 'P', 'N', 'E'], ["E1", "SZ_NONE", "M_ISTR", "P_OPR"]⟩,
  ⟨0xf2, ['R', 'E', 'P', 'N', 'Z'], ["E1", "SZ_NONE", "M_ISTR", "P_OPR"]⟩,
  ⟨0xf3, ['R', 'E', 'P'], ["E1", "SZ_NONE", "M_ISTR", "P_OPR"]⟩,
  ⟨0xf3, ['R', 'E', 'P', 'E'], ["E1", "SZ_NONE", "M_ISTR", "P_OPR"]⟩,
  ⟨0xf3, ['R', 'E', 'P', 'Z'], ["E1", "SZ_NONE", "M_ISTR", "P_OPR"]⟩,
  ⟨0xf2, ['R', 'E', 'P', 'N', 'E'], ["E0", "SZ_NONE"]⟩,
  ⟨0xf2, ['R', 'E', 'P', 'N', 'Z'], ["E0", "SZ_NONE"]⟩,
  ⟨0xf3, ['R', 'E', 'P'], ["E0", "SZ_NONE"]⟩,
  ⟨0xf3, ['R', 'E', 'P', 'E'], ["E0", "SZ_NONE"]⟩,
  ⟨0xf3, ['R', 'E', 'P', 'Z'], ["E0", "SZ_NONE"]⟩,
  ⟨0xf4, ['H', 'L', 'T'], ["E0", "SZ_NONE"]⟩,
  ⟨0xf5, ['C', 'M', 'C'], ["E0", "SZ_NONE"]⟩,
  ⟨0xf8, ['C', 'L', 'C'], ["E0", "SZ_NONE"]⟩,
  ⟨0xf9, ['S', 'T', 'C'], ["E0", "SZ_NONE"]⟩,
  ⟨0xfa, ['C', 'L', 'I'], ["E0", "SZ_NONE"]⟩,
  ⟨0xfb, ['S', 'T', 'I'], ["E0", "SZ_NONE"]⟩,
  ⟨0xfc, ['C', 'L', 'D'], ["E0", "SZ_NONE"]⟩,
  ⟨0xfd, ['S', 'T', 'D'], ["E0", "SZ_NONE"]⟩]

/-- src/table_i8086.cpp:254-461 -/
def INDEX_00 : List Nat := [
  57, 65, 22, 23, 24, 25, 26, 27, 7, 8, 11, 12, 13, 14, 34, 35,
  36, 37, 38, 39, 179, 118, 116, 200, 204, 202, 199, 58, 59, 60, 61, 62,
  63, 134, 135, 130, 132, 131, 133, 117, 41, 49, 67, 198, 175, 176, 183, 184,
  66, 164, 165, 166, 167, 84, 75, 72, 82, 73, 174, 78, 98, 94, 92, 96,
  180, 181, 182, 83, 74, 76, 85, 77, 80, 97, 93, 95, 99, 71, 91, 87,
  81, 70, 89, 88, 90, 86, 79, 123, 161, 113, 114, 160, 187, 148, 149, 144,
  146, 145, 147, 173, 171, 169, 170, 172, 0, 1, 2, 3, 108, 109, 110, 111,
  112, 115, 156, 157, 128, 129, 124, 126, 125, 127, 4, 9, 10, 18, 19, 20,
  21, 177, 178, 185, 186, 16, 17, 69, 121, 15, 68, 120, 190, 195, 191, 196,
  188, 193, 189, 194, 192, 197, 158, 159, 162, 163, 122, 28, 29, 30, 31, 32,
  33, 154, 155, 150, 152, 151, 153, 48, 64, 40, 56, 201, 205, 203, 142, 143,
  138, 140, 139, 141, 42, 43, 44, 45, 46, 47, 100, 101, 102, 103, 136, 137,
  119, 5, 6, 104, 105, 106, 107, 168, 50, 51, 52, 53, 54, 55]

/-- src/table_i8086.cpp:463-472 -/
def TABLE_80 : List Row := [
  ⟨0x0, ['A', 'D', 'D'], ["E2", "SZ_BYTE", "M_BMOD", "M_IMM", "P_OMOD", "P_OPR"]⟩,
  ⟨0x8, ['O', 'R'], ["E2", "SZ_BYTE", "M_BMOD", "M_IMM", "P_OMOD", "P_OPR"]⟩,
  ⟨0x10, ['A', 'D', 'C'], ["E2", "SZ_BYTE", "M_BMOD", "M_IMM", "P_OMOD", "P_OPR"]⟩,
  ⟨0x18, ['S', 'B', 'B'], ["E2", "SZ_BYTE", "M_BMOD", "M_IMM", "P_OMOD", "P_OPR"]⟩,
  ⟨0x20, ['A', 'N', 'D'], ["E2", "SZ_BYTE", "M_BMOD", "M_IMM", "P_OMOD", "P_OPR"]⟩,
  ⟨0x28, ['S', 'U', 'B'], ["E2", "SZ_BYTE", "M_BMOD", "M_IMM", "P_OMOD", "P_OPR"]⟩,
  ⟨0x30, ['X', 'O', 'R'], ["E2", "SZ_BYTE", "M_BMOD", "M_IMM", "P_OMOD", "P_OPR"]⟩,
  ⟨0x38, ['C', 'M', 'P'], ["E2", "SZ_BYTE", "M_BMOD", "M_IMM", "P_OMOD", "P_OPR"]⟩]

/-- src/table_i8086.cpp:474-483 -/
def INDEX_8X : List Nat := [
  2, 0, 4, 7, 1, 3, 5, 6]

/-- src/table_i8086.cpp:485-494 -/
def TABLE_81 : List Row := [
  ⟨0x0, ['A', 'D', 'D'], ["E2", "SZ_WORD", "M_WMOD", "M_IMM", "P_OMOD", "P_OPR"]⟩,
  ⟨0x8, ['O', 'R'], ["E2", "SZ_WORD", "M_WMOD", "M_IMM", "P_OMOD", "P_OPR"]⟩,
  ⟨0x10, ['A', 'D', 'C'], ["E2", "SZ_WORD", "M_WMOD", "M_IMM", "P_OMOD", "P_OPR"]⟩,
  ⟨0x18, ['S', 'B', 'B'], ["E2", "SZ_WORD", "M_WMOD", "M_IMM", "P_OMOD", "P_OPR"]⟩,
  ⟨0x20, ['A', 'N', 'D'], ["E2", "SZ_WORD", "M_WMOD", "M_IMM", "P_OMOD", "P_OPR"]⟩,
  ⟨0x28, ['S', 'U', 'B'], ["E2", "SZ_WORD", "M_WMOD", "M_IMM", "P_OMOD", "P_OPR"]⟩,
  ⟨0x30, ['X', 'O', 'R'], ["E2", "SZ_WORD", "M_WMOD", "M_IMM", "P_OMOD", "P_OPR"]⟩,
  ⟨0x38, ['C', 'M', 'P'], ["E2", "SZ_WORD", "M_WMOD", "M_IMM", "P_OMOD", "P_OPR"]⟩]

/-- src/table_i8086.cpp:496-505 -/
def TABLE_83 : List Row := [
  ⟨0x0, ['A', 'D', 'D'], ["E2", "SZ_WORD", "M_WMOD", "M_IMM8", "P_OMOD", "P_OPR"]⟩,
  ⟨0x8, ['O', 'R'], ["E2", "SZ_WORD", "M_WMOD", "M_IMM8", "P_OMOD", "P_OPR"]⟩,
  ⟨0x10, ['A', 'D', 'C'], ["E2", "SZ_WORD", "M_WMOD", "M_IMM8", "P_OMOD", "P_OPR"]⟩,
  ⟨0x18, ['S', 'B', 'B'], ["E2", "SZ_WORD", "M_WMOD", "M_IMM8", "P_OMOD", "P_OPR"]⟩,
  ⟨0x20, ['A', 'N', 'D'], ["E2", "SZ_WORD", "M_WMOD", "M_IMM8", "P_OMOD", "P_OPR"]⟩,
  ⟨0x28, ['S', 'U', 'B'], ["E2", "SZ_WORD", "M_WMOD", "M_IMM8", "P_OMOD", "P_OPR"]⟩,
  ⟨0x30, ['X', 'O', 'R'], ["E2", "SZ_WORD", "M_WMOD", "M_IMM8", "P_OMOD", "P_OPR"]⟩,
  ⟨0x38, ['C', 'M', 'P'], ["E2", "SZ_WORD", "M_WMOD", "M_IMM8", "P_OMOD", "P_OPR"]⟩]

/-- src/table_i8086.cpp:507-509 -/
def TABLE_8F : List Row := [
  ⟨0x0, ['P', 'O', 'P'], ["E1", "SZ_NONE", "M_WMOD", "P_OMOD"]⟩]

/-- src/table_i8086.cpp:511-513 -/
def INDEX_8F : List Nat := [
  0]

/-- src/table_i8086.cpp:515-517 -/
def TABLE_C6 : List Row := [
  ⟨0x0, ['M', 'O', 'V'], ["E2", "SZ_BYTE", "M_BMOD", "M_IMM", "P_OMOD", "P_OPR"]⟩]

/-- src/table_i8086.cpp:519-521 -/
def INDEX_C6 : List Nat := [
  0]

/-- src/table_i8086.cpp:523-525 -/
def TABLE_C7 : List Row := [
  ⟨0x0, ['M', 'O', 'V'], ["E2", "SZ_WORD", "M_WMOD", "M_IMM", "P_OMOD", "P_OPR"]⟩]

/-- src/table_i8086.cpp:527-529 -/
def INDEX_C7 : List Nat := [
  0]

/-- src/table_i8086.cpp:531-540 -/
def TABLE_D0 : List Row := [
  ⟨0x0, ['R', 'O', 'L'], ["E2", "SZ_BYTE", "M_BMOD", "M_VAL1", "P_OMOD", "P_NONE"]⟩,
  ⟨0x8, ['R', 'O', 'R'], ["E2", "SZ_BYTE", "M_BMOD", "M_VAL1", "P_OMOD", "P_NONE"]⟩,
  ⟨0x10, ['R', 'C', 'L'], ["E2", "SZ_BYTE", "M_BMOD", "M_VAL1", "P_OMOD", "P_NONE"]⟩,
  ⟨0x18, ['R', 'C', 'R'], ["E2", "SZ_BYTE", "M_BMOD", "M_VAL1", "P_OMOD", "P_NONE"]⟩,
  ⟨0x20, ['S', 'H', 'L'], ["E2", "SZ_BYTE", "M_BMOD", "M_VAL1", "P_OMOD", "P_NONE"]⟩,
  ⟨0x20, ['S', 'A', 'L'], ["E2", "SZ_BYTE", "M_BMOD", "M_VAL1", "P_OMOD", "P_NONE"]⟩,
  ⟨0x28, ['S', 'H', 'R'], ["E2", "SZ_BYTE", "M_BMOD", "M_VAL1", "P_OMOD", "P_NONE"]⟩,
  ⟨0x38, ['S', 'A', 'R'], ["E2", "SZ_BYTE", "M_BMOD", "M_VAL1", "P_OMOD", "P_NONE"]⟩]

/-- src/table_i8086.cpp:542-551 -/
def INDEX_DX : List Nat := [
  2, 3, 0, 1, 5, 7, 4, 6]

/-- src/table_i8086.cpp:553-562 -/
def TABLE_D1 : List Row := [
  ⟨0x0, ['R', 'O', 'L'], ["E2", "SZ_WORD", "M_WMOD", "M_VAL1", "P_OMOD", "P_NONE"]⟩,
  ⟨0x8, ['R', 'O', 'R'], ["E2", "SZ_WORD", "M_WMOD", "M_VAL1", "P_OMOD", "P_NONE"]⟩,
  ⟨0x10, ['R', 'C', 'L'], ["E2", "SZ_WORD", "M_WMOD", "M_VAL1", "P_OMOD", "P_NONE"]⟩,
  ⟨0x18, ['R', 'C', 'R'], ["E2", "SZ_WORD", "M_WMOD", "M_VAL1", "P_OMOD", "P_NONE"]⟩,
  ⟨0x20, ['S', 'H', 'L'], ["E2", "SZ_WORD", "M_WMOD", "M_VAL1", "P_OMOD", "P_NONE"]⟩,
  ⟨0x20, ['S', 'A', 'L'], ["E2", "SZ_WORD", "M_WMOD", "M_VAL1", "P_OMOD", "P_NONE"]⟩,
  ⟨0x28, ['S', 'H', 'R'], ["E2", "SZ_WORD", "M_WMOD", "M_VAL1", "P_OMOD", "P_NONE"]⟩,
  ⟨0x38, ['S', 'A', 'R'], ["E2", "SZ_WORD", "M_WMOD", "M_VAL1", "P_OMOD", "P_NONE"]⟩]

/-- src/table_i8086.cpp:564-573 -/
def TABLE_D2 : List Row := [
  ⟨0x0, ['R', 'O', 'L'], ["E2", "SZ_BYTE", "M_BMOD", "M_CL", "P_OMOD", "P_NONE"]⟩,
  ⟨0x8, ['R', 'O', 'R'], ["E2", "SZ_BYTE", "M_BMOD", "M_CL", "P_OMOD", "P_NONE"]⟩,
  ⟨0x10, ['R', 'C', 'L'], ["E2", "SZ_BYTE", "M_BMOD", "M_CL", "P_OMOD", "P_NONE"]⟩,
  ⟨0x18, ['R', 'C', 'R'], ["E2", "SZ_BYTE", "M_BMOD", "M_CL", "P_OMOD", "P_NONE"]⟩,
  ⟨0x20, ['S', 'H', 'L'], ["E2", "SZ_BYTE", "M_BMOD", "M_CL", "P_OMOD", "P_NONE"]⟩,
  ⟨0x20, ['S', 'A', 'L'], ["E2", "SZ_BYTE", "M_BMOD", "M_CL", "P_OMOD", "P_NONE"]⟩,
  ⟨0x28, ['S', 'H', 'R'], ["E2", "SZ_BYTE", "M_BMOD", "M_CL", "P_OMOD", "P_NONE"]⟩,
  ⟨0x38, ['S', 'A', 'R'], ["E2", "SZ_BYTE", "M_BMOD", "M_CL", "P_OMOD", "P_NONE"]⟩]

/-- src/table_i8086.cpp:575-584 -/
def TABLE_D3 : List Row := [
  ⟨0x0, ['R', 'O', 'L'], ["E2", "SZ_WORD", "M_WMOD", "M_CL", "P_OMOD", "P_NONE"]⟩,
  ⟨0x8, ['R', 'O', 'R'], ["E2", "SZ_WORD", "M_WMOD", "M_CL", "P_OMOD", "P_NONE"]⟩,
  ⟨0x10, ['R', 'C', 'L'], ["E2", "SZ_WORD", "M_WMOD", "M_CL", "P_OMOD", "P_NONE"]⟩,
  ⟨0x18, ['R', 'C', 'R'], ["E2", "SZ_WORD", "M_WMOD", "M_CL", "P_OMOD", "P_NONE"]⟩,
  ⟨0x20, ['S', 'H', 'L'], ["E2", "SZ_WORD", "M_WMOD", "M_CL", "P_OMOD", "P_NONE"]⟩,
  ⟨0x20, ['S', 'A', 'L'], ["E2", "SZ_WORD", "M_WMOD", "M_CL", "P_OMOD", "P_NONE"]⟩,
  ⟨0x28, ['S', 'H', 'R'], ["E2", "SZ_WORD", "M_WMOD", "M_CL", "P_OMOD", "P_NONE"]⟩,
  ⟨0x38, ['S', 'A', 'R'], ["E2", "SZ_WORD", "M_WMOD", "M_CL", "P_OMOD", "P_NONE"]⟩]

/-- src/table_i8086.cpp:586-588 -/
def TABLE_D4 : List Row := [
  ⟨0xa, ['A', 'A', 'M'], ["E0", "SZ_BYTE"]⟩]

/-- src/table_i8086.cpp:590-592 -/
def INDEX_D4 : List Nat := [
  0]

/-- src/table_i8086.cpp:594-596 -/
def TABLE_D5 : List Row := [
  ⟨0xa, ['A', 'A', 'D'], ["E0", "SZ_BYTE"]⟩]

/-- src/table_i8086.cpp:598-600 -/
def INDEX_D5 : List Nat := [
  0]

/-- src/table_i8086.cpp:602-610 -/
def TABLE_F6 : List Row := [
  ⟨0x0, ['T', 'E', 'S', 'T'], ["E2", "SZ_BYTE", "M_BMOD", "M_IMM", "P_OMOD", "P_OPR"]⟩,
  ⟨0x10, ['N', 'O', 'T'], ["E1", "SZ_BYTE", "M_BMOD", "P_OMOD"]⟩,
  ⟨0x18, ['N', 'E', 'G'], ["E1", "SZ_BYTE", "M_BMOD", "P_OMOD"]⟩,
  ⟨0x20, ['M', 'U', 'L'], ["E1", "SZ_BYTE", "M_BMOD", "P_OMOD"]⟩,
  ⟨0x28, ['I', 'M', 'U', 'L'], ["E1", "SZ_BYTE", "M_BMOD", "P_OMOD"]⟩,
  ⟨0x30, ['D', 'I', 'V'], ["E1", "SZ_BYTE", "M_BMOD", "P_OMOD"]⟩,
  ⟨0x38, ['I', 'D', 'I', 'V'], ["E1", "SZ_BYTE", "M_BMOD", "P_OMOD"]⟩]

/-- src/table_i8086.cpp:612-620 -/
def INDEX_FX : List Nat := [
  5, 6, 4, 3, 2, 1, 0]

/-- src/table_i8086.cpp:622-630 -/
def TABLE_F7 : List Row := [
  ⟨0x0, ['T', 'E', 'S', 'T'], ["E2", "SZ_WORD", "M_WMOD", "M_IMM", "P_OMOD", "P_OPR"]⟩,
  ⟨0x10, ['N', 'O', 'T'], ["E1", "SZ_WORD", "M_WMOD", "P_OMOD"]⟩,
  ⟨0x18, ['N', 'E', 'G'], ["E1", "SZ_WORD", "M_WMOD", "P_OMOD"]⟩,
  ⟨0x20, ['M', 'U', 'L'], ["E1", "SZ_WORD", "M_WMOD", "P_OMOD"]⟩,
  ⟨0x28, ['I', 'M', 'U', 'L'], ["E1", "SZ_WORD", "M_WMOD", "P_OMOD"]⟩,
  ⟨0x30, ['D', 'I', 'V'], ["E1", "SZ_WORD", "M_WMOD", "P_OMOD"]⟩,
  ⟨0x38, ['I', 'D', 'I', 'V'], ["E1", "SZ_WORD", "M_WMOD", "P_OMOD"]⟩]

/-- src/table_i8086.cpp:632-635 -/
def TABLE_FE : List Row := [
  ⟨0x0, ['I', 'N', 'C'], ["E1", "SZ_BYTE", "M_BMOD", "P_OMOD"]⟩,
  ⟨0x8, ['D', 'E', 'C'], ["E1", "SZ_BYTE", "M_BMOD", "P_OMOD"]⟩]

/-- src/table_i8086.cpp:637-640 -/
def INDEX_FE : List Nat := [
  1, 0]

/-- src/table_i8086.cpp:642-650 -/
def TABLE_FF : List Row := [
  ⟨0x0, ['I', 'N', 'C'], ["E1", "SZ_WORD", "M_WMOD", "P_OMOD"]⟩,
  ⟨0x8, ['D', 'E', 'C'], ["E1", "SZ_WORD", "M_WMOD", "P_OMOD"]⟩,
  ⟨0x10, ['C', 'A', 'L', 'L'], ["E1", "SZ_NONE", "M_WMOD", "P_OMOD"]⟩,
  ⟨0x18, ['C', 'A', 'L', 'L', 'F'], ["E1", "SZ_NONE", "M_WMEM", "P_OMOD"]⟩,
  ⟨0x20, ['J', 'M', 'P'], ["E1", "SZ_NONE", "M_WMOD", "P_OMOD"]⟩,
  ⟨0x28, ['J', 'M', 'P', 'F'], ["E1", "SZ_NONE", "M_WMEM", "P_OMOD"]⟩,
  ⟨0x30, ['P', 'U', 'S', 'H'], ["E1", "SZ_NONE", "M_WMOD", "P_OMOD"]⟩]

/-- src/table_i8086.cpp:652-660 -/
def INDEX_FF : List Nat := [
  2, 3, 1, 0, 4, 5, 6]

/-- src/table_i8086.cpp:664-688 -/
def TABLE_I80186 : List Row := [
  ⟨0x60, ['P', 'U', 'S', 'H', 'A'], ["E0", "SZ_NONE"]⟩,
  ⟨0x61, ['P', 'O', 'P', 'A'], ["E0", "SZ_NONE"]⟩,
  ⟨0x62, ['B', 'O', 'U', 'N', 'D'], ["E2", "SZ_WORD", "M_WREG", "M_WMEM", "P_REG", "P_MOD"]⟩,
  ⟨0x6a, ['P', 'U', 'S', 'H'], ["E1", "SZ_BYTE", "M_IMM8", "P_OPR"]⟩,
  ⟨0x6b, ['I', 'M', 'U', 'L'], ["E3", "SZ_WORD", "M_WREG", "M_WMOD", "M_IMM8", "P_REG", "P_MOD", "P_OPR"]⟩,
  ⟨0x6b, ['I', 'M', 'U', 'L'], ["E2", "SZ_WORD", "M_WREG", "M_IMM8", "P_MREG", "P_OPR"]⟩,
  ⟨0x68, ['P', 'U', 'S', 'H'], ["E1", "SZ_WORD", "M_IMM", "P_OPR"]⟩,
  ⟨0x69, ['I', 'M', 'U', 'L'], ["E3", "SZ_WORD", "M_WREG", "M_WMOD", "M_IMM", "P_REG", "P_MOD", "P_OPR"]⟩,
  ⟨0x69, ['I', 'M', 'U', 'L'], ["E2", "SZ_WORD", "M_WREG", "M_IMM", "P_MREG", "P_OPR"]⟩,
  ⟨0x6c, ['I', 'N', 'S', 'B'], ["S0", "SZ_BYTE"]⟩,
  ⟨0x6c, ['I', 'N', 'S', 'B'], ["S2", "SZ_BYTE", "M_MEM", "M_DX"]⟩,
  ⟨0x6d, ['I', 'N', 'S', 'W'], ["S0", "SZ_WORD"]⟩,
  ⟨0x6d, ['I', 'N', 'S', 'W'], ["S2", "SZ_WORD", "M_MEM", "M_DX"]⟩,
  ⟨0x6c, ['I', 'N', 'S'], ["S2", "SZ_BYTE", "M_BMEM", "M_DX"]⟩,
  ⟨0x6d, ['I', 'N', 'S'], ["S2", "SZ_WORD", "M_WMEM", "M_DX"]⟩,
  ⟨0x6e, ['O', 'U', 'T', 'S', 'B'], ["S0", "SZ_BYTE"]⟩,
  ⟨0x6e, ['O', 'U', 'T', 'S', 'B'], ["S2", "SZ_BYTE", "M_DX", "M_BMEM"]⟩,
  ⟨0x6f, ['O', 'U', 'T', 'S', 'W'], ["S0", "SZ_WORD"]⟩,
  ⟨0x6f, ['O', 'U', 'T', 'S', 'W'], ["S2", "SZ_WORD", "M_DX", "M_WMEM"]⟩,
  ⟨0x6e, ['O', 'U', 'T', 'S'], ["S2", "SZ_BYTE", "M_DX", "M_BMEM"]⟩,
  ⟨0x6f, ['O', 'U', 'T', 'S'], ["S2", "SZ_WORD", "M_DX", "M_WMEM"]⟩,
  ⟨0xc8, ['E', 'N', 'T', 'E', 'R'], ["E2", "SZ_NONE", "M_UI16", "M_UI8", "P_OPR", "P_OPR"]⟩,
  ⟨0xc9, ['L', 'E', 'A', 'V', 'E'], ["E0", "SZ_NONE"]⟩]

/-- src/table_i8086.cpp:690-714 -/
def INDEX_I80186 : List Nat := [
  2, 21, 4, 5, 7, 8, 13, 14, 9, 10, 11, 12, 22, 19, 20, 15,
  16, 17, 18, 1, 3, 6, 0]

/-- src/table_i8086.cpp:716-725 -/
def TABLE_C0 : List Row := [
  ⟨0x0, ['R', 'O', 'L'], ["E2", "SZ_BYTE", "M_BMOD", "M_BIT", "P_OMOD", "P_OPR"]⟩,
  ⟨0x8, ['R', 'O', 'R'], ["E2", "SZ_BYTE", "M_BMOD", "M_BIT", "P_OMOD", "P_OPR"]⟩,
  ⟨0x10, ['R', 'C', 'L'], ["E2", "SZ_BYTE", "M_BMOD", "M_BIT", "P_OMOD", "P_OPR"]⟩,
  ⟨0x18, ['R', 'C', 'R'], ["E2", "SZ_BYTE", "M_BMOD", "M_BIT", "P_OMOD", "P_OPR"]⟩,
  ⟨0x20, ['S', 'H', 'L'], ["E2", "SZ_BYTE", "M_BMOD", "M_BIT", "P_OMOD", "P_OPR"]⟩,
  ⟨0x20, ['S', 'A', 'L'], ["E2", "SZ_BYTE", "M_BMOD", "M_BIT", "P_OMOD", "P_OPR"]⟩,
  ⟨0x28, ['S', 'H', 'R'], ["E2", "SZ_BYTE", "M_BMOD", "M_BIT", "P_OMOD", "P_OPR"]⟩,
  ⟨0x38, ['S', 'A', 'R'], ["E2", "SZ_BYTE", "M_BMOD", "M_BIT", "P_OMOD", "P_OPR"]⟩]

/-- src/table_i8086.cpp:727-736 -/
def INDEX_CX : List Nat := [
  2, 3, 0, 1, 5, 7, 4, 6]

/-- src/table_i8086.cpp:738-747 -/
def TABLE_C1 : List Row := [
  ⟨0x0, ['R', 'O', 'L'], ["E2", "SZ_WORD", "M_WMOD", "M_BIT", "P_OMOD", "P_OPR"]⟩,
  ⟨0x8, ['R', 'O', 'R'], ["E2", "SZ_WORD", "M_WMOD", "M_BIT", "P_OMOD", "P_OPR"]⟩,
  ⟨0x10, ['R', 'C', 'L'], ["E2", "SZ_WORD", "M_WMOD", "M_BIT", "P_OMOD", "P_OPR"]⟩,
  ⟨0x18, ['R', 'C', 'R'], ["E2", "SZ_WORD", "M_WMOD", "M_BIT", "P_OMOD", "P_OPR"]⟩,
  ⟨0x20, ['S', 'H', 'L'], ["E2", "SZ_WORD", "M_WMOD", "M_BIT", "P_OMOD", "P_OPR"]⟩,
  ⟨0x20, ['S', 'A', 'L'], ["E2", "SZ_WORD", "M_WMOD", "M_BIT", "P_OMOD", "P_OPR"]⟩,
  ⟨0x28, ['S', 'H', 'R'], ["E2", "SZ_WORD", "M_WMOD", "M_BIT", "P_OMOD", "P_OPR"]⟩,
  ⟨0x38, ['S', 'A', 'R'], ["E2", "SZ_WORD", "M_WMOD", "M_BIT", "P_OMOD", "P_OPR"]⟩]

/-- src/table_i8086.cpp:751-756 -/
def V30TABLE_00 : List Row := [
  ⟨0x64, ['R', 'E', 'P', 'N', 'C'], ["E1", "SZ_NONE", "M_ISTR", "P_OPR"]⟩,
  ⟨0x64, ['R', 'E', 'P', 'N', 'C'], ["E0", "SZ_NONE"]⟩,
  ⟨0x65, ['R', 'E', 'P', 'C'], ["E1", "SZ_NONE", "M_ISTR", "P_OPR"]⟩,
  ⟨0x65, ['R', 'E', 'P', 'C'], ["E0", "SZ_NONE"]⟩]

/-- src/table_i8086.cpp:758-763 -/
def V30INDEX_00 : List Nat := [
  2, 3, 0, 1]

/-- src/table_i8086.cpp:765-791 -/
def V30TABLE_0F : List Row := [
  ⟨0xff, ['B', 'R', 'K', 'E', 'M'], ["E1", "SZ_BYTE", "M_IMM", "P_OPR"]⟩,
  ⟨0x20, ['A', 'D', 'D', '4', 'S'], ["S0", "SZ_BYTE"]⟩,
  ⟨0x20, ['A', 'D', 'D', '4', 'S'], ["S2", "SZ_BYTE", "M_BMEM", "M_BMEM"]⟩,
  ⟨0x26, ['C', 'M', 'P', '4', 'S'], ["S0", "SZ_BYTE"]⟩,
  ⟨0x26, ['C', 'M', 'P', '4', 'S'], ["S2", "SZ_BYTE", "M_BMEM", "M_BMEM"]⟩,
  ⟨0x22, ['S', 'U', 'B', '4', 'S'], ["S0", "SZ_BYTE"]⟩,
  ⟨0x22, ['S', 'U', 'B', '4', 'S'], ["S2", "SZ_BYTE", "M_BMEM", "M_BMEM"]⟩,
  ⟨0x28, ['R', 'O', 'L', '4'], ["E1", "SZ_BYTE", "M_BMOD", "P_MOD"]⟩,
  ⟨0x2a, ['R', 'O', 'R', '4'], ["E1", "SZ_BYTE", "M_BMOD", "P_MOD"]⟩,
  ⟨0x31, ['I', 'N', 'S'], ["E2", "SZ_WORD", "M_BREG", "M_BREG", "P_MOD", "P_REG"]⟩,
  ⟨0x39, ['I', 'N', 'S'], ["E2", "SZ_WORD", "M_BREG", "M_BIT", "P_MOD", "P_OPR"]⟩,
  ⟨0x33, ['E', 'X', 'T'], ["E2", "SZ_WORD", "M_BREG", "M_BREG", "P_MOD", "P_REG"]⟩,
  ⟨0x3b, ['E', 'X', 'T'], ["E2", "SZ_WORD", "M_BREG", "M_BIT", "P_MOD", "P_OPR"]⟩,
  ⟨0x12, ['C', 'L', 'R', '1'], ["E2", "SZ_BYTE", "M_BMOD", "M_CL", "P_MOD", "P_NONE"]⟩,
  ⟨0x13, ['C', 'L', 'R', '1'], ["E2", "SZ_WORD", "M_WMOD", "M_CL", "P_MOD", "P_NONE"]⟩,
  ⟨0x1a, ['C', 'L', 'R', '1'], ["E2", "SZ_BYTE", "M_BMOD", "M_BIT", "P_MOD", "P_OPR"]⟩,
  ⟨0x1b, ['C', 'L', 'R', '1'], ["E2", "SZ_WORD", "M_WMOD", "M_BIT", "P_MOD", "P_OPR"]⟩,
  ⟨0x14, ['S', 'E', 'T', '1'], ["E2", "SZ_BYTE", "M_BMOD", "M_CL", "P_MOD", "P_NONE"]⟩,
  ⟨0x15, ['S', 'E', 'T', '1'], ["E2", "SZ_WORD", "M_WMOD", "M_CL", "P_MOD", "P_NONE"]⟩,
  ⟨0x1c, ['S', 'E', 'T', '1'], ["E2", "SZ_BYTE", "M_BMOD", "M_BIT", "P_MOD", "P_OPR"]⟩,
  ⟨0x1d, ['S', 'E', 'T', '1'], ["E2", "SZ_WORD", "M_WMOD", "M_BIT", "P_MOD", "P_OPR"]⟩,
  ⟨0x16, ['N', 'O', 'T', '1'], ["E2", "SZ_BYTE", "M_BMOD", "M_CL", "P_MOD", "P_NONE"]⟩,
  ⟨0x17, ['N', 'O', 'T', '1'], ["E2", "SZ_WORD", "M_WMOD", "M_CL", "P_MOD", "P_NONE"]⟩,
  ⟨0x1e, ['N', 'O', 'T', '1'], ["E2", "SZ_BYTE", "M_BMOD", "M_BIT", "P_MOD", "P_OPR"]⟩,
  ⟨0x1f, ['N', 'O', 'T', '1'], ["E2", "SZ_WORD", "M_WMOD", "M_BIT", "P_MOD", "P_OPR"]⟩]

/-- src/table_i8086.cpp:793-819 -/
def V30INDEX_0F : List Nat := [
  1, 2, 0, 13, 14, 15, 16, 3, 4, 11, 12, 9, 10, 21, 22, 23,
  24, 7, 8, 17, 18, 19, 20, 5, 6]

/-- src/table_i8086.cpp:822-839 -/
def TABLE_D8 : List Row := [
  ⟨0xc0, ['F', 'A', 'D', 'D'], ["F2", "SZ_NONE", "M_ST0", "M_STI", "P_NONE", "P_OREG"]⟩,
  ⟨0xc8, ['F', 'M', 'U', 'L'], ["F2", "SZ_NONE", "M_ST0", "M_STI", "P_NONE", "P_OREG"]⟩,
  ⟨0xd0, ['F', 'C', 'O', 'M'], ["F1", "SZ_NONE", "M_STI", "P_OREG"]⟩,
  ⟨0xd8, ['F', 'C', 'O', 'M', 'P'], ["F1", "SZ_NONE", "M_STI", "P_OREG"]⟩,
  ⟨0xe0, ['F', 'S', 'U', 'B'], ["F2", "SZ_NONE", "M_ST0", "M_STI", "P_NONE", "P_OREG"]⟩,
  ⟨0xe8, ['F', 'S', 'U', 'B', 'R'], ["F2", "SZ_NONE", "M_ST0", "M_STI", "P_NONE", "P_OREG"]⟩,
  ⟨0xf0, ['F', 'D', 'I', 'V'], ["F2", "SZ_NONE", "M_ST0", "M_STI", "P_NONE", "P_OREG"]⟩,
  ⟨0xf8, ['F', 'D', 'I', 'V', 'R'], ["F2", "SZ_NONE", "M_ST0", "M_STI", "P_NONE", "P_OREG"]⟩,
  ⟨0x0, ['F', 'A', 'D', 'D'], ["F1", "SZ_DWORD", "M_FMOD", "P_OMOD"]⟩,
  ⟨0x8, ['F', 'M', 'U', 'L'], ["F1", "SZ_DWORD", "M_FMOD", "P_OMOD"]⟩,
  ⟨0x10, ['F', 'C', 'O', 'M'], ["F1", "SZ_DWORD", "M_FMOD", "P_OMOD"]⟩,
  ⟨0x18, ['F', 'C', 'O', 'M', 'P'], ["F1", "SZ_DWORD", "M_FMOD", "P_OMOD"]⟩,
  ⟨0x20, ['F', 'S', 'U', 'B'], ["F1", "SZ_DWORD", "M_FMOD", "P_OMOD"]⟩,
  ⟨0x28, ['F', 'S', 'U', 'B', 'R'], ["F1", "SZ_DWORD", "M_FMOD", "P_OMOD"]⟩,
  ⟨0x30, ['F', 'D', 'I', 'V'], ["F1", "SZ_DWORD", "M_FMOD", "P_OMOD"]⟩,
  ⟨0x38, ['F', 'D', 'I', 'V', 'R'], ["F1", "SZ_DWORD", "M_FMOD", "P_OMOD"]⟩]

/-- src/table_i8086.cpp:841-858 -/
def INDEX_D8 : List Nat := [
  0, 8, 2, 10, 3, 11, 6, 14, 7, 15, 1, 9, 4, 12, 5, 13]

/-- src/table_i8086.cpp:860-894 -/
def TABLE_D9 : List Row := [
  ⟨0xc0, ['F', 'L', 'D'], ["F1", "SZ_NONE", "M_STI", "P_OREG"]⟩,
  ⟨0xc8, ['F', 'X', 'C', 'H'], ["F1", "SZ_NONE", "M_STI", "P_OREG"]⟩,
  ⟨0xd0, ['F', 'N', 'O', 'P'], ["F0", "SZ_NONE"]⟩,
  ⟨0xe0, ['F', 'C', 'H', 'S'], ["F0", "SZ_NONE"]⟩,
  ⟨0xe1, ['F', 'A', 'B', 'S'], ["F0", "SZ_NONE"]⟩,
  ⟨0xe4, ['F', 'T', 'S', 'T'], ["F0", "SZ_NONE"]⟩,
  ⟨0xe5, ['F', 'X', 'A', 'M'], ["F0", "SZ_NONE"]⟩,
  ⟨0xe8, ['F', 'L', 'D', '1'], ["F0", "SZ_NONE"]⟩,
  ⟨0xe9, ['F', 'L', 'D', 'L', '2', 'T'], ["F0", "SZ_NONE"]⟩,
  ⟨0xea, ['F', 'L', 'D', 'L', '2', 'E'], ["F0", "SZ_NONE"]⟩,
  ⟨0xeb, ['F', 'L', 'D', 'P', 'I'], ["F0", "SZ_NONE"]⟩,
  ⟨0xec, ['F', 'L', 'D', 'L', 'G', '2'], ["F0", "SZ_NONE"]⟩,
  ⟨0xed, ['F', 'L', 'D', 'L', 'N', '2'], ["F0", "SZ_NONE"]⟩,
  ⟨0xee, ['F', 'L', 'D', 'Z'], ["F0", "SZ_NONE"]⟩,
  ⟨0xf0, ['F', '2', 'X', 'M', '1'], ["F0", "SZ_NONE"]⟩,
  ⟨0xf1, ['F', 'Y', 'L', '2', 'X'], ["F0", "SZ_NONE"]⟩,
  ⟨0xf2, ['F', 'P', 'T', 'A', 'N'], ["F0", "SZ_NONE"]⟩,
  ⟨0xf3, ['F', 'P', 'A', 'T', 'A', 'N'], ["F0", "SZ_NONE"]⟩,
  ⟨0xf4, ['F', 'X', 'T', 'R', 'A', 'C', 'T'], ["F0", "SZ_NONE"]⟩,
  ⟨0xf6, ['F', 'D', 'E', 'C', 'S', 'T', 'P'], ["F0", "SZ_NONE"]⟩,
  ⟨0xf7, ['F', 'I', 'N', 'C', 'S', 'T', 'P'], ["F0", "SZ_NONE"]⟩,
  ⟨0xf8, ['F', 'P', 'R', 'E', 'M'], ["F0", "SZ_NONE"]⟩,
  ⟨0xf9, ['F', 'Y', 'L', '2', 'X', 'P', '1'], ["F0", "SZ_NONE"]⟩,
  ⟨0xfa, ['F', 'S', 'Q', 'R', 'T'], ["F0", "SZ_NONE"]⟩,
  ⟨0xfc, ['F', 'R', 'N', 'D', 'I', 'N', 'T'], ["F0", "SZ_NONE"]⟩,
  ⟨0xfd, ['F', 'S', 'C', 'A', 'L', 'E'], ["F0", "SZ_NONE"]⟩,
  ⟨0x0, ['F', 'L', 'D'], ["F1", "SZ_DWORD", "M_FMOD", "P_OMOD"]⟩,
  ⟨0x10, ['F', 'S', 'T'], ["F1", "SZ_DWORD", "M_FMOD", "P_OMOD"]⟩,
  ⟨0x18, ['F', 'S', 'T', 'P'], ["F1", "SZ_DWORD", "M_FMOD", "P_OMOD"]⟩,
  ⟨0x20, ['F', 'L', 'D', 'E', 'N', 'V'], ["F1", "SZ_NONE", "M_WMOD", "P_OMOD"]⟩,
  ⟨0x28, ['F', 'L', 'D', 'C', 'W'], ["F1", "SZ_NONE", "M_WMOD", "P_OMOD"]⟩,
  ⟨0x30, ['F', 'S', 'T', 'E', 'N', 'V'], ["F1", "SZ_NONE", "M_WMOD", "P_OMOD"]⟩,
  ⟨0x38, ['F', 'S', 'T', 'C', 'W'], ["F1", "SZ_NONE", "M_WMOD", "P_OMOD"]⟩]

/-- src/table_i8086.cpp:896-930 -/
def INDEX_D9 : List Nat := [
  14, 4, 3, 19, 20, 0, 26, 7, 30, 29, 9, 8, 11, 12, 10, 13,
  2, 17, 21, 16, 24, 25, 23, 27, 32, 31, 28, 5, 6, 1, 18, 15,
  22]

/-- src/table_i8086.cpp:932-941 -/
def TABLE_DA : List Row := [
  ⟨0x0, ['F', 'I', 'A', 'D', 'D'], ["F1", "SZ_DWORD", "M_FMOD", "P_OMOD"]⟩,
  ⟨0x8, ['F', 'I', 'M', 'U', 'L'], ["F1", "SZ_DWORD", "M_FMOD", "P_OMOD"]⟩,
  ⟨0x10, ['F', 'I', 'C', 'O', 'M'], ["F1", "SZ_DWORD", "M_FMOD", "P_OMOD"]⟩,
  ⟨0x18, ['F', 'I', 'C', 'O', 'M', 'P'], ["F1", "SZ_DWORD", "M_FMOD", "P_OMOD"]⟩,
  ⟨0x20, ['F', 'I', 'S', 'U', 'B'], ["F1", "SZ_DWORD", "M_FMOD", "P_OMOD"]⟩,
  ⟨0x28, ['F', 'I', 'S', 'U', 'B', 'R'], ["F1", "SZ_DWORD", "M_FMOD", "P_OMOD"]⟩,
  ⟨0x30, ['F', 'I', 'D', 'I', 'V'], ["F1", "SZ_DWORD", "M_FMOD", "P_OMOD"]⟩,
  ⟨0x38, ['F', 'I', 'D', 'I', 'V', 'R'], ["F1", "SZ_DWORD", "M_FMOD", "P_OMOD"]⟩]

/-- src/table_i8086.cpp:943-952 -/
def INDEX_DA : List Nat := [
  0, 2, 3, 6, 7, 1, 4, 5]

/-- src/table_i8086.cpp:954-964 -/
def TABLE_DB : List Row := [
  ⟨0xe0, ['F', 'E', 'N', 'I'], ["F0", "SZ_NONE"]⟩,
  ⟨0xe1, ['F', 'D', 'I', 'S', 'I'], ["F0", "SZ_NONE"]⟩,
  ⟨0xe2, ['F', 'C', 'L', 'E', 'X'], ["F0", "SZ_NONE"]⟩,
  ⟨0xe3, ['F', 'I', 'N', 'I', 'T'], ["F0", "SZ_NONE"]⟩,
  ⟨0x0, ['F', 'I', 'L', 'D'], ["F1", "SZ_DWORD", "M_FMOD", "P_OMOD"]⟩,
  ⟨0x10, ['F', 'I', 'S', 'T'], ["F1", "SZ_DWORD", "M_FMOD", "P_OMOD"]⟩,
  ⟨0x18, ['F', 'I', 'S', 'T', 'P'], ["F1", "SZ_DWORD", "M_FMOD", "P_OMOD"]⟩,
  ⟨0x28, ['F', 'L', 'D'], ["F1", "SZ_TBYTE", "M_FMOD", "P_OMOD"]⟩,
  ⟨0x38, ['F', 'S', 'T', 'P'], ["F1", "SZ_TBYTE", "M_FMOD", "P_OMOD"]⟩]

/-- src/table_i8086.cpp:966-976 -/
def INDEX_DB : List Nat := [
  2, 1, 0, 4, 3, 5, 6, 7, 8]

/-- src/table_i8086.cpp:978-993 -/
def TABLE_DC : List Row := [
  ⟨0xc0, ['F', 'A', 'D', 'D'], ["F2", "SZ_NONE", "M_STI", "M_ST0", "P_OREG", "P_NONE"]⟩,
  ⟨0xc8, ['F', 'M', 'U', 'L'], ["F2", "SZ_NONE", "M_STI", "M_ST0", "P_OREG", "P_NONE"]⟩,
  ⟨0xe8, ['F', 'S', 'U', 'B'], ["F2", "SZ_NONE", "M_STI", "M_ST0", "P_OREG", "P_NONE"]⟩,
  ⟨0xe0, ['F', 'S', 'U', 'B', 'R'], ["F2", "SZ_NONE", "M_STI", "M_ST0", "P_OREG", "P_NONE"]⟩,
  ⟨0xf8, ['F', 'D', 'I', 'V'], ["F2", "SZ_NONE", "M_STI", "M_ST0", "P_OREG", "P_NONE"]⟩,
  ⟨0xf0, ['F', 'D', 'I', 'V', 'R'], ["F2", "SZ_NONE", "M_STI", "M_ST0", "P_OREG", "P_NONE"]⟩,
  ⟨0x0, ['F', 'A', 'D', 'D'], ["F1", "SZ_QWORD", "M_FMOD", "P_OMOD"]⟩,
  ⟨0x8, ['F', 'M', 'U', 'L'], ["F1", "SZ_QWORD", "M_FMOD", "P_OMOD"]⟩,
  ⟨0x10, ['F', 'C', 'O', 'M'], ["F1", "SZ_QWORD", "M_FMOD", "P_OMOD"]⟩,
  ⟨0x18, ['F', 'C', 'O', 'M', 'P'], ["F1", "SZ_QWORD", "M_FMOD", "P_OMOD"]⟩,
  ⟨0x20, ['F', 'S', 'U', 'B'], ["F1", "SZ_QWORD", "M_FMOD", "P_OMOD"]⟩,
  ⟨0x28, ['F', 'S', 'U', 'B', 'R'], ["F1", "SZ_QWORD", "M_FMOD", "P_OMOD"]⟩,
  ⟨0x30, ['F', 'D', 'I', 'V'], ["F1", "SZ_QWORD", "M_FMOD", "P_OMOD"]⟩,
  ⟨0x38, ['F', 'D', 'I', 'V', 'R'], ["F1", "SZ_QWORD", "M_FMOD", "P_OMOD"]⟩]

/-- src/table_i8086.cpp:995-1010 -/
def INDEX_DC : List Nat := [
  0, 6, 8, 9, 4, 12, 5, 13, 1, 7, 2, 10, 3, 11]

/-- src/table_i8086.cpp:1012-1022 -/
def TABLE_DD : List Row := [
  ⟨0xc0, ['F', 'F', 'R', 'E', 'E'], ["F1", "SZ_NONE", "M_STI", "P_OREG"]⟩,
  ⟨0xd0, ['F', 'S', 'T'], ["F1", "SZ_NONE", "M_STI", "P_OREG"]⟩,
  ⟨0xd8, ['F', 'S', 'T', 'P'], ["F1", "SZ_NONE", "M_STI", "P_OREG"]⟩,
  ⟨0x0, ['F', 'L', 'D'], ["F1", "SZ_QWORD", "M_FMOD", "P_OMOD"]⟩,
  ⟨0x10, ['F', 'S', 'T'], ["F1", "SZ_QWORD", "M_FMOD", "P_OMOD"]⟩,
  ⟨0x18, ['F', 'S', 'T', 'P'], ["F1", "SZ_QWORD", "M_FMOD", "P_OMOD"]⟩,
  ⟨0x20, ['F', 'R', 'S', 'T', 'O', 'R'], ["F1", "SZ_NONE", "M_WMOD", "P_OMOD"]⟩,
  ⟨0x30, ['F', 'S', 'A', 'V', 'E'], ["F1", "SZ_NONE", "M_WMOD", "P_OMOD"]⟩,
  ⟨0x38, ['F', 'S', 'T', 'S', 'W'], ["F1", "SZ_NONE", "M_WMOD", "P_OMOD"]⟩]

/-- src/table_i8086.cpp:1024-1034 -/
def INDEX_DD : List Nat := [
  0, 3, 6, 7, 1, 4, 2, 5, 8]

/-- src/table_i8086.cpp:1036-1052 -/
def TABLE_DE : List Row := [
  ⟨0xc0, ['F', 'A', 'D', 'D', 'P'], ["F2", "SZ_NONE", "M_STI", "M_ST0", "P_OREG", "P_NONE"]⟩,
  ⟨0xc8, ['F', 'M', 'U', 'L', 'P'], ["F2", "SZ_NONE", "M_STI", "M_ST0", "P_OREG", "P_NONE"]⟩,
  ⟨0xd9, ['F', 'C', 'O', 'M', 'P', 'P'], ["F0", "SZ_NONE"]⟩,
  ⟨0xe0, ['F', 'S', 'U', 'B', 'R', 'P'], ["F2", "SZ_NONE", "M_STI", "M_ST0", "P_OREG", "P_NONE"]⟩,
  ⟨0xe8, ['F', 'S', 'U', 'B', 'P'], ["F2", "SZ_NONE", "M_STI", "M_ST0", "P_OREG", "P_NONE"]⟩,
  ⟨0xf0, ['F', 'D', 'I', 'V', 'R', 'P'], ["F2", "SZ_NONE", "M_STI", "M_ST0", "P_OREG", "P_NONE"]⟩,
  ⟨0xf8, ['F', 'D', 'I', 'V', 'P'], ["F2", "SZ_NONE", "M_STI", "M_ST0", "P_OREG", "P_NONE"]⟩,
  ⟨0x0, ['F', 'I', 'A', 'D', 'D'], ["F1", "SZ_WORD", "M_WMOD", "P_OMOD"]⟩,
  ⟨0x8, ['F', 'I', 'M', 'U', 'L'], ["F1", "SZ_WORD", "M_WMOD", "P_OMOD"]⟩,
  ⟨0x10, ['F', 'I', 'C', 'O', 'M'], ["F1", "SZ_WORD", "M_WMOD", "P_OMOD"]⟩,
  ⟨0x18, ['F', 'I', 'C', 'O', 'M', 'P'], ["F1", "SZ_WORD", "M_WMOD", "P_OMOD"]⟩,
  ⟨0x20, ['F', 'I', 'S', 'U', 'B'], ["F1", "SZ_WORD", "M_WMOD", "P_OMOD"]⟩,
  ⟨0x28, ['F', 'I', 'S', 'U', 'B', 'R'], ["F1", "SZ_WORD", "M_WMOD", "P_OMOD"]⟩,
  ⟨0x30, ['F', 'I', 'D', 'I', 'V'], ["F1", "SZ_WORD", "M_WMOD", "P_OMOD"]⟩,
  ⟨0x38, ['F', 'I', 'D', 'I', 'V', 'R'], ["F1", "SZ_WORD", "M_WMOD", "P_OMOD"]⟩]

/-- src/table_i8086.cpp:1054-1070 -/
def INDEX_DE : List Nat := [
  0, 2, 6, 5, 7, 9, 10, 13, 14, 8, 11, 12, 1, 4, 3]

/-- src/table_i8086.cpp:1072-1080 -/
def TABLE_DF : List Row := [
  ⟨0x0, ['F', 'I', 'L', 'D'], ["F1", "SZ_WORD", "M_WMOD", "P_OMOD"]⟩,
  ⟨0x10, ['F', 'I', 'S', 'T'], ["F1", "SZ_WORD", "M_WMOD", "P_OMOD"]⟩,
  ⟨0x18, ['F', 'I', 'S', 'T', 'P'], ["F1", "SZ_WORD", "M_WMOD", "P_OMOD"]⟩,
  ⟨0x20, ['F', 'B', 'L', 'D'], ["F1", "SZ_TBYTE", "M_FMOD", "P_OMOD"]⟩,
  ⟨0x28, ['F', 'I', 'L', 'D'], ["F1", "SZ_QWORD", "M_FMOD", "P_OMOD"]⟩,
  ⟨0x30, ['F', 'B', 'S', 'T', 'P'], ["F1", "SZ_TBYTE", "M_FMOD", "P_OMOD"]⟩,
  ⟨0x38, ['F', 'I', 'S', 'T', 'P'], ["F1", "SZ_QWORD", "M_FMOD", "P_OMOD"]⟩]

/-- src/table_i8086.cpp:1082-1090 -/
def INDEX_DF : List Nat := [
  3, 5, 0, 4, 1, 2, 6]

/-- src/table_i8086.cpp:1092-1094 -/
def TABLE_FPU : List Row := [
  ⟨0x9b, ['F', 'W', 'A', 'I', 'T'], ["E0", "SZ_NONE"]⟩]

/-- src/table_i8086.cpp:1096-1098 -/
def INDEX_FPU : List Nat := [
  0]

/-- src/table_i8086.cpp:1106-1124 -/
def I8086_PAGES : List (Page Row) := [
  ⟨0x0, [], TABLE_00, INDEX_00⟩,
  ⟨0x80, [], TABLE_80, INDEX_8X⟩,
  ⟨0x83, [], TABLE_83, INDEX_8X⟩,
  ⟨0x81, [], TABLE_81, INDEX_8X⟩,
  ⟨0x8f, [], TABLE_8F, INDEX_8F⟩,
  ⟨0xc6, [], TABLE_C6, INDEX_C6⟩,
  ⟨0xc7, [], TABLE_C7, INDEX_C7⟩,
  ⟨0xd0, [], TABLE_D0, INDEX_DX⟩,
  ⟨0xd1, [], TABLE_D1, INDEX_DX⟩,
  ⟨0xd2, [], TABLE_D2, INDEX_DX⟩,
  ⟨0xd3, [], TABLE_D3, INDEX_DX⟩,
  ⟨0xd4, [], TABLE_D4, INDEX_D4⟩,
  ⟨0xd5, [], TABLE_D5, INDEX_D5⟩,
  ⟨0xf6, [], TABLE_F6, INDEX_FX⟩,
  ⟨0xf7, [], TABLE_F7, INDEX_FX⟩,
  ⟨0xfe, [], TABLE_FE, INDEX_FE⟩,
  ⟨0xff, [], TABLE_FF, INDEX_FF⟩]

/-- src/table_i8086.cpp:1126-1149 -/
def I80186_PAGES : List (Page Row) := [
  ⟨0x0, [], TABLE_I80186, INDEX_I80186⟩,
  ⟨0xd0, [], TABLE_D0, INDEX_DX⟩,
  ⟨0xd1, [], TABLE_D1, INDEX_DX⟩,
  ⟨0xc0, [], TABLE_C0, INDEX_CX⟩,
  ⟨0xc1, [], TABLE_C1, INDEX_CX⟩,
  ⟨0x0, [], TABLE_00, INDEX_00⟩,
  ⟨0x80, [], TABLE_80, INDEX_8X⟩,
  ⟨0x83, [], TABLE_83, INDEX_8X⟩,
  ⟨0x81, [], TABLE_81, INDEX_8X⟩,
  ⟨0x8f, [], TABLE_8F, INDEX_8F⟩,
  ⟨0xc6, [], TABLE_C6, INDEX_C6⟩,
  ⟨0xc7, [], TABLE_C7, INDEX_C7⟩,
  ⟨0xd2, [], TABLE_D2, INDEX_DX⟩,
  ⟨0xd3, [], TABLE_D3, INDEX_DX⟩,
  ⟨0xd4, [], TABLE_D4, INDEX_D4⟩,
  ⟨0xd5, [], TABLE_D5, INDEX_D5⟩,
  ⟨0xf6, [], TABLE_F6, INDEX_FX⟩,
  ⟨0xf7, [], TABLE_F7, INDEX_FX⟩,
  ⟨0xfe, [], TABLE_FE, INDEX_FE⟩,
  ⟨0xff, [], TABLE_FF, INDEX_FF⟩]

/-- src/table_i8086.cpp:1151-1177 -/
def V30_PAGES : List (Page Row) := [
  ⟨0x0, [], V30TABLE_00, V30INDEX_00⟩,
  ⟨0xf, [], V30TABLE_0F, V30INDEX_0F⟩,
  ⟨0x0, [], TABLE_I80186, INDEX_I80186⟩,
  ⟨0xd0, [], TABLE_D0, INDEX_DX⟩,
  ⟨0xd1, [], TABLE_D1, INDEX_DX⟩,
  ⟨0xc0, [], TABLE_C0, INDEX_CX⟩,
  ⟨0xc1, [], TABLE_C1, INDEX_CX⟩,
  ⟨0x0, [], TABLE_00, INDEX_00⟩,
  ⟨0x80, [], TABLE_80, INDEX_8X⟩,
  ⟨0x83, [], TABLE_83, INDEX_8X⟩,
  ⟨0x81, [], TABLE_81, INDEX_8X⟩,
  ⟨0x8f, [], TABLE_8F, INDEX_8F⟩,
  ⟨0xc6, [], TABLE_C6, INDEX_C6⟩,
  ⟨0xc7, [], TABLE_C7, INDEX_C7⟩,
  ⟨0xd2, [], TABLE_D2, INDEX_DX⟩,
  ⟨0xd3, [], TABLE_D3, INDEX_DX⟩,
  ⟨0xd4, [], TABLE_D4, INDEX_D4⟩,
  ⟨0xd5, [], TABLE_D5, INDEX_D5⟩,
  ⟨0xf6, [], TABLE_F6, INDEX_FX⟩,
  ⟨0xf7, [], TABLE_F7, INDEX_FX⟩,
  ⟨0xfe, [], TABLE_FE, INDEX_FE⟩,
  ⟨0xff, [], TABLE_FF, INDEX_FF⟩]

/-- src/table_i8086.cpp:1180-1190 -/
def I8087_PAGES : List (Page Row) := [
  ⟨0x0, [], TABLE_FPU, INDEX_FPU⟩,
  ⟨0xd8, [], TABLE_D8, INDEX_D8⟩,
  ⟨0xd9, [], TABLE_D9, INDEX_D9⟩,
  ⟨0xda, [], TABLE_DA, INDEX_DA⟩,
  ⟨0xdb, [], TABLE_DB, INDEX_DB⟩,
  ⟨0xdc, [], TABLE_DC, INDEX_DC⟩,
  ⟨0xdd, [], TABLE_DD, INDEX_DD⟩,
  ⟨0xde, [], TABLE_DE, INDEX_DE⟩,
  ⟨0xdf, [], TABLE_DF, INDEX_DF⟩]

/-- The processors of src/table_i8086.cpp: CPU_TABLE 1208-1212, FPU_TABLE 1221-1224 -/
def cpus : List Cpu := [
  ⟨['8', '0', '8', '6'], I8086_PAGES⟩,
  ⟨['8', '0', '1', '8', '6'], I80186_PAGES⟩,
  ⟨['V', '3', '0'], V30_PAGES⟩,
  ⟨['8', '0', '8', '7'], I8087_PAGES⟩,
  ⟨['n', 'o', 'n', 'e'], []⟩]

theorem TABLE_00_INDEX_00 (n : Nat) (x : List String) : PageOk ⟨n, x, TABLE_00, INDEX_00⟩ :=
  pageB_sound ⟨n, x, TABLE_00, INDEX_00⟩ (show pageB ⟨0, [], TABLE_00, INDEX_00⟩ = true by decide +kernel)

theorem TABLE_80_INDEX_8X (n : Nat) (x : List String) : PageOk ⟨n, x, TABLE_80, INDEX_8X⟩ :=
  pageB_sound ⟨n, x, TABLE_80, INDEX_8X⟩ (show pageB ⟨0, [], TABLE_80, INDEX_8X⟩ = true by decide +kernel)

theorem TABLE_83_INDEX_8X (n : Nat) (x : List String) : PageOk ⟨n, x, TABLE_83, INDEX_8X⟩ :=
  pageB_sound ⟨n, x, TABLE_83, INDEX_8X⟩ (show pageB ⟨0, [], TABLE_83, INDEX_8X⟩ = true by decide +kernel)

theorem TABLE_81_INDEX_8X (n : Nat) (x : List String) : PageOk ⟨n, x, TABLE_81, INDEX_8X⟩ :=
  pageB_sound ⟨n, x, TABLE_81, INDEX_8X⟩ (show pageB ⟨0, [], TABLE_81, INDEX_8X⟩ = true by decide +kernel)

theorem TABLE_8F_INDEX_8F (n : Nat) (x : List String) : PageOk ⟨n, x, TABLE_8F, INDEX_8F⟩ :=
  pageB_sound ⟨n, x, TABLE_8F, INDEX_8F⟩ (show pageB ⟨0, [], TABLE_8F, INDEX_8F⟩ = true by decide +kernel)

theorem TABLE_C6_INDEX_C6 (n : Nat) (x : List String) : PageOk ⟨n, x, TABLE_C6, INDEX_C6⟩ :=
  pageB_sound ⟨n, x, TABLE_C6, INDEX_C6⟩ (show pageB ⟨0, [], TABLE_C6, INDEX_C6⟩ = true by decide +kernel)

theorem TABLE_C7_INDEX_C7 (n : Nat) (x : List String) : PageOk ⟨n, x, TABLE_C7, INDEX_C7⟩ :=
  pageB_sound ⟨n, x, TABLE_C7, INDEX_C7⟩ (show pageB ⟨0, [], TABLE_C7, INDEX_C7⟩ = true by decide +kernel)

theorem TABLE_D0_INDEX_DX (n : Nat) (x : List String) : PageOk ⟨n, x, TABLE_D0, INDEX_DX⟩ :=
  pageB_sound ⟨n, x, TABLE_D0, INDEX_DX⟩ (show pageB ⟨0, [], TABLE_D0, INDEX_DX⟩ = true by decide +kernel)

theorem TABLE_D1_INDEX_DX (n : Nat) (x : List String) : PageOk ⟨n, x, TABLE_D1, INDEX_DX⟩ :=
  pageB_sound ⟨n, x, TABLE_D1, INDEX_DX⟩ (show pageB ⟨0, [], TABLE_D1, INDEX_DX⟩ = true by decide +kernel)

theorem TABLE_D2_INDEX_DX (n : Nat) (x : List String) : PageOk ⟨n, x, TABLE_D2, INDEX_DX⟩ :=
  pageB_sound ⟨n, x, TABLE_D2, INDEX_DX⟩ (show pageB ⟨0, [], TABLE_D2, INDEX_DX⟩ = true by decide +kernel)

theorem TABLE_D3_INDEX_DX (n : Nat) (x : List String) : PageOk ⟨n, x, TABLE_D3, INDEX_DX⟩ :=
  pageB_sound ⟨n, x, TABLE_D3, INDEX_DX⟩ (show pageB ⟨0, [], TABLE_D3, INDEX_DX⟩ = true by decide +kernel)

theorem TABLE_D4_INDEX_D4 (n : Nat) (x : List String) : PageOk ⟨n, x, TABLE_D4, INDEX_D4⟩ :=
  pageB_sound ⟨n, x, TABLE_D4, INDEX_D4⟩ (show pageB ⟨0, [], TABLE_D4, INDEX_D4⟩ = true by decide +kernel)

theorem TABLE_D5_INDEX_D5 (n : Nat) (x : List String) : PageOk ⟨n, x, TABLE_D5, INDEX_D5⟩ :=
  pageB_sound ⟨n, x, TABLE_D5, INDEX_D5⟩ (show pageB ⟨0, [], TABLE_D5, INDEX_D5⟩ = true by decide +kernel)

theorem TABLE_F6_INDEX_FX (n : Nat) (x : List String) : PageOk ⟨n, x, TABLE_F6, INDEX_FX⟩ :=
  pageB_sound ⟨n, x, TABLE_F6, INDEX_FX⟩ (show pageB ⟨0, [], TABLE_F6, INDEX_FX⟩ = true by decide +kernel)

theorem TABLE_F7_INDEX_FX (n : Nat) (x : List String) : PageOk ⟨n, x, TABLE_F7, INDEX_FX⟩ :=
  pageB_sound ⟨n, x, TABLE_F7, INDEX_FX⟩ (show pageB ⟨0, [], TABLE_F7, INDEX_FX⟩ = true by decide +kernel)

theorem TABLE_FE_INDEX_FE (n : Nat) (x : List String) : PageOk ⟨n, x, TABLE_FE, INDEX_FE⟩ :=
  pageB_sound ⟨n, x, TABLE_FE, INDEX_FE⟩ (show pageB ⟨0, [], TABLE_FE, INDEX_FE⟩ = true by decide +kernel)

theorem TABLE_FF_INDEX_FF (n : Nat) (x : List String) : PageOk ⟨n, x, TABLE_FF, INDEX_FF⟩ :=
  pageB_sound ⟨n, x, TABLE_FF, INDEX_FF⟩ (show pageB ⟨0, [], TABLE_FF, INDEX_FF⟩ = true by decide +kernel)

theorem TABLE_I80186_INDEX_I80186 (n : Nat) (x : List String) : PageOk ⟨n, x, TABLE_I80186, INDEX_I80186⟩ :=
  pageB_sound ⟨n, x, TABLE_I80186, INDEX_I80186⟩ (show pageB ⟨0, [], TABLE_I80186, INDEX_I80186⟩ = true by decide +kernel)

theorem TABLE_C0_INDEX_CX (n : Nat) (x : List String) : PageOk ⟨n, x, TABLE_C0, INDEX_CX⟩ :=
  pageB_sound ⟨n, x, TABLE_C0, INDEX_CX⟩ (show pageB ⟨0, [], TABLE_C0, INDEX_CX⟩ = true by decide +kernel)

theorem TABLE_C1_INDEX_CX (n : Nat) (x : List String) : PageOk ⟨n, x, TABLE_C1, INDEX_CX⟩ :=
  pageB_sound ⟨n, x, TABLE_C1, INDEX_CX⟩ (show pageB ⟨0, [], TABLE_C1, INDEX_CX⟩ = true by decide +kernel)

theorem V30TABLE_00_V30INDEX_00 (n : Nat) (x : List String) : PageOk ⟨n, x, V30TABLE_00, V30INDEX_00⟩ :=
  pageB_sound ⟨n, x, V30TABLE_00, V30INDEX_00⟩ (show pageB ⟨0, [], V30TABLE_00, V30INDEX_00⟩ = true by decide +kernel)

theorem V30TABLE_0F_V30INDEX_0F (n : Nat) (x : List String) : PageOk ⟨n, x, V30TABLE_0F, V30INDEX_0F⟩ :=
  pageB_sound ⟨n, x, V30TABLE_0F, V30INDEX_0F⟩ (show pageB ⟨0, [], V30TABLE_0F, V30INDEX_0F⟩ = true by decide +kernel)

theorem TABLE_FPU_INDEX_FPU (n : Nat) (x : List String) : PageOk ⟨n, x, TABLE_FPU, INDEX_FPU⟩ :=
  pageB_sound ⟨n, x, TABLE_FPU, INDEX_FPU⟩ (show pageB ⟨0, [], TABLE_FPU, INDEX_FPU⟩ = true by decide +kernel)

theorem TABLE_D8_INDEX_D8 (n : Nat) (x : List String) : PageOk ⟨n, x, TABLE_D8, INDEX_D8⟩ :=
  pageB_sound ⟨n, x, TABLE_D8, INDEX_D8⟩ (show pageB ⟨0, [], TABLE_D8, INDEX_D8⟩ = true by decide +kernel)

theorem TABLE_D9_INDEX_D9 (n : Nat) (x : List String) : PageOk ⟨n, x, TABLE_D9, INDEX_D9⟩ :=
  pageB_sound ⟨n, x, TABLE_D9, INDEX_D9⟩ (show pageB ⟨0, [], TABLE_D9, INDEX_D9⟩ = true by decide +kernel)

theorem TABLE_DA_INDEX_DA (n : Nat) (x : List String) : PageOk ⟨n, x, TABLE_DA, INDEX_DA⟩ :=
  pageB_sound ⟨n, x, TABLE_DA, INDEX_DA⟩ (show pageB ⟨0, [], TABLE_DA, INDEX_DA⟩ = true by decide +kernel)

theorem TABLE_DB_INDEX_DB (n : Nat) (x : List String) : PageOk ⟨n, x, TABLE_DB, INDEX_DB⟩ :=
  pageB_sound ⟨n, x, TABLE_DB, INDEX_DB⟩ (show pageB ⟨0, [], TABLE_DB, INDEX_DB⟩ = true by decide +kernel)

theorem TABLE_DC_INDEX_DC (n : Nat) (x : List String) : PageOk ⟨n, x, TABLE_DC, INDEX_DC⟩ :=
  pageB_sound ⟨n, x, TABLE_DC, INDEX_DC⟩ (show pageB ⟨0, [], TABLE_DC, INDEX_DC⟩ = true by decide +kernel)

theorem TABLE_DD_INDEX_DD (n : Nat) (x : List String) : PageOk ⟨n, x, TABLE_DD, INDEX_DD⟩ :=
  pageB_sound ⟨n, x, TABLE_DD, INDEX_DD⟩ (show pageB ⟨0, [], TABLE_DD, INDEX_DD⟩ = true by decide +kernel)

theorem TABLE_DE_INDEX_DE (n : Nat) (x : List String) : PageOk ⟨n, x, TABLE_DE, INDEX_DE⟩ :=
  pageB_sound ⟨n, x, TABLE_DE, INDEX_DE⟩ (show pageB ⟨0, [], TABLE_DE, INDEX_DE⟩ = true by decide +kernel)

theorem TABLE_DF_INDEX_DF (n : Nat) (x : List String) : PageOk ⟨n, x, TABLE_DF, INDEX_DF⟩ :=
  pageB_sound ⟨n, x, TABLE_DF, INDEX_DF⟩ (show pageB ⟨0, [], TABLE_DF, INDEX_DF⟩ = true by decide +kernel)

theorem I8086_PAGES_ok : ∀ p ∈ I8086_PAGES, PageOk p :=
  List.forall_mem_cons.mpr <| And.intro (TABLE_00_INDEX_00 _ _) <| List.forall_mem_cons.mpr <| And.intro (TABLE_80_INDEX_8X _ _) <| List.forall_mem_cons.mpr <| And.intro (TABLE_83_INDEX_8X _ _) <| List.forall_mem_cons.mpr <| And.intro (TABLE_81_INDEX_8X _ _) <| List.forall_mem_cons.mpr <| And.intro (TABLE_8F_INDEX_8F _ _) <| List.forall_mem_cons.mpr <| And.intro (TABLE_C6_INDEX_C6 _ _) <| List.forall_mem_cons.mpr <| And.intro (TABLE_C7_INDEX_C7 _ _) <| List.forall_mem_cons.mpr <| And.intro (TABLE_D0_INDEX_DX _ _) <| List.forall_mem_cons.mpr <| And.intro (TABLE_D1_INDEX_DX _ _) <| List.forall_mem_cons.mpr <| And.intro (TABLE_D2_INDEX_DX _ _) <| List.forall_mem_cons.mpr <| And.intro (TABLE_D3_INDEX_DX _ _) <| List.forall_mem_cons.mpr <| And.intro (TABLE_D4_INDEX_D4 _ _) <| List.forall_mem_cons.mpr <| And.intro (TABLE_D5_INDEX_D5 _ _) <| List.forall_mem_cons.mpr <| And.intro (TABLE_F6_INDEX_FX _ _) <| List.forall_mem_cons.mpr <| And.intro (TABLE_F7_INDEX_FX _ _) <| List.forall_mem_cons.mpr <| And.intro (TABLE_FE_INDEX_FE _ _) <| List.forall_mem_cons.mpr <| And.intro (TABLE_FF_INDEX_FF _ _) nofun

theorem I80186_PAGES_ok : ∀ p ∈ I80186_PAGES, PageOk p :=
  List.forall_mem_cons.mpr <| And.intro (TABLE_I80186_INDEX_I80186 _ _) <| List.forall_mem_cons.mpr <| And.intro (TABLE_D0_INDEX_DX _ _) <| List.forall_mem_cons.mpr <| And.intro (TABLE_D1_INDEX_DX _ _) <| List.forall_mem_cons.mpr <| And.intro (TABLE_C0_INDEX_CX _ _) <| List.forall_mem_cons.mpr <| And.intro (TABLE_C1_INDEX_CX _ _) <| List.forall_mem_cons.mpr <| And.intro (TABLE_00_INDEX_00 _ _) <| List.forall_mem_cons.mpr <| And.intro (TABLE_80_INDEX_8X _ _) <| List.forall_mem_cons.mpr <| And.intro (TABLE_83_INDEX_8X _ _) <| List.forall_mem_cons.mpr <| And.intro (TABLE_81_INDEX_8X _ _) <| List.forall_mem_cons.mpr <| And.intro (TABLE_8F_INDEX_8F _ _) <| List.forall_mem_cons.mpr <| And.intro (TABLE_C6_INDEX_C6 _ _) <| List.forall_mem_cons.mpr <| And.intro (TABLE_C7_INDEX_C7 _ _) <| List.forall_mem_cons.mpr <| And.intro (TABLE_D2_INDEX_DX _ _) <| List.forall_mem_cons.mpr <| And.intro (TABLE_D3_INDEX_DX _ _) <| List.forall_mem_cons.mpr <| And.intro (TABLE_D4_INDEX_D4 _ _) <| List.forall_mem_cons.mpr <| And.intro (TABLE_D5_INDEX_D5 _ _) <| List.forall_mem_cons.mpr <| And.intro (TABLE_F6_INDEX_FX _ _) <| List.forall_mem_cons.mpr <| And.intro (TABLE_F7_INDEX_FX _ _) <| List.forall_mem_cons.mpr <| And.intro (TABLE_FE_INDEX_FE _ _) <| List.forall_mem_cons.mpr <| And.intro (TABLE_FF_INDEX_FF _ _) nofun

theorem V30_PAGES_ok : ∀ p ∈ V30_PAGES, PageOk p :=
  List.forall_mem_cons.mpr <| And.intro (V30TABLE_00_V30INDEX_00 _ _) <| List.forall_mem_cons.mpr <| And.intro (V30TABLE_0F_V30INDEX_0F _ _) <| List.forall_mem_cons.mpr <| And.intro (TABLE_I80186_INDEX_I80186 _ _) <| List.forall_mem_cons.mpr <| And.intro (TABLE_D0_INDEX_DX _ _) <| List.forall_mem_cons.mpr <| And.intro (TABLE_D1_INDEX_DX _ _) <| List.forall_mem_cons.mpr <| And.intro (TABLE_C0_INDEX_CX _ _) <| List.forall_mem_cons.mpr <| And.intro (TABLE_C1_INDEX_CX _ _) <| List.forall_mem_cons.mpr <| And.intro (TABLE_00_INDEX_00 _ _) <| List.forall_mem_cons.mpr <| And.intro (TABLE_80_INDEX_8X _ _) <| List.forall_mem_cons.mpr <| And.intro (TABLE_83_INDEX_8X _ _) <| List.forall_mem_cons.mpr <| And.intro (TABLE_81_INDEX_8X _ _) <| List.forall_mem_cons.mpr <| And.intro (TABLE_8F_INDEX_8F _ _) <| List.forall_mem_cons.mpr <| And.intro (TABLE_C6_INDEX_C6 _ _) <| List.forall_mem_cons.mpr <| And.intro (TABLE_C7_INDEX_C7 _ _) <| List.forall_mem_cons.mpr <| And.intro (TABLE_D2_INDEX_DX _ _) <| List.forall_mem_cons.mpr <| And.intro (TABLE_D3_INDEX_DX _ _) <| List.forall_mem_cons.mpr <| And.intro (TABLE_D4_INDEX_D4 _ _) <| List.forall_mem_cons.mpr <| And.intro (TABLE_D5_INDEX_D5 _ _) <| List.forall_mem_cons.mpr <| And.intro (TABLE_F6_INDEX_FX _ _) <| List.forall_mem_cons.mpr <| And.intro (TABLE_F7_INDEX_FX _ _) <| List.forall_mem_cons.mpr <| And.intro (TABLE_FE_INDEX_FE _ _) <| List.forall_mem_cons.mpr <| And.intro (TABLE_FF_INDEX_FF _ _) nofun

theorem I8087_PAGES_ok : ∀ p ∈ I8087_PAGES, PageOk p :=
  List.forall_mem_cons.mpr <| And.intro (TABLE_FPU_INDEX_FPU _ _) <| List.forall_mem_cons.mpr <| And.intro (TABLE_D8_INDEX_D8 _ _) <| List.forall_mem_cons.mpr <| And.intro (TABLE_D9_INDEX_D9 _ _) <| List.forall_mem_cons.mpr <| And.intro (TABLE_DA_INDEX_DA _ _) <| List.forall_mem_cons.mpr <| And.intro (TABLE_DB_INDEX_DB _ _) <| List.forall_mem_cons.mpr <| And.intro (TABLE_DC_INDEX_DC _ _) <| List.forall_mem_cons.mpr <| And.intro (TABLE_DD_INDEX_DD _ _) <| List.forall_mem_cons.mpr <| And.intro (TABLE_DE_INDEX_DE _ _) <| List.forall_mem_cons.mpr <| And.intro (TABLE_DF_INDEX_DF _ _) nofun

theorem cpus_ok : ∀ c ∈ cpus, ∀ p ∈ c.pages, PageOk p :=
  List.forall_mem_cons.mpr <| And.intro I8086_PAGES_ok <| List.forall_mem_cons.mpr <| And.intro I80186_PAGES_ok <| List.forall_mem_cons.mpr <| And.intro V30_PAGES_ok <| List.forall_mem_cons.mpr <| And.intro I8087_PAGES_ok <| List.forall_mem_cons.mpr <| And.intro nofun nofun

end Libasm.Tables.I8086
