import Verif.Tables.Row
/-
Generated by tools/gen_tables.py from src/table_z8000.cpp: names, codes, operands and indexes as written
there. Do not edit.
-/
namespace Libasm.Tables.Z8000
open Table

/-- src/table_z8000.cpp:42-275 -/
def TABLE_Z8000 : List Row := [
  ⟨0xc000, ['L', 'D', 'B'], ["E2", "CF_0FFF", "SZ_BYTE", "M_R", "M_IM8", "OP_C8", "OP_C0"]⟩,
  ⟨0xd000, ['C', 'A', 'L', 'R'], ["E1", "CF_0FFF", "SZ_NONE", "M_RA12", "OP_C0"]⟩,
  ⟨0xe000, ['J', 'R'], ["E2", "CF_0FFF", "SZ_NONE", "M_CC", "M_RA8", "OP_C8", "OP_C0"]⟩,
  ⟨0xe800, ['J', 'R'], ["E1", "CF_00FF", "SZ_NONE", "M_RA8", "OP_C0"]⟩,
  ⟨0xf000, ['D', 'B', 'J', 'N', 'Z'], ["E2", "CF_0F7F", "SZ_BYTE", "M_R", "M_RA7", "OP_C8", "OP_C0"]⟩,
  ⟨0xf080, ['D', 'J', 'N', 'Z'], ["E2", "CF_0F7F", "SZ_WORD", "M_R", "M_RA7", "OP_C8", "OP_C0"]⟩,
  ⟨0x3000, ['L', 'D', 'R', 'B'], ["E2", "CF_000F", "SZ_BYTE", "M_R", "M_RA", "OP_C0", "OP_NO"]⟩,
  ⟨0x3000, ['L', 'D', 'B'], ["E2", "CF_00FF", "SZ_BYTE", "M_R", "M_BA", "OP_C0", "OP_C4"]⟩,
  ⟨0x3100, ['L', 'D', 'R'], ["E2", "CF_000F", "SZ_WORD", "M_R", "M_RA", "OP_C0", "OP_NO"]⟩,
  ⟨0x3100, ['L', 'D'], ["E2", "CF_00FF", "SZ_WORD", "M_R", "M_BA", "OP_C0", "OP_C4"]⟩,
  ⟨0x3200, ['L', 'D', 'R', 'B'], ["E2", "CF_000F", "SZ_BYTE", "M_RA", "M_R", "OP_NO", "OP_C0"]⟩,
  ⟨0x3200, ['L', 'D', 'B'], ["E2", "CF_00FF", "SZ_BYTE", "M_BA", "M_R", "OP_C4", "OP_C0"]⟩,
  ⟨0x3300, ['L', 'D', 'R'], ["E2", "CF_000F", "SZ_WORD", "M_RA", "M_R", "OP_NO", "OP_C0"]⟩,
  ⟨0x3300, ['L', 'D'], ["E2", "CF_00FF", "SZ_WORD", "M_BA", "M_R", "OP_C4", "OP_C0"]⟩,
  ⟨0x3400, ['L', 'D', 'A', 'R'], ["E2", "CF_000F", "SZ_ADDR", "M_R", "M_RA", "OP_C0", "OP_NO"]⟩,
  ⟨0x3400, ['L', 'D', 'A'], ["E2", "CF_00FF", "SZ_ADDR", "M_R", "M_BA", "OP_C0", "OP_C4"]⟩,
  ⟨0x3500, ['L', 'D', 'R', 'L'], ["E2", "CF_000F", "SZ_QUAD", "M_R", "M_RA", "OP_C0", "OP_NO"]⟩,
  ⟨0x3500, ['L', 'D', 'L'], ["E2", "CF_00FF", "SZ_QUAD", "M_R", "M_BA", "OP_C0", "OP_C4"]⟩,
  ⟨0x3700, ['L', 'D', 'R', 'L'], ["E2", "CF_000F", "SZ_QUAD", "M_RA", "M_R", "OP_NO", "OP_C0"]⟩,
  ⟨0x3700, ['L', 'D', 'L'], ["E2", "CF_00FF", "SZ_QUAD", "M_BA", "M_R", "OP_C4", "OP_C0"]⟩,
  ⟨0x7000, ['L', 'D', 'B'], ["X2", "CF_00FF", "SZ_BYTE", "M_R", "M_BX", "OP_C0", "OP_C4", "PF_0X00"]⟩,
  ⟨0x7100, ['L', 'D'], ["X2", "CF_00FF", "SZ_WORD", "M_R", "M_BX", "OP_C0", "OP_C4", "PF_0X00"]⟩,
  ⟨0x7200, ['L', 'D', 'B'], ["X2", "CF_00FF", "SZ_BYTE", "M_BX", "M_R", "OP_C4", "OP_C0", "PF_0X00"]⟩,
  ⟨0x7300, ['L', 'D'], ["X2", "CF_00FF", "SZ_WORD", "M_BX", "M_R", "OP_C4", "OP_C0", "PF_0X00"]⟩,
  ⟨0x7400, ['L', 'D', 'A'], ["X2", "CF_00FF", "SZ_ADDR", "M_R", "M_BX", "OP_C0", "OP_C4", "PF_0X00"]⟩,
  ⟨0x7500, ['L', 'D', 'L'], ["X2", "CF_00FF", "SZ_QUAD", "M_R", "M_BX", "OP_C0", "OP_C4", "PF_0X00"]⟩,
  ⟨0x7600, ['L', 'D', 'A'], ["E2", "CF_00FF", "SZ_ADDR", "M_R", "M_GENA", "OP_C0", "OP_C4"]⟩,
  ⟨0x7700, ['L', 'D', 'L'], ["X2", "CF_00FF", "SZ_QUAD", "M_BX", "M_R", "OP_C4", "OP_C0", "PF_0X00"]⟩,
  ⟨0x7a00, ['H', 'A', 'L', 'T'], ["E0", "CF_0000"]⟩,
  ⟨0x7b00, ['I', 'R', 'E', 'T'], ["E0", "CF_0000"]⟩,
  ⟨0x7b08, ['M', 'S', 'E', 'T'], ["E0", "CF_0000"]⟩,
  ⟨0x7b09, ['M', 'R', 'E', 'S'], ["E0", "CF_0000"]⟩,
  ⟨0x7b0a, ['M', 'B', 'I', 'T'], ["E0", "CF_0000"]⟩,
  ⟨0x7b0d, ['M', 'R', 'E', 'Q'], ["E1", "CF_00F0", "SZ_WORD", "M_R", "OP_C4"]⟩,
  ⟨0x7c00, ['D', 'I'], ["E1", "CF_0003", "SZ_NONE", "M_INTR", "OP_C0"]⟩,
  ⟨0x7c04, ['E', 'I'], ["E1", "CF_0003", "SZ_NONE", "M_INTR", "OP_C0"]⟩,
  ⟨0x7d00, ['L', 'D', 'C', 'T', 'L'], ["E2", "CF_00F7", "SZ_WORD", "M_R", "M_CTL", "OP_C4", "OP_C0"]⟩,
  ⟨0x7d08, ['L', 'D', 'C', 'T', 'L'], ["E2", "CF_00F7", "SZ_WORD", "M_CTL", "M_R", "OP_C0", "OP_C4"]⟩,
  ⟨0x7f00, ['S', 'C'], ["E2", "CF_00FF", "SZ_NONE", "M_IM8", "M_NONE", "OP_C0", "OP_C0"]⟩,
  ⟨0x8c01, ['L', 'D', 'C', 'T', 'L', 'B'], ["E2", "CF_00F0", "SZ_BYTE", "M_R", "M_CTL", "OP_C4", "OP_C0"]⟩,
  ⟨0x8c09, ['L', 'D', 'C', 'T', 'L', 'B'], ["E2", "CF_00F0", "SZ_BYTE", "M_CTL", "M_R", "OP_C0", "OP_C4"]⟩,
  ⟨0xc00, ['C', 'O', 'M', 'B'], ["E1", "CF_C0F0", "SZ_BYTE", "M_GEND", "OP_C4"]⟩,
  ⟨0xc01, ['C', 'P', 'B'], ["E2", "CF_C0F0", "SZ_BYTE", "M_GENA", "M_IM", "OP_C4", "OP_NO"]⟩,
  ⟨0xc02, ['N', 'E', 'G', 'B'], ["E1", "CF_C0F0", "SZ_BYTE", "M_GEND", "OP_C4"]⟩,
  ⟨0xc04, ['T', 'E', 'S', 'T', 'B'], ["E1", "CF_C0F0", "SZ_BYTE", "M_GEND", "OP_C4"]⟩,
  ⟨0xc05, ['L', 'D', 'B'], ["E2", "CF_C0F0", "SZ_BYTE", "M_GENA", "M_IM", "OP_C4", "OP_NO"]⟩,
  ⟨0xc06, ['T', 'S', 'E', 'T', 'B'], ["E1", "CF_C0F0", "SZ_BYTE", "M_GEND", "OP_C4"]⟩,
  ⟨0xc08, ['C', 'L', 'R', 'B'], ["E1", "CF_C0F0", "SZ_BYTE", "M_GEND", "OP_C4"]⟩,
  ⟨0x8d01, ['S', 'E', 'T', 'F', 'L', 'G'], ["E1", "CF_00F0", "SZ_NONE", "M_FLAG", "OP_C4"]⟩,
  ⟨0x8d03, ['R', 'E', 'S', 'F', 'L', 'G'], ["E1", "CF_00F0", "SZ_NONE", "M_FLAG", "OP_C4"]⟩,
  ⟨0x8d05, ['C', 'O', 'M', 'F', 'L', 'G'], ["E1", "CF_00F0", "SZ_NONE", "M_FLAG", "OP_C4"]⟩,
  ⟨0x8d07, ['N', 'O', 'P'], ["E0", "CF_0000"]⟩,
  ⟨0x9e00, ['R', 'E', 'T'], ["E1", "CF_000F", "SZ_NONE", "M_CC", "OP_C0"]⟩,
  ⟨0xae00, ['T', 'C', 'C', 'B'], ["E2", "CF_00FF", "SZ_BYTE", "M_CC", "M_R", "OP_C0", "OP_C4"]⟩,
  ⟨0xae08, ['T', 'C', 'C', 'B'], ["E1", "CF_00F0", "SZ_BYTE", "M_R", "OP_C4"]⟩,
  ⟨0xaf00, ['T', 'C', 'C'], ["E2", "CF_00FF", "SZ_WORD", "M_CC", "M_R", "OP_C0", "OP_C4"]⟩,
  ⟨0xaf08, ['T', 'C', 'C'], ["E1", "CF_00F0", "SZ_WORD", "M_R", "OP_C4"]⟩,
  ⟨0xb000, ['D', 'A', 'B'], ["E1", "CF_00F0", "SZ_BYTE", "M_R", "OP_C4"]⟩,
  ⟨0xb100, ['E', 'X', 'T', 'S', 'B'], ["E1", "CF_00F0", "SZ_BYTE", "M_DBLR", "OP_C4"]⟩,
  ⟨0xb107, ['E', 'X', 'T', 'S', 'L'], ["E1", "CF_00F0", "SZ_QUAD", "M_DBLR", "OP_C4"]⟩,
  ⟨0xb10a, ['E', 'X', 'T', 'S'], ["E1", "CF_00F0", "SZ_WORD", "M_DBLR", "OP_C4"]⟩,
  ⟨0xb200, ['R', 'L', 'B'], ["E2", "CF_00F2", "SZ_BYTE", "M_R", "M_QCNT", "OP_C4", "OP_C0"]⟩,
  ⟨0xb201, ['S', 'L', 'L', 'B'], ["E2", "CF_00F0", "SZ_BYTE", "M_R", "M_SCNT", "OP_C4", "OP_NO"]⟩,
  ⟨0xb201, ['S', 'R', 'L', 'B'], ["E2", "CF_00F0", "SZ_BYTE", "M_R", "M_NCNT", "OP_C4", "OP_NO"]⟩,
  ⟨0xb203, ['S', 'D', 'L', 'B'], ["X2", "CF_00F0", "SZ_BYTE", "M_R", "M_WR", "OP_C4", "OP_P8", "PF_0X00"]⟩,
  ⟨0xb204, ['R', 'R', 'B'], ["E2", "CF_00F2", "SZ_BYTE", "M_R", "M_QCNT", "OP_C4", "OP_C0"]⟩,
  ⟨0xb208, ['R', 'L', 'C', 'B'], ["E2", "CF_00F2", "SZ_BYTE", "M_R", "M_QCNT", "OP_C4", "OP_C0"]⟩,
  ⟨0xb209, ['S', 'L', 'A', 'B'], ["E2", "CF_00F0", "SZ_BYTE", "M_R", "M_SCNT", "OP_C4", "OP_NO"]⟩,
  ⟨0xb209, ['S', 'R', 'A', 'B'], ["E2", "CF_00F0", "SZ_BYTE", "M_R", "M_NCNT", "OP_C4", "OP_NO"]⟩,
  ⟨0xb20b, ['S', 'D', 'A', 'B'], ["X2", "CF_00F0", "SZ_BYTE", "M_R", "M_WR", "OP_C4", "OP_P8", "PF_0X00"]⟩,
  ⟨0xb20c, ['R', 'R', 'C', 'B'], ["E2", "CF_00F2", "SZ_BYTE", "M_R", "M_QCNT", "OP_C4", "OP_C0"]⟩,
  ⟨0xb300, ['R', 'L'], ["E2", "CF_00F2", "SZ_WORD", "M_R", "M_QCNT", "OP_C4", "OP_C0"]⟩,
  ⟨0xb301, ['S', 'L', 'L'], ["E2", "CF_00F0", "SZ_WORD", "M_R", "M_SCNT", "OP_C4", "OP_NO"]⟩,
  ⟨0xb301, ['S', 'R', 'L'], ["E2", "CF_00F0", "SZ_WORD", "M_R", "M_NCNT", "OP_C4", "OP_NO"]⟩,
  ⟨0xb303, ['S', 'D', 'L'], ["X2", "CF_00F0", "SZ_WORD", "M_R", "M_WR", "OP_C4", "OP_P8", "PF_0X00"]⟩,
  ⟨0xb304, ['R', 'R'], ["E2", "CF_00F2", "SZ_WORD", "M_R", "M_QCNT", "OP_C4", "OP_C0"]⟩,
  ⟨0xb305, ['S', 'L', 'L', 'L'], ["E2", "CF_00F0", "SZ_QUAD", "M_R", "M_SCNT", "OP_C4", "OP_NO"]⟩,
  ⟨0xb305, ['S', 'R', 'L', 'L'], ["E2", "CF_00F0", "SZ_QUAD", "M_R", "M_NCNT", "OP_C4", "OP_NO"]⟩,
  ⟨0xb307, ['S', 'D', 'L', 'L'], ["X2", "CF_00F0", "SZ_QUAD", "M_R", "M_WR", "OP_C4", "OP_P8", "PF_0X00"]⟩,
  ⟨0xb308, ['R', 'L', 'C'], ["E2", "CF_00F2", "SZ_WORD", "M_R", "M_QCNT", "OP_C4", "OP_C0"]⟩,
  ⟨0xb309, ['S', 'L', 'A'], ["E2", "CF_00F0", "SZ_WORD", "M_R", "M_SCNT", "OP_C4", "OP_NO"]⟩,
  ⟨0xb309, ['S', 'R', 'A'], ["E2", "CF_00F0", "SZ_WORD", "M_R", "M_NCNT", "OP_C4", "OP_NO"]⟩,
  ⟨0xb30b, ['S', 'D', 'A'], ["X2", "CF_00F0", "SZ_WORD", "M_R", "M_WR", "OP_C4", "OP_P8", "PF_0X00"]⟩,
  ⟨0xb30c, ['R', 'R', 'C'], ["E2", "CF_00F2", "SZ_WORD", "M_R", "M_QCNT", "OP_C4", "OP_C0"]⟩,
  ⟨0xb30d, ['S', 'L', 'A', 'L'], ["E2", "CF_00F0", "SZ_QUAD", "M_R", "M_SCNT", "OP_C4", "OP_NO"]⟩,
  ⟨0xb30d, ['S', 'R', 'A', 'L'], ["E2", "CF_00F0", "SZ_QUAD", "M_R", "M_NCNT", "OP_C4", "OP_NO"]⟩,
  ⟨0xb30f, ['S', 'D', 'A', 'L'], ["X2", "CF_00F0", "SZ_QUAD", "M_R", "M_WR", "OP_C4", "OP_P8", "PF_0X00"]⟩,
  ⟨0xb400, ['A', 'D', 'C', 'B'], ["E2", "CF_00FF", "SZ_BYTE", "M_R", "M_R", "OP_C0", "OP_C4"]⟩,
  ⟨0xb500, ['A', 'D', 'C'], ["E2", "CF_00FF", "SZ_WORD", "M_R", "M_R", "OP_C0", "OP_C4"]⟩,
  ⟨0xb600, ['S', 'B', 'C', 'B'], ["E2", "CF_00FF", "SZ_BYTE", "M_R", "M_R", "OP_C0", "OP_C4"]⟩,
  ⟨0xb700, ['S', 'B', 'C'], ["E2", "CF_00FF", "SZ_WORD", "M_R", "M_R", "OP_C0", "OP_C4"]⟩,
  ⟨0xbc00, ['R', 'R', 'D', 'B'], ["E2", "CF_00FF", "SZ_BYTE", "M_R", "M_R", "OP_C0", "OP_C4"]⟩,
  ⟨0xbd00, ['L', 'D', 'K'], ["E2", "CF_00FF", "SZ_WORD", "M_R", "M_BIT", "OP_C4", "OP_C0"]⟩,
  ⟨0xbe00, ['R', 'L', 'D', 'B'], ["E2", "CF_00FF", "SZ_BYTE", "M_R", "M_R", "OP_C0", "OP_C4"]⟩,
  ⟨0x0, ['A', 'D', 'D', 'B'], ["E2", "CF_C0FF", "SZ_BYTE", "M_R", "M_GENI", "OP_C0", "OP_C4"]⟩,
  ⟨0x100, ['A', 'D', 'D'], ["E2", "CF_C0FF", "SZ_WORD", "M_R", "M_GENI", "OP_C0", "OP_C4"]⟩,
  ⟨0x200, ['S', 'U', 'B', 'B'], ["E2", "CF_C0FF", "SZ_BYTE", "M_R", "M_GENI", "OP_C0", "OP_C4"]⟩,
  ⟨0x300, ['S', 'U', 'B'], ["E2", "CF_C0FF", "SZ_WORD", "M_R", "M_GENI", "OP_C0", "OP_C4"]⟩,
  ⟨0x400, ['O', 'R', 'B'], ["E2", "CF_C0FF", "SZ_BYTE", "M_R", "M_GENI", "OP_C0", "OP_C4"]⟩,
  ⟨0x500, ['O', 'R'], ["E2", "CF_C0FF", "SZ_WORD", "M_R", "M_GENI", "OP_C0", "OP_C4"]⟩,
  ⟨0x600, ['A', 'N', 'D', 'B'], ["E2", "CF_C0FF", "SZ_BYTE", "M_R", "M_GENI", "OP_C0", "OP_C4"]⟩,
  ⟨0x700, ['A', 'N', 'D'], ["E2", "CF_C0FF", "SZ_WORD", "M_R", "M_GENI", "OP_C0", "OP_C4"]⟩,
  ⟨0x800, ['X', 'O', 'R', 'B'], ["E2", "CF_C0FF", "SZ_BYTE", "M_R", "M_GENI", "OP_C0", "OP_C4"]⟩,
  ⟨0x900, ['X', 'O', 'R'], ["E2", "CF_C0FF", "SZ_WORD", "M_R", "M_GENI", "OP_C0", "OP_C4"]⟩,
  ⟨0xa00, ['C', 'P', 'B'], ["E2", "CF_C0FF", "SZ_BYTE", "M_R", "M_GENI", "OP_C0", "OP_C4"]⟩,
  ⟨0xb00, ['C', 'P'], ["E2", "CF_C0FF", "SZ_WORD", "M_R", "M_GENI", "OP_C0", "OP_C4"]⟩,
  ⟨0xd00, ['C', 'O', 'M'], ["E1", "CF_C0F0", "SZ_WORD", "M_GEND", "OP_C4"]⟩,
  ⟨0xd01, ['C', 'P'], ["E2", "CF_C0F0", "SZ_WORD", "M_GENA", "M_IM", "OP_C4", "OP_NO"]⟩,
  ⟨0xd02, ['N', 'E', 'G'], ["E1", "CF_C0F0", "SZ_WORD", "M_GEND", "OP_C4"]⟩,
  ⟨0xd04, ['T', 'E', 'S', 'T'], ["E1", "CF_C0F0", "SZ_WORD", "M_GEND", "OP_C4"]⟩,
  ⟨0xd05, ['L', 'D'], ["E2", "CF_C0F0", "SZ_WORD", "M_GENA", "M_IM", "OP_C4", "OP_NO"]⟩,
  ⟨0xd06, ['T', 'S', 'E', 'T'], ["E1", "CF_C0F0", "SZ_WORD", "M_GEND", "OP_C4"]⟩,
  ⟨0xd08, ['C', 'L', 'R'], ["E1", "CF_C0F0", "SZ_WORD", "M_GEND", "OP_C4"]⟩,
  ⟨0xd09, ['P', 'U', 'S', 'H'], ["E2", "CF_C0F0", "SZ_WORD", "M_IR", "M_IM", "OP_C4", "OP_NO"]⟩,
  ⟨0x1000, ['C', 'P', 'L'], ["E2", "CF_C0FF", "SZ_QUAD", "M_R", "M_GENI", "OP_C0", "OP_C4"]⟩,
  ⟨0x1100, ['P', 'U', 'S', 'H', 'L'], ["E2", "CF_C0FF", "SZ_QUAD", "M_IR", "M_GEND", "OP_C4", "OP_C0"]⟩,
  ⟨0x1200, ['S', 'U', 'B', 'L'], ["E2", "CF_C0FF", "SZ_QUAD", "M_R", "M_GENI", "OP_C0", "OP_C4"]⟩,
  ⟨0x1300, ['P', 'U', 'S', 'H'], ["E2", "CF_C0FF", "SZ_WORD", "M_IR", "M_GEND", "OP_C4", "OP_C0"]⟩,
  ⟨0x1400, ['L', 'D', 'L'], ["E2", "CF_C0FF", "SZ_QUAD", "M_R", "M_GENI", "OP_C0", "OP_C4"]⟩,
  ⟨0x1500, ['P', 'O', 'P', 'L'], ["E2", "CF_C0FF", "SZ_QUAD", "M_GEND", "M_IR", "OP_C0", "OP_C4"]⟩,
  ⟨0x1600, ['A', 'D', 'D', 'L'], ["E2", "CF_C0FF", "SZ_QUAD", "M_R", "M_GENI", "OP_C0", "OP_C4"]⟩,
  ⟨0x1700, ['P', 'O', 'P'], ["E2", "CF_C0FF", "SZ_WORD", "M_GEND", "M_IR", "OP_C0", "OP_C4"]⟩,
  ⟨0x1800, ['M', 'U', 'L', 'T', 'L'], ["E2", "CF_C0FF", "SZ_QUAD", "M_DBLR", "M_GENI", "OP_C0", "OP_C4"]⟩,
  ⟨0x1900, ['M', 'U', 'L', 'T'], ["E2", "CF_C0FF", "SZ_WORD", "M_DBLR", "M_GENI", "OP_C0", "OP_C4"]⟩,
  ⟨0x1a00, ['D', 'I', 'V', 'L'], ["E2", "CF_C0FF", "SZ_QUAD", "M_DBLR", "M_GENI", "OP_C0", "OP_C4"]⟩,
  ⟨0x1b00, ['D', 'I', 'V'], ["E2", "CF_C0FF", "SZ_WORD", "M_DBLR", "M_GENI", "OP_C0", "OP_C4"]⟩,
  ⟨0x1c01, ['L', 'D', 'M'], ["X3", "CF_C0F0", "SZ_WORD", "M_R", "M_GENA", "OP_P8", "OP_C4", "E1_CNT", "PF_0X0X"]⟩,
  ⟨0x1c08, ['T', 'E', 'S', 'T', 'L'], ["E1", "CF_C0F0", "SZ_QUAD", "M_GEND", "OP_C4"]⟩,
  ⟨0x1c09, ['L', 'D', 'M'], ["X3", "CF_C0F0", "SZ_WORD", "M_GENA", "M_R", "OP_C4", "OP_P8", "E1_CNT", "PF_0X0X"]⟩,
  ⟨0x1d00, ['L', 'D', 'L'], ["E2", "CF_C0FF", "SZ_QUAD", "M_GENA", "M_R", "OP_C4", "OP_C0"]⟩,
  ⟨0x1e00, ['J', 'P'], ["E2", "CF_C0FF", "SZ_WORD", "M_CC", "M_GENA", "OP_C0", "OP_C4"]⟩,
  ⟨0x1e08, ['J', 'P'], ["E1", "CF_C0F0", "SZ_WORD", "M_GENA", "OP_C4"]⟩,
  ⟨0x1f00, ['C', 'A', 'L', 'L'], ["E1", "CF_C0FF", "SZ_WORD", "M_GENA", "OP_C4"]⟩,
  ⟨0x2000, ['L', 'D', 'B'], ["E2", "CF_C0FF", "SZ_BYTE", "M_R", "M_GENI", "OP_C0", "OP_C4"]⟩,
  ⟨0x2100, ['L', 'D'], ["E2", "CF_C0FF", "SZ_WORD", "M_R", "M_GENI", "OP_C0", "OP_C4"]⟩,
  ⟨0x2200, ['R', 'E', 'S', 'B'], ["X2", "CF_000F", "SZ_BYTE", "M_R", "M_WR07", "OP_P8", "OP_C0", "PF_0X00"]⟩,
  ⟨0x2200, ['R', 'E', 'S', 'B'], ["E2", "CF_X0FF", "SZ_BYTE", "M_GEND", "M_BIT", "OP_C4", "OP_C0"]⟩,
  ⟨0x2300, ['R', 'E', 'S'], ["X2", "CF_000F", "SZ_WORD", "M_R", "M_R", "OP_P8", "OP_C0", "PF_0X00"]⟩,
  ⟨0x2300, ['R', 'E', 'S'], ["E2", "CF_X0FF", "SZ_WORD", "M_GEND", "M_BIT", "OP_C4", "OP_C0"]⟩,
  ⟨0x2400, ['S', 'E', 'T', 'B'], ["X2", "CF_000F", "SZ_BYTE", "M_R", "M_WR07", "OP_P8", "OP_C0", "PF_0X00"]⟩,
  ⟨0x2400, ['S', 'E', 'T', 'B'], ["E2", "CF_X0FF", "SZ_BYTE", "M_GEND", "M_BIT", "OP_C4", "OP_C0"]⟩,
  ⟨0x2500, ['S', 'E', 'T'], ["X2", "CF_000F", "SZ_WORD", "M_R", "M_R", "OP_P8", "OP_C0", "PF_0X00"]⟩,
  ⟨0x2500, ['S', 'E', 'T'], ["E2", "CF_X0FF", "SZ_WORD", "M_GEND", "M_BIT", "OP_C4", "OP_C0"]⟩,
  ⟨0x2600, ['B', 'I', 'T', 'B'], ["X2", "CF_000F", "SZ_BYTE", "M_R", "M_WR07", "OP_P8", "OP_C0", "PF_0X00"]⟩,
  ⟨0x2600, ['B', 'I', 'T', 'B'], ["E2", "CF_X0FF", "SZ_BYTE", "M_GEND", "M_BIT", "OP_C4", "OP_C0"]⟩,
  ⟨0x2700, ['B', 'I', 'T'], ["X2", "CF_000F", "SZ_WORD", "M_R", "M_R", "OP_P8", "OP_C0", "PF_0X00"]⟩,
  ⟨0x2700, ['B', 'I', 'T'], ["E2", "CF_X0FF", "SZ_WORD", "M_GEND", "M_BIT", "OP_C4", "OP_C0"]⟩,
  ⟨0x2800, ['I', 'N', 'C', 'B'], ["E2", "CF_C0FF", "SZ_BYTE", "M_GEND", "M_CNT", "OP_C4", "OP_C0"]⟩,
  ⟨0x2900, ['I', 'N', 'C'], ["E2", "CF_C0FF", "SZ_WORD", "M_GEND", "M_CNT", "OP_C4", "OP_C0"]⟩,
  ⟨0x2a00, ['D', 'E', 'C', 'B'], ["E2", "CF_C0FF", "SZ_BYTE", "M_GEND", "M_CNT", "OP_C4", "OP_C0"]⟩,
  ⟨0x2b00, ['D', 'E', 'C'], ["E2", "CF_C0FF", "SZ_WORD", "M_GEND", "M_CNT", "OP_C4", "OP_C0"]⟩,
  ⟨0x2c00, ['E', 'X', 'B'], ["E2", "CF_C0FF", "SZ_BYTE", "M_R", "M_GEND", "OP_C0", "OP_C4"]⟩,
  ⟨0x2d00, ['E', 'X'], ["E2", "CF_C0FF", "SZ_WORD", "M_R", "M_GEND", "OP_C0", "OP_C4"]⟩,
  ⟨0x2e00, ['L', 'D', 'B'], ["E2", "CF_C0FF", "SZ_BYTE", "M_GENA", "M_R", "OP_C4", "OP_C0"]⟩,
  ⟨0x2f00, ['L', 'D'], ["E2", "CF_C0FF", "SZ_WORD", "M_GENA", "M_R", "OP_C4", "OP_C0"]⟩,
  ⟨0x3900, ['L', 'D', 'P', 'S'], ["E1", "CF_C0F0", "SZ_WORD", "M_GENA", "OP_C4"]⟩,
  ⟨0x3a04, ['I', 'N', 'B'], ["E2", "CF_00F0", "SZ_BYTE", "M_R", "M_IO", "OP_C4", "OP_NO"]⟩,
  ⟨0x3a05, ['S', 'I', 'N', 'B'], ["E2", "CF_00F0", "SZ_BYTE", "M_R", "M_IO", "OP_C4", "OP_NO"]⟩,
  ⟨0x3a06, ['O', 'U', 'T', 'B'], ["E2", "CF_00F0", "SZ_BYTE", "M_IO", "M_R", "OP_NO", "OP_C4"]⟩,
  ⟨0x3a07, ['S', 'O', 'U', 'T', 'B'], ["E2", "CF_00F0", "SZ_BYTE", "M_IO", "M_R", "OP_NO", "OP_C4"]⟩,
  ⟨0x3b04, ['I', 'N'], ["E2", "CF_00F0", "SZ_WORD", "M_R", "M_IO", "OP_C4", "OP_NO"]⟩,
  ⟨0x3b05, ['S', 'I', 'N'], ["E2", "CF_00F0", "SZ_WORD", "M_R", "M_IO", "OP_C4", "OP_NO"]⟩,
  ⟨0x3b06, ['O', 'U', 'T'], ["E2", "CF_00F0", "SZ_WORD", "M_IO", "M_R", "OP_NO", "OP_C4"]⟩,
  ⟨0x3b07, ['S', 'O', 'U', 'T'], ["E2", "CF_00F0", "SZ_WORD", "M_IO", "M_R", "OP_NO", "OP_C4"]⟩,
  ⟨0x3c00, ['I', 'N', 'B'], ["E2", "CF_00FF", "SZ_BYTE", "M_R", "M_IRIO", "OP_C0", "OP_C4"]⟩,
  ⟨0x3d00, ['I', 'N'], ["E2", "CF_00FF", "SZ_WORD", "M_R", "M_IRIO", "OP_C0", "OP_C4"]⟩,
  ⟨0x3e00, ['O', 'U', 'T', 'B'], ["E2", "CF_00FF", "SZ_BYTE", "M_IRIO", "M_R", "OP_C4", "OP_C0"]⟩,
  ⟨0x3f00, ['O', 'U', 'T'], ["E2", "CF_00FF", "SZ_WORD", "M_IRIO", "M_R", "OP_C4", "OP_C0"]⟩,
  ⟨0x3a00, ['I', 'N', 'I', 'R', 'B'], ["X3", "CF_00F0", "SZ_BYTE", "M_IR", "M_IRIO", "OP_P4", "OP_C4", "E1_WR", "PF_0XX0"]⟩,
  ⟨0x3a00, ['I', 'N', 'I', 'B'], ["X3", "CF_00F0", "SZ_BYTE", "M_IR", "M_IRIO", "OP_P4", "OP_C4", "E1_WR", "PF_0XX8"]⟩,
  ⟨0x3a01, ['S', 'I', 'N', 'I', 'R', 'B'], ["X3", "CF_00F0", "SZ_BYTE", "M_IR", "M_IRIO", "OP_P4", "OP_C4", "E1_WR", "PF_0XX0"]⟩,
  ⟨0x3a01, ['S', 'I', 'N', 'I', 'B'], ["X3", "CF_00F0", "SZ_BYTE", "M_IR", "M_IRIO", "OP_P4", "OP_C4", "E1_WR", "PF_0XX8"]⟩,
  ⟨0x3a02, ['O', 'T', 'I', 'R', 'B'], ["X3", "CF_00F0", "SZ_BYTE", "M_IRIO", "M_IR", "OP_P4", "OP_C4", "E1_WR", "PF_0XX0"]⟩,
  ⟨0x3a02, ['O', 'U', 'T', 'I', 'B'], ["X3", "CF_00F0", "SZ_BYTE", "M_IRIO", "M_IR", "OP_P4", "OP_C4", "E1_WR", "PF_0XX8"]⟩,
  ⟨0x3a03, ['S', 'O', 'T', 'I', 'R', 'B'], ["X3", "CF_00F0", "SZ_BYTE", "M_IRIO", "M_IR", "OP_P4", "OP_C4", "E1_WR", "PF_0XX0"]⟩,
  ⟨0x3a03, ['S', 'O', 'U', 'T', 'I', 'B'], ["X3", "CF_00F0", "SZ_BYTE", "M_IRIO", "M_IR", "OP_P4", "OP_C4", "E1_WR", "PF_0XX8"]⟩,
  ⟨0x3a08, ['I', 'N', 'D', 'R', 'B'], ["X3", "CF_00F0", "SZ_BYTE", "M_IR", "M_IRIO", "OP_P4", "OP_C4", "E1_WR", "PF_0XX0"]⟩,
  ⟨0x3a08, ['I', 'N', 'D', 'B'], ["X3", "CF_00F0", "SZ_BYTE", "M_IR", "M_IRIO", "OP_P4", "OP_C4", "E1_WR", "PF_0XX8"]⟩,
  ⟨0x3a09, ['S', 'I', 'N', 'D', 'R', 'B'], ["X3", "CF_00F0", "SZ_BYTE", "M_IR", "M_IRIO", "OP_P4", "OP_C4", "E1_WR", "PF_0XX0"]⟩,
  ⟨0x3a09, ['S', 'I', 'N', 'D', 'B'], ["X3", "CF_00F0", "SZ_BYTE", "M_IR", "M_IRIO", "OP_P4", "OP_C4", "E1_WR", "PF_0XX8"]⟩,
  ⟨0x3a0a, ['O', 'T', 'D', 'R', 'B'], ["X3", "CF_00F0", "SZ_BYTE", "M_IRIO", "M_IR", "OP_P4", "OP_C4", "E1_WR", "PF_0XX0"]⟩,
  ⟨0x3a0a, ['O', 'U', 'T', 'D', 'B'], ["X3", "CF_00F0", "SZ_BYTE", "M_IRIO", "M_IR", "OP_P4", "OP_C4", "E1_WR", "PF_0XX8"]⟩,
  ⟨0x3a0b, ['S', 'O', 'T', 'D', 'R', 'B'], ["X3", "CF_00F0", "SZ_BYTE", "M_IRIO", "M_IR", "OP_P4", "OP_C4", "E1_WR", "PF_0XX0"]⟩,
  ⟨0x3a0b, ['S', 'O', 'U', 'T', 'D', 'B'], ["X3", "CF_00F0", "SZ_BYTE", "M_IRIO", "M_IR", "OP_P4", "OP_C4", "E1_WR", "PF_0XX8"]⟩,
  ⟨0x3b00, ['I', 'N', 'I', 'R'], ["X3", "CF_00F0", "SZ_WORD", "M_IR", "M_IRIO", "OP_P4", "OP_C4", "E1_WR", "PF_0XX0"]⟩,
  ⟨0x3b00, ['I', 'N', 'I'], ["X3", "CF_00F0", "SZ_WORD", "M_IR", "M_IRIO", "OP_P4", "OP_C4", "E1_WR", "PF_0XX8"]⟩,
  ⟨0x3b01, ['S', 'I', 'N', 'I', 'R'], ["X3", "CF_00F0", "SZ_WORD", "M_IR", "M_IRIO", "OP_P4", "OP_C4", "E1_WR", "PF_0XX0"]⟩,
  ⟨0x3b01, ['S', 'I', 'N', 'I'], ["X3", "CF_00F0", "SZ_WORD", "M_IR", "M_IRIO", "OP_P4", "OP_C4", "E1_WR", "PF_0XX8"]⟩,
  ⟨0x3b02, ['O', 'T', 'I', 'R'], ["X3", "CF_00F0", "SZ_WORD", "M_IRIO", "M_IR", "OP_P4", "OP_C4", "E1_WR", "PF_0XX0"]⟩,
  ⟨0x3b02, ['O', 'U', 'T', 'I'], ["X3", "CF_00F0", "SZ_WORD", "M_IRIO", "M_IR", "OP_P4", "OP_C4", "E1_WR", "PF_0XX8"]⟩,
  ⟨0x3b03, ['S', 'O', 'T', 'I', 'R'], ["X3", "CF_00F0", "SZ_WORD", "M_IRIO", "M_IR", "OP_P4", "OP_C4", "E1_WR", "PF_0XX0"]⟩,
  ⟨0x3b03, ['S', 'O', 'U', 'T', 'I'], ["X3", "CF_00F0", "SZ_WORD", "M_IRIO", "M_IR", "OP_P4", "OP_C4", "E1_WR", "PF_0XX8"]⟩,
  ⟨0x3b08, ['I', 'N', 'D', 'R'], ["X3", "CF_00F0", "SZ_WORD", "M_IR", "M_IRIO", "OP_P4", "OP_C4", "E1_WR", "PF_0XX0"]⟩,
  ⟨0x3b08, ['I', 'N', 'D'], ["X3", "CF_00F0", "SZ_WORD", "M_IR", "M_IRIO", "OP_P4", "OP_C4", "E1_WR", "PF_0XX8"]⟩,
  ⟨0x3b09, ['S', 'I', 'N', 'D', 'R'], ["X3", "CF_00F0", "SZ_WORD", "M_IR", "M_IRIO", "OP_P4", "OP_C4", "E1_WR", "PF_0XX0"]⟩,
  ⟨0x3b09, ['S', 'I', 'N', 'D'], ["X3", "CF_00F0", "SZ_WORD", "M_IR", "M_IRIO", "OP_P4", "OP_C4", "E1_WR", "PF_0XX8"]⟩,
  ⟨0x3b0a, ['O', 'T', 'D', 'R'], ["X3", "CF_00F0", "SZ_WORD", "M_IRIO", "M_IR", "OP_P4", "OP_C4", "E1_WR", "PF_0XX0"]⟩,
  ⟨0x3b0a, ['O', 'U', 'T', 'D'], ["X3", "CF_00F0", "SZ_WORD", "M_IRIO", "M_IR", "OP_P4", "OP_C4", "E1_WR", "PF_0XX8"]⟩,
  ⟨0x3b0b, ['S', 'O', 'T', 'D', 'R'], ["X3", "CF_00F0", "SZ_WORD", "M_IRIO", "M_IR", "OP_P4", "OP_C4", "E1_WR", "PF_0XX0"]⟩,
  ⟨0x3b0b, ['S', 'O', 'U', 'T', 'D'], ["X3", "CF_00F0", "SZ_WORD", "M_IRIO", "M_IR", "OP_P4", "OP_C4", "E1_WR", "PF_0XX8"]⟩,
  ⟨0xb800, ['T', 'R', 'I', 'B'], ["X3", "CF_00F0", "SZ_BYTE", "M_IR", "M_IR", "OP_C4", "OP_P4", "E1_WR", "PF_0XX0"]⟩,
  ⟨0xb802, ['T', 'R', 'T', 'I', 'B'], ["X3", "CF_00F0", "SZ_BYTE", "M_IR", "M_IR", "OP_C4", "OP_P4", "E1_WR", "PF_0XX0"]⟩,
  ⟨0xb804, ['T', 'R', 'I', 'R', 'B'], ["X3", "CF_00F0", "SZ_BYTE", "M_IR", "M_IR", "OP_C4", "OP_P4", "E1_WR", "PF_0XX0"]⟩,
  ⟨0xb806, ['T', 'R', 'T', 'I', 'R', 'B'], ["X3", "CF_00F0", "SZ_BYTE", "M_IR", "M_IR", "OP_C4", "OP_P4", "E1_WR", "PF_0XXE"]⟩,
  ⟨0xb808, ['T', 'R', 'D', 'B'], ["X3", "CF_00F0", "SZ_BYTE", "M_IR", "M_IR", "OP_C4", "OP_P4", "E1_WR", "PF_0XX0"]⟩,
  ⟨0xb80a, ['T', 'R', 'T', 'D', 'B'], ["X3", "CF_00F0", "SZ_BYTE", "M_IR", "M_IR", "OP_C4", "OP_P4", "E1_WR", "PF_0XX0"]⟩,
  ⟨0xb80c, ['T', 'R', 'D', 'R', 'B'], ["X3", "CF_00F0", "SZ_BYTE", "M_IR", "M_IR", "OP_C4", "OP_P4", "E1_WR", "PF_0XX0"]⟩,
  ⟨0xb80e, ['T', 'R', 'T', 'D', 'R', 'B'], ["X3", "CF_00F0", "SZ_BYTE", "M_IR", "M_IR", "OP_C4", "OP_P4", "E1_WR", "PF_0XXE"]⟩,
  ⟨0xba00, ['C', 'P', 'I', 'B'], ["X4", "CF_00F0", "SZ_BYTE", "M_R", "M_IR", "OP_P4", "OP_C4", "E1_WR", "E2_CC", "PF_0XXX"]⟩,
  ⟨0xba01, ['L', 'D', 'I', 'R', 'B'], ["X3", "CF_00F0", "SZ_BYTE", "M_IR", "M_IR", "OP_P4", "OP_C4", "E1_WR", "PF_0XX0"]⟩,
  ⟨0xba01, ['L', 'D', 'I', 'B'], ["X3", "CF_00F0", "SZ_BYTE", "M_IR", "M_IR", "OP_P4", "OP_C4", "E1_WR", "PF_0XX8"]⟩,
  ⟨0xba02, ['C', 'P', 'S', 'I', 'B'], ["X4", "CF_00F0", "SZ_BYTE", "M_IR", "M_IR", "OP_P4", "OP_C4", "E1_WR", "E2_CC", "PF_0XXX"]⟩,
  ⟨0xba04, ['C', 'P', 'I', 'R', 'B'], ["X4", "CF_00F0", "SZ_BYTE", "M_R", "M_IR", "OP_P4", "OP_C4", "E1_WR", "E2_CC", "PF_0XXX"]⟩,
  ⟨0xba06, ['C', 'P', 'S', 'I', 'R', 'B'], ["X4", "CF_00F0", "SZ_BYTE", "M_IR", "M_IR", "OP_P4", "OP_C4", "E1_WR", "E2_CC", "PF_0XXX"]⟩,
  ⟨0xba08, ['C', 'P', 'D', 'B'], ["X4", "CF_00F0", "SZ_BYTE", "M_R", "M_IR", "OP_P4", "OP_C4", "E1_WR", "E2_CC", "PF_0XXX"]⟩,
  ⟨0xba09, ['L', 'D', 'D', 'R', 'B'], ["X3", "CF_00F0", "SZ_BYTE", "M_IR", "M_IR", "OP_P4", "OP_C4", "E1_WR", "PF_0XX0"]⟩,
  ⟨0xba09, ['L', 'D', 'D', 'B'], ["X3", "CF_00F0", "SZ_BYTE", "M_IR", "M_IR", "OP_P4", "OP_C4", "E1_WR", "PF_0XX8"]⟩,
  ⟨0xba0a, ['C', 'P', 'S', 'D', 'B'], ["X4", "CF_00F0", "SZ_BYTE", "M_IR", "M_IR", "OP_P4", "OP_C4", "E1_WR", "E2_CC", "PF_0XXX"]⟩,
  ⟨0xba0c, ['C', 'P', 'D', 'R', 'B'], ["X4", "CF_00F0", "SZ_BYTE", "M_R", "M_IR", "OP_P4", "OP_C4", "E1_WR", "E2_CC", "PF_0XXX"]⟩,
  ⟨0xba0e, ['C', 'P', 'S', 'D', 'R', 'B'], ["X4", "CF_00F0", "SZ_BYTE", "M_IR", "M_IR", "OP_P4", "OP_C4", "E1_WR", "E2_CC", "PF_0XXX"]⟩,
  ⟨0xbb00, ['C', 'P', 'I'], ["X4", "CF_00F0", "SZ_WORD", "M_R", "M_IR", "OP_P4", "OP_C4", "E1_WR", "E2_CC", "PF_0XXX"]⟩,
  ⟨0xbb01, ['L', 'D', 'I', 'R'], ["X3", "CF_00F0", "SZ_WORD", "M_IR", "M_IR", "OP_P4", "OP_C4", "E1_WR", "PF_0XX0"]⟩,
  ⟨0xbb01, ['L', 'D', 'I'], ["X3", "CF_00F0", "SZ_WORD", "M_IR", "M_IR", "OP_P4", "OP_C4", "E1_WR", "PF_0XX8"]⟩,
  ⟨0xbb02, ['C', 'P', 'S', 'I'], ["X4", "CF_00F0", "SZ_WORD", "M_IR", "M_IR", "OP_P4", "OP_C4", "E1_WR", "E2_CC", "PF_0XXX"]⟩,
  ⟨0xbb04, ['C', 'P', 'I', 'R'], ["X4", "CF_00F0", "SZ_WORD", "M_R", "M_IR", "OP_P4", "OP_C4", "E1_WR", "E2_CC", "PF_0XXX"]⟩,
  ⟨0xbb06, ['C', 'P', 'S', 'I', 'R'], ["X4", "CF_00F0", "SZ_WORD", "M_IR", "M_IR", "OP_P4", "OP_C4", "E1_WR", "E2_CC", "PF_0XXX"]⟩,
  ⟨0xbb08, ['C', 'P', 'D'], ["X4", "CF_00F0", "SZ_WORD", "M_R", "M_IR", "OP_P4", "OP_C4", "E1_WR", "E2_CC", "PF_0XXX"]⟩,
  ⟨0xbb09, ['L', 'D', 'D', 'R'], ["X3", "CF_00F0", "SZ_WORD", "M_IR", "M_IR", "OP_P4", "OP_C4", "E1_WR", "PF_0XX0"]⟩,
  ⟨0xbb09, ['L', 'D', 'D'], ["X3", "CF_00F0", "SZ_WORD", "M_IR", "M_IR", "OP_P4", "OP_C4", "E1_WR", "PF_0XX8"]⟩,
  ⟨0xbb0a, ['C', 'P', 'S', 'D'], ["X4", "CF_00F0", "SZ_WORD", "M_IR", "M_IR", "OP_P4", "OP_C4", "E1_WR", "E2_CC", "PF_0XXX"]⟩,
  ⟨0xbb0c, ['C', 'P', 'D', 'R'], ["X4", "CF_00F0", "SZ_WORD", "M_R", "M_IR", "OP_P4", "OP_C4", "E1_WR", "E2_CC", "PF_0XXX"]⟩,
  ⟨0xbb0e, ['C', 'P', 'S', 'D', 'R'], ["X4", "CF_00F0", "SZ_WORD", "M_IR", "M_IR", "OP_P4", "OP_C4", "E1_WR", "E2_CC", "PF_0XXX"]⟩]

/-- src/table_z8000.cpp:277-510 -/
def INDEX_Z8000 : List Nat := [
  88, 87, 95, 94, 120, 101, 100, 145, 146, 143, 144, 132, 1, 112, 47, 106,
  41, 50, 105, 107, 42, 104, 226, 214, 230, 218, 220, 208, 224, 212, 114, 229,
  217, 231, 219, 223, 211, 225, 213, 57, 4, 150, 149, 34, 125, 124, 5, 35,
  152, 151, 60, 58, 59, 28, 160, 165, 156, 164, 148, 147, 193, 177, 192, 176,
  185, 169, 184, 168, 29, 130, 131, 2, 3, 9, 13, 21, 23, 110, 134, 154,
  15, 24, 26, 14, 0, 7, 11, 20, 22, 45, 133, 153, 36, 37, 39, 40,
  228, 216, 227, 215, 222, 210, 221, 209, 92, 17, 19, 25, 27, 118, 129, 126,
  128, 155, 8, 12, 6, 10, 16, 18, 32, 33, 31, 30, 123, 122, 108, 43,
  51, 99, 98, 196, 180, 188, 172, 162, 167, 158, 166, 197, 181, 189, 173, 121,
  119, 113, 117, 115, 137, 138, 135, 136, 49, 52, 71, 61, 79, 66, 93, 75,
  65, 83, 70, 91, 90, 89, 38, 82, 69, 86, 74, 64, 78, 141, 142, 139,
  140, 48, 161, 157, 195, 179, 194, 178, 187, 171, 186, 170, 80, 67, 84, 72,
  62, 76, 198, 182, 190, 174, 163, 159, 199, 183, 191, 175, 81, 68, 85, 73,
  63, 77, 97, 96, 116, 55, 56, 53, 54, 109, 44, 127, 204, 206, 200, 202,
  205, 207, 201, 203, 111, 46, 103, 102]

/-- src/table_z8000.cpp:515-517 -/
def Z8000_PAGES : List (Page Row) := [
  ⟨0x0, [], TABLE_Z8000, INDEX_Z8000⟩]

/-- The processors of src/table_z8000.cpp: CPU_TABLE 521-524 -/
def cpus : List Cpu := [
  ⟨['Z', '8', '0', '0', '1'], Z8000_PAGES⟩,
  ⟨['Z', '8', '0', '0', '2'], Z8000_PAGES⟩]

theorem TABLE_Z8000_INDEX_Z8000 (n : Nat) (x : List String) : PageOk ⟨n, x, TABLE_Z8000, INDEX_Z8000⟩ :=
  pageB_sound ⟨n, x, TABLE_Z8000, INDEX_Z8000⟩ (show pageB ⟨0, [], TABLE_Z8000, INDEX_Z8000⟩ = true by decide +kernel)

theorem Z8000_PAGES_ok : ∀ p ∈ Z8000_PAGES, PageOk p :=
  List.forall_mem_cons.mpr <| And.intro (TABLE_Z8000_INDEX_Z8000 _ _) nofun

theorem cpus_ok : ∀ c ∈ cpus, ∀ p ∈ c.pages, PageOk p :=
  List.forall_mem_cons.mpr <| And.intro Z8000_PAGES_ok <| List.forall_mem_cons.mpr <| And.intro Z8000_PAGES_ok nofun

end Libasm.Tables.Z8000
