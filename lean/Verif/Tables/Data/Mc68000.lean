import Verif.Tables.Row
/-
Generated by tools/gen_tables.py from src/table_mc68000.cpp: names, codes, operands and indexes as written
there. Do not edit.
-/
namespace Libasm.Tables.Mc68000
open Table

/-- src/table_mc68000.cpp:41-249 -/
def MC68000_TABLE : List Row := [
  ⟨0x3c, ['O', 'R', 'I'], ["E2", "ISZ_NONE", "M_IMDAT", "M_CCR", "OP___", "OP___", "SZ_BYTE"]⟩,
  ⟨0x7c, ['O', 'R', 'I'], ["E2", "ISZ_NONE", "M_IMDAT", "M_SR", "OP___", "OP___", "SZ_WORD"]⟩,
  ⟨0x0, ['O', 'R', 'I'], ["E2", "ISZ_DATA", "M_IMDAT", "M_WDATA", "OP___", "OP_10", "SZ_DATA"]⟩,
  ⟨0x23c, ['A', 'N', 'D', 'I'], ["E2", "ISZ_NONE", "M_IMDAT", "M_CCR", "OP___", "OP___", "SZ_BYTE"]⟩,
  ⟨0x27c, ['A', 'N', 'D', 'I'], ["E2", "ISZ_NONE", "M_IMDAT", "M_SR", "OP___", "OP___", "SZ_WORD"]⟩,
  ⟨0x200, ['A', 'N', 'D', 'I'], ["E2", "ISZ_DATA", "M_IMDAT", "M_WDATA", "OP___", "OP_10", "SZ_DATA"]⟩,
  ⟨0x400, ['S', 'U', 'B', 'I'], ["E2", "ISZ_DATA", "M_IMDAT", "M_WDATA", "OP___", "OP_10", "SZ_DATA"]⟩,
  ⟨0x600, ['A', 'D', 'D', 'I'], ["E2", "ISZ_DATA", "M_IMDAT", "M_WDATA", "OP___", "OP_10", "SZ_DATA"]⟩,
  ⟨0xa3c, ['E', 'O', 'R', 'I'], ["E2", "ISZ_NONE", "M_IMDAT", "M_CCR", "OP___", "OP___", "SZ_BYTE"]⟩,
  ⟨0xa7c, ['E', 'O', 'R', 'I'], ["E2", "ISZ_NONE", "M_IMDAT", "M_SR", "OP___", "OP___", "SZ_WORD"]⟩,
  ⟨0xa00, ['E', 'O', 'R', 'I'], ["E2", "ISZ_DATA", "M_IMDAT", "M_WDATA", "OP___", "OP_10", "SZ_DATA"]⟩,
  ⟨0xc00, ['C', 'M', 'P', 'I'], ["E2", "ISZ_DATA", "M_IMDAT", "M_WDATA", "OP___", "OP_10", "SZ_DATA"]⟩,
  ⟨0x800, ['B', 'T', 'S', 'T'], ["E2", "ISZ_FIXD", "M_IMBIT", "M_DREG", "OP___", "OP__0", "SZ_LONG"]⟩,
  ⟨0x800, ['B', 'T', 'S', 'T'], ["E2", "ISZ_FIXD", "M_IMBIT", "M_RMEM", "OP___", "OP_10", "SZ_BYTE"]⟩,
  ⟨0x840, ['B', 'C', 'H', 'G'], ["E2", "ISZ_FIXD", "M_IMBIT", "M_DREG", "OP___", "OP__0", "SZ_LONG"]⟩,
  ⟨0x840, ['B', 'C', 'H', 'G'], ["E2", "ISZ_FIXD", "M_IMBIT", "M_WMEM", "OP___", "OP_10", "SZ_BYTE"]⟩,
  ⟨0x880, ['B', 'C', 'L', 'R'], ["E2", "ISZ_FIXD", "M_IMBIT", "M_DREG", "OP___", "OP__0", "SZ_LONG"]⟩,
  ⟨0x880, ['B', 'C', 'L', 'R'], ["E2", "ISZ_FIXD", "M_IMBIT", "M_WMEM", "OP___", "OP_10", "SZ_BYTE"]⟩,
  ⟨0x8c0, ['B', 'S', 'E', 'T'], ["E2", "ISZ_FIXD", "M_IMBIT", "M_DREG", "OP___", "OP__0", "SZ_LONG"]⟩,
  ⟨0x8c0, ['B', 'S', 'E', 'T'], ["E2", "ISZ_FIXD", "M_IMBIT", "M_WMEM", "OP___", "OP_10", "SZ_BYTE"]⟩,
  ⟨0x108, ['M', 'O', 'V', 'E', 'P'], ["E2", "ISZ_DATA", "M_DISP", "M_DREG", "OP__0", "OP__3", "SZ_ADDR"]⟩,
  ⟨0x188, ['M', 'O', 'V', 'E', 'P'], ["E2", "ISZ_DATA", "M_DREG", "M_DISP", "OP__3", "OP__0", "SZ_ADDR"]⟩,
  ⟨0x100, ['B', 'T', 'S', 'T'], ["E2", "ISZ_FIXD", "M_DREG", "M_DREG", "OP__3", "OP__0", "SZ_LONG"]⟩,
  ⟨0x100, ['B', 'T', 'S', 'T'], ["E2", "ISZ_FIXD", "M_DREG", "M_RMEM", "OP__3", "OP_10", "SZ_BYTE"]⟩,
  ⟨0x140, ['B', 'C', 'H', 'G'], ["E2", "ISZ_FIXD", "M_DREG", "M_DREG", "OP__3", "OP__0", "SZ_LONG"]⟩,
  ⟨0x140, ['B', 'C', 'H', 'G'], ["E2", "ISZ_FIXD", "M_DREG", "M_WMEM", "OP__3", "OP_10", "SZ_BYTE"]⟩,
  ⟨0x180, ['B', 'C', 'L', 'R'], ["E2", "ISZ_FIXD", "M_DREG", "M_DREG", "OP__3", "OP__0", "SZ_LONG"]⟩,
  ⟨0x180, ['B', 'C', 'L', 'R'], ["E2", "ISZ_FIXD", "M_DREG", "M_WMEM", "OP__3", "OP_10", "SZ_BYTE"]⟩,
  ⟨0x1c0, ['B', 'S', 'E', 'T'], ["E2", "ISZ_FIXD", "M_DREG", "M_DREG", "OP__3", "OP__0", "SZ_LONG"]⟩,
  ⟨0x1c0, ['B', 'S', 'E', 'T'], ["E2", "ISZ_FIXD", "M_DREG", "M_WMEM", "OP__3", "OP_10", "SZ_BYTE"]⟩,
  ⟨0x2040, ['M', 'O', 'V', 'E', 'A'], ["E2", "ISZ_LONG", "M_RADDR", "M_AREG", "OP_10", "OP__3", "SZ_LONG"]⟩,
  ⟨0x3040, ['M', 'O', 'V', 'E', 'A'], ["E2", "ISZ_WORD", "M_RADDR", "M_AREG", "OP_10", "OP__3", "SZ_WORD"]⟩,
  ⟨0x3040, ['M', 'O', 'V', 'E', 'A'], ["E2", "ISZ_FIXD", "M_RADDR", "M_AREG", "OP_10", "OP__3", "SZ_WORD"]⟩,
  ⟨0x44c0, ['M', 'O', 'V', 'E'], ["E2", "ISZ_FIXD", "M_RDATA", "M_CCR", "OP_10", "OP___", "SZ_WORD"]⟩,
  ⟨0x40c0, ['M', 'O', 'V', 'E'], ["E2", "ISZ_FIXD", "M_SR", "M_WDATA", "OP___", "OP_10", "SZ_WORD"]⟩,
  ⟨0x46c0, ['M', 'O', 'V', 'E'], ["E2", "ISZ_FIXD", "M_RDATA", "M_SR", "OP_10", "OP___", "SZ_WORD"]⟩,
  ⟨0x1000, ['M', 'O', 'V', 'E'], ["E2", "ISZ_BYTE", "M_RDATA", "M_WDATA", "OP_10", "OP_23", "SZ_BYTE"]⟩,
  ⟨0x2000, ['M', 'O', 'V', 'E'], ["E2", "ISZ_LONG", "M_RADDR", "M_WDATA", "OP_10", "OP_23", "SZ_LONG"]⟩,
  ⟨0x3000, ['M', 'O', 'V', 'E'], ["E2", "ISZ_WORD", "M_RADDR", "M_WDATA", "OP_10", "OP_23", "SZ_WORD"]⟩,
  ⟨0x4000, ['N', 'E', 'G', 'X'], ["E1", "ISZ_DATA", "M_WDATA", "OP_10", "SZ_DATA"]⟩,
  ⟨0x4200, ['C', 'L', 'R'], ["E1", "ISZ_DATA", "M_WDATA", "OP_10", "SZ_DATA"]⟩,
  ⟨0x4400, ['N', 'E', 'G'], ["E1", "ISZ_DATA", "M_WDATA", "OP_10", "SZ_DATA"]⟩,
  ⟨0x4600, ['N', 'O', 'T'], ["E1", "ISZ_DATA", "M_WDATA", "OP_10", "SZ_DATA"]⟩,
  ⟨0x4880, ['E', 'X', 'T'], ["E1", "ISZ_DATA", "M_DREG", "OP__0", "SZ_ADDR"]⟩,
  ⟨0x4800, ['N', 'B', 'C', 'D'], ["E1", "ISZ_NONE", "M_WDATA", "OP_10", "SZ_BYTE"]⟩,
  ⟨0x4840, ['S', 'W', 'A', 'P'], ["E1", "ISZ_NONE", "M_DREG", "OP__0", "SZ_LONG"]⟩,
  ⟨0x4840, ['P', 'E', 'A'], ["E1", "ISZ_NONE", "M_JADDR", "OP_10", "SZ_LONG"]⟩,
  ⟨0x4afc, ['I', 'L', 'L', 'E', 'G', 'A', 'L'], ["E0"]⟩,
  ⟨0x4ac0, ['T', 'A', 'S'], ["E1", "ISZ_NONE", "M_WDATA", "OP_10", "SZ_BYTE"]⟩,
  ⟨0x4a00, ['T', 'S', 'T'], ["E1", "ISZ_DATA", "M_WDATA", "OP_10", "SZ_DATA"]⟩,
  ⟨0x4e40, ['T', 'R', 'A', 'P'], ["E1", "ISZ_NONE", "M_IMVEC", "OP___", "SZ_NONE"]⟩,
  ⟨0x4e50, ['L', 'I', 'N', 'K'], ["E2", "ISZ_NONE", "M_AREG", "M_IMDSP", "OP__0", "OP___", "SZ_WORD"]⟩,
  ⟨0x4e58, ['U', 'N', 'L', 'K'], ["E1", "ISZ_NONE", "M_AREG", "OP__0", "SZ_NONE"]⟩,
  ⟨0x4e60, ['M', 'O', 'V', 'E'], ["E2", "ISZ_NONE", "M_AREG", "M_USP", "OP__0", "OP___", "SZ_LONG"]⟩,
  ⟨0x4e68, ['M', 'O', 'V', 'E'], ["E2", "ISZ_NONE", "M_USP", "M_AREG", "OP___", "OP__0", "SZ_LONG"]⟩,
  ⟨0x4e70, ['R', 'E', 'S', 'E', 'T'], ["E0"]⟩,
  ⟨0x4e71, ['N', 'O', 'P'], ["E0"]⟩,
  ⟨0x4e72, ['S', 'T', 'O', 'P'], ["E1", "ISZ_NONE", "M_IMDAT", "OP___", "SZ_WORD"]⟩,
  ⟨0x4e73, ['R', 'T', 'E'], ["E0"]⟩,
  ⟨0x4e75, ['R', 'T', 'S'], ["E0"]⟩,
  ⟨0x4e76, ['T', 'R', 'A', 'P', 'V'], ["E0"]⟩,
  ⟨0x4e77, ['R', 'T', 'R'], ["E0"]⟩,
  ⟨0x4e80, ['J', 'S', 'R'], ["E1", "ISZ_NONE", "M_JADDR", "OP_10", "SZ_WORD"]⟩,
  ⟨0x4ec0, ['J', 'M', 'P'], ["E1", "ISZ_NONE", "M_JADDR", "OP_10", "SZ_WORD"]⟩,
  ⟨0x4880, ['M', 'O', 'V', 'E', 'M'], ["E2", "ISZ_DATA", "M_MULT", "M_DADDR", "OP___", "OP_10", "SZ_ADDR"]⟩,
  ⟨0x4c80, ['M', 'O', 'V', 'E', 'M'], ["E2", "ISZ_DATA", "M_IADDR", "M_MULT", "OP_10", "OP___", "SZ_ADDR"]⟩,
  ⟨0x41c0, ['L', 'E', 'A'], ["E2", "ISZ_NONE", "M_JADDR", "M_AREG", "OP_10", "OP__3", "SZ_LONG"]⟩,
  ⟨0x4180, ['C', 'H', 'K'], ["E2", "ISZ_WORD", "M_RDATA", "M_DREG", "OP_10", "OP__3", "SZ_WORD"]⟩,
  ⟨0x50c8, ['D', 'B', 'T'], ["E2", "ISZ_NONE", "M_DREG", "M_REL16", "OP__0", "OP___", "SZ_WORD"]⟩,
  ⟨0x51c8, ['D', 'B', 'R', 'A'], ["E2", "ISZ_NONE", "M_DREG", "M_REL16", "OP__0", "OP___", "SZ_WORD"]⟩,
  ⟨0x51c8, ['D', 'B', 'F'], ["E2", "ISZ_NONE", "M_DREG", "M_REL16", "OP__0", "OP___", "SZ_WORD"]⟩,
  ⟨0x52c8, ['D', 'B', 'H', 'I'], ["E2", "ISZ_NONE", "M_DREG", "M_REL16", "OP__0", "OP___", "SZ_WORD"]⟩,
  ⟨0x53c8, ['D', 'B', 'L', 'S'], ["E2", "ISZ_NONE", "M_DREG", "M_REL16", "OP__0", "OP___", "SZ_WORD"]⟩,
  ⟨0x54c8, ['D', 'B', 'C', 'C'], ["E2", "ISZ_NONE", "M_DREG", "M_REL16", "OP__0", "OP___", "SZ_WORD"]⟩,
  ⟨0x54c8, ['D', 'B', 'H', 'S'], ["E2", "ISZ_NONE", "M_DREG", "M_REL16", "OP__0", "OP___", "SZ_WORD"]⟩,
  ⟨0x55c8, ['D', 'B', 'C', 'S'], ["E2", "ISZ_NONE", "M_DREG", "M_REL16", "OP__0", "OP___", "SZ_WORD"]⟩,
  ⟨0x55c8, ['D', 'B', 'L', 'O'], ["E2", "ISZ_NONE", "M_DREG", "M_REL16", "OP__0", "OP___", "SZ_WORD"]⟩,
  ⟨0x56c8, ['D', 'B', 'N', 'E'], ["E2", "ISZ_NONE", "M_DREG", "M_REL16", "OP__0", "OP___", "SZ_WORD"]⟩,
  ⟨0x57c8, ['D', 'B', 'E', 'Q'], ["E2", "ISZ_NONE", "M_DREG", "M_REL16", "OP__0", "OP___", "SZ_WORD"]⟩,
  ⟨0x58c8, ['D', 'B', 'V', 'C'], ["E2", "ISZ_NONE", "M_DREG", "M_REL16", "OP__0", "OP___", "SZ_WORD"]⟩,
  ⟨0x59c8, ['D', 'B', 'V', 'S'], ["E2", "ISZ_NONE", "M_DREG", "M_REL16", "OP__0", "OP___", "SZ_WORD"]⟩,
  ⟨0x5ac8, ['D', 'B', 'P', 'L'], ["E2", "ISZ_NONE", "M_DREG", "M_REL16", "OP__0", "OP___", "SZ_WORD"]⟩,
  ⟨0x5bc8, ['D', 'B', 'M', 'I'], ["E2", "ISZ_NONE", "M_DREG", "M_REL16", "OP__0", "OP___", "SZ_WORD"]⟩,
  ⟨0x5cc8, ['D', 'B', 'G', 'E'], ["E2", "ISZ_NONE", "M_DREG", "M_REL16", "OP__0", "OP___", "SZ_WORD"]⟩,
  ⟨0x5dc8, ['D', 'B', 'L', 'T'], ["E2", "ISZ_NONE", "M_DREG", "M_REL16", "OP__0", "OP___", "SZ_WORD"]⟩,
  ⟨0x5ec8, ['D', 'B', 'G', 'T'], ["E2", "ISZ_NONE", "M_DREG", "M_REL16", "OP__0", "OP___", "SZ_WORD"]⟩,
  ⟨0x5fc8, ['D', 'B', 'L', 'E'], ["E2", "ISZ_NONE", "M_DREG", "M_REL16", "OP__0", "OP___", "SZ_WORD"]⟩,
  ⟨0x50c0, ['S', 'T'], ["E1", "ISZ_NONE", "M_WDATA", "OP_10", "SZ_BYTE"]⟩,
  ⟨0x51c0, ['S', 'F'], ["E1", "ISZ_NONE", "M_WDATA", "OP_10", "SZ_BYTE"]⟩,
  ⟨0x52c0, ['S', 'H', 'I'], ["E1", "ISZ_NONE", "M_WDATA", "OP_10", "SZ_BYTE"]⟩,
  ⟨0x53c0, ['S', 'L', 'S'], ["E1", "ISZ_NONE", "M_WDATA", "OP_10", "SZ_BYTE"]⟩,
  ⟨0x54c0, ['S', 'C', 'C'], ["E1", "ISZ_NONE", "M_WDATA", "OP_10", "SZ_BYTE"]⟩,
  ⟨0x54c0, ['S', 'H', 'S'], ["E1", "ISZ_NONE", "M_WDATA", "OP_10", "SZ_BYTE"]⟩,
  ⟨0x55c0, ['S', 'C', 'S'], ["E1", "ISZ_NONE", "M_WDATA", "OP_10", "SZ_BYTE"]⟩,
  ⟨0x55c0, ['S', 'L', 'O'], ["E1", "ISZ_NONE", "M_WDATA", "OP_10", "SZ_BYTE"]⟩,
  ⟨0x56c0, ['S', 'N', 'E'], ["E1", "ISZ_NONE", "M_WDATA", "OP_10", "SZ_BYTE"]⟩,
  ⟨0x57c0, ['S', 'E', 'Q'], ["E1", "ISZ_NONE", "M_WDATA", "OP_10", "SZ_BYTE"]⟩,
  ⟨0x58c0, ['S', 'V', 'C'], ["E1", "ISZ_NONE", "M_WDATA", "OP_10", "SZ_BYTE"]⟩,
  ⟨0x59c0, ['S', 'V', 'S'], ["E1", "ISZ_NONE", "M_WDATA", "OP_10", "SZ_BYTE"]⟩,
  ⟨0x5ac0, ['S', 'P', 'L'], ["E1", "ISZ_NONE", "M_WDATA", "OP_10", "SZ_BYTE"]⟩,
  ⟨0x5bc0, ['S', 'M', 'I'], ["E1", "ISZ_NONE", "M_WDATA", "OP_10", "SZ_BYTE"]⟩,
  ⟨0x5cc0, ['S', 'G', 'E'], ["E1", "ISZ_NONE", "M_WDATA", "OP_10", "SZ_BYTE"]⟩,
  ⟨0x5dc0, ['S', 'L', 'T'], ["E1", "ISZ_NONE", "M_WDATA", "OP_10", "SZ_BYTE"]⟩,
  ⟨0x5ec0, ['S', 'G', 'T'], ["E1", "ISZ_NONE", "M_WDATA", "OP_10", "SZ_BYTE"]⟩,
  ⟨0x5fc0, ['S', 'L', 'E'], ["E1", "ISZ_NONE", "M_WDATA", "OP_10", "SZ_BYTE"]⟩,
  ⟨0x5000, ['A', 'D', 'D', 'Q'], ["E2", "ISZ_DATA", "M_IM3", "M_WADDR", "OP___", "OP_10", "SZ_DATA"]⟩,
  ⟨0x5100, ['S', 'U', 'B', 'Q'], ["E2", "ISZ_DATA", "M_IM3", "M_WADDR", "OP___", "OP_10", "SZ_DATA"]⟩,
  ⟨0x6000, ['B', 'R', 'A'], ["E1", "ISZ_NONE", "M_REL8", "OP___", "SZ_BYTE"]⟩,
  ⟨0x6000, ['B', 'R', 'A'], ["E1", "ISZ_NONE", "M_REL16", "OP___", "SZ_WORD"]⟩,
  ⟨0x6000, ['B', 'T'], ["E1", "ISZ_NONE", "M_REL8", "OP___", "SZ_BYTE"]⟩,
  ⟨0x6000, ['B', 'T'], ["E1", "ISZ_NONE", "M_REL16", "OP___", "SZ_WORD"]⟩,
  ⟨0x6100, ['B', 'S', 'R'], ["E1", "ISZ_NONE", "M_REL8", "OP___", "SZ_BYTE"]⟩,
  ⟨0x6100, ['B', 'S', 'R'], ["E1", "ISZ_NONE", "M_REL16", "OP___", "SZ_WORD"]⟩,
  ⟨0x6200, ['B', 'H', 'I'], ["E1", "ISZ_NONE", "M_REL8", "OP___", "SZ_BYTE"]⟩,
  ⟨0x6200, ['B', 'H', 'I'], ["E1", "ISZ_NONE", "M_REL16", "OP___", "SZ_WORD"]⟩,
  ⟨0x6300, ['B', 'L', 'S'], ["E1", "ISZ_NONE", "M_REL8", "OP___", "SZ_BYTE"]⟩,
  ⟨0x6300, ['B', 'L', 'S'], ["E1", "ISZ_NONE", "M_REL16", "OP___", "SZ_WORD"]⟩,
  ⟨0x6400, ['B', 'C', 'C'], ["E1", "ISZ_NONE", "M_REL8", "OP___", "SZ_BYTE"]⟩,
  ⟨0x6400, ['B', 'C', 'C'], ["E1", "ISZ_NONE", "M_REL16", "OP___", "SZ_WORD"]⟩,
  ⟨0x6400, ['B', 'H', 'S'], ["E1", "ISZ_NONE", "M_REL8", "OP___", "SZ_BYTE"]⟩,
  ⟨0x6400, ['B', 'H', 'S'], ["E1", "ISZ_NONE", "M_REL16", "OP___", "SZ_WORD"]⟩,
  ⟨0x6500, ['B', 'C', 'S'], ["E1", "ISZ_NONE", "M_REL8", "OP___", "SZ_BYTE"]⟩,
  ⟨0x6500, ['B', 'C', 'S'], ["E1", "ISZ_NONE", "M_REL16", "OP___", "SZ_WORD"]⟩,
  ⟨0x6500, ['B', 'L', 'O'], ["E1", "ISZ_NONE", "M_REL8", "OP___", "SZ_BYTE"]⟩,
  ⟨0x6500, ['B', 'L', 'O'], ["E1", "ISZ_NONE", "M_REL16", "OP___", "SZ_WORD"]⟩,
  ⟨0x6600, ['B', 'N', 'E'], ["E1", "ISZ_NONE", "M_REL8", "OP___", "SZ_BYTE"]⟩,
  ⟨0x6600, ['B', 'N', 'E'], ["E1", "ISZ_NONE", "M_REL16", "OP___", "SZ_WORD"]⟩,
  ⟨0x6700, ['B', 'E', 'Q'], ["E1", "ISZ_NONE", "M_REL8", "OP___", "SZ_BYTE"]⟩,
  ⟨0x6700, ['B', 'E', 'Q'], ["E1", "ISZ_NONE", "M_REL16", "OP___", "SZ_WORD"]⟩,
  ⟨0x6800, ['B', 'V', 'C'], ["E1", "ISZ_NONE", "M_REL8", "OP___", "SZ_BYTE"]⟩,
  ⟨0x6800, ['B', 'V', 'C'], ["E1", "ISZ_NONE", "M_REL16", "OP___", "SZ_WORD"]⟩,
  ⟨0x6900, ['B', 'V', 'S'], ["E1", "ISZ_NONE", "M_REL8", "OP___", "SZ_BYTE"]⟩,
  ⟨0x6900, ['B', 'V', 'S'], ["E1", "ISZ_NONE", "M_REL16", "OP___", "SZ_WORD"]⟩,
  ⟨0x6a00, ['B', 'P', 'L'], ["E1", "ISZ_NONE", "M_REL8", "OP___", "SZ_BYTE"]⟩,
  ⟨0x6a00, ['B', 'P', 'L'], ["E1", "ISZ_NONE", "M_REL16", "OP___", "SZ_WORD"]⟩,
  ⟨0x6b00, ['B', 'M', 'I'], ["E1", "ISZ_NONE", "M_REL8", "OP___", "SZ_BYTE"]⟩,
  ⟨0x6b00, ['B', 'M', 'I'], ["E1", "ISZ_NONE", "M_REL16", "OP___", "SZ_WORD"]⟩,
  ⟨0x6c00, ['B', 'G', 'E'], ["E1", "ISZ_NONE", "M_REL8", "OP___", "SZ_BYTE"]⟩,
  ⟨0x6c00, ['B', 'G', 'E'], ["E1", "ISZ_NONE", "M_REL16", "OP___", "SZ_WORD"]⟩,
  ⟨0x6d00, ['B', 'L', 'T'], ["E1", "ISZ_NONE", "M_REL8", "OP___", "SZ_BYTE"]⟩,
  ⟨0x6d00, ['B', 'L', 'T'], ["E1", "ISZ_NONE", "M_REL16", "OP___", "SZ_WORD"]⟩,
  ⟨0x6e00, ['B', 'G', 'T'], ["E1", "ISZ_NONE", "M_REL8", "OP___", "SZ_BYTE"]⟩,
  ⟨0x6e00, ['B', 'G', 'T'], ["E1", "ISZ_NONE", "M_REL16", "OP___", "SZ_WORD"]⟩,
  ⟨0x6f00, ['B', 'L', 'E'], ["E1", "ISZ_NONE", "M_REL8", "OP___", "SZ_BYTE"]⟩,
  ⟨0x6f00, ['B', 'L', 'E'], ["E1", "ISZ_NONE", "M_REL16", "OP___", "SZ_WORD"]⟩,
  ⟨0x7000, ['M', 'O', 'V', 'E', 'Q'], ["E2", "ISZ_NONE", "M_IM8", "M_DREG", "OP___", "OP__3", "SZ_LONG"]⟩,
  ⟨0x80c0, ['D', 'I', 'V', 'U'], ["E2", "ISZ_DATA", "M_RDATA", "M_DREG", "OP_10", "OP__3", "SZ_WORD"]⟩,
  ⟨0x81c0, ['D', 'I', 'V', 'S'], ["E2", "ISZ_DATA", "M_RDATA", "M_DREG", "OP_10", "OP__3", "SZ_WORD"]⟩,
  ⟨0x8000, ['O', 'R'], ["E2", "ISZ_DATA", "M_RDATA", "M_DREG", "OP_10", "OP__3", "SZ_DATA"]⟩,
  ⟨0x8100, ['S', 'B', 'C', 'D'], ["E2", "ISZ_NONE", "M_DREG", "M_DREG", "OP__0", "OP__3", "SZ_BYTE"]⟩,
  ⟨0x8108, ['S', 'B', 'C', 'D'], ["E2", "ISZ_NONE", "M_PDEC", "M_PDEC", "OP__0", "OP__3", "SZ_BYTE"]⟩,
  ⟨0x8100, ['O', 'R'], ["E2", "ISZ_DATA", "M_DREG", "M_WMEM", "OP__3", "OP_10", "SZ_DATA"]⟩,
  ⟨0x90c0, ['S', 'U', 'B', 'A'], ["E2", "ISZ_DATA", "M_RADDR", "M_AREG", "OP_10", "OP__3", "SZ_ADR8"]⟩,
  ⟨0x9100, ['S', 'U', 'B', 'X'], ["E2", "ISZ_DATA", "M_DREG", "M_DREG", "OP__0", "OP__3", "SZ_DATA"]⟩,
  ⟨0x9108, ['S', 'U', 'B', 'X'], ["E2", "ISZ_DATA", "M_PDEC", "M_PDEC", "OP__0", "OP__3", "SZ_DATA"]⟩,
  ⟨0x9000, ['S', 'U', 'B'], ["E2", "ISZ_DATA", "M_RADDR", "M_DREG", "OP_10", "OP__3", "SZ_DATA"]⟩,
  ⟨0x9100, ['S', 'U', 'B'], ["E2", "ISZ_DATA", "M_DREG", "M_WMEM", "OP__3", "OP_10", "SZ_DATA"]⟩,
  ⟨0xb0c0, ['C', 'M', 'P', 'A'], ["E2", "ISZ_DATA", "M_RADDR", "M_AREG", "OP_10", "OP__3", "SZ_ADR8"]⟩,
  ⟨0xb000, ['C', 'M', 'P'], ["E2", "ISZ_DATA", "M_RADDR", "M_DREG", "OP_10", "OP__3", "SZ_DATA"]⟩,
  ⟨0xb108, ['C', 'M', 'P', 'M'], ["E2", "ISZ_DATA", "M_PINC", "M_PINC", "OP__0", "OP__3", "SZ_DATA"]⟩,
  ⟨0xb100, ['E', 'O', 'R'], ["E2", "ISZ_DATA", "M_DREG", "M_WDATA", "OP__3", "OP_10", "SZ_DATA"]⟩,
  ⟨0xc0c0, ['M', 'U', 'L', 'U'], ["E2", "ISZ_DATA", "M_RDATA", "M_DREG", "OP_10", "OP__3", "SZ_WORD"]⟩,
  ⟨0xc1c0, ['M', 'U', 'L', 'S'], ["E2", "ISZ_DATA", "M_RDATA", "M_DREG", "OP_10", "OP__3", "SZ_WORD"]⟩,
  ⟨0xc000, ['A', 'N', 'D'], ["E2", "ISZ_DATA", "M_RDATA", "M_DREG", "OP_10", "OP__3", "SZ_DATA"]⟩,
  ⟨0xc100, ['A', 'B', 'C', 'D'], ["E2", "ISZ_NONE", "M_DREG", "M_DREG", "OP__0", "OP__3", "SZ_BYTE"]⟩,
  ⟨0xc108, ['A', 'B', 'C', 'D'], ["E2", "ISZ_NONE", "M_PDEC", "M_PDEC", "OP__0", "OP__3", "SZ_BYTE"]⟩,
  ⟨0xc140, ['E', 'X', 'G'], ["E2", "ISZ_NONE", "M_DREG", "M_DREG", "OP__3", "OP__0", "SZ_LONG"]⟩,
  ⟨0xc148, ['E', 'X', 'G'], ["E2", "ISZ_NONE", "M_AREG", "M_AREG", "OP__3", "OP__0", "SZ_LONG"]⟩,
  ⟨0xc188, ['E', 'X', 'G'], ["E2", "ISZ_NONE", "M_DREG", "M_AREG", "OP__3", "OP__0", "SZ_LONG"]⟩,
  ⟨0xc188, ['E', 'X', 'G'], ["E2", "ISZ_NONE", "M_AREG", "M_DREG", "OP__0", "OP__3", "SZ_LONG"]⟩,
  ⟨0xc100, ['A', 'N', 'D'], ["E2", "ISZ_DATA", "M_DREG", "M_WMEM", "OP__3", "OP_10", "SZ_DATA"]⟩,
  ⟨0xd0c0, ['A', 'D', 'D', 'A'], ["E2", "ISZ_DATA", "M_RADDR", "M_AREG", "OP_10", "OP__3", "SZ_ADR8"]⟩,
  ⟨0xd100, ['A', 'D', 'D', 'X'], ["E2", "ISZ_DATA", "M_DREG", "M_DREG", "OP__0", "OP__3", "SZ_DATA"]⟩,
  ⟨0xd108, ['A', 'D', 'D', 'X'], ["E2", "ISZ_DATA", "M_PDEC", "M_PDEC", "OP__0", "OP__3", "SZ_DATA"]⟩,
  ⟨0xd000, ['A', 'D', 'D'], ["E2", "ISZ_DATA", "M_RADDR", "M_DREG", "OP_10", "OP__3", "SZ_DATA"]⟩,
  ⟨0xd100, ['A', 'D', 'D'], ["E2", "ISZ_DATA", "M_DREG", "M_WMEM", "OP__3", "OP_10", "SZ_DATA"]⟩,
  ⟨0xe0c0, ['A', 'S', 'R'], ["E1", "ISZ_DATA", "M_WMEM", "OP_10", "SZ_WORD"]⟩,
  ⟨0xe1c0, ['A', 'S', 'L'], ["E1", "ISZ_DATA", "M_WMEM", "OP_10", "SZ_WORD"]⟩,
  ⟨0xe2c0, ['L', 'S', 'R'], ["E1", "ISZ_DATA", "M_WMEM", "OP_10", "SZ_WORD"]⟩,
  ⟨0xe3c0, ['L', 'S', 'L'], ["E1", "ISZ_DATA", "M_WMEM", "OP_10", "SZ_WORD"]⟩,
  ⟨0xe4c0, ['R', 'O', 'X', 'R'], ["E1", "ISZ_DATA", "M_WMEM", "OP_10", "SZ_WORD"]⟩,
  ⟨0xe5c0, ['R', 'O', 'X', 'L'], ["E1", "ISZ_DATA", "M_WMEM", "OP_10", "SZ_WORD"]⟩,
  ⟨0xe6c0, ['R', 'O', 'R'], ["E1", "ISZ_DATA", "M_WMEM", "OP_10", "SZ_WORD"]⟩,
  ⟨0xe7c0, ['R', 'O', 'L'], ["E1", "ISZ_DATA", "M_WMEM", "OP_10", "SZ_WORD"]⟩,
  ⟨0xe000, ['A', 'S', 'R'], ["E2", "ISZ_DATA", "M_IM3", "M_DREG", "OP___", "OP__0", "SZ_DATA"]⟩,
  ⟨0xe020, ['A', 'S', 'R'], ["E2", "ISZ_DATA", "M_DREG", "M_DREG", "OP__3", "OP__0", "SZ_DATA"]⟩,
  ⟨0xe100, ['A', 'S', 'L'], ["E2", "ISZ_DATA", "M_IM3", "M_DREG", "OP___", "OP__0", "SZ_DATA"]⟩,
  ⟨0xe120, ['A', 'S', 'L'], ["E2", "ISZ_DATA", "M_DREG", "M_DREG", "OP__3", "OP__0", "SZ_DATA"]⟩,
  ⟨0xe008, ['L', 'S', 'R'], ["E2", "ISZ_DATA", "M_IM3", "M_DREG", "OP___", "OP__0", "SZ_DATA"]⟩,
  ⟨0xe028, ['L', 'S', 'R'], ["E2", "ISZ_DATA", "M_DREG", "M_DREG", "OP__3", "OP__0", "SZ_DATA"]⟩,
  ⟨0xe108, ['L', 'S', 'L'], ["E2", "ISZ_DATA", "M_IM3", "M_DREG", "OP___", "OP__0", "SZ_DATA"]⟩,
  ⟨0xe128, ['L', 'S', 'L'], ["E2", "ISZ_DATA", "M_DREG", "M_DREG", "OP__3", "OP__0", "SZ_DATA"]⟩,
  ⟨0xe010, ['R', 'O', 'X', 'R'], ["E2", "ISZ_DATA", "M_IM3", "M_DREG", "OP___", "OP__0", "SZ_DATA"]⟩,
  ⟨0xe030, ['R', 'O', 'X', 'R'], ["E2", "ISZ_DATA", "M_DREG", "M_DREG", "OP__3", "OP__0", "SZ_DATA"]⟩,
  ⟨0xe110, ['R', 'O', 'X', 'L'], ["E2", "ISZ_DATA", "M_IM3", "M_DREG", "OP___", "OP__0", "SZ_DATA"]⟩,
  ⟨0xe130, ['R', 'O', 'X', 'L'], ["E2", "ISZ_DATA", "M_DREG", "M_DREG", "OP__3", "OP__0", "SZ_DATA"]⟩,
  ⟨0xe018, ['R', 'O', 'R'], ["E2", "ISZ_DATA", "M_IM3", "M_DREG", "OP___", "OP__0", "SZ_DATA"]⟩,
  ⟨0xe038, ['R', 'O', 'R'], ["E2", "ISZ_DATA", "M_DREG", "M_DREG", "OP__3", "OP__0", "SZ_DATA"]⟩,
  ⟨0xe118, ['R', 'O', 'L'], ["E2", "ISZ_DATA", "M_IM3", "M_DREG", "OP___", "OP__0", "SZ_DATA"]⟩,
  ⟨0xe138, ['R', 'O', 'L'], ["E2", "ISZ_DATA", "M_DREG", "M_DREG", "OP__3", "OP__0", "SZ_DATA"]⟩,
  ⟨0x2040, ['M', 'O', 'V', 'E'], ["A2", "ISZ_LONG", "M_RADDR", "M_AREG", "OP_10", "OP__3", "SZ_LONG"]⟩,
  ⟨0x3040, ['M', 'O', 'V', 'E'], ["A2", "ISZ_WORD", "M_RADDR", "M_AREG", "OP_10", "OP__3", "SZ_WORD"]⟩,
  ⟨0x90c0, ['S', 'U', 'B'], ["A2", "ISZ_DATA", "M_RADDR", "M_AREG", "OP_10", "OP__3", "SZ_ADR8"]⟩,
  ⟨0x90fc, ['S', 'U', 'B', 'I'], ["A2", "ISZ_DATA", "M_IMDAT", "M_AREG", "OP___", "OP__3", "SZ_ADR8"]⟩,
  ⟨0xb0fc, ['C', 'M', 'P', 'I'], ["A2", "ISZ_DATA", "M_IMDAT", "M_AREG", "OP___", "OP__3", "SZ_ADR8"]⟩,
  ⟨0xd0c0, ['A', 'D', 'D'], ["A2", "ISZ_DATA", "M_RADDR", "M_AREG", "OP_10", "OP__3", "SZ_ADR8"]⟩,
  ⟨0xd0fc, ['A', 'D', 'D', 'I'], ["A2", "ISZ_DATA", "M_IMDAT", "M_AREG", "OP___", "OP__3", "SZ_ADR8"]⟩]

/-- src/table_mc68000.cpp:251-459 -/
def MC68000_INDEX : List Nat := [
  164, 165, 174, 175, 205, 171, 7, 206, 105, 172, 173, 163, 170, 3, 4, 5,
  177, 186, 187, 176, 184, 185, 117, 118, 14, 15, 24, 25, 16, 17, 26, 27,
  121, 122, 127, 128, 137, 138, 141, 142, 113, 114, 119, 120, 143, 144, 123, 124,
  115, 116, 139, 140, 135, 136, 125, 126, 133, 134, 107, 108, 18, 19, 28, 29,
  111, 112, 109, 110, 12, 13, 22, 23, 129, 130, 131, 132, 67, 40, 158, 157,
  11, 204, 159, 73, 75, 78, 70, 83, 85, 71, 74, 86, 76, 72, 84, 82,
  77, 81, 69, 68, 79, 80, 147, 146, 160, 8, 9, 10, 166, 167, 168, 169,
  43, 47, 63, 62, 66, 51, 179, 190, 191, 178, 188, 189, 33, 34, 35, 36,
  37, 38, 53, 54, 200, 201, 30, 31, 32, 64, 65, 20, 21, 145, 162, 161,
  44, 41, 39, 56, 42, 148, 151, 0, 1, 2, 46, 55, 183, 198, 199, 182,
  196, 197, 181, 194, 195, 180, 192, 193, 58, 61, 59, 149, 150, 91, 93, 96,
  88, 101, 103, 89, 92, 104, 94, 90, 102, 100, 95, 99, 87, 57, 155, 156,
  202, 152, 6, 203, 106, 153, 154, 97, 98, 45, 48, 50, 60, 49, 52]

/-- src/table_mc68000.cpp:461-471 -/
def MC68010_TABLE : List Row := [
  ⟨0x4e74, ['R', 'T', 'D'], ["E1", "ISZ_NONE", "M_IMDAT", "OP___", "SZ_WORD"]⟩,
  ⟨0x4e7a, ['M', 'O', 'V', 'E', 'C'], ["P2", "ISZ_NONE", "M_CREG", "M_DREG", "EX_RC", "EX_RR", "SZ_LONG", "0x0000"]⟩,
  ⟨0x4e7a, ['M', 'O', 'V', 'E', 'C'], ["P2", "ISZ_NONE", "M_CREG", "M_AREG", "EX_RC", "EX_RR", "SZ_LONG", "0x8000"]⟩,
  ⟨0x4e7b, ['M', 'O', 'V', 'E', 'C'], ["P2", "ISZ_NONE", "M_DREG", "M_CREG", "EX_RR", "EX_RC", "SZ_LONG", "0x0000"]⟩,
  ⟨0x4e7b, ['M', 'O', 'V', 'E', 'C'], ["P2", "ISZ_NONE", "M_AREG", "M_CREG", "EX_RR", "EX_RC", "SZ_LONG", "0x8000"]⟩,
  ⟨0xe00, ['M', 'O', 'V', 'E', 'S'], ["P2", "ISZ_DATA", "M_WMEM", "M_DREG", "OP_10", "EX_RR", "SZ_DATA", "0x0000"]⟩,
  ⟨0xe00, ['M', 'O', 'V', 'E', 'S'], ["P2", "ISZ_DATA", "M_WMEM", "M_AREG", "OP_10", "EX_RR", "SZ_DATA", "0x8000"]⟩,
  ⟨0xe00, ['M', 'O', 'V', 'E', 'S'], ["P2", "ISZ_DATA", "M_DREG", "M_WMEM", "EX_RR", "OP_10", "SZ_DATA", "0x0800"]⟩,
  ⟨0xe00, ['M', 'O', 'V', 'E', 'S'], ["P2", "ISZ_DATA", "M_AREG", "M_WMEM", "EX_RR", "OP_10", "SZ_DATA", "0x8800"]⟩]

/-- src/table_mc68000.cpp:473-483 -/
def MC68010_INDEX : List Nat := [
  1, 2, 3, 4, 5, 6, 7, 8, 0]

/-- src/table_mc68000.cpp:487-619 -/
def MC68881_ARITH : List Row := [
  ⟨0xf000, ['F', 'M', 'O', 'V', 'E'], ["P2", "ISZ_FIXD", "M_FPREG", "M_FPREG", "EX_RX", "EX_RY", "SZ_XTND", "0x0000"]⟩,
  ⟨0xf000, ['F', 'I', 'N', 'T'], ["P2", "ISZ_FIXD", "M_FPREG", "M_FPREG", "EX_RX", "EX_RY", "SZ_XTND", "0x0001"]⟩,
  ⟨0xf000, ['F', 'S', 'I', 'N', 'H'], ["P2", "ISZ_FIXD", "M_FPREG", "M_FPREG", "EX_RX", "EX_RY", "SZ_XTND", "0x0002"]⟩,
  ⟨0xf000, ['F', 'I', 'N', 'T', 'R', 'Z'], ["P2", "ISZ_FIXD", "M_FPREG", "M_FPREG", "EX_RX", "EX_RY", "SZ_XTND", "0x0003"]⟩,
  ⟨0xf000, ['F', 'S', 'Q', 'R', 'T'], ["P2", "ISZ_FIXD", "M_FPREG", "M_FPREG", "EX_RX", "EX_RY", "SZ_XTND", "0x0004"]⟩,
  ⟨0xf000, ['F', 'L', 'O', 'G', 'N', 'P', '1'], ["P2", "ISZ_FIXD", "M_FPREG", "M_FPREG", "EX_RX", "EX_RY", "SZ_XTND", "0x0006"]⟩,
  ⟨0xf000, ['F', 'E', 'T', 'O', 'X', 'M', '1'], ["P2", "ISZ_FIXD", "M_FPREG", "M_FPREG", "EX_RX", "EX_RY", "SZ_XTND", "0x0008"]⟩,
  ⟨0xf000, ['F', 'T', 'A', 'N', 'H'], ["P2", "ISZ_FIXD", "M_FPREG", "M_FPREG", "EX_RX", "EX_RY", "SZ_XTND", "0x0009"]⟩,
  ⟨0xf000, ['F', 'A', 'T', 'A', 'N'], ["P2", "ISZ_FIXD", "M_FPREG", "M_FPREG", "EX_RX", "EX_RY", "SZ_XTND", "0x000A"]⟩,
  ⟨0xf000, ['F', 'A', 'S', 'I', 'N'], ["P2", "ISZ_FIXD", "M_FPREG", "M_FPREG", "EX_RX", "EX_RY", "SZ_XTND", "0x000C"]⟩,
  ⟨0xf000, ['F', 'A', 'T', 'A', 'N', 'H'], ["P2", "ISZ_FIXD", "M_FPREG", "M_FPREG", "EX_RX", "EX_RY", "SZ_XTND", "0x000D"]⟩,
  ⟨0xf000, ['F', 'S', 'I', 'N'], ["P2", "ISZ_FIXD", "M_FPREG", "M_FPREG", "EX_RX", "EX_RY", "SZ_XTND", "0x000E"]⟩,
  ⟨0xf000, ['F', 'T', 'A', 'N'], ["P2", "ISZ_FIXD", "M_FPREG", "M_FPREG", "EX_RX", "EX_RY", "SZ_XTND", "0x000F"]⟩,
  ⟨0xf000, ['F', 'E', 'T', 'O', 'X'], ["P2", "ISZ_FIXD", "M_FPREG", "M_FPREG", "EX_RX", "EX_RY", "SZ_XTND", "0x0010"]⟩,
  ⟨0xf000, ['F', 'T', 'W', 'O', 'T', 'O', 'X'], ["P2", "ISZ_FIXD", "M_FPREG", "M_FPREG", "EX_RX", "EX_RY", "SZ_XTND", "0x0011"]⟩,
  ⟨0xf000, ['F', 'T', 'E', 'N', 'T', 'O', 'X'], ["P2", "ISZ_FIXD", "M_FPREG", "M_FPREG", "EX_RX", "EX_RY", "SZ_XTND", "0x0012"]⟩,
  ⟨0xf000, ['F', 'L', 'O', 'G', 'N'], ["P2", "ISZ_FIXD", "M_FPREG", "M_FPREG", "EX_RX", "EX_RY", "SZ_XTND", "0x0014"]⟩,
  ⟨0xf000, ['F', 'L', 'O', 'G', '1', '0'], ["P2", "ISZ_FIXD", "M_FPREG", "M_FPREG", "EX_RX", "EX_RY", "SZ_XTND", "0x0015"]⟩,
  ⟨0xf000, ['F', 'L', 'O', 'G', '2'], ["P2", "ISZ_FIXD", "M_FPREG", "M_FPREG", "EX_RX", "EX_RY", "SZ_XTND", "0x0016"]⟩,
  ⟨0xf000, ['F', 'A', 'B', 'S'], ["P2", "ISZ_FIXD", "M_FPREG", "M_FPREG", "EX_RX", "EX_RY", "SZ_XTND", "0x0018"]⟩,
  ⟨0xf000, ['F', 'C', 'O', 'S', 'H'], ["P2", "ISZ_FIXD", "M_FPREG", "M_FPREG", "EX_RX", "EX_RY", "SZ_XTND", "0x0019"]⟩,
  ⟨0xf000, ['F', 'N', 'E', 'G'], ["P2", "ISZ_FIXD", "M_FPREG", "M_FPREG", "EX_RX", "EX_RY", "SZ_XTND", "0x001A"]⟩,
  ⟨0xf000, ['F', 'A', 'C', 'O', 'S'], ["P2", "ISZ_FIXD", "M_FPREG", "M_FPREG", "EX_RX", "EX_RY", "SZ_XTND", "0x001C"]⟩,
  ⟨0xf000, ['F', 'C', 'O', 'S'], ["P2", "ISZ_FIXD", "M_FPREG", "M_FPREG", "EX_RX", "EX_RY", "SZ_XTND", "0x001D"]⟩,
  ⟨0xf000, ['F', 'G', 'E', 'T', 'E', 'X', 'P'], ["P2", "ISZ_FIXD", "M_FPREG", "M_FPREG", "EX_RX", "EX_RY", "SZ_XTND", "0x001E"]⟩,
  ⟨0xf000, ['F', 'G', 'E', 'T', 'M', 'A', 'N'], ["P2", "ISZ_FIXD", "M_FPREG", "M_FPREG", "EX_RX", "EX_RY", "SZ_XTND", "0x001F"]⟩,
  ⟨0xf000, ['F', 'D', 'I', 'V'], ["P2", "ISZ_FIXD", "M_FPREG", "M_FPREG", "EX_RX", "EX_RY", "SZ_XTND", "0x0020"]⟩,
  ⟨0xf000, ['F', 'M', 'O', 'D'], ["P2", "ISZ_FIXD", "M_FPREG", "M_FPREG", "EX_RX", "EX_RY", "SZ_XTND", "0x0021"]⟩,
  ⟨0xf000, ['F', 'A', 'D', 'D'], ["P2", "ISZ_FIXD", "M_FPREG", "M_FPREG", "EX_RX", "EX_RY", "SZ_XTND", "0x0022"]⟩,
  ⟨0xf000, ['F', 'M', 'U', 'L'], ["P2", "ISZ_FIXD", "M_FPREG", "M_FPREG", "EX_RX", "EX_RY", "SZ_XTND", "0x0023"]⟩,
  ⟨0xf000, ['F', 'S', 'G', 'L', 'D', 'I', 'V'], ["P2", "ISZ_FIXD", "M_FPREG", "M_FPREG", "EX_RX", "EX_RY", "SZ_XTND", "0x0024"]⟩,
  ⟨0xf000, ['F', 'R', 'E', 'M'], ["P2", "ISZ_FIXD", "M_FPREG", "M_FPREG", "EX_RX", "EX_RY", "SZ_XTND", "0x0025"]⟩,
  ⟨0xf000, ['F', 'S', 'C', 'A', 'L', 'E'], ["P2", "ISZ_FIXD", "M_FPREG", "M_FPREG", "EX_RX", "EX_RY", "SZ_XTND", "0x0026"]⟩,
  ⟨0xf000, ['F', 'S', 'G', 'L', 'M', 'U', 'L'], ["P2", "ISZ_FIXD", "M_FPREG", "M_FPREG", "EX_RX", "EX_RY", "SZ_XTND", "0x0027"]⟩,
  ⟨0xf000, ['F', 'S', 'U', 'B'], ["P2", "ISZ_FIXD", "M_FPREG", "M_FPREG", "EX_RX", "EX_RY", "SZ_XTND", "0x0028"]⟩,
  ⟨0xf000, ['F', 'S', 'I', 'N', 'C', 'O', 'S'], ["P2", "ISZ_FIXD", "M_FPREG", "M_FSICO", "EX_RX", "EX_SC", "SZ_XTND", "0x0030"]⟩,
  ⟨0xf000, ['F', 'C', 'M', 'P'], ["P2", "ISZ_FIXD", "M_FPREG", "M_FPREG", "EX_RX", "EX_RY", "SZ_XTND", "0x0038"]⟩,
  ⟨0xf000, ['F', 'T', 'S', 'T'], ["P1", "ISZ_FIXD", "M_FPREG", "EX_RX", "SZ_XTND", "0x003A"]⟩,
  ⟨0xf000, ['F', 'M', 'O', 'V', 'E'], ["P2", "ISZ_FDAT", "M_RDATA", "M_FPREG", "OP_10", "EX_RY", "SZ_FDAT", "0x4000"]⟩,
  ⟨0xf000, ['F', 'I', 'N', 'T'], ["P2", "ISZ_FDAT", "M_RDATA", "M_FPREG", "OP_10", "EX_RY", "SZ_FDAT", "0x4001"]⟩,
  ⟨0xf000, ['F', 'S', 'I', 'N', 'H'], ["P2", "ISZ_FDAT", "M_RDATA", "M_FPREG", "OP_10", "EX_RY", "SZ_FDAT", "0x4002"]⟩,
  ⟨0xf000, ['F', 'I', 'N', 'T', 'R', 'Z'], ["P2", "ISZ_FDAT", "M_RDATA", "M_FPREG", "OP_10", "EX_RY", "SZ_FDAT", "0x4003"]⟩,
  ⟨0xf000, ['F', 'S', 'Q', 'R', 'T'], ["P2", "ISZ_FDAT", "M_RDATA", "M_FPREG", "OP_10", "EX_RY", "SZ_FDAT", "0x4004"]⟩,
  ⟨0xf000, ['F', 'L', 'O', 'G', 'N', 'P', '1'], ["P2", "ISZ_FDAT", "M_RDATA", "M_FPREG", "OP_10", "EX_RY", "SZ_FDAT", "0x4006"]⟩,
  ⟨0xf000, ['F', 'E', 'T', 'O', 'X', 'M', '1'], ["P2", "ISZ_FDAT", "M_RDATA", "M_FPREG", "OP_10", "EX_RY", "SZ_FDAT", "0x4008"]⟩,
  ⟨0xf000, ['F', 'T', 'A', 'N', 'H'], ["P2", "ISZ_FDAT", "M_RDATA", "M_FPREG", "OP_10", "EX_RY", "SZ_FDAT", "0x4009"]⟩,
  ⟨0xf000, ['F', 'A', 'T', 'A', 'N'], ["P2", "ISZ_FDAT", "M_RDATA", "M_FPREG", "OP_10", "EX_RY", "SZ_FDAT", "0x400A"]⟩,
  ⟨0xf000, ['F', 'A', 'S', 'I', 'N'], ["P2", "ISZ_FDAT", "M_RDATA", "M_FPREG", "OP_10", "EX_RY", "SZ_FDAT", "0x400C"]⟩,
  ⟨0xf000, ['F', 'A', 'T', 'A', 'N', 'H'], ["P2", "ISZ_FDAT", "M_RDATA", "M_FPREG", "OP_10", "EX_RY", "SZ_FDAT", "0x400D"]⟩,
  ⟨0xf000, ['F', 'S', 'I', 'N'], ["P2", "ISZ_FDAT", "M_RDATA", "M_FPREG", "OP_10", "EX_RY", "SZ_FDAT", "0x400E"]⟩,
  ⟨0xf000, ['F', 'T', 'A', 'N'], ["P2", "ISZ_FDAT", "M_RDATA", "M_FPREG", "OP_10", "EX_RY", "SZ_FDAT", "0x400F"]⟩,
  ⟨0xf000, ['F', 'E', 'T', 'O', 'X'], ["P2", "ISZ_FDAT", "M_RDATA", "M_FPREG", "OP_10", "EX_RY", "SZ_FDAT", "0x4010"]⟩,
  ⟨0xf000, ['F', 'T', 'W', 'O', 'T', 'O', 'X'], ["P2", "ISZ_FDAT", "M_RDATA", "M_FPREG", "OP_10", "EX_RY", "SZ_FDAT", "0x4011"]⟩,
  ⟨0xf000, ['F', 'T', 'E', 'N', 'T', 'O', 'X'], ["P2", "ISZ_FDAT", "M_RDATA", "M_FPREG", "OP_10", "EX_RY", "SZ_FDAT", "0x4012"]⟩,
  ⟨0xf000, ['F', 'L', 'O', 'G', 'N'], ["P2", "ISZ_FDAT", "M_RDATA", "M_FPREG", "OP_10", "EX_RY", "SZ_FDAT", "0x4014"]⟩,
  ⟨0xf000, ['F', 'L', 'O', 'G', '1', '0'], ["P2", "ISZ_FDAT", "M_RDATA", "M_FPREG", "OP_10", "EX_RY", "SZ_FDAT", "0x4015"]⟩,
  ⟨0xf000, ['F', 'L', 'O', 'G', '2'], ["P2", "ISZ_FDAT", "M_RDATA", "M_FPREG", "OP_10", "EX_RY", "SZ_FDAT", "0x4016"]⟩,
  ⟨0xf000, ['F', 'A', 'B', 'S'], ["P2", "ISZ_FDAT", "M_RDATA", "M_FPREG", "OP_10", "EX_RY", "SZ_FDAT", "0x4018"]⟩,
  ⟨0xf000, ['F', 'C', 'O', 'S', 'H'], ["P2", "ISZ_FDAT", "M_RDATA", "M_FPREG", "OP_10", "EX_RY", "SZ_FDAT", "0x4019"]⟩,
  ⟨0xf000, ['F', 'N', 'E', 'G'], ["P2", "ISZ_FDAT", "M_RDATA", "M_FPREG", "OP_10", "EX_RY", "SZ_FDAT", "0x401A"]⟩,
  ⟨0xf000, ['F', 'A', 'C', 'O', 'S'], ["P2", "ISZ_FDAT", "M_RDATA", "M_FPREG", "OP_10", "EX_RY", "SZ_FDAT", "0x401C"]⟩,
  ⟨0xf000, ['F', 'C', 'O', 'S'], ["P2", "ISZ_FDAT", "M_RDATA", "M_FPREG", "OP_10", "EX_RY", "SZ_FDAT", "0x401D"]⟩,
  ⟨0xf000, ['F', 'G', 'E', 'T', 'E', 'X', 'P'], ["P2", "ISZ_FDAT", "M_RDATA", "M_FPREG", "OP_10", "EX_RY", "SZ_FDAT", "0x401E"]⟩,
  ⟨0xf000, ['F', 'G', 'E', 'T', 'M', 'A', 'N'], ["P2", "ISZ_FDAT", "M_RDATA", "M_FPREG", "OP_10", "EX_RY", "SZ_FDAT", "0x401F"]⟩,
  ⟨0xf000, ['F', 'D', 'I', 'V'], ["P2", "ISZ_FDAT", "M_RDATA", "M_FPREG", "OP_10", "EX_RY", "SZ_FDAT", "0x4020"]⟩,
  ⟨0xf000, ['F', 'M', 'O', 'D'], ["P2", "ISZ_FDAT", "M_RDATA", "M_FPREG", "OP_10", "EX_RY", "SZ_FDAT", "0x4021"]⟩,
  ⟨0xf000, ['F', 'A', 'D', 'D'], ["P2", "ISZ_FDAT", "M_RDATA", "M_FPREG", "OP_10", "EX_RY", "SZ_FDAT", "0x4022"]⟩,
  ⟨0xf000, ['F', 'M', 'U', 'L'], ["P2", "ISZ_FDAT", "M_RDATA", "M_FPREG", "OP_10", "EX_RY", "SZ_FDAT", "0x4023"]⟩,
  ⟨0xf000, ['F', 'S', 'G', 'L', 'D', 'I', 'V'], ["P2", "ISZ_FDAT", "M_RDATA", "M_FPREG", "OP_10", "EX_RY", "SZ_FDAT", "0x4024"]⟩,
  ⟨0xf000, ['F', 'R', 'E', 'M'], ["P2", "ISZ_FDAT", "M_RDATA", "M_FPREG", "OP_10", "EX_RY", "SZ_FDAT", "0x4025"]⟩,
  ⟨0xf000, ['F', 'S', 'C', 'A', 'L', 'E'], ["P2", "ISZ_FDAT", "M_RDATA", "M_FPREG", "OP_10", "EX_RY", "SZ_FDAT", "0x4026"]⟩,
  ⟨0xf000, ['F', 'S', 'G', 'L', 'M', 'U', 'L'], ["P2", "ISZ_FDAT", "M_RDATA", "M_FPREG", "OP_10", "EX_RY", "SZ_FDAT", "0x4027"]⟩,
  ⟨0xf000, ['F', 'S', 'U', 'B'], ["P2", "ISZ_FDAT", "M_RDATA", "M_FPREG", "OP_10", "EX_RY", "SZ_FDAT", "0x4028"]⟩,
  ⟨0xf000, ['F', 'S', 'I', 'N', 'C', 'O', 'S'], ["P2", "ISZ_FDAT", "M_RDATA", "M_FSICO", "OP_10", "EX_SC", "SZ_FDAT", "0x4030"]⟩,
  ⟨0xf000, ['F', 'C', 'M', 'P'], ["P2", "ISZ_FDAT", "M_RDATA", "M_FPREG", "OP_10", "EX_RY", "SZ_FDAT", "0x4038"]⟩,
  ⟨0xf000, ['F', 'T', 'S', 'T'], ["P1", "ISZ_FDAT", "M_RDATA", "OP_10", "SZ_FDAT", "0x403A"]⟩,
  ⟨0xf000, ['F', 'M', 'O', 'V', 'E'], ["P2", "ISZ_FIXD", "M_FPREG", "M_KFACT", "EX_RY", "EX_SK", "SZ_PBCD", "0x6C00"]⟩,
  ⟨0xf000, ['F', 'M', 'O', 'V', 'E'], ["P2", "ISZ_FIXD", "M_FPREG", "M_KDREG", "EX_RY", "EX_DK", "SZ_PBCD", "0x7C00"]⟩,
  ⟨0xf000, ['F', 'M', 'O', 'V', 'E'], ["P2", "ISZ_FDAT", "M_FPREG", "M_WDATA", "EX_RY", "OP_10", "SZ_FDAT", "0x6000"]⟩,
  ⟨0xf000, ['F', 'M', 'O', 'V', 'E'], ["P2", "ISZ_FIXD", "M_RADDR", "M_FPIAR", "OP_10", "OP___", "SZ_LONG", "0x8400"]⟩,
  ⟨0xf000, ['F', 'M', 'O', 'V', 'E'], ["P2", "ISZ_FIXD", "M_RADDR", "M_FPSR", "OP_10", "OP___", "SZ_LONG", "0x8800"]⟩,
  ⟨0xf000, ['F', 'M', 'O', 'V', 'E'], ["P2", "ISZ_FIXD", "M_RADDR", "M_FPCR", "OP_10", "OP___", "SZ_LONG", "0x9000"]⟩,
  ⟨0xf000, ['F', 'M', 'O', 'V', 'E', 'M'], ["P2", "ISZ_FIXD", "M_AREG", "M_FPIAR", "OP_10", "OP___", "SZ_LONG", "0x8400"]⟩,
  ⟨0xf000, ['F', 'M', 'O', 'V', 'E', 'M'], ["P2", "ISZ_FIXD", "M_DREG", "M_FPIAR", "OP_10", "OP___", "SZ_LONG", "0x8400"]⟩,
  ⟨0xf000, ['F', 'M', 'O', 'V', 'E', 'M'], ["P2", "ISZ_FIXD", "M_DREG", "M_FPSR", "OP_10", "OP___", "SZ_LONG", "0x8800"]⟩,
  ⟨0xf000, ['F', 'M', 'O', 'V', 'E', 'M'], ["P2", "ISZ_FIXD", "M_DREG", "M_FPCR", "OP_10", "OP___", "SZ_LONG", "0x9000"]⟩,
  ⟨0xf000, ['F', 'M', 'O', 'V', 'E', 'M'], ["P2", "ISZ_FIXD", "M_RADDR", "M_FCMLT", "OP_10", "EX_RX", "SZ_LONG", "0x8000"]⟩,
  ⟨0xf000, ['F', 'M', 'O', 'V', 'E'], ["P2", "ISZ_FIXD", "M_FPIAR", "M_WADDR", "OP___", "OP_10", "SZ_LONG", "0xA400"]⟩,
  ⟨0xf000, ['F', 'M', 'O', 'V', 'E'], ["P2", "ISZ_FIXD", "M_FPSR", "M_WADDR", "OP___", "OP_10", "SZ_LONG", "0xA800"]⟩,
  ⟨0xf000, ['F', 'M', 'O', 'V', 'E'], ["P2", "ISZ_FIXD", "M_FPCR", "M_WADDR", "OP___", "OP_10", "SZ_LONG", "0xB000"]⟩,
  ⟨0xf000, ['F', 'M', 'O', 'V', 'E', 'M'], ["P2", "ISZ_FIXD", "M_FPIAR", "M_AREG", "OP___", "OP_10", "SZ_LONG", "0xA400"]⟩,
  ⟨0xf000, ['F', 'M', 'O', 'V', 'E', 'M'], ["P2", "ISZ_FIXD", "M_FPIAR", "M_DREG", "OP___", "OP_10", "SZ_LONG", "0xA400"]⟩,
  ⟨0xf000, ['F', 'M', 'O', 'V', 'E', 'M'], ["P2", "ISZ_FIXD", "M_FPSR", "M_DREG", "OP___", "OP_10", "SZ_LONG", "0xA800"]⟩,
  ⟨0xf000, ['F', 'M', 'O', 'V', 'E', 'M'], ["P2", "ISZ_FIXD", "M_FPCR", "M_DREG", "OP___", "OP_10", "SZ_LONG", "0xB000"]⟩,
  ⟨0xf000, ['F', 'M', 'O', 'V', 'E', 'M'], ["P2", "ISZ_FIXD", "M_FCMLT", "M_WADDR", "EX_RX", "OP_10", "SZ_LONG", "0xA000"]⟩,
  ⟨0xf000, ['F', 'M', 'O', 'V', 'E', 'M'], ["P2", "ISZ_FIXD", "M_FPMLT", "M_DADDR", "EX_SL", "OP_10", "SZ_XTND", "0xE000"]⟩,
  ⟨0xf000, ['F', 'M', 'O', 'V', 'E', 'M'], ["P2", "ISZ_FIXD", "M_DREG", "M_DADDR", "EX_DL", "OP_10", "SZ_XTND", "0xE800"]⟩,
  ⟨0xf000, ['F', 'M', 'O', 'V', 'E', 'M'], ["P2", "ISZ_FIXD", "M_FPMLT", "M_DADDR", "EX_SL", "OP_10", "SZ_XTND", "0xF000"]⟩,
  ⟨0xf000, ['F', 'M', 'O', 'V', 'E', 'M'], ["P2", "ISZ_FIXD", "M_DREG", "M_DADDR", "EX_DL", "OP_10", "SZ_XTND", "0xF800"]⟩,
  ⟨0xf000, ['F', 'M', 'O', 'V', 'E', 'M'], ["P2", "ISZ_FIXD", "M_IADDR", "M_FPMLT", "OP_10", "EX_SL", "SZ_XTND", "0xC000"]⟩,
  ⟨0xf000, ['F', 'M', 'O', 'V', 'E', 'M'], ["P2", "ISZ_FIXD", "M_IADDR", "M_DREG", "OP_10", "EX_DL", "SZ_XTND", "0xC800"]⟩,
  ⟨0xf000, ['F', 'M', 'O', 'V', 'E', 'M'], ["P2", "ISZ_FIXD", "M_IADDR", "M_FPMLT", "OP_10", "EX_SL", "SZ_XTND", "0xD000"]⟩,
  ⟨0xf000, ['F', 'M', 'O', 'V', 'E', 'M'], ["P2", "ISZ_FIXD", "M_IADDR", "M_DREG", "OP_10", "EX_DL", "SZ_XTND", "0xD800"]⟩,
  ⟨0xf000, ['F', 'I', 'N', 'T'], ["P2", "ISZ_FIXD", "M_FPREG", "M_NONE", "EX_RX", "OP___", "SZ_XTND", "0x0001"]⟩,
  ⟨0xf000, ['F', 'S', 'I', 'N', 'H'], ["P2", "ISZ_FIXD", "M_FPREG", "M_NONE", "EX_RX", "OP___", "SZ_XTND", "0x0002"]⟩,
  ⟨0xf000, ['F', 'I', 'N', 'T', 'R', 'Z'], ["P2", "ISZ_FIXD", "M_FPREG", "M_NONE", "EX_RX", "OP___", "SZ_XTND", "0x0003"]⟩,
  ⟨0xf000, ['F', 'S', 'Q', 'R', 'T'], ["P2", "ISZ_FIXD", "M_FPREG", "M_NONE", "EX_RX", "OP___", "SZ_XTND", "0x0004"]⟩,
  ⟨0xf000, ['F', 'L', 'O', 'G', 'N', 'P', '1'], ["P2", "ISZ_FIXD", "M_FPREG", "M_NONE", "EX_RX", "OP___", "SZ_XTND", "0x0006"]⟩,
  ⟨0xf000, ['F', 'E', 'T', 'O', 'X', 'M', '1'], ["P2", "ISZ_FIXD", "M_FPREG", "M_NONE", "EX_RX", "OP___", "SZ_XTND", "0x0008"]⟩,
  ⟨0xf000, ['F', 'T', 'A', 'N', 'H'], ["P2", "ISZ_FIXD", "M_FPREG", "M_NONE", "EX_RX", "OP___", "SZ_XTND", "0x0009"]⟩,
  ⟨0xf000, ['F', 'A', 'T', 'A', 'N'], ["P2", "ISZ_FIXD", "M_FPREG", "M_NONE", "EX_RX", "OP___", "SZ_XTND", "0x000A"]⟩,
  ⟨0xf000, ['F', 'A', 'S', 'I', 'N'], ["P2", "ISZ_FIXD", "M_FPREG", "M_NONE", "EX_RX", "OP___", "SZ_XTND", "0x000C"]⟩,
  ⟨0xf000, ['F', 'A', 'T', 'A', 'N', 'H'], ["P2", "ISZ_FIXD", "M_FPREG", "M_NONE", "EX_RX", "OP___", "SZ_XTND", "0x000D"]⟩,
  ⟨0xf000, ['F', 'S', 'I', 'N'], ["P2", "ISZ_FIXD", "M_FPREG", "M_NONE", "EX_RX", "OP___", "SZ_XTND", "0x000E"]⟩,
  ⟨0xf000, ['F', 'T', 'A', 'N'], ["P2", "ISZ_FIXD", "M_FPREG", "M_NONE", "EX_RX", "OP___", "SZ_XTND", "0x000F"]⟩,
  ⟨0xf000, ['F', 'E', 'T', 'O', 'X'], ["P2", "ISZ_FIXD", "M_FPREG", "M_NONE", "EX_RX", "OP___", "SZ_XTND", "0x0010"]⟩,
  ⟨0xf000, ['F', 'T', 'W', 'O', 'T', 'O', 'X'], ["P2", "ISZ_FIXD", "M_FPREG", "M_NONE", "EX_RX", "OP___", "SZ_XTND", "0x0011"]⟩,
  ⟨0xf000, ['F', 'T', 'E', 'N', 'T', 'O', 'X'], ["P2", "ISZ_FIXD", "M_FPREG", "M_NONE", "EX_RX", "OP___", "SZ_XTND", "0x0012"]⟩,
  ⟨0xf000, ['F', 'L', 'O', 'G', 'N'], ["P2", "ISZ_FIXD", "M_FPREG", "M_NONE", "EX_RX", "OP___", "SZ_XTND", "0x0014"]⟩,
  ⟨0xf000, ['F', 'L', 'O', 'G', '1', '0'], ["P2", "ISZ_FIXD", "M_FPREG", "M_NONE", "EX_RX", "OP___", "SZ_XTND", "0x0015"]⟩,
  ⟨0xf000, ['F', 'L', 'O', 'G', '2'], ["P2", "ISZ_FIXD", "M_FPREG", "M_NONE", "EX_RX", "OP___", "SZ_XTND", "0x0016"]⟩,
  ⟨0xf000, ['F', 'A', 'B', 'S'], ["P2", "ISZ_FIXD", "M_FPREG", "M_NONE", "EX_RX", "OP___", "SZ_XTND", "0x0018"]⟩,
  ⟨0xf000, ['F', 'C', 'O', 'S', 'H'], ["P2", "ISZ_FIXD", "M_FPREG", "M_NONE", "EX_RX", "OP___", "SZ_XTND", "0x0019"]⟩,
  ⟨0xf000, ['F', 'N', 'E', 'G'], ["P2", "ISZ_FIXD", "M_FPREG", "M_NONE", "EX_RX", "OP___", "SZ_XTND", "0x001A"]⟩,
  ⟨0xf000, ['F', 'A', 'C', 'O', 'S'], ["P2", "ISZ_FIXD", "M_FPREG", "M_NONE", "EX_RX", "OP___", "SZ_XTND", "0x001C"]⟩,
  ⟨0xf000, ['F', 'C', 'O', 'S'], ["P2", "ISZ_FIXD", "M_FPREG", "M_NONE", "EX_RX", "OP___", "SZ_XTND", "0x001D"]⟩,
  ⟨0xf000, ['F', 'G', 'E', 'T', 'E', 'X', 'P'], ["P2", "ISZ_FIXD", "M_FPREG", "M_NONE", "EX_RX", "OP___", "SZ_XTND", "0x001E"]⟩,
  ⟨0xf000, ['F', 'G', 'E', 'T', 'M', 'A', 'N'], ["P2", "ISZ_FIXD", "M_FPREG", "M_NONE", "EX_RX", "OP___", "SZ_XTND", "0x001F"]⟩,
  ⟨0xf000, ['F', 'M', 'O', 'V', 'E', 'C', 'R'], ["P2", "ISZ_FIXD", "M_IMROM", "M_FPREG", "EX_SK", "EX_RY", "SZ_XTND", "0x5C00"]⟩,
  ⟨0xf100, ['F', 'S', 'A', 'V', 'E'], ["E1", "ISZ_NONE", "M_DADDR", "OP_10", "SZ_NONE"]⟩,
  ⟨0xf140, ['F', 'R', 'E', 'S', 'T', 'O', 'R', 'E'], ["E1", "ISZ_NONE", "M_IADDR", "OP_10", "SZ_NONE"]⟩]

/-- src/table_mc68000.cpp:621-753 -/
def MC68881_ARITH_INDEX : List Nat := [
  19, 57, 121, 22, 60, 124, 28, 66, 9, 47, 111, 8, 46, 110, 10, 48,
  112, 36, 74, 23, 61, 125, 20, 58, 122, 26, 64, 13, 51, 115, 6, 44,
  108, 24, 62, 126, 25, 63, 127, 1, 39, 103, 3, 41, 105, 17, 55, 119,
  18, 56, 120, 16, 54, 118, 5, 43, 107, 27, 65, 0, 38, 76, 77, 78,
  79, 80, 81, 87, 88, 89, 128, 82, 83, 84, 85, 86, 90, 91, 92, 93,
  94, 95, 96, 97, 98, 99, 100, 101, 102, 29, 67, 21, 59, 123, 31, 69,
  130, 129, 32, 70, 30, 68, 33, 71, 11, 49, 113, 35, 73, 2, 40, 104,
  4, 42, 106, 34, 72, 12, 50, 114, 7, 45, 109, 15, 53, 117, 37, 75,
  14, 52, 116]

/-- src/table_mc68000.cpp:755-852 -/
def MC68881_BRANCH : List Row := [
  ⟨0xf0c0, ['F', 'B', 'F'], ["E1", "ISZ_NONE", "M_REL32", "OP___", "SZ_LONG"]⟩,
  ⟨0xf0c1, ['F', 'B', 'E', 'Q'], ["E1", "ISZ_NONE", "M_REL32", "OP___", "SZ_LONG"]⟩,
  ⟨0xf0c2, ['F', 'B', 'O', 'G', 'T'], ["E1", "ISZ_NONE", "M_REL32", "OP___", "SZ_LONG"]⟩,
  ⟨0xf0c3, ['F', 'B', 'O', 'G', 'E'], ["E1", "ISZ_NONE", "M_REL32", "OP___", "SZ_LONG"]⟩,
  ⟨0xf0c4, ['F', 'B', 'O', 'L', 'T'], ["E1", "ISZ_NONE", "M_REL32", "OP___", "SZ_LONG"]⟩,
  ⟨0xf0c5, ['F', 'B', 'O', 'L', 'E'], ["E1", "ISZ_NONE", "M_REL32", "OP___", "SZ_LONG"]⟩,
  ⟨0xf0c6, ['F', 'B', 'O', 'G', 'L'], ["E1", "ISZ_NONE", "M_REL32", "OP___", "SZ_LONG"]⟩,
  ⟨0xf0c7, ['F', 'B', 'O', 'R'], ["E1", "ISZ_NONE", "M_REL32", "OP___", "SZ_LONG"]⟩,
  ⟨0xf0c8, ['F', 'B', 'U', 'N'], ["E1", "ISZ_NONE", "M_REL32", "OP___", "SZ_LONG"]⟩,
  ⟨0xf0c9, ['F', 'B', 'U', 'E', 'Q'], ["E1", "ISZ_NONE", "M_REL32", "OP___", "SZ_LONG"]⟩,
  ⟨0xf0ca, ['F', 'B', 'U', 'G', 'T'], ["E1", "ISZ_NONE", "M_REL32", "OP___", "SZ_LONG"]⟩,
  ⟨0xf0cb, ['F', 'B', 'U', 'G', 'E'], ["E1", "ISZ_NONE", "M_REL32", "OP___", "SZ_LONG"]⟩,
  ⟨0xf0cc, ['F', 'B', 'U', 'L', 'T'], ["E1", "ISZ_NONE", "M_REL32", "OP___", "SZ_LONG"]⟩,
  ⟨0xf0cd, ['F', 'B', 'U', 'L', 'E'], ["E1", "ISZ_NONE", "M_REL32", "OP___", "SZ_LONG"]⟩,
  ⟨0xf0ce, ['F', 'B', 'N', 'E'], ["E1", "ISZ_NONE", "M_REL32", "OP___", "SZ_LONG"]⟩,
  ⟨0xf0cf, ['F', 'B', 'T'], ["E1", "ISZ_NONE", "M_REL32", "OP___", "SZ_LONG"]⟩,
  ⟨0xf0d0, ['F', 'B', 'S', 'F'], ["E1", "ISZ_NONE", "M_REL32", "OP___", "SZ_LONG"]⟩,
  ⟨0xf0d1, ['F', 'B', 'S', 'E', 'Q'], ["E1", "ISZ_NONE", "M_REL32", "OP___", "SZ_LONG"]⟩,
  ⟨0xf0d2, ['F', 'B', 'G', 'T'], ["E1", "ISZ_NONE", "M_REL32", "OP___", "SZ_LONG"]⟩,
  ⟨0xf0d3, ['F', 'B', 'G', 'E'], ["E1", "ISZ_NONE", "M_REL32", "OP___", "SZ_LONG"]⟩,
  ⟨0xf0d4, ['F', 'B', 'L', 'T'], ["E1", "ISZ_NONE", "M_REL32", "OP___", "SZ_LONG"]⟩,
  ⟨0xf0d5, ['F', 'B', 'L', 'E'], ["E1", "ISZ_NONE", "M_REL32", "OP___", "SZ_LONG"]⟩,
  ⟨0xf0d6, ['F', 'B', 'G', 'L'], ["E1", "ISZ_NONE", "M_REL32", "OP___", "SZ_LONG"]⟩,
  ⟨0xf0d7, ['F', 'B', 'G', 'L', 'E'], ["E1", "ISZ_NONE", "M_REL32", "OP___", "SZ_LONG"]⟩,
  ⟨0xf0d8, ['F', 'B', 'N', 'G', 'L', 'E'], ["E1", "ISZ_NONE", "M_REL32", "OP___", "SZ_LONG"]⟩,
  ⟨0xf0d9, ['F', 'B', 'N', 'G', 'L'], ["E1", "ISZ_NONE", "M_REL32", "OP___", "SZ_LONG"]⟩,
  ⟨0xf0da, ['F', 'B', 'N', 'L', 'E'], ["E1", "ISZ_NONE", "M_REL32", "OP___", "SZ_LONG"]⟩,
  ⟨0xf0db, ['F', 'B', 'N', 'L', 'T'], ["E1", "ISZ_NONE", "M_REL32", "OP___", "SZ_LONG"]⟩,
  ⟨0xf0dc, ['F', 'B', 'N', 'G', 'E'], ["E1", "ISZ_NONE", "M_REL32", "OP___", "SZ_LONG"]⟩,
  ⟨0xf0dd, ['F', 'B', 'N', 'G', 'T'], ["E1", "ISZ_NONE", "M_REL32", "OP___", "SZ_LONG"]⟩,
  ⟨0xf0de, ['F', 'B', 'S', 'N', 'E'], ["E1", "ISZ_NONE", "M_REL32", "OP___", "SZ_LONG"]⟩,
  ⟨0xf0df, ['F', 'B', 'S', 'T'], ["E1", "ISZ_NONE", "M_REL32", "OP___", "SZ_LONG"]⟩,
  ⟨0xf080, ['F', 'B', 'F'], ["E1", "ISZ_NONE", "M_REL16", "OP___", "SZ_WORD"]⟩,
  ⟨0xf081, ['F', 'B', 'E', 'Q'], ["E1", "ISZ_NONE", "M_REL16", "OP___", "SZ_WORD"]⟩,
  ⟨0xf082, ['F', 'B', 'O', 'G', 'T'], ["E1", "ISZ_NONE", "M_REL16", "OP___", "SZ_WORD"]⟩,
  ⟨0xf083, ['F', 'B', 'O', 'G', 'E'], ["E1", "ISZ_NONE", "M_REL16", "OP___", "SZ_WORD"]⟩,
  ⟨0xf084, ['F', 'B', 'O', 'L', 'T'], ["E1", "ISZ_NONE", "M_REL16", "OP___", "SZ_WORD"]⟩,
  ⟨0xf085, ['F', 'B', 'O', 'L', 'E'], ["E1", "ISZ_NONE", "M_REL16", "OP___", "SZ_WORD"]⟩,
  ⟨0xf086, ['F', 'B', 'O', 'G', 'L'], ["E1", "ISZ_NONE", "M_REL16", "OP___", "SZ_WORD"]⟩,
  ⟨0xf087, ['F', 'B', 'O', 'R'], ["E1", "ISZ_NONE", "M_REL16", "OP___", "SZ_WORD"]⟩,
  ⟨0xf088, ['F', 'B', 'U', 'N'], ["E1", "ISZ_NONE", "M_REL16", "OP___", "SZ_WORD"]⟩,
  ⟨0xf089, ['F', 'B', 'U', 'E', 'Q'], ["E1", "ISZ_NONE", "M_REL16", "OP___", "SZ_WORD"]⟩,
  ⟨0xf08a, ['F', 'B', 'U', 'G', 'T'], ["E1", "ISZ_NONE", "M_REL16", "OP___", "SZ_WORD"]⟩,
  ⟨0xf08b, ['F', 'B', 'U', 'G', 'E'], ["E1", "ISZ_NONE", "M_REL16", "OP___", "SZ_WORD"]⟩,
  ⟨0xf08c, ['F', 'B', 'U', 'L', 'T'], ["E1", "ISZ_NONE", "M_REL16", "OP___", "SZ_WORD"]⟩,
  ⟨0xf08d, ['F', 'B', 'U', 'L', 'E'], ["E1", "ISZ_NONE", "M_REL16", "OP___", "SZ_WORD"]⟩,
  ⟨0xf08e, ['F', 'B', 'N', 'E'], ["E1", "ISZ_NONE", "M_REL16", "OP___", "SZ_WORD"]⟩,
  ⟨0xf08f, ['F', 'B', 'T'], ["E1", "ISZ_NONE", "M_REL16", "OP___", "SZ_WORD"]⟩,
  ⟨0xf090, ['F', 'B', 'S', 'F'], ["E1", "ISZ_NONE", "M_REL16", "OP___", "SZ_WORD"]⟩,
  ⟨0xf091, ['F', 'B', 'S', 'E', 'Q'], ["E1", "ISZ_NONE", "M_REL16", "OP___", "SZ_WORD"]⟩,
  ⟨0xf092, ['F', 'B', 'G', 'T'], ["E1", "ISZ_NONE", "M_REL16", "OP___", "SZ_WORD"]⟩,
  ⟨0xf093, ['F', 'B', 'G', 'E'], ["E1", "ISZ_NONE", "M_REL16", "OP___", "SZ_WORD"]⟩,
  ⟨0xf094, ['F', 'B', 'L', 'T'], ["E1", "ISZ_NONE", "M_REL16", "OP___", "SZ_WORD"]⟩,
  ⟨0xf095, ['F', 'B', 'L', 'E'], ["E1", "ISZ_NONE", "M_REL16", "OP___", "SZ_WORD"]⟩,
  ⟨0xf096, ['F', 'B', 'G', 'L'], ["E1", "ISZ_NONE", "M_REL16", "OP___", "SZ_WORD"]⟩,
  ⟨0xf097, ['F', 'B', 'G', 'L', 'E'], ["E1", "ISZ_NONE", "M_REL16", "OP___", "SZ_WORD"]⟩,
  ⟨0xf098, ['F', 'B', 'N', 'G', 'L', 'E'], ["E1", "ISZ_NONE", "M_REL16", "OP___", "SZ_WORD"]⟩,
  ⟨0xf099, ['F', 'B', 'N', 'G', 'L'], ["E1", "ISZ_NONE", "M_REL16", "OP___", "SZ_WORD"]⟩,
  ⟨0xf09a, ['F', 'B', 'N', 'L', 'E'], ["E1", "ISZ_NONE", "M_REL16", "OP___", "SZ_WORD"]⟩,
  ⟨0xf09b, ['F', 'B', 'N', 'L', 'T'], ["E1", "ISZ_NONE", "M_REL16", "OP___", "SZ_WORD"]⟩,
  ⟨0xf09c, ['F', 'B', 'N', 'G', 'E'], ["E1", "ISZ_NONE", "M_REL16", "OP___", "SZ_WORD"]⟩,
  ⟨0xf09d, ['F', 'B', 'N', 'G', 'T'], ["E1", "ISZ_NONE", "M_REL16", "OP___", "SZ_WORD"]⟩,
  ⟨0xf09e, ['F', 'B', 'S', 'N', 'E'], ["E1", "ISZ_NONE", "M_REL16", "OP___", "SZ_WORD"]⟩,
  ⟨0xf09f, ['F', 'B', 'S', 'T'], ["E1", "ISZ_NONE", "M_REL16", "OP___", "SZ_WORD"]⟩,
  ⟨0xf048, ['F', 'D', 'B', 'F'], ["P2", "ISZ_NONE", "M_DREG", "M_REL16", "OP__0", "OP___", "SZ_WORD", "0x0000"]⟩,
  ⟨0xf048, ['F', 'D', 'B', 'E', 'Q'], ["P2", "ISZ_NONE", "M_DREG", "M_REL16", "OP__0", "OP___", "SZ_WORD", "0x0001"]⟩,
  ⟨0xf048, ['F', 'D', 'B', 'O', 'G', 'T'], ["P2", "ISZ_NONE", "M_DREG", "M_REL16", "OP__0", "OP___", "SZ_WORD", "0x0002"]⟩,
  ⟨0xf048, ['F', 'D', 'B', 'O', 'G', 'E'], ["P2", "ISZ_NONE", "M_DREG", "M_REL16", "OP__0", "OP___", "SZ_WORD", "0x0003"]⟩,
  ⟨0xf048, ['F', 'D', 'B', 'O', 'L', 'T'], ["P2", "ISZ_NONE", "M_DREG", "M_REL16", "OP__0", "OP___", "SZ_WORD", "0x0004"]⟩,
  ⟨0xf048, ['F', 'D', 'B', 'O', 'L', 'E'], ["P2", "ISZ_NONE", "M_DREG", "M_REL16", "OP__0", "OP___", "SZ_WORD", "0x0005"]⟩,
  ⟨0xf048, ['F', 'D', 'B', 'O', 'G', 'L'], ["P2", "ISZ_NONE", "M_DREG", "M_REL16", "OP__0", "OP___", "SZ_WORD", "0x0006"]⟩,
  ⟨0xf048, ['F', 'D', 'B', 'O', 'R'], ["P2", "ISZ_NONE", "M_DREG", "M_REL16", "OP__0", "OP___", "SZ_WORD", "0x0007"]⟩,
  ⟨0xf048, ['F', 'D', 'B', 'U', 'N'], ["P2", "ISZ_NONE", "M_DREG", "M_REL16", "OP__0", "OP___", "SZ_WORD", "0x0008"]⟩,
  ⟨0xf048, ['F', 'D', 'B', 'U', 'E', 'Q'], ["P2", "ISZ_NONE", "M_DREG", "M_REL16", "OP__0", "OP___", "SZ_WORD", "0x0009"]⟩,
  ⟨0xf048, ['F', 'D', 'B', 'U', 'G', 'T'], ["P2", "ISZ_NONE", "M_DREG", "M_REL16", "OP__0", "OP___", "SZ_WORD", "0x000A"]⟩,
  ⟨0xf048, ['F', 'D', 'B', 'U', 'G', 'E'], ["P2", "ISZ_NONE", "M_DREG", "M_REL16", "OP__0", "OP___", "SZ_WORD", "0x000B"]⟩,
  ⟨0xf048, ['F', 'D', 'B', 'U', 'L', 'T'], ["P2", "ISZ_NONE", "M_DREG", "M_REL16", "OP__0", "OP___", "SZ_WORD", "0x000C"]⟩,
  ⟨0xf048, ['F', 'D', 'B', 'U', 'L', 'E'], ["P2", "ISZ_NONE", "M_DREG", "M_REL16", "OP__0", "OP___", "SZ_WORD", "0x000D"]⟩,
  ⟨0xf048, ['F', 'D', 'B', 'N', 'E'], ["P2", "ISZ_NONE", "M_DREG", "M_REL16", "OP__0", "OP___", "SZ_WORD", "0x000E"]⟩,
  ⟨0xf048, ['F', 'D', 'B', 'T'], ["P2", "ISZ_NONE", "M_DREG", "M_REL16", "OP__0", "OP___", "SZ_WORD", "0x000F"]⟩,
  ⟨0xf048, ['F', 'D', 'B', 'S', 'F'], ["P2", "ISZ_NONE", "M_DREG", "M_REL16", "OP__0", "OP___", "SZ_WORD", "0x0010"]⟩,
  ⟨0xf048, ['F', 'D', 'B', 'S', 'E', 'Q'], ["P2", "ISZ_NONE", "M_DREG", "M_REL16", "OP__0", "OP___", "SZ_WORD", "0x0011"]⟩,
  ⟨0xf048, ['F', 'D', 'B', 'G', 'T'], ["P2", "ISZ_NONE", "M_DREG", "M_REL16", "OP__0", "OP___", "SZ_WORD", "0x0012"]⟩,
  ⟨0xf048, ['F', 'D', 'B', 'G', 'E'], ["P2", "ISZ_NONE", "M_DREG", "M_REL16", "OP__0", "OP___", "SZ_WORD", "0x0013"]⟩,
  ⟨0xf048, ['F', 'D', 'B', 'L', 'T'], ["P2", "ISZ_NONE", "M_DREG", "M_REL16", "OP__0", "OP___", "SZ_WORD", "0x0014"]⟩,
  ⟨0xf048, ['F', 'D', 'B', 'L', 'E'], ["P2", "ISZ_NONE", "M_DREG", "M_REL16", "OP__0", "OP___", "SZ_WORD", "0x0015"]⟩,
  ⟨0xf048, ['F', 'D', 'B', 'G', 'L'], ["P2", "ISZ_NONE", "M_DREG", "M_REL16", "OP__0", "OP___", "SZ_WORD", "0x0016"]⟩,
  ⟨0xf048, ['F', 'D', 'B', 'G', 'L', 'E'], ["P2", "ISZ_NONE", "M_DREG", "M_REL16", "OP__0", "OP___", "SZ_WORD", "0x0017"]⟩,
  ⟨0xf048, ['F', 'D', 'B', 'N', 'G', 'L', 'E'], ["P2", "ISZ_NONE", "M_DREG", "M_REL16", "OP__0", "OP___", "SZ_WORD", "0x0018"]⟩,
  ⟨0xf048, ['F', 'D', 'B', 'N', 'G', 'L'], ["P2", "ISZ_NONE", "M_DREG", "M_REL16", "OP__0", "OP___", "SZ_WORD", "0x0019"]⟩,
  ⟨0xf048, ['F', 'D', 'B', 'N', 'L', 'E'], ["P2", "ISZ_NONE", "M_DREG", "M_REL16", "OP__0", "OP___", "SZ_WORD", "0x001A"]⟩,
  ⟨0xf048, ['F', 'D', 'B', 'N', 'L', 'T'], ["P2", "ISZ_NONE", "M_DREG", "M_REL16", "OP__0", "OP___", "SZ_WORD", "0x001B"]⟩,
  ⟨0xf048, ['F', 'D', 'B', 'N', 'G', 'E'], ["P2", "ISZ_NONE", "M_DREG", "M_REL16", "OP__0", "OP___", "SZ_WORD", "0x001C"]⟩,
  ⟨0xf048, ['F', 'D', 'B', 'N', 'G', 'T'], ["P2", "ISZ_NONE", "M_DREG", "M_REL16", "OP__0", "OP___", "SZ_WORD", "0x001D"]⟩,
  ⟨0xf048, ['F', 'D', 'B', 'S', 'N', 'E'], ["P2", "ISZ_NONE", "M_DREG", "M_REL16", "OP__0", "OP___", "SZ_WORD", "0x001E"]⟩,
  ⟨0xf048, ['F', 'D', 'B', 'S', 'T'], ["P2", "ISZ_NONE", "M_DREG", "M_REL16", "OP__0", "OP___", "SZ_WORD", "0x001F"]⟩]

/-- src/table_mc68000.cpp:854-951 -/
def MC68881_BRANCH_INDEX : List Nat := [
  1, 33, 0, 32, 19, 51, 22, 54, 23, 55, 18, 50, 21, 53, 20, 52,
  14, 46, 28, 60, 25, 57, 24, 56, 29, 61, 26, 58, 27, 59, 3, 35,
  6, 38, 2, 34, 5, 37, 4, 36, 7, 39, 17, 49, 16, 48, 30, 62,
  31, 63, 15, 47, 9, 41, 11, 43, 10, 42, 13, 45, 12, 44, 8, 40,
  65, 64, 83, 86, 87, 82, 85, 84, 78, 92, 89, 88, 93, 90, 91, 67,
  70, 66, 69, 68, 71, 81, 80, 94, 95, 79, 73, 75, 74, 77, 76, 72]

/-- src/table_mc68000.cpp:953-1082 -/
def MC68881_TRAP : List Row := [
  ⟨0xf040, ['F', 'S', 'F'], ["P1", "ISZ_NONE", "M_WDATA", "OP_10", "SZ_BYTE", "0x0000"]⟩,
  ⟨0xf040, ['F', 'S', 'E', 'Q'], ["P1", "ISZ_NONE", "M_WDATA", "OP_10", "SZ_BYTE", "0x0001"]⟩,
  ⟨0xf040, ['F', 'S', 'O', 'G', 'T'], ["P1", "ISZ_NONE", "M_WDATA", "OP_10", "SZ_BYTE", "0x0002"]⟩,
  ⟨0xf040, ['F', 'S', 'O', 'G', 'E'], ["P1", "ISZ_NONE", "M_WDATA", "OP_10", "SZ_BYTE", "0x0003"]⟩,
  ⟨0xf040, ['F', 'S', 'O', 'L', 'T'], ["P1", "ISZ_NONE", "M_WDATA", "OP_10", "SZ_BYTE", "0x0004"]⟩,
  ⟨0xf040, ['F', 'S', 'O', 'L', 'E'], ["P1", "ISZ_NONE", "M_WDATA", "OP_10", "SZ_BYTE", "0x0005"]⟩,
  ⟨0xf040, ['F', 'S', 'O', 'G', 'L'], ["P1", "ISZ_NONE", "M_WDATA", "OP_10", "SZ_BYTE", "0x0006"]⟩,
  ⟨0xf040, ['F', 'S', 'O', 'R'], ["P1", "ISZ_NONE", "M_WDATA", "OP_10", "SZ_BYTE", "0x0007"]⟩,
  ⟨0xf040, ['F', 'S', 'U', 'N'], ["P1", "ISZ_NONE", "M_WDATA", "OP_10", "SZ_BYTE", "0x0008"]⟩,
  ⟨0xf040, ['F', 'S', 'U', 'E', 'Q'], ["P1", "ISZ_NONE", "M_WDATA", "OP_10", "SZ_BYTE", "0x0009"]⟩,
  ⟨0xf040, ['F', 'S', 'U', 'G', 'T'], ["P1", "ISZ_NONE", "M_WDATA", "OP_10", "SZ_BYTE", "0x000A"]⟩,
  ⟨0xf040, ['F', 'S', 'U', 'G', 'E'], ["P1", "ISZ_NONE", "M_WDATA", "OP_10", "SZ_BYTE", "0x000B"]⟩,
  ⟨0xf040, ['F', 'S', 'U', 'L', 'T'], ["P1", "ISZ_NONE", "M_WDATA", "OP_10", "SZ_BYTE", "0x000C"]⟩,
  ⟨0xf040, ['F', 'S', 'U', 'L', 'E'], ["P1", "ISZ_NONE", "M_WDATA", "OP_10", "SZ_BYTE", "0x000D"]⟩,
  ⟨0xf040, ['F', 'S', 'N', 'E'], ["P1", "ISZ_NONE", "M_WDATA", "OP_10", "SZ_BYTE", "0x000E"]⟩,
  ⟨0xf040, ['F', 'S', 'T'], ["P1", "ISZ_NONE", "M_WDATA", "OP_10", "SZ_BYTE", "0x000F"]⟩,
  ⟨0xf040, ['F', 'S', 'S', 'F'], ["P1", "ISZ_NONE", "M_WDATA", "OP_10", "SZ_BYTE", "0x0010"]⟩,
  ⟨0xf040, ['F', 'S', 'S', 'E', 'Q'], ["P1", "ISZ_NONE", "M_WDATA", "OP_10", "SZ_BYTE", "0x0011"]⟩,
  ⟨0xf040, ['F', 'S', 'G', 'T'], ["P1", "ISZ_NONE", "M_WDATA", "OP_10", "SZ_BYTE", "0x0012"]⟩,
  ⟨0xf040, ['F', 'S', 'G', 'E'], ["P1", "ISZ_NONE", "M_WDATA", "OP_10", "SZ_BYTE", "0x0013"]⟩,
  ⟨0xf040, ['F', 'S', 'L', 'T'], ["P1", "ISZ_NONE", "M_WDATA", "OP_10", "SZ_BYTE", "0x0014"]⟩,
  ⟨0xf040, ['F', 'S', 'L', 'E'], ["P1", "ISZ_NONE", "M_WDATA", "OP_10", "SZ_BYTE", "0x0015"]⟩,
  ⟨0xf040, ['F', 'S', 'G', 'L'], ["P1", "ISZ_NONE", "M_WDATA", "OP_10", "SZ_BYTE", "0x0016"]⟩,
  ⟨0xf040, ['F', 'S', 'G', 'L', 'E'], ["P1", "ISZ_NONE", "M_WDATA", "OP_10", "SZ_BYTE", "0x0017"]⟩,
  ⟨0xf040, ['F', 'S', 'N', 'G', 'L', 'E'], ["P1", "ISZ_NONE", "M_WDATA", "OP_10", "SZ_BYTE", "0x0018"]⟩,
  ⟨0xf040, ['F', 'S', 'N', 'G', 'L'], ["P1", "ISZ_NONE", "M_WDATA", "OP_10", "SZ_BYTE", "0x0019"]⟩,
  ⟨0xf040, ['F', 'S', 'N', 'L', 'E'], ["P1", "ISZ_NONE", "M_WDATA", "OP_10", "SZ_BYTE", "0x001A"]⟩,
  ⟨0xf040, ['F', 'S', 'N', 'L', 'T'], ["P1", "ISZ_NONE", "M_WDATA", "OP_10", "SZ_BYTE", "0x001B"]⟩,
  ⟨0xf040, ['F', 'S', 'N', 'G', 'E'], ["P1", "ISZ_NONE", "M_WDATA", "OP_10", "SZ_BYTE", "0x001C"]⟩,
  ⟨0xf040, ['F', 'S', 'N', 'G', 'T'], ["P1", "ISZ_NONE", "M_WDATA", "OP_10", "SZ_BYTE", "0x001D"]⟩,
  ⟨0xf040, ['F', 'S', 'S', 'N', 'E'], ["P1", "ISZ_NONE", "M_WDATA", "OP_10", "SZ_BYTE", "0x001E"]⟩,
  ⟨0xf040, ['F', 'S', 'S', 'T'], ["P1", "ISZ_NONE", "M_WDATA", "OP_10", "SZ_BYTE", "0x001F"]⟩,
  ⟨0xf07a, ['F', 'T', 'R', 'A', 'P', 'F'], ["P1", "ISZ_FIXD", "M_IMDAT", "OP___", "SZ_WORD", "0x0000"]⟩,
  ⟨0xf07a, ['F', 'T', 'R', 'A', 'P', 'E', 'Q'], ["P1", "ISZ_FIXD", "M_IMDAT", "OP___", "SZ_WORD", "0x0001"]⟩,
  ⟨0xf07a, ['F', 'T', 'R', 'A', 'P', 'O', 'G', 'T'], ["P1", "ISZ_FIXD", "M_IMDAT", "OP___", "SZ_WORD", "0x0002"]⟩,
  ⟨0xf07a, ['F', 'T', 'R', 'A', 'P', 'O', 'G', 'E'], ["P1", "ISZ_FIXD", "M_IMDAT", "OP___", "SZ_WORD", "0x0003"]⟩,
  ⟨0xf07a, ['F', 'T', 'R', 'A', 'P', 'O', 'L', 'T'], ["P1", "ISZ_FIXD", "M_IMDAT", "OP___", "SZ_WORD", "0x0004"]⟩,
  ⟨0xf07a, ['F', 'T', 'R', 'A', 'P', 'O', 'L', 'E'], ["P1", "ISZ_FIXD", "M_IMDAT", "OP___", "SZ_WORD", "0x0005"]⟩,
  ⟨0xf07a, ['F', 'T', 'R', 'A', 'P', 'O', 'G', 'L'], ["P1", "ISZ_FIXD", "M_IMDAT", "OP___", "SZ_WORD", "0x0006"]⟩,
  ⟨0xf07a, ['F', 'T', 'R', 'A', 'P', 'O', 'R'], ["P1", "ISZ_FIXD", "M_IMDAT", "OP___", "SZ_WORD", "0x0007"]⟩,
  ⟨0xf07a, ['F', 'T', 'R', 'A', 'P', 'U', 'N'], ["P1", "ISZ_FIXD", "M_IMDAT", "OP___", "SZ_WORD", "0x0008"]⟩,
  ⟨0xf07a, ['F', 'T', 'R', 'A', 'P', 'U', 'E', 'Q'], ["P1", "ISZ_FIXD", "M_IMDAT", "OP___", "SZ_WORD", "0x0009"]⟩,
  ⟨0xf07a, ['F', 'T', 'R', 'A', 'P', 'U', 'G', 'T'], ["P1", "ISZ_FIXD", "M_IMDAT", "OP___", "SZ_WORD", "0x000A"]⟩,
  ⟨0xf07a, ['F', 'T', 'R', 'A', 'P', 'U', 'G', 'E'], ["P1", "ISZ_FIXD", "M_IMDAT", "OP___", "SZ_WORD", "0x000B"]⟩,
  ⟨0xf07a, ['F', 'T', 'R', 'A', 'P', 'U', 'L', 'T'], ["P1", "ISZ_FIXD", "M_IMDAT", "OP___", "SZ_WORD", "0x000C"]⟩,
  ⟨0xf07a, ['F', 'T', 'R', 'A', 'P', 'U', 'L', 'E'], ["P1", "ISZ_FIXD", "M_IMDAT", "OP___", "SZ_WORD", "0x000D"]⟩,
  ⟨0xf07a, ['F', 'T', 'R', 'A', 'P', 'N', 'E'], ["P1", "ISZ_FIXD", "M_IMDAT", "OP___", "SZ_WORD", "0x000E"]⟩,
  ⟨0xf07a, ['F', 'T', 'R', 'A', 'P', 'T'], ["P1", "ISZ_FIXD", "M_IMDAT", "OP___", "SZ_WORD", "0x000F"]⟩,
  ⟨0xf07a, ['F', 'T', 'R', 'A', 'P', 'S', 'F'], ["P1", "ISZ_FIXD", "M_IMDAT", "OP___", "SZ_WORD", "0x0010"]⟩,
  ⟨0xf07a, ['F', 'T', 'R', 'A', 'P', 'S', 'E', 'Q'], ["P1", "ISZ_FIXD", "M_IMDAT", "OP___", "SZ_WORD", "0x0011"]⟩,
  ⟨0xf07a, ['F', 'T', 'R', 'A', 'P', 'G', 'T'], ["P1", "ISZ_FIXD", "M_IMDAT", "OP___", "SZ_WORD", "0x0012"]⟩,
  ⟨0xf07a, ['F', 'T', 'R', 'A', 'P', 'G', 'E'], ["P1", "ISZ_FIXD", "M_IMDAT", "OP___", "SZ_WORD", "0x0013"]⟩,
  ⟨0xf07a, ['F', 'T', 'R', 'A', 'P', 'L', 'T'], ["P1", "ISZ_FIXD", "M_IMDAT", "OP___", "SZ_WORD", "0x0014"]⟩,
  ⟨0xf07a, ['F', 'T', 'R', 'A', 'P', 'L', 'E'], ["P1", "ISZ_FIXD", "M_IMDAT", "OP___", "SZ_WORD", "0x0015"]⟩,
  ⟨0xf07a, ['F', 'T', 'R', 'A', 'P', 'G', 'L'], ["P1", "ISZ_FIXD", "M_IMDAT", "OP___", "SZ_WORD", "0x0016"]⟩,
  ⟨0xf07a, ['F', 'T', 'R', 'A', 'P', 'G', 'L', 'E'], ["P1", "ISZ_FIXD", "M_IMDAT", "OP___", "SZ_WORD", "0x0017"]⟩,
  ⟨0xf07a, ['F', 'T', 'R', 'A', 'P', 'N', 'G', 'L', 'E'], ["P1", "ISZ_FIXD", "M_IMDAT", "OP___", "SZ_WORD", "0x0018"]⟩,
  ⟨0xf07a, ['F', 'T', 'R', 'A', 'P', 'N', 'G', 'L'], ["P1", "ISZ_FIXD", "M_IMDAT", "OP___", "SZ_WORD", "0x0019"]⟩,
  ⟨0xf07a, ['F', 'T', 'R', 'A', 'P', 'N', 'L', 'E'], ["P1", "ISZ_FIXD", "M_IMDAT", "OP___", "SZ_WORD", "0x001A"]⟩,
  ⟨0xf07a, ['F', 'T', 'R', 'A', 'P', 'N', 'L', 'T'], ["P1", "ISZ_FIXD", "M_IMDAT", "OP___", "SZ_WORD", "0x001B"]⟩,
  ⟨0xf07a, ['F', 'T', 'R', 'A', 'P', 'N', 'G', 'E'], ["P1", "ISZ_FIXD", "M_IMDAT", "OP___", "SZ_WORD", "0x001C"]⟩,
  ⟨0xf07a, ['F', 'T', 'R', 'A', 'P', 'N', 'G', 'T'], ["P1", "ISZ_FIXD", "M_IMDAT", "OP___", "SZ_WORD", "0x001D"]⟩,
  ⟨0xf07a, ['F', 'T', 'R', 'A', 'P', 'S', 'N', 'E'], ["P1", "ISZ_FIXD", "M_IMDAT", "OP___", "SZ_WORD", "0x001E"]⟩,
  ⟨0xf07a, ['F', 'T', 'R', 'A', 'P', 'S', 'T'], ["P1", "ISZ_FIXD", "M_IMDAT", "OP___", "SZ_WORD", "0x001F"]⟩,
  ⟨0xf07b, ['F', 'T', 'R', 'A', 'P', 'F'], ["P1", "ISZ_FIXD", "M_IMDAT", "OP___", "SZ_LONG", "0x0000"]⟩,
  ⟨0xf07b, ['F', 'T', 'R', 'A', 'P', 'E', 'Q'], ["P1", "ISZ_FIXD", "M_IMDAT", "OP___", "SZ_LONG", "0x0001"]⟩,
  ⟨0xf07b, ['F', 'T', 'R', 'A', 'P', 'O', 'G', 'T'], ["P1", "ISZ_FIXD", "M_IMDAT", "OP___", "SZ_LONG", "0x0002"]⟩,
  ⟨0xf07b, ['F', 'T', 'R', 'A', 'P', 'O', 'G', 'E'], ["P1", "ISZ_FIXD", "M_IMDAT", "OP___", "SZ_LONG", "0x0003"]⟩,
  ⟨0xf07b, ['F', 'T', 'R', 'A', 'P', 'O', 'L', 'T'], ["P1", "ISZ_FIXD", "M_IMDAT", "OP___", "SZ_LONG", "0x0004"]⟩,
  ⟨0xf07b, ['F', 'T', 'R', 'A', 'P', 'O', 'L', 'E'], ["P1", "ISZ_FIXD", "M_IMDAT", "OP___", "SZ_LONG", "0x0005"]⟩,
  ⟨0xf07b, ['F', 'T', 'R', 'A', 'P', 'O', 'G', 'L'], ["P1", "ISZ_FIXD", "M_IMDAT", "OP___", "SZ_LONG", "0x0006"]⟩,
  ⟨0xf07b, ['F', 'T', 'R', 'A', 'P', 'O', 'R'], ["P1", "ISZ_FIXD", "M_IMDAT", "OP___", "SZ_LONG", "0x0007"]⟩,
  ⟨0xf07b, ['F', 'T', 'R', 'A', 'P', 'U', 'N'], ["P1", "ISZ_FIXD", "M_IMDAT", "OP___", "SZ_LONG", "0x0008"]⟩,
  ⟨0xf07b, ['F', 'T', 'R', 'A', 'P', 'U', 'E', 'Q'], ["P1", "ISZ_FIXD", "M_IMDAT", "OP___", "SZ_LONG", "0x0009"]⟩,
  ⟨0xf07b, ['F', 'T', 'R', 'A', 'P', 'U', 'G', 'T'], ["P1", "ISZ_FIXD", "M_IMDAT", "OP___", "SZ_LONG", "0x000A"]⟩,
  ⟨0xf07b, ['F', 'T', 'R', 'A', 'P', 'U', 'G', 'E'], ["P1", "ISZ_FIXD", "M_IMDAT", "OP___", "SZ_LONG", "0x000B"]⟩,
  ⟨0xf07b, ['F', 'T', 'R', 'A', 'P', 'U', 'L', 'T'], ["P1", "ISZ_FIXD", "M_IMDAT", "OP___", "SZ_LONG", "0x000C"]⟩,
  ⟨0xf07b, ['F', 'T', 'R', 'A', 'P', 'U', 'L', 'E'], ["P1", "ISZ_FIXD", "M_IMDAT", "OP___", "SZ_LONG", "0x000D"]⟩,
  ⟨0xf07b, ['F', 'T', 'R', 'A', 'P', 'N', 'E'], ["P1", "ISZ_FIXD", "M_IMDAT", "OP___", "SZ_LONG", "0x000E"]⟩,
  ⟨0xf07b, ['F', 'T', 'R', 'A', 'P', 'T'], ["P1", "ISZ_FIXD", "M_IMDAT", "OP___", "SZ_LONG", "0x000F"]⟩,
  ⟨0xf07b, ['F', 'T', 'R', 'A', 'P', 'S', 'F'], ["P1", "ISZ_FIXD", "M_IMDAT", "OP___", "SZ_LONG", "0x0010"]⟩,
  ⟨0xf07b, ['F', 'T', 'R', 'A', 'P', 'S', 'E', 'Q'], ["P1", "ISZ_FIXD", "M_IMDAT", "OP___", "SZ_LONG", "0x0011"]⟩,
  ⟨0xf07b, ['F', 'T', 'R', 'A', 'P', 'G', 'T'], ["P1", "ISZ_FIXD", "M_IMDAT", "OP___", "SZ_LONG", "0x0012"]⟩,
  ⟨0xf07b, ['F', 'T', 'R', 'A', 'P', 'G', 'E'], ["P1", "ISZ_FIXD", "M_IMDAT", "OP___", "SZ_LONG", "0x0013"]⟩,
  ⟨0xf07b, ['F', 'T', 'R', 'A', 'P', 'L', 'T'], ["P1", "ISZ_FIXD", "M_IMDAT", "OP___", "SZ_LONG", "0x0014"]⟩,
  ⟨0xf07b, ['F', 'T', 'R', 'A', 'P', 'L', 'E'], ["P1", "ISZ_FIXD", "M_IMDAT", "OP___", "SZ_LONG", "0x0015"]⟩,
  ⟨0xf07b, ['F', 'T', 'R', 'A', 'P', 'G', 'L'], ["P1", "ISZ_FIXD", "M_IMDAT", "OP___", "SZ_LONG", "0x0016"]⟩,
  ⟨0xf07b, ['F', 'T', 'R', 'A', 'P', 'G', 'L', 'E'], ["P1", "ISZ_FIXD", "M_IMDAT", "OP___", "SZ_LONG", "0x0017"]⟩,
  ⟨0xf07b, ['F', 'T', 'R', 'A', 'P', 'N', 'G', 'L', 'E'], ["P1", "ISZ_FIXD", "M_IMDAT", "OP___", "SZ_LONG", "0x0018"]⟩,
  ⟨0xf07b, ['F', 'T', 'R', 'A', 'P', 'N', 'G', 'L'], ["P1", "ISZ_FIXD", "M_IMDAT", "OP___", "SZ_LONG", "0x0019"]⟩,
  ⟨0xf07b, ['F', 'T', 'R', 'A', 'P', 'N', 'L', 'E'], ["P1", "ISZ_FIXD", "M_IMDAT", "OP___", "SZ_LONG", "0x001A"]⟩,
  ⟨0xf07b, ['F', 'T', 'R', 'A', 'P', 'N', 'L', 'T'], ["P1", "ISZ_FIXD", "M_IMDAT", "OP___", "SZ_LONG", "0x001B"]⟩,
  ⟨0xf07b, ['F', 'T', 'R', 'A', 'P', 'N', 'G', 'E'], ["P1", "ISZ_FIXD", "M_IMDAT", "OP___", "SZ_LONG", "0x001C"]⟩,
  ⟨0xf07b, ['F', 'T', 'R', 'A', 'P', 'N', 'G', 'T'], ["P1", "ISZ_FIXD", "M_IMDAT", "OP___", "SZ_LONG", "0x001D"]⟩,
  ⟨0xf07b, ['F', 'T', 'R', 'A', 'P', 'S', 'N', 'E'], ["P1", "ISZ_FIXD", "M_IMDAT", "OP___", "SZ_LONG", "0x001E"]⟩,
  ⟨0xf07b, ['F', 'T', 'R', 'A', 'P', 'S', 'T'], ["P1", "ISZ_FIXD", "M_IMDAT", "OP___", "SZ_LONG", "0x001F"]⟩,
  ⟨0xf07c, ['F', 'T', 'R', 'A', 'P', 'F'], ["P0", "0x0000"]⟩,
  ⟨0xf07c, ['F', 'T', 'R', 'A', 'P', 'E', 'Q'], ["P0", "0x0001"]⟩,
  ⟨0xf07c, ['F', 'T', 'R', 'A', 'P', 'O', 'G', 'T'], ["P0", "0x0002"]⟩,
  ⟨0xf07c, ['F', 'T', 'R', 'A', 'P', 'O', 'G', 'E'], ["P0", "0x0003"]⟩,
  ⟨0xf07c, ['F', 'T', 'R', 'A', 'P', 'O', 'L', 'T'], ["P0", "0x0004"]⟩,
  ⟨0xf07c, ['F', 'T', 'R', 'A', 'P', 'O', 'L', 'E'], ["P0", "0x0005"]⟩,
  ⟨0xf07c, ['F', 'T', 'R', 'A', 'P', 'O', 'G', 'L'], ["P0", "0x0006"]⟩,
  ⟨0xf07c, ['F', 'T', 'R', 'A', 'P', 'O', 'R'], ["P0", "0x0007"]⟩,
  ⟨0xf07c, ['F', 'T', 'R', 'A', 'P', 'U', 'N'], ["P0", "0x0008"]⟩,
  ⟨0xf07c, ['F', 'T', 'R', 'A', 'P', 'U', 'E', 'Q'], ["P0", "0x0009"]⟩,
  ⟨0xf07c, ['F', 'T', 'R', 'A', 'P', 'U', 'G', 'T'], ["P0", "0x000A"]⟩,
  ⟨0xf07c, ['F', 'T', 'R', 'A', 'P', 'U', 'G', 'E'], ["P0", "0x000B"]⟩,
  ⟨0xf07c, ['F', 'T', 'R', 'A', 'P', 'U', 'L', 'T'], ["P0", "0x000C"]⟩,
  ⟨0xf07c, ['F', 'T', 'R', 'A', 'P', 'U', 'L', 'E'], ["P0", "0x000D"]⟩,
  ⟨0xf07c, ['F', 'T', 'R', 'A', 'P', 'N', 'E'], ["P0", "0x000E"]⟩,
  ⟨0xf07c, ['F', 'T', 'R', 'A', 'P', 'T'], ["P0", "0x000F"]⟩,
  ⟨0xf07c, ['F', 'T', 'R', 'A', 'P', 'S', 'F'], ["P0", "0x0010"]⟩,
  ⟨0xf07c, ['F', 'T', 'R', 'A', 'P', 'S', 'E', 'Q'], ["P0", "0x0011"]⟩,
  ⟨0xf07c, ['F', 'T', 'R', 'A', 'P', 'G', 'T'], ["P0", "0x0012"]⟩,
  ⟨0xf07c, ['F', 'T', 'R', 'A', 'P', 'G', 'E'], ["P0", "0x0013"]⟩,
  ⟨0xf07c, ['F', 'T', 'R', 'A', 'P', 'L', 'T'], ["P0", "0x0014"]⟩,
  ⟨0xf07c, ['F', 'T', 'R', 'A', 'P', 'L', 'E'], ["P0", "0x0015"]⟩,
  ⟨0xf07c, ['F', 'T', 'R', 'A', 'P', 'G', 'L'], ["P0", "0x0016"]⟩,
  ⟨0xf07c, ['F', 'T', 'R', 'A', 'P', 'G', 'L', 'E'], ["P0", "0x0017"]⟩,
  ⟨0xf07c, ['F', 'T', 'R', 'A', 'P', 'N', 'G', 'L', 'E'], ["P0", "0x0018"]⟩,
  ⟨0xf07c, ['F', 'T', 'R', 'A', 'P', 'N', 'G', 'L'], ["P0", "0x0019"]⟩,
  ⟨0xf07c, ['F', 'T', 'R', 'A', 'P', 'N', 'L', 'E'], ["P0", "0x001A"]⟩,
  ⟨0xf07c, ['F', 'T', 'R', 'A', 'P', 'N', 'L', 'T'], ["P0", "0x001B"]⟩,
  ⟨0xf07c, ['F', 'T', 'R', 'A', 'P', 'N', 'G', 'E'], ["P0", "0x001C"]⟩,
  ⟨0xf07c, ['F', 'T', 'R', 'A', 'P', 'N', 'G', 'T'], ["P0", "0x001D"]⟩,
  ⟨0xf07c, ['F', 'T', 'R', 'A', 'P', 'S', 'N', 'E'], ["P0", "0x001E"]⟩,
  ⟨0xf07c, ['F', 'T', 'R', 'A', 'P', 'S', 'T'], ["P0", "0x001F"]⟩]

/-- src/table_mc68000.cpp:1084-1213 -/
def MC68881_TRAP_INDEX : List Nat := [
  1, 0, 19, 22, 23, 18, 21, 20, 14, 28, 25, 24, 29, 26, 27, 3,
  6, 2, 5, 4, 7, 17, 16, 30, 31, 15, 9, 11, 10, 13, 12, 8,
  33, 65, 97, 32, 64, 96, 51, 83, 115, 54, 86, 118, 55, 87, 119, 50,
  82, 114, 53, 85, 117, 52, 84, 116, 46, 78, 110, 60, 92, 124, 57, 89,
  121, 56, 88, 120, 61, 93, 125, 58, 90, 122, 59, 91, 123, 35, 67, 99,
  38, 70, 102, 34, 66, 98, 37, 69, 101, 36, 68, 100, 39, 71, 103, 49,
  81, 113, 48, 80, 112, 62, 94, 126, 63, 95, 127, 47, 79, 111, 41, 73,
  105, 43, 75, 107, 42, 74, 106, 45, 77, 109, 44, 76, 108, 40, 72, 104]

/-- src/table_mc68000.cpp:1235-1237 -/
def MC68000_PAGES : List (Page Row) := [
  ⟨0x0, [], MC68000_TABLE, MC68000_INDEX⟩]

/-- src/table_mc68000.cpp:1239-1242 -/
def MC68010_PAGES : List (Page Row) := [
  ⟨0x0, [], MC68000_TABLE, MC68000_INDEX⟩,
  ⟨0x0, [], MC68010_TABLE, MC68010_INDEX⟩]

/-- src/table_mc68000.cpp:1245-1249 -/
def MC68881_PAGES : List (Page Row) := [
  ⟨0x0, [], MC68881_ARITH, MC68881_ARITH_INDEX⟩,
  ⟨0x0, [], MC68881_BRANCH, MC68881_BRANCH_INDEX⟩,
  ⟨0x0, [], MC68881_TRAP, MC68881_TRAP_INDEX⟩]

/-- The processors of src/table_mc68000.cpp: CPU_TABLE 1252-1255, FPU_TABLE 1264-1267 -/
def cpus : List Cpu := [
  ⟨['6', '8', '0', '0', '0'], MC68000_PAGES⟩,
  ⟨['6', '8', '0', '1', '0'], MC68010_PAGES⟩,
  ⟨['6', '8', '8', '8', '1'], MC68881_PAGES⟩,
  ⟨['n', 'o', 'n', 'e'], []⟩]

theorem MC68000_TABLE_MC68000_INDEX (n : Nat) (x : List String) : PageOk ⟨n, x, MC68000_TABLE, MC68000_INDEX⟩ :=
  pageB_sound ⟨n, x, MC68000_TABLE, MC68000_INDEX⟩ (show pageB ⟨0, [], MC68000_TABLE, MC68000_INDEX⟩ = true by decide +kernel)

theorem MC68010_TABLE_MC68010_INDEX (n : Nat) (x : List String) : PageOk ⟨n, x, MC68010_TABLE, MC68010_INDEX⟩ :=
  pageB_sound ⟨n, x, MC68010_TABLE, MC68010_INDEX⟩ (show pageB ⟨0, [], MC68010_TABLE, MC68010_INDEX⟩ = true by decide +kernel)

theorem MC68881_ARITH_MC68881_ARITH_INDEX (n : Nat) (x : List String) : PageOk ⟨n, x, MC68881_ARITH, MC68881_ARITH_INDEX⟩ :=
  pageB_sound ⟨n, x, MC68881_ARITH, MC68881_ARITH_INDEX⟩ (show pageB ⟨0, [], MC68881_ARITH, MC68881_ARITH_INDEX⟩ = true by decide +kernel)

theorem MC68881_BRANCH_MC68881_BRANCH_INDEX (n : Nat) (x : List String) : PageOk ⟨n, x, MC68881_BRANCH, MC68881_BRANCH_INDEX⟩ :=
  pageB_sound ⟨n, x, MC68881_BRANCH, MC68881_BRANCH_INDEX⟩ (show pageB ⟨0, [], MC68881_BRANCH, MC68881_BRANCH_INDEX⟩ = true by decide +kernel)

theorem MC68881_TRAP_MC68881_TRAP_INDEX (n : Nat) (x : List String) : PageOk ⟨n, x, MC68881_TRAP, MC68881_TRAP_INDEX⟩ :=
  pageB_sound ⟨n, x, MC68881_TRAP, MC68881_TRAP_INDEX⟩ (show pageB ⟨0, [], MC68881_TRAP, MC68881_TRAP_INDEX⟩ = true by decide +kernel)

theorem MC68000_PAGES_ok : ∀ p ∈ MC68000_PAGES, PageOk p :=
  List.forall_mem_cons.mpr <| And.intro (MC68000_TABLE_MC68000_INDEX _ _) nofun

theorem MC68010_PAGES_ok : ∀ p ∈ MC68010_PAGES, PageOk p :=
  List.forall_mem_cons.mpr <| And.intro (MC68000_TABLE_MC68000_INDEX _ _) <| List.forall_mem_cons.mpr <| And.intro (MC68010_TABLE_MC68010_INDEX _ _) nofun

theorem MC68881_PAGES_ok : ∀ p ∈ MC68881_PAGES, PageOk p :=
  List.forall_mem_cons.mpr <| And.intro (MC68881_ARITH_MC68881_ARITH_INDEX _ _) <| List.forall_mem_cons.mpr <| And.intro (MC68881_BRANCH_MC68881_BRANCH_INDEX _ _) <| List.forall_mem_cons.mpr <| And.intro (MC68881_TRAP_MC68881_TRAP_INDEX _ _) nofun

theorem cpus_ok : ∀ c ∈ cpus, ∀ p ∈ c.pages, PageOk p :=
  List.forall_mem_cons.mpr <| And.intro MC68000_PAGES_ok <| List.forall_mem_cons.mpr <| And.intro MC68010_PAGES_ok <| List.forall_mem_cons.mpr <| And.intro MC68881_PAGES_ok <| List.forall_mem_cons.mpr <| And.intro nofun nofun

end Libasm.Tables.Mc68000
