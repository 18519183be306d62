import Verif.Tables.Row
/-
Generated by tools/gen_tables.py from src/table_tms7000.cpp: names, codes, operands and indexes as written
there. Do not edit.
-/
namespace Libasm.Tables.Tms7000
open Table

/-- src/table_tms7000.cpp:34-246 -/
def TMS7000_TABLE : List Row := [
  ⟨0x0, ['N', 'O', 'P'], ["E0"]⟩,
  ⟨0x1, ['I', 'D', 'L', 'E'], ["E0"]⟩,
  ⟨0x5, ['E', 'I', 'N', 'T'], ["E0"]⟩,
  ⟨0x6, ['D', 'I', 'N', 'T'], ["E0"]⟩,
  ⟨0x7, ['S', 'E', 'T', 'C'], ["E0"]⟩,
  ⟨0x8, ['P', 'O', 'P'], ["E1", "M_ST"]⟩,
  ⟨0x9, ['S', 'T', 'S', 'P'], ["E0"]⟩,
  ⟨0xa, ['R', 'E', 'T', 'S'], ["E0"]⟩,
  ⟨0xb, ['R', 'E', 'T', 'I'], ["E0"]⟩,
  ⟨0xd, ['L', 'D', 'S', 'P'], ["E0"]⟩,
  ⟨0xe, ['P', 'U', 'S', 'H'], ["E1", "M_ST"]⟩,
  ⟨0xc0, ['M', 'O', 'V'], ["E2", "M_A", "M_B"]⟩,
  ⟨0x62, ['M', 'O', 'V'], ["E2", "M_B", "M_A"]⟩,
  ⟨0xd0, ['M', 'O', 'V'], ["E2", "M_A", "M_RN"]⟩,
  ⟨0xd1, ['M', 'O', 'V'], ["E2", "M_B", "M_RN"]⟩,
  ⟨0x63, ['A', 'N', 'D'], ["E2", "M_B", "M_A"]⟩,
  ⟨0x64, ['O', 'R'], ["E2", "M_B", "M_A"]⟩,
  ⟨0x65, ['X', 'O', 'R'], ["E2", "M_B", "M_A"]⟩,
  ⟨0x66, ['B', 'T', 'J', 'O'], ["E3", "M_B", "M_A", "M_REL"]⟩,
  ⟨0x67, ['B', 'T', 'J', 'Z'], ["E3", "M_B", "M_A", "M_REL"]⟩,
  ⟨0x68, ['A', 'D', 'D'], ["E2", "M_B", "M_A"]⟩,
  ⟨0x69, ['A', 'D', 'C'], ["E2", "M_B", "M_A"]⟩,
  ⟨0x6a, ['S', 'U', 'B'], ["E2", "M_B", "M_A"]⟩,
  ⟨0x6b, ['S', 'B', 'B'], ["E2", "M_B", "M_A"]⟩,
  ⟨0x6c, ['M', 'P', 'Y'], ["E2", "M_B", "M_A"]⟩,
  ⟨0x6d, ['C', 'M', 'P'], ["E2", "M_B", "M_A"]⟩,
  ⟨0x6e, ['D', 'A', 'C'], ["E2", "M_B", "M_A"]⟩,
  ⟨0x6f, ['d', 's', 'b'], ["E2", "M_B", "M_A"]⟩,
  ⟨0x12, ['M', 'O', 'V'], ["E2", "M_RN", "M_A"]⟩,
  ⟨0x13, ['A', 'N', 'D'], ["E2", "M_RN", "M_A"]⟩,
  ⟨0x14, ['O', 'R'], ["E2", "M_RN", "M_A"]⟩,
  ⟨0x15, ['X', 'O', 'R'], ["E2", "M_RN", "M_A"]⟩,
  ⟨0x16, ['B', 'T', 'J', 'O'], ["E3", "M_RN", "M_A", "M_REL"]⟩,
  ⟨0x17, ['B', 'T', 'J', 'Z'], ["E3", "M_RN", "M_A", "M_REL"]⟩,
  ⟨0x18, ['A', 'D', 'D'], ["E2", "M_RN", "M_A"]⟩,
  ⟨0x19, ['A', 'D', 'C'], ["E2", "M_RN", "M_A"]⟩,
  ⟨0x1a, ['S', 'U', 'B'], ["E2", "M_RN", "M_A"]⟩,
  ⟨0x1b, ['S', 'B', 'B'], ["E2", "M_RN", "M_A"]⟩,
  ⟨0x1c, ['M', 'P', 'Y'], ["E2", "M_RN", "M_A"]⟩,
  ⟨0x1d, ['C', 'M', 'P'], ["E2", "M_RN", "M_A"]⟩,
  ⟨0x1e, ['D', 'A', 'C'], ["E2", "M_RN", "M_A"]⟩,
  ⟨0x1f, ['d', 's', 'b'], ["E2", "M_RN", "M_A"]⟩,
  ⟨0x22, ['M', 'O', 'V'], ["E2", "M_IM8", "M_A"]⟩,
  ⟨0x23, ['A', 'N', 'D'], ["E2", "M_IM8", "M_A"]⟩,
  ⟨0x24, ['O', 'R'], ["E2", "M_IM8", "M_A"]⟩,
  ⟨0x25, ['X', 'O', 'R'], ["E2", "M_IM8", "M_A"]⟩,
  ⟨0x26, ['B', 'T', 'J', 'O'], ["E3", "M_IM8", "M_A", "M_REL"]⟩,
  ⟨0x27, ['B', 'T', 'J', 'Z'], ["E3", "M_IM8", "M_A", "M_REL"]⟩,
  ⟨0x28, ['A', 'D', 'D'], ["E2", "M_IM8", "M_A"]⟩,
  ⟨0x29, ['A', 'D', 'C'], ["E2", "M_IM8", "M_A"]⟩,
  ⟨0x2a, ['S', 'U', 'B'], ["E2", "M_IM8", "M_A"]⟩,
  ⟨0x2b, ['S', 'B', 'B'], ["E2", "M_IM8", "M_A"]⟩,
  ⟨0x2c, ['M', 'P', 'Y'], ["E2", "M_IM8", "M_A"]⟩,
  ⟨0x2d, ['C', 'M', 'P'], ["E2", "M_IM8", "M_A"]⟩,
  ⟨0x2e, ['D', 'A', 'C'], ["E2", "M_IM8", "M_A"]⟩,
  ⟨0x2f, ['d', 's', 'b'], ["E2", "M_IM8", "M_A"]⟩,
  ⟨0x32, ['M', 'O', 'V'], ["E2", "M_RN", "M_B"]⟩,
  ⟨0x33, ['A', 'N', 'D'], ["E2", "M_RN", "M_B"]⟩,
  ⟨0x34, ['O', 'R'], ["E2", "M_RN", "M_B"]⟩,
  ⟨0x35, ['X', 'O', 'R'], ["E2", "M_RN", "M_B"]⟩,
  ⟨0x36, ['B', 'T', 'J', 'O'], ["E3", "M_RN", "M_B", "M_REL"]⟩,
  ⟨0x37, ['B', 'T', 'J', 'Z'], ["E3", "M_RN", "M_B", "M_REL"]⟩,
  ⟨0x38, ['A', 'D', 'D'], ["E2", "M_RN", "M_B"]⟩,
  ⟨0x39, ['A', 'D', 'C'], ["E2", "M_RN", "M_B"]⟩,
  ⟨0x3a, ['S', 'U', 'B'], ["E2", "M_RN", "M_B"]⟩,
  ⟨0x3b, ['S', 'B', 'B'], ["E2", "M_RN", "M_B"]⟩,
  ⟨0x3c, ['M', 'P', 'Y'], ["E2", "M_RN", "M_B"]⟩,
  ⟨0x3d, ['C', 'M', 'P'], ["E2", "M_RN", "M_B"]⟩,
  ⟨0x3e, ['D', 'A', 'C'], ["E2", "M_RN", "M_B"]⟩,
  ⟨0x3f, ['d', 's', 'b'], ["E2", "M_RN", "M_B"]⟩,
  ⟨0x42, ['M', 'O', 'V'], ["E2", "M_RN", "M_RN"]⟩,
  ⟨0x43, ['A', 'N', 'D'], ["E2", "M_RN", "M_RN"]⟩,
  ⟨0x44, ['O', 'R'], ["E2", "M_RN", "M_RN"]⟩,
  ⟨0x45, ['X', 'O', 'R'], ["E2", "M_RN", "M_RN"]⟩,
  ⟨0x46, ['B', 'T', 'J', 'O'], ["E3", "M_RN", "M_RN", "M_REL"]⟩,
  ⟨0x47, ['B', 'T', 'J', 'Z'], ["E3", "M_RN", "M_RN", "M_REL"]⟩,
  ⟨0x48, ['A', 'D', 'D'], ["E2", "M_RN", "M_RN"]⟩,
  ⟨0x49, ['A', 'D', 'C'], ["E2", "M_RN", "M_RN"]⟩,
  ⟨0x4a, ['S', 'U', 'B'], ["E2", "M_RN", "M_RN"]⟩,
  ⟨0x4b, ['S', 'B', 'B'], ["E2", "M_RN", "M_RN"]⟩,
  ⟨0x4c, ['M', 'P', 'Y'], ["E2", "M_RN", "M_RN"]⟩,
  ⟨0x4d, ['C', 'M', 'P'], ["E2", "M_RN", "M_RN"]⟩,
  ⟨0x4e, ['D', 'A', 'C'], ["E2", "M_RN", "M_RN"]⟩,
  ⟨0x4f, ['d', 's', 'b'], ["E2", "M_RN", "M_RN"]⟩,
  ⟨0x52, ['M', 'O', 'V'], ["E2", "M_IM8", "M_B"]⟩,
  ⟨0x53, ['A', 'N', 'D'], ["E2", "M_IM8", "M_B"]⟩,
  ⟨0x54, ['O', 'R'], ["E2", "M_IM8", "M_B"]⟩,
  ⟨0x55, ['X', 'O', 'R'], ["E2", "M_IM8", "M_B"]⟩,
  ⟨0x56, ['B', 'T', 'J', 'O'], ["E3", "M_IM8", "M_B", "M_REL"]⟩,
  ⟨0x57, ['B', 'T', 'J', 'Z'], ["E3", "M_IM8", "M_B", "M_REL"]⟩,
  ⟨0x58, ['A', 'D', 'D'], ["E2", "M_IM8", "M_B"]⟩,
  ⟨0x59, ['A', 'D', 'C'], ["E2", "M_IM8", "M_B"]⟩,
  ⟨0x5a, ['S', 'U', 'B'], ["E2", "M_IM8", "M_B"]⟩,
  ⟨0x5b, ['S', 'B', 'B'], ["E2", "M_IM8", "M_B"]⟩,
  ⟨0x5c, ['M', 'P', 'Y'], ["E2", "M_IM8", "M_B"]⟩,
  ⟨0x5d, ['C', 'M', 'P'], ["E2", "M_IM8", "M_B"]⟩,
  ⟨0x5e, ['D', 'A', 'C'], ["E2", "M_IM8", "M_B"]⟩,
  ⟨0x5f, ['d', 's', 'b'], ["E2", "M_IM8", "M_B"]⟩,
  ⟨0x72, ['M', 'O', 'V'], ["E2", "M_IM8", "M_RN"]⟩,
  ⟨0x73, ['A', 'N', 'D'], ["E2", "M_IM8", "M_RN"]⟩,
  ⟨0x74, ['O', 'R'], ["E2", "M_IM8", "M_RN"]⟩,
  ⟨0x75, ['X', 'O', 'R'], ["E2", "M_IM8", "M_RN"]⟩,
  ⟨0x76, ['B', 'T', 'J', 'O'], ["E3", "M_IM8", "M_RN", "M_REL"]⟩,
  ⟨0x77, ['B', 'T', 'J', 'Z'], ["E3", "M_IM8", "M_RN", "M_REL"]⟩,
  ⟨0x78, ['A', 'D', 'D'], ["E2", "M_IM8", "M_RN"]⟩,
  ⟨0x79, ['A', 'D', 'C'], ["E2", "M_IM8", "M_RN"]⟩,
  ⟨0x7a, ['S', 'U', 'B'], ["E2", "M_IM8", "M_RN"]⟩,
  ⟨0x7b, ['S', 'B', 'B'], ["E2", "M_IM8", "M_RN"]⟩,
  ⟨0x7c, ['M', 'P', 'Y'], ["E2", "M_IM8", "M_RN"]⟩,
  ⟨0x7d, ['C', 'M', 'P'], ["E2", "M_IM8", "M_RN"]⟩,
  ⟨0x7e, ['D', 'A', 'C'], ["E2", "M_IM8", "M_RN"]⟩,
  ⟨0x7f, ['d', 's', 'b'], ["E2", "M_IM8", "M_RN"]⟩,
  ⟨0x80, ['M', 'O', 'V', 'P'], ["E2", "M_PN", "M_A"]⟩,
  ⟨0x82, ['M', 'O', 'V', 'P'], ["E2", "M_A", "M_PN"]⟩,
  ⟨0x83, ['A', 'N', 'D', 'P'], ["E2", "M_A", "M_PN"]⟩,
  ⟨0x84, ['O', 'R', 'P'], ["E2", "M_A", "M_PN"]⟩,
  ⟨0x85, ['X', 'O', 'R', 'P'], ["E2", "M_A", "M_PN"]⟩,
  ⟨0x86, ['B', 'T', 'J', 'O', 'P'], ["E3", "M_A", "M_PN", "M_REL"]⟩,
  ⟨0x87, ['B', 'T', 'J', 'Z', 'P'], ["E3", "M_A", "M_PN", "M_REL"]⟩,
  ⟨0x88, ['M', 'O', 'V', 'D'], ["E2", "M_IM16", "M_RN"]⟩,
  ⟨0x8a, ['L', 'D', 'A'], ["E1", "M_ABS"]⟩,
  ⟨0x8b, ['S', 'T', 'A'], ["E1", "M_ABS"]⟩,
  ⟨0x8c, ['B', 'R'], ["E1", "M_ABS"]⟩,
  ⟨0x8d, ['C', 'M', 'P', 'A'], ["E1", "M_ABS"]⟩,
  ⟨0x8e, ['C', 'A', 'L', 'L'], ["E1", "M_ABS"]⟩,
  ⟨0x91, ['M', 'O', 'V', 'P'], ["E2", "M_PN", "M_B"]⟩,
  ⟨0x92, ['M', 'O', 'V', 'P'], ["E2", "M_B", "M_PN"]⟩,
  ⟨0x93, ['A', 'N', 'D', 'P'], ["E2", "M_B", "M_PN"]⟩,
  ⟨0x94, ['O', 'R', 'P'], ["E2", "M_B", "M_PN"]⟩,
  ⟨0x95, ['X', 'O', 'R', 'P'], ["E2", "M_B", "M_PN"]⟩,
  ⟨0x96, ['B', 'T', 'J', 'O', 'P'], ["E3", "M_B", "M_PN", "M_REL"]⟩,
  ⟨0x97, ['B', 'T', 'J', 'Z', 'P'], ["E3", "M_B", "M_PN", "M_REL"]⟩,
  ⟨0x98, ['M', 'O', 'V', 'D'], ["E2", "M_RN", "M_RN"]⟩,
  ⟨0x9a, ['L', 'D', 'A'], ["E1", "M_IDIR"]⟩,
  ⟨0x9b, ['S', 'T', 'A'], ["E1", "M_IDIR"]⟩,
  ⟨0x9c, ['B', 'R'], ["E1", "M_IDIR"]⟩,
  ⟨0x9d, ['C', 'M', 'P', 'A'], ["E1", "M_IDIR"]⟩,
  ⟨0x9e, ['C', 'A', 'L', 'L'], ["E1", "M_IDIR"]⟩,
  ⟨0xa2, ['M', 'O', 'V', 'P'], ["E2", "M_IM8", "M_PN"]⟩,
  ⟨0xa3, ['A', 'N', 'D', 'P'], ["E2", "M_IM8", "M_PN"]⟩,
  ⟨0xa4, ['O', 'R', 'P'], ["E2", "M_IM8", "M_PN"]⟩,
  ⟨0xa5, ['X', 'O', 'R', 'P'], ["E2", "M_IM8", "M_PN"]⟩,
  ⟨0xa6, ['B', 'T', 'J', 'O', 'P'], ["E3", "M_IM8", "M_PN", "M_REL"]⟩,
  ⟨0xa7, ['B', 'T', 'J', 'Z', 'P'], ["E3", "M_IM8", "M_PN", "M_REL"]⟩,
  ⟨0xa8, ['M', 'O', 'V', 'D'], ["E2", "M_BIMM", "M_RN"]⟩,
  ⟨0xaa, ['L', 'D', 'A'], ["E1", "M_BIDX"]⟩,
  ⟨0xab, ['S', 'T', 'A'], ["E1", "M_BIDX"]⟩,
  ⟨0xac, ['B', 'R'], ["E1", "M_BIDX"]⟩,
  ⟨0xad, ['C', 'M', 'P', 'A'], ["E1", "M_BIDX"]⟩,
  ⟨0xae, ['C', 'A', 'L', 'L'], ["E1", "M_BIDX"]⟩,
  ⟨0xb0, ['T', 'S', 'T', 'A'], ["E0"]⟩,
  ⟨0xb0, ['C', 'L', 'R', 'C'], ["E0"]⟩,
  ⟨0xb2, ['D', 'E', 'C'], ["E1", "M_A"]⟩,
  ⟨0xb3, ['I', 'N', 'C'], ["E1", "M_A"]⟩,
  ⟨0xb4, ['I', 'N', 'V'], ["E1", "M_A"]⟩,
  ⟨0xb5, ['C', 'L', 'R'], ["E1", "M_A"]⟩,
  ⟨0xb6, ['X', 'C', 'H', 'B'], ["E1", "M_A"]⟩,
  ⟨0xb7, ['S', 'W', 'A', 'P'], ["E1", "M_A"]⟩,
  ⟨0xb8, ['P', 'U', 'S', 'H'], ["E1", "M_A"]⟩,
  ⟨0xb9, ['P', 'O', 'P'], ["E1", "M_A"]⟩,
  ⟨0xba, ['D', 'J', 'N', 'Z'], ["E2", "M_A", "M_REL"]⟩,
  ⟨0xbb, ['D', 'E', 'C', 'D'], ["E1", "M_A"]⟩,
  ⟨0xbc, ['R', 'R'], ["E1", "M_A"]⟩,
  ⟨0xbd, ['R', 'R', 'C'], ["E1", "M_A"]⟩,
  ⟨0xbe, ['R', 'L'], ["E1", "M_A"]⟩,
  ⟨0xbf, ['R', 'L', 'C'], ["E1", "M_A"]⟩,
  ⟨0xc1, ['T', 'S', 'T', 'B'], ["E0"]⟩,
  ⟨0xc2, ['D', 'E', 'C'], ["E1", "M_B"]⟩,
  ⟨0xc3, ['I', 'N', 'C'], ["E1", "M_B"]⟩,
  ⟨0xc4, ['I', 'N', 'V'], ["E1", "M_B"]⟩,
  ⟨0xc5, ['C', 'L', 'R'], ["E1", "M_B"]⟩,
  ⟨0xc6, ['X', 'C', 'H', 'B'], ["E1", "M_B"]⟩,
  ⟨0xc7, ['S', 'W', 'A', 'P'], ["E1", "M_B"]⟩,
  ⟨0xc8, ['P', 'U', 'S', 'H'], ["E1", "M_B"]⟩,
  ⟨0xc9, ['P', 'O', 'P'], ["E1", "M_B"]⟩,
  ⟨0xca, ['D', 'J', 'N', 'Z'], ["E2", "M_B", "M_REL"]⟩,
  ⟨0xcb, ['D', 'E', 'C', 'D'], ["E1", "M_B"]⟩,
  ⟨0xcc, ['R', 'R'], ["E1", "M_B"]⟩,
  ⟨0xcd, ['R', 'R', 'C'], ["E1", "M_B"]⟩,
  ⟨0xce, ['R', 'L'], ["E1", "M_B"]⟩,
  ⟨0xcf, ['R', 'L', 'C'], ["E1", "M_B"]⟩,
  ⟨0xd2, ['D', 'E', 'C'], ["E1", "M_RN"]⟩,
  ⟨0xd3, ['I', 'N', 'C'], ["E1", "M_RN"]⟩,
  ⟨0xd4, ['I', 'N', 'V'], ["E1", "M_RN"]⟩,
  ⟨0xd5, ['C', 'L', 'R'], ["E1", "M_RN"]⟩,
  ⟨0xd6, ['X', 'C', 'H', 'B'], ["E1", "M_RN"]⟩,
  ⟨0xd7, ['S', 'W', 'A', 'P'], ["E1", "M_RN"]⟩,
  ⟨0xd8, ['P', 'U', 'S', 'H'], ["E1", "M_RN"]⟩,
  ⟨0xd9, ['P', 'O', 'P'], ["E1", "M_RN"]⟩,
  ⟨0xda, ['D', 'J', 'N', 'Z'], ["E2", "M_RN", "M_REL"]⟩,
  ⟨0xdb, ['D', 'E', 'C', 'D'], ["E1", "M_RN"]⟩,
  ⟨0xdc, ['R', 'R'], ["E1", "M_RN"]⟩,
  ⟨0xdd, ['R', 'R', 'C'], ["E1", "M_RN"]⟩,
  ⟨0xde, ['R', 'L'], ["E1", "M_RN"]⟩,
  ⟨0xdf, ['R', 'L', 'C'], ["E1", "M_RN"]⟩,
  ⟨0xe0, ['J', 'M', 'P'], ["E1", "M_REL"]⟩,
  ⟨0xe1, ['J', 'N'], ["E1", "M_REL"]⟩,
  ⟨0xe1, ['J', 'L', 'T'], ["E1", "M_REL"]⟩,
  ⟨0xe2, ['J', 'Z'], ["E1", "M_REL"]⟩,
  ⟨0xe2, ['J', 'E', 'Q'], ["E1", "M_REL"]⟩,
  ⟨0xe3, ['J', 'C'], ["E1", "M_REL"]⟩,
  ⟨0xe3, ['J', 'H', 'S'], ["E1", "M_REL"]⟩,
  ⟨0xe4, ['J', 'P'], ["E1", "M_REL"]⟩,
  ⟨0xe4, ['J', 'G', 'T'], ["E1", "M_REL"]⟩,
  ⟨0xe5, ['J', 'P', 'Z'], ["E1", "M_REL"]⟩,
  ⟨0xe5, ['J', 'G', 'E'], ["E1", "M_REL"]⟩,
  ⟨0xe6, ['J', 'N', 'Z'], ["E1", "M_REL"]⟩,
  ⟨0xe6, ['J', 'N', 'E'], ["E1", "M_REL"]⟩,
  ⟨0xe7, ['J', 'N', 'C'], ["E1", "M_REL"]⟩,
  ⟨0xe7, ['J', 'L'], ["E1", "M_REL"]⟩,
  ⟨0xe8, ['T', 'R', 'A', 'P'], ["E1", "M_TRAP"]⟩]

/-- src/table_tms7000.cpp:248-460 -/
def TMS7000_INDEX : List Nat := [
  21, 35, 49, 63, 77, 91, 105, 20, 34, 48, 62, 76, 90, 104, 15, 29,
  43, 57, 71, 85, 99, 114, 127, 139, 122, 135, 147, 18, 32, 46, 60, 74,
  88, 102, 117, 130, 142, 19, 33, 47, 61, 75, 89, 103, 118, 131, 143, 124,
  137, 149, 155, 170, 184, 151, 25, 39, 53, 67, 81, 95, 109, 123, 136, 148,
  26, 40, 54, 68, 82, 96, 110, 152, 167, 181, 161, 176, 190, 3, 160, 175,
  189, 27, 41, 55, 69, 83, 97, 111, 2, 1, 153, 168, 182, 154, 169, 183,
  200, 199, 205, 203, 201, 209, 197, 195, 196, 208, 207, 206, 202, 204, 198, 120,
  133, 145, 9, 11, 12, 13, 14, 28, 42, 56, 70, 84, 98, 119, 132, 144,
  112, 113, 125, 126, 138, 24, 38, 52, 66, 80, 94, 108, 0, 16, 30, 44,
  58, 72, 86, 100, 115, 128, 140, 5, 159, 174, 188, 10, 158, 173, 187, 8,
  7, 164, 179, 193, 165, 180, 194, 162, 177, 191, 163, 178, 192, 23, 37, 51,
  65, 79, 93, 107, 4, 121, 134, 146, 6, 22, 36, 50, 64, 78, 92, 106,
  157, 172, 186, 210, 150, 166, 156, 171, 185, 17, 31, 45, 59, 73, 87, 101,
  116, 129, 141]

/-- src/table_tms7000.cpp:466-468 -/
def TMS7000_PAGES : List (Page Row) := [
  ⟨0x0, [], TMS7000_TABLE, TMS7000_INDEX⟩]

/-- The processors of src/table_tms7000.cpp: CPU_TABLE 472-474 -/
def cpus : List Cpu := [
  ⟨['T', 'M', 'S', '7', '0', '0', '0'], TMS7000_PAGES⟩]

theorem TMS7000_TABLE_TMS7000_INDEX (n : Nat) (x : List String) : PageOk ⟨n, x, TMS7000_TABLE, TMS7000_INDEX⟩ :=
  pageB_sound ⟨n, x, TMS7000_TABLE, TMS7000_INDEX⟩ (show pageB ⟨0, [], TMS7000_TABLE, TMS7000_INDEX⟩ = true by decide +kernel)

theorem TMS7000_PAGES_ok : ∀ p ∈ TMS7000_PAGES, PageOk p :=
  List.forall_mem_cons.mpr <| And.intro (TMS7000_TABLE_TMS7000_INDEX _ _) nofun

theorem cpus_ok : ∀ c ∈ cpus, ∀ p ∈ c.pages, PageOk p :=
  List.forall_mem_cons.mpr <| And.intro TMS7000_PAGES_ok nofun

end Libasm.Tables.Tms7000
