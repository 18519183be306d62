import Verif.Cpu.Tlcs90.Encode
import Verif.Table.Props
/-
What has to be looked up in the tables of the TLCS-90: decided for all prefixes and codes.
-/
namespace Libasm.Cpu.Tlcs90
open Scan Number Number.Spec Eval

/-- A table, its rows read, in a page of this mode. -/
def tTlcs90 (p : Mode) : List Entry :=
  [⟨p, 0, ['N', 'O', 'P'], .NONE, .NONE⟩,
   ⟨p, 1, ['H', 'A', 'L', 'T'], .NONE, .NONE⟩,
   ⟨p, 2, ['D', 'I'], .NONE, .NONE⟩,
   ⟨p, 3, ['E', 'I'], .NONE, .NONE⟩,
   ⟨p, 7, ['I', 'N', 'C', 'X'], .DIR, .NONE⟩,
   ⟨p, 8, ['E', 'X'], .R .DE, .R .HL⟩,
   ⟨p, 8, ['E', 'X'], .R .HL, .R .DE⟩,
   ⟨p, 9, ['E', 'X'], .R .AF, .R .AFP⟩,
   ⟨p, 10, ['E', 'X', 'X'], .NONE, .NONE⟩,
   ⟨p, 11, ['D', 'A', 'A'], .R .A, .NONE⟩,
   ⟨p, 12, ['R', 'C', 'F'], .NONE, .NONE⟩,
   ⟨p, 13, ['S', 'C', 'F'], .NONE, .NONE⟩,
   ⟨p, 14, ['C', 'C', 'F'], .NONE, .NONE⟩,
   ⟨p, 15, ['D', 'E', 'C', 'X'], .DIR, .NONE⟩,
   ⟨p, 16, ['C', 'P', 'L'], .R .A, .NONE⟩,
   ⟨p, 17, ['N', 'E', 'G'], .R .A, .NONE⟩,
   ⟨p, 18, ['M', 'U', 'L'], .R .HL, .IMM8⟩,
   ⟨p, 19, ['D', 'I', 'V'], .R .HL, .IMM8⟩,
   ⟨p, 23, ['L', 'D', 'A', 'R'], .R .HL, .REL16⟩,
   ⟨p, 20, ['A', 'D', 'D'], .REGIX, .IMM16⟩,
   ⟨p, 24, ['D', 'J', 'N', 'Z'], .REL8, .NONE⟩,
   ⟨p, 25, ['D', 'J', 'N', 'Z'], .R .BC, .REL8⟩,
   ⟨p, 26, ['J', 'P'], .IMM16, .NONE⟩,
   ⟨p, 27, ['J', 'R', 'L'], .REL16, .NONE⟩,
   ⟨p, 28, ['C', 'A', 'L', 'L'], .IMM16, .NONE⟩,
   ⟨p, 29, ['C', 'A', 'L', 'R'], .REL16, .NONE⟩,
   ⟨p, 30, ['R', 'E', 'T'], .NONE, .NONE⟩,
   ⟨p, 31, ['R', 'E', 'T', 'I'], .NONE, .NONE⟩,
   ⟨p, 39, ['L', 'D'], .R .A, .DIR⟩,
   ⟨p, 32, ['L', 'D'], .R .A, .REG8⟩,
   ⟨p, 47, ['L', 'D'], .DIR, .R .A⟩,
   ⟨p, 40, ['L', 'D'], .REG8, .R .A⟩,
   ⟨p, 55, ['L', 'D'], .DIR, .IMM8⟩,
   ⟨p, 48, ['L', 'D'], .REG8, .IMM8⟩,
   ⟨p, 63, ['L', 'D', 'W'], .DIR, .IMM16⟩,
   ⟨p, 56, ['L', 'D'], .REG16, .IMM16⟩,
   ⟨p, 71, ['L', 'D'], .R .HL, .DIR⟩,
   ⟨p, 64, ['L', 'D'], .R .HL, .REG16⟩,
   ⟨p, 79, ['L', 'D'], .DIR, .R .HL⟩,
   ⟨p, 72, ['L', 'D'], .REG16, .R .HL⟩,
   ⟨p, 80, ['P', 'U', 'S', 'H'], .STACK, .NONE⟩,
   ⟨p, 88, ['P', 'O', 'P'], .STACK, .NONE⟩,
   ⟨p, 96, ['A', 'D', 'D'], .R .A, .DIR⟩,
   ⟨p, 97, ['A', 'D', 'C'], .R .A, .DIR⟩,
   ⟨p, 98, ['S', 'U', 'B'], .R .A, .DIR⟩,
   ⟨p, 99, ['S', 'B', 'C'], .R .A, .DIR⟩,
   ⟨p, 100, ['A', 'N', 'D'], .R .A, .DIR⟩,
   ⟨p, 101, ['X', 'O', 'R'], .R .A, .DIR⟩,
   ⟨p, 102, ['O', 'R'], .R .A, .DIR⟩,
   ⟨p, 103, ['C', 'P'], .R .A, .DIR⟩,
   ⟨p, 104, ['A', 'D', 'D'], .R .A, .IMM8⟩,
   ⟨p, 105, ['A', 'D', 'C'], .R .A, .IMM8⟩,
   ⟨p, 106, ['S', 'U', 'B'], .R .A, .IMM8⟩,
   ⟨p, 107, ['S', 'B', 'C'], .R .A, .IMM8⟩,
   ⟨p, 108, ['A', 'N', 'D'], .R .A, .IMM8⟩,
   ⟨p, 109, ['X', 'O', 'R'], .R .A, .IMM8⟩,
   ⟨p, 110, ['O', 'R'], .R .A, .IMM8⟩,
   ⟨p, 111, ['C', 'P'], .R .A, .IMM8⟩,
   ⟨p, 112, ['A', 'D', 'D'], .R .HL, .DIR⟩,
   ⟨p, 113, ['A', 'D', 'C'], .R .HL, .DIR⟩,
   ⟨p, 114, ['S', 'U', 'B'], .R .HL, .DIR⟩,
   ⟨p, 115, ['S', 'B', 'C'], .R .HL, .DIR⟩,
   ⟨p, 116, ['A', 'N', 'D'], .R .HL, .DIR⟩,
   ⟨p, 117, ['X', 'O', 'R'], .R .HL, .DIR⟩,
   ⟨p, 118, ['O', 'R'], .R .HL, .DIR⟩,
   ⟨p, 119, ['C', 'P'], .R .HL, .DIR⟩,
   ⟨p, 120, ['A', 'D', 'D'], .R .HL, .IMM16⟩,
   ⟨p, 121, ['A', 'D', 'C'], .R .HL, .IMM16⟩,
   ⟨p, 122, ['S', 'U', 'B'], .R .HL, .IMM16⟩,
   ⟨p, 123, ['S', 'B', 'C'], .R .HL, .IMM16⟩,
   ⟨p, 124, ['A', 'N', 'D'], .R .HL, .IMM16⟩,
   ⟨p, 125, ['X', 'O', 'R'], .R .HL, .IMM16⟩,
   ⟨p, 126, ['O', 'R'], .R .HL, .IMM16⟩,
   ⟨p, 127, ['C', 'P'], .R .HL, .IMM16⟩,
   ⟨p, 135, ['I', 'N', 'C'], .DIR, .NONE⟩,
   ⟨p, 128, ['I', 'N', 'C'], .REG8, .NONE⟩,
   ⟨p, 143, ['D', 'E', 'C'], .DIR, .NONE⟩,
   ⟨p, 136, ['D', 'E', 'C'], .REG8, .NONE⟩,
   ⟨p, 151, ['I', 'N', 'C', 'W'], .DIR, .NONE⟩,
   ⟨p, 144, ['I', 'N', 'C'], .REG16, .NONE⟩,
   ⟨p, 159, ['D', 'E', 'C', 'W'], .DIR, .NONE⟩,
   ⟨p, 152, ['D', 'E', 'C'], .REG16, .NONE⟩,
   ⟨p, 160, ['R', 'L', 'C', 'A'], .NONE, .NONE⟩,
   ⟨p, 161, ['R', 'R', 'C', 'A'], .NONE, .NONE⟩,
   ⟨p, 162, ['R', 'L', 'A'], .NONE, .NONE⟩,
   ⟨p, 163, ['R', 'R', 'A'], .NONE, .NONE⟩,
   ⟨p, 164, ['S', 'L', 'A', 'A'], .NONE, .NONE⟩,
   ⟨p, 165, ['S', 'R', 'A', 'A'], .NONE, .NONE⟩,
   ⟨p, 166, ['S', 'L', 'L', 'A'], .NONE, .NONE⟩,
   ⟨p, 167, ['S', 'R', 'L', 'A'], .NONE, .NONE⟩,
   ⟨p, 168, ['B', 'I', 'T'], .BIT, .DIR⟩,
   ⟨p, 176, ['R', 'E', 'S'], .BIT, .DIR⟩,
   ⟨p, 184, ['S', 'E', 'T'], .BIT, .DIR⟩,
   ⟨p, 200, ['J', 'R'], .REL8, .NONE⟩,
   ⟨p, 192, ['J', 'R'], .CC, .REL8⟩,
   ⟨p, 255, ['S', 'W', 'I'], .NONE, .NONE⟩]

/-- A table, its rows read, in a page of this mode. -/
def tSrc (p : Mode) : List Entry :=
  [⟨p, 16, ['R', 'L', 'D'], .DST, .NONE⟩,
   ⟨p, 17, ['R', 'R', 'D'], .DST, .NONE⟩,
   ⟨p, 18, ['M', 'U', 'L'], .R .HL, .SRC⟩,
   ⟨p, 19, ['D', 'I', 'V'], .R .HL, .SRC⟩,
   ⟨p, 20, ['A', 'D', 'D'], .REGIX, .SRC⟩,
   ⟨p, 24, ['T', 'S', 'E', 'T'], .BIT, .SRC⟩,
   ⟨p, 40, ['L', 'D'], .REG8, .SRC⟩,
   ⟨p, 72, ['L', 'D'], .REG16, .SRC⟩,
   ⟨p, 80, ['E', 'X'], .DST, .REG16⟩,
   ⟨p, 80, ['E', 'X'], .REG16, .SRC⟩,
   ⟨p, 96, ['A', 'D', 'D'], .R .A, .SRC⟩,
   ⟨p, 97, ['A', 'D', 'C'], .R .A, .SRC⟩,
   ⟨p, 98, ['S', 'U', 'B'], .R .A, .SRC⟩,
   ⟨p, 99, ['S', 'B', 'C'], .R .A, .SRC⟩,
   ⟨p, 100, ['A', 'N', 'D'], .R .A, .SRC⟩,
   ⟨p, 101, ['X', 'O', 'R'], .R .A, .SRC⟩,
   ⟨p, 102, ['O', 'R'], .R .A, .SRC⟩,
   ⟨p, 103, ['C', 'P'], .R .A, .SRC⟩,
   ⟨p, 112, ['A', 'D', 'D'], .R .HL, .SRC⟩,
   ⟨p, 113, ['A', 'D', 'C'], .R .HL, .SRC⟩,
   ⟨p, 114, ['S', 'U', 'B'], .R .HL, .SRC⟩,
   ⟨p, 115, ['S', 'B', 'C'], .R .HL, .SRC⟩,
   ⟨p, 116, ['A', 'N', 'D'], .R .HL, .SRC⟩,
   ⟨p, 117, ['X', 'O', 'R'], .R .HL, .SRC⟩,
   ⟨p, 118, ['O', 'R'], .R .HL, .SRC⟩,
   ⟨p, 119, ['C', 'P'], .R .HL, .SRC⟩,
   ⟨p, 135, ['I', 'N', 'C'], .DST, .NONE⟩,
   ⟨p, 143, ['D', 'E', 'C'], .DST, .NONE⟩,
   ⟨p, 151, ['I', 'N', 'C', 'W'], .DST, .NONE⟩,
   ⟨p, 159, ['D', 'E', 'C', 'W'], .DST, .NONE⟩,
   ⟨p, 160, ['R', 'L', 'C'], .DST, .NONE⟩,
   ⟨p, 161, ['R', 'R', 'C'], .DST, .NONE⟩,
   ⟨p, 162, ['R', 'L'], .DST, .NONE⟩,
   ⟨p, 163, ['R', 'R'], .DST, .NONE⟩,
   ⟨p, 164, ['S', 'L', 'A'], .DST, .NONE⟩,
   ⟨p, 165, ['S', 'R', 'A'], .DST, .NONE⟩,
   ⟨p, 166, ['S', 'L', 'L'], .DST, .NONE⟩,
   ⟨p, 167, ['S', 'R', 'L'], .DST, .NONE⟩,
   ⟨p, 168, ['B', 'I', 'T'], .BIT, .SRC⟩,
   ⟨p, 176, ['R', 'E', 'S'], .BIT, .SRC⟩,
   ⟨p, 184, ['S', 'E', 'T'], .BIT, .SRC⟩]

/-- A table, its rows read, in a page of this mode. -/
def tDst (p : Mode) : List Entry :=
  [⟨p, 32, ['L', 'D'], .DST, .REG8⟩,
   ⟨p, 55, ['L', 'D'], .DST, .IMM8⟩,
   ⟨p, 63, ['L', 'D', 'W'], .DST, .IMM16⟩,
   ⟨p, 64, ['L', 'D'], .DST, .REG16⟩,
   ⟨p, 104, ['A', 'D', 'D'], .DST, .IMM8⟩,
   ⟨p, 105, ['A', 'D', 'C'], .DST, .IMM8⟩,
   ⟨p, 106, ['S', 'U', 'B'], .DST, .IMM8⟩,
   ⟨p, 107, ['S', 'B', 'C'], .DST, .IMM8⟩,
   ⟨p, 108, ['A', 'N', 'D'], .DST, .IMM8⟩,
   ⟨p, 109, ['X', 'O', 'R'], .DST, .IMM8⟩,
   ⟨p, 110, ['O', 'R'], .DST, .IMM8⟩,
   ⟨p, 111, ['C', 'P'], .DST, .IMM8⟩]

/-- A table, its rows read, in a page of this mode. -/
def tReg (p : Mode) : List Entry :=
  [⟨p, 18, ['M', 'U', 'L'], .R .HL, .SRC⟩,
   ⟨p, 19, ['D', 'I', 'V'], .R .HL, .SRC⟩,
   ⟨p, 24, ['T', 'S', 'E', 'T'], .BIT, .SRC⟩,
   ⟨p, 48, ['L', 'D'], .REG8, .SRC⟩,
   ⟨p, 96, ['A', 'D', 'D'], .R .A, .SRC⟩,
   ⟨p, 97, ['A', 'D', 'C'], .R .A, .SRC⟩,
   ⟨p, 98, ['S', 'U', 'B'], .R .A, .SRC⟩,
   ⟨p, 99, ['S', 'B', 'C'], .R .A, .SRC⟩,
   ⟨p, 100, ['A', 'N', 'D'], .R .A, .SRC⟩,
   ⟨p, 101, ['X', 'O', 'R'], .R .A, .SRC⟩,
   ⟨p, 102, ['O', 'R'], .R .A, .SRC⟩,
   ⟨p, 103, ['C', 'P'], .R .A, .SRC⟩,
   ⟨p, 104, ['A', 'D', 'D'], .DST, .IMM8⟩,
   ⟨p, 105, ['A', 'D', 'C'], .DST, .IMM8⟩,
   ⟨p, 106, ['S', 'U', 'B'], .DST, .IMM8⟩,
   ⟨p, 107, ['S', 'B', 'C'], .DST, .IMM8⟩,
   ⟨p, 108, ['A', 'N', 'D'], .DST, .IMM8⟩,
   ⟨p, 109, ['X', 'O', 'R'], .DST, .IMM8⟩,
   ⟨p, 110, ['O', 'R'], .DST, .IMM8⟩,
   ⟨p, 111, ['C', 'P'], .DST, .IMM8⟩,
   ⟨p, 160, ['R', 'L', 'C'], .DST, .NONE⟩,
   ⟨p, 161, ['R', 'R', 'C'], .DST, .NONE⟩,
   ⟨p, 162, ['R', 'L'], .DST, .NONE⟩,
   ⟨p, 163, ['R', 'R'], .DST, .NONE⟩,
   ⟨p, 164, ['S', 'L', 'A'], .DST, .NONE⟩,
   ⟨p, 165, ['S', 'R', 'A'], .DST, .NONE⟩,
   ⟨p, 166, ['S', 'L', 'L'], .DST, .NONE⟩,
   ⟨p, 167, ['S', 'R', 'L'], .DST, .NONE⟩,
   ⟨p, 168, ['B', 'I', 'T'], .BIT, .SRC⟩,
   ⟨p, 176, ['R', 'E', 'S'], .BIT, .SRC⟩,
   ⟨p, 184, ['S', 'E', 'T'], .BIT, .SRC⟩,
   ⟨p, 20, ['A', 'D', 'D'], .REGIX, .SRC16⟩,
   ⟨p, 56, ['L', 'D'], .REG16, .SRC16⟩,
   ⟨p, 112, ['A', 'D', 'D'], .R .HL, .SRC16⟩,
   ⟨p, 113, ['A', 'D', 'C'], .R .HL, .SRC16⟩,
   ⟨p, 114, ['S', 'U', 'B'], .R .HL, .SRC16⟩,
   ⟨p, 115, ['S', 'B', 'C'], .R .HL, .SRC16⟩,
   ⟨p, 116, ['A', 'N', 'D'], .R .HL, .SRC16⟩,
   ⟨p, 117, ['X', 'O', 'R'], .R .HL, .SRC16⟩,
   ⟨p, 118, ['O', 'R'], .R .HL, .SRC16⟩,
   ⟨p, 119, ['C', 'P'], .R .HL, .SRC16⟩]

/-- A table, its rows read, in a page of this mode. -/
def tLda (p : Mode) : List Entry :=
  [⟨p, 56, ['L', 'D', 'A'], .REG16, .SRC⟩]

/-- A table, its rows read, in a page of this mode. -/
def tJmp (p : Mode) : List Entry :=
  [⟨p, 192, ['J', 'P'], .CC, .SRC⟩,
   ⟨p, 200, ['J', 'P'], .DST, .NONE⟩,
   ⟨p, 208, ['C', 'A', 'L', 'L'], .CC, .SRC⟩,
   ⟨p, 216, ['C', 'A', 'L', 'L'], .DST, .NONE⟩]

/-- A table, its rows read, in a page of this mode. -/
def tCond (p : Mode) : List Entry :=
  [⟨p, 216, ['R', 'E', 'T'], .NONE, .NONE⟩,
   ⟨p, 208, ['R', 'E', 'T'], .CC, .NONE⟩]

/-- A table, its rows read, in a page of this mode. -/
def tBlock (p : Mode) : List Entry :=
  [⟨p, 88, ['L', 'D', 'I'], .NONE, .NONE⟩,
   ⟨p, 89, ['L', 'D', 'I', 'R'], .NONE, .NONE⟩,
   ⟨p, 90, ['L', 'D', 'D'], .NONE, .NONE⟩,
   ⟨p, 91, ['L', 'D', 'D', 'R'], .NONE, .NONE⟩,
   ⟨p, 92, ['C', 'P', 'I'], .NONE, .NONE⟩,
   ⟨p, 93, ['C', 'P', 'I', 'R'], .NONE, .NONE⟩,
   ⟨p, 94, ['C', 'P', 'D'], .NONE, .NONE⟩,
   ⟨p, 95, ['C', 'P', 'D', 'R'], .NONE, .NONE⟩]

/-- The pages with the rows read. -/
def fast : List (Table.Page Entry) :=
  [⟨0, ["M_NONE"], tTlcs90 .NONE, Tables.Tlcs90.INDEX_TLCS90⟩,
   ⟨231, ["M_DIR"], tSrc .DIR, Tables.Tlcs90.INDEX_SRC⟩,
   ⟨227, ["M_EXT"], tSrc .EXT, Tables.Tlcs90.INDEX_SRC⟩,
   ⟨224, ["M_IND"], tSrc .IND, Tables.Tlcs90.INDEX_SRC⟩,
   ⟨243, ["M_BASE"], tSrc .BASE, Tables.Tlcs90.INDEX_SRC⟩,
   ⟨240, ["M_IDX"], tSrc .IDX, Tables.Tlcs90.INDEX_SRC⟩,
   ⟨239, ["M_DIR"], tDst .DIR, Tables.Tlcs90.INDEX_DST⟩,
   ⟨235, ["M_EXT"], tDst .EXT, Tables.Tlcs90.INDEX_DST⟩,
   ⟨232, ["M_IND"], tDst .IND, Tables.Tlcs90.INDEX_DST⟩,
   ⟨247, ["M_BASE"], tDst .BASE, Tables.Tlcs90.INDEX_DST⟩,
   ⟨244, ["M_IDX"], tDst .IDX, Tables.Tlcs90.INDEX_DST⟩,
   ⟨235, ["M_IMM16"], tJmp .IMM16, Tables.Tlcs90.INDEX_JMP⟩,
   ⟨232, ["M_REG16"], tJmp .REG16, Tables.Tlcs90.INDEX_JMP⟩,
   ⟨247, ["M_HLPA"], tJmp .HLPA, Tables.Tlcs90.INDEX_JMP⟩,
   ⟨244, ["M_IXPD"], tJmp .IXPD, Tables.Tlcs90.INDEX_JMP⟩,
   ⟨248, ["M_REG8"], tReg .REG8, Tables.Tlcs90.INDEX_REG⟩,
   ⟨247, ["M_HLPA"], tLda .HLPA, Tables.Tlcs90.INDEX_LDA⟩,
   ⟨244, ["M_IXPD"], tLda .IXPD, Tables.Tlcs90.INDEX_LDA⟩,
   ⟨254, ["M_NONE"], tCond .NONE, Tables.Tlcs90.INDEX_COND⟩,
   ⟨254, ["M_NONE"], tBlock .NONE, Tables.Tlcs90.INDEX_BLOCK⟩]

deriving instance DecidableEq for Table.Page

theorem pages_eq : pages = fast := by
  have h : decide (pages = fast) = true := by decide +kernel
  exact of_decide_eq_true h

/-! ### Prefixes -/

/-- The entries of the pages of a prefix. -/
def hits (pre : Nat) : List Entry :=
  match pre with
  | 0 => tTlcs90 .NONE
  | 0xe7 => tSrc .DIR
  | 0xe3 => tSrc .EXT
  | 0xe0 | 0xe1 | 0xe2 | 0xe4 | 0xe5 | 0xe6 => tSrc .IND
  | 0xf3 => tSrc .BASE
  | 0xf0 | 0xf1 | 0xf2 => tSrc .IDX
  | 0xef => tDst .DIR
  | 0xeb => tDst .EXT ++ tJmp .IMM16
  | 0xe8 | 0xe9 | 0xea | 0xec | 0xed | 0xee => tDst .IND ++ tJmp .REG16
  | 0xf7 => tDst .BASE ++ tJmp .HLPA ++ tLda .HLPA
  | 0xf4 | 0xf5 | 0xf6 => tDst .IDX ++ tJmp .IXPD ++ tLda .IXPD
  | 0xfe => tReg .REG8 ++ tCond .NONE ++ tBlock .NONE
  | 0xf8 | 0xf9 | 0xfa | 0xfb | 0xfc | 0xfd => tReg .REG8
  | _ => []

/-- The modes of the prefixes. -/
def pfx (pre : Nat) : Option Mode :=
  match pre with
  | 0xe7 | 0xef => some .DIR
  | 0xe3 | 0xeb => some .EXT
  | 0xe0 | 0xe1 | 0xe2 | 0xe4 | 0xe5 | 0xe6 | 0xe8 | 0xe9 | 0xea | 0xec | 0xed | 0xee => some .IND
  | 0xf3 | 0xf7 => some .BASE
  | 0xf0 | 0xf1 | 0xf2 | 0xf4 | 0xf5 | 0xf6 => some .IDX
  | 0xf8 | 0xf9 | 0xfa | 0xfb | 0xfc | 0xfd | 0xfe => some .REG8
  | _ => none

/-- The prefixes. -/
def prefixes : List Nat :=
  [0xe0, 0xe1, 0xe2, 0xe3, 0xe4, 0xe5, 0xe6, 0xe7, 0xe8, 0xe9, 0xea, 0xeb, 0xec, 0xed, 0xee, 0xef,
   0xf0, 0xf1, 0xf2, 0xf3, 0xf4, 0xf5, 0xf6, 0xf7, 0xf8, 0xf9, 0xfa, 0xfb, 0xfc, 0xfd, 0xfe]

theorem pfx_eq (pre : Nat) (h : pre < 256) : isPrefix pre = pfx pre ∧ (pfx pre ≠ none → pre ∈ prefixes) := by
  have : ∀ pre < 256, (fast.find? fun p => p.prefix_ != 0 && pageMatch pre p).map pageMode = pfx pre ∧
      (pfx pre ≠ none → pre ∈ prefixes) := by decide +kernel
  unfold isPrefix
  rw [pages_eq]
  exact this pre h

/-- All entries of the pages of a prefix. -/
def hitsAll (pre : Nat) : List Entry :=
  if pre = 0xf7 then tDst .BASE ++ tDst .IDX ++ tJmp .HLPA ++ tJmp .IXPD ++ tLda .HLPA ++ tLda .IXPD else hits pre

theorem hitsAll_eq : ∀ pre ∈ 0 :: prefixes, (fast.filter (pageMatch pre)).flatMap (·.entries) = hitsAll pre := by
  decide +kernel

/-- A table that comes again with another mode is not looked at again. -/
theorem again_none {t : Mode → List Entry} (ht : ∀ p, t p = (t .NONE).map fun e => { e with page := p }) (c : Nat)
    {p : Mode} (q : Mode) (h : (t p).find? (matchOpCode c) = none) : (t q).find? (matchOpCode c) = none := by
  rw [ht, List.find?_eq_none] at h ⊢
  intro e he
  obtain ⟨a, ha, rfl⟩ := List.mem_map.1 he
  exact h { a with page := p } (List.mem_map.2 ⟨a, ha, rfl⟩)

theorem or_again {a b : Option Entry} (h : a = none → b = none) : a.or b = a := by
  cases a with
  | none => rw [h rfl]; rfl
  | some x => rfl

theorem hits_find (pre c : Nat) : (hitsAll pre).find? (matchOpCode c) = (hits pre).find? (matchOpCode c) := by
  unfold hitsAll
  split
  · rename_i h
    subst h
    show _ = (tDst .BASE ++ tJmp .HLPA ++ tLda .HLPA).find? (matchOpCode c)
    simp only [List.find?_append]
    rw [or_again (again_none (t := tDst) (fun _ => rfl) c _), Option.or_assoc (o₂ := (tJmp .HLPA).find? (matchOpCode c)),
      or_again (again_none (t := tJmp) (fun _ => rfl) c _), Option.or_assoc (o₂ := (tLda .HLPA).find? (matchOpCode c)),
      or_again (again_none (t := tLda) (fun _ => rfl) c _)]
  · rfl

theorem search_eq {pre : Nat} (h : pre ∈ 0 :: prefixes) (c : Nat) :
    searchOpCode pre c = (hits pre).find? (matchOpCode c) := by
  unfold searchOpCode
  rw [Table.Props.C24_searchOpCode, pages_eq, ← hits_find, ← hitsAll_eq pre h]
  generalize fast.filter (pageMatch pre) = l
  induction l with
  | nil => rfl
  | cons p l ih =>
    rw [List.flatMap_cons, List.flatMap_cons, List.find?_append, List.find?_append]
    have : ∀ es : List Entry, ((es.map fun a => (p, a)).find? fun x => matchOpCode c x.2).map (·.2) =
        es.find? (matchOpCode c) := by
      intro es
      induction es with
      | nil => rfl
      | cons a es ih =>
        rw [List.map_cons, List.find?_cons, List.find?_cons]
        cases matchOpCode c a with
        | true => rfl
        | false => exact ih
    rw [← ih, ← this]
    cases (p.entries.map fun a => (p, a)).find? fun x => matchOpCode c x.2 <;> rfl

/-! ### The check of a code -/

/-- The modes of the operands, and whether they belong to the prefix. -/
structure Shape where
  d : Mode
  dp : Bool
  s : Mode
  sp : Bool
deriving DecidableEq

/-- What is decoded: a condition that is not printed is left out. -/
def decShape (c : Nat) (e : Entry) : Shape :=
  if e.dst = .CC ∧ c % 16 = 8 ∧ e.src ≠ .NONE then
    ⟨srcMode e, decide (e.src = .SRC ∨ e.src = .SRC16), .NONE, false⟩
  else ⟨dstMode e, decide (e.dst = .DST), srcMode e, decide (e.src = .SRC ∨ e.src = .SRC16)⟩

/-- What is encoded. -/
def encShape (e : Entry) : Shape :=
  ⟨dstMode e, decide (e.dst = .DST), srcMode e, decide (e.dst ≠ .DST ∧ (e.src = .SRC ∨ e.src = .SRC16))⟩

/-- The bytes after the prefix or the code. -/
def tail (m : Mode) (v : Nat) : List Nat :=
  match m with
  | .IMM8 | .DIR | .REL8 | .IDX | .IXPD => [v]
  | .IMM16 | .EXT | .REL16 => [v % 256, v / 256]
  | _ => []

/-- The bits in the prefix or the code. -/
def fld (m : Mode) (d : DOp) : Nat :=
  match m with
  | .BIT => d.val % 8
  | .IND | .REG16 => encodeReg16 d.reg
  | .IDX | .IXPD | .REGIX => encodeIndexReg d.reg
  | .CC => encodeCcName d.cc
  | .STACK => encodeStackReg d.reg
  | .REG8 => encodeReg8 d.reg
  | _ => 0

/-- Whether the operand emits the prefix or the code. -/
def emits (m : Mode) : Bool := decide (m ≠ .R .A ∧ m ≠ .R .HL)

/-- What is in the prefix. -/
def skelP (pre : Nat) (m : Mode) : DOp := (readPrefix pre m ⟨[], [], .OK⟩).1
/-- What is in the code. -/
def skel (c : Nat) (m : Mode) : DOp := (readOperand c m ⟨[], [], .OK⟩).1

/-- What does not depend on the bytes that are read. -/
def goodB (m : Mode) (d : DOp) : Bool :=
  match m with
  | .IMM8 | .DIR | .IMM16 | .EXT | .REL8 | .REL16 | .BASE | .HLPA => true
  | .BIT => decide (d.val < 8)
  | .IND => (d.reg.map isReg16).getD false
  | .IDX | .IXPD => (d.reg.map isRegIndex).getD false
  | .CC => decide (d.cc < 16 ∧ d.cc ≠ 8)
  | .STACK | .REG8 | .REG16 | .REGIX => d.reg.isSome
  | .R r => [Reg.BC, .DE, .HL, .SP, .AF, .AFP, .A].contains r
  | _ => false

/-- The mode that is read back; `hi`: the address of the prefix is one of the direct page. -/
def bmode (m : Mode) (d : DOp) (hi : Bool) : Mode :=
  if m = .EXT then (if hi then .DIR else .EXT) else (opBack 0 m d).mode

/-- One operand; `ipm` is the mode of the prefix. -/
def okOp (ipm : Mode) (m : Mode) (inp : Bool) (d : DOp) : Bool :=
  (m == .NONE && !inp) || (goodB m d && (if inp then
      m != .REL8 && m != .REL16 && m != .BIT && (m != .EXT || ipm == .EXT) && (tail m 0).length == (tail ipm 0).length
    else m != .EXT && m != .DST && m != .SRC))

/-- The instructions that have a shorter or an equal one; `hi`: the address of the prefix is one of the direct
page. -/
def twinB (pre c : Nat) (hi : Bool) : Bool :=
  match pre with
  | 0 => c == 0x2e || c == 0x4a
  | 0xe7 => c == 0x2e || c == 0x4a || (0x60 ≤ c && c ≤ 0x67) || (0x70 ≤ c && c ≤ 0x77) || c == 0x87 || c == 0x8f ||
      c == 0x97 || c == 0x9f || (0xa8 ≤ c && c ≤ 0xbf)
  | 0xe3 => hi
  | 0xef => c == 0x26 || c == 0x37 || c == 0x3f || c == 0x42
  | 0xeb => c == 0xc8 || c == 0xd8 || (hi && c < 0x80)
  | 0xf8 | 0xf9 | 0xfb | 0xfc | 0xfd => c == 0x36 || c == 0x3a
  | 0xfa => c == 0x36 || (0x38 ≤ c && c ≤ 0x3f)
  | 0xfe => (0x30 ≤ c && c ≤ 0x37) || c == 0x3a || (0x68 ≤ c && c ≤ 0x6f) || c == 0xd8
  | _ => false

/-- The prefix comes out. -/
def preOk (pre q : Nat) (S : Shape) (d1 d2 : DOp) : Bool :=
  if pre = 0 then q == 0 && !S.dp && !S.sp
  else q != 0 && (if S.dp then emits S.d && (q ||| fld S.d d1) % 256 == pre
    else if S.sp then emits S.s && (q ||| fld S.s d2) % 256 == pre else q % 256 == pre)

/-- The code that comes out. -/
def codeOf (opc : Nat) (S : Shape) (d1 d2 : DOp) : Nat :=
  if !S.dp && emits S.d then (opc ||| fld S.d d1) % 256
  else if !S.sp && emits S.s then (opc ||| fld S.s d2) % 256 else opc % 256

/-- The pages searched for a name. -/
def searchFast (name : List Char) (d s : Mode) : Option (Except Err (Nat × Entry)) :=
  Table.searchName (fun e : Entry => Table.strcasecmp name e.name) (fun _ e => acceptModes d s e) fast false

/-- The operand of the prefix. -/
def preOp (pre : Nat) (e : Entry) : DOp :=
  if e.src = .SRC16 then { reg := decodeReg16 pre } else skelP pre ((pfx pre).getD .NONE)

/-- The first operand. -/
def op1 (pre c : Nat) (e : Entry) : DOp := if (decShape c e).dp then preOp pre e else skel c (decShape c e).d
/-- The second operand. -/
def op2 (pre c : Nat) (e : Entry) : DOp := if (decShape c e).sp then preOp pre e else skel c (decShape c e).s

/-- What is looked up in the tables, and what has to be found. -/
structure Key where
  d : Mode
  s : Mode
  shape : Shape
  pre : Nat
  opc : Nat
deriving DecidableEq

/-- The prefix of the page of an entry. -/
def base (pre : Nat) (e : Entry) : Nat :=
  if pre = 0 then 0
  else if e.page = .IND ∨ e.page = .REG8 ∨ e.page = .REG16 then pre / 8 * 8
  else if e.page = .IDX ∨ e.page = .IXPD then pre / 4 * 4 else pre

/-- What is looked up for a code. -/
def key (pre c : Nat) (hi : Bool) (e : Entry) : Key :=
  ⟨bmode (decShape c e).d (op1 pre c e) hi, bmode (decShape c e).s (op2 pre c e) hi, decShape c e, base pre e,
    if e.dst = .CC ∧ c % 16 = 8 then c else e.opcode⟩

/-- The name is found. -/
def nameOk (e : Entry) (k : Key) : Bool :=
  match searchFast e.name k.d k.s with
  | some (.ok (q, e')) => decide (encShape e' = k.shape) && q == k.pre && e'.opcode == k.opc
  | _ => false

/-- What has to hold of a code, without a search. -/
def rowOk (pre c : Nat) (hi : Bool) (e : Entry) : Bool :=
  let ipm := (pfx pre).getD .NONE
  let S := decShape c e
  let d1 := op1 pre c e
  let d2 := op2 pre c e
  okOp ipm S.d S.dp d1 && okOp ipm S.s S.sp d2 && (S.d != .NONE || S.s == .NONE) && !(S.dp && S.sp) &&
  (S.dp || S.sp || (tail ipm 0).length == 0) && (e.src != .SRC16 || (e.page == .REG8 && e.dst != .DST)) &&
  preOk pre (base pre e) S d1 d2 && codeOf (key pre c hi e).opc S d1 d2 == c

/-- The codes of an entry that have to be looked at. -/
def codesOf (pre : Nat) (hi : Bool) (e : Entry) : List Nat :=
  ((List.range 16).map (e.opcode + ·)).filter fun c =>
    matchOpCode c e && !twinB pre c hi && !(e.src == .SRC16 && invalidCode pre .REG16)

/-- What the tables have to say of an entry of the pages of these prefixes. -/
def entryOk (pres : List Nat) (hi : Bool) (e : Entry) : Bool :=
  nameB syntaxOf (e.name.map (letter false)) && nameB syntaxOf (e.name.map (letter true)) &&
  (pres.all fun pre => (codesOf pre hi e).all fun c => rowOk pre c hi e) &&
  (pres.flatMap fun pre => (codesOf pre hi e).map fun c => key pre c hi e).eraseDups.all (nameOk e)

/-- The prefixes with the same pages. -/
def classes : List (List Nat × Bool) :=
  [([0], false), ([0xe7], false), ([0xe3], false), ([0xe3], true), ([0xe0, 0xe1, 0xe2, 0xe4, 0xe5, 0xe6], false),
   ([0xf3], false), ([0xf0, 0xf1, 0xf2], false), ([0xef], false), ([0xeb], false), ([0xeb], true),
   ([0xe8, 0xe9, 0xea, 0xec, 0xed, 0xee], false), ([0xf7], false), ([0xf4, 0xf5, 0xf6], false),
   ([0xf8, 0xf9, 0xfa, 0xfb, 0xfc, 0xfd], false), ([0xfe], false)]

theorem classes_same : ∀ x ∈ classes, ∀ pre ∈ x.1, hits pre = hits (x.1.headD 0) := by decide +kernel

theorem classes_all : ∀ pre ∈ 0 :: prefixes, ∀ hi : Bool, (hi = true → pfx pre = some .EXT) →
    ∃ x ∈ classes, pre ∈ x.1 ∧ x.2 = hi := by decide +kernel

set_option maxRecDepth 20000 in
theorem entries_ok : ∀ x ∈ classes, ∀ e ∈ hits (x.1.headD 0), entryOk x.1 x.2 e = true := by decide +kernel

theorem match_range {c : Nat} {e : Entry} (h : matchOpCode c e = true) : ∃ k, k < 16 ∧ c = e.opcode + k := by
  unfold matchOpCode at h
  refine ⟨c - e.opcode, ?_⟩
  split at h
  · cases h
  · split at h
    · rw [beq_iff_eq] at h; omega
    · split at h
      · rw [beq_iff_eq] at h; omega
      · split at h <;> (rw [beq_iff_eq] at h; omega)

/-- What the tables say of a code. -/
theorem code_ok {pre c : Nat} {hi : Bool} {e : Entry} (hp : pre ∈ 0 :: prefixes) (hh : hi = true → pfx pre = some .EXT)
    (he : (hits pre).find? (matchOpCode c) = some e) (ht : twinB pre c hi = false)
    (h16 : (e.src == .SRC16 && invalidCode pre .REG16) = false) :
    rowOk pre c hi e = true ∧ nameOk e (key pre c hi e) = true ∧ ∀ up, nameB syntaxOf (e.name.map (letter up)) = true := by
  obtain ⟨x, hx, h1, h2⟩ := classes_all pre hp hi hh
  have hm := List.mem_of_find?_eq_some he
  have hmatch : matchOpCode c e = true := by simpa using List.find?_some he
  rw [classes_same x hx pre h1] at hm
  have hok := entries_ok x hx e hm
  unfold entryOk at hok
  simp only [Bool.and_eq_true, List.all_eq_true] at hok
  obtain ⟨⟨⟨n1, n2⟩, k1⟩, k2⟩ := hok
  have hc : c ∈ codesOf pre hi e := by
    obtain ⟨k, hk, hce⟩ := match_range hmatch
    unfold codesOf
    refine List.mem_filter.2 ⟨List.mem_map.2 ⟨k, List.mem_range.2 hk, hce.symm⟩, ?_⟩
    rw [hmatch, ht, h16]
    rfl
  rw [h2] at k1 k2
  refine ⟨k1 pre h1 c hc, k2 _ ?_, fun up => by cases up; exact n1; exact n2⟩
  rw [List.mem_eraseDups]
  exact List.mem_flatMap.2 ⟨pre, h1, List.mem_map.2 ⟨c, hc, rfl⟩⟩

end Libasm.Cpu.Tlcs90
