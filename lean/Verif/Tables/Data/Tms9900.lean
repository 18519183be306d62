import Verif.Tables.Row
/-
Generated by tools/gen_tables.py from src/table_tms9900.cpp: names, codes, operands and indexes as written
there. Do not edit.
-/
namespace Libasm.Tables.Tms9900
open Table

/-- src/table_tms9900.cpp:35-105 -/
def TABLE_TMS9900 : List Row := [
  ⟨0x200, ['L', 'I'], ["E2", "M_REG", "M_IMM"]⟩,
  ⟨0x220, ['A', 'I'], ["E2", "M_REG", "M_IMM"]⟩,
  ⟨0x240, ['A', 'N', 'D', 'I'], ["E2", "M_REG", "M_IMM"]⟩,
  ⟨0x260, ['O', 'R', 'I'], ["E2", "M_REG", "M_IMM"]⟩,
  ⟨0x280, ['C', 'I'], ["E2", "M_REG", "M_IMM"]⟩,
  ⟨0x2a0, ['S', 'T', 'W', 'P'], ["E1", "M_REG"]⟩,
  ⟨0x2c0, ['S', 'T', 'S', 'T'], ["E1", "M_REG"]⟩,
  ⟨0x2e0, ['L', 'W', 'P', 'I'], ["E1", "M_IMM"]⟩,
  ⟨0x300, ['L', 'I', 'M', 'I'], ["E1", "M_IMM"]⟩,
  ⟨0x340, ['I', 'D', 'L', 'E'], ["E0"]⟩,
  ⟨0x360, ['R', 'S', 'E', 'T'], ["E0"]⟩,
  ⟨0x380, ['R', 'T', 'W', 'P'], ["E0"]⟩,
  ⟨0x3a0, ['C', 'K', 'O', 'N'], ["E0"]⟩,
  ⟨0x3c0, ['C', 'K', 'O', 'F'], ["E0"]⟩,
  ⟨0x3e0, ['L', 'R', 'E', 'X'], ["E0"]⟩,
  ⟨0x400, ['B', 'L', 'W', 'P'], ["E1", "M_SRC"]⟩,
  ⟨0x440, ['B'], ["E1", "M_SRC"]⟩,
  ⟨0x480, ['X'], ["E1", "M_SRC"]⟩,
  ⟨0x4c0, ['C', 'L', 'R'], ["E1", "M_SRC"]⟩,
  ⟨0x500, ['N', 'E', 'G'], ["E1", "M_SRC"]⟩,
  ⟨0x540, ['I', 'N', 'V'], ["E1", "M_SRC"]⟩,
  ⟨0x580, ['I', 'N', 'C'], ["E1", "M_SRC"]⟩,
  ⟨0x5c0, ['I', 'N', 'C', 'T'], ["E1", "M_SRC"]⟩,
  ⟨0x600, ['D', 'E', 'C'], ["E1", "M_SRC"]⟩,
  ⟨0x640, ['D', 'E', 'C', 'T'], ["E1", "M_SRC"]⟩,
  ⟨0x680, ['B', 'L'], ["E1", "M_SRC"]⟩,
  ⟨0x6c0, ['S', 'W', 'P', 'B'], ["E1", "M_SRC"]⟩,
  ⟨0x700, ['S', 'E', 'T', 'O'], ["E1", "M_SRC"]⟩,
  ⟨0x740, ['A', 'B', 'S'], ["E1", "M_SRC"]⟩,
  ⟨0x800, ['S', 'R', 'A'], ["E2", "M_REG", "M_SCNT"]⟩,
  ⟨0x900, ['S', 'R', 'L'], ["E2", "M_REG", "M_SCNT"]⟩,
  ⟨0xa00, ['S', 'L', 'A'], ["E2", "M_REG", "M_SCNT"]⟩,
  ⟨0xb00, ['S', 'R', 'C'], ["E2", "M_REG", "M_SCNT"]⟩,
  ⟨0x1000, ['J', 'M', 'P'], ["E1", "M_REL"]⟩,
  ⟨0x1100, ['J', 'L', 'T'], ["E1", "M_REL"]⟩,
  ⟨0x1200, ['J', 'L', 'E'], ["E1", "M_REL"]⟩,
  ⟨0x1300, ['J', 'E', 'Q'], ["E1", "M_REL"]⟩,
  ⟨0x1400, ['J', 'H', 'E'], ["E1", "M_REL"]⟩,
  ⟨0x1500, ['J', 'G', 'T'], ["E1", "M_REL"]⟩,
  ⟨0x1600, ['J', 'N', 'E'], ["E1", "M_REL"]⟩,
  ⟨0x1700, ['J', 'N', 'C'], ["E1", "M_REL"]⟩,
  ⟨0x1800, ['J', 'O', 'C'], ["E1", "M_REL"]⟩,
  ⟨0x1900, ['J', 'N', 'O'], ["E1", "M_REL"]⟩,
  ⟨0x1a00, ['J', 'L'], ["E1", "M_REL"]⟩,
  ⟨0x1b00, ['J', 'H'], ["E1", "M_REL"]⟩,
  ⟨0x1c00, ['J', 'O', 'P'], ["E1", "M_REL"]⟩,
  ⟨0x1d00, ['S', 'B', 'O'], ["E1", "M_CRU"]⟩,
  ⟨0x1e00, ['S', 'B', 'Z'], ["E1", "M_CRU"]⟩,
  ⟨0x1f00, ['T', 'B'], ["E1", "M_CRU"]⟩,
  ⟨0x2000, ['C', 'O', 'C'], ["E2", "M_SRC", "M_DREG"]⟩,
  ⟨0x2400, ['C', 'Z', 'C'], ["E2", "M_SRC", "M_DREG"]⟩,
  ⟨0x2800, ['X', 'O', 'R'], ["E2", "M_SRC", "M_DREG"]⟩,
  ⟨0x2c00, ['X', 'O', 'P'], ["E2", "M_SRC", "M_XOP"]⟩,
  ⟨0x3000, ['L', 'D', 'C', 'R'], ["E2", "M_SRC", "M_CNT"]⟩,
  ⟨0x3400, ['S', 'T', 'C', 'R'], ["E2", "M_SRC", "M_CNT"]⟩,
  ⟨0x3800, ['M', 'P', 'Y'], ["E2", "M_SRC", "M_DREG"]⟩,
  ⟨0x3c00, ['D', 'I', 'V'], ["E2", "M_SRC", "M_DREG"]⟩,
  ⟨0x4000, ['S', 'Z', 'C'], ["E2", "M_SRC", "M_DST"]⟩,
  ⟨0x5000, ['S', 'Z', 'C', 'B'], ["B2", "M_SRC", "M_DST"]⟩,
  ⟨0x6000, ['S'], ["E2", "M_SRC", "M_DST"]⟩,
  ⟨0x7000, ['S', 'B'], ["B2", "M_SRC", "M_DST"]⟩,
  ⟨0x8000, ['C'], ["E2", "M_SRC", "M_DST"]⟩,
  ⟨0x9000, ['C', 'B'], ["B2", "M_SRC", "M_DST"]⟩,
  ⟨0xa000, ['A'], ["E2", "M_SRC", "M_DST"]⟩,
  ⟨0xb000, ['A', 'B'], ["B2", "M_SRC", "M_DST"]⟩,
  ⟨0xc000, ['M', 'O', 'V'], ["E2", "M_SRC", "M_DST"]⟩,
  ⟨0xd000, ['M', 'O', 'V', 'B'], ["B2", "M_SRC", "M_DST"]⟩,
  ⟨0xe000, ['S', 'O', 'C'], ["E2", "M_SRC", "M_DST"]⟩,
  ⟨0xf000, ['S', 'O', 'C', 'B'], ["B2", "M_SRC", "M_DST"]⟩]

/-- src/table_tms9900.cpp:107-177 -/
def INDEX_TMS9900 : List Nat := [
  63, 64, 28, 1, 2, 16, 25, 15, 61, 62, 4, 13, 12, 18, 49, 50,
  23, 24, 56, 9, 21, 22, 20, 36, 38, 44, 37, 43, 35, 34, 33, 40,
  39, 42, 41, 45, 53, 0, 8, 14, 7, 65, 66, 55, 19, 3, 10, 11,
  59, 60, 46, 47, 27, 31, 67, 68, 29, 32, 30, 54, 6, 5, 26, 57,
  58, 48, 17, 52, 51]

/-- src/table_tms9900.cpp:179-184 -/
def TABLE_TMS9995 : List Row := [
  ⟨0x80, ['L', 'S', 'T'], ["E1", "M_REG"]⟩,
  ⟨0x90, ['L', 'W', 'P'], ["E1", "M_REG"]⟩,
  ⟨0x180, ['D', 'I', 'V', 'S'], ["E1", "M_SRC"]⟩,
  ⟨0x1c0, ['M', 'P', 'Y', 'S'], ["E1", "M_SRC"]⟩]

/-- src/table_tms9900.cpp:186-191 -/
def INDEX_TMS9995 : List Nat := [
  2, 0, 1, 3]

/-- src/table_tms9900.cpp:193-209 -/
def TABLE_TMS99105 : List Row := [
  ⟨0x1c, ['S', 'R', 'A', 'M'], ["E2", "M_SRC2", "M_CNT4"]⟩,
  ⟨0x1d, ['S', 'L', 'A', 'M'], ["E2", "M_SRC2", "M_CNT4"]⟩,
  ⟨0x29, ['S', 'M'], ["E2", "M_SRC2", "M_DST4"]⟩,
  ⟨0x2a, ['A', 'M'], ["E2", "M_SRC2", "M_DST4"]⟩,
  ⟨0xb0, ['B', 'L', 'S', 'K'], ["E2", "M_REG", "M_IMM"]⟩,
  ⟨0x140, ['B', 'I', 'N', 'D'], ["E1", "M_SRC"]⟩,
  ⟨0xc09, ['T', 'M', 'B'], ["E2", "M_SRC2", "M_BIT0"]⟩,
  ⟨0xc0a, ['T', 'C', 'M', 'B'], ["E2", "M_SRC2", "M_BIT0"]⟩,
  ⟨0xc0b, ['T', 'S', 'M', 'B'], ["E2", "M_SRC2", "M_BIT0"]⟩,
  ⟨0x100, ['E', 'V', 'A', 'D'], ["E1", "M_SRC"]⟩,
  ⟨0x380, ['R', 'T', 'W', 'P'], ["E1", "M_RTWP"]⟩,
  ⟨0x381, ['R', 'T', 'W', 'P'], ["E1", "M_RTWP"]⟩,
  ⟨0x382, ['R', 'T', 'W', 'P'], ["E1", "M_RTWP"]⟩,
  ⟨0x384, ['R', 'T', 'W', 'P'], ["E1", "M_RTWP"]⟩]

/-- src/table_tms9900.cpp:211-223 -/
def INDEX_TMS99105 : List Nat := [
  3, 5, 4, 9, 10, 1, 2, 0, 7, 6, 8]

/-- src/table_tms9900.cpp:225-241 -/
def TABLE_TMS99110 : List Row := [
  ⟨0x780, ['L', 'D', 'S'], ["E0"]⟩,
  ⟨0x7c0, ['L', 'D', 'D'], ["E0"]⟩,
  ⟨0xc00, ['C', 'R', 'I'], ["E0"]⟩,
  ⟨0xc02, ['N', 'E', 'G', 'R'], ["E0"]⟩,
  ⟨0xc04, ['C', 'R', 'E'], ["E0"]⟩,
  ⟨0xc06, ['C', 'E', 'R'], ["E0"]⟩,
  ⟨0xc40, ['A', 'R'], ["E1", "M_SRC"]⟩,
  ⟨0xc80, ['C', 'I', 'R'], ["E1", "M_SRC"]⟩,
  ⟨0xcc0, ['S', 'R'], ["E1", "M_SRC"]⟩,
  ⟨0xd00, ['M', 'R'], ["E1", "M_SRC"]⟩,
  ⟨0xd40, ['D', 'R'], ["E1", "M_SRC"]⟩,
  ⟨0xd80, ['L', 'R'], ["E1", "M_SRC"]⟩,
  ⟨0xdc0, ['S', 'T', 'R'], ["E1", "M_SRC"]⟩,
  ⟨0x301, ['C', 'R'], ["E2", "M_SRC2", "M_DST0"]⟩,
  ⟨0x302, ['M', 'M'], ["E2", "M_SRC2", "M_DST0"]⟩]

/-- src/table_tms9900.cpp:243-259 -/
def INDEX_TMS99110 : List Nat := [
  6, 5, 7, 13, 4, 2, 10, 1, 0, 11, 14, 9, 3, 8, 12]

/-- src/table_tms9900.cpp:265-267 -/
def TMS9900_PAGES : List (Page Row) := [
  ⟨0x0, [], TABLE_TMS9900, INDEX_TMS9900⟩]

/-- src/table_tms9900.cpp:269-272 -/
def TMS9995_PAGES : List (Page Row) := [
  ⟨0x0, [], TABLE_TMS9900, INDEX_TMS9900⟩,
  ⟨0x0, [], TABLE_TMS9995, INDEX_TMS9995⟩]

/-- src/table_tms9900.cpp:274-278 -/
def TMS99105_PAGES : List (Page Row) := [
  ⟨0x0, [], TABLE_TMS99105, INDEX_TMS99105⟩,
  ⟨0x0, [], TABLE_TMS9900, INDEX_TMS9900⟩,
  ⟨0x0, [], TABLE_TMS9995, INDEX_TMS9995⟩]

/-- src/table_tms9900.cpp:280-285 -/
def TMS99110_PAGES : List (Page Row) := [
  ⟨0x0, [], TABLE_TMS99105, INDEX_TMS99105⟩,
  ⟨0x0, [], TABLE_TMS9900, INDEX_TMS9900⟩,
  ⟨0x0, [], TABLE_TMS9995, INDEX_TMS9995⟩,
  ⟨0x0, [], TABLE_TMS99110, INDEX_TMS99110⟩]

/-- The processors of src/table_tms9900.cpp: CPU_TABLE 289-295 -/
def cpus : List Cpu := [
  ⟨['9', '9', '0', '0'], TMS9900_PAGES⟩,
  ⟨['9', '9', '8', '0'], TMS9900_PAGES⟩,
  ⟨['9', '9', '9', '5'], TMS9995_PAGES⟩,
  ⟨['9', '9', '1', '0', '5'], TMS99105_PAGES⟩,
  ⟨['9', '9', '1', '1', '0'], TMS99110_PAGES⟩]

theorem TABLE_TMS9900_INDEX_TMS9900 (n : Nat) (x : List String) : PageOk ⟨n, x, TABLE_TMS9900, INDEX_TMS9900⟩ :=
  pageB_sound ⟨n, x, TABLE_TMS9900, INDEX_TMS9900⟩ (show pageB ⟨0, [], TABLE_TMS9900, INDEX_TMS9900⟩ = true by decide +kernel)

theorem TABLE_TMS9995_INDEX_TMS9995 (n : Nat) (x : List String) : PageOk ⟨n, x, TABLE_TMS9995, INDEX_TMS9995⟩ :=
  pageB_sound ⟨n, x, TABLE_TMS9995, INDEX_TMS9995⟩ (show pageB ⟨0, [], TABLE_TMS9995, INDEX_TMS9995⟩ = true by decide +kernel)

theorem TABLE_TMS99105_INDEX_TMS99105 (n : Nat) (x : List String) : PageOk ⟨n, x, TABLE_TMS99105, INDEX_TMS99105⟩ :=
  pageB_sound ⟨n, x, TABLE_TMS99105, INDEX_TMS99105⟩ (show pageB ⟨0, [], TABLE_TMS99105, INDEX_TMS99105⟩ = true by decide +kernel)

theorem TABLE_TMS99110_INDEX_TMS99110 (n : Nat) (x : List String) : PageOk ⟨n, x, TABLE_TMS99110, INDEX_TMS99110⟩ :=
  pageB_sound ⟨n, x, TABLE_TMS99110, INDEX_TMS99110⟩ (show pageB ⟨0, [], TABLE_TMS99110, INDEX_TMS99110⟩ = true by decide +kernel)

theorem TMS9900_PAGES_ok : ∀ p ∈ TMS9900_PAGES, PageOk p :=
  List.forall_mem_cons.mpr <| And.intro (TABLE_TMS9900_INDEX_TMS9900 _ _) nofun

theorem TMS9995_PAGES_ok : ∀ p ∈ TMS9995_PAGES, PageOk p :=
  List.forall_mem_cons.mpr <| And.intro (TABLE_TMS9900_INDEX_TMS9900 _ _) <| List.forall_mem_cons.mpr <| And.intro (TABLE_TMS9995_INDEX_TMS9995 _ _) nofun

theorem TMS99105_PAGES_ok : ∀ p ∈ TMS99105_PAGES, PageOk p :=
  List.forall_mem_cons.mpr <| And.intro (TABLE_TMS99105_INDEX_TMS99105 _ _) <| List.forall_mem_cons.mpr <| And.intro (TABLE_TMS9900_INDEX_TMS9900 _ _) <| List.forall_mem_cons.mpr <| And.intro (TABLE_TMS9995_INDEX_TMS9995 _ _) nofun

theorem TMS99110_PAGES_ok : ∀ p ∈ TMS99110_PAGES, PageOk p :=
  List.forall_mem_cons.mpr <| And.intro (TABLE_TMS99105_INDEX_TMS99105 _ _) <| List.forall_mem_cons.mpr <| And.intro (TABLE_TMS9900_INDEX_TMS9900 _ _) <| List.forall_mem_cons.mpr <| And.intro (TABLE_TMS9995_INDEX_TMS9995 _ _) <| List.forall_mem_cons.mpr <| And.intro (TABLE_TMS99110_INDEX_TMS99110 _ _) nofun

theorem cpus_ok : ∀ c ∈ cpus, ∀ p ∈ c.pages, PageOk p :=
  List.forall_mem_cons.mpr <| And.intro TMS9900_PAGES_ok <| List.forall_mem_cons.mpr <| And.intro TMS9900_PAGES_ok <| List.forall_mem_cons.mpr <| And.intro TMS9995_PAGES_ok <| List.forall_mem_cons.mpr <| And.intro TMS99105_PAGES_ok <| List.forall_mem_cons.mpr <| And.intro TMS99110_PAGES_ok nofun

end Libasm.Tables.Tms9900
