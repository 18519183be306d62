import Verif.Tables.Row
/-
Generated by tools/gen_tables.py from src/table_i8048.cpp: names, codes, operands and indexes as written
there. Do not edit.
-/
namespace Libasm.Tables.I8048
open Table

/-- src/table_i8048.cpp:33-122 -/
def TABLE_I8039 : List Row := [
  ⟨0x68, ['A', 'D', 'D'], ["E2", "M_A", "M_R"]⟩,
  ⟨0x60, ['A', 'D', 'D'], ["E2", "M_A", "M_IR"]⟩,
  ⟨0x3, ['A', 'D', 'D'], ["E2", "M_A", "M_IMM8"]⟩,
  ⟨0x78, ['A', 'D', 'D', 'C'], ["E2", "M_A", "M_R"]⟩,
  ⟨0x70, ['A', 'D', 'D', 'C'], ["E2", "M_A", "M_IR"]⟩,
  ⟨0x13, ['A', 'D', 'D', 'C'], ["E2", "M_A", "M_IMM8"]⟩,
  ⟨0x58, ['A', 'N', 'L'], ["E2", "M_A", "M_R"]⟩,
  ⟨0x50, ['A', 'N', 'L'], ["E2", "M_A", "M_IR"]⟩,
  ⟨0x53, ['A', 'N', 'L'], ["E2", "M_A", "M_BIT8"]⟩,
  ⟨0x48, ['O', 'R', 'L'], ["E2", "M_A", "M_R"]⟩,
  ⟨0x40, ['O', 'R', 'L'], ["E2", "M_A", "M_IR"]⟩,
  ⟨0x43, ['O', 'R', 'L'], ["E2", "M_A", "M_BIT8"]⟩,
  ⟨0xd8, ['X', 'R', 'L'], ["E2", "M_A", "M_R"]⟩,
  ⟨0xd0, ['X', 'R', 'L'], ["E2", "M_A", "M_IR"]⟩,
  ⟨0xd3, ['X', 'R', 'L'], ["E2", "M_A", "M_BIT8"]⟩,
  ⟨0x17, ['I', 'N', 'C'], ["E1", "M_A"]⟩,
  ⟨0x7, ['D', 'E', 'C'], ["E1", "M_A"]⟩,
  ⟨0x27, ['C', 'L', 'R'], ["E1", "M_A"]⟩,
  ⟨0x37, ['C', 'P', 'L'], ["E1", "M_A"]⟩,
  ⟨0x57, ['D', 'A'], ["E1", "M_A"]⟩,
  ⟨0x47, ['S', 'W', 'A', 'P'], ["E1", "M_A"]⟩,
  ⟨0xe7, ['R', 'L'], ["E1", "M_A"]⟩,
  ⟨0xf7, ['R', 'L', 'C'], ["E1", "M_A"]⟩,
  ⟨0x77, ['R', 'R'], ["E1", "M_A"]⟩,
  ⟨0x67, ['R', 'R', 'C'], ["E1", "M_A"]⟩,
  ⟨0x8, ['I', 'N'], ["E2", "M_A", "M_P12"]⟩,
  ⟨0x38, ['O', 'U', 'T', 'L'], ["E2", "M_P12", "M_A"]⟩,
  ⟨0x98, ['A', 'N', 'L'], ["E2", "M_P12", "M_BIT8"]⟩,
  ⟨0x88, ['O', 'R', 'L'], ["E2", "M_P12", "M_BIT8"]⟩,
  ⟨0xc, ['M', 'O', 'V', 'D'], ["E2", "M_A", "M_PEXT"]⟩,
  ⟨0x3c, ['M', 'O', 'V', 'D'], ["E2", "M_PEXT", "M_A"]⟩,
  ⟨0x9c, ['A', 'N', 'L', 'D'], ["E2", "M_PEXT", "M_A"]⟩,
  ⟨0x8c, ['O', 'R', 'L', 'D'], ["E2", "M_PEXT", "M_A"]⟩,
  ⟨0x18, ['I', 'N', 'C'], ["E1", "M_R"]⟩,
  ⟨0x10, ['I', 'N', 'C'], ["E1", "M_IR"]⟩,
  ⟨0xc8, ['D', 'E', 'C'], ["E1", "M_R"]⟩,
  ⟨0x4, ['J', 'M', 'P'], ["E1", "M_AD11"]⟩,
  ⟨0xb3, ['J', 'M', 'P', 'P'], ["E1", "M_IA"]⟩,
  ⟨0xe8, ['D', 'J', 'N', 'Z'], ["E2", "M_R", "M_AD08"]⟩,
  ⟨0xf6, ['J', 'C'], ["E1", "M_AD08"]⟩,
  ⟨0xe6, ['J', 'N', 'C'], ["E1", "M_AD08"]⟩,
  ⟨0xc6, ['J', 'Z'], ["E1", "M_AD08"]⟩,
  ⟨0x96, ['J', 'N', 'Z'], ["E1", "M_AD08"]⟩,
  ⟨0x36, ['J', 'T', '0'], ["E1", "M_AD08"]⟩,
  ⟨0x26, ['J', 'N', 'T', '0'], ["E1", "M_AD08"]⟩,
  ⟨0x56, ['J', 'T', '1'], ["E1", "M_AD08"]⟩,
  ⟨0x46, ['J', 'N', 'T', '1'], ["E1", "M_AD08"]⟩,
  ⟨0xb6, ['J', 'F', '0'], ["E1", "M_AD08"]⟩,
  ⟨0x76, ['J', 'F', '1'], ["E1", "M_AD08"]⟩,
  ⟨0x16, ['J', 'T', 'F'], ["E1", "M_AD08"]⟩,
  ⟨0x86, ['J', 'N', 'I'], ["E1", "M_AD08"]⟩,
  ⟨0x12, ['J', 'B'], ["E2", "M_BITN", "M_AD08"]⟩,
  ⟨0x14, ['C', 'A', 'L', 'L'], ["E1", "M_AD11"]⟩,
  ⟨0x83, ['R', 'E', 'T'], ["E0"]⟩,
  ⟨0x93, ['R', 'E', 'T', 'R'], ["E0"]⟩,
  ⟨0x97, ['C', 'L', 'R'], ["E1", "M_C"]⟩,
  ⟨0xa7, ['C', 'P', 'L'], ["E1", "M_C"]⟩,
  ⟨0x85, ['C', 'L', 'R'], ["E1", "M_F"]⟩,
  ⟨0x95, ['C', 'P', 'L'], ["E1", "M_F"]⟩,
  ⟨0xf8, ['M', 'O', 'V'], ["E2", "M_A", "M_R"]⟩,
  ⟨0xf0, ['M', 'O', 'V'], ["E2", "M_A", "M_IR"]⟩,
  ⟨0x23, ['M', 'O', 'V'], ["E2", "M_A", "M_IMM8"]⟩,
  ⟨0xa8, ['M', 'O', 'V'], ["E2", "M_R", "M_A"]⟩,
  ⟨0xa0, ['M', 'O', 'V'], ["E2", "M_IR", "M_A"]⟩,
  ⟨0xb8, ['M', 'O', 'V'], ["E2", "M_R", "M_IMM8"]⟩,
  ⟨0xb0, ['M', 'O', 'V'], ["E2", "M_IR", "M_IMM8"]⟩,
  ⟨0xc7, ['M', 'O', 'V'], ["E2", "M_A", "M_PSW"]⟩,
  ⟨0xd7, ['M', 'O', 'V'], ["E2", "M_PSW", "M_A"]⟩,
  ⟨0x28, ['X', 'C', 'H'], ["E2", "M_A", "M_R"]⟩,
  ⟨0x20, ['X', 'C', 'H'], ["E2", "M_A", "M_IR"]⟩,
  ⟨0x30, ['X', 'C', 'H', 'D'], ["E2", "M_A", "M_IR"]⟩,
  ⟨0x90, ['M', 'O', 'V', 'X'], ["E2", "M_IR", "M_A"]⟩,
  ⟨0x80, ['M', 'O', 'V', 'X'], ["E2", "M_A", "M_IR"]⟩,
  ⟨0xa3, ['M', 'O', 'V', 'P'], ["E2", "M_A", "M_IA"]⟩,
  ⟨0xe3, ['M', 'O', 'V', 'P', '3'], ["E2", "M_A", "M_IA"]⟩,
  ⟨0x42, ['M', 'O', 'V'], ["E2", "M_A", "M_T"]⟩,
  ⟨0x62, ['M', 'O', 'V'], ["E2", "M_T", "M_A"]⟩,
  ⟨0x55, ['S', 'T', 'R', 'T'], ["E1", "M_T"]⟩,
  ⟨0x45, ['S', 'T', 'R', 'T'], ["E1", "M_CNT"]⟩,
  ⟨0x65, ['S', 'T', 'O', 'P'], ["E1", "M_TCNT"]⟩,
  ⟨0x25, ['E', 'N'], ["E1", "M_TCNTI"]⟩,
  ⟨0x35, ['D', 'I', 'S'], ["E1", "M_TCNTI"]⟩,
  ⟨0x5, ['E', 'N'], ["E1", "M_I"]⟩,
  ⟨0x15, ['D', 'I', 'S'], ["E1", "M_I"]⟩,
  ⟨0xc5, ['S', 'E', 'L'], ["E1", "M_RB"]⟩,
  ⟨0xe5, ['S', 'E', 'L'], ["E1", "M_MB"]⟩,
  ⟨0x75, ['E', 'N', 'T', '0'], ["E1", "M_CLK"]⟩,
  ⟨0x0, ['N', 'O', 'P'], ["E0"]⟩]

/-- src/table_i8048.cpp:124-213 -/
def INDEX_I8039 : List Nat := [
  0, 1, 2, 3, 4, 5, 6, 7, 8, 27, 31, 52, 17, 55, 57, 18,
  56, 58, 19, 16, 35, 81, 83, 38, 80, 82, 86, 25, 15, 33, 34, 51,
  39, 47, 48, 36, 37, 40, 50, 44, 46, 42, 43, 45, 49, 41, 59, 60,
  61, 62, 63, 64, 65, 66, 67, 75, 76, 29, 30, 73, 74, 71, 72, 87,
  9, 10, 11, 28, 32, 26, 53, 54, 21, 22, 23, 24, 84, 85, 79, 77,
  78, 20, 68, 69, 70, 12, 13, 14]

/-- src/table_i8048.cpp:215-220 -/
def TABLE_I8048 : List Row := [
  ⟨0x8, ['I', 'N', 'S'], ["E2", "M_A", "M_BUS"]⟩,
  ⟨0x2, ['O', 'U', 'T', 'L'], ["E2", "M_BUS", "M_A"]⟩,
  ⟨0x98, ['A', 'N', 'L'], ["E2", "M_BUS", "M_BIT8"]⟩,
  ⟨0x88, ['O', 'R', 'L'], ["E2", "M_BUS", "M_BIT8"]⟩]

/-- src/table_i8048.cpp:222-227 -/
def INDEX_I8048 : List Nat := [
  2, 0, 3, 1]

/-- src/table_i8048.cpp:229-231 -/
def TABLE_I80C39 : List Row := [
  ⟨0x1, ['H', 'A', 'L', 'T'], ["E0"]⟩]

/-- src/table_i8048.cpp:233-235 -/
def INDEX_I80C39 : List Nat := [
  0]

/-- src/table_i8048.cpp:237-248 -/
def TABLE_MSM80C39 : List Row := [
  ⟨0x63, ['M', 'O', 'V'], ["E2", "M_A", "M_P1"]⟩,
  ⟨0x73, ['M', 'O', 'V'], ["E2", "M_A", "M_P2"]⟩,
  ⟨0xc0, ['D', 'E', 'C'], ["E1", "M_IR"]⟩,
  ⟨0xe0, ['D', 'J', 'N', 'Z'], ["E2", "M_IR", "M_AD08"]⟩,
  ⟨0xc3, ['M', 'O', 'V', 'P', '1'], ["E2", "M_P", "M_IR3"]⟩,
  ⟨0xf3, ['M', 'O', 'V'], ["E2", "M_P1", "M_IR3"]⟩,
  ⟨0x82, ['H', 'L', 'T', 'S'], ["E0"]⟩,
  ⟨0xa2, ['F', 'L', 'T'], ["E0"]⟩,
  ⟨0xc2, ['F', 'L', 'T', 'T'], ["E0"]⟩,
  ⟨0xe2, ['F', 'R', 'E', 'S'], ["E0"]⟩]

/-- src/table_i8048.cpp:250-261 -/
def INDEX_MSM80C39 : List Nat := [
  2, 3, 7, 8, 9, 6, 0, 1, 5, 4]

/-- src/table_i8048.cpp:266-271 -/
def INST_PAGES : List (Page Row) := [
  ⟨0x0, [], TABLE_I8048, INDEX_I8048⟩,
  ⟨0x0, [], TABLE_I8039, INDEX_I8039⟩,
  ⟨0x0, [], TABLE_I80C39, INDEX_I80C39⟩,
  ⟨0x0, [], TABLE_MSM80C39, INDEX_MSM80C39⟩]

/-- The processors of src/table_i8048.cpp: CPU_TABLE 275-282 -/
def cpus : List Cpu := [
  ⟨['8', '0', '3', '9'], ((INST_PAGES.take 2).drop 1)⟩,
  ⟨['8', '0', 'C', '3', '9'], ((INST_PAGES.take 3).drop 1)⟩,
  ⟨['M', 'S', 'M', '8', '0', 'C', '3', '9'], ((INST_PAGES.take 4).drop 1)⟩,
  ⟨['8', '0', '4', '8'], ((INST_PAGES.take 2).drop 0)⟩,
  ⟨['8', '0', 'C', '4', '8'], ((INST_PAGES.take 3).drop 0)⟩,
  ⟨['M', 'S', 'M', '8', '0', 'C', '4', '8'], ((INST_PAGES.take 4).drop 0)⟩]

theorem TABLE_I8048_INDEX_I8048 (n : Nat) (x : List String) : PageOk ⟨n, x, TABLE_I8048, INDEX_I8048⟩ :=
  pageB_sound ⟨n, x, TABLE_I8048, INDEX_I8048⟩ (show pageB ⟨0, [], TABLE_I8048, INDEX_I8048⟩ = true by decide +kernel)

theorem TABLE_I8039_INDEX_I8039 (n : Nat) (x : List String) : PageOk ⟨n, x, TABLE_I8039, INDEX_I8039⟩ :=
  pageB_sound ⟨n, x, TABLE_I8039, INDEX_I8039⟩ (show pageB ⟨0, [], TABLE_I8039, INDEX_I8039⟩ = true by decide +kernel)

theorem TABLE_I80C39_INDEX_I80C39 (n : Nat) (x : List String) : PageOk ⟨n, x, TABLE_I80C39, INDEX_I80C39⟩ :=
  pageB_sound ⟨n, x, TABLE_I80C39, INDEX_I80C39⟩ (show pageB ⟨0, [], TABLE_I80C39, INDEX_I80C39⟩ = true by decide +kernel)

theorem TABLE_MSM80C39_INDEX_MSM80C39 (n : Nat) (x : List String) : PageOk ⟨n, x, TABLE_MSM80C39, INDEX_MSM80C39⟩ :=
  pageB_sound ⟨n, x, TABLE_MSM80C39, INDEX_MSM80C39⟩ (show pageB ⟨0, [], TABLE_MSM80C39, INDEX_MSM80C39⟩ = true by decide +kernel)

theorem INST_PAGES_ok : ∀ p ∈ INST_PAGES, PageOk p :=
  List.forall_mem_cons.mpr <| And.intro (TABLE_I8048_INDEX_I8048 _ _) <| List.forall_mem_cons.mpr <| And.intro (TABLE_I8039_INDEX_I8039 _ _) <| List.forall_mem_cons.mpr <| And.intro (TABLE_I80C39_INDEX_I80C39 _ _) <| List.forall_mem_cons.mpr <| And.intro (TABLE_MSM80C39_INDEX_MSM80C39 _ _) nofun

theorem cpus_ok : ∀ c ∈ cpus, ∀ p ∈ c.pages, PageOk p :=
  List.forall_mem_cons.mpr <| And.intro (fun p hp => INST_PAGES_ok p (List.mem_of_mem_take (List.mem_of_mem_drop hp))) <| List.forall_mem_cons.mpr <| And.intro (fun p hp => INST_PAGES_ok p (List.mem_of_mem_take (List.mem_of_mem_drop hp))) <| List.forall_mem_cons.mpr <| And.intro (fun p hp => INST_PAGES_ok p (List.mem_of_mem_take (List.mem_of_mem_drop hp))) <| List.forall_mem_cons.mpr <| And.intro (fun p hp => INST_PAGES_ok p (List.mem_of_mem_take (List.mem_of_mem_drop hp))) <| List.forall_mem_cons.mpr <| And.intro (fun p hp => INST_PAGES_ok p (List.mem_of_mem_take (List.mem_of_mem_drop hp))) <| List.forall_mem_cons.mpr <| And.intro (fun p hp => INST_PAGES_ok p (List.mem_of_mem_take (List.mem_of_mem_drop hp))) nofun

end Libasm.Tables.I8048
