import Verif.Tables.Row
/-
Generated by tools/gen_tables.py from src/table_pdp8.cpp: names, codes, operands and indexes as written
there. Do not edit.
-/
namespace Libasm.Tables.Pdp8
open Table

/-- src/table_pdp8.cpp:55-62 -/
def IM6100_MEM : List Row := [
  ⟨0x0, ['A', 'N', 'D'], ["E", "M_MEM", "0"]⟩,
  ⟨0x200, ['T', 'A', 'D'], ["E", "M_MEM", "0"]⟩,
  ⟨0x400, ['I', 'S', 'Z'], ["E", "M_MEM", "0"]⟩,
  ⟨0x600, ['D', 'C', 'A'], ["E", "M_MEM", "0"]⟩,
  ⟨0x800, ['J', 'M', 'S'], ["E", "M_MEM", "0"]⟩,
  ⟨0xa00, ['J', 'M', 'P'], ["E", "M_MEM", "0"]⟩]

/-- src/table_pdp8.cpp:64-71 -/
def INDEX_IM6100_MEM : List Nat := [
  0, 3, 2, 5, 4, 1]

/-- src/table_pdp8.cpp:82-98 -/
def IM6100_GR1 : List Row := [
  ⟨0xe00, ['N', 'O', 'P'], ["C", "M_GR1", "CLA|CLL|CMA|CML|IAC", "R1|R2|R3"]⟩,
  ⟨0xe84, ['G', 'L', 'K'], ["C", "M_GR1", "CLA|R1|R2|R3", "0"]⟩,
  ⟨0xe50, ['S', 'T', 'L'], ["C", "M_GR1", "CLL|CML", "0"]⟩,
  ⟨0xea0, ['S', 'T', 'A'], ["C", "M_GR1", "CLA|CMA", "0"]⟩,
  ⟨0xe80, ['C', 'L', 'A'], ["M", "M_GR1", "CLA", "0"]⟩,
  ⟨0xe40, ['C', 'L', 'L'], ["C", "M_GR1", "CLL", "0"]⟩,
  ⟨0xe21, ['C', 'I', 'A'], ["C", "M_GR1", "CMA|IAC", "0"]⟩,
  ⟨0xe20, ['C', 'M', 'A'], ["C", "M_GR1", "CMA", "0"]⟩,
  ⟨0xe10, ['C', 'M', 'L'], ["C", "M_GR1", "CML", "0"]⟩,
  ⟨0xe02, ['B', 'S', 'W'], ["C", "M_GR1", "R1|R2|R3", "0"]⟩,
  ⟨0xe04, ['R', 'A', 'L'], ["C", "M_GR1", "R1|R2|R3", "0"]⟩,
  ⟨0xe08, ['R', 'A', 'R'], ["C", "M_GR1", "R1|R2|R3", "0"]⟩,
  ⟨0xe06, ['R', 'T', 'L'], ["C", "M_GR1", "R1|R2|R3", "0"]⟩,
  ⟨0xe0a, ['R', 'T', 'R'], ["C", "M_GR1", "R1|R2|R3", "0"]⟩,
  ⟨0xe01, ['I', 'A', 'C'], ["C", "M_GR1", "IAC", "0"]⟩]

/-- src/table_pdp8.cpp:100-116 -/
def INDEX_IM6100_GR1 : List Nat := [
  9, 6, 4, 5, 7, 8, 1, 14, 0, 10, 11, 12, 13, 3, 2]

/-- src/table_pdp8.cpp:118-135 -/
def HD6120_GR1 : List Row := [
  ⟨0xe00, ['N', 'O', 'P'], ["C", "M_GR1", "CLA|CLL|CMA|CML|IAC", "R1|R2|R3"]⟩,
  ⟨0xe84, ['G', 'L', 'K'], ["C", "M_GR1", "CLA|R1|R2|R3", "0"]⟩,
  ⟨0xe50, ['S', 'T', 'L'], ["C", "M_GR1", "CLL|CML", "0"]⟩,
  ⟨0xea0, ['S', 'T', 'A'], ["C", "M_GR1", "CLA|CMA", "0"]⟩,
  ⟨0xe80, ['C', 'L', 'A'], ["M", "M_GR1", "CLA", "0"]⟩,
  ⟨0xe40, ['C', 'L', 'L'], ["C", "M_GR1", "CLL", "0"]⟩,
  ⟨0xe21, ['C', 'I', 'A'], ["C", "M_GR1", "CMA|IAC", "0"]⟩,
  ⟨0xe20, ['C', 'M', 'A'], ["C", "M_GR1", "CMA", "0"]⟩,
  ⟨0xe10, ['C', 'M', 'L'], ["C", "M_GR1", "CML", "0"]⟩,
  ⟨0xe02, ['B', 'S', 'W'], ["C", "M_GR1", "R1|R2|R3", "0"]⟩,
  ⟨0xe04, ['R', 'A', 'L'], ["C", "M_GR1", "R1|R2|R3", "0"]⟩,
  ⟨0xe08, ['R', 'A', 'R'], ["C", "M_GR1", "R1|R2|R3", "0"]⟩,
  ⟨0xe06, ['R', 'T', 'L'], ["C", "M_GR1", "R1|R2|R3", "0"]⟩,
  ⟨0xe0a, ['R', 'T', 'R'], ["C", "M_GR1", "R1|R2|R3", "0"]⟩,
  ⟨0xe0c, ['R', '3', 'L'], ["C", "M_GR1", "R1|R2|R3", "0"]⟩,
  ⟨0xe01, ['I', 'A', 'C'], ["C", "M_GR1", "IAC", "0"]⟩]

/-- src/table_pdp8.cpp:137-154 -/
def INDEX_HD6120_GR1 : List Nat := [
  9, 6, 4, 5, 7, 8, 1, 15, 0, 14, 10, 11, 12, 13, 3, 2]

/-- src/table_pdp8.cpp:166-179 -/
def IM6100_GR2 : List Row := [
  ⟨0xf00, ['N', 'O', 'P'], ["E", "M_GR2", "CLA|SMA|SZA|SNL|B08|OSR|HLT"]⟩,
  ⟨0xf08, ['S', 'K', 'P'], ["E", "M_GR2", "SMA|SZA|SNL|B08"]⟩,
  ⟨0xf40, ['S', 'M', 'A'], ["C", "M_GR2", "SMA", "B08"]⟩,
  ⟨0xf48, ['S', 'P', 'A'], ["C", "M_GR2", "SPA", "B08"]⟩,
  ⟨0xf20, ['S', 'Z', 'A'], ["C", "M_GR2", "SZA", "B08"]⟩,
  ⟨0xf28, ['S', 'N', 'A'], ["C", "M_GR2", "SNA", "B08"]⟩,
  ⟨0xf10, ['S', 'N', 'L'], ["C", "M_GR2", "SNL", "B08"]⟩,
  ⟨0xf18, ['S', 'Z', 'L'], ["C", "M_GR2", "SZL", "B08"]⟩,
  ⟨0xf84, ['L', 'A', 'S'], ["C", "M_GR2", "CLA|OSR", "0"]⟩,
  ⟨0xf80, ['C', 'L', 'A'], ["M", "M_GR2", "CLA", "0"]⟩,
  ⟨0xf04, ['O', 'S', 'R'], ["C", "M_GR2", "OSR", "0"]⟩,
  ⟨0xf02, ['H', 'L', 'T'], ["C", "M_GR2", "HLT", "0"]⟩]

/-- src/table_pdp8.cpp:181-194 -/
def INDEX_IM6100_GR2 : List Nat := [
  9, 11, 8, 0, 10, 1, 2, 5, 6, 3, 4, 7]

/-- src/table_pdp8.cpp:199-207 -/
def IM6100_GR3 : List Row := [
  ⟨0xf01, ['N', 'O', 'P'], ["E", "M_GR3", "CLA|MQA|MQL"]⟩,
  ⟨0xfc1, ['A', 'C', 'L'], ["C", "M_GR3", "CLA|MQA", "MQL"]⟩,
  ⟨0xf91, ['C', 'A', 'M'], ["C", "M_GR3", "CLA|MQL", "MQA"]⟩,
  ⟨0xf81, ['C', 'L', 'A'], ["C", "M_GR3", "CLA", "0"]⟩,
  ⟨0xf51, ['S', 'W', 'P'], ["C", "M_GR3", "MQA|MQL", "0"]⟩,
  ⟨0xf41, ['M', 'Q', 'A'], ["C", "M_GR3", "MQA", "0"]⟩,
  ⟨0xf11, ['M', 'Q', 'L'], ["C", "M_GR3", "MQL", "0"]⟩]

/-- src/table_pdp8.cpp:209-217 -/
def INDEX_IM6100_GR3 : List Nat := [
  1, 2, 3, 5, 6, 0, 4]

/-- src/table_pdp8.cpp:219-229 -/
def IM6100_IOT : List Row := [
  ⟨0xc00, ['S', 'K', 'O', 'N'], ["E", "M_CMP", "00777"]⟩,
  ⟨0xc01, ['I', 'O', 'N'], ["E", "M_CMP", "00777"]⟩,
  ⟨0xc02, ['I', 'O', 'F'], ["E", "M_CMP", "00777"]⟩,
  ⟨0xc03, ['S', 'R', 'Q'], ["E", "M_CMP", "00777"]⟩,
  ⟨0xc04, ['G', 'T', 'F'], ["E", "M_CMP", "00777"]⟩,
  ⟨0xc05, ['R', 'T', 'F'], ["E", "M_CMP", "00777"]⟩,
  ⟨0xc06, ['S', 'G', 'T'], ["E", "M_CMP", "00777"]⟩,
  ⟨0xc07, ['C', 'A', 'F'], ["E", "M_CMP", "00777"]⟩,
  ⟨0xc00, ['I', 'O', 'T'], ["E", "M_IOT", "0"]⟩]

/-- src/table_pdp8.cpp:231-241 -/
def INDEX_IM6100_IOT : List Nat := [
  7, 4, 2, 1, 8, 5, 6, 0, 3]

/-- src/table_pdp8.cpp:247-250 -/
def HD6120_MEX : List Row := [
  ⟨0xc81, ['C', 'D', 'F'], ["C", "M_MEX", "CDF", "B09"]⟩,
  ⟨0xc82, ['C', 'I', 'F'], ["C", "M_MEX", "CIF", "B09"]⟩]

/-- src/table_pdp8.cpp:252-255 -/
def INDEX_HD6120_MEX : List Nat := [
  0, 1]

/-- src/table_pdp8.cpp:257-280 -/
def HD6120_I20 : List Row := [
  ⟨0xc85, ['P', 'P', 'C', '1'], ["E", "M_CMP", "00073"]⟩,
  ⟨0xca5, ['P', 'P', 'C', '2'], ["E", "M_CMP", "00073"]⟩,
  ⟨0xc8d, ['P', 'A', 'C', '1'], ["E", "M_CMP", "00073"]⟩,
  ⟨0xcad, ['P', 'A', 'C', '2'], ["E", "M_CMP", "00073"]⟩,
  ⟨0xc95, ['R', 'T', 'N', '1'], ["E", "M_CMP", "00073"]⟩,
  ⟨0xcb5, ['R', 'T', 'N', '2'], ["E", "M_CMP", "00073"]⟩,
  ⟨0xc9d, ['P', 'O', 'P', '1'], ["E", "M_CMP", "00073"]⟩,
  ⟨0xcbd, ['P', 'O', 'P', '2'], ["E", "M_CMP", "00073"]⟩,
  ⟨0xc87, ['R', 'S', 'P', '1'], ["E", "M_CMP", "00073"]⟩,
  ⟨0xc97, ['R', 'S', 'P', '2'], ["E", "M_CMP", "00073"]⟩,
  ⟨0xc8f, ['L', 'S', 'P', '1'], ["E", "M_CMP", "00073"]⟩,
  ⟨0xc9f, ['L', 'S', 'P', '2'], ["E", "M_CMP", "00073"]⟩,
  ⟨0xca6, ['W', 'S', 'R'], ["E", "M_CMP", "00073"]⟩,
  ⟨0xcae, ['G', 'C', 'F'], ["E", "M_CMP", "00073"]⟩,
  ⟨0xc8c, ['R', 'D', 'F'], ["E", "M_CMP", "00073"]⟩,
  ⟨0xc94, ['R', 'I', 'F'], ["E", "M_CMP", "00073"]⟩,
  ⟨0xc9c, ['R', 'I', 'B'], ["E", "M_CMP", "00073"]⟩,
  ⟨0xca4, ['R', 'M', 'F'], ["E", "M_CMP", "00073"]⟩,
  ⟨0xc86, ['P', 'R', '0'], ["E", "M_CMP", "00073"]⟩,
  ⟨0xc8e, ['P', 'R', '1'], ["E", "M_CMP", "00073"]⟩,
  ⟨0xc96, ['P', 'R', '2'], ["E", "M_CMP", "00073"]⟩,
  ⟨0xc9e, ['P', 'R', '3'], ["E", "M_CMP", "00073"]⟩]

/-- src/table_pdp8.cpp:282-305 -/
def INDEX_HD6120_I20 : List Nat := [
  13, 10, 11, 2, 3, 6, 7, 0, 1, 18, 19, 20, 21, 14, 16, 15,
  17, 8, 9, 4, 5, 12]

/-- src/table_pdp8.cpp:369-375 -/
def IM6100_PAGES : List (Page Row) := [
  ⟨0x0, ["MASK_GR1", "GID_GR1"], IM6100_GR1, INDEX_IM6100_GR1⟩,
  ⟨0x0, ["MASK_GR2", "GID_GR2"], IM6100_GR2, INDEX_IM6100_GR2⟩,
  ⟨0x0, ["MASK_GR3", "GID_GR3"], IM6100_GR3, INDEX_IM6100_GR3⟩,
  ⟨0x0, ["MASK_IOT", "GID_IOT"], IM6100_IOT, INDEX_IM6100_IOT⟩,
  ⟨0x0, ["MASK_MEM", "GID_MEM"], IM6100_MEM, INDEX_IM6100_MEM⟩]

/-- src/table_pdp8.cpp:377-386 -/
def HD6120_PAGES : List (Page Row) := [
  ⟨0x0, ["MASK_GR1", "GID_GR1"], HD6120_GR1, INDEX_HD6120_GR1⟩,
  ⟨0x0, ["MASK_GR1", "GID_GR1"], IM6100_GR1, INDEX_IM6100_GR1⟩,
  ⟨0x0, ["MASK_GR2", "GID_GR2"], IM6100_GR2, INDEX_IM6100_GR2⟩,
  ⟨0x0, ["MASK_GR3", "GID_GR3"], IM6100_GR3, INDEX_IM6100_GR3⟩,
  ⟨0x0, ["MASK_MEX", "GID_MEX"], HD6120_MEX, INDEX_HD6120_MEX⟩,
  ⟨0x0, ["MASK_I20", "GID_I20"], HD6120_I20, INDEX_HD6120_I20⟩,
  ⟨0x0, ["MASK_IOT", "GID_IOT"], IM6100_IOT, INDEX_IM6100_IOT⟩,
  ⟨0x0, ["MASK_MEM", "GID_MEM"], IM6100_MEM, INDEX_IM6100_MEM⟩]

/-- The processors of src/table_pdp8.cpp: CPU_TABLE 388-391 -/
def cpus : List Cpu := [
  ⟨['6', '1', '0', '0'], IM6100_PAGES⟩,
  ⟨['6', '1', '2', '0'], HD6120_PAGES⟩]

theorem IM6100_GR1_INDEX_IM6100_GR1 (n : Nat) (x : List String) : PageOk ⟨n, x, IM6100_GR1, INDEX_IM6100_GR1⟩ :=
  pageB_sound ⟨n, x, IM6100_GR1, INDEX_IM6100_GR1⟩ (show pageB ⟨0, [], IM6100_GR1, INDEX_IM6100_GR1⟩ = true by decide +kernel)

theorem IM6100_GR2_INDEX_IM6100_GR2 (n : Nat) (x : List String) : PageOk ⟨n, x, IM6100_GR2, INDEX_IM6100_GR2⟩ :=
  pageB_sound ⟨n, x, IM6100_GR2, INDEX_IM6100_GR2⟩ (show pageB ⟨0, [], IM6100_GR2, INDEX_IM6100_GR2⟩ = true by decide +kernel)

theorem IM6100_GR3_INDEX_IM6100_GR3 (n : Nat) (x : List String) : PageOk ⟨n, x, IM6100_GR3, INDEX_IM6100_GR3⟩ :=
  pageB_sound ⟨n, x, IM6100_GR3, INDEX_IM6100_GR3⟩ (show pageB ⟨0, [], IM6100_GR3, INDEX_IM6100_GR3⟩ = true by decide +kernel)

theorem IM6100_IOT_INDEX_IM6100_IOT (n : Nat) (x : List String) : PageOk ⟨n, x, IM6100_IOT, INDEX_IM6100_IOT⟩ :=
  pageB_sound ⟨n, x, IM6100_IOT, INDEX_IM6100_IOT⟩ (show pageB ⟨0, [], IM6100_IOT, INDEX_IM6100_IOT⟩ = true by decide +kernel)

theorem IM6100_MEM_INDEX_IM6100_MEM (n : Nat) (x : List String) : PageOk ⟨n, x, IM6100_MEM, INDEX_IM6100_MEM⟩ :=
  pageB_sound ⟨n, x, IM6100_MEM, INDEX_IM6100_MEM⟩ (show pageB ⟨0, [], IM6100_MEM, INDEX_IM6100_MEM⟩ = true by decide +kernel)

theorem HD6120_GR1_INDEX_HD6120_GR1 (n : Nat) (x : List String) : PageOk ⟨n, x, HD6120_GR1, INDEX_HD6120_GR1⟩ :=
  pageB_sound ⟨n, x, HD6120_GR1, INDEX_HD6120_GR1⟩ (show pageB ⟨0, [], HD6120_GR1, INDEX_HD6120_GR1⟩ = true by decide +kernel)

theorem HD6120_MEX_INDEX_HD6120_MEX (n : Nat) (x : List String) : PageOk ⟨n, x, HD6120_MEX, INDEX_HD6120_MEX⟩ :=
  pageB_sound ⟨n, x, HD6120_MEX, INDEX_HD6120_MEX⟩ (show pageB ⟨0, [], HD6120_MEX, INDEX_HD6120_MEX⟩ = true by decide +kernel)

theorem HD6120_I20_INDEX_HD6120_I20 (n : Nat) (x : List String) : PageOk ⟨n, x, HD6120_I20, INDEX_HD6120_I20⟩ :=
  pageB_sound ⟨n, x, HD6120_I20, INDEX_HD6120_I20⟩ (show pageB ⟨0, [], HD6120_I20, INDEX_HD6120_I20⟩ = true by decide +kernel)

theorem IM6100_PAGES_ok : ∀ p ∈ IM6100_PAGES, PageOk p :=
  List.forall_mem_cons.mpr <| And.intro (IM6100_GR1_INDEX_IM6100_GR1 _ _) <| List.forall_mem_cons.mpr <| And.intro (IM6100_GR2_INDEX_IM6100_GR2 _ _) <| List.forall_mem_cons.mpr <| And.intro (IM6100_GR3_INDEX_IM6100_GR3 _ _) <| List.forall_mem_cons.mpr <| And.intro (IM6100_IOT_INDEX_IM6100_IOT _ _) <| List.forall_mem_cons.mpr <| And.intro (IM6100_MEM_INDEX_IM6100_MEM _ _) nofun

theorem HD6120_PAGES_ok : ∀ p ∈ HD6120_PAGES, PageOk p :=
  List.forall_mem_cons.mpr <| And.intro (HD6120_GR1_INDEX_HD6120_GR1 _ _) <| List.forall_mem_cons.mpr <| And.intro (IM6100_GR1_INDEX_IM6100_GR1 _ _) <| List.forall_mem_cons.mpr <| And.intro (IM6100_GR2_INDEX_IM6100_GR2 _ _) <| List.forall_mem_cons.mpr <| And.intro (IM6100_GR3_INDEX_IM6100_GR3 _ _) <| List.forall_mem_cons.mpr <| And.intro (HD6120_MEX_INDEX_HD6120_MEX _ _) <| List.forall_mem_cons.mpr <| And.intro (HD6120_I20_INDEX_HD6120_I20 _ _) <| List.forall_mem_cons.mpr <| And.intro (IM6100_IOT_INDEX_IM6100_IOT _ _) <| List.forall_mem_cons.mpr <| And.intro (IM6100_MEM_INDEX_IM6100_MEM _ _) nofun

theorem cpus_ok : ∀ c ∈ cpus, ∀ p ∈ c.pages, PageOk p :=
  List.forall_mem_cons.mpr <| And.intro IM6100_PAGES_ok <| List.forall_mem_cons.mpr <| And.intro HD6120_PAGES_ok nofun

end Libasm.Tables.Pdp8
