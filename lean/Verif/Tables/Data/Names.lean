import Verif.Tables.Row
/-
Generated by tools/gen_tables.py: the names of the directive tables (src/asm_*.cpp) and of the
register, condition code and flag tables (src/reg_*.cpp). Do not edit.
-/
namespace Libasm.Tables.Names

/-- src/asm_base.cpp:35-39 -/
def asm_base_PSEUDOS : NameTable := ⟨"src/asm_base.cpp:35-39", [
  ['a', 'l', 'i', 'g', 'n'],
  ['o', 'p', 't', 'i', 'o', 'n'],
  ['o', 'r', 'g']]⟩

/-- src/asm_cdp1802.cpp:36-38 -/
def asm_cdp1802_PSEUDOS : NameTable := ⟨"src/asm_cdp1802.cpp:36-38", [
  ['d', 'c']]⟩

/-- src/asm_f3850.cpp:35-39 -/
def asm_f3850_PSEUDOS : NameTable := ⟨"src/asm_f3850.cpp:35-39", [
  ['D', 'A'],
  ['d', 'c'],
  ['r', 's']]⟩

/-- src/asm_i8048.cpp:32-36 -/
def asm_i8048_PSEUDOS : NameTable := ⟨"src/asm_i8048.cpp:32-36", [
  ['d', 'b'],
  ['d', 's'],
  ['d', 'w']]⟩

/-- src/asm_i8051.cpp:32-36 -/
def asm_i8051_PSEUDOS : NameTable := ⟨"src/asm_i8051.cpp:32-36", [
  ['d', 'b'],
  ['d', 's'],
  ['d', 'w']]⟩

/-- src/asm_i8080.cpp:32-40 -/
def asm_i8080_PSEUDOS : NameTable := ⟨"src/asm_i8080.cpp:32-40", [
  ['d', 'b'],
  ['d', 'e', 'f', 'b'],
  ['d', 'e', 'f', 'm'],
  ['d', 'e', 'f', 's'],
  ['d', 'e', 'f', 'w'],
  ['d', 's'],
  ['d', 'w']]⟩

/-- src/asm_i8086.cpp:43-50 -/
def asm_i8086_PSEUDOS : NameTable := ⟨"src/asm_i8086.cpp:43-50", [
  ['d', 'b'],
  ['d', 's'],
  ['d', 'w'],
  ['r', 'e', 's', 'b'],
  ['r', 'e', 's', 'd'],
  ['r', 'e', 's', 'w']]⟩

/-- src/asm_i8096.cpp:33-40 -/
def asm_i8096_PSEUDOS : NameTable := ⟨"src/asm_i8096.cpp:33-40", [
  ['d', 'c', 'b'],
  ['d', 'c', 'l'],
  ['d', 'c', 'w'],
  ['d', 's', 'b'],
  ['d', 's', 'l'],
  ['d', 's', 'w']]⟩

/-- src/asm_ins8060.cpp:32-37 -/
def asm_ins8060_PSEUDOS : NameTable := ⟨"src/asm_ins8060.cpp:32-37", [
  ['.', '='],
  ['.', 'a', 's', 'c', 'i', 'i'],
  ['.', 'b', 'y', 't', 'e'],
  ['.', 'd', 'b', 'y', 't', 'e']]⟩

/-- src/asm_ins8070.cpp:32-37 -/
def asm_ins8070_PSEUDOS : NameTable := ⟨"src/asm_ins8070.cpp:32-37", [
  ['.', '='],
  ['.', 'a', 's', 'c', 'i', 'i'],
  ['.', 'b', 'y', 't', 'e'],
  ['.', 'd', 'b', 'y', 't', 'e']]⟩

/-- src/asm_mc6800.cpp:33-38 -/
def asm_mc6800_PSEUDOS : NameTable := ⟨"src/asm_mc6800.cpp:33-38", [
  ['f', 'c', 'b'],
  ['f', 'c', 'c'],
  ['f', 'd', 'b'],
  ['r', 'm', 'b']]⟩

/-- src/asm_mc68000.cpp:48-64 -/
def asm_mc68000_PSEUDOS : NameTable := ⟨"src/asm_mc68000.cpp:48-64", [
  ['.', 'a', 'l', 'i', 'g', 'n'],
  ['d', 'c'],
  ['d', 'c', '.', 'b'],
  ['d', 'c', '.', 'd'],
  ['d', 'c', '.', 'l'],
  ['d', 'c', '.', 's'],
  ['d', 'c', '.', 'w'],
  ['d', 's'],
  ['d', 's', '.', 'b'],
  ['d', 's', '.', 'l'],
  ['d', 's', '.', 'w']]⟩

/-- src/asm_mc6805.cpp:36-41 -/
def asm_mc6805_PSEUDOS : NameTable := ⟨"src/asm_mc6805.cpp:36-41", [
  ['f', 'c', 'b'],
  ['f', 'c', 'c'],
  ['f', 'd', 'b'],
  ['r', 'm', 'b']]⟩

/-- src/asm_mc6809.cpp:34-39 -/
def asm_mc6809_PSEUDOS : NameTable := ⟨"src/asm_mc6809.cpp:34-39", [
  ['f', 'c', 'b'],
  ['f', 'c', 'c'],
  ['f', 'd', 'b'],
  ['r', 'm', 'b']]⟩

/-- src/asm_mn1610.cpp:34-37 -/
def asm_mn1610_PSEUDOS : NameTable := ⟨"src/asm_mn1610.cpp:34-37", [
  ['d', 's'],
  ['l', 'o', 'c']]⟩

/-- src/asm_mos6502.cpp:36-45 -/
def asm_mos6502_PSEUDOS : NameTable := ⟨"src/asm_mos6502.cpp:36-45", [
  ['*', '='],
  ['.', 'a', 'l', 'i', 'g', 'n'],
  ['.', 'b', 'y', 't', 'e'],
  ['.', 'w', 'o', 'r', 'd'],
  ['f', 'c', 'b'],
  ['f', 'c', 'c'],
  ['f', 'd', 'b'],
  ['r', 'm', 'b']]⟩

/-- src/asm_ns32000.cpp:46-61 -/
def asm_ns32000_PSEUDOS : NameTable := ⟨"src/asm_ns32000.cpp:46-61", [
  ['.', 'a', 'l', 'i', 'g', 'n'],
  ['.', 'a', 's', 'c', 'i', 'i'],
  ['.', 'b', 'l', 'k', 'b'],
  ['.', 'b', 'l', 'k', 'd'],
  ['.', 'b', 'l', 'k', 'w'],
  ['.', 'b', 'y', 't', 'e'],
  ['.', 'd', 'o', 'u', 'b', 'l', 'e'],
  ['.', 'f', 'l', 'o', 'a', 't'],
  ['.', 'l', 'o', 'n', 'g'],
  ['.', 'o', 'r', 'g'],
  ['.', 's', 'p', 'a', 'c', 'e'],
  ['.', 'w', 'o', 'r', 'd']]⟩

/-- src/asm_pdp11.cpp:40-48 -/
def asm_pdp11_PSEUDOS : NameTable := ⟨"src/asm_pdp11.cpp:40-48", [
  ['.', '='],
  ['.', 'b', 'l', 'k', 'b'],
  ['.', 'b', 'l', 'k', 'w'],
  ['.', 'b', 'y', 't', 'e'],
  ['.', 'E', 'V', 'E', 'N'],
  ['.', 'O', 'D', 'D'],
  ['.', 'w', 'o', 'r', 'd']]⟩

/-- src/asm_pdp8.cpp:40-42 -/
def asm_pdp8_PSEUDOS : NameTable := ⟨"src/asm_pdp8.cpp:40-42", [
  ['*']]⟩

/-- src/asm_scn2650.cpp:36-41 -/
def asm_scn2650_PSEUDOS : NameTable := ⟨"src/asm_scn2650.cpp:36-41", [
  ['a', 'c', 'o', 'n'],
  ['a', 'l', 'i', 't'],
  ['d', 'a', 't', 'a'],
  ['r', 'e', 's']]⟩

/-- src/asm_tlcs90.cpp:32-37 -/
def asm_tlcs90_PSEUDOS : NameTable := ⟨"src/asm_tlcs90.cpp:32-37", [
  ['d', 'b'],
  ['d', 'l'],
  ['d', 's'],
  ['d', 'w']]⟩

/-- src/asm_tms32010.cpp:32-40 -/
def asm_tms32010_PSEUDOS : NameTable := ⟨"src/asm_tms32010.cpp:32-40", [
  ['.', 'a', 'l', 'i', 'g', 'n'],
  ['.', 'b', 'y', 't', 'e'],
  ['.', 'e', 'v', 'e', 'n'],
  ['.', 'l', 'o', 'n', 'g'],
  ['.', 'o', 'r', 'g'],
  ['.', 's', 't', 'r', 'i', 'n', 'g'],
  ['.', 'w', 'o', 'r', 'd']]⟩

/-- src/asm_tms7000.cpp:33-40 -/
def asm_tms7000_PSEUDOS : NameTable := ⟨"src/asm_tms7000.cpp:33-40", [
  ['a', 'o', 'r', 'g'],
  ['b', 's', 's'],
  ['b', 'y', 't', 'e'],
  ['d', 'a', 't', 'a'],
  ['e', 'v', 'e', 'n'],
  ['t', 'e', 'x', 't']]⟩

/-- src/asm_tms9900.cpp:33-40 -/
def asm_tms9900_PSEUDOS : NameTable := ⟨"src/asm_tms9900.cpp:33-40", [
  ['a', 'o', 'r', 'g'],
  ['b', 's', 's'],
  ['b', 'y', 't', 'e'],
  ['d', 'a', 't', 'a'],
  ['e', 'v', 'e', 'n'],
  ['t', 'e', 'x', 't']]⟩

/-- src/asm_z8.cpp:40-45 -/
def asm_z8_PSEUDOS : NameTable := ⟨"src/asm_z8.cpp:40-45", [
  ['d', 'b'],
  ['d', 'l'],
  ['d', 's'],
  ['d', 'w']]⟩

/-- src/asm_z80.cpp:32-41 -/
def asm_z80_PSEUDOS : NameTable := ⟨"src/asm_z80.cpp:32-41", [
  ['d', 'b'],
  ['d', 'e', 'f', 'b'],
  ['d', 'e', 'f', 'm'],
  ['d', 'e', 'f', 's'],
  ['d', 'e', 'f', 'w'],
  ['d', 'l'],
  ['d', 's'],
  ['d', 'w']]⟩

/-- src/asm_z8000.cpp:39-44 -/
def asm_z8000_PSEUDOS : NameTable := ⟨"src/asm_z8000.cpp:39-44", [
  ['b', 'y', 't', 'e'],
  ['l', 'o', 'n', 'g'],
  ['s', 't', 'r', 'i', 'n', 'g'],
  ['w', 'o', 'r', 'd']]⟩

/-- src/reg_f3850.cpp:32-52 -/
def reg_f3850_REG_ENTRIES : NameTable := ⟨"src/reg_f3850.cpp:32-52", [
  ['A'],
  ['D'],
  ['D', 'C'],
  ['H'],
  ['H', 'L'],
  ['H', 'U'],
  ['I'],
  ['I', 'S'],
  ['J'],
  ['K'],
  ['K', 'L'],
  ['K', 'U'],
  ['P'],
  ['P', '0'],
  ['Q'],
  ['Q', 'L'],
  ['Q', 'U'],
  ['S'],
  ['W']]⟩

/-- src/reg_i8048.cpp:32-64 -/
def reg_i8048_REG_ENTRIES : NameTable := ⟨"src/reg_i8048.cpp:32-64", [
  ['A'],
  ['B', 'U', 'S'],
  ['C'],
  ['C', 'L', 'K'],
  ['C', 'N', 'T'],
  ['F', '0'],
  ['F', '1'],
  ['I'],
  ['M', 'B', '0'],
  ['M', 'B', '1'],
  ['P'],
  ['P', '1'],
  ['P', '2'],
  ['P', '4'],
  ['P', '5'],
  ['P', '6'],
  ['P', '7'],
  ['P', 'S', 'W'],
  ['R', '0'],
  ['R', '1'],
  ['R', '2'],
  ['R', '3'],
  ['R', '4'],
  ['R', '5'],
  ['R', '6'],
  ['R', '7'],
  ['R', 'B', '0'],
  ['R', 'B', '1'],
  ['T'],
  ['T', 'C', 'N', 'T'],
  ['T', 'C', 'N', 'T', 'I']]⟩

/-- src/reg_i8051.cpp:32-46 -/
def reg_i8051_REG_ENTRIES : NameTable := ⟨"src/reg_i8051.cpp:32-46", [
  ['A'],
  ['A', 'B'],
  ['C'],
  ['D', 'P', 'T', 'R'],
  ['P', 'C'],
  ['R', '0'],
  ['R', '1'],
  ['R', '2'],
  ['R', '3'],
  ['R', '4'],
  ['R', '5'],
  ['R', '6'],
  ['R', '7']]⟩

/-- src/reg_i8080.cpp:32-43 -/
def reg_i8080_INTEL_ENTRIES : NameTable := ⟨"src/reg_i8080.cpp:32-43", [
  ['A'],
  ['B'],
  ['C'],
  ['D'],
  ['E'],
  ['H'],
  ['L'],
  ['M'],
  ['P', 'S', 'W'],
  ['S', 'P']]⟩

/-- src/reg_i8080.cpp:45-61 -/
def reg_i8080_ZILOG_ENTRIES : NameTable := ⟨"src/reg_i8080.cpp:45-61", [
  ['A'],
  ['A', 'F'],
  ['B'],
  ['B', 'C'],
  ['C'],
  ['D'],
  ['D', 'E'],
  ['E'],
  ['H'],
  ['H', 'L'],
  ['I', 'M'],
  ['L'],
  ['M'],
  ['P', 'S', 'W'],
  ['S', 'P']]⟩

/-- src/reg_i8080.cpp:63-72 -/
def reg_i8080_CC_ENTRIES : NameTable := ⟨"src/reg_i8080.cpp:63-72", [
  ['C'],
  ['M'],
  ['N', 'C'],
  ['N', 'Z'],
  ['P'],
  ['P', 'E'],
  ['P', 'O'],
  ['Z']]⟩

/-- src/reg_i8086.cpp:32-60 -/
def reg_i8086_REG_ENTRIES : NameTable := ⟨"src/reg_i8086.cpp:32-60", [
  ['A', 'H'],
  ['A', 'L'],
  ['A', 'X'],
  ['B', 'H'],
  ['B', 'L'],
  ['B', 'P'],
  ['B', 'X'],
  ['B', 'Y', 'T', 'E'],
  ['C', 'H'],
  ['C', 'L'],
  ['C', 'S'],
  ['C', 'X'],
  ['D', 'H'],
  ['D', 'I'],
  ['D', 'L'],
  ['D', 'S'],
  ['D', 'W', 'O', 'R', 'D'],
  ['D', 'X'],
  ['E', 'S'],
  ['P', 'T', 'R'],
  ['Q', 'W', 'O', 'R', 'D'],
  ['S', 'I'],
  ['S', 'P'],
  ['S', 'S'],
  ['S', 'T'],
  ['T', 'B', 'Y', 'T', 'E'],
  ['W', 'O', 'R', 'D']]⟩

/-- src/reg_ins8060.cpp:32-39 -/
def reg_ins8060_REG_ENTRIES : NameTable := ⟨"src/reg_ins8060.cpp:32-39", [
  ['E'],
  ['P', '0'],
  ['P', '1'],
  ['P', '2'],
  ['P', '3'],
  ['P', 'C']]⟩

/-- src/reg_ins8070.cpp:32-42 -/
def reg_ins8070_REG_ENTRIES : NameTable := ⟨"src/reg_ins8070.cpp:32-42", [
  ['A'],
  ['E'],
  ['E', 'A'],
  ['P', '2'],
  ['P', '3'],
  ['P', 'C'],
  ['S'],
  ['S', 'P'],
  ['T']]⟩

/-- src/reg_mc68000.cpp:31-66 -/
def reg_mc68000_REG_ENTRIES : NameTable := ⟨"src/reg_mc68000.cpp:31-66", [
  ['A', '0'],
  ['A', '1'],
  ['A', '2'],
  ['A', '3'],
  ['A', '4'],
  ['A', '5'],
  ['A', '6'],
  ['A', '7'],
  ['C', 'C', 'R'],
  ['D', '0'],
  ['D', '1'],
  ['D', '2'],
  ['D', '3'],
  ['D', '4'],
  ['D', '5'],
  ['D', '6'],
  ['D', '7'],
  ['D', 'F', 'C'],
  ['F', 'P', '0'],
  ['F', 'P', '1'],
  ['F', 'P', '2'],
  ['F', 'P', '3'],
  ['F', 'P', '4'],
  ['F', 'P', '5'],
  ['F', 'P', '6'],
  ['F', 'P', '7'],
  ['F', 'P', 'C', 'R'],
  ['F', 'P', 'I', 'A', 'R'],
  ['F', 'P', 'S', 'R'],
  ['P', 'C'],
  ['S', 'F', 'C'],
  ['S', 'R'],
  ['U', 'S', 'P'],
  ['V', 'B', 'R']]⟩

/-- src/reg_mc6809.cpp:32-50 -/
def reg_mc6809_REG_ENTRIES : NameTable := ⟨"src/reg_mc6809.cpp:32-50", [
  ['0'],
  ['A'],
  ['B'],
  ['C', 'C'],
  ['D'],
  ['D', 'P'],
  ['E'],
  ['F'],
  ['P', 'C'],
  ['P', 'C', 'R'],
  ['S'],
  ['U'],
  ['V'],
  ['W'],
  ['X'],
  ['Y'],
  ['Z']]⟩

/-- src/reg_mn1610.cpp:32-63 -/
def reg_mn1610_REG_ENTRIES : NameTable := ⟨"src/reg_mn1610.cpp:32-63", [
  ['C', 'S', 'B', 'R'],
  ['D', 'R', '0'],
  ['I', 'C'],
  ['I', 'C', 'B'],
  ['I', 'I', 'S', 'R'],
  ['N', 'P', 'P'],
  ['O', 'S', 'R', '0'],
  ['O', 'S', 'R', '1'],
  ['O', 'S', 'R', '2'],
  ['O', 'S', 'R', '3'],
  ['R', '0'],
  ['R', '1'],
  ['R', '2'],
  ['R', '3'],
  ['R', '4'],
  ['S', 'B', 'R', 'B'],
  ['S', 'C', 'R'],
  ['S', 'I', 'R'],
  ['S', 'O', 'R'],
  ['S', 'P'],
  ['S', 'S', 'B', 'R'],
  ['S', 'S', 'R'],
  ['S', 'T', 'R'],
  ['T', 'C', 'R'],
  ['T', 'I', 'R'],
  ['T', 'S', 'R'],
  ['T', 'S', 'R', '0'],
  ['T', 'S', 'R', '1'],
  ['X', '0'],
  ['X', '1']]⟩

/-- src/reg_mn1610.cpp:65-87 -/
def reg_mn1610_CC_ENTRIES : NameTable := ⟨"src/reg_mn1610.cpp:65-87", [
  ['C'],
  ['C', 'E'],
  ['E'],
  ['E', 'N', 'Z'],
  ['E', 'Z'],
  ['L', 'M'],
  ['L', 'M', 'Z'],
  ['L', 'P'],
  ['L', 'P', 'Z'],
  ['M'],
  ['M', 'Z'],
  ['N', 'E'],
  ['N', 'Z'],
  ['O', 'N', 'Z'],
  ['O', 'Z'],
  ['P'],
  ['P', 'Z'],
  ['R', 'E'],
  ['S', 'E'],
  ['S', 'K', 'P'],
  ['Z']]⟩

/-- src/reg_mos6502.cpp:33-38 -/
def reg_mos6502_REG_ENTRIES : NameTable := ⟨"src/reg_mos6502.cpp:33-38", [
  ['A'],
  ['S'],
  ['X'],
  ['Y']]⟩

/-- src/reg_ns32000.cpp:32-55 -/
def reg_ns32000_REG_ENTRIES : NameTable := ⟨"src/reg_ns32000.cpp:32-55", [
  ['E', 'X', 'T'],
  ['F', '0'],
  ['F', '1'],
  ['F', '2'],
  ['F', '3'],
  ['F', '4'],
  ['F', '5'],
  ['F', '6'],
  ['F', '7'],
  ['F', 'P'],
  ['P', 'C'],
  ['R', '0'],
  ['R', '1'],
  ['R', '2'],
  ['R', '3'],
  ['R', '4'],
  ['R', '5'],
  ['R', '6'],
  ['R', '7'],
  ['S', 'B'],
  ['S', 'P'],
  ['T', 'O', 'S']]⟩

/-- src/reg_ns32000.cpp:57-66 -/
def reg_ns32000_PREG_ENTRIES : NameTable := ⟨"src/reg_ns32000.cpp:57-66", [
  ['F', 'P'],
  ['I', 'N', 'T', 'B', 'A', 'S', 'E'],
  ['M', 'O', 'D'],
  ['P', 'S', 'R'],
  ['S', 'B'],
  ['S', 'P'],
  ['U', 'P', 'S', 'R'],
  ['U', 'S']]⟩

/-- src/reg_ns32000.cpp:68-76 -/
def reg_ns32000_MREG_ENTRIES : NameTable := ⟨"src/reg_ns32000.cpp:68-76", [
  ['B', 'C', 'N', 'T'],
  ['B', 'P', 'R', '0'],
  ['B', 'P', 'R', '1'],
  ['E', 'I', 'A'],
  ['M', 'S', 'R'],
  ['P', 'T', 'B', '0'],
  ['P', 'T', 'B', '1']]⟩

/-- src/reg_ns32000.cpp:78-83 -/
def reg_ns32000_CONFIG_ENTRIES : NameTable := ⟨"src/reg_ns32000.cpp:78-83", [
  ['C'],
  ['F'],
  ['I'],
  ['M']]⟩

/-- src/reg_pdp11.cpp:32-49 -/
def reg_pdp11_REG_ENTRIES : NameTable := ⟨"src/reg_pdp11.cpp:32-49", [
  ['A', 'C', '0'],
  ['A', 'C', '1'],
  ['A', 'C', '2'],
  ['A', 'C', '3'],
  ['A', 'C', '4'],
  ['A', 'C', '5'],
  ['P', 'C'],
  ['R', '0'],
  ['R', '1'],
  ['R', '2'],
  ['R', '3'],
  ['R', '4'],
  ['R', '5'],
  ['R', '6'],
  ['R', '7'],
  ['S', 'P']]⟩

/-- src/reg_scn2650.cpp:32-37 -/
def reg_scn2650_CC_ENTRIES : NameTable := ⟨"src/reg_scn2650.cpp:32-37", [
  ['E', 'Q'],
  ['G', 'T'],
  ['L', 'T'],
  ['U', 'N']]⟩

/-- src/reg_tlcs90.cpp:32-48 -/
def reg_tlcs90_REG_ENTRIES : NameTable := ⟨"src/reg_tlcs90.cpp:32-48", [
  ['A'],
  ['A', 'F'],
  ['A', 'F', '\''],
  ['B'],
  ['B', 'C'],
  ['C'],
  ['D'],
  ['D', 'E'],
  ['E'],
  ['H'],
  ['H', 'L'],
  ['I', 'X'],
  ['I', 'Y'],
  ['L'],
  ['S', 'P']]⟩

/-- src/reg_tlcs90.cpp:50-74 -/
def reg_tlcs90_CC_ENTRIES : NameTable := ⟨"src/reg_tlcs90.cpp:50-74", [
  ['C'],
  ['E', 'Q'],
  ['F'],
  ['G', 'E'],
  ['G', 'T'],
  ['L', 'E'],
  ['L', 'T'],
  ['M'],
  ['M', 'I'],
  ['N', 'C'],
  ['N', 'E'],
  ['N', 'O', 'V'],
  ['N', 'Z'],
  ['O', 'V'],
  ['P'],
  ['P', 'E'],
  ['P', 'L'],
  ['P', 'O'],
  ['U', 'G', 'E'],
  ['U', 'G', 'T'],
  ['U', 'L', 'E'],
  ['U', 'L', 'T'],
  ['Z']]⟩

/-- src/reg_z8.cpp:32-52 -/
def reg_z8_CC_ENTRIES : NameTable := ⟨"src/reg_z8.cpp:32-52", [
  ['C'],
  ['E', 'Q'],
  ['F'],
  ['G', 'E'],
  ['G', 'T'],
  ['L', 'E'],
  ['L', 'T'],
  ['M', 'I'],
  ['N', 'C'],
  ['N', 'E'],
  ['N', 'O', 'V'],
  ['N', 'Z'],
  ['O', 'V'],
  ['P', 'L'],
  ['U', 'G', 'E'],
  ['U', 'G', 'T'],
  ['U', 'L', 'E'],
  ['U', 'L', 'T'],
  ['Z']]⟩

/-- src/reg_z80.cpp:33-51 -/
def reg_z80_REG_ENTRIES : NameTable := ⟨"src/reg_z80.cpp:33-51", [
  ['A'],
  ['A', 'F'],
  ['A', 'F', '\''],
  ['B'],
  ['B', 'C'],
  ['C'],
  ['D'],
  ['D', 'E'],
  ['E'],
  ['H'],
  ['H', 'L'],
  ['I'],
  ['I', 'X'],
  ['I', 'Y'],
  ['L'],
  ['R'],
  ['S', 'P']]⟩

/-- src/reg_z80.cpp:53-62 -/
def reg_z80_CC_ENTRIES : NameTable := ⟨"src/reg_z80.cpp:53-62", [
  ['C'],
  ['M'],
  ['N', 'C'],
  ['N', 'Z'],
  ['P'],
  ['P', 'E'],
  ['P', 'O'],
  ['Z']]⟩

/-- src/reg_z8000.cpp:32-42 -/
def reg_z8000_CTL_ENTRIES : NameTable := ⟨"src/reg_z8000.cpp:32-42", [
  ['F', 'C', 'W'],
  ['F', 'L', 'A', 'G', 'S'],
  ['N', 'S', 'P'],
  ['N', 'S', 'P', 'O', 'F', 'F'],
  ['N', 'S', 'P', 'S', 'E', 'G'],
  ['P', 'S', 'A', 'P'],
  ['P', 'S', 'A', 'P', 'O', 'F', 'F'],
  ['P', 'S', 'A', 'P', 'S', 'E', 'G'],
  ['R', 'E', 'F', 'R', 'E', 'S', 'H']]⟩

/-- src/reg_z8000.cpp:44-64 -/
def reg_z8000_CC_ENTRIES : NameTable := ⟨"src/reg_z8000.cpp:44-64", [
  ['C'],
  ['E', 'Q'],
  ['F'],
  ['G', 'E'],
  ['G', 'T'],
  ['L', 'E'],
  ['L', 'T'],
  ['M', 'I'],
  ['N', 'C'],
  ['N', 'E'],
  ['N', 'O', 'V'],
  ['N', 'Z'],
  ['O', 'V'],
  ['P', 'L'],
  ['U', 'G', 'E'],
  ['U', 'G', 'T'],
  ['U', 'L', 'E'],
  ['U', 'L', 'T'],
  ['Z']]⟩

/-- src/reg_z8000.cpp:66-72 -/
def reg_z8000_FLAG_ENTRIES : NameTable := ⟨"src/reg_z8000.cpp:66-72", [
  ['C'],
  ['P'],
  ['S'],
  ['V'],
  ['Z']]⟩

def tables : List NameTable := [
  asm_base_PSEUDOS,
  asm_cdp1802_PSEUDOS,
  asm_f3850_PSEUDOS,
  asm_i8048_PSEUDOS,
  asm_i8051_PSEUDOS,
  asm_i8080_PSEUDOS,
  asm_i8086_PSEUDOS,
  asm_i8096_PSEUDOS,
  asm_ins8060_PSEUDOS,
  asm_ins8070_PSEUDOS,
  asm_mc6800_PSEUDOS,
  asm_mc68000_PSEUDOS,
  asm_mc6805_PSEUDOS,
  asm_mc6809_PSEUDOS,
  asm_mn1610_PSEUDOS,
  asm_mos6502_PSEUDOS,
  asm_ns32000_PSEUDOS,
  asm_pdp11_PSEUDOS,
  asm_pdp8_PSEUDOS,
  asm_scn2650_PSEUDOS,
  asm_tlcs90_PSEUDOS,
  asm_tms32010_PSEUDOS,
  asm_tms7000_PSEUDOS,
  asm_tms9900_PSEUDOS,
  asm_z8_PSEUDOS,
  asm_z80_PSEUDOS,
  asm_z8000_PSEUDOS,
  reg_f3850_REG_ENTRIES,
  reg_i8048_REG_ENTRIES,
  reg_i8051_REG_ENTRIES,
  reg_i8080_INTEL_ENTRIES,
  reg_i8080_ZILOG_ENTRIES,
  reg_i8080_CC_ENTRIES,
  reg_i8086_REG_ENTRIES,
  reg_ins8060_REG_ENTRIES,
  reg_ins8070_REG_ENTRIES,
  reg_mc68000_REG_ENTRIES,
  reg_mc6809_REG_ENTRIES,
  reg_mn1610_REG_ENTRIES,
  reg_mn1610_CC_ENTRIES,
  reg_mos6502_REG_ENTRIES,
  reg_ns32000_REG_ENTRIES,
  reg_ns32000_PREG_ENTRIES,
  reg_ns32000_MREG_ENTRIES,
  reg_ns32000_CONFIG_ENTRIES,
  reg_pdp11_REG_ENTRIES,
  reg_scn2650_CC_ENTRIES,
  reg_tlcs90_REG_ENTRIES,
  reg_tlcs90_CC_ENTRIES,
  reg_z8_CC_ENTRIES,
  reg_z80_REG_ENTRIES,
  reg_z80_CC_ENTRIES,
  reg_z8000_CTL_ENTRIES,
  reg_z8000_CC_ENTRIES,
  reg_z8000_FLAG_ENTRIES]

theorem tables_ok : tables.all tableB = true := by decide +kernel

end Libasm.Tables.Names
