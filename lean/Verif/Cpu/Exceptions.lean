import Verif.Cpu.Again
/-
That the exceptions of the theorems `C65_*_partial` are needed: lines that are assembled without error, and the
disassembly of their bytes, which is not assembled to these bytes again.
-/
namespace Libasm.Cpu
open Scan Number Eval

/-- A store with automatic displacement of the program counter is not disassembled. -/
theorem C65_violated_ins8060 :
    Ins8060.assemble noEnv 0 "ST @5(PC)".toList = .ok (.insn ⟨.OK, [0xcc, 5], []⟩) ∧
    Ins8060.assemble noEnv 0 ((Ins8060.disassemble (.default '.') 0 [0xcc, 5]).name ++ [' '] ++
      (Ins8060.disassemble (.default '.') 0 [0xcc, 5]).operands) ≠
      .ok (.insn ⟨.OK, [0xcc, 5], []⟩) := by
  decide +kernel

/-- `NBR` and `NLBR` are disassembled as the skip that is their code, without the operand; `INP` of the port 0 is not
disassembled. -/
theorem C65_violated_cdp1802 :
    Cdp1802.assemble noEnv true false .CDP1802 0 "NBR #12".toList = .ok (.insn ⟨.OK, [0x38, 0x12], []⟩) ∧
    Cdp1802.assemble noEnv true false .CDP1802 0 ((Cdp1802.disassemble (.default '*') true .CDP1802 0 [0x38, 0x12]).name ++ [' '] ++
      (Cdp1802.disassemble (.default '*') true .CDP1802 0 [0x38, 0x12]).operands) ≠
      .ok (.insn ⟨.OK, [0x38, 0x12], []⟩) ∧
    Cdp1802.assemble noEnv true false .CDP1802 0 "NLBR #1234".toList = .ok (.insn ⟨.OK, [0xc8, 0x12, 0x34], []⟩) ∧
    Cdp1802.assemble noEnv true false .CDP1802 0 ((Cdp1802.disassemble (.default '*') true .CDP1802 0 [0xc8, 0x12, 0x34]).name ++ [' '] ++
      (Cdp1802.disassemble (.default '*') true .CDP1802 0 [0xc8, 0x12, 0x34]).operands) ≠
      .ok (.insn ⟨.OK, [0xc8, 0x12, 0x34], []⟩) ∧
    Cdp1802.assemble noEnv true false .CDP1802 0 "INP ()".toList = .ok (.insn ⟨.OK, [0x68], []⟩) ∧
    Cdp1802.assemble noEnv true false .CDP1802 0 ((Cdp1802.disassemble (.default '*') true .CDP1802 0 [0x68]).name ++ [' '] ++
      (Cdp1802.disassemble (.default '*') true .CDP1802 0 [0x68]).operands) ≠
      .ok (.insn ⟨.OK, [0x68], []⟩) := by
  decide +kernel

/-- An addition of an index register to the other one is not disassembled. -/
theorem C65_violated_z80 :
    Z80.assemble noEnv 0 "ADD IX, IY".toList = .ok (.insn ⟨.OK, [0xdd, 0x59], []⟩) ∧
    Z80.assemble noEnv 0 ((Z80.disassemble (.default '$') 0 [0xdd, 0x59]).name ++ [' '] ++
      (Z80.disassemble (.default '$') 0 [0xdd, 0x59]).operands) ≠
      .ok (.insn ⟨.OK, [0xdd, 0x59], []⟩) ∧
    Z80.assemble noEnv 0 "ADD IY, IX".toList = .ok (.insn ⟨.OK, [0xfd, 0x49], []⟩) ∧
    Z80.assemble noEnv 0 ((Z80.disassemble (.default '$') 0 [0xfd, 0x49]).name ++ [' '] ++
      (Z80.disassemble (.default '$') 0 [0xfd, 0x49]).operands) ≠
      .ok (.insn ⟨.OK, [0xfd, 0x49], []⟩) := by
  decide +kernel

/-- The registers 0 and 1 are printed as A and B, which have codes of their own. -/
theorem C65_violated_tms7000 :
    Tms7000.assemble noEnv 0 "DEC R0".toList = .ok (.insn ⟨.OK, [0xd2, 0], []⟩) ∧
    Tms7000.assemble noEnv 0 ((Tms7000.disassemble (.default '$') 0 [0xd2, 0]).name ++ [' '] ++
      (Tms7000.disassemble (.default '$') 0 [0xd2, 0]).operands) ≠
      .ok (.insn ⟨.OK, [0xd2, 0], []⟩) ∧
    Tms7000.assemble noEnv 0 "DEC R1".toList = .ok (.insn ⟨.OK, [0xd2, 1], []⟩) ∧
    Tms7000.assemble noEnv 0 ((Tms7000.disassemble (.default '$') 0 [0xd2, 1]).name ++ [' '] ++
      (Tms7000.disassemble (.default '$') 0 [0xd2, 1]).operands) ≠
      .ok (.insn ⟨.OK, [0xd2, 1], []⟩) := by
  decide +kernel

/-- A branch to just behind the end of the memory is assembled, and not disassembled. -/
theorem C65_violated_ins8070 :
    Ins8070.assemble noEnv 65520 "BRA X'10000".toList = .ok (.insn ⟨.OK, [0x74, 14], []⟩) ∧
    Ins8070.assemble noEnv 65520 ((Ins8070.disassemble (.default '$') false 65520 [0x74, 14]).name ++ [' '] ++
      (Ins8070.disassemble (.default '$') false 65520 [0x74, 14]).operands) ≠
      .ok (.insn ⟨.OK, [0x74, 14], []⟩) := by
  decide +kernel

/-- A store to a constant is not disassembled; a register number is taken modulo 256 after it was checked, and a
displacement modulo 65536 after its length was chosen. -/
theorem C65_violated_i8096 :
    I8096.assemble noEnv 0 "STB 1, #5".toList = .ok (.insn ⟨.OK, [0xC5, 5, 1], []⟩) ∧
    I8096.assemble noEnv 0 ((I8096.disassemble (.default '$') false 0 [0xC5, 5, 1]).name ++ [' '] ++
      (I8096.disassemble (.default '$') false 0 [0xC5, 5, 1]).operands) ≠
      .ok (.insn ⟨.OK, [0xC5, 5, 1], []⟩) ∧
    I8096.assemble noEnv 0 "LD 10, 201H[256]".toList = .ok (.insn ⟨.OK, [0xA3, 1, 1, 2, 10], []⟩) ∧
    I8096.assemble noEnv 0 ((I8096.disassemble (.default '$') false 0 [0xA3, 1, 1, 2, 10]).name ++ [' '] ++
      (I8096.disassemble (.default '$') false 0 [0xA3, 1, 1, 2, 10]).operands) ≠
      .ok (.insn ⟨.OK, [0xA3, 1, 1, 2, 10], []⟩) ∧
    I8096.assemble noEnv 0 "ADD 16, 4[256]".toList = .ok (.insn ⟨.OK, [0x67, 0, 4, 16], []⟩) ∧
    I8096.assemble noEnv 0 ((I8096.disassemble (.default '$') false 0 [0x67, 0, 4, 16]).name ++ [' '] ++
      (I8096.disassemble (.default '$') false 0 [0x67, 0, 4, 16]).operands) ≠
      .ok (.insn ⟨.OK, [0x67, 0, 4, 16], []⟩) ∧
    I8096.assemble noEnv 0 "ADD 16, 65540[18]".toList = .ok (.insn ⟨.OK, [0x67, 19, 4, 0, 16], []⟩) ∧
    I8096.assemble noEnv 0 ((I8096.disassemble (.default '$') false 0 [0x67, 19, 4, 0, 16]).name ++ [' '] ++
      (I8096.disassemble (.default '$') false 0 [0x67, 19, 4, 0, 16]).operands) ≠
      .ok (.insn ⟨.OK, [0x67, 19, 4, 0, 16], []⟩) := by
  decide +kernel

/-- With `use-absolute` the operand `[0]` is printed as nothing. -/
theorem C65_violated_i8096_absolute :
    I8096.assemble noEnv 0 "ADD 16, [0]".toList = .ok (.insn ⟨.OK, [0x66, 0, 16], []⟩) ∧
    I8096.assemble noEnv 0 ((I8096.disassemble (.default '$') true 0 [0x66, 0, 16]).name ++ [' '] ++
      (I8096.disassemble (.default '$') true 0 [0x66, 0, 16]).operands) ≠
      .ok (.insn ⟨.OK, [0x66, 0, 16], []⟩) := by
  decide +kernel

/-- `CBI` takes a number of 16 bits and is printed with 8; a distance from the instruction counter may lead out of the
memory, and is printed as an address in it. -/
theorem C65_violated_mn1610 :
    Mn1610.assemble noEnv .MN1613 0 "CBI R0, X'1234'".toList = .ok (.insn ⟨.OK, [0x50, 7, 0x12, 0x34], []⟩) ∧
    Mn1610.assemble noEnv .MN1613 0 ((Mn1610.disassemble (.default '*') .MN1613 0 [0x50, 7, 0x12, 0x34]).name ++ [' '] ++
      (Mn1610.disassemble (.default '*') .MN1613 0 [0x50, 7, 0x12, 0x34]).operands) ≠
      .ok (.insn ⟨.OK, [0x50, 7, 0x12, 0x34], []⟩) ∧
    Mn1610.assemble noEnv .MN1613 0 "L R0, -1(IC)".toList = .ok (.insn ⟨.OK, [0xC8, 0xFF], []⟩) ∧
    Mn1610.assemble noEnv .MN1613 0 ((Mn1610.disassemble (.default '*') .MN1613 0 [0xC8, 0xFF]).name ++ [' '] ++
      (Mn1610.disassemble (.default '*') .MN1613 0 [0xC8, 0xFF]).operands) ≠
      .ok (.insn ⟨.OK, [0xC8, 0xFF], []⟩) := by
  decide +kernel

/-- `WDM` is not disassembled, nor is a long branch out of the bank. -/
theorem C65_violated_mos6502 :
    Mos6502.assemble noEnv ⟨false, false, true, false⟩ .W65C816 0 "WDM #3".toList = .ok (.insn ⟨.OK, [0x42, 3], []⟩) ∧
    Mos6502.assemble noEnv ⟨false, false, true, false⟩ .W65C816 0 ((Mos6502.disassemble (.default '*') ⟨false, false, true, false⟩ .W65C816 0 [0x42, 3]).name ++ [' '] ++
      (Mos6502.disassemble (.default '*') ⟨false, false, true, false⟩ .W65C816 0 [0x42, 3]).operands) ≠
      .ok (.insn ⟨.OK, [0x42, 3], []⟩) ∧
    Mos6502.assemble noEnv ⟨false, false, true, false⟩ .W65C816 0 "BRL $FFFF".toList = .ok (.insn ⟨.OK, [0x82, 0xfc, 0xff], []⟩) ∧
    Mos6502.assemble noEnv ⟨false, false, true, false⟩ .W65C816 0 ((Mos6502.disassemble (.default '*') ⟨false, false, true, false⟩ .W65C816 0 [0x82, 0xfc, 0xff]).name ++ [' '] ++
      (Mos6502.disassemble (.default '*') ⟨false, false, true, false⟩ .W65C816 0 [0x82, 0xfc, 0xff]).operands) ≠
      .ok (.insn ⟨.OK, [0x82, 0xfc, 0xff], []⟩) := by
  decide +kernel

/-- A condition after an open parenthesis is taken for a register and goes into the code. -/
theorem C65_violated_tlcs90 :
    Tlcs90.assemble noEnv false 256 "JR (C, 104H".toList = .ok (.insn ⟨.OK, [0xef, 2], []⟩) ∧
    Tlcs90.assemble noEnv false 256 ((Tlcs90.disassemble (.default '$') 256 [0xef, 2]).name ++ [' '] ++
      (Tlcs90.disassemble (.default '$') 256 [0xef, 2]).operands) ≠
      .ok (.insn ⟨.OK, [0xef, 2], []⟩) ∧
    Tlcs90.assemble noEnv false 256 "RET (C".toList = .ok (.insn ⟨.OK, [0xfe, 0xff], []⟩) ∧
    Tlcs90.assemble noEnv false 256 ((Tlcs90.disassemble (.default '$') 256 [0xfe, 0xff]).name ++ [' '] ++
      (Tlcs90.disassemble (.default '$') 256 [0xfe, 0xff]).operands) ≠
      .ok (.insn ⟨.OK, [0xfe, 0xff], []⟩) := by
  decide +kernel

/-- A jump from an odd address to an even one is taken as a jump to an odd one, which is refused. -/
theorem C65_violated_tms9900 :
    Tms9900.assemble noEnv .TMS9900 257 "JMP >102".toList = .ok (.insn ⟨.OK, [0x10, 0], []⟩) ∧
    Tms9900.assemble noEnv .TMS9900 257 ((Tms9900.disassemble (.default '$') .TMS9900 257 [0x10, 0]).name ++ [' '] ++
      (Tms9900.disassemble (.default '$') .TMS9900 257 [0x10, 0]).operands) ≠
      .ok (.insn ⟨.OK, [0x10, 0], []⟩) := by
  decide +kernel

/-- With targets relative to the location, a branch over the end of a page is printed as one to far before it. -/
theorem C65_violated_scn2650 :
    Scn2650.assemble noEnv 8190 "BCTR,UN H'0002'".toList = .ok (.insn ⟨.OK, [0x1b, 2], []⟩) ∧
    Scn2650.assemble noEnv 8190 ((Scn2650.disassemble { Opts.default '$' with relative := true } 8190 [0x1b, 2]).name ++ [' '] ++
      (Scn2650.disassemble { Opts.default '$' with relative := true } 8190 [0x1b, 2]).operands) ≠
      .ok (.insn ⟨.OK, [0x1b, 2], []⟩) := by
  decide +kernel

/-- Numbers in octal are printed without the prefix that tells them from decimal ones. -/
theorem C65_violated_octal :
    Cdp1802.assemble noEnv false false .CDP1802 0 "LDI 146".toList = .ok (.insn ⟨.OK, [0xf8, 146], []⟩) ∧
    Cdp1802.assemble noEnv false false .CDP1802 0 ((Cdp1802.disassemble ⟨true, true, true, false, false, false, '$'⟩ false .CDP1802 0 [0xf8, 146]).name ++ [' '] ++
      (Cdp1802.disassemble ⟨true, true, true, false, false, false, '$'⟩ false .CDP1802 0 [0xf8, 146]).operands) ≠
      .ok (.insn ⟨.OK, [0xf8, 146], []⟩) := by
  decide +kernel

end Libasm.Cpu
