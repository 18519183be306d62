{
 "claims": [
  {
   "property": "C01",
   "status": "proved",
   "theorems": [
    "Libasm.BinMemory.C01_last_write_wins"
   ],
   "note": "All write histories over 32-bit addresses."
  },
  {
   "property": "C02",
   "status": "proved",
   "theorems": [
    "Libasm.BinMemory.C02_equality_is_content"
   ],
   "note": "All pairs of write histories."
  },
  {
   "property": "C03",
   "status": "proved",
   "theorems": [
    "Libasm.BinMemory.C03_iteration_exact",
    "Libasm.BinMemory.C03_start_end"
   ],
   "note": "Explicit next pointers; iteration ends and is exact."
  },
  {
   "property": "C04",
   "status": "partial",
   "theorems": [
    "Libasm.BinMemory.C04_setRange_partial",
    "Libasm.BinMemory.C04_violated"
   ],
   "note": "The code violates the full statement: a run of bytes that begins exactly at the end address is not trimmed (witness C04_violated). Proved for every other range."
  },
  {
   "property": "C05",
   "status": "proved",
   "theorems": [
    "Libasm.HexFile.C05_srecord_round_trip"
   ],
   "note": "S-record encode/decode round trip for every image that leaves an address free"
  },
  {
   "property": "C06",
   "status": "partial",
   "theorems": [
    "Libasm.HexFile.C06_intel_hex_round_trip_partial",
    "Libasm.HexFile.C06_violated_straddle",
    "Libasm.HexFile.C06_violated_checksum"
   ],
   "note": "Proved for images whose records do not cross a 64K boundary and whose extended address checksum has two significant digits; the two violated theorems show the code breaks the property otherwise"
  },
  {
   "property": "C07",
   "status": "partial",
   "theorems": [
    "Libasm.HexFile.C07_srecord_corruption_partial",
    "Libasm.HexFile.C07_violated_length"
   ],
   "note": "Every change of an address, data or checksum byte is detected; the length byte is not (witness)"
  },
  {
   "property": "C08",
   "status": "partial",
   "theorems": [
    "Libasm.HexFile.C08_ihex_corruption_partial",
    "Libasm.HexFile.C08_violated_length",
    "Libasm.HexFile.C08_violated_type"
   ],
   "note": "Every change of a byte is detected except the type byte and the length byte of a data record (witnesses)"
  },
  {
   "property": "C09",
   "status": "proved",
   "theorems": [
    "Libasm.HexFile.C09_records_exact",
    "Libasm.HexFile.C09_record_size_zero"
   ],
   "note": ""
  },
  {
   "property": "C10",
   "status": "proved",
   "theorems": [
    "Libasm.Number.C10_value",
    "Libasm.Number.C10_no_digit",
    "Libasm.Number.C10_cases"
   ],
   "note": "Value::read / strToNumber, all radices, unbounded digit strings."
  },
  {
   "property": "C11",
   "status": "proved",
   "theorems": [
    "Libasm.Number.C11_hex",
    "Libasm.Number.C11_bin",
    "Libasm.Number.C11_oct",
    "Libasm.Number.C11_dec",
    "Libasm.Number.C11_cstyle",
    "Libasm.Number.C11_plain_oct",
    "Libasm.Number.C11_sign",
    "Libasm.Number.C11_violated_texas_octal"
   ],
   "note": "All formatter styles against their parsers; the Texas style has no octal notation (C11_violated_texas_octal)."
  },
  {
   "property": "C12",
   "status": "partial",
   "theorems": [
    "Libasm.Value.C12_add_partial",
    "Libasm.Value.C12_sub_partial",
    "Libasm.Value.C12_mul_partial",
    "Libasm.Value.C12_div_partial",
    "Libasm.Value.C12_mod_partial",
    "Libasm.Value.C12_negate_partial",
    "Libasm.Value.C12_div_by_zero",
    "Libasm.Value.C12_bitwise",
    "Libasm.Value.C12_complement",
    "Libasm.Value.C12_shift_right_partial",
    "Libasm.Value.C12_shift_left_partial",
    "Libasm.Value.C12_power_partial",
    "Libasm.Value.C12_violated_add_min",
    "Libasm.Value.C12_violated_sub",
    "Libasm.Value.C12_violated_shift_count"
   ],
   "note": "Exact except for -2^63 (undefined behaviour), subtrahends of 2^63 or more, and shift counts of 2^32 or more; witnesses given"
  },
  {
   "property": "C13",
   "status": "partial",
   "theorems": [
    "Libasm.Value.C13_less_than",
    "Libasm.Value.C13_equal_partial",
    "Libasm.Value.C13_less_equal_partial",
    "Libasm.Value.C13_violated_equal"
   ],
   "note": "< and >= proved for all values; == != <= > fail when one operand is negative and the other 2^63 or more (witness), proved otherwise"
  },
  {
   "property": "C14",
   "status": "proved",
   "theorems": [
    "Libasm.Value.C14_overflow",
    "Libasm.Value.C14_fixed_widths",
    "Libasm.Value.C14_overflowInteger_partial",
    "Libasm.Value.C14_violated_overflowInteger"
   ],
   "note": "overflowInteger is additionally covered: exact for lower bounds <= 0, violated for positive ones"
  },
  {
   "property": "C15",
   "status": "partial",
   "theorems": [
    "Libasm.Eval.C15_value_partial",
    "Libasm.Eval.C15_divide_by_zero",
    "Libasm.Eval.C15_undefined_symbol",
    "Libasm.Eval.C15_violated_not",
    "Libasm.Eval.C15_violated_shl",
    "Libasm.Maker.C15_makers_partial",
    "Libasm.Maker.C15_makers_divide_by_zero",
    "Libasm.Maker.C15_makers_undefined_symbol",
    "Libasm.Maker.C15_violated_low_name",
    "Libasm.Maker.C15_violated_intel_sign",
    "Libasm.Maker.C15_violated_no_arguments"
   ],
   "note": "For all trees in the default (C) notation and in the notations of 23 assemblers (Intel, Zilog, Motorola, MOS, Signetics, Texas Instruments, RCA, Fairchild, National INS80xx, Panasonic) with number, character, location and symbol operands and calls of functions with one or more arguments, all spellings, blanks, symbol tables and following texts. Missing: the notations of the NS32000, PDP-8 and PDP-11, results outside (-2^63, 2^63). The code violates the property for ! of a multiple of 2^32, for << beyond 32 bits, for names such as LOW_X, for a sign after a tighter operator with Intel and for a call without arguments after another operand (witnesses); the specification leaves these open."
  },
  {
   "property": "C16",
   "status": "partial",
   "theorems": [
    "Libasm.Eval.C16_stacks_partial",
    "Libasm.Eval.C16_violated_radix",
    "Libasm.Eval.C16_violated_comma"
   ],
   "note": "Proved for every operator style but PDP-11; for PDP-11 the property is false (two witnesses)."
  },
  {
   "property": "C17",
   "status": "partial",
   "theorems": [
    "Libasm.Eval.C17_terminates",
    "Libasm.Eval.C17_unclosed",
    "Libasm.Eval.C17_too_deep",
    "Libasm.Eval.C17_operands_partial",
    "Libasm.Eval.C17_violated_close",
    "Libasm.Eval.C17_violated_empty",
    "Libasm.Eval.C17_violated_shift",
    "Libasm.Eval.C17_violated_argument"
   ],
   "note": "Termination, unclosed parentheses and nesting depth are proved; missing operands are reported for all styles but Intel, Zilog and PDP-11 and without functions. The code accepts 5), (), 1 SHL and f(1, 2+), so the rest of the property is false."
  },
  {
   "property": "C18",
   "status": "proved",
   "theorems": [
    "Libasm.Eval.C18_undefined",
    "Libasm.Eval.C18_reported"
   ],
   "note": "For every operator style, symbol table and text: an evaluation without error is unchanged by giving values to missing symbols."
  },
  {
   "property": "C19",
   "status": "partial",
   "theorems": [
    "Libasm.Insn.C19_safe",
    "Libasm.Insn.C19_append",
    "Libasm.Insn.C19_append_result",
    "Libasm.Insn.C19_at_partial",
    "Libasm.Insn.C19_violated_wrap"
   ],
   "note": "Appending emitters: full property. Emitting at an explicit position is exact only if the position does not wrap past 255 (C19_violated_wrap is the witness)."
  },
  {
   "property": "C20",
   "status": "proved",
   "theorems": [
    "Libasm.Insn.C20_roundtrip",
    "Libasm.Insn.C20_end"
   ],
   "note": "Every value, width, byte order and position."
  },
  {
   "property": "C21",
   "status": "partial",
   "theorems": [
    "Libasm.Config.C21_accept",
    "Libasm.Config.C21_signExtend",
    "Libasm.Config.C21_rel8",
    "Libasm.Config.C21_rel16",
    "Libasm.Config.C21_relN",
    "Libasm.Config.C21_rel8_back",
    "Libasm.Config.C21_bases",
    "Libasm.Config.C21_tms9900",
    "Libasm.Config.C21_pdp11",
    "Libasm.Config.C21_violated_end",
    "Libasm.Config.C21_violated_wrap32"
   ],
   "note": "Full for every base up to 2^w (the address after the last one). An instruction that itself straddles the end of the address space (base 2^w+1) is accepted with a wrong target: C21_violated_end."
  },
  {
   "property": "C22",
   "status": "proved",
   "theorems": [
    "Libasm.Config.C22_checkAddr",
    "Libasm.Config.C22_segment"
   ],
   "note": "Every width up to 32, every address; segments up to 63 bits."
  },
  {
   "property": "C23",
   "status": "partial",
   "theorems": [
    "Libasm.StrBuffer.C23_bounded",
    "Libasm.StrBuffer.C23_formatters",
    "Libasm.StrBuffer.C23_violated_least",
    "Libasm.StrBuffer.C23_violated_empty"
   ],
   "note": "All operations except the floating point ones (float32/64/80), which are not modelled. dec() of the least number of a 32 bit or wider type is undefined (C23_violated_least)."
  },
  {
   "property": "C24",
   "status": "proved",
   "theorems": [
    "Libasm.Table.Props.C24_binary",
    "Libasm.Table.Props.C24_register",
    "Libasm.Table.Props.C24_indexed",
    "Libasm.Table.Props.C24_searchName",
    "Libasm.Table.Props.C24_searchOpCode"
   ],
   "note": "binary search, indexed search over pages and the linear op code search return what a linear scan would"
  },
  {
   "property": "C25",
   "status": "proved",
   "theorems": [
    "Libasm.Tables.Props.C25_indexes",
    "Libasm.Tables.Props.C25_lookup",
    "Libasm.Tables.Props.C25_names",
    "Libasm.Tables.Props.C25_name_lookup"
   ],
   "note": "tables generated from the sources of all 26 families by tools/gen_tables.py; operands are kept as the macro texts"
  },
  {
   "property": "C26",
   "status": "proved",
   "theorems": [
    "Libasm.Cpu.I8080.C26"
   ],
   "note": "All processors of the family (i8080, i8085, V30 emulation mode), both syntaxes, all listing options. Memory must be non-empty: C26_violated_empty shows what happens otherwise."
  },
  {
   "property": "C27",
   "status": "partial",
   "theorems": [
    "Libasm.Cpu.Cdp1802.C27_partial",
    "Libasm.Cpu.Cdp1802.C27_violated_wrap",
    "Libasm.Cpu.Cdp1802.C27_violated_octal",
    "Libasm.Cpu.Cdp1802.C27_violated_smart"
   ],
   "note": "All three processors, with and without register names, all options but octal numbers in the CPU's own style (violated), all addresses except a short branch in the last two bytes of memory (violated), smart-branch off (with it long branches become short by design)."
  },
  {
   "property": "C28",
   "status": "partial",
   "theorems": [
    "Libasm.Cpu.Ins8060.C28_partial",
    "Libasm.Cpu.Ins8060.C28_violated_octal"
   ],
   "note": "Every byte sequence, address, and option setting except list-radix 8 with the CPU's own number style, for which the property fails (C28_violated_octal: O'022 is not read back). Relative output needs one of the assembler's location symbols."
  },
  {
   "property": "C29",
   "status": "partial",
   "theorems": [
    "Libasm.Cpu.I8080.C29_i8080_partial",
    "Libasm.Cpu.Ins8060.C29_ins8060_partial",
    "Libasm.Cpu.Cdp1802.C29_cdp1802_partial",
    "Libasm.Cpu.I8080.C29_violated_mov",
    "Libasm.Cpu.Ins8060.C29_violated_load",
    "Libasm.Cpu.Ins8060.C29_violated_store",
    "Libasm.Cpu.Cdp1802.C29_violated_nbr",
    "Libasm.Cpu.Cdp1802.C29_violated_nlbr",
    "Libasm.Cpu.Cdp1802.C29_violated_ldn",
    "Libasm.Cpu.Cdp1802.C29_violated_port",
    "Libasm.Cpu.Mc6800.C29_mc6800_partial",
    "Libasm.Cpu.Mc6800.C29_violated_wrap",
    "Libasm.Cpu.I8051.C29_i8051_partial",
    "Libasm.Cpu.I8051.C29_violated_wrap",
    "Libasm.Cpu.I8048.C29_i8048",
    "Libasm.Cpu.Mos6502.C29_mos6502_partial",
    "Libasm.Cpu.Mos6502.C29_violated_far",
    "Libasm.Cpu.Mos6502.C29_violated_wdm",
    "Libasm.Cpu.Z80.C29_z80_partial",
    "Libasm.Cpu.Z80.C29_violated_add",
    "Libasm.Cpu.Z80.C29_violated_wrap",
    "Libasm.Cpu.F3850.C29_f3850",
    "Libasm.Cpu.Tms7000.C29_tms7000_partial",
    "Libasm.Cpu.Tms7000.C29_violated_wrap",
    "Libasm.Cpu.Mc6805.C29_mc6805_partial",
    "Libasm.Cpu.Mc6805.C29_violated_wrap",
    "Libasm.Cpu.Ins8070.C29_ins8070_partial",
    "Libasm.Cpu.Ins8070.C29_violated_end",
    "Libasm.Cpu.Tms32010.C29_tms32010_partial",
    "Libasm.Cpu.Tms9900.C29_tms9900_partial",
    "Libasm.Cpu.Tms9900.C29_violated_tms9900",
    "Libasm.Cpu.Scn2650.C29_scn2650",
    "Libasm.Cpu.Scn2650.index_dropped",
    "Libasm.Cpu.Scn2650.target_narrowed",
    "Libasm.Cpu.I8096.C29_i8096_partial",
    "Libasm.Cpu.I8096.C29_violated_i8096_store",
    "Libasm.Cpu.I8096.C29_violated_i8096_aligned",
    "Libasm.Cpu.I8096.C29_violated_i8096_end",
    "Libasm.Cpu.I8096.operands_lost",
    "Libasm.Cpu.Mn1610.C29_mn1610_partial",
    "Libasm.Cpu.Mn1610.C29_violated_mn1610",
    "Libasm.Cpu.Mn1610.C79_unchecked",
    "Libasm.Cpu.Pdp8.C29_pdp8_partial",
    "Libasm.Cpu.Pdp8.C29_violated_pdp8",
    "Libasm.Cpu.Tlcs90.C29_tlcs90_partial",
    "Libasm.Cpu.Tlcs90.C29_violated_tlcs90",
    "Libasm.Cpu.Tlcs90.push_sp"
   ],
   "note": "Proved for every line of the modelled families with the exceptions in the hypotheses; each exception is a real defect or an overlap of codes with a witness. MC6800 family and i8051 (smart-branch off): except for instructions that run past the end of the memory. i8048 family: without exception. MOS6502 family (smart-branch off): except for WDM, long branches that wrap in the bank and the end of the memory. Z80: except for ADD of one index register to the other and the end of the memory. F3850: without exception. TMS7000: for lines that do not run past the end of the memory; a branch there to the begin is accepted and no address for the disassembler (`Tms7000.C29_violated_wrap`). mc6805 family: for lines that do not run past the end of the memory; a branch there to the begin is accepted and no address for the disassembler (`Mc6805.C29_violated_wrap`). INS8070: except a branch to just behind the end of the memory, which is accepted and no address for the disassembler (`Ins8070.C29_violated_end`). TMS32010: for every line; that the operands are those of the line is missing, and not so in the cases of `Tms32010.C75_unchecked`. TMS9900: for every line, except at the last address, where the code violates it (`Tms9900.C29_violated_tms9900`); that the operands are those of the line is missing, and not so in the cases of `Tms9900.C76_unchecked`. SCN2650: for every line; that the operands are those of the line is missing, and not so in the cases of `Scn2650.index_dropped` and `Scn2650.target_narrowed`. i8096: for every line whose instruction ends within the address space, is no store to an immediate operand and has no word at an odd displacement from the register 0 (the code violates it there); that the operands are those of the line is missing, and not so in the cases of `I8096.operands_lost`. MN1610: for every line as to the error and the bytes; as to the name if the code is less than 0xFF80 (the code violates it for some of the others); that the operands are those of the line is missing, and not so in the cases of `Mn1610.C79_unchecked`. PDP-8: for every line, without exception, as to the error and the bytes; as to the name for memory references (the others are printed in an order of their own: `C29_violated_pdp8`). TLCS-90 (smart-branch off): for every line whose instruction ends within the address space and is not made of a condition C after an open parenthesis (the code violates it there); that the operands are those of the line is missing, and not so in the cases of `Tlcs90.push_sp`."
  },
  {
   "property": "C30",
   "status": "proved",
   "theorems": [
    "Libasm.Store.Props.C30_lookup",
    "Libasm.Store.Props.C30_kinds",
    "Libasm.Store.Props.C30_define"
   ],
   "note": "every history of definitions, function definitions and clears; integer values (floating point values are not modelled)"
  },
  {
   "property": "C31",
   "status": "partial",
   "theorems": [
    "Libasm.Driver.Props.C31_fixed_point_partial",
    "Libasm.Driver.Props.C31_violated_undefined",
    "Libasm.Driver.Props.C31_violated_report",
    "Libasm.Driver.Props.C31_violated_terminates"
   ],
   "note": "For every assembler, source and command line: after two or more passes without error, one more pass reproduces image, listing and symbols, if the command line set-up is the same and no symbol changes between undefined and defined in the last two passes. Violated otherwise: undefined compares equal to 0; the loop may end after pass 1 with undefined symbols unreported; and it need not end at all."
  },
  {
   "property": "C32",
   "status": "partial",
   "theorems": [
    "Libasm.Reader.Props.C32_lines_partial",
    "Libasm.Reader.Props.C32_safe",
    "Libasm.Reader.Props.C32_violated_last",
    "Libasm.Reader.Props.C32_violated_nul"
   ],
   "note": "Every line that ends with a newline and holds no NUL is read back exactly, whatever its length; a last line without newline is lost and a NUL joins two lines (witnesses)."
  },
  {
   "property": "C33",
   "status": "partial",
   "theorems": [
    "Libasm.HexFile.Output.C33_partial",
    "Libasm.HexFile.Output.C33_violated"
   ],
   "note": "The file is always written in the default format of the CPU, so -S and -H are honoured exactly when they ask for it. C33_violated proves that the other format is never written: the assignment through the base class reference copies only the address width and the record length."
  },
  {
   "property": "C34",
   "status": "partial",
   "theorems": [
    "Libasm.Listing.C34_asm_partial",
    "Libasm.Listing.C34_dis_partial",
    "Libasm.Listing.C34_value",
    "Libasm.Listing.C34_pass_partial",
    "Libasm.Listing.C34_violated"
   ],
   "note": "Every byte is listed once and in order, in every radix, byte order and code width. Missing and violated: an odd number of bytes of a CPU with word addresses is listed with a byte that was not generated."
  },
  {
   "property": "C35",
   "status": "partial",
   "theorems": [
    "Libasm.Dis.C35_covers_partial",
    "Libasm.Dis.C35_violated_address",
    "Libasm.Dis.C35_violated_image",
    "Libasm.Dis.C35_violated_wait",
    "Libasm.Dis.C35_violated_wait_image"
   ],
   "note": "Proved for every image within the addresses of the CPU and every decoder that only reads, at least one and at most 64 bytes. Violated: an image beyond the addresses of the CPU is disassembled for ever; the i8086 loses the byte after WAIT and then does not end."
  },
  {
   "property": "C36",
   "status": "proved",
   "theorems": [
    "Libasm.Insn.C36_first_error",
    "Libasm.Insn.C36_no_error",
    "Libasm.Insn.C36_error_stays",
    "Libasm.Insn.C36_violated_undefined"
   ],
   "note": "Every report sequence. C36_violated_undefined shows that UNDEFINED_SYMBOL hides later errors."
  },
  {
   "property": "C37",
   "status": "partial",
   "theorems": [
    "Libasm.Store.Props.C37_definition",
    "Libasm.Store.Props.C37_call_partial",
    "Libasm.Store.Props.C37_value_partial",
    "Libasm.Store.Props.C37_terminates_partial",
    "Libasm.Store.Props.C37_violated_recursion",
    "Libasm.Store.Props.C37_violated_scope",
    "Libasm.Store.Props.C37_violated_duplicate"
   ],
   "note": "The statement is false: recursion never ends, names in the body are looked up where the function is called, equal parameter names read outside the stack. Proved: substitution of arguments for at most 8 distinct parameters, termination for functions without recursion (not PDP-11)."
  },
  {
   "property": "C38",
   "status": "proved",
   "theorems": [
    "Libasm.Float.C38",
    "Libasm.Float.C38_all"
   ],
   "note": "Every six-word state whose high guard is not all ones, every precision from 1 to 79; other precisions leave the number alone."
  },
  {
   "property": "C39",
   "status": "partial",
   "theorems": [
    "Libasm.Float.C39_unsigned",
    "Libasm.Float.C39_partial",
    "Libasm.Float.C39_violated_min"
   ],
   "note": "Proved for every unsigned 64-bit integer and every signed one but the least. Missing: the least signed integer, whose negation overflows (undefined behaviour)."
  },
  {
   "property": "C40",
   "status": "proved",
   "theorems": [
    "Libasm.Float.C40",
    "Libasm.Float.C40_exact"
   ],
   "note": "Both formats, every bit pattern, including infinities; a NaN comes back as a NaN of the same sign."
  },
  {
   "property": "C41",
   "status": "partial",
   "theorems": [
    "Libasm.Table.Props.C41_accepts",
    "Libasm.Table.Props.C41_only_partial",
    "Libasm.Table.Props.C41_violated_zeros"
   ],
   "note": "false as stated: 257 zeros are read as 0, because leading zeros are counted in an int8_t; proved for texts with at most 127 leading zeros"
  },
  {
   "property": "C42",
   "status": "partial",
   "theorems": [
    "Libasm.Config.C42_align_partial",
    "Libasm.Config.C42_range",
    "Libasm.Config.C42_fixed_partial",
    "Libasm.Config.C42_odd",
    "Libasm.Config.C42_violated_zero",
    "Libasm.Config.C42_violated_wrap"
   ],
   "note": "Missing: locations within 255 of 2^32, where the code wraps to 0 (C42_violated_wrap). ALIGN 0 is a remainder by zero (C42_violated_zero)."
  },
  {
   "property": "C43",
   "status": "partial",
   "theorems": [
    "Libasm.Driver.Props.C43_in_place",
    "Libasm.Driver.Props.C43_ends",
    "Libasm.Driver.Props.C43_bound",
    "Libasm.Driver.Props.C43_closed",
    "Libasm.Driver.Props.C43_violated_directory"
   ],
   "note": "Include files are assembled in place to four levels, at most four files are open, all are closed at the end, also for a file that includes itself. Violated for a relative include from a source whose name has a directory: use of a freed line buffer."
  },
  {
   "property": "C44",
   "status": "proved",
   "theorems": [
    "Libasm.Table.Props.C44_compare",
    "Libasm.Table.Props.C44_total_order",
    "Libasm.Table.Props.C44_upper",
    "Libasm.Table.Props.C44_iequals",
    "Libasm.Table.Props.C44_expectText",
    "Libasm.Table.Props.C44_expectWord"
   ],
   "note": "comparison functions of the host configuration modelled on their ASCII behaviour"
  },
  {
   "property": "C45",
   "status": "partial",
   "theorems": [
    "Libasm.Data.Props.C45_bytes_partial",
    "Libasm.Data.Maker.C45_makers_partial",
    "Libasm.Data.Props.C45_strings",
    "Libasm.Data.Props.C45_violated_range",
    "Libasm.Data.Props.C45_violated_letter"
   ],
   "note": "Default notation and the notations of 23 assemblers, with function calls in the operands: every list of expressions and strings gives exactly its bytes, or NO_MEMORY when they exceed 64. No range check is made (witness), a lone letter is a string (witness). Floating point data and the notations of the NS32000, the PDP-8 and the PDP-11 are not covered."
  },
  {
   "property": "C46",
   "status": "partial",
   "theorems": [
    "Libasm.Config.C46_origin_partial",
    "Libasm.Config.C46_violated_origin",
    "Libasm.Config.C46_space_partial",
    "Libasm.Config.C46_space_aligned_partial",
    "Libasm.Config.C46_violated_space"
   ],
   "note": "The code drops the bits above 32 of an origin and accepts negative space counts; proved for operands in 0..2^32-1 and 0..65535."
  },
  {
   "property": "C47",
   "status": "partial",
   "theorems": [
    "Libasm.Driver.Props.C47_end_line_partial",
    "Libasm.Driver.Props.C47_violated",
    "Libasm.Driver.Props.C47_violated_lines"
   ],
   "note": "Violated for every assembler: no line ever ends the assembly. Proved: an END line adds nothing."
  },
  {
   "property": "C48",
   "status": "partial",
   "theorems": [
    "Libasm.Driver.Props.C48_label_partial",
    "Libasm.Driver.Props.C48_equ_partial",
    "Libasm.Driver.Props.C48_function_partial",
    "Libasm.Driver.Props.C48_violated_instruction",
    "Libasm.Driver.Props.C48_violated_function"
   ],
   "note": "Proved for lines with only a label, EQU and FUNCTION. Violated on lines with an instruction and for labels that are function names."
  },
  {
   "property": "C49",
   "status": "proved",
   "theorems": [
    "Libasm.Driver.Props.C49_listing_is_image"
   ],
   "note": "For every assembler, source and pass."
  },
  {
   "property": "C50",
   "status": "partial",
   "theorems": [
    "Libasm.Driver.Props.C50_reported_partial",
    "Libasm.Driver.Props.C50_single_pass_partial",
    "Libasm.Driver.Props.C50_violated"
   ],
   "note": "Errors of instructions are listed in every pass but the first; ending after the first pass without error means no bytes and no symbols. Violated for such sources."
  },
  {
   "property": "C51",
   "status": "partial",
   "theorems": [
    "Libasm.Driver.Props.C51_label_partial",
    "Libasm.Driver.Props.C51_violated_aligned"
   ],
   "note": "The label is the address at which the line is reached; violated when the data of the line are aligned."
  },
  {
   "property": "C52",
   "status": "proved",
   "theorems": [
    "Libasm.Data.C52_data_ends"
   ],
   "note": "For the default notation; readers of floating point constants and functions are parameters assumed to end."
  },
  {
   "property": "C53",
   "status": "proved",
   "theorems": [
    "Libasm.Driver.Props.C53_sequential"
   ],
   "note": "For every assembler whose instruction buffers hold as many bytes as they say."
  },
  {
   "property": "C54",
   "status": "partial",
   "theorems": [
    "Libasm.Listing.C54_address_partial",
    "Libasm.Listing.C54_dis_address_partial",
    "Libasm.Listing.C54_violated"
   ],
   "note": "Proved for CPUs with byte addresses. Violated for word addresses: continuation lines add a number of bytes to a word address."
  },
  {
   "property": "C55",
   "status": "proved",
   "theorems": [
    "Libasm.Float.C55",
    "Libasm.Float.C55_special"
   ],
   "note": ""
  },
  {
   "property": "C56",
   "status": "proved",
   "theorems": [
    "Libasm.Float.C56",
    "Libasm.Float.C56_special"
   ],
   "note": ""
  },
  {
   "property": "C57",
   "status": "partial",
   "theorems": [
    "Libasm.Float.C57_partial",
    "Libasm.Float.C57_near",
    "Libasm.Float.C57_exact",
    "Libasm.Float.C57_special",
    "Libasm.Float.C57_violated"
   ],
   "note": "False of the code: the 64 lowest bits of the product are dropped before rounding, so a product just above the middle of two numbers is taken for the middle (C57_violated). Proved: correctly rounded whenever the product of the significands ends in 32 zero bits (every product of binary32 numbers); every product is the correct rounding of a number within 2^-94 below the exact one; exact whenever the exact product is a number of the format; NaN, infinities and zeros."
  },
  {
   "property": "C58",
   "status": "proved",
   "theorems": [
    "Libasm.Float.C58"
   ],
   "note": ""
  },
  {
   "property": "C59",
   "status": "partial",
   "theorems": [
    "Libasm.Float.C59_partial",
    "Libasm.Float.C59_exact",
    "Libasm.Float.C59_special",
    "Libasm.Float.C59_violated",
    "Libasm.Float.C59_violated_zero"
   ],
   "note": "False of the code: the remainder is dropped, so a quotient just above the middle of two numbers is taken for the middle (C59_violated), and zero divided by a subnormal number is an infinity (C59_violated_zero). Proved: every quotient is the correct rounding of a number within 2^-79 below the exact one; exact whenever the exact quotient is a number of the format; the multiword division is the integer quotient; NaN and infinities."
  },
  {
   "property": "C60",
   "status": "proved",
   "theorems": [
    "Libasm.Cpu.Mc6800.C60"
   ],
   "note": "All five processors, all output options, any symbol table; with relative targets the location symbol of the disassembler must be the * of the assembler."
  },
  {
   "property": "C61",
   "status": "proved",
   "theorems": [
    "Libasm.Cpu.I8051.C61"
   ],
   "note": "All output options, any symbol table; with relative targets the location symbol of the disassembler must be the $ of the assembler. An empty memory is excluded."
  },
  {
   "property": "C62",
   "status": "proved",
   "theorems": [
    "Libasm.Cpu.I8051.C62"
   ],
   "note": "Any operand text, symbol table and address below 64 KiB."
  },
  {
   "property": "C63",
   "status": "proved",
   "theorems": [
    "Libasm.Cpu.I8048.C63",
    "Libasm.Cpu.I8048.C63_violated_end"
   ],
   "note": "All processors of the family, all output options, any symbol table; an instruction that runs past the end of the memory and an empty memory are excluded."
  },
  {
   "property": "C64",
   "status": "proved",
   "theorems": [
    "Libasm.Cpu.C64"
   ],
   "note": "i8080, INS8060, CDP1802, MC6800, i8051, i8048, MOS6502 families and Z80, F3850, TMS7000, mc6805 family, INS8070, TMS32010, TMS9900, SCN2650, i8096, MN1610, PDP-8, TLCS-90, all options and outcomes."
  },
  {
   "property": "C65",
   "status": "partial",
   "theorems": [
    "Libasm.Cpu.C65_i8080",
    "Libasm.Cpu.C65_ins8060_partial",
    "Libasm.Cpu.C65_cdp1802_partial",
    "Libasm.Cpu.C65_mc6800",
    "Libasm.Cpu.C65_i8051",
    "Libasm.Cpu.C65_i8048",
    "Libasm.Cpu.C65_mos6502_partial",
    "Libasm.Cpu.C65_z80_partial",
    "Libasm.Cpu.C65_f3850",
    "Libasm.Cpu.C65_tms7000_partial",
    "Libasm.Cpu.C65_mc6805_partial",
    "Libasm.Cpu.C65_ins8070_partial",
    "Libasm.Cpu.C65_tms32010_partial",
    "Libasm.Cpu.C65_tms9900_partial",
    "Libasm.Cpu.C65_scn2650_partial",
    "Libasm.Cpu.C65_i8096_partial",
    "Libasm.Cpu.C65_mn1610_partial",
    "Libasm.Cpu.C65_pdp8_partial",
    "Libasm.Cpu.C65_tlcs90_partial",
    "Libasm.Cpu.C65_violated_ins8060",
    "Libasm.Cpu.C65_violated_cdp1802",
    "Libasm.Cpu.C65_violated_z80",
    "Libasm.Cpu.C65_violated_tms7000",
    "Libasm.Cpu.C65_violated_ins8070",
    "Libasm.Cpu.C65_violated_i8096",
    "Libasm.Cpu.C65_violated_i8096_absolute",
    "Libasm.Cpu.C65_violated_mn1610",
    "Libasm.Cpu.C65_violated_mos6502",
    "Libasm.Cpu.C65_violated_tlcs90",
    "Libasm.Cpu.C65_violated_tms9900",
    "Libasm.Cpu.C65_violated_scn2650",
    "Libasm.Cpu.C65_violated_octal"
   ],
   "note": "Complete for i8080 and F3850, and for MC6800, i8051 (smart-branch off) and i8048 except for instructions past the end of the memory. INS8060: except for octal listings and ST @d(PC). CDP1802: except for octal listings, the last two addresses, and NBR, NLBR and INP of the port 0. MOS6502 family: except for what C29 and C66 except. Z80: except for ADD of an index register to the other one. TMS7000: except for the cases of C72 and C29. mc6805 family: except for the cases of C73 and C29. INS8070: except for octal listings and a branch to just behind the end of the memory. TMS32010: except for octal listings (C75). TMS9900: at even addresses, except for octal listings (C76). SCN2650: except for octal listings and for targets relative to the location in the last two bytes of a page (C77). i8096: with the exceptions of C29 and C78. MN1610: with those exceptions of C79 that lines are assembled to: CBI of more than a byte, addresses relative to the counter out of the memory, octal listings. PDP-8: for every line, with octal listings (the default). TLCS-90: with the exceptions of C29. The theorems C65_violated_* are lines that show that the exceptions are needed."
  },
  {
   "property": "C66",
   "status": "partial",
   "theorems": [
    "Libasm.Cpu.Mos6502.C66_partial",
    "Libasm.Cpu.Mos6502.C66_violated_longa",
    "Libasm.Cpu.Mos6502.C66_violated_empty"
   ],
   "note": "Complete for non-empty memory when longa and longi are off unless the processor is the 65816; the code violates the rest."
  },
  {
   "property": "C67",
   "status": "proved",
   "theorems": [
    "Libasm.Float.C67_set",
    "Libasm.Float.C67_special",
    "Libasm.Float.C67_get",
    "Libasm.Float.C67_roundtrip"
   ],
   "note": "All of the statement, for the three DEC formats."
  },
  {
   "property": "C68",
   "status": "partial",
   "theorems": [
    "Libasm.Float.C68_set_partial",
    "Libasm.Float.C68_special",
    "Libasm.Float.C68_get",
    "Libasm.Float.C68_roundtrip",
    "Libasm.Float.C68_violated_carry",
    "Libasm.Float.C68_violated_one",
    "Libasm.Float.C68_violated_overflow"
   ],
   "note": "False of the code for exactly the numbers that are rounded up to a power of 16: they become zero without an error (C68_violated_carry for all of them). Everything else is proved."
  },
  {
   "property": "C69",
   "status": "partial",
   "theorems": [
    "Libasm.Options.C69_set",
    "Libasm.Options.C69_frame",
    "Libasm.Options.C69_error",
    "Libasm.Options.C69_unknown",
    "Libasm.Options.C69_last",
    "Libasm.Options.C69_one_style",
    "Libasm.Options.C69_accept_partial",
    "Libasm.Options.C69_asm_set",
    "Libasm.Options.C69_asm_frame",
    "Libasm.Options.C69_directive",
    "Libasm.Options.C69_violated_quoted_letter",
    "Libasm.Options.C69_violated_diagnosis",
    "Libasm.Options.C69_violated_rest",
    "Libasm.Options.C69_violated_wrap",
    "Libasm.Options.C69_violated_expression",
    "Libasm.Options.C69_asm_radix"
   ],
   "note": "Proved: values are set, nothing else changes, errors change nothing, unknown names are errors, for one call and for every series. Violated by the code: letters in quotes are refused, text after a value and the upper bits of numbers are ignored, bad values are reported as unknown options, truth values in the assembler are not expressions. C69_accept_partial says what an accepted text begins with."
  },
  {
   "property": "C70",
   "status": "proved",
   "theorems": [
    "Libasm.Cpu.Z80.C70"
   ],
   "note": "All byte sequences, addresses and options; with relative addresses the location symbol of the two programs has to agree."
  },
  {
   "property": "C71",
   "status": "proved",
   "theorems": [
    "Libasm.Cpu.F3850.C71"
   ],
   "note": "All byte sequences, addresses of 16 bits and options; with relative addresses the location symbol is one of the three the assembler knows."
  },
  {
   "property": "C72",
   "status": "partial",
   "theorems": [
    "Libasm.Cpu.Tms7000.C72_partial",
    "Libasm.Cpu.Tms7000.C72_violated_register",
    "Libasm.Cpu.Tms7000.C72_violated_register_cases",
    "Libasm.Cpu.Tms7000.C72_violated_octal"
   ],
   "note": "All byte sequences, addresses of 16 bits and options, except where the code violates it: an operand byte 0 or 1 that is printed as A or B where there is another instruction for that register (`shortened`; `C72_violated_register` shows of every one of these that it does not come back), and numbers in octal, which the assembler reads as decimal."
  },
  {
   "property": "C73",
   "status": "partial",
   "theorems": [
    "Libasm.Cpu.Mc6805.C73_partial",
    "Libasm.Cpu.Mc6805.C73_violated_width"
   ],
   "note": "All processors, byte sequences, addresses and options, with an address width of the default 13 or of 8 to 16 bits. With fewer than 8 bits the code violates it (`C73_violated_width`)."
  },
  {
   "property": "C74",
   "status": "partial",
   "theorems": [
    "Libasm.Cpu.Ins8070.C74_partial",
    "Libasm.Cpu.Ins8070.C74_violated_branch",
    "Libasm.Cpu.Ins8070.C74_violated_octal"
   ],
   "note": "All byte sequences, addresses of 16 bits and options, except where the code violates it: a branch to the address 0 (`C74_violated_branch`, all branches at all addresses from which 0 is in reach forwards), and numbers in octal, which the assembler does not read."
  },
  {
   "property": "C75",
   "status": "partial",
   "theorems": [
    "Libasm.Cpu.Tms32010.C75_partial",
    "Libasm.Cpu.Tms32010.C75_violated_short",
    "Libasm.Cpu.Tms32010.C75_violated_octal",
    "Libasm.Cpu.Tms32010.C75_unchecked"
   ],
   "note": "All sequences of two bytes or more, addresses of 12 bits and options, except where the code violates it: a single byte is taken for an instruction without error (`C75_violated_short`, for all bytes below 128), and octal numbers without a leading 0 are read as decimal ones (`C75_violated_octal`)."
  },
  {
   "property": "C76",
   "status": "partial",
   "theorems": [
    "Libasm.Cpu.Tms9900.C76_partial",
    "Libasm.Cpu.Tms9900.C76_violated_short",
    "Libasm.Cpu.Tms9900.C76_violated_octal",
    "Libasm.Cpu.Tms9900.C76_violated_odd",
    "Libasm.Cpu.Tms9900.C76_unchecked"
   ],
   "note": "All sequences of two bytes or more, even addresses and options, for all five processors, except where the code violates it: a single byte is taken for an instruction without error (`C76_violated_short`), octal numbers without a leading 0 are read as decimal ones (`C76_violated_octal`), and jumps at odd addresses are printed without error but refused (`C76_violated_odd`). Relative targets are shown to be read with `$` only."
  },
  {
   "property": "C77",
   "status": "partial",
   "theorems": [
    "Libasm.Cpu.Scn2650.C77_partial",
    "Libasm.Cpu.Scn2650.C77_violated_page",
    "Libasm.Cpu.Scn2650.C77_violated_relative",
    "Libasm.Cpu.Scn2650.C77_violated_octal"
   ],
   "note": "All byte sequences, addresses and options, except where the code violates it: relative branches round the ends of a page are printed but refused (`C77_violated_page`), targets printed relative to the location are wrong in the last two bytes of a page (`C77_violated_relative`), and octal numbers without a leading 0 are read as decimal ones (`C77_violated_octal`). Relative targets are shown to be read with `$` only."
  },
  {
   "property": "C78",
   "status": "partial",
   "theorems": [
    "Libasm.Cpu.I8096.C78_partial",
    "Libasm.Cpu.I8096.C78_violated_short",
    "Libasm.Cpu.I8096.C78_violated_register",
    "Libasm.Cpu.I8096.C78_violated_absolute"
   ],
   "note": "All byte sequences, addresses and options, except where the code violates it: an indexed operand that is not in its shortest form (`C78_violated_short`), one that is indexed by the register 0 (`C78_violated_register`), and with `use-absolute` one that is indirect by the register 0 (`C78_violated_absolute`). Relative targets are shown to be read with `$` only."
  },
  {
   "property": "C79",
   "status": "partial",
   "theorems": [
    "Libasm.Cpu.Mn1610.C79_partial",
    "Libasm.Cpu.Mn1610.C79_violated_short",
    "Libasm.Cpu.Mn1610.C79_violated_octal",
    "Libasm.Cpu.Mn1610.C79_violated_transfer",
    "Libasm.Cpu.Mn1610.C79_violated_byte",
    "Libasm.Cpu.Mn1610.C79_violated_wrap",
    "Libasm.Cpu.Mn1610.C79_violated_page"
   ],
   "note": "All CPUs of the family, sequences of at least two bytes, addresses and options with `*` as the location symbol, except where the code violates it: a single byte (`C79_violated_short`), octal listings without C-style numbers (`C79_violated_octal`), codes next to LR and STR (`C79_violated_transfer`), a first byte of the word of CBI that is not 0 (`C79_violated_byte`), relative addresses out of the address space (`C79_violated_wrap`), and with `relative` those in the first page (`C79_violated_page`)."
  },
  {
   "property": "C80",
   "status": "partial",
   "theorems": [
    "Libasm.Cpu.Pdp8.C80_partial",
    "Libasm.Cpu.Pdp8.C80_violated_nop",
    "Libasm.Cpu.Pdp8.C80_violated_cla",
    "Libasm.Cpu.Pdp8.C80_violated_page_zero",
    "Libasm.Cpu.Pdp8.C80_violated_upper_bits",
    "Libasm.Cpu.Pdp8.C80_violated_short",
    "Libasm.Cpu.Pdp8.C80_violated_hex"
   ],
   "note": "Both CPUs, all words, addresses and options with octal numbers, read with the radix 8 or in a notation that tells the radix, except where the code violates it: NOP and CLA of the second and third group (`C80_violated_nop`, `C80_violated_cla`), the current page when it is page zero (`C80_violated_page_zero`), the four bits above the word (`C80_violated_upper_bits`), a single byte (`C80_violated_short`), and listings in hexadecimal (`C80_violated_hex`)."
  },
  {
   "property": "C81",
   "status": "partial",
   "theorems": [
    "Libasm.Cpu.Tlcs90.C81_partial",
    "Libasm.Cpu.Tlcs90.C81_violated_register",
    "Libasm.Cpu.Tlcs90.C81_violated_direct",
    "Libasm.Cpu.Tlcs90.C81_violated_extended",
    "Libasm.Cpu.Tlcs90.C81_violated_prefix",
    "Libasm.Cpu.Tlcs90.C81_violated_smart"
   ],
   "note": "All bytes, addresses and options, without smart-branch, except the instructions of `Spec.Twin`, which have a second encoding that the assembler takes for the same text (`C81_violated_register`, `C81_violated_direct`, `C81_violated_extended`, `C81_violated_prefix`; with smart-branch also `C81_violated_smart`)."
  }
 ]
}
