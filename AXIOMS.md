# Axioms of the theorems in MANIFEST.json

Generated by tools/axioms.py.

## C01 (proved)

* `Libasm.BinMemory.C01_last_write_wins`: propext, Classical.choice, Quot.sound

## C02 (proved)

* `Libasm.BinMemory.C02_equality_is_content`: propext, Classical.choice, Quot.sound

## C03 (proved)

* `Libasm.BinMemory.C03_iteration_exact`: propext, Classical.choice, Quot.sound
* `Libasm.BinMemory.C03_start_end`: propext, Classical.choice, Quot.sound

## C04 (partial)

* `Libasm.BinMemory.C04_setRange_partial`: propext, Classical.choice, Quot.sound
* `Libasm.BinMemory.C04_violated`: propext

## C05 (proved)

* `Libasm.HexFile.C05_srecord_round_trip`: propext, Classical.choice, Quot.sound

## C06 (partial)

* `Libasm.HexFile.C06_intel_hex_round_trip_partial`: propext, Classical.choice, Quot.sound
* `Libasm.HexFile.C06_violated_straddle`: propext, Classical.choice, Quot.sound
* `Libasm.HexFile.C06_violated_checksum`: propext, Classical.choice, Quot.sound

## C07 (partial)

* `Libasm.HexFile.C07_srecord_corruption_partial`: propext, Quot.sound
* `Libasm.HexFile.C07_violated_length`: propext, Classical.choice, Quot.sound

## C08 (partial)

* `Libasm.HexFile.C08_ihex_corruption_partial`: propext, Classical.choice, Quot.sound
* `Libasm.HexFile.C08_violated_length`: propext, Classical.choice, Quot.sound
* `Libasm.HexFile.C08_violated_type`: propext, Classical.choice, Quot.sound

## C09 (proved)

* `Libasm.HexFile.C09_records_exact`: propext, Classical.choice, Quot.sound
* `Libasm.HexFile.C09_record_size_zero`: propext, Classical.choice, Quot.sound

## C10 (proved)

* `Libasm.Number.C10_value`: propext, Classical.choice, Quot.sound
* `Libasm.Number.C10_no_digit`: propext, Quot.sound
* `Libasm.Number.C10_cases`: propext

## C11 (proved)

* `Libasm.Number.C11_hex`: propext, Classical.choice, Quot.sound
* `Libasm.Number.C11_bin`: propext, Classical.choice, Quot.sound
* `Libasm.Number.C11_oct`: propext, Classical.choice, Quot.sound
* `Libasm.Number.C11_dec`: propext, Classical.choice, Quot.sound
* `Libasm.Number.C11_cstyle`: propext, Classical.choice, Quot.sound
* `Libasm.Number.C11_plain_oct`: propext, Classical.choice, Quot.sound
* `Libasm.Number.C11_sign`: propext, Classical.choice, Quot.sound
* `Libasm.Number.C11_violated_texas_octal`: propext, Classical.choice, Quot.sound

## C12 (partial)

* `Libasm.Value.C12_add_partial`: propext, Classical.choice, Quot.sound
* `Libasm.Value.C12_sub_partial`: propext, Classical.choice, Quot.sound
* `Libasm.Value.C12_mul_partial`: propext, Classical.choice, Quot.sound
* `Libasm.Value.C12_div_partial`: propext, Classical.choice, Quot.sound
* `Libasm.Value.C12_mod_partial`: propext, Classical.choice, Quot.sound
* `Libasm.Value.C12_negate_partial`: propext, Classical.choice, Quot.sound
* `Libasm.Value.C12_div_by_zero`: propext, Classical.choice, Quot.sound
* `Libasm.Value.C12_bitwise`: propext, Classical.choice, Quot.sound
* `Libasm.Value.C12_complement`: propext, Classical.choice, Quot.sound
* `Libasm.Value.C12_shift_right_partial`: propext, Classical.choice, Quot.sound
* `Libasm.Value.C12_shift_left_partial`: propext, Quot.sound
* `Libasm.Value.C12_power_partial`: propext, Classical.choice, Quot.sound
* `Libasm.Value.C12_violated_add_min`: propext
* `Libasm.Value.C12_violated_sub`: propext
* `Libasm.Value.C12_violated_shift_count`: propext

## C13 (partial)

* `Libasm.Value.C13_less_than`: propext, Quot.sound
* `Libasm.Value.C13_equal_partial`: propext, Classical.choice, Quot.sound
* `Libasm.Value.C13_less_equal_partial`: propext, Classical.choice, Quot.sound
* `Libasm.Value.C13_violated_equal`: propext

## C14 (proved)

* `Libasm.Value.C14_overflow`: propext, Classical.choice, Quot.sound
* `Libasm.Value.C14_fixed_widths`: propext, Classical.choice, Quot.sound
* `Libasm.Value.C14_overflowInteger_partial`: propext, Classical.choice, Quot.sound
* `Libasm.Value.C14_violated_overflowInteger`: propext

## C15 (partial)

* `Libasm.Eval.C15_value_partial`: propext, Classical.choice, Quot.sound
* `Libasm.Eval.C15_divide_by_zero`: propext, Classical.choice, Quot.sound
* `Libasm.Eval.C15_undefined_symbol`: propext, Classical.choice, Quot.sound
* `Libasm.Eval.C15_violated_not`: propext, Quot.sound
* `Libasm.Eval.C15_violated_shl`: propext, Quot.sound
* `Libasm.Maker.C15_makers_partial`: propext, Classical.choice, Quot.sound
* `Libasm.Maker.C15_makers_divide_by_zero`: propext, Classical.choice, Quot.sound
* `Libasm.Maker.C15_makers_undefined_symbol`: propext, Classical.choice, Quot.sound
* `Libasm.Maker.C15_violated_low_name`: propext, Quot.sound
* `Libasm.Maker.C15_violated_intel_sign`: propext, Quot.sound
* `Libasm.Maker.C15_violated_no_arguments`: propext, Quot.sound

## C16 (partial)

* `Libasm.Eval.C16_stacks_partial`: propext, Classical.choice, Quot.sound
* `Libasm.Eval.C16_violated_radix`: propext, Quot.sound
* `Libasm.Eval.C16_violated_comma`: propext, Quot.sound

## C17 (partial)

* `Libasm.Eval.C17_terminates`: propext, Classical.choice, Quot.sound
* `Libasm.Eval.C17_unclosed`: propext, Quot.sound
* `Libasm.Eval.C17_too_deep`: propext, Classical.choice, Quot.sound
* `Libasm.Eval.C17_operands_partial`: propext, Classical.choice, Quot.sound
* `Libasm.Eval.C17_violated_close`: propext, Quot.sound
* `Libasm.Eval.C17_violated_empty`: propext, Quot.sound
* `Libasm.Eval.C17_violated_shift`: propext, Quot.sound
* `Libasm.Eval.C17_violated_argument`: propext, Quot.sound

## C18 (proved)

* `Libasm.Eval.C18_undefined`: propext, Quot.sound
* `Libasm.Eval.C18_reported`: propext, Quot.sound

## C19 (partial)

* `Libasm.Insn.C19_safe`: propext, Quot.sound
* `Libasm.Insn.C19_append`: propext, Classical.choice, Quot.sound
* `Libasm.Insn.C19_append_result`: propext, Classical.choice, Quot.sound
* `Libasm.Insn.C19_at_partial`: propext, Classical.choice, Quot.sound
* `Libasm.Insn.C19_violated_wrap`: propext

## C20 (proved)

* `Libasm.Insn.C20_roundtrip`: propext, Classical.choice, Quot.sound
* `Libasm.Insn.C20_end`: propext

## C21 (partial)

* `Libasm.Config.C21_accept`: propext, Classical.choice, Quot.sound
* `Libasm.Config.C21_signExtend`: propext, Classical.choice, Quot.sound
* `Libasm.Config.C21_rel8`: propext, Classical.choice, Quot.sound
* `Libasm.Config.C21_rel16`: propext, Classical.choice, Quot.sound
* `Libasm.Config.C21_relN`: propext, Classical.choice, Quot.sound
* `Libasm.Config.C21_rel8_back`: propext, Classical.choice, Quot.sound
* `Libasm.Config.C21_bases`: propext, Quot.sound
* `Libasm.Config.C21_tms9900`: propext, Classical.choice, Quot.sound
* `Libasm.Config.C21_pdp11`: propext, Classical.choice, Quot.sound
* `Libasm.Config.C21_violated_end`: propext
* `Libasm.Config.C21_violated_wrap32`: propext

## C22 (proved)

* `Libasm.Config.C22_checkAddr`: propext, Classical.choice, Quot.sound
* `Libasm.Config.C22_segment`: propext, Classical.choice, Quot.sound

## C23 (partial)

* `Libasm.StrBuffer.C23_bounded`: propext, Classical.choice, Quot.sound
* `Libasm.StrBuffer.C23_formatters`: Quot.sound
* `Libasm.StrBuffer.C23_violated_least`: propext, Quot.sound
* `Libasm.StrBuffer.C23_violated_empty`: none

## C24 (proved)

* `Libasm.Table.Props.C24_binary`: propext, Classical.choice, Quot.sound
* `Libasm.Table.Props.C24_register`: propext, Classical.choice, Quot.sound
* `Libasm.Table.Props.C24_indexed`: propext, Classical.choice, Quot.sound
* `Libasm.Table.Props.C24_searchName`: propext, Classical.choice, Quot.sound
* `Libasm.Table.Props.C24_searchOpCode`: propext, Quot.sound

## C25 (proved)

* `Libasm.Tables.Props.C25_indexes`: propext, Classical.choice, Quot.sound
* `Libasm.Tables.Props.C25_lookup`: propext, Classical.choice, Quot.sound
* `Libasm.Tables.Props.C25_names`: propext, Classical.choice, Quot.sound
* `Libasm.Tables.Props.C25_name_lookup`: propext, Classical.choice, Quot.sound

## C26 (proved)

* `Libasm.Cpu.I8080.C26`: propext, Classical.choice, Quot.sound

## C27 (partial)

* `Libasm.Cpu.Cdp1802.C27_partial`: propext, Classical.choice, Quot.sound
* `Libasm.Cpu.Cdp1802.C27_violated_wrap`: propext, Classical.choice, Quot.sound
* `Libasm.Cpu.Cdp1802.C27_violated_octal`: propext, Classical.choice, Quot.sound
* `Libasm.Cpu.Cdp1802.C27_violated_smart`: propext, Classical.choice, Quot.sound

## C28 (partial)

* `Libasm.Cpu.Ins8060.C28_partial`: propext, Classical.choice, Quot.sound
* `Libasm.Cpu.Ins8060.C28_violated_octal`: propext, Classical.choice, Quot.sound

## C29 (partial)

* `Libasm.Cpu.I8080.C29_i8080_partial`: propext, Classical.choice, Quot.sound
* `Libasm.Cpu.Ins8060.C29_ins8060_partial`: propext, Classical.choice, Quot.sound
* `Libasm.Cpu.Cdp1802.C29_cdp1802_partial`: propext, Classical.choice, Quot.sound
* `Libasm.Cpu.I8080.C29_violated_mov`: propext, Classical.choice, Quot.sound
* `Libasm.Cpu.Ins8060.C29_violated_load`: propext, Classical.choice, Quot.sound
* `Libasm.Cpu.Ins8060.C29_violated_store`: propext, Classical.choice, Quot.sound
* `Libasm.Cpu.Cdp1802.C29_violated_nbr`: propext, Classical.choice, Quot.sound
* `Libasm.Cpu.Cdp1802.C29_violated_nlbr`: propext, Classical.choice, Quot.sound
* `Libasm.Cpu.Cdp1802.C29_violated_ldn`: propext, Classical.choice, Quot.sound
* `Libasm.Cpu.Cdp1802.C29_violated_port`: propext, Classical.choice, Quot.sound
* `Libasm.Cpu.Mc6800.C29_mc6800_partial`: propext, Classical.choice, Quot.sound
* `Libasm.Cpu.Mc6800.C29_violated_wrap`: propext, Classical.choice, Quot.sound
* `Libasm.Cpu.I8051.C29_i8051_partial`: propext, Classical.choice, Quot.sound
* `Libasm.Cpu.I8051.C29_violated_wrap`: propext, Classical.choice, Quot.sound
* `Libasm.Cpu.I8048.C29_i8048`: propext, Classical.choice, Quot.sound
* `Libasm.Cpu.Mos6502.C29_mos6502_partial`: propext, Classical.choice, Quot.sound
* `Libasm.Cpu.Mos6502.C29_violated_far`: propext, Classical.choice, Quot.sound
* `Libasm.Cpu.Mos6502.C29_violated_wdm`: propext, Classical.choice, Quot.sound
* `Libasm.Cpu.Z80.C29_z80_partial`: propext, Classical.choice, Quot.sound
* `Libasm.Cpu.Z80.C29_violated_add`: propext, Classical.choice, Quot.sound
* `Libasm.Cpu.Z80.C29_violated_wrap`: propext, Classical.choice, Quot.sound
* `Libasm.Cpu.F3850.C29_f3850`: propext, Classical.choice, Quot.sound
* `Libasm.Cpu.Tms7000.C29_tms7000_partial`: propext, Classical.choice, Quot.sound
* `Libasm.Cpu.Tms7000.C29_violated_wrap`: propext, Classical.choice, Quot.sound
* `Libasm.Cpu.Mc6805.C29_mc6805_partial`: propext, Classical.choice, Quot.sound
* `Libasm.Cpu.Mc6805.C29_violated_wrap`: propext, Classical.choice, Quot.sound
* `Libasm.Cpu.Ins8070.C29_ins8070_partial`: propext, Classical.choice, Quot.sound
* `Libasm.Cpu.Ins8070.C29_violated_end`: propext, Classical.choice, Quot.sound
* `Libasm.Cpu.Tms32010.C29_tms32010_partial`: propext, Classical.choice, Quot.sound
* `Libasm.Cpu.Tms9900.C29_tms9900_partial`: propext, Classical.choice, Quot.sound
* `Libasm.Cpu.Tms9900.C29_violated_tms9900`: propext, Classical.choice, Quot.sound
* `Libasm.Cpu.Scn2650.C29_scn2650`: propext, Classical.choice, Quot.sound
* `Libasm.Cpu.Scn2650.index_dropped`: propext, Classical.choice, Quot.sound
* `Libasm.Cpu.Scn2650.target_narrowed`: propext, Classical.choice, Quot.sound
* `Libasm.Cpu.I8096.C29_i8096_partial`: propext, Classical.choice, Quot.sound
* `Libasm.Cpu.I8096.C29_violated_i8096_store`: propext, Classical.choice, Quot.sound
* `Libasm.Cpu.I8096.C29_violated_i8096_aligned`: propext, Classical.choice, Quot.sound
* `Libasm.Cpu.I8096.C29_violated_i8096_end`: propext, Classical.choice, Quot.sound
* `Libasm.Cpu.I8096.operands_lost`: propext, Classical.choice, Quot.sound
* `Libasm.Cpu.Mn1610.C29_mn1610_partial`: propext, Classical.choice, Quot.sound
* `Libasm.Cpu.Mn1610.C29_violated_mn1610`: propext, Classical.choice, Quot.sound
* `Libasm.Cpu.Mn1610.C79_unchecked`: propext, Classical.choice, Quot.sound
* `Libasm.Cpu.Pdp8.C29_pdp8_partial`: propext, Classical.choice, Quot.sound
* `Libasm.Cpu.Pdp8.C29_violated_pdp8`: propext, Classical.choice, Quot.sound
* `Libasm.Cpu.Tlcs90.C29_tlcs90_partial`: propext, Classical.choice, Quot.sound
* `Libasm.Cpu.Tlcs90.C29_violated_tlcs90`: propext, Classical.choice, Quot.sound
* `Libasm.Cpu.Tlcs90.push_sp`: propext, Classical.choice, Quot.sound

## C30 (proved)

* `Libasm.Store.Props.C30_lookup`: propext, Classical.choice, Quot.sound
* `Libasm.Store.Props.C30_kinds`: propext, Classical.choice, Quot.sound
* `Libasm.Store.Props.C30_define`: propext, Classical.choice, Quot.sound

## C31 (partial)

* `Libasm.Driver.Props.C31_fixed_point_partial`: propext, Quot.sound
* `Libasm.Driver.Props.C31_violated_undefined`: propext, Classical.choice, Quot.sound
* `Libasm.Driver.Props.C31_violated_report`: propext, Classical.choice, Quot.sound
* `Libasm.Driver.Props.C31_violated_terminates`: propext, Classical.choice, Quot.sound

## C32 (partial)

* `Libasm.Reader.Props.C32_lines_partial`: propext, Classical.choice, Quot.sound
* `Libasm.Reader.Props.C32_safe`: propext, Classical.choice, Quot.sound
* `Libasm.Reader.Props.C32_violated_last`: none
* `Libasm.Reader.Props.C32_violated_nul`: none

## C33 (partial)

* `Libasm.HexFile.Output.C33_partial`: propext, Classical.choice, Quot.sound
* `Libasm.HexFile.Output.C33_violated`: propext, Classical.choice, Quot.sound

## C34 (partial)

* `Libasm.Listing.C34_asm_partial`: propext, Classical.choice, Quot.sound
* `Libasm.Listing.C34_dis_partial`: propext, Classical.choice, Quot.sound
* `Libasm.Listing.C34_value`: propext, Classical.choice, Quot.sound
* `Libasm.Listing.C34_pass_partial`: propext, Classical.choice, Quot.sound
* `Libasm.Listing.C34_violated`: propext, Classical.choice, Quot.sound

## C35 (partial)

* `Libasm.Dis.C35_covers_partial`: propext, Classical.choice, Quot.sound
* `Libasm.Dis.C35_violated_address`: propext, Classical.choice, Quot.sound
* `Libasm.Dis.C35_violated_image`: propext, Classical.choice, Quot.sound
* `Libasm.Dis.C35_violated_wait`: propext, Quot.sound
* `Libasm.Dis.C35_violated_wait_image`: propext, Quot.sound

## C36 (proved)

* `Libasm.Insn.C36_first_error`: propext, Quot.sound
* `Libasm.Insn.C36_no_error`: propext, Quot.sound
* `Libasm.Insn.C36_error_stays`: propext
* `Libasm.Insn.C36_violated_undefined`: none

## C37 (partial)

* `Libasm.Store.Props.C37_definition`: propext, Quot.sound
* `Libasm.Store.Props.C37_call_partial`: propext, Quot.sound
* `Libasm.Store.Props.C37_value_partial`: propext, Classical.choice, Quot.sound
* `Libasm.Store.Props.C37_terminates_partial`: propext, Classical.choice, Quot.sound
* `Libasm.Store.Props.C37_violated_recursion`: propext, Quot.sound
* `Libasm.Store.Props.C37_violated_scope`: propext, Quot.sound
* `Libasm.Store.Props.C37_violated_duplicate`: propext, Quot.sound

## C38 (proved)

* `Libasm.Float.C38`: propext, Classical.choice, Quot.sound
* `Libasm.Float.C38_all`: propext, Quot.sound

## C39 (partial)

* `Libasm.Float.C39_unsigned`: propext, Classical.choice, Quot.sound
* `Libasm.Float.C39_partial`: propext, Classical.choice, Quot.sound
* `Libasm.Float.C39_violated_min`: propext

## C40 (proved)

* `Libasm.Float.C40`: propext, Classical.choice, Quot.sound
* `Libasm.Float.C40_exact`: propext, Classical.choice, Quot.sound

## C41 (partial)

* `Libasm.Table.Props.C41_accepts`: propext, Quot.sound
* `Libasm.Table.Props.C41_only_partial`: propext, Classical.choice, Quot.sound
* `Libasm.Table.Props.C41_violated_zeros`: none

## C42 (partial)

* `Libasm.Config.C42_align_partial`: propext, Classical.choice, Quot.sound
* `Libasm.Config.C42_range`: propext, Classical.choice, Quot.sound
* `Libasm.Config.C42_fixed_partial`: propext, Classical.choice, Quot.sound
* `Libasm.Config.C42_odd`: propext, Classical.choice, Quot.sound
* `Libasm.Config.C42_violated_zero`: propext
* `Libasm.Config.C42_violated_wrap`: propext

## C43 (partial)

* `Libasm.Driver.Props.C43_in_place`: propext, Classical.choice, Quot.sound
* `Libasm.Driver.Props.C43_ends`: propext, Classical.choice, Quot.sound
* `Libasm.Driver.Props.C43_bound`: propext, Quot.sound
* `Libasm.Driver.Props.C43_closed`: propext, Quot.sound
* `Libasm.Driver.Props.C43_violated_directory`: propext, Classical.choice, Quot.sound

## C44 (proved)

* `Libasm.Table.Props.C44_compare`: propext, Classical.choice, Quot.sound
* `Libasm.Table.Props.C44_total_order`: propext, Classical.choice, Quot.sound
* `Libasm.Table.Props.C44_upper`: propext, Classical.choice, Quot.sound
* `Libasm.Table.Props.C44_iequals`: propext, Classical.choice, Quot.sound
* `Libasm.Table.Props.C44_expectText`: propext, Classical.choice, Quot.sound
* `Libasm.Table.Props.C44_expectWord`: propext, Classical.choice, Quot.sound

## C45 (partial)

* `Libasm.Data.Props.C45_bytes_partial`: propext, Classical.choice, Quot.sound
* `Libasm.Data.Maker.C45_makers_partial`: propext, Classical.choice, Quot.sound
* `Libasm.Data.Props.C45_strings`: propext, Classical.choice, Quot.sound
* `Libasm.Data.Props.C45_violated_range`: propext, Quot.sound
* `Libasm.Data.Props.C45_violated_letter`: propext, Quot.sound

## C46 (partial)

* `Libasm.Config.C46_origin_partial`: propext, Classical.choice, Quot.sound
* `Libasm.Config.C46_violated_origin`: propext
* `Libasm.Config.C46_space_partial`: propext, Classical.choice, Quot.sound
* `Libasm.Config.C46_space_aligned_partial`: propext, Classical.choice, Quot.sound
* `Libasm.Config.C46_violated_space`: propext

## C47 (partial)

* `Libasm.Driver.Props.C47_end_line_partial`: propext, Quot.sound
* `Libasm.Driver.Props.C47_violated`: propext, Quot.sound
* `Libasm.Driver.Props.C47_violated_lines`: propext, Classical.choice, Quot.sound

## C48 (partial)

* `Libasm.Driver.Props.C48_label_partial`: propext, Quot.sound
* `Libasm.Driver.Props.C48_equ_partial`: propext, Quot.sound
* `Libasm.Driver.Props.C48_function_partial`: propext, Quot.sound
* `Libasm.Driver.Props.C48_violated_instruction`: propext, Classical.choice, Quot.sound
* `Libasm.Driver.Props.C48_violated_function`: propext, Classical.choice, Quot.sound

## C49 (proved)

* `Libasm.Driver.Props.C49_listing_is_image`: propext, Classical.choice, Quot.sound

## C50 (partial)

* `Libasm.Driver.Props.C50_reported_partial`: propext, Quot.sound
* `Libasm.Driver.Props.C50_single_pass_partial`: propext, Classical.choice, Quot.sound
* `Libasm.Driver.Props.C50_violated`: propext, Classical.choice, Quot.sound

## C51 (partial)

* `Libasm.Driver.Props.C51_label_partial`: propext, Quot.sound
* `Libasm.Driver.Props.C51_violated_aligned`: propext, Classical.choice, Quot.sound

## C52 (proved)

* `Libasm.Data.C52_data_ends`: propext, Classical.choice, Quot.sound

## C53 (proved)

* `Libasm.Driver.Props.C53_sequential`: propext

## C54 (partial)

* `Libasm.Listing.C54_address_partial`: propext, Classical.choice, Quot.sound
* `Libasm.Listing.C54_dis_address_partial`: propext, Classical.choice, Quot.sound
* `Libasm.Listing.C54_violated`: propext, Classical.choice, Quot.sound

## C55 (proved)

* `Libasm.Float.C55`: propext, Classical.choice, Quot.sound
* `Libasm.Float.C55_special`: propext, Classical.choice, Quot.sound

## C56 (proved)

* `Libasm.Float.C56`: propext, Classical.choice, Quot.sound
* `Libasm.Float.C56_special`: propext, Classical.choice, Quot.sound

## C57 (partial)

* `Libasm.Float.C57_partial`: propext, Classical.choice, Quot.sound
* `Libasm.Float.C57_near`: propext, Classical.choice, Quot.sound
* `Libasm.Float.C57_exact`: propext, Classical.choice, Quot.sound
* `Libasm.Float.C57_special`: propext, Classical.choice, Quot.sound
* `Libasm.Float.C57_violated`: propext, Classical.choice, Quot.sound

## C58 (proved)

* `Libasm.Float.C58`: propext, Classical.choice, Quot.sound

## C59 (partial)

* `Libasm.Float.C59_partial`: propext, Classical.choice, Quot.sound
* `Libasm.Float.C59_exact`: propext, Classical.choice, Quot.sound
* `Libasm.Float.C59_special`: propext, Classical.choice, Quot.sound
* `Libasm.Float.C59_violated`: propext, Classical.choice, Quot.sound
* `Libasm.Float.C59_violated_zero`: propext

## C60 (proved)

* `Libasm.Cpu.Mc6800.C60`: propext, Classical.choice, Quot.sound

## C61 (proved)

* `Libasm.Cpu.I8051.C61`: propext, Classical.choice, Quot.sound

## C62 (proved)

* `Libasm.Cpu.I8051.C62`: propext, Classical.choice, Quot.sound

## C63 (proved)

* `Libasm.Cpu.I8048.C63`: propext, Classical.choice, Quot.sound
* `Libasm.Cpu.I8048.C63_violated_end`: propext, Classical.choice, Quot.sound

## C64 (proved)

* `Libasm.Cpu.C64`: propext

## C65 (partial)

* `Libasm.Cpu.C65_i8080`: propext, Classical.choice, Quot.sound
* `Libasm.Cpu.C65_ins8060_partial`: propext, Classical.choice, Quot.sound
* `Libasm.Cpu.C65_cdp1802_partial`: propext, Classical.choice, Quot.sound
* `Libasm.Cpu.C65_mc6800`: propext, Classical.choice, Quot.sound
* `Libasm.Cpu.C65_i8051`: propext, Classical.choice, Quot.sound
* `Libasm.Cpu.C65_i8048`: propext, Classical.choice, Quot.sound
* `Libasm.Cpu.C65_mos6502_partial`: propext, Classical.choice, Quot.sound
* `Libasm.Cpu.C65_z80_partial`: propext, Classical.choice, Quot.sound
* `Libasm.Cpu.C65_f3850`: propext, Classical.choice, Quot.sound
* `Libasm.Cpu.C65_tms7000_partial`: propext, Classical.choice, Quot.sound
* `Libasm.Cpu.C65_mc6805_partial`: propext, Classical.choice, Quot.sound
* `Libasm.Cpu.C65_ins8070_partial`: propext, Classical.choice, Quot.sound
* `Libasm.Cpu.C65_tms32010_partial`: propext, Classical.choice, Quot.sound
* `Libasm.Cpu.C65_tms9900_partial`: propext, Classical.choice, Quot.sound
* `Libasm.Cpu.C65_scn2650_partial`: propext, Classical.choice, Quot.sound
* `Libasm.Cpu.C65_i8096_partial`: propext, Classical.choice, Quot.sound
* `Libasm.Cpu.C65_mn1610_partial`: propext, Classical.choice, Quot.sound
* `Libasm.Cpu.C65_pdp8_partial`: propext, Classical.choice, Quot.sound
* `Libasm.Cpu.C65_tlcs90_partial`: propext, Classical.choice, Quot.sound
* `Libasm.Cpu.C65_violated_ins8060`: propext, Classical.choice, Quot.sound
* `Libasm.Cpu.C65_violated_cdp1802`: propext, Classical.choice, Quot.sound
* `Libasm.Cpu.C65_violated_z80`: propext, Classical.choice, Quot.sound
* `Libasm.Cpu.C65_violated_tms7000`: propext, Classical.choice, Quot.sound
* `Libasm.Cpu.C65_violated_ins8070`: propext, Classical.choice, Quot.sound
* `Libasm.Cpu.C65_violated_i8096`: propext, Classical.choice, Quot.sound
* `Libasm.Cpu.C65_violated_i8096_absolute`: propext, Classical.choice, Quot.sound
* `Libasm.Cpu.C65_violated_mn1610`: propext, Classical.choice, Quot.sound
* `Libasm.Cpu.C65_violated_mos6502`: propext, Classical.choice, Quot.sound
* `Libasm.Cpu.C65_violated_tlcs90`: propext, Classical.choice, Quot.sound
* `Libasm.Cpu.C65_violated_tms9900`: propext, Classical.choice, Quot.sound
* `Libasm.Cpu.C65_violated_scn2650`: propext, Classical.choice, Quot.sound
* `Libasm.Cpu.C65_violated_octal`: propext, Classical.choice, Quot.sound

## C66 (partial)

* `Libasm.Cpu.Mos6502.C66_partial`: propext, Classical.choice, Quot.sound
* `Libasm.Cpu.Mos6502.C66_violated_longa`: propext, Classical.choice, Quot.sound
* `Libasm.Cpu.Mos6502.C66_violated_empty`: propext, Classical.choice, Quot.sound

## C67 (proved)

* `Libasm.Float.C67_set`: propext, Classical.choice, Quot.sound
* `Libasm.Float.C67_special`: propext, Classical.choice, Quot.sound
* `Libasm.Float.C67_get`: propext, Classical.choice, Quot.sound
* `Libasm.Float.C67_roundtrip`: propext, Classical.choice, Quot.sound

## C68 (partial)

* `Libasm.Float.C68_set_partial`: propext, Classical.choice, Quot.sound
* `Libasm.Float.C68_special`: propext, Classical.choice, Quot.sound
* `Libasm.Float.C68_get`: propext, Classical.choice, Quot.sound
* `Libasm.Float.C68_roundtrip`: propext, Classical.choice, Quot.sound
* `Libasm.Float.C68_violated_carry`: propext, Classical.choice, Quot.sound
* `Libasm.Float.C68_violated_one`: propext
* `Libasm.Float.C68_violated_overflow`: propext

## C69 (partial)

* `Libasm.Options.C69_set`: propext, Classical.choice, Quot.sound
* `Libasm.Options.C69_frame`: propext, Classical.choice, Quot.sound
* `Libasm.Options.C69_error`: propext, Classical.choice, Quot.sound
* `Libasm.Options.C69_unknown`: propext, Classical.choice, Quot.sound
* `Libasm.Options.C69_last`: propext, Classical.choice, Quot.sound
* `Libasm.Options.C69_one_style`: propext, Classical.choice, Quot.sound
* `Libasm.Options.C69_accept_partial`: propext, Classical.choice, Quot.sound
* `Libasm.Options.C69_asm_set`: propext, Classical.choice, Quot.sound
* `Libasm.Options.C69_asm_frame`: propext, Classical.choice, Quot.sound
* `Libasm.Options.C69_directive`: propext, Classical.choice, Quot.sound
* `Libasm.Options.C69_violated_quoted_letter`: propext, Classical.choice, Quot.sound
* `Libasm.Options.C69_violated_diagnosis`: propext, Classical.choice, Quot.sound
* `Libasm.Options.C69_violated_rest`: propext, Classical.choice, Quot.sound
* `Libasm.Options.C69_violated_wrap`: propext, Classical.choice, Quot.sound
* `Libasm.Options.C69_violated_expression`: propext, Classical.choice, Quot.sound
* `Libasm.Options.C69_asm_radix`: propext, Classical.choice, Quot.sound

## C70 (proved)

* `Libasm.Cpu.Z80.C70`: propext, Classical.choice, Quot.sound

## C71 (proved)

* `Libasm.Cpu.F3850.C71`: propext, Classical.choice, Quot.sound

## C72 (partial)

* `Libasm.Cpu.Tms7000.C72_partial`: propext, Classical.choice, Quot.sound
* `Libasm.Cpu.Tms7000.C72_violated_register`: propext, Quot.sound
* `Libasm.Cpu.Tms7000.C72_violated_register_cases`: propext, Classical.choice, Quot.sound
* `Libasm.Cpu.Tms7000.C72_violated_octal`: propext, Classical.choice, Quot.sound

## C73 (partial)

* `Libasm.Cpu.Mc6805.C73_partial`: propext, Classical.choice, Quot.sound
* `Libasm.Cpu.Mc6805.C73_violated_width`: propext, Classical.choice, Quot.sound

## C74 (partial)

* `Libasm.Cpu.Ins8070.C74_partial`: propext, Classical.choice, Quot.sound
* `Libasm.Cpu.Ins8070.C74_violated_branch`: propext, Classical.choice, Quot.sound
* `Libasm.Cpu.Ins8070.C74_violated_octal`: propext, Classical.choice, Quot.sound

## C75 (partial)

* `Libasm.Cpu.Tms32010.C75_partial`: propext, Classical.choice, Quot.sound
* `Libasm.Cpu.Tms32010.C75_violated_short`: propext, Classical.choice, Quot.sound
* `Libasm.Cpu.Tms32010.C75_violated_octal`: propext, Classical.choice, Quot.sound
* `Libasm.Cpu.Tms32010.C75_unchecked`: propext, Classical.choice, Quot.sound

## C76 (partial)

* `Libasm.Cpu.Tms9900.C76_partial`: propext, Classical.choice, Quot.sound
* `Libasm.Cpu.Tms9900.C76_violated_short`: propext
* `Libasm.Cpu.Tms9900.C76_violated_octal`: propext, Classical.choice, Quot.sound
* `Libasm.Cpu.Tms9900.C76_violated_odd`: propext, Classical.choice, Quot.sound
* `Libasm.Cpu.Tms9900.C76_unchecked`: propext, Classical.choice, Quot.sound

## C77 (partial)

* `Libasm.Cpu.Scn2650.C77_partial`: propext, Classical.choice, Quot.sound
* `Libasm.Cpu.Scn2650.C77_violated_page`: propext, Classical.choice, Quot.sound
* `Libasm.Cpu.Scn2650.C77_violated_relative`: propext, Classical.choice, Quot.sound
* `Libasm.Cpu.Scn2650.C77_violated_octal`: propext, Classical.choice, Quot.sound

## C78 (partial)

* `Libasm.Cpu.I8096.C78_partial`: propext, Classical.choice, Quot.sound
* `Libasm.Cpu.I8096.C78_violated_short`: propext, Classical.choice, Quot.sound
* `Libasm.Cpu.I8096.C78_violated_register`: propext, Classical.choice, Quot.sound
* `Libasm.Cpu.I8096.C78_violated_absolute`: propext, Classical.choice, Quot.sound

## C79 (partial)

* `Libasm.Cpu.Mn1610.C79_partial`: propext, Classical.choice, Quot.sound
* `Libasm.Cpu.Mn1610.C79_violated_short`: propext
* `Libasm.Cpu.Mn1610.C79_violated_octal`: propext, Classical.choice, Quot.sound
* `Libasm.Cpu.Mn1610.C79_violated_transfer`: propext, Classical.choice, Quot.sound
* `Libasm.Cpu.Mn1610.C79_violated_byte`: propext, Classical.choice, Quot.sound
* `Libasm.Cpu.Mn1610.C79_violated_wrap`: propext, Classical.choice, Quot.sound
* `Libasm.Cpu.Mn1610.C79_violated_page`: propext, Classical.choice, Quot.sound

## C80 (partial)

* `Libasm.Cpu.Pdp8.C80_partial`: propext, Classical.choice, Quot.sound
* `Libasm.Cpu.Pdp8.C80_violated_nop`: propext, Classical.choice, Quot.sound
* `Libasm.Cpu.Pdp8.C80_violated_cla`: propext, Classical.choice, Quot.sound
* `Libasm.Cpu.Pdp8.C80_violated_page_zero`: propext, Classical.choice, Quot.sound
* `Libasm.Cpu.Pdp8.C80_violated_upper_bits`: propext, Classical.choice, Quot.sound
* `Libasm.Cpu.Pdp8.C80_violated_short`: propext, Classical.choice, Quot.sound
* `Libasm.Cpu.Pdp8.C80_violated_hex`: propext, Classical.choice, Quot.sound

## C81 (partial)

* `Libasm.Cpu.Tlcs90.C81_partial`: propext, Classical.choice, Quot.sound
* `Libasm.Cpu.Tlcs90.C81_violated_register`: propext, Classical.choice, Quot.sound
* `Libasm.Cpu.Tlcs90.C81_violated_direct`: propext, Classical.choice, Quot.sound
* `Libasm.Cpu.Tlcs90.C81_violated_extended`: propext, Classical.choice, Quot.sound
* `Libasm.Cpu.Tlcs90.C81_violated_prefix`: propext, Classical.choice, Quot.sound
* `Libasm.Cpu.Tlcs90.C81_violated_smart`: propext, Classical.choice, Quot.sound

