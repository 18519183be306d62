# Formal model of tgtakaoka/libasm in Lean 4

## Approach

`/verif/lean/Verif/` holds, per area, a `Model` file (definitions that transcribe the C++
function by function, each with the file and lines it models), a `Spec` part (small
definitions that state the property in plain terms, independent of the model), helper
lemma files and a `Props` file that contains the property theorems and their non-vacuity
examples.

Undefined behaviour of the C++ code (out-of-bounds stack access, division by zero, signed
overflow, non-termination) is an explicit outcome in the model wherever the property
depends on it.

## Trusted base

* Lean 4.33.0 kernel. Axioms allowed: `propext`, `Classical.choice`, `Quot.sound`. No own
  axioms, no `sorry`, no `native_decide`, no `bv_decide`. AXIOMS.md lists the axioms of every
  theorem named in MANIFEST.json; tools/axioms.py regenerates it with `#print axioms`.
* tools/extract.py and tools/gen_tables.py, which copy the instruction, directive and register
  tables of /repo into Verif/Tables/Data. They are text processors: what they produce is Lean
  source that can be compared with the C++ tables line by line. Everything proved about tables
  (C24-C28) is about those copies.
* The reading of the C++ source: the model is hand-written from /repo; nothing is extracted
  or executed. Every definition cites the lines it models.
* C++ library behaviour assumed: `std::map` is a finite map iterated in key order;
  `std::vector`/`std::string` are sequences; `ctype.h` classification is the "C" locale on
  ASCII; `fgets`/`realloc` behave as specified; `int` is 32 bit, two's complement.
* `uint8_t/16/32/64` are modelled by `Nat` with explicit `% 2^n`, or by `BitVec n` where
  bit patterns matter; `int64_t` overflow is UB.

## Plan per property

* **C01 Memory image: last write wins** - BinMemory modelled as an association list sorted by key of (base, bytes) blocks (std::map). Refinement theorem to `Addr -> Option Byte`; induction over the write list.
* **C02 Memory image equality is content equality** - Canonicity: the block list is determined by the abstract map (sorted, non-adjacent, non-empty blocks). Corollary of C01/C03 invariants.
* **C03 Block iteration is exact** - Invariant over writes including an explicit next-pointer field per block; walking the chain equals the map order.
* **C04 Range restriction keeps exactly the range** - setRange modelled with trims; witness for the violated boundary (block starting at `end`), `_partial` theorem excluding it.
* **C05 Motorola S-record round trip** - Character-level encoder and decoder models; round trip by induction over records and bytes.
* **C06 Intel HEX round trip** - Same; two negative witnesses (64 KiB straddle, blank-padded checksum) and a `_partial` round trip excluding exactly those.
* **C07 S-record corruption is detected** - Checksum as a sum mod 256 of the parsed bytes; changing one byte changes the sum.
* **C08 Intel HEX corruption is detected** - As C07.
* **C09 Record splitting is exact** - Chunking function on lists; `0` record size shown to make no progress.
* **C10 Numeric literals denote their mathematical value** - strToNumber modelled on 64-bit arithmetic with its overflow test; induction on the digit string against positional value.
* **C11 Formatted numbers read back** - Formatters modelled on char lists, number parsers per style; digit lemma lifted through prefix/suffix handling.
* **C12 Integer expression arithmetic is exact** - Values modelled as tag + BitVec 64 with undefined behaviour (signed overflow) a distinct outcome; exactness by case analysis on ranges.
* **C13 Comparison operators agree with integer order** - As C12; witness for 2^64-1 == -1, `_partial` for equal signs.
* **C14 Range checks mean what they say** - As C12; intervals over Int.
* **C15 Expressions follow the precedence table** - _eval modelled on characters; the theorem is about printed trees: induction over trees with a stack invariant. For the notations of the makers (directory Maker) the precedence tables are data of the specification: each operator table of the code is shown to agree with its notation, and the induction is done once over an abstract lexer. Calls of functions with arguments are part of the trees; what a function computes is a parameter.
* **C16 Expression evaluation never leaves its stacks** - UB (out of bounds stack access) is an explicit outcome of the _eval model; invariant for all parsers except PDP-11, witnesses for PDP-11.
* **C17 Expression evaluation terminates and reports incomplete input** - The model is total with a fuel bounded by the text length; shown never to run out.
* **C18 Undefined symbols never vanish** - Error accumulation through the model of _eval.
* **C19 Instruction buffer is never overrun** - Insn as a byte list with capacity 64; invariant over operation sequences.
* **C20 Emit and read are inverse** - Be/Le emitters and readers as list functions; arithmetic.
* **C21 Branch displacement round trip** - branchDelta/signExtend/overflowDelta/branchTarget over 32-bit arithmetic; round trip.
* **C22 Address checks are exact** - checkAddr as a function of width, segment; equivalence with arithmetic ranges.
* **C23 Bounded output buffer** - StrBuffer as array + cursor; invariant over operations.
* **C24 Table search finds the first matching entry** - Search loops with termination proofs; equivalence with a linear specification on sorted tables.
* **C25 Instruction indexes are sorted** - Tables transcribed; `decide +kernel` over whole tables.
* **C26 i8080 disassembly reassembles** - i8080 assembler/disassembler model at text level; finite table check lifted to all operands by the number round trip lemmas.
* **C27 cdp1802 disassembly reassembles** - As C26.
* **C28 ins8060 disassembly reassembles** - As C26.
* **C29 What is assembled is disassembled as the same instruction** - Inversion of the assembler: which operands it can read, which codes and bytes it can emit for a row of the table. A finite check over rows and code fields (whole table, `decide +kernel`) says that each code is read back as a row of the same name and length. Lines are arbitrary text. Proved with the exceptions that the code has, each with a witness.
* **C30 Symbols are either constants or variables** - Two finite maps; invariant over histories.
* **C31 Multi-pass assembly ends at a fixed point** - The pass is an arbitrary function of the symbol table; loop as partial-correctness statement.
* **C32 Source lines are read whole** - fgets/realloc loop on a byte stream with explicit buffer bounds; dropped last line shown as a witness.
* **C33 Output format option is honoured** - C++ reference assignment semantics modelled (base sub-object copy); negative witness.
* **C34 Listing shows every byte once** - Listing generator loop modelled.
* **C35 Disassembly covers the image** - Driver loop with an abstract instruction length; `_partial` under positive length, witness otherwise.
* **C36 First error wins** - ErrorAt as a small state machine.
* **C37 User functions substitute arguments** - Function eval with fuel; recursion witness and a termination theorem for non-recursive tables.
* **C38 Rounding is to nearest, ties to even** - round_off on the six 16-bit words against an arithmetic round-half-even specification.
* **C39 Integers convert to floating point exactly** - fixed64 normalize on limbs.
* **C40 IEEE encodings round trip** - decompose/compose on bit patterns as natural numbers.
* **C41 Register numbers** - Character-level model.
* **C42 Alignment** - Arithmetic; ALIGN 0 is the division-by-zero outcome.
* **C43 Include nesting is bounded** - Stack of open files.
* **C44 Case-insensitive matching is an equivalence** - Char-list comparison.
* **C45 Data directives emit the values in order** - Directive loop over an operand list. For the notations of the makers the directive is run with the expression parser of each of the 23 assemblers, its quotes, the optional letter before a string, its escapes and its end of line.
* **C46 Origin and space directives** - Arithmetic of `defineOrigin`, `allocateSpaces` over the value model; witnesses for operands that do not fit.
* **C47 END ends the assembly** - Driver model with the directive table; the statement is false of the code, witness for every assembler.
* **C48 Duplicate definitions are reported** - Driver model with a symbol store; witnesses where the error is overwritten.
* **C49 Listing and image agree** - Invariant of the pass: what was listed is what was written.
* **C50 Undefined symbols are reported** - Driver model; the pass loop may end after one pass.
* **C51 A label is the address of its line** - Driver model.
* **C52 Data directives come to an end** - The directive loop with fuel bounded by the text.
* **C53 Lines are placed one after another** - Invariant of the pass on the current location.
* **C54 Address column** - Listing model.
* **C55 Narrowing rounds correctly** - `compose` against a definition of correct rounding on natural numbers: no number of the format is nearer.
* **C56 Addition rounds correctly** - Two's complement words with a sticky shift; the shift commutes with the rounding.
* **C57 Multiplication rounds correctly** - False of the code (the low words of the product are dropped without a sticky bit): witness, and the theorem for the products where nothing is dropped.
* **C58 Comparisons are those of the numbers** - From C56.
* **C59 Division rounds correctly** - False of the code (the remainder is dropped): witness, and the quotient of Algorithm D proved to be the exact floor.
* **C60 mc6800 disassembly reassembles** - As C26, with three operands, generic addressing modes, bit numbers and relative targets.
* **C61 i8051 disassembly reassembles** - As C60. An empty memory is excluded: it is decoded as NOP without error (`no_memory_no_error`).
* **C62 smart-branch reaches the same target in the best form** - Inversion of the assembler on the long form, then both forms computed.
* **C63 i8048 disassembly reassembles** - As C61; the instruction is within the 4 KiB memory, for at its end the page of the next byte is past it (`C63_violated_end`).
* **C64 The bytes of a disassembled instruction are the first of the memory** - Invariant of the reader: what was read and what is left are the memory.
* **C65 The disassembly of what was assembled is another way to write it** - C29 and C26, C27, C28, C60, C61, C63, C66 put together; C64 gives that the bytes are bytes. Partial for most of them. The exceptions are only those lines can be assembled to: where the bytes come back under another name (`LD @5(PC)`, `LDN ()`, `L R0, -1`) C65 holds although C29 does not, and codes that the assembler never makes (`Mn1610.Spec.NoTransfer`, INS8070 branches to the address 0, TLCS-90 second encodings) are shown not to be made (`assembled_transfer`, `Ins8070.line_back`, `not_twin`). The theorems `C65_violated_*` (Exceptions.lean) are lines for the exceptions that are left.
* **C66 mos6502 disassembly reassembles** - As C60, by the eight layouts of operands. Violated after `cpu 65816`, `longa on`, `cpu 6502` (`C66_violated_longa`) and for an empty memory (`C66_violated_empty`), so the theorem has the hypotheses that exclude these and is called partial.
* **C67 DEC floating point numbers are correctly rounded** - `decSet`, `decGet` modelled for any precision; the rounded significand is the nearest number (`near_isNearest`), the pattern has the fields that stand for it, two patterns of the same number are equal.
* **C68 IBM floating point numbers are correctly rounded** - As C67, with numbers of hexadecimal digits (`HexNearest`). Violated for the numbers that are rounded up to a power of 16 (`C68_violated_carry`), so `C68_set_partial` excludes exactly these.
* **C69 Options set what they name** - `Disassembler::setOption` and `Assembler::setOption` over a list of options with their setters (`Verif/Options`). The texts of values are described by their form (`BoolText`, `IntText`, `Quoted`), the settings by `look`; one call (`C69_set`, `C69_frame`, `C69_error`, `C69_unknown`), every series of calls by induction (`C69_last`, `C69_one_style`), and the operands of the directive `option` (`C69_directive`). That other texts are refused, that letters may be quoted and that truth values may be expressions is violated (`C69_violated_*`); `C69_accept_partial` says what an accepted text begins with.
* **C70 Z80 disassembly reassembles** - As C61: every operand the disassembler prints is read back as an operand of the mode the search expects, and every code of the five pages is checked against the tables, in both cases of letters; the operations on bits of indexed bytes are a case of their own.
* **C71 f3850 disassembly reassembles** - As C61; a number is read with one of several modes that the table does not distinguish (`search_cls`), and the shifts by four, which the assembler makes from those by one, are a case of their own.
* **C72 tms7000 disassembly reassembles** - As C61; the modes an operand may be read with depend on its byte (`choices`, `chain_choices`), the table is searched with all of them; traps are a case of their own.
* **C73 mc6805 disassembly reassembles** - As C61; the generic modes are replaced by the one the code selects (`select`, `place`), and the modes an operand may be read with depend on its value (`choices`, `chain_choices`).
* **C74 ins8070 disassembly reassembles** - The operand reads back (`operand_reads`) only at the end of the line, a register also before a comma; what it puts into the instruction is part of the relation `Rel`; a check of the table for all codes (`codes_ok`). C29: what an operand can make of a code (`outcomes`) with the bytes that go with it, for the pairs of modes that find the row.
* **C75 tms32010 disassembly reassembles** - Per shape of operands of the table (13 of them, checked for all rows): the operands read back (`Back`), the row takes them, and they put the bits back that `matchOpCode` masked out. C29: what each operand makes of the code (`insn_good`), and that at most one row has the upper byte, but for LARP and MAR, and for the instructions without operands (`one_row`).
* **C76 tms9900 disassembly reassembles** - Per shape of operands of the table (checked for all rows of all five processors): the operands read back, the row takes them, and they put the bits back that `matchOpCode` masked out. C29: what each operand adds to the code, the second word and the words after it (`operand_step`), that these are read back (`steps_good`), and that rows matching the same code have the same opcode (`same_code`).
* **C77 scn2650 disassembly reassembles** - All 256 codes have one of a few shapes of operands (checked for all of them); each shape is read back and encoded again, with the arithmetic of the page and of seven bits. C29: what is known of an operand that is read (`OpOk`) bounds what it puts into the code (`fitted`); every code made so is read as an entry of the same name and length (`rows_ok`).
* **C78 i8096 disassembly reassembles** - For every code the shapes of the operands are checked (`codes_ok`, `prefixed_ok`); each operand is read back and encoded again (`show_ok`, `read_shown`). C29: what an operand is encoded to is read without error with the code made so (`fitted`), also after the operands that follow have changed the code (`list_fit`); every code made so is read as an entry of the same name and operands (`rows_ok`).
* **C79 MN1610 disassembly reassembles** - For every code of 16 bits the entry found and its operands are such that each operand printed is read as the same bits (`Encode.lean`), the search by name and operands finds an entry with the same code. C29: the bits an operand sets are within its mask and those that the tables of the disassembler test are not among the bits refused (`core_step`, `back_all`), and entries that come before do not match (`keys_apart`).
* **C80 PDP-8 disassembly reassembles** - The printed numbers are read with any radix (`Encode.lean`); the names of micro-operations are read one after another (`operate_names`, `extension_names`), and for every code the names of the rows make the code again (`group_rows`, `transfer_rows`, `memory_rows`). C29 and C65: an invariant of the operate instruction while it is put together, whatever the names are (`good_step`, `operateLoop_good`), says that the code is one the disassembler knows.
* **C81 TLCS-90 disassembly reassembles** - Every printed operand is read as what it was (`operand_reads`); the tables are written out (`pages_eq`), and for each entry of each page a computation over all its prefixes and codes says that the name and the modes that are read back find an entry that makes the same prefix and the same code (`entries_ok`, `code_ok`); emitting the operands then gives the bytes that were read (`emit_one`, `prefix_back`, `code_back`). C29 and C65: for each entry a computation over the operands its modes take says which entry of which page the disassembler finds for the code (`back_ok`), and every operand the parser can give is one of these as far as the code depends on it (`parsed`, `enc_fit`); smart-branch off; that no line is assembled to a second encoding is a computation over the operands too (`second_ok`).

## What is modelled, file by file

All paths are under /repo/src or /repo/driver; the comments in the Lean files give the lines.

| Lean | C++ | left out or simplified |
|---|---|---|
| Base/{Ctype,Error,Scan} | str_scanner, error codes, `ctype.h` | characters beyond ASCII are never letters |
| BinMemory | bin_memory.cpp/.h | `std::map` is a sorted list |
| HexFile | bin_encoder, bin_decoder, moto_srec, intel_hex | file output is a list of lines |
| Number | value parsing (`strToNumber`), parsers.cpp number parsers, formatters.cpp | floating point numbers |
| Value | value.cpp/.h | the floating point half of `Value` |
| Eval | value_parser.cpp `_eval`, operators.cpp, parsers.cpp | reading of floating point constants is a parameter; symbols and functions are parameters (tied to the store in Store) |
| Insn | insn_base.cpp/.h, error_reporter.h | `emitFloat*` |
| Config | config_base.cpp, asm_base.cpp (`checkAddr`, `branchDelta`, `alignOrigin`, ...) | |
| StrBuffer | str_buffer.cpp | `float32/64/80` |
| Table | table_base.h, entry_table.h, reg_base.cpp, text comparison of libc | |
| Tables, Tables/Data | table_*.cpp, reg_*.cpp, the pseudo tables of asm_*.cpp | operands are kept as macro texts; the CPU models interpret them |
| Store | asm_directive.cpp symbol store, function_store.cpp | values are integers |
| Reader | text_reader, file_reader, file_sources (reading lines) | `realloc` succeeds |
| Data | asm_base.cpp/asm_directive.cpp data directives | default notation (no Motorola/Fairchild... delimiters), no floating point data |
| Driver | asm_driver.cpp, asm_commander pass loop, asm_directive.cpp, asm_sources | the encoder of the CPU is a parameter |
| Listing | list_formatter.cpp, asm_formatter.cpp, dis_formatter.cpp | |
| Dis | dis_driver.cpp `disassemble` | the decoder of the CPU is a parameter |
| Float | fixed64.cpp/.h, ieee_float.cpp/.h, float80_base.cpp/.h, float80_soft.cpp/.h, dec_float.cpp/.h, ibm_float.cpp/.h | `str` of the formats, reading and writing of decimal numbers, powers of ten; exponents are unbounded integers |
| Options | option_base.cpp/.h, the options of dis_base.cpp and asm_base.cpp | the options of single CPUs (a parameter), the listing of options, the text left after a value in the directive `option` |
| Cpu/{Model,Lemmas,Print,Lex,Kit} | dis_base.cpp, asm_base.cpp `encode`, formatters | |
| Cpu/I8080 | asm_i8080, dis_i8080, table_i8080, reg_i8080, insn_i8080 | directive Z80SYNTAX is recognised, its effect is the parameter `zilog` |
| Cpu/Ins8060 | asm_ins8060, dis_ins8060, table_ins8060, reg_ins8060 | |
| Cpu/Cdp1802 | asm_cdp1802, dis_cdp1802, table_cdp1802, reg_cdp1802 | |
| Cpu/Mc6800 | asm_mc6800, dis_mc6800, table_mc6800, reg_mc6800, insn_mc6800 | functions in expressions are a parameter |
| Cpu/{Dot,ListModel,Ops,Intel} | bit names in parsers, operand lists of asm_*.cpp, `intel` numbers | shared by the CPU models with comma separated operands |
| Cpu/I8051 | asm_i8051, dis_i8051, table_i8051, reg_i8051 | functions in expressions are a parameter |
| Cpu/F3850 | asm_f3850, dis_f3850, table_f3850, reg_f3850 | functions in expressions are a parameter |
| Cpu/Tms7000 | asm_tms7000, dis_tms7000, table_tms7000, reg_tms7000 | functions in expressions are a parameter |
| Cpu/Mc6805 | asm_mc6805, dis_mc6805, table_mc6805, config_mc6805, reg_mc6805 | functions in expressions are a parameter |
| Cpu/Ins8070 | asm_ins8070, dis_ins8070, table_ins8070, reg_ins8070 | functions in expressions are a parameter |
| Cpu/Tms32010 | asm_tms32010, dis_tms32010, table_tms32010, reg_tms32010 | functions in expressions are a parameter |
| Cpu/Tms9900 | asm_tms9900, dis_tms9900, table_tms9900, reg_tms9900 | functions in expressions are a parameter; no symbols in the disassembler |
| Cpu/Scn2650 | asm_scn2650, dis_scn2650, table_scn2650, reg_scn2650 | functions in expressions are a parameter; no symbols in the disassembler |
| Cpu/I8096 | asm_i8096, dis_i8096, table_i8096 | functions in expressions are a parameter; no symbols in the disassembler |
| Cpu/Mn1610 | asm_mn1610, dis_mn1610, table_mn1610, reg_mn1610 | functions in expressions are a parameter; no symbols in the disassembler |
| Cpu/Pdp8 | asm_pdp8, dis_pdp8, table_pdp8, reg_pdp8 | functions in expressions are a parameter; no symbols in the disassembler; not the option `implicit-word` |
| Cpu/Tlcs90 | asm_tlcs90, dis_tlcs90, table_tlcs90, reg_tlcs90 | functions in expressions are a parameter; no symbols in the disassembler |
| Cpu/I8048 | asm_i8048, dis_i8048, table_i8048, reg_i8048 | functions in expressions are a parameter |
| Cpu/Z80 | asm_z80, dis_z80, table_z80, reg_z80, insn_z80 | functions in expressions are a parameter |
| Maker | default plugins of 23 assemblers: operators, numbers, letters, location symbol (value_parser.cpp, operators.cpp, number_parser.cpp, letter_parser.cpp, asm_*.cpp defaultPlugins) | what a function computes is a parameter; calls without arguments are outside (they violate C15) |
| Cpu/Mos6502 | asm_mos6502, dis_mos6502, table_mos6502, reg_mos6502, insn_mos6502 | functions in expressions are a parameter; directives longa, longi only as changes of the settings |

Not modelled: Arduino specifics (PROGMEM access is an ordinary read), `float80_hard` (compiler
`long double`), file-system access, parsing of the command line, the CPU families other than those
in the table (their instruction and register tables are, for C25).

## What the code gets wrong

Each of these is a theorem named `Cxx_violated_*` (a concrete input on which the model of the
unchanged code breaks the property) unless it says "by reading".

1. C06: an Intel HEX record that crosses a 64 KiB boundary is written with the wrong upper address; the checksum of the extended address record is printed with a blank when it has one digit.
2. C07, C08: the decoders write before the checksum is checked; a changed length byte (and type byte of Intel HEX) can go unnoticed.
3. C09: a record size of 0 never ends.
4. C04: `setRange` keeps a block that begins exactly at the end address.
5. C12: `-2^63` is undefined behaviour in +, -; subtrahends of 2^63 or more; shift counts of 2^32 or more.
6. C13: -1 equals 2^64-1.
7. C14: `overflowInteger` with a positive lower bound.
8. C11: the Texas style has no octal notation.
9. C15: `!x` looks at the low 32 bits only, `<<` gives 32 bits. In the notations of Intel and Zilog a symbol as `LOW_X` is taken for `LOW` applied to `_X` (`C15_violated_low_name`), and with Intel `2*-3` is refused with a missing operand (`C15_violated_intel_sign`).
10. C16: PDP-11 `^D`, `^O`, `^B` push without a bound; `f<1,2` pops an empty stack.
11. C17: `5)`, `()`, `1 SHL` and `f(1, 2+)` are accepted.
12. C19: emitting at an explicit position near 255 wraps.
13. C21: a branch that straddles the end of memory; targets that wrap at 32 bits.
14. C23: `dec` of the least number.
15. C26: of an empty memory the i8080 disassembler makes a NOP of length 0 without error.
16. C27: a CDP1802 short branch in the last two bytes of memory does not assemble; octal listing does not read back.
17. C28: octal listing of the INS8060 does not read back.
18. C31, C50: undefined compares equal to 0 between passes; the pass loop may end after pass 1 with undefined symbols unreported, and need not end at all.
19. C32: a last line without newline is lost; a NUL joins two lines.
20. C34, C54: an odd number of bytes on a word-addressed CPU; the address column of continuation lines.
21. C35: an image beyond the addresses of the CPU is disassembled for ever; i8086 WAIT loses a byte.
22. C36: UNDEFINED_SYMBOL hides later errors.
23. C37: recursion never ends; dynamic scoping; equal parameter names read outside the stack.
24. C41: leading zeros are counted in an `int8_t`.
25. C42: ALIGN 0 is a remainder by zero; ALIGN wraps at 2^32.
26. C43: relative include from a source in a directory uses a freed buffer.
27. C45: `.byte 256` is truncated; a lone letter in a word directive is a string.
28. C46: origins beyond 32 bits are truncated, negative space counts move back.
29. C47: END never ends the assembly.
30. C48: a duplicate label on an instruction line, or one that names a function, is not reported.
31. C51: a label on a line of aligned data is the address before the alignment.
32. C33: `-S` and `-H` never change the output format.
33. C39: converting the least 64-bit integer negates it, which overflows.
   C57, C59: the product of the significands loses its 64 lowest bits, and the quotient its remainder,
   before rounding, so numbers just above the middle of two floats are rounded down to even. Zero
   divided by a subnormal number is an infinity.
34. C29: i8080 `MOV M, M` is `HLT`. INS8060 `LD @5(PC)` assembles without error to `LDI 5` (and so for the other memory instructions), `ST @5(PC)` to no instruction. CDP1802 `LDN ()` assembles to `IDL`, `OUT ()` to `IRX`, `INP ()` to no instruction or a prefix: an empty parenthesis is an undefined value without error, which is not zero for the check of register and port 0. `NBR` and `NLBR` are disassembled as one byte `SKP`, `LSKP` with the operand left over as the next instruction. MC68HC11 `BRSET $12, #$34, 0` at $FFFE, whose bytes run past the end of the memory, is accepted, and its bytes are no instruction for the disassembler. The same of i8051 `DJNZ 12H, 0` at 0FFFEH.
35. By reading: `-S0` never ends; errors of `option` are lost; i8080 `encodeImpl` asks the instruction instead of the source operand for its error; `RST n` in Zilog syntax masks with the wrong bits when n is illegal.
36. i8051 by reading: 16 bit operands are not range checked; the target of AJMP is truncated to 16 bits before its block is compared; `/20H` without a bit number is taken as a bit; an empty memory is disassembled as NOP without error.
37. i8048: `JMP 0834H` is assembled without error to a jump to 034H (`jump_to_lower_half`), `JZ 10312H` at 300H to one to 312H (`jump_past_memory`). A conditional jump at 0FFFH is disassembled with a target that is not accepted there (`C63_violated_end`).
38. mos6502: `longa on` survives a change of the processor from 65816 to 6502, whose `LDA #18` then has three bytes (`C66_violated_longa`). Where there is no memory a `BRK` is read without error (`C66_violated_empty`). `BRL` and `PER` take any target in the bank, also one more than 32 KiB away, with the displacement modulo 65536; the disassembler takes such a displacement to be out of the bank (`Mos6502.C29_violated_far`). `WDM` can be assembled and not disassembled (`Mos6502.C29_violated_wdm`). By reading: a missing `)` is reported as a missing `]`, the low 16 bits of the bank operands of block moves are not looked at, an error of the third operand is ignored, and the long form of a smart branch clears earlier errors.
39. IBM floats (`.single` of the TMS99110, `DC` of the MN1613): a number that is rounded up to a power of 16, as 0.99999999 or 15.9999999, is stored as zero without an error, because the carry out of the significand is dropped (`C68_violated_carry`, `C68_violated_one`). A number that is too large is reported, but its fraction is stored with the least exponent although the comment says it is zero (`C68_violated_overflow`).
40. Options: a letter in double quotes is never accepted (`C69_violated_quoted_letter`); a bad value of a common option is reported as an unknown option (`C69_violated_diagnosis`); text after the value is ignored, `list-radix=8x` is octal (`C69_violated_rest`); numbers are taken modulo 2^32 (`C69_violated_wrap`); the assembler takes the option value `0x1` for false and `1-1` for true, because the number is read as decimal before it is read as an expression (`C69_violated_expression`). Any `list-radix` other than 8 silently means 16.
41. Z80: `ADD IX, IY` and `ADD IY, IX` are accepted and give DD 59 and FD 49, which are no instructions (`Z80.C29_violated_add`); `JR 0` at 0FFFFH is accepted, and its bytes are not disassembled (`Z80.C29_violated_wrap`); operands of 16 bits are not checked, `LD HL, 12345H` is `LD HL, 2345H` (`load_wide`).
42. f3850: an address of more than 16 bits is not checked, `DCI H'12345'` loads 2345 (`F3850.address_truncated`). By reading: the tests for small numbers in `parseOperand` are inverted, `overflow(7)` for `!overflow(7)`, so that the error for a number of more than 16 bits is never reported.
43. tms7000: the registers 0 and 1 are printed as `A` and `B` where they are bytes of an instruction for any register; read again it is the shorter instruction for A or B, `D2 00` is printed as `DEC A`, which is `B2` (`C72_violated_register`), and a `DJNZ R0` to a far target cannot be assembled as printed (`C72_violated_register_cases`). An octal listing in the notation of Texas Instruments is read as decimal (`C72_violated_octal`). An address of more than 16 bits is not checked (`Tms7000.address_truncated`).
44. mc6805: with `pc-bits` less than 8 the assembler rejects relative targets that the disassembler prints: the displacement is compared with the signed range of the address width, `20 0A` at 0 with 4 bits is printed as `BRA $C` (`Mc6805.C73_violated_width`). An index offset of more than 16 bits loses its upper ones without error (`Mc6805.offset_truncated`).
45. C15: a call without arguments after another operand, as in `1+N()`, is refused with TOO_MANY_FUNC_ARGUMENT: the count 0 of its arguments is replaced by the size of the stack, src/operators.cpp:39-49 (`C15_violated_no_arguments`).
46. ins8070: a branch to the address 0 is printed with the target `X'0000` and reported as OVERFLOW_RANGE when assembled, since one is taken from it (`C74_violated_branch`); a branch to X'10000 is accepted near the end of the memory (`Ins8070.C29_violated_end`). `LD A, X'12345` is taken without error for the address X'FF45, and of immediate data of 16 bits upper bits are lost (`Ins8070.address_truncated`). An octal listing is not read (`C74_violated_octal`).
47. tms32010: a code of which only the first byte is there is decoded as if 0 came after it, and the error NO_MEMORY is lost, since finding an entry resets it (entry_table.h:214; `C75_violated_short`). `ADD 10, 0, AR1` is accepted and assembled as `ADD 3`: the next register goes into the bits of a direct address; `LACK 10005h` is accepted as `LACK 5` (`C75_unchecked`). An octal listing is read with decimal numbers (`C75_violated_octal`).
48. tms9900: a code of which only the first byte is there is decoded as if 0 came after it, without an error (`C76_violated_short`). At an odd address every jump is printed without error and refused when read back (`C76_violated_odd`); at the last address `JMP 0` is assembled without error to a jump that the disassembler takes to leave the address space (`C29_violated_tms9900`). `SRAM R1, *R5` is accepted and assembled as `SRAM R1, R0`, `SBO 300` as `SBO 44`, and `LI R0, >12345` as `LI R0, >2345` (`C76_unchecked`). An octal listing is read with decimal numbers (`C76_violated_octal`).
49. scn2650: a relative branch round the end of an 8K page is printed with its target, and that is refused when read back (`C77_violated_page`). With targets relative to the location, one in the last two bytes of a page is printed wrong (`C77_violated_relative`). `LODA,R1 H'100',R3` is assembled as `LODA,R1 H'100'`, and an index of a branch is dropped as well (`index_dropped`); `ZBRR 65541` is assembled as `ZBRR 5` (`target_narrowed`). An octal listing is read with decimal numbers (`C77_violated_octal`).
50. i8096: an indexed operand that is not in its shortest form is reassembled to other bytes (`C78_violated_short`), one indexed by the register 0 also (`C78_violated_register`). With `use-absolute` the operand `[0]` is printed as nothing (`C78_violated_absolute`). `STB 1, #5` is assembled but not disassembled: the row meant to refuse it has a mode no operand is parsed to (`C29_violated_i8096_store`). Register numbers are taken modulo 256, with the check of the alignment before (`C29_violated_i8096_aligned`). `SHL 10, #20` shifts by the register 20, `SHL 10, 5` by the number 5, and `LDB 1, #300` loads 44 (`operands_lost`).
51. MN1610: a single byte is disassembled without error (`C79_violated_short`); octal numbers printed are read as decimal (`C79_violated_octal`); codes next to LR and STR are printed as LR and STR with the register that does not change, which have other codes (`C79_violated_transfer`); the first byte of the word of CBI is not printed (`C79_violated_byte`); a relative address out of the address space goes round it without error, and the text is refused (`C79_violated_wrap`); with `relative`, an address in the first page is read as a direct one (`C79_violated_page`). `L R0, -1` is assembled to a branch (`C29_violated_mn1610`). A missing `)`, a register with a minus sign, `IC` as a condition and addresses of more than 16 bits are taken without error (`C79_unchecked`). `CBI R0, X'1234'` takes a word where a byte is compared (`C65_violated_mn1610`).
52. PDP-8: NOP and CLA of the second and the third group are printed as those of the first (`C80_violated_nop`, `C80_violated_cla`); a reference to the current page in page zero loses the bit of the current page (`C80_violated_page_zero`); the four bits above the word are not looked at (`C80_violated_upper_bits`); a single byte is disassembled without error (`C80_violated_short`); numbers listed in hexadecimal have no mark and are read as octal (`C80_violated_hex`).
53. TLCS-90: instructions that have a second encoding do not come back (`C81_violated_register`, `C81_violated_direct`, `C81_violated_extended`, `C81_violated_prefix`), which is harmless as to their meaning; a parenthesis that is not closed is taken without error after a register, `LD A, (B` is `LD A, B` (`Tlcs90.open_parenthesis`). The condition C after a parenthesis that is not closed has no code, and `JR (C, 104H`, `RET (C` and `JP (C, HL` are assembled without error to bytes that are no such instruction (`C29_violated_tlcs90`; asm_tlcs90.cpp:140, reg_tlcs90.cpp:157-160); `PUSH SP` and `POP SP` are taken and are `PUSH AF` and `POP AF` (`push_sp`; table_tlcs90.cpp:583, reg_tlcs90.cpp:121-125).
54. C65: TMS9900 at an odd address takes `JMP >102` and `JMP >104` for the same jump (`C65_violated_tms9900`). i8096 `ADD 16, 65540[18]` is assembled as `ADD 16, 4[18]` in the long form (`C65_violated_i8096`). INS8070 `BRA X'10000` is assembled and its bytes refused (`C65_violated_ins8070`).
