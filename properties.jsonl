{"id": "C01", "title": "Memory image: last write wins", "statement": "After any sequence of BinMemory::writeByte calls, readByte(a)/hasByte(a) report exactly the value of the last write to a; an address never written is reported absent (hasByte false, readByte 0).", "quantifier": "every finite sequence of writes (any order, any 32-bit addresses, any values) and every address", "why_tests_cant": "the block-merging code takes a different path for each order and overlap of writes; a test exercises a handful of orders", "anchors": ["driver/bin_memory.cpp: BinMemory::find, writeByte, createBlock, aggregate, readByte, hasByte"]}
{"id": "C02", "title": "Memory image equality is content equality", "statement": "Two BinMemory objects built by writes compare equal with operator== exactly when they hold the same bytes at the same addresses, whatever the order and grouping of the writes. (The assembler's pass loop stops on this comparison.)", "quantifier": "every pair of write histories", "why_tests_cant": "canonicity of the block structure quantifies over all histories", "anchors": ["driver/bin_memory.cpp: BinMemory::operator==, aggregate", "cli/asm_commander.cpp: AsmCommander::assemble"]}
{"id": "C03", "title": "Block iteration is exact", "statement": "Walking begin()/next() visits non-empty blocks in strictly increasing address order, with a gap of at least one address between consecutive blocks, and the (address, byte) pairs seen are exactly the bytes written; next() pointers never dangle or skip a block; startAddress()/endAddress() are the least and greatest written address.", "quantifier": "every finite write history", "why_tests_cant": "pointer chain is repaired by hand on every insert and merge; needs an invariant over all histories", "anchors": ["driver/bin_memory.cpp: createBlock, aggregate, begin, startAddress, endAddress", "driver/bin_memory.h: Block::next, connect"]}
{"id": "C04", "title": "Range restriction keeps exactly the range", "statement": "BinMemory::setRange(start, end) with start<=end leaves exactly the bytes whose address lies in [start, end].", "quantifier": "every image reachable by writes and every start<=end", "why_tests_cant": "boundary coincidences (a block that starts exactly at end) are one case in 2^32", "anchors": ["driver/bin_memory.cpp: BinMemory::setRange, Block::trimStart, Block::trimEnd"]}
{"id": "C05", "title": "Motorola S-record round trip", "statement": "Encoding any memory image as S-records and decoding the text gives back an equal image, for every record size 1..250 and every address size whose range covers the image.", "quantifier": "every image, record size and address width", "why_tests_cant": "all byte values, block splits and address widths", "anchors": ["driver/moto_srec.cpp: MotoSrec::encode, decode", "driver/bin_encoder.cpp: BinEncoder::encode", "driver/bin_decoder.cpp: BinDecoder::decode"]}
{"id": "C06", "title": "Intel HEX round trip", "statement": "Encoding any memory image as Intel HEX and decoding the text gives back an equal image.", "quantifier": "every image, record size and address width", "why_tests_cant": "depends on where blocks fall relative to 64 KiB boundaries and on checksum digits of the extended address record", "anchors": ["driver/intel_hex.cpp: IntelHex::encode, formatEla, decode"]}
{"id": "C07", "title": "S-record corruption is detected", "statement": "If the hex digits of exactly one byte of a valid S-record data line (count, address, data or checksum) are replaced so that the line still has the same shape, the decoder reports an error.", "quantifier": "every record, every byte position, every replacement value", "why_tests_cant": "256 values at every position of every record", "anchors": ["driver/moto_srec.cpp: MotoSrec::decode", "driver/bin_decoder.cpp: parseByte, getSum"]}
{"id": "C08", "title": "Intel HEX corruption is detected", "statement": "Same as C07 for Intel HEX data records and extended-address records.", "quantifier": "every record, every byte position, every replacement value", "why_tests_cant": "256 values at every position of every record", "anchors": ["driver/intel_hex.cpp: IntelHex::decode"]}
{"id": "C09", "title": "Record splitting is exact", "statement": "BinEncoder::encode emits, for every block, records of at most recordSize bytes whose concatenation is the block, at consecutive addresses, each byte exactly once; it terminates for every recordSize >= 1 (and does not for 0).", "quantifier": "every image and record size", "why_tests_cant": "all block lengths against all record sizes", "anchors": ["driver/bin_encoder.cpp: BinEncoder::encode", "cli/asm_commander.cpp: AsmCommander::parseArgs"]}
{"id": "C10", "title": "Numeric literals denote their mathematical value", "statement": "Reading a maximal run of radix-r digits yields its positional value when that is below 2^64, and the error OVERFLOW_RANGE (value 0) otherwise; the scanner stops at the first non-digit in both cases; no digit at all is NOT_AN_EXPECTED and consumes nothing.", "quantifier": "every digit string of every length, every radix 2, 8, 10, 16", "why_tests_cant": "overflow detection near 2^64 for unbounded strings", "anchors": ["src/value.cpp: Value::read, strToNumber"]}
{"id": "C11", "title": "Formatted numbers read back", "statement": "For every number style and every radix the style has a notation for, text produced by the style's binary/octal/decimal/hexadecimal formatter for a 32-bit v and a width of at least 1, in upper or lower case, is accepted by the same style's number parser, yields v and leaves the text that follows; C-style numbers are accepted by the parser of every style; a signed number is written as a minus sign and its magnitude. (The Texas style has no octal notation: its octal formatter writes bare digits, which read back as decimal.)", "quantifier": "every 32-bit value, every bit width, every number style", "why_tests_cant": "2^32 values by styles; prefix/suffix letters collide with hex digits", "anchors": ["src/formatters.cpp, src/formatters.h: *Formatter::format", "src/parsers.cpp: *NumberParser::parseNumber"]}
{"id": "C12", "title": "Integer expression arithmetic is exact", "statement": "+, -, *, unary -, and comparison-free integer operators on Values return the mathematical result whenever operands and result lie in [-2^63, 2^64).", "quantifier": "every pair of operand values", "why_tests_cant": "the signed/unsigned tag is recomputed from raw 64-bit patterns; corner patterns are 2^63, 2^64-1, -2^63", "anchors": ["src/value.cpp: Value::operator+, -, *, negate, absolute"]}
{"id": "C13", "title": "Comparison operators agree with integer order", "statement": "==, !=, <, <=, >, >= on integer Values agree with the order of the integers they denote.", "quantifier": "every pair of operand values", "why_tests_cant": "mixed signed/unsigned comparisons at 2^63..2^64", "anchors": ["src/value.cpp: Value::operator==, operator<"]}
{"id": "C14", "title": "Range checks mean what they say", "statement": "overflowUint8/16/32 and overflow(max,min) report an overflow exactly when the integer denoted by the Value lies outside the documented interval.", "quantifier": "every value and every bound", "why_tests_cant": "64-bit values against arbitrary bounds", "anchors": ["src/value.cpp: Value::overflow, overflowUint8, overflowUint16, overflowUint32"]}
{"id": "C15", "title": "Expressions follow the precedence table", "statement": "Evaluating the text of any expression tree, written with parentheses wherever the precedence/associativity table of the notation (C, Intel, Zilog, Motorola, Signetics, Texas Instruments) requires them, yields the value of the tree, as long as no more than 8 operators or operands are pending.", "quantifier": "every assembler, every expression tree over the operators of its notation, every way of writing its operators, numbers and characters, every symbol table", "why_tests_cant": "unbounded trees; an operator-precedence parser has one case per pair of adjacent operators", "anchors": ["src/value_parser.cpp: ValueParser::_eval", "src/operators.cpp: Operator::isHigher, eval"]}
{"id": "C16", "title": "Expression evaluation never leaves its stacks", "statement": "Whatever the source text, evaluating an expression never reads or writes outside its fixed 8-entry operand and operator stacks.", "quantifier": "every input text, every number/operator style, every symbol and function table", "why_tests_cant": "memory safety over all inputs", "anchors": ["src/value_parser.cpp: ValueParser::_eval", "src/stack.h: Stack::push, pop, top"]}
{"id": "C17", "title": "Expression evaluation terminates and reports incomplete input", "statement": "Evaluation terminates on every text; unbalanced parentheses, missing operands and too deep nesting always end in an error instead of a value.", "quantifier": "every input text", "why_tests_cant": "all malformed inputs", "anchors": ["src/value_parser.cpp: ValueParser::_eval"]}
{"id": "C18", "title": "Undefined symbols never vanish", "statement": "If an expression uses a symbol that is not in the table, the result carries the error UNDEFINED_SYMBOL (or the value is marked undefined) - it never silently evaluates as if defined.", "quantifier": "every expression and symbol table", "why_tests_cant": "all positions of the symbol", "anchors": ["src/value_parser.cpp: ValueParser::_eval, readSymbol"]}
{"id": "C19", "title": "Instruction buffer is never overrun", "statement": "Emitting bytes/words/longs into an instruction stores them at consecutive positions below 64 or reports NO_MEMORY; length never exceeds 64 and earlier bytes are never altered.", "quantifier": "every sequence of emit operations", "why_tests_cant": "every interleaving of emitters near the end of the buffer", "anchors": ["src/insn_base.cpp: Insn::emitByte, emitUint16Be/Le, emitUint32Be/Le, emitUint64Be/Le"]}
{"id": "C20", "title": "Emit and read are inverse", "statement": "A word/long/quad emitted big- or little-endian and read back by the disassembler-side reader of the same endianness is the same number.", "quantifier": "every 16/32/64-bit value, both byte orders, any position", "why_tests_cant": "2^64 values", "anchors": ["src/insn_base.cpp: AsmInsnBase emitters, DisInsnBase readers"]}
{"id": "C21", "title": "Branch displacement round trip", "statement": "If the assembler accepts a relative branch to target from base, the displacement field it stores decodes (sign extension plus base, in the CPU's address space) to exactly target; and it accepts exactly the targets representable in the field.", "quantifier": "every base, target, field width and address width", "why_tests_cant": "all base/target pairs including wrap-around at the end of the address space", "anchors": ["src/asm_base.cpp: Assembler::branchDelta", "src/config_base.cpp: ConfigBase::signExtend, overflowDelta, checkAddr", "src/asm_*.cpp, src/dis_*.cpp: encodeRelative/decodeRelative of F3850, i8051, MC6800, MC6805, TMS7000, MOS6502, Z80, TMS9900, PDP-11"]}
{"id": "C22", "title": "Address checks are exact", "statement": "checkAddr accepts an address exactly when it fits the CPU's address width (and alignment, and 'same segment' form exactly when both addresses agree above the segment bits).", "quantifier": "every address, width and segment size", "why_tests_cant": "all address/width combinations", "anchors": ["src/config_base.cpp: ConfigBase::checkAddr"]}
{"id": "C23", "title": "Bounded output buffer", "statement": "A sequence of StrBuffer operations never writes outside the caller's array, the text is always NUL terminated inside it, and an overflow is always flagged.", "quantifier": "every capacity >= 1 and every sequence of appends", "why_tests_cant": "all sequences and capacities", "anchors": ["src/str_buffer.cpp, src/str_buffer.h: StrBuffer::letter, text, reverse"]}
{"id": "C24", "title": "Table search finds the first matching entry", "statement": "On a table sorted by the comparator, the binary searches return the first entry equal to the key that also satisfies the operand predicate, or 'not found', or 'name known but no operand form matches', exactly as a linear scan would.", "quantifier": "every sorted table of any length, every key and predicate", "why_tests_cant": "all table lengths and key positions", "anchors": ["src/table_base.h: Table::binarySearch, IndexedTable::binarySearch"]}
{"id": "C25", "title": "Instruction, directive and register tables are fit for searching", "statement": "For every processor of the library, the name index of every instruction page refers to rows of the page, refers to no row twice, is in alphabetical order, and leaves out only rows that repeat the name and operands of a row it has; the directive, register and condition tables are in alphabetical order without repeated names. So looking up a mnemonic, directive or register by name finds it whenever the table has it.", "quantifier": "every row of every instruction page of 72 processors and coprocessors and of 55 name tables; every name looked up", "why_tests_cant": "completeness over whole tables; tests look up the mnemonics they happen to use", "anchors": ["src/table_*.cpp: ARRAY, INDEX_*, *_PAGES", "src/reg_*.cpp", "src/asm_*.cpp: PSEUDO_TABLE"]}
{"id": "C26", "title": "i8080 disassembly reassembles", "statement": "For every non-empty byte sequence the i8080 disassembler (Intel syntax) decodes without error, assembling the text it prints at the same address yields the same bytes.", "quantifier": "every byte sequence and address", "why_tests_cant": "all opcodes with all operand values", "anchors": ["src/asm_i8080.cpp, dis_i8080.cpp, table_i8080.cpp"]}
{"id": "C27", "title": "cdp1802 disassembly reassembles", "statement": "Same as C26 for the CDP1802 family.", "quantifier": "every non-empty byte sequence and address", "why_tests_cant": "all opcodes with all operand values; page-relative branches depend on the address", "anchors": ["src/asm_cdp1802.cpp, dis_cdp1802.cpp, table_cdp1802.cpp"]}
{"id": "C28", "title": "ins8060 disassembly reassembles", "statement": "Same as C26 for the INS8060 (SC/MP).", "quantifier": "every non-empty byte sequence and address", "why_tests_cant": "all opcodes with all operand values; 4 KiB page wrap-around", "anchors": ["src/asm_ins8060.cpp, dis_ins8060.cpp, table_ins8060.cpp"]}
{"id": "C29", "title": "What is assembled is disassembled as the same instruction", "statement": "For each modelled CPU (i8080/8085 family in both syntaxes, INS8060, CDP1802 family, MC6800 family, i8051, i8048 family, MOS6502 family, Z80, F3850, TMS7000, mc6805 family, INS8070, TMS32010, TMS9900, SCN2650, i8096, MN1610, PDP-8, TLCS-90): whenever the assembler accepts a source line without error, the disassembler, given the bytes of it followed by anything, reports no error, consumes exactly those bytes as one instruction, and prints the mnemonic written in the line (or a documented synonym of it).", "quantifier": "every source line, symbol environment, address, processor of the family, syntax option, disassembler option and continuation of the memory", "why_tests_cant": "the lines are unbounded text with arbitrary operand expressions, and the failing ones (an empty parenthesis, automatic displacement of the program counter) are operands no test writes down", "anchors": ["src/asm_*.cpp: encodeImpl, parseOperand", "src/dis_*.cpp: decodeImpl", "src/table_*.cpp: searchName, searchOpCode, matchOpCode, acceptMode"]}
{"id": "C30", "title": "Symbols are either constants or variables", "statement": "No history of definitions makes one name both a constant and a variable; a lookup returns the most recent accepted definition; a conflicting definition is reported as DUPLICATE_LABEL and changes nothing.", "quantifier": "every history of definitions", "why_tests_cant": "histories", "anchors": ["driver/symbol_store.cpp: SymbolStoreImpl::internSymbol"]}
{"id": "C31", "title": "Multi-pass assembly ends at a fixed point", "statement": "If the pass loop ends without errors, the memory image and symbol table it returns are reproduced by one more pass: output does not depend on the number of passes.", "quantifier": "every source (every pass function)", "why_tests_cant": "quantifies over all programs", "anchors": ["cli/asm_commander.cpp: AsmCommander::assemble"]}
{"id": "C32", "title": "Source lines are read whole", "statement": "Reading a text file line by line returns exactly the newline-separated lines, whatever their length, without writing outside the line buffer.", "quantifier": "every file content and initial buffer size", "why_tests_cant": "line lengths against buffer growth", "anchors": ["cli/file_reader.cpp: getLine, FileReader::readLine"]}
{"id": "C33", "title": "Output format option is honoured", "statement": "-S produces S-records and -H produces Intel HEX, whatever the CPU's default format.", "quantifier": "every CPU default and option", "why_tests_cant": "object slicing through a base reference is invisible in tests that use the default format", "anchors": ["cli/asm_commander.cpp: AsmCommander::assemble"]}
{"id": "C34", "title": "Listing shows every byte once", "statement": "The generated-bytes column of a listing, over all continuation lines of an instruction, shows each generated byte exactly once and in order.", "quantifier": "every instruction length and listing width", "why_tests_cant": "all lengths by widths", "anchors": ["driver/list_formatter.cpp: ListFormatter"]}
{"id": "C35", "title": "Disassembly covers the image", "statement": "Disassembling an image visits every byte exactly once, in order, and terminates.", "quantifier": "every image and instruction-length function", "why_tests_cant": "all images", "anchors": ["driver/dis_driver.cpp: DisDriver::disassemble"]}
{"id": "C36", "title": "First error wins", "statement": "In ErrorAt, the first error reported with setErrorIf, together with its place in the source, stands: later reports (errors or OK) neither replace nor clear it. This includes UNDEFINED_SYMBOL, which therefore hides later errors of other kinds.", "quantifier": "every sequence of error reports", "why_tests_cant": "sequences", "anchors": ["src/error_reporter.h: ErrorAt::setErrorIf"]}
{"id": "C37", "title": "User functions substitute arguments", "statement": "Calling a user defined function gives the value of its body with the parameters bound to the argument values and all other names as at top level; the first definition of a name counts until functions are cleared; evaluation terminates.", "quantifier": "every history of definitions, every call and every list of arguments", "why_tests_cant": "recursion and shadowing", "anchors": ["driver/function_store.cpp: FunctionStore::Function::eval"]}
{"id": "C38", "title": "Rounding is to nearest, ties to even", "statement": "Reducing a significand to n bits rounds to nearest with ties to even.", "quantifier": "every significand and precision", "why_tests_cant": "2^80 significands", "anchors": ["src/fixed64.cpp: __fixed64::round_off"]}
{"id": "C39", "title": "Integers convert to floating point exactly", "statement": "Converting any 64-bit integer to the 80-bit software float and decomposing it gives back the integer.", "quantifier": "every 64-bit integer", "why_tests_cant": "2^64 values", "anchors": ["src/float80_soft.cpp: __float80_soft::set", "src/fixed64.cpp: normalize"]}
{"id": "C40", "title": "IEEE encodings round trip", "statement": "Every finite binary32/binary64 bit pattern converted to the wide format and back is unchanged.", "quantifier": "every bit pattern", "why_tests_cant": "2^64 patterns incl. subnormals", "anchors": ["src/ieee_float.cpp: decompose, compose", "src/float80_soft.cpp: set, get"]}
{"id": "C41", "title": "Register numbers", "statement": "parseRegNumber accepts exactly the canonical decimal numerals (no leading zero, below 10000, not followed by an identifier letter) and returns their value.", "quantifier": "every text", "why_tests_cant": "all texts", "anchors": ["src/reg_base.cpp: parseRegNumber"]}
{"id": "C42", "title": "Alignment", "statement": "An alignment directive with step n>0 moves the location to the least multiple of n that is not below it.", "quantifier": "every location and step", "why_tests_cant": "all pairs; step 0 is the boundary", "anchors": ["src/asm_base.cpp: Assembler::alignOrigin", "src/insn_base.cpp: align"]}
{"id": "C43", "title": "Include nesting is bounded", "statement": "Whatever the source, at most 4 files are open and every open is matched by a close.", "quantifier": "every sequence of include/end-of-file events", "why_tests_cant": "event sequences", "anchors": ["cli/file_sources.h: FileSources::open, closeCurrent", "driver/asm_sources.h"]}
{"id": "C44", "title": "Case-insensitive matching is an equivalence", "statement": "Mnemonics, registers and options match independently of letter case: comparison is by upper-cased letters and is a total order consistent with equality.", "quantifier": "every pair of names", "why_tests_cant": "all names", "anchors": ["src/str_scanner.cpp: iequals, iexpectText", "config_host.h: strcasecmp_P"]}
{"id": "C45", "title": "Data directives emit the values in order", "statement": "A byte/word/long data directive with n numeric operands emits exactly the n values in order in the CPU's byte order, after range checking.", "quantifier": "every operand list", "why_tests_cant": "all lists", "anchors": ["src/asm_base.cpp: Assembler::defineDataConstant"]}
{"id": "C46", "title": "Origin and space directives", "statement": "ORG moves the location counter to the given address and reports an error exactly when the address does not fit the CPU; a space directive moves it forward by the memory the units take.", "quantifier": "every location, operand value, address width and unit size", "why_tests_cant": "all pairs of location and 64-bit operand; the ends of the ranges are where it breaks", "anchors": ["src/asm_base.cpp: Assembler::defineOrigin, allocateSpaces"]}
{"id": "C47", "title": "END ends the assembly", "statement": "Lines after an END directive are not assembled.", "quantifier": "every source and every position of END", "why_tests_cant": "the effect depends on what the driver does with the code the directive returns, for any assembler", "anchors": ["driver/asm_directive.cpp: AsmDirective::encode, endAssemble", "driver/asm_driver.cpp: AsmDriver::assemble"]}
{"id": "C48", "title": "Duplicate definitions are reported", "statement": "A label, EQU or FUNCTION whose name is defined already is reported in the first pass, and the first definition stays in force.", "quantifier": "every source line, every symbol table", "why_tests_cant": "depends on what else is on the line and on the kind of the earlier definition", "anchors": ["driver/asm_directive.cpp: AsmDirective::encode, defineSymbol, defineFunction", "driver/symbol_store.cpp"]}
{"id": "C49", "title": "Listing and image agree", "statement": "The memory image holds exactly the bytes shown in the listing, at the addresses shown; where lines overlap, the last line wins.", "quantifier": "every assembler, source and pass", "why_tests_cant": "all sources, all overlaps of ORG sections", "anchors": ["driver/asm_driver.cpp: AsmDriver::assemble", "driver/bin_memory.cpp"]}
{"id": "C50", "title": "Undefined symbols are reported", "statement": "If assembly ends without an error report, no operand of an instruction or directive was undefined.", "quantifier": "every source", "why_tests_cant": "depends on the number of passes, which depends on the whole source", "anchors": ["cli/asm_commander.cpp: AsmCommander::assemble", "driver/asm_directive.cpp: AsmDirective::encode"]}
{"id": "C51", "title": "A label is the address of its line", "statement": "The value of a label is the address at which the bytes of its line are placed.", "quantifier": "every line with a label, every state", "why_tests_cant": "alignment and origin directives on labelled lines, all states", "anchors": ["driver/asm_directive.cpp: AsmDirective::encode", "src/asm_base.cpp: Assembler::defineDataConstant"]}
{"id": "C52", "title": "Data directives come to an end", "statement": "A data directive terminates on every text, well-formed or not, in the default notation.", "quantifier": "every text, symbol table, data type and address", "why_tests_cant": "unclosed strings, missing operands and garbage in any combination", "anchors": ["src/asm_base.cpp: Assembler::defineDataConstant, isString, generateString"]}
{"id": "C53", "title": "Lines are placed one after another", "statement": "A line's bytes start where the previous line's bytes end, in address units; a line without bytes leaves the location the assembler has set.", "quantifier": "every assembler, line and state", "why_tests_cant": "all lengths and address units", "anchors": ["driver/asm_driver.cpp: AsmDriver::assemble"]}
{"id": "C54", "title": "Address column", "statement": "Every line of a listing, continuation lines included, shows the address of the first byte it lists.", "quantifier": "every instruction, length, start address and listing style", "why_tests_cant": "all lengths, radixes and address units", "anchors": ["driver/list_formatter.cpp: ListFormatter::formatAddress", "driver/asm_formatter.cpp: AsmFormatter::getLine", "driver/dis_formatter.cpp: DisFormatter::formatLine"]}
{"id": "C55", "title": "Narrowing rounds correctly", "statement": "Converting an 80-bit software floating point number to binary32 or binary64 gives the number of that format nearest to it, ties to the even significand, with the same sign; numbers that round beyond the largest finite one give an infinity, infinities stay infinities and NaN stay NaN.", "quantifier": "every 80-bit number and both formats", "why_tests_cant": "2^80 numbers; subnormal results, ties and the overflow boundary are the hard cases", "anchors": ["src/float80_soft.cpp: get", "src/ieee_float.cpp: compose, normalize", "src/fixed64.cpp: round_off, shift_right"]}
{"id": "C56", "title": "Addition rounds correctly", "statement": "The sum (and difference) of two finite 80-bit software floating point numbers is the exact sum rounded to nearest, ties to even, overflowing to infinity; a zero sum is negative only if both operands are; infinities and NaN follow IEEE 754.", "quantifier": "every pair of 80-bit numbers", "why_tests_cant": "2^160 pairs; the sticky bit, cancellation and subnormals", "anchors": ["src/float80_soft.cpp: add, operator-", "src/fixed64.cpp: add, shift_right, negate, normalize"]}
{"id": "C57", "title": "Multiplication rounds correctly", "statement": "The product of two finite 80-bit software floating point numbers is the exact product rounded to nearest, ties to even.", "quantifier": "every pair of 80-bit numbers", "why_tests_cant": "2^160 pairs", "anchors": ["src/float80_soft.cpp: mul", "src/fixed64.cpp: mul"]}
{"id": "C58", "title": "Comparisons are those of the numbers", "statement": "== and < of 80-bit software floating point numbers agree with equality and order of the numbers they stand for, with -0 equal to +0, infinities at the ends, and NaN neither equal to nor less than anything.", "quantifier": "every pair of 80-bit numbers", "why_tests_cant": "2^160 pairs; the code compares by rounding a difference", "anchors": ["src/float80_soft.cpp: operator==, operator<, add"]}
{"id": "C59", "title": "Division rounds correctly", "statement": "The quotient of two finite 80-bit software floating point numbers, the divisor not zero, is the exact quotient rounded to nearest, ties to even.", "quantifier": "every pair of 80-bit numbers", "why_tests_cant": "2^160 pairs; multiword division has rare correction steps that random tests do not reach", "anchors": ["src/float80_soft.cpp: div", "src/fixed64.cpp: div"]}
{"id": "C60", "title": "mc6800 disassembly reassembles", "statement": "For every byte sequence the disassembler of the MC6800 family (MC6800, MB8861, MC6801, HD6301, MC68HC11) decodes without error, assembling the text it prints at the same address, for the same processor, yields the same bytes without error, and nothing of the text is left over.", "quantifier": "every byte sequence, address, processor and choice of output options", "why_tests_cant": "all opcodes with all operand values; direct, extended and bit number operands are told apart by their size when read, relative targets depend on the address", "anchors": ["src/asm_mc6800.cpp, dis_mc6800.cpp, table_mc6800.cpp, reg_mc6800.cpp"]}
{"id": "C61", "title": "i8051 disassembly reassembles", "statement": "For every non-empty byte sequence the i8051 disassembler decodes without error, assembling the text it prints at the same address, with smart-branch off, yields the same bytes without error, and nothing of the text is left over.", "quantifier": "every byte sequence, address and choice of output options", "why_tests_cant": "all opcodes with all operand values; bit addresses, direct bytes, 11 bit and 16 bit addresses are told apart by their text, relative and 11 bit targets depend on the address", "anchors": ["src/asm_i8051.cpp, dis_i8051.cpp, table_i8051.cpp, reg_i8051.cpp"]}
{"id": "C62", "title": "smart-branch reaches the same target in the best form", "statement": "When the long jump (or call) of the i8051 assembles without error, then with smart-branch on the short and the long name both assemble without error, to the two byte form exactly if the target is in the 2 KiB block of the following instruction and else to the three byte form, and the disassembler reads this as a jump (or call) to the same target as that of the long form.", "quantifier": "every operand expression, symbol table, address", "why_tests_cant": "every address with every target, for every way to write the target", "anchors": ["src/asm_i8051.cpp: encodeOperand, AsmI8051::maySmartBranch", "src/dis_i8051.cpp: decodeRAddr, decodeImpl"]}
{"id": "C63", "title": "i8048 disassembly reassembles", "statement": "For every processor of the i8048 family and every non-empty byte sequence its disassembler decodes without error to an instruction within the 4 KiB memory, assembling the text it prints at the same address yields the same bytes without error, and nothing of the text is left over.", "quantifier": "every byte sequence, address, processor of the family and choice of output options", "why_tests_cant": "all opcodes with all operand values at all addresses; conditional jumps have a target in the page of the next byte, registers, ports and bits are part of the opcode", "anchors": ["src/asm_i8048.cpp, dis_i8048.cpp, table_i8048.cpp, reg_i8048.cpp"]}
{"id": "C64", "title": "The bytes of a disassembled instruction are the first of the memory", "statement": "Whatever the memory holds, whatever the address and the options, and whether decoding succeeds or fails: the bytes a disassembler reports as those of the instruction are the first ones of the memory, in their order, each once. Nothing is skipped, repeated or invented.", "quantifier": "every memory content, address, option and processor of the modelled families, all outcomes", "why_tests_cant": "must hold for all byte sequences, including truncated instructions and those that are no instruction", "anchors": ["src/insn_base.cpp: readByte", "src/dis_*.cpp: decodeImpl"]}
{"id": "C65", "title": "The disassembly of what was assembled is another way to write it", "statement": "For every source line assembled without error, the text that the disassembler prints for its bytes, with any output options, is again assembled without error at the same address, to the very same bytes.", "quantifier": "every source line, symbol environment, address, processor of the modelled families, output option", "why_tests_cant": "the lines are unbounded text with arbitrary operand expressions", "anchors": ["src/asm_*.cpp: encodeImpl, parseOperand", "src/dis_*.cpp: decodeImpl", "src/table_*.cpp: searchName, searchOpCode"]}
{"id": "C66", "title": "MOS6502 disassembly reassembles", "statement": "For every processor of the MOS6502 family (6502, 65SC02, R65C02, W65C02S, 65816) and every byte sequence its disassembler decodes without error, with whatever accepted history of cpu, longa and longi settings shared by both, assembling the text it prints at the same address (smart-branch off) yields the same bytes without error, and nothing of the text is left over.", "quantifier": "every byte sequence, address, processor of the family, history of settings and choice of output options", "why_tests_cant": "all opcodes with all operand values at all addresses; sizes of immediates depend on the history of settings, the size of addresses on their value and on prefixes", "anchors": ["src/asm_mos6502.cpp, dis_mos6502.cpp, table_mos6502.cpp, insn_mos6502.h"]}
{"id": "C67", "title": "DEC floating point numbers are correctly rounded", "statement": "Converting a finite number to a DEC 16, 32 or 64 bit pattern gives the pattern of the number nearest to it (ties to even); a number whose rounding is 2^127 or more is reported as out of range, one below 2^-128 becomes zero, and NaN and infinity are reported. Reading a pattern gives exactly the number it stands for, and writing that number again gives the same pattern, unless its exponent field is zero.", "quantifier": "every 80-bit number, every bit pattern of the three formats", "why_tests_cant": "2^80 numbers and 2^64 patterns; rounding goes wrong at carries and at ties only", "anchors": ["src/dec_float.cpp: set, operator float80_t, bits", "src/fixed64.cpp: round_off, normalize"]}
{"id": "C68", "title": "IBM floating point numbers are correctly rounded", "statement": "Converting a finite number to an IBM 32 or 64 bit pattern gives the normalized pattern of the number nearest to it with 6 or 14 hexadecimal digits (ties to even); a number whose rounding is 16^63 or more is reported as out of range, one below 16^-65 becomes zero, and NaN and infinity are reported. Reading a pattern gives exactly the number it stands for, and writing that number again gives the same pattern if it is normalized.", "quantifier": "every 80-bit number, every bit pattern of the two formats", "why_tests_cant": "2^80 numbers and 2^64 patterns; rounding goes wrong at carries and at ties only", "anchors": ["src/ibm_float.cpp: set, operator float80_t, bits", "src/fixed64.cpp: round_off, normalize"]}
{"id": "C69", "title": "Options set what they name", "statement": "Setting an option by name (in any case) and text, with a text that is a value of it, is accepted and gives that setting that value and changes no other setting, except that turning one of the styles c-style and intel-hex on turns the other off. A text that is no value is refused. If an error is returned no setting changes; an unknown name is an error. So after any series of options, a setting has the last value given for it, and the two styles are never both on. The directive option of the assembler does the same.", "quantifier": "every option name and text, every state of the settings, every series of calls, every CPU", "why_tests_cant": "texts and series of calls are unbounded; that other settings are untouched is a statement about every call", "anchors": ["src/option_base.cpp: parseBoolOption, parseIntOption, parseCharOption, Options::setOption", "src/dis_base.cpp: setOption, setCStyle, setIntelHex", "src/asm_base.cpp: setOption, parseBoolOption"]}
{"id": "C70", "title": "Z80 disassembly reassembles", "statement": "For every non-empty byte sequence the Z80 disassembler decodes without error, including the prefixed instructions and the operations on bits of indexed bytes, assembling the text it prints at the same address yields the same bytes without error, and nothing of the text is left over.", "quantifier": "every byte sequence, address, and choice of output options, the letter of the location symbol being the one of the assembler where relative targets are printed with it", "why_tests_cant": "five pages of opcodes with all operand values at all addresses; the same entries serve both index registers, and a prefix changes the meaning of the register numbers in the code", "anchors": ["src/asm_z80.cpp, dis_z80.cpp, table_z80.cpp, reg_z80.cpp"]}
{"id": "C71", "title": "f3850 disassembly reassembles", "statement": "For every non-empty byte sequence the F3850 disassembler decodes without error, assembling the text it prints at the same address yields the same bytes without error, and nothing of the text is left over.", "quantifier": "every byte sequence, address, and choice of output options, the letter of the location symbol being one of the assembler where relative targets are printed with it", "why_tests_cant": "all opcodes with all operand values at all addresses; registers, ports, constants and status bits are part of the opcode, and the same codes have general and special names", "anchors": ["src/asm_f3850.cpp, dis_f3850.cpp, table_f3850.cpp, reg_f3850.cpp"]}
{"id": "C72", "title": "tms7000 disassembly reassembles", "statement": "For every non-empty byte sequence the TMS7000 disassembler decodes without error, assembling the text it prints at the same address yields the same bytes without error, and nothing of the text is left over.", "quantifier": "every byte sequence, address, and choice of output options, the letter of the location symbol being that of the assembler where relative targets are printed with it", "why_tests_cant": "all opcodes with all operand values at all addresses; the registers 0 and 1 are printed by their names, for which there are other instructions, and a target is measured from the end of an instruction of two to four bytes", "anchors": ["src/asm_tms7000.cpp, dis_tms7000.cpp, table_tms7000.cpp, reg_tms7000.cpp"]}
{"id": "C73", "title": "mc6805 disassembly reassembles", "statement": "For every non-empty byte sequence the mc6805, mc146805 or mc68hc05 disassembler decodes without error, assembling the text it prints at the same address and with the same number of address bits yields the same bytes without error, and nothing of the text is left over.", "quantifier": "every processor of the family, byte sequence, number of address bits, address, and choice of output options, the letter of the location symbol being that of the assembler where relative targets are printed with it", "why_tests_cant": "all opcodes with all operand values at all addresses; one name stands for up to six addressing modes, chosen from the value, the prefix and the index of the operand, and a small value is a bit number, a direct address or an immediate, depending on the instruction", "anchors": ["src/asm_mc6805.cpp, dis_mc6805.cpp, table_mc6805.cpp, config_mc6805.h, reg_mc6805.cpp"]}
{"id": "C74", "title": "ins8070 disassembly reassembles", "statement": "For every non-empty byte sequence the INS8070 disassembler decodes without error, assembling the text it prints at the same address yields the same bytes without error, and nothing of the text is left over.", "quantifier": "every byte sequence, address, and choice of output options (also the letter for immediate data), the letter of the location symbol being one of the assembler where relative targets are printed with it", "why_tests_cant": "all opcodes with all operand values at all addresses; one operand of an instruction has eight forms that share the bits of the code, numbers with a register after a comma look like two operands, and targets are one less in the code than in the text when the program goes there", "anchors": ["src/asm_ins8070.cpp, dis_ins8070.cpp, table_ins8070.cpp, reg_ins8070.cpp"]}
{"id": "C75", "title": "tms32010 disassembly reassembles", "statement": "For every sequence of at least one byte the TMS32010 and TMS32015 disassembler decodes without error, assembling the text it prints at the same address yields the same bytes without error, and nothing of the text is left over.", "quantifier": "every byte sequence, address, both processors, and choice of output options", "why_tests_cant": "all codes of 16 bits with all options; three bits of the code select whether there is a next register, shift counts of 0 are printed only before one, and a memory operand shares the lower byte with LARP", "anchors": ["src/asm_tms32010.cpp, dis_tms32010.cpp, table_tms32010.cpp, reg_tms32010.cpp"]}
{"id": "C76", "title": "tms9900 disassembly reassembles", "statement": "For every sequence of at least one byte a disassembler of the TMS9900 family (TMS9900, TMS9980, TMS9995, TMS99105, TMS99110) decodes without error, assembling the text it prints at the same address yields the same bytes without error, and nothing of the text is left over.", "quantifier": "every byte sequence, address, processor of the family, and choice of output options", "why_tests_cant": "all codes of 16 bits, with up to three more words after them, at all addresses, with all options; general addresses share a code with registers, and a second code word of the TMS99105 carries the operands of some instructions", "anchors": ["src/asm_tms9900.cpp, dis_tms9900.cpp, table_tms9900.cpp, reg_tms9900.cpp"]}
{"id": "C77", "title": "scn2650 disassembly reassembles", "statement": "For every byte sequence the disassembler of the SCN2650 decodes without error, assembling the text it prints at the same address yields the same bytes without error, and nothing of the text is left over.", "quantifier": "every byte sequence, address and choice of output options", "why_tests_cant": "all instructions of up to three bytes at all addresses, with all options; registers and conditions are printed in the name, targets lie in a page of 8K of which the ends join, and the index changes the register that is printed", "anchors": ["src/asm_scn2650.cpp, dis_scn2650.cpp, table_scn2650.cpp, reg_scn2650.cpp, entry_scn2650.h, config_scn2650.h"]}
{"id": "C78", "title": "i8096 disassembly reassembles", "statement": "For every byte sequence the disassembler of the i8096 decodes without error, assembling the text it prints at the same address yields the same bytes without error, and nothing of the text is left over.", "quantifier": "every byte sequence, address and choice of output options, `use-absolute` among them", "why_tests_cant": "all instructions of up to seven bytes at all addresses, with all options; the assembler chooses among four ways to address an operand by the value of it, and the operands are encoded in another order than they are written", "anchors": ["src/asm_i8096.cpp, dis_i8096.cpp, table_i8096.cpp, entry_i8096.h, insn_i8096.h, config_i8096.h"]}
{"id": "C79", "title": "MN1610 disassembly reassembles", "statement": "For every byte sequence the disassembler of the MN1610, the MN1613 or the MN1613A decodes without error, assembling the text it prints at the same address yields the same bytes without error, and nothing of the text is left over.", "quantifier": "every CPU of the family, byte sequence, address and choice of output options", "why_tests_cant": "all codes of one or two words at all addresses, with all options; the assembler chooses among eight ways to address the memory by the value of the operand and the address of the instruction, and optional operands are left out of the text", "anchors": ["src/asm_mn1610.cpp, dis_mn1610.cpp, table_mn1610.cpp, entry_mn1610.h, insn_mn1610.h, reg_mn1610.cpp, config_mn1610.h"]}
{"id": "C80", "title": "PDP-8 disassembly reassembles", "statement": "For every word the disassembler of the IM6100 or the HD6120 decodes without error, assembling the text it prints at the same address yields the same bytes without error, and nothing of the text is left over.", "quantifier": "every CPU of the family, word, address and choice of output options", "why_tests_cant": "all words at all addresses, with all options; the text of an operate instruction is a list of micro-operations that the disassembler makes from the bits and the assembler puts together again, where a name may belong to several groups", "anchors": ["src/asm_pdp8.cpp, dis_pdp8.cpp, table_pdp8.cpp, entry_pdp8.h, insn_pdp8.h, reg_pdp8.h, config_pdp8.h"]}
{"id": "C81", "title": "TLCS-90 disassembly reassembles", "statement": "For every byte sequence the disassembler of the TLCS-90 decodes without error, assembling the text it prints at the same address yields the same bytes without error, and nothing of the text is left over.", "quantifier": "every byte sequence, address and choice of output options", "why_tests_cant": "all byte sequences at all addresses, with all options; an instruction may have a prefix with an operand of its own, and the assembler finds the page, the prefix and the code again from the modes it reads off the text, where several entries take the same modes", "anchors": ["src/asm_tlcs90.cpp, dis_tlcs90.cpp, table_tlcs90.cpp, entry_tlcs90.h, insn_tlcs90.h, reg_tlcs90.cpp, config_tlcs90.h"]}
