/-
src/error_reporter.h:27-96 `enum Error`: every error code of the library.
-/
namespace Libasm

/-- src/error_reporter.h:27-96 -/
inductive Err
  | OK
  -- Disassembler
  | NO_MEMORY | INTERNAL_ERROR | UNKNOWN_POSTBYTE | ILLEGAL_REGISTER | ILLEGAL_OPERAND
  | ILLEGAL_SIZE | ILLEGAL_OPERAND_MODE | ILLEGAL_SEGMENT | BUFFER_OVERFLOW | OVERWRAP_SEGMENT
  | INVALID_INSTRUCTION | SUBOPTIMAL_INSTRUCTION | FLOAT_NOT_SUPPORTED
  -- Assembler
  | UNKNOWN_INSTRUCTION | UNKNOWN_REGISTER | UNKNOWN_OPERAND | OPERAND_NOT_ALLOWED
  | OPERAND_TOO_FAR | ILLEGAL_BIT_NUMBER | GARBAGE_AT_END | DUPLICATE_REGISTER
  | REGISTER_NOT_ALLOWED | MISSING_COMMA | NOT_BIT_ADDRESSABLE | OPERAND_NOT_ALIGNED
  | REGISTER_NOT_ALIGNED | OPCODE_HAS_NO_EFFECT | REGISTERS_OVERLAPPED | MISSING_CLOSING_BRACKET
  -- ValueParser
  | ILLEGAL_CONSTANT | OVERFLOW_RANGE | MISSING_CLOSING_PAREN | MISSING_CLOSING_QUOTE
  | UNKNOWN_ESCAPE_SEQUENCE | OPERATOR_NOT_ASSOCIATIVE | DIVIDE_BY_ZERO | UNDEFINED_SYMBOL
  | TOO_COMPLEX_EXPRESSION | MISSING_FUNC_ARGUMENT | TOO_FEW_FUNC_ARGUMENT
  | TOO_MANY_FUNC_ARGUMENT | DUPLICATE_FUNCTION | NOT_AN_EXPECTED | MISSING_OPERAND
  | INTEGER_REQUIRED | UNDERFLOW_RANGE
  -- AsmDirective
  | UNKNOWN_DIRECTIVE | ILLEGAL_LABEL | DUPLICATE_LABEL | MISSING_LABEL
  | MISSING_CLOSING_DQUOTE | UNSUPPORTED_CPU | TOO_MANY_INCLUDE | NO_INCLUDE_FOUND
  | MISSING_CLOSING_DELIMITER | END_ASSEMBLE
  -- Command line
  | UNKNOWN_OPTION
deriving DecidableEq, Repr

end Libasm
