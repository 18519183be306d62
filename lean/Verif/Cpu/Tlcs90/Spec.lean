/-
The instructions of the TLCS-90 that the assembler writes in another way.
-/
namespace Libasm.Cpu.Tlcs90.Spec

/-- The instructions that have a shorter or an equal one, which the assembler takes for the same text:
`LD A, (0FFnnH)` and others of the direct page, of the accumulator and of the stack pointer. -/
def Twin : List Nat → Bool
  | 0x2e :: _ | 0x4a :: _ => true
  | 0xe7 :: _ :: c :: _ => c == 0x2e || c == 0x4a || (0x60 ≤ c && c ≤ 0x67) || (0x70 ≤ c && c ≤ 0x77) || c == 0x87 ||
      c == 0x8f || c == 0x97 || c == 0x9f || (0xa8 ≤ c && c ≤ 0xbf)
  | 0xe3 :: _ :: h :: _ => h == 0xff
  | 0xef :: _ :: c :: _ => c == 0x26 || c == 0x37 || c == 0x3f || c == 0x42
  | 0xeb :: _ :: h :: c :: _ => c == 0xc8 || c == 0xd8 || (h == 0xff && c < 0x80)
  | 0xfa :: c :: _ => c == 0x36 || (0x38 ≤ c && c ≤ 0x3f)
  | 0xfe :: c :: _ => (0x30 ≤ c && c ≤ 0x37) || c == 0x3a || (0x68 ≤ c && c ≤ 0x6f) || c == 0xd8
  | p :: c :: _ => (p == 0xf8 || p == 0xf9 || p == 0xfb || p == 0xfc || p == 0xfd) && (c == 0x36 || c == 0x3a)
  | _ => false

/-- What the assembler makes of a condition `C` after an open parenthesis: it is no instruction. -/
def Garbled : List Nat → Bool
  | [0xef, _] => true
  | [p, c] => [0xe8, 0xe9, 0xea, 0xec, 0xed, 0xee, 0xf7, 0xfe].contains p && (c == 0xef || c == 0xff)
  | [p, _, c] => [0xf4, 0xf5, 0xf6].contains p && (c == 0xef || c == 0xff)
  | [p, _, _, c] => p == 0xeb && (c == 0xef || c == 0xff)
  | _ => false

end Libasm.Cpu.Tlcs90.Spec
