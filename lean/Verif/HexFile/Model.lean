import Verif.BinMemory.Model
import Verif.Base.Ctype
/-
Model of driver/bin_encoder.cpp, driver/bin_decoder.cpp, driver/moto_srec.cpp and
driver/intel_hex.cpp.  Text is a list of lines, a line a list of characters without the
newline: `TextPrinter::format(... "\n")`/`println` end a line, `TextReader::readLine` returns
one line without its newline.
-/
namespace Libasm.HexFile
open Libasm.Ctype Libasm.BinMemory

/-! ### printf -/

/-- The digit `%X` prints for a value below 16. -/
def hexDigit (n : Nat) : Char := Char.ofNat (if n < 10 then 48 + n else 55 + n)

/-- `printf("%02X", n)` for a `uint8_t`. -/
def hex2 (n : Nat) : List Char := [hexDigit (n / 16 % 16), hexDigit (n % 16)]

/-- `printf("%04X", n)` for a `uint16_t`. -/
def hex4 (n : Nat) : List Char := hex2 (n / 256 % 256) ++ hex2 (n % 256)

/-- `printf("%08X", n)` for a `uint32_t`. -/
def hex8 (n : Nat) : List Char := hex4 (n / 65536 % 65536) ++ hex4 (n % 65536)

/-- `printf("%2X", n)` for a `uint8_t`: padded with a blank. -/
def hexBlank2 (n : Nat) : List Char :=
  if n < 16 then [' ', hexDigit n] else hex2 n

/-! ### BinEncoder -/

/-- driver/bin_encoder.cpp:22-29 `addressSize`. -/
def addressSize (bits : Nat) : Nat :=
  if bits ≤ 16 then 2 else if bits ≤ 24 then 3 else 4

/-- driver/bin_encoder.cpp:39-44: the records of one block; `none` when the loop has not ended
after `fuel` iterations. -/
def recordLoop (recordSize : Nat) (e : Entry) : Nat → Nat → Option (List (Nat × List UInt8))
  | fuel, i =>
    if i < e.size then
      match fuel with
      | 0 => none
      | fuel + 1 =>
        let size := if recordSize ≥ e.size - i then e.size - i else recordSize
        (recordLoop recordSize e fuel (i + recordSize)).map
          (((e.base + i) % 2 ^ 32, (e.data.drop i).take size) :: ·)
    else some []

/-- driver/bin_encoder.cpp:38-45: the records of all blocks, in order. -/
def recordsOf (recordSize fuel : Nat) : List Entry → Option (List (Nat × List UInt8))
  | [] => some []
  | e :: r =>
    match recordLoop recordSize e fuel 0, recordsOf recordSize fuel r with
    | some a, some b => some (a ++ b)
    | _, _ => none

/-- driver/bin_encoder.cpp:36-48: the sequence of `(addr, data)` arguments of the virtual
`encode` calls; `none` when iteration does not end. -/
def records (recordSize fuel : Nat) (m : Blocks) : Option (List (Nat × List UInt8)) :=
  match walk m with
  | none => none
  | some es => recordsOf recordSize fuel es

/-! ### BinDecoder -/

/-- driver/bin_decoder.cpp:51-53 `parseHex` on an `isxdigit` character. -/
def parseHex (c : Char) : Nat :=
  if isDigit c then c.toNat - 48 else (toUpper c).toNat - 65 + 10

/-- driver/bin_decoder.cpp:55-65 `parseByte`. -/
def parseByte : List Char → Option (Nat × List Char)
  | c1 :: c2 :: r =>
    if isXdigit c1 && isXdigit c2 then some (parseHex c1 * 16 + parseHex c2, r) else none
  | _ => none

/-- driver/bin_decoder.cpp:67-76 `parseUint16`. -/
def parseUint16 (s : List Char) : Option (Nat × List Char) :=
  match parseByte s with
  | none => none
  | some (h, s) => match parseByte s with
    | none => none
    | some (l, s) => some (h * 256 + l, s)

/-- driver/bin_decoder.cpp:78-88 `parseUint24`. -/
def parseUint24 (s : List Char) : Option (Nat × List Char) :=
  match parseByte s with
  | none => none
  | some (h, s) => match parseUint16 s with
    | none => none
    | some (l, s) => some (h * 65536 + l, s)

/-- driver/bin_decoder.cpp:90-99 `parseUint32`. -/
def parseUint32 (s : List Char) : Option (Nat × List Char) :=
  match parseUint16 s with
  | none => none
  | some (h, s) => match parseUint16 s with
    | none => none
    | some (l, s) => some (h * 65536 + l, s)

/-- `addSum8` (driver/moto_srec.h:41, driver/intel_hex.h:45): `uint8_t` addition. -/
def addSum8 (s d : Nat) : Nat := (s + d % 256) % 256
/-- `addSum16` (driver/moto_srec.h:42-45). -/
def addSum16 (s d : Nat) : Nat := addSum8 (addSum8 s (d / 256)) d
/-- `addSum24` (driver/moto_srec.h:46-49). -/
def addSum24 (s d : Nat) : Nat := addSum16 (addSum8 s (d / 65536)) d
/-- `addSum32` (driver/moto_srec.h:50-53). -/
def addSum32 (s d : Nat) : Nat := addSum16 (addSum16 s (d / 65536)) d

/-- The data loop of both decoders (driver/moto_srec.cpp:121-127, driver/intel_hex.cpp:138-144):
bytes go to memory as they are parsed. Result: memory and, unless parsing failed, sum and rest. -/
def readData : Nat → Nat → Nat → List Char → Blocks → Blocks × Option (Nat × List Char)
  | 0, _, sum, s, m => (m, some (sum, s))
  | n + 1, addr, sum, s, m =>
    match parseByte s with
    | none => (m, none)
    | some (d, s) =>
      readData n (addr + 1) (addSum8 sum d) s (writeByte m (addr % 2 ^ 32) (UInt8.ofNat d))

/-! ### Motorola S-record -/

namespace Moto

/-- driver/moto_srec.cpp:32-34 `getSum`: ones' complement in 8 bits. -/
def getSum (s : Nat) : Nat := 255 - s % 256

/-- driver/moto_srec.cpp:36-38 `begin`. -/
def beginLine : List Char := "S0030000FC".toList

/-- driver/moto_srec.cpp:67-78 `end`. -/
def endLine (bits : Nat) : List Char :=
  match addressSize bits with
  | 2 => "S9030000FC".toList
  | 3 => "S804000000FB".toList
  | _ => "S70500000000FA".toList

/-- driver/moto_srec.cpp:60-63: data digits. -/
def dataHex (data : List UInt8) : List Char := data.flatMap (fun d => hex2 d.toNat)

/-- driver/moto_srec.cpp:40-65 `encode`: one record line. -/
def encode (bits addr : Nat) (data : List UInt8) : List Char :=
  let len := (addressSize bits + data.length + 1) % 256
  let sum := addSum8 0 len
  let (head, sum) :=
    match addressSize bits with
    | 2 => (['S', '1'] ++ hex2 len ++ hex4 (addr % 65536), addSum16 sum addr)
    | 3 => (['S', '2'] ++ hex2 len ++ hex2 (addr / 65536 % 256) ++ hex4 (addr % 65536),
            addSum24 sum addr)
    | _ => (['S', '3'] ++ hex2 len ++ hex8 addr, addSum32 sum addr)
  let sum := data.foldl (fun s d => addSum8 s d.toNat) sum
  head ++ dataHex data ++ hex2 (getSum sum)

/-- driver/moto_srec.cpp:99-117: the address field by record type; `(addr, len, sum, rest)`. -/
def parseAddress (type : Char) (len sum : Nat) (s : List Char) :
    Option (Nat × Nat × Nat × List Char) :=
  if type = '1' then
    if len < 2 then none else
      match parseUint16 s with
      | none => none
      | some (a, s) => some (a, len - 2, addSum16 sum a, s)
  else if type = '2' then
    if len < 3 then none else
      match parseUint24 s with
      | none => none
      | some (a, s) => some (a, len - 3, addSum24 sum a, s)
  else
    if len < 4 then none else
      match parseUint32 s with
      | none => none
      | some (a, s) => some (a, len - 4, addSum32 sum a, s)

/-- driver/moto_srec.cpp:128-135: the checksum. -/
def checkEnd (size : Nat) : Blocks × Option (Nat × List Char) → Int × Blocks
  | (m, none) => (-1, m)
  | (m, some (sum, s)) =>
    match parseByte s with
    | none => (-1, m)
    | some (v, _) => if v ≠ getSum sum then (-1, m) else (size, m)

/-- driver/moto_srec.cpp:92-135: a data record after its type character. -/
def decodeData (type : Char) (s : List Char) (m : Blocks) : Int × Blocks :=
  match parseByte s with
  | none => (-1, m)
  | some (len, s) =>
    match parseAddress type len (addSum8 0 len) s with
    | none => (-1, m)
    | some (addr, len, sum, s) =>
      if len < 1 then (-2, m)
      else checkEnd (len - 1) (readData (len - 1) addr sum s m)

/-- driver/moto_srec.cpp:80-136 `decode`: one line; result code and memory. -/
def decode (line : List Char) (m : Blocks) : Int × Blocks :=
  match line with
  | 'S' :: type :: s =>
    if type = '0' then (0, m)
    else if type = '9' ∨ type = '8' ∨ type = '7' then (0, m)
    else if type = '5' ∨ type = '6' then (0, m)
    else if type ≠ '1' ∧ type ≠ '2' ∧ type ≠ '3' then (-1, m)
    else decodeData type s m
  | _ => (-1, m)

/-- driver/bin_encoder.cpp:36-48 with the S-record virtual functions: the lines written. -/
def encodeImage (bits recordSize fuel : Nat) (m : Blocks) : Option (List (List Char)) :=
  (records recordSize fuel m).map fun rs =>
    beginLine :: rs.map (fun r => encode bits r.1 r.2) ++ [endLine bits]

end Moto

/-! ### Intel HEX -/

namespace Intel

/-- driver/intel_hex.cpp:32-34 `getSum`: two's complement in 8 bits. -/
def getSum (s : Nat) : Nat := (256 - s % 256) % 256

/-- Encoder state: `_last_addr`, `_next_addr` (driver/intel_hex.h:31-32). -/
structure St where
  last : Nat
  next : Nat
deriving Repr, DecidableEq

/-- driver/intel_hex.cpp:99-102 `reset`. -/
def reset : St := ⟨2 ^ 32 - 1, 0⟩

/-- driver/intel_hex.cpp:64-78 `formatEla`. -/
def formatEla (bits addr : Nat) : List (List Char) :=
  if addressSize bits ≤ 2 then []
  else
    let ela := addr / 65536 % 65536
    let sum := addSum16 (addSum8 (addSum16 (addSum8 0 2) 0) 4) ela
    [[':'] ++ hex2 2 ++ hex4 0 ++ hex2 4 ++ hex4 ela ++ hexBlank2 (getSum sum)]

/-- driver/intel_hex.cpp:80-93 `encodeLine`; `addr` is narrowed to 16 bits. -/
def encodeLine (addr : Nat) (data : List UInt8) : List Char :=
  let addr := addr % 65536
  let size := data.length % 256
  let sum := addSum8 (addSum16 (addSum8 0 size) addr) 0
  let sum := data.foldl (fun s d => addSum8 s d.toNat) sum
  [':'] ++ hex2 size ++ hex4 addr ++ hex2 0 ++ Moto.dataHex data ++ hex2 (getSum sum)

/-- driver/intel_hex.cpp:41-61 `encode`. -/
def encode (bits : Nat) (st : St) (addr : Nat) (data : List UInt8) : List (List Char) × St :=
  let ela := if addr ≠ st.next ∨ addr / 65536 ≠ st.last / 65536 then formatEla bits addr else []
  let end_ := (addr + data.length) % 2 ^ 32
  if addr / 65536 ≠ end_ / 65536 then
    let chunk := (end_ / 65536 * 65536 + 2 ^ 32 - addr) % 256
    let first := encodeLine addr (data.take chunk)
    let addr2 := (addr + chunk) % 2 ^ 32
    let rest := data.drop chunk
    if rest.length = 0 then (ela ++ [first], ⟨addr, addr2⟩)
    else (ela ++ [first, encodeLine addr2 rest], ⟨addr2, (addr2 + rest.length) % 2 ^ 32⟩)
  else (ela ++ [encodeLine addr data], ⟨addr, end_⟩)

/-- driver/intel_hex.cpp:95-97 `end`. -/
def endLine : List Char := ":00000001FF".toList

/-- The `encode` calls of one image. -/
def encodeAll (bits : Nat) : St → List (Nat × List UInt8) → List (List Char)
  | _, [] => [endLine]
  | st, r :: rs => (encode bits st r.1 r.2).1 ++ encodeAll bits (encode bits st r.1 r.2).2 rs

/-- driver/bin_encoder.cpp:36-48 with the Intel HEX virtual functions. -/
def encodeImage (bits recordSize fuel : Nat) (m : Blocks) : Option (List (List Char)) :=
  (records recordSize fuel m).map (encodeAll bits reset)

/-- driver/intel_hex.cpp:145-152: the checksum. -/
def checkEnd (len : Nat) : Blocks × Option (Nat × List Char) → Int × Blocks
  | (m, none) => (-1, m)
  | (m, some (sum, s)) =>
    match parseByte s with
    | none => (-1, m)
    | some (v, _) => if addSum8 sum v ≠ 0 then (-1, m) else (len, m)

/-- driver/intel_hex.cpp:121-132: extended linear address record. -/
def decodeEla (ela sum : Nat) (s : List Char) (m : Blocks) : Int × Nat × Blocks :=
  match parseUint16 s with
  | none => (-1, ela, m)
  | some (e, s) =>
    match parseByte s with
    | none => (-1, e * 65536, m)
    | some (v, _) => if addSum8 (addSum16 sum e) v ≠ 0 then (-1, e * 65536, m) else (0, e * 65536, m)

/-- driver/intel_hex.cpp:104-153 `decode`: `ela` is `_next_addr`.  `_next_addr | addr` is a sum
because `_next_addr` is a multiple of 2^16 while decoding. -/
def decode (line : List Char) (ela : Nat) (m : Blocks) : Int × Nat × Blocks :=
  match line with
  | ':' :: s =>
    match parseByte s with
    | none => (-1, ela, m)
    | some (len, s) =>
      match parseUint16 s with
      | none => (-1, ela, m)
      | some (addr, s) =>
        match parseByte s with
        | none => (-1, ela, m)
        | some (type, s) =>
          let sum := addSum8 (addSum16 (addSum8 0 len) addr) type
          if type = 4 then decodeEla ela sum s m
          else if type ≠ 0 then (0, ela, m)
          else
            let r := checkEnd len (readData len (ela + addr) sum s m)
            (r.1, ela, r.2)
  | _ => (-1, ela, m)

end Intel

/-! ### Reading a file -/

/-- driver/bin_decoder.cpp:29-48 once the S-record decoder is chosen; `size` so far. -/
def decodeMoto : List (List Char) → Int → Blocks → Int × Blocks
  | [], size, m => (size, m)
  | l :: ls, size, m =>
    let (len, m) := Moto.decode l m
    if len < 0 then (len, m) else decodeMoto ls (size + len) m

/-- driver/bin_decoder.cpp:29-48 once the Intel HEX decoder is chosen. -/
def decodeIntel : List (List Char) → Nat → Int → Blocks → Int × Blocks
  | [], _, size, m => (size, m)
  | l :: ls, ela, size, m =>
    let (len, ela, m) := Intel.decode l ela m
    if len < 0 then (len, m) else decodeIntel ls ela (size + len) m

/-- driver/bin_decoder.cpp:25-49 `decode`: the first line selects the format. -/
def decodeText (lines : List (List Char)) (m : Blocks) : Int × Blocks :=
  match lines with
  | [] => (0, m)
  | ('S' :: _) :: _ => decodeMoto lines 0 m
  | (':' :: _) :: _ => decodeIntel lines 0 0 m
  | _ => (-1, m)

end Libasm.HexFile
