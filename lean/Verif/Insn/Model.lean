import Verif.Base.Error
/-
Model of the instruction buffer: src/insn_base.h, src/insn_base.cpp, and of the error slot it
inherits from src/error_reporter.h.

`none` as the result of an operation stands for undefined behaviour (an access outside `_bytes`,
a remainder by zero).  Narrowing conversions of arguments (`uint8_t val`, `uint8_t pos`, ...) are
written out as remainders.  The name buffer and floating point emitters are not modelled here.
-/
namespace Libasm.Insn

/-! ### The error slot -/

/-- src/error_reporter.h:98-187 `ErrorAt`: an error code and the place it is about. A place is a
pointer into the source line; `pos` is any type of places. -/
structure ErrorAt (pos : Type) where
  error : Err
  at_ : pos
deriving DecidableEq, Repr

/-- One call of a reporting method of `ErrorAt`. -/
inductive Report (pos : Type)
  /-- `setErrorIf(Error)` and `setErrorIf(const ErrorReporter &)`, error_reporter.h:127,129 -/
  | errorIf (e : Err)
  /-- `setErrorIf(const ErrorAt &o)`, error_reporter.h:134 -/
  | copyIf (o : ErrorAt pos)
  /-- the forms with a place (ErrorAt, StrScanner or StrBuffer) and an error, error_reporter.h:139,
  146, 153, 160, 167, 174 -/
  | errorAtIf (p : pos) (e : Err)

/-- src/error_reporter.h:108,127,134,139-141: state after the call and the returned error. -/
def report {pos : Type} (s : ErrorAt pos) : Report pos → ErrorAt pos × Err
  | .errorIf e => if s.error ≠ .OK then (s, s.error) else ({ s with error := e }, e)
  | .copyIf o =>
    if s.error = .OK ∧ o.error ≠ .OK then ({ at_ := o.at_, error := o.error }, o.error)
    else (s, s.error)
  | .errorAtIf p e =>
    if s.error = .OK ∧ e ≠ .OK then ({ at_ := p, error := e }, e) else (s, s.error)

/-- A sequence of calls; the returned errors in order. -/
def reports {pos : Type} (s : ErrorAt pos) : List (Report pos) → ErrorAt pos × List Err
  | [] => (s, [])
  | r :: rs =>
    let (s', e) := report s r
    let (s'', es) := reports s' rs
    (s'', e :: es)

/-! ### The instruction buffer -/

/-- src/insn_base.h:132: `MAX_CODE` -/
def maxCode : Nat := 64

/-- src/insn_base.h:124-133: fields of `Insn`, without the name. `bytes` is the array `_bytes`. -/
structure Buf where
  address : Nat
  length : Nat
  bytes : List Nat
  error : Err
deriving DecidableEq, Repr

/-- `_bytes[pos] = val`: undefined outside the array. -/
def store (bytes : List Nat) (pos val : Nat) : Option (List Nat) :=
  if pos < bytes.length then some (bytes.set pos val) else none

/-- `setErrorIf(error)` on the instruction, src/error_reporter.h:108. -/
def Buf.setErrorIf (b : Buf) (e : Err) : Buf × Err :=
  if b.error ≠ .OK then (b, b.error) else ({ b with error := e }, e)

/-- src/insn_base.cpp:23-25 constructor. -/
def Buf.new (addr : Nat) : Buf :=
  { address := addr % 4294967296, length := 0, bytes := List.replicate maxCode 0, error := .OK }

/-- src/insn_base.cpp:27-36 `reset(addr, length)`. -/
def Buf.reset (b : Buf) (addr length : Nat) : Buf :=
  let length := length % 256
  let length := if length ≥ maxCode then maxCode else length
  { address := addr % 4294967296, length := length
    bytes := b.bytes.take length ++ List.replicate (maxCode - length) 0, error := .OK }

/-- src/insn_base.cpp:38-43 `align(step)`; a zero step is a remainder by zero. -/
def Buf.align (b : Buf) (step : Nat) : Option Buf :=
  let step := step % 256
  if step = 0 then none
  else
    let rem := (b.address % step) % 256
    some (if rem ≠ 0 then { b with address := (b.address + (step - rem)) % 4294967296 } else b)

/-- src/insn_base.cpp:45-52 `emitByte(val, pos)`. -/
def Buf.emitByteAt (b : Buf) (val pos : Nat) : Option (Buf × Err) :=
  let val := val % 256
  let pos := pos % 256
  if pos ≥ maxCode then some (b.setErrorIf .NO_MEMORY)
  else
    match store b.bytes pos val with
    | none => none
    | some bytes =>
      let pos := pos + 1
      some ({ b with bytes := bytes, length := if b.length < pos then pos else b.length }, .OK)

/-- Two calls; the result is that of the second. -/
def both (f : Buf → Option (Buf × Err)) (g : Buf → Option (Buf × Err)) (b : Buf) :
    Option (Buf × Err) :=
  match f b with
  | none => none
  | some (b, _) => g b

/-- src/insn_base.cpp:54-57 `emitUint16Be(data, pos)`. -/
def Buf.emitUint16BeAt (data pos : Nat) : Buf → Option (Buf × Err) :=
  let data := data % 65536
  let pos := pos % 256
  both (fun b => b.emitByteAt (data >>> 8) (pos + 0)) (fun b => b.emitByteAt (data >>> 0) (pos + 1))
/-- src/insn_base.cpp:59-62 `emitUint16Le(data, pos)`. -/
def Buf.emitUint16LeAt (data pos : Nat) : Buf → Option (Buf × Err) :=
  let data := data % 65536
  let pos := pos % 256
  both (fun b => b.emitByteAt (data >>> 0) (pos + 0)) (fun b => b.emitByteAt (data >>> 8) (pos + 1))
/-- src/insn_base.cpp:64-67 `emitUint32Be(data, pos)`. -/
def Buf.emitUint32BeAt (data pos : Nat) : Buf → Option (Buf × Err) :=
  let data := data % 4294967296
  let pos := pos % 256
  both (Buf.emitUint16BeAt (data >>> 16) (pos + 0)) (Buf.emitUint16BeAt (data >>> 0) (pos + 2))
/-- src/insn_base.cpp:69-72 `emitUint32Le(data, pos)`. -/
def Buf.emitUint32LeAt (data pos : Nat) : Buf → Option (Buf × Err) :=
  let data := data % 4294967296
  let pos := pos % 256
  both (Buf.emitUint16LeAt (data >>> 0) (pos + 0)) (Buf.emitUint16LeAt (data >>> 16) (pos + 2))
/-- src/insn_base.cpp:74-77 `emitUint64Be(data, pos)`. -/
def Buf.emitUint64BeAt (data pos : Nat) : Buf → Option (Buf × Err) :=
  let data := data % 18446744073709551616
  let pos := pos % 256
  both (Buf.emitUint32BeAt (data >>> 32) (pos + 0)) (Buf.emitUint32BeAt (data >>> 0) (pos + 4))
/-- src/insn_base.cpp:79-82 `emitUint64Le(data, pos)`. -/
def Buf.emitUint64LeAt (data pos : Nat) : Buf → Option (Buf × Err) :=
  let data := data % 18446744073709551616
  let pos := pos % 256
  both (Buf.emitUint32LeAt (data >>> 0) (pos + 0)) (Buf.emitUint32LeAt (data >>> 32) (pos + 4))

/-- Number of bytes and byte order of an emitter. -/
inductive Form | byte | be16 | le16 | be32 | le32 | be64 | le64
deriving DecidableEq, Repr

/-- The emitter of a form, with an explicit position (src/insn_base.h:86-105). -/
def Buf.emitAt (f : Form) (data pos : Nat) (b : Buf) : Option (Buf × Err) :=
  match f with
  | .byte => b.emitByteAt data pos
  | .be16 => Buf.emitUint16BeAt data pos b
  | .le16 => Buf.emitUint16LeAt data pos b
  | .be32 => Buf.emitUint32BeAt data pos b
  | .le32 => Buf.emitUint32LeAt data pos b
  | .be64 => Buf.emitUint64BeAt data pos b
  | .le64 => Buf.emitUint64LeAt data pos b

/-- The emitter of a form without a position: at `_length` (src/insn_base.h:52-70). -/
def Buf.emit (f : Form) (data : Nat) (b : Buf) : Option (Buf × Err) := b.emitAt f data b.length

/-- One emit call: with or without a position. -/
structure Call where
  form : Form
  data : Nat
  pos : Option Nat
deriving DecidableEq, Repr

def Buf.call (c : Call) (b : Buf) : Option (Buf × Err) :=
  match c.pos with
  | none => b.emit c.form c.data
  | some p => b.emitAt c.form c.data p

/-- A sequence of emit calls, with the errors returned. -/
def Buf.calls (b : Buf) : List Call → Option (Buf × List Err)
  | [] => some (b, [])
  | c :: cs =>
    match b.call c with
    | none => none
    | some (b, e) =>
      match b.calls cs with
      | none => none
      | some (b, es) => some (b, e :: es)

/-! ### Reading -/

/-- src/insn_base.h: `DisInsnBase`: the instruction being filled, the bytes `_memory` has left and
the reader's own error. `_out`, the place errors are about, is not modelled. -/
structure Reader where
  insn : Buf
  memory : List Nat
  error : Err
deriving DecidableEq, Repr

/-- `setErrorIf(_out, error)`, src/error_reporter.h:167-169. -/
def Reader.setErrorIf (r : Reader) (e : Err) : Reader :=
  if r.error = .OK ∧ e ≠ .OK then { r with error := e } else r

/-- src/insn_base.cpp:129-138 `readByte`. The bytes of `_memory` are uint8_t. -/
def Reader.readByte (r : Reader) : Option (Nat × Reader) :=
  match r.memory with
  | [] => some (0, r.setErrorIf .NO_MEMORY)
  | data :: rest =>
    let data := data % 256
    match r.insn.emit .byte data with
    | none => none
    | some (insn, e) =>
      let r := { r with insn := insn, memory := rest }
      some (data, if e ≠ .OK then r.setErrorIf .NO_MEMORY else r)

/-- Two reads, combined. -/
def Reader.two (f : Reader → Option (Nat × Reader)) (mix : Nat → Nat → Nat) (r : Reader) :
    Option (Nat × Reader) :=
  match f r with
  | none => none
  | some (a, r) =>
    match f r with
    | none => none
    | some (b, r) => some (mix a b, r)

/-- src/insn_base.cpp:140-144 `readUint16Be`. -/
def Reader.readUint16Be : Reader → Option (Nat × Reader) :=
  Reader.two Reader.readByte (fun msb lsb => (msb <<< 8 ||| lsb) % 65536)
/-- src/insn_base.cpp:146-150 `readUint16Le`. -/
def Reader.readUint16Le : Reader → Option (Nat × Reader) :=
  Reader.two Reader.readByte (fun lsb msb => (msb <<< 8 ||| lsb) % 65536)
/-- src/insn_base.cpp:152-156 `readUint32Be`. -/
def Reader.readUint32Be : Reader → Option (Nat × Reader) :=
  Reader.two Reader.readUint16Be (fun msw lsw => (msw <<< 16 ||| lsw) % 4294967296)
/-- src/insn_base.cpp:158-162 `readUint32Le`. -/
def Reader.readUint32Le : Reader → Option (Nat × Reader) :=
  Reader.two Reader.readUint16Le (fun lsw msw => (msw <<< 16 ||| lsw) % 4294967296)
/-- src/insn_base.cpp:164-168 `readUint64Be`. -/
def Reader.readUint64Be : Reader → Option (Nat × Reader) :=
  Reader.two Reader.readUint32Be (fun msw lsw => (msw <<< 32 ||| lsw) % 18446744073709551616)
/-- src/insn_base.cpp:170-174 `readUint64Le`. -/
def Reader.readUint64Le : Reader → Option (Nat × Reader) :=
  Reader.two Reader.readUint32Le (fun lsw msw => (msw <<< 32 ||| lsw) % 18446744073709551616)

/-- The reader of a form. -/
def Reader.read (f : Form) (r : Reader) : Option (Nat × Reader) :=
  match f with
  | .byte => r.readByte
  | .be16 => r.readUint16Be
  | .le16 => r.readUint16Le
  | .be32 => r.readUint32Be
  | .le32 => r.readUint32Le
  | .be64 => r.readUint64Be
  | .le64 => r.readUint64Le

end Libasm.Insn
