/-
Model of driver/bin_memory.{h,cpp} and driver/bin_reader.h.

A `std::map<uint32_t, Block>` is a list of entries in ascending order of key.  An iterator is
an index into the list, `end()` being the length (or `none` where the C++ only compares it
with `end()`).  A `Block *` is the key of the map node it points into: no operation both
erases and creates a node, so a key names at most one node during an operation.
Addresses are `Nat` below `2^32`; arithmetic done in `size_t` by the C++ needs no wrapping,
arithmetic done in `uint32_t` is written with `% 2^32`.
-/
namespace Libasm.BinMemory

/-- A map node: key and `Block` (driver/bin_memory.h:49-78: `_base`, `_data`, `_next`). -/
structure Entry where
  key : Nat
  base : Nat
  data : List UInt8
  next : Option Nat
deriving Repr, DecidableEq

/-- driver/bin_memory.h:81 `Blocks`, in ascending order of key. -/
abbrev Blocks := List Entry

/-- driver/bin_memory.h:53 `size()`: `size_t` narrowed to `uint32_t`. -/
def Entry.size (e : Entry) : Nat := e.data.length % 2 ^ 32

/-- driver/bin_memory.h:64 `inside` (the sum is computed in 64-bit `size_t`). -/
def Entry.inside (e : Entry) (addr : Nat) : Bool :=
  decide (addr ≥ e.base) && decide (addr < e.base + e.data.length)

/-- driver/bin_memory.h:65 `atEnd`. -/
def Entry.atEnd (e : Entry) (addr : Nat) : Bool :=
  decide (addr = e.base + e.data.length)

/-- driver/bin_memory.h:66 `read`; an out of range index (undefined behaviour) is `none`. -/
def Entry.read (e : Entry) (addr : Nat) : Option UInt8 := e.data[addr - e.base]?

/-- driver/bin_memory.h:67 `write` (only called when `inside`). -/
def Entry.write (e : Entry) (addr : Nat) (val : UInt8) : Entry :=
  { e with data := e.data.set (addr - e.base) val }

/-- driver/bin_memory.h:68 `append`. -/
def Entry.append (e : Entry) (val : UInt8) : Entry := { e with data := e.data ++ [val] }

/-- driver/bin_memory.h:70 `connect`. -/
def Entry.connect (e : Entry) (n : Option Nat) : Entry := { e with next := n }

/-- driver/bin_memory.cpp:165-169 `Block::aggregate`. -/
def Entry.aggregate (e other : Entry) : Entry :=
  { e with data := e.data ++ other.data, next := other.next }

/-- driver/bin_memory.cpp:171-175 `trimStart`; the map key is not changed. -/
def Entry.trimStart (e : Entry) (start : Nat) : Entry :=
  { e with data := e.data.drop (start - e.base), base := start }

/-- driver/bin_memory.cpp:177-180 `trimEnd`. -/
def Entry.trimEnd (e : Entry) (end_ : Nat) : Entry :=
  { e with data := e.data.take (e.data.length - (e.base + e.data.length - 1 - end_)) }

/-- `std::map::lower_bound`: index of the first node whose key is not less than `addr`. -/
def lowerBound (m : Blocks) (addr : Nat) : Nat := m.findIdx (fun e => decide (addr ≤ e.key))

/-- driver/bin_memory.cpp:27-36 and 38-47 `find`; `none` is `end()`. -/
def find (m : Blocks) (addr : Nat) : Option Nat :=
  if m = [] then none
  else
    let it := lowerBound m addr
    match m[it]? with
    | none => if it = 0 then none else some (it - 1)
    | some e =>
      if it = 0 then (if addr < e.base then none else some it)
      else if addr < e.base then some (it - 1) else some it

/-- driver/bin_memory.cpp:49-52 `hasByte`. -/
def hasByte (m : Blocks) (addr : Nat) : Bool :=
  match find m addr with
  | none => false
  | some it => match m[it]? with
    | none => false
    | some e => e.inside addr

/-- driver/bin_memory.cpp:71-79 `readByte`. -/
def readByte (m : Blocks) (addr : Nat) : UInt8 :=
  match find m addr with
  | none => 0
  | some it => match m[it]? with
    | none => 0
    | some e => if e.inside addr then (e.read addr).getD 0 else 0

/-- driver/bin_memory.cpp:145-159 `aggregate`; `base` is `block.base()`. -/
def aggregate (m : Blocks) (base : Nat) : Blocks :=
  let it := m.findIdx (fun e => decide (e.key = base))
  match m[it]? with
  | none => m
  | some e =>
    let (m, e) :=
      match m[it + 1]? with
      | some n => if e.atEnd n.base then ((m.set it (e.aggregate n)).eraseIdx (it + 1), e.aggregate n)
                  else (m, e)
      | none => (m, e)
    if it = 0 then m
    else match m[it - 1]? with
      | none => m
      | some p => if p.atEnd e.base then (m.set (it - 1) (p.aggregate e)).eraseIdx it else m

/-- `std::map::emplace(addr, Block(addr))`: the new or the already present node. -/
def emplace (m : Blocks) (addr : Nat) : Blocks × Nat :=
  let it := lowerBound m addr
  match m[it]? with
  | none => (m ++ [⟨addr, addr, [], none⟩], it)
  | some e => if e.key = addr then (m, it) else (m.insertIdx it ⟨addr, addr, [], none⟩, it)

/-- driver/bin_memory.cpp:135-137: point the new block at its successor. -/
def connectNext (m : Blocks) (it : Nat) : Blocks :=
  match m[it + 1]? with
  | some n => m.modify it (·.connect (some n.key))
  | none => m

/-- driver/bin_memory.cpp:138-140: point the predecessor at the new block. -/
def connectPrev (m : Blocks) (it : Nat) : Blocks :=
  if it = 0 then m
  else match m[it]? with
    | some e => m.modify (it - 1) (·.connect (some e.key))
    | none => m

/-- driver/bin_memory.cpp:132-143 `createBlock`. -/
def createBlock (m : Blocks) (addr : Nat) (val : UInt8) : Blocks :=
  let (m, it) := emplace m addr
  let m := (connectPrev (connectNext m it) it).modify it (·.append val)
  match m[it]? with
  | some e => aggregate m e.base
  | none => m

/-- driver/bin_memory.cpp:54-69 `writeByte`. -/
def writeByte (m : Blocks) (addr : Nat) (val : UInt8) : Blocks :=
  match find m addr with
  | none => createBlock m addr val
  | some it => match m[it]? with
    | none => createBlock m addr val
    | some e =>
      if e.inside addr then m.set it (e.write addr val)
      else if e.atEnd addr then aggregate (m.set it (e.append val)) e.base
      else createBlock m addr val

/-- driver/bin_memory.cpp:81-83 and 161-163 `operator==`: map equality, the `_next` pointers
are not compared. -/
def equal (m n : Blocks) : Bool :=
  m.map (fun e => (e.key, e.base, e.data)) == n.map (fun e => (e.key, e.base, e.data))

/-- driver/bin_memory.cpp:97-99 `startAddress`. -/
def startAddress (m : Blocks) : Nat :=
  match m with
  | [] => 0
  | e :: _ => e.base

/-- `base() + size() - 1` in `uint32_t` arithmetic (driver/bin_memory.cpp:105 and 115). -/
def Entry.last (e : Entry) : Nat := (e.base + e.size + (2 ^ 32 - 1)) % 2 ^ 32

/-- driver/bin_memory.cpp:101-106 `endAddress`. -/
def endAddress (m : Blocks) : Nat :=
  match m.getLast? with
  | none => 0
  | some e => e.last

/-- One iteration of the loop of driver/bin_memory.cpp:112-127: `none` is `erase`. -/
def rangeStep (start end_ : Nat) (block : Entry) : Option Entry :=
  let s := block.base
  let e := block.last
  if e < start ∨ s > end_ then none
  else
    let b := if s < start ∧ e ≥ start then block.trimStart start else block
    let b := if s < end_ ∧ e ≥ end_ then b.trimEnd end_ else b
    some b

/-- driver/bin_memory.cpp:128-129: cut the chain after the last kept block. -/
def cutLast : Blocks → Blocks
  | [] => []
  | [e] => [e.connect none]
  | e :: r => e :: cutLast r

/-- driver/bin_memory.cpp:108-130 `setRange`. -/
def setRange (m : Blocks) (start end_ : Nat) : Blocks :=
  if end_ < start then m
  else cutLast (m.filterMap (rangeStep start end_))

/-- `begin()` (driver/bin_memory.cpp:89-91) and then `next()` (driver/bin_memory.h:55-57) until
the null pointer; `none` when a pointer does not point to a live node or when more than `fuel`
blocks are visited. -/
def walkFrom (m : Blocks) : Nat → Option Nat → Option (List Entry)
  | _, none => some []
  | 0, some _ => none
  | fuel + 1, some k =>
    match m.find? (fun e => decide (e.key = k)) with
    | none => none
    | some e => (walkFrom m fuel e.next).map (e :: ·)

/-- The blocks a client sees when it iterates over the memory. -/
def walk (m : Blocks) : Option (List Entry) :=
  walkFrom m m.length (m.head?.map (·.key))

/-- A write history applied to a new `BinMemory`. -/
def writes (ws : List (Nat × UInt8)) : Blocks :=
  ws.foldl (fun m w => writeByte m w.1 w.2) []

end Libasm.BinMemory
