/-
What a byte memory is, with no reference to blocks: the last value written to an address.
-/
namespace Libasm.BinMemory.Spec

/-- The value an address holds after a history of writes (oldest first). -/
def lastWrite (ws : List (Nat × UInt8)) (a : Nat) : Option UInt8 :=
  ws.foldl (fun r w => if w.1 = a then some w.2 else r) none

/-- All addresses of a history are 32-bit addresses. -/
def Addr32 (ws : List (Nat × UInt8)) : Prop := ∀ w ∈ ws, w.1 < 2 ^ 32

instance (ws : List (Nat × UInt8)) : Decidable (Addr32 ws) :=
  inferInstanceAs (Decidable (∀ w ∈ ws, w.1 < 2 ^ 32))

/-- The (address, value) pairs of consecutive bytes from `base`. -/
def bytesFrom : Nat → List UInt8 → List (Nat × UInt8)
  | _, [] => []
  | base, v :: r => (base, v) :: bytesFrom (base + 1) r

/-- The (address, value) pairs of a sequence of blocks, in the order of the sequence. -/
def image (blocks : List (Nat × List UInt8)) : List (Nat × UInt8) :=
  blocks.flatMap (fun b => bytesFrom b.1 b.2)

/-- Blocks are non-empty, ascending, and separated by at least one address. -/
def Separated (blocks : List (Nat × List UInt8)) : Prop :=
  (∀ b ∈ blocks, b.2 ≠ []) ∧ blocks.Pairwise (fun b c => b.1 + b.2.length < c.1)

end Libasm.BinMemory.Spec
