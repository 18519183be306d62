import Verif.Cpu.ListModel
/-
What a disassembler has read of the memory.
-/
namespace Libasm.Cpu

/-- What was read and what is left are the memory. -/
def Rd.Of (M : List Nat) (r : Rd) : Prop := r.bytes ++ r.mem.map (· % 256) = M

theorem Rd.Of.start (mem : List Nat) : Rd.Of (mem.map (· % 256)) ⟨mem, [], .OK⟩ := rfl

theorem Rd.Of.setErrorIf {M : List Nat} {r : Rd} (h : r.Of M) (e : Err) : (r.setErrorIf e).Of M := h

theorem Rd.Of.err {M : List Nat} {r : Rd} (h : r.Of M) (e : Err) : Rd.Of M { r with err := e } := h

theorem Rd.Of.byte {M : List Nat} {r : Rd} (h : r.Of M) : r.byte.2.Of M := by
  unfold Rd.byte
  split
  · exact h
  · rename_i b mem hm
    unfold Rd.Of at h ⊢
    rw [hm, List.map_cons] at h
    rw [← h, List.append_assoc]
    rfl

theorem Rd.Of.be16 {M : List Nat} {r : Rd} (h : r.Of M) : r.be16.2.Of M := h.byte.byte

theorem Rd.Of.le16 {M : List Nat} {r : Rd} (h : r.Of M) : r.le16.2.Of M := h.byte.byte

theorem Rd.Of.list {K : Type} {M : List Nat} {dec : K → Rd → List Char × Rd}
    (hd : ∀ m r, Rd.Of M r → (dec m r).2.Of M) : ∀ (ms : List K) (r : Rd), r.Of M → (decodeList dec ms r).2.Of M
  | [], _, h => h
  | [m], r, h => hd m r h
  | m :: n :: ms, r, h => Rd.Of.list hd (n :: ms) _ (hd m r h)

/-- The bytes are the first of the memory. -/
theorem Rd.Of.prefix {M : List Nat} {r : Rd} (h : r.Of M) : r.bytes <+: M := ⟨_, h⟩

/-- `Disassembler::decode` reads what `decodeImpl` does. -/
theorem decode_reads {width : Nat} {impl : Nat → List Nat → Dis}
    (h : ∀ addr mem, (impl addr mem).bytes <+: mem.map (· % 256)) (addr : Nat) (mem : List Nat) :
    (decode width impl addr mem).bytes <+: mem.map (· % 256) := by
  unfold decode
  split
  · exact List.nil_prefix
  · exact h addr mem

/-- Bytes of a memory that are the first of it. -/
theorem reads_bytes {d mem : List Nat} (h : d <+: mem.map (· % 256)) : ∀ b ∈ d, b < 256 := by
  intro b hb
  obtain ⟨x, _, rfl⟩ := List.mem_map.1 (h.subset hb)
  exact Nat.mod_lt _ (by decide)

end Libasm.Cpu
