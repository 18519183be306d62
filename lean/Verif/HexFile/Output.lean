import Verif.HexFile.Props
/-
C33: the options `-S` and `-H` of the assembler, cli/asm_commander.cpp:97-112.

`BinEncoder` objects: there is one `MotoSrec` and one `IntelHex` object, and the code works with
references to their `BinEncoder` part. What virtual function is called depends on the object
referred to, which an assignment does not change: it copies the members of the base class.
-/
namespace Libasm.HexFile.Output
open Libasm.BinMemory

/-- The class of an encoder object. -/
inductive Format | srec | ihex
deriving DecidableEq, Repr

/-- driver/bin_encoder.h:32-33: the members of the base class. -/
structure Members where
  width : Nat
  recordSize : Nat
deriving DecidableEq

/-- driver/moto_srec.cpp:22, driver/intel_hex.cpp:22: the two objects. -/
structure Objects where
  moto : Members
  intel : Members

/-- A reference to a `BinEncoder` is a reference to one of the two objects. -/
def Objects.get (s : Objects) : Format → Members
  | .srec => s.moto
  | .ihex => s.intel

def Objects.set (s : Objects) (f : Format) (m : Members) : Objects :=
  match f with
  | .srec => { s with moto := m }
  | .ihex => { s with intel := m }

/-- `to = from` of two `BinEncoder &`: the implicit copy assignment of the base class. -/
def Objects.assign (s : Objects) (to source : Format) : Objects := s.set to (s.get source)

/-- driver/asm_directive.h:40-139: the directive classes. -/
inductive Directive
  | motorola | intel | mostek | z8 | zilog | rca | national | fairchild | dec
deriving DecidableEq, Repr

/-- driver/asm_directive.cpp:151-153,274-276 `defaultEncoder`, inherited as in
driver/asm_directive.h:103-139. -/
def defaultEncoder : Directive → Format
  | .motorola | .mostek => .srec
  | _ => .ihex

/-- driver/bin_encoder.cpp:36-49 `encode` of the object referred to. `fuel` bounds the record loop;
`none` means that it does not end. -/
def encodeWith (f : Format) (m : Members) (fuel : Nat) (mem : Blocks) : Option (List (List Char)) :=
  match f with
  | .srec => Moto.encodeImage m.width m.recordSize fuel mem
  | .ihex => Intel.encodeImage m.width m.recordSize fuel mem

/-- The options of the command line that matter, cli/asm_commander.cpp:229-230,252-264. -/
structure Command where
  /-- `-S`, `-H`, or none of them -/
  option : Option Format
  recordBytes : Nat

/-- cli/asm_commander.cpp:104-111: what is written to the output file. -/
def write (dir : Directive) (cmd : Command) (width fuel : Nat) (objs : Objects) (mem : Blocks) :
    Option (List (List Char)) :=
  let encoder := defaultEncoder dir
  let objs :=
    match cmd.option with
    | some .srec => objs.assign encoder .srec
    | some .ihex => objs.assign encoder .ihex
    | none => objs
  let objs := objs.set encoder ⟨width, cmd.recordBytes⟩
  encodeWith encoder (objs.get encoder) fuel mem

/-! ### Specification -/

/-- What a file of each format looks like: every line of an S-record file starts with `S`, every
line of an Intel HEX file with a colon; no file is empty. -/
def Written (f : Format) (lines : List (List Char)) : Prop :=
  lines ≠ [] ∧ ∀ l ∈ lines, l.head? = some (match f with | .srec => 'S' | .ihex => ':')

/-- C33: if the option asks for a format and the file is written, it is in that format. -/
def Honoured (dir : Directive) (cmd : Command) (width fuel : Nat) (objs : Objects) (mem : Blocks) :
    Prop :=
  ∀ f lines, cmd.option = some f → write dir cmd width fuel objs mem = some lines → Written f lines

/-! ### Proofs -/

theorem moto_lines {bits rs fuel : Nat} {mem : Blocks} {lines : List (List Char)}
    (h : Moto.encodeImage bits rs fuel mem = some lines) : Written .srec lines := by
  unfold Moto.encodeImage at h
  cases hr : records rs fuel mem with
  | none => rw [hr] at h; cases h
  | some l =>
    rw [hr] at h
    injection h with h
    subst h
    refine ⟨by simp, ?_⟩
    intro x hx
    simp only [List.cons_append, List.mem_cons, List.mem_append, List.mem_map, List.not_mem_nil,
      or_false] at hx
    rcases hx with rfl | ⟨r, _, rfl⟩ | rfl
    · rfl
    · unfold Moto.encode
      split <;> rfl
    · unfold Moto.endLine
      split <;> rfl

theorem intel_all (bits : Nat) : ∀ (rs : List (Nat × List UInt8)) (st : Intel.St),
    ∀ l ∈ Intel.encodeAll bits st rs, l.head? = some ':'
  | [], _, l, h => by
    simp only [Intel.encodeAll, List.mem_cons, List.not_mem_nil, or_false] at h
    subst h
    rfl
  | r :: rs, st, l, h => by
    unfold Intel.encodeAll at h
    rw [List.mem_append] at h
    rcases h with h | h
    · have ela : ∀ x ∈ (if r.1 ≠ st.next ∨ r.1 / 65536 ≠ st.last / 65536 then
          Intel.formatEla bits r.1 else []), x.head? = some ':' := by
        intro x hx
        split at hx
        · unfold Intel.formatEla at hx
          split at hx
          · cases hx
          · simp only [List.mem_cons, List.not_mem_nil, or_false] at hx
            subst hx
            rfl
        · cases hx
      unfold Intel.encode at h
      dsimp only at h
      split at h
      · split at h
        · simp only [List.mem_append, List.mem_cons, List.not_mem_nil, or_false] at h
          rcases h with h | rfl
          · exact ela l h
          · rfl
        · simp only [List.mem_append, List.mem_cons, List.not_mem_nil, or_false] at h
          rcases h with h | rfl | rfl
          · exact ela l h
          · rfl
          · rfl
      · simp only [List.mem_append, List.mem_cons, List.not_mem_nil, or_false] at h
        rcases h with h | rfl
        · exact ela l h
        · rfl
    · exact intel_all bits rs _ l h

theorem intel_ne (bits : Nat) : ∀ (rs : List (Nat × List UInt8)) (st : Intel.St),
    Intel.encodeAll bits st rs ≠ []
  | [], _ => by simp [Intel.encodeAll]
  | _ :: rs, _ => by
    unfold Intel.encodeAll
    intro h
    exact intel_ne bits rs _ (List.append_eq_nil_iff.1 h).2

theorem intel_lines {bits rs fuel : Nat} {mem : Blocks} {lines : List (List Char)}
    (h : Intel.encodeImage bits rs fuel mem = some lines) : Written .ihex lines := by
  unfold Intel.encodeImage at h
  cases hr : records rs fuel mem with
  | none => rw [hr] at h; cases h
  | some l =>
    rw [hr] at h
    injection h with h
    subst h
    exact ⟨intel_ne _ _ _, intel_all _ _ _⟩

theorem write_eq (dir : Directive) (cmd : Command) (width fuel : Nat) (objs : Objects)
    (mem : Blocks) : write dir cmd width fuel objs mem =
      encodeWith (defaultEncoder dir) ⟨width, cmd.recordBytes⟩ fuel mem := by
  have : ∀ (s : Objects) f m, (s.set f m).get f = m := by intro s f m; cases f <;> rfl
  unfold write
  simp only [this]

theorem written {dir : Directive} {cmd : Command} {width fuel : Nat} {objs : Objects} {mem : Blocks}
    {lines : List (List Char)} (h : write dir cmd width fuel objs mem = some lines) :
    Written (defaultEncoder dir) lines := by
  rw [write_eq] at h
  unfold encodeWith at h
  cases hd : defaultEncoder dir with
  | srec => rw [hd] at h; exact moto_lines h
  | ihex => rw [hd] at h; exact intel_lines h

/-- Whatever the option, the file is in the default format of the CPU: for every CPU, image, record
length and state of the encoders. So the option is honoured only if it asks for the default, or
asks for nothing.

Missing, because the code violates it: the other format (`C33_violated`). -/
theorem C33_partial (dir : Directive) (cmd : Command) (width fuel : Nat) (objs : Objects)
    (mem : Blocks) :
    (∀ lines, write dir cmd width fuel objs mem = some lines → Written (defaultEncoder dir) lines) ∧
    (∀ f, cmd.option = some f → f = defaultEncoder dir → Honoured dir cmd width fuel objs mem) := by
  refine ⟨fun lines h => written h, ?_⟩
  intro f hf he g lines hg hw
  have : g = f := by rw [hf] at hg; injection hg with hg; exact hg.symm
  rw [this, he]
  exact written hw

/-- The option is never honoured when it asks for the format that is not the default, for any CPU,
any option and any image that is written at all. -/
theorem C33_violated (dir : Directive) (cmd : Command) (width fuel : Nat) (objs : Objects)
    (mem : Blocks) (f : Format) (ho : cmd.option = some f) (hf : f ≠ defaultEncoder dir)
    (hw : (write dir cmd width fuel objs mem).isSome) : ¬ Honoured dir cmd width fuel objs mem := by
  intro h
  obtain ⟨lines, hl⟩ := Option.isSome_iff_exists.1 hw
  have h1 := written hl
  have h2 := h f lines ho hl
  obtain ⟨x, xs, rfl⟩ := List.exists_cons_of_ne_nil h1.1
  have a := h1.2 x (List.mem_cons_self ..)
  have b := h2.2 x (List.mem_cons_self ..)
  rw [a] at b
  revert b hf
  cases f <;> cases defaultEncoder dir <;> decide

/-- The record length is honoured: with `-S<n>`/`-H<n>` each data record of the file is written
with that many bytes at most, as C05, C06 and C09 say of `encodeWith`. -/
theorem C33_record_length (dir : Directive) (cmd : Command) (width fuel : Nat) (objs : Objects)
    (mem : Blocks) : write dir cmd width fuel objs mem =
      match defaultEncoder dir with
      | .srec => Moto.encodeImage width cmd.recordBytes fuel mem
      | .ihex => Intel.encodeImage width cmd.recordBytes fuel mem := by
  rw [write_eq]
  cases defaultEncoder dir <;> rfl

/-- `-S` for an i8080 program writes Intel HEX; `-S` for a 6809 program writes S-records. -/
example :
    write .intel ⟨some .srec, 32⟩ 16 10 ⟨⟨0, 0⟩, ⟨0, 0⟩⟩ (writeByte [] 0x100 0x76) =
      some [":010100007688".toList, ":00000001FF".toList] ∧
    write .motorola ⟨some .srec, 32⟩ 16 10 ⟨⟨0, 0⟩, ⟨0, 0⟩⟩ (writeByte [] 0x100 0x76) =
      some ["S0030000FC".toList, "S10401007684".toList, "S9030000FC".toList] := by
  decide +kernel

end Libasm.HexFile.Output
