import Verif.Driver.Lemmas
/-
What one line does, by the kind of line.
-/
namespace Libasm.Driver
open Eval (Out)
open Store (Name Symbols)
open Insn (Buf)
open Spec

variable {σ δ : Type}

/-- A line without an instruction or directive. -/
theorem line_blank {C : Cpu σ δ} {files : Files} {report : Bool} {line : List Char} {s s' : St σ}
    {stop : Bool} {label : Name} {text : Scan} (hr : Reads C s line label true text)
    (h : stepLine C files report line s = .ok (s', stop)) :
    ∃ w, w = labelPart report s.origin
        (⟨C.setLocation s.asm (C.current s.asm) s.origin, s.symbols, s.sources, .OK, label,
          .undefined⟩ : Work σ) ∧
      s'.symbols = w.symbols ∧ s'.sources = w.sources ∧ s'.memory = s.memory ∧
      s'.log = s.log ++ [⟨line, s.origin % 4294967296, C.unit w.asm (C.current s.asm), [], w.error,
        .undefined⟩] := by
  obtain ⟨h1, rest, h2, h3⟩ := hr
  refine ⟨_, rfl, ?_⟩
  simp only [stepLine, encodeLine, pseudoPart, h1, h2, h3, Out.ok_bind, Bool.false_eq_true, if_false,
    if_true, ne_eq, reduceCtorEq, not_false_eq_true] at h
  split at h
  · cases h
  · cases h
    have hv : (labelPart report s.origin
        (⟨C.setLocation s.asm (C.current s.asm) s.origin, s.symbols, s.sources, .OK, label,
          .undefined⟩ : Work σ)).value = .undefined := by
      unfold labelPart
      split
      · rfl
      · split <;> rfl
    refine ⟨rfl, rfl, rfl, ?_⟩
    simp only [hv]
    rfl

/-- A line with a directive of the driver. -/
theorem line_directive {C : Cpu σ δ} {files : Files} {report : Bool} {line : List Char}
    {s s' : St σ} {stop : Bool} {label : Name} {text operands : Scan} {hd : Handler}
    (hr : Reads C s line label false text) (hn : Names C s text (some hd) operands)
    (h : stepLine C files report line s = .ok (s', stop)) :
    ∃ w0 e rest w1 w, handle C files (C.current s.asm) report operands
        (⟨C.setLocation s.asm (C.current s.asm) s.origin, s.symbols, s.sources, .OK, label,
          .undefined⟩ : Work σ) hd = .ok (w0, e, rest) ∧
      w1 = (if e = .OK ∧ (C.endOfLine w0.asm (C.current s.asm) rest).1 = false then
        { w0 with error := .GARBAGE_AT_END } else w0) ∧
      w = labelPart report s.origin w1 ∧
      (e ≠ .UNKNOWN_DIRECTIVE →
        s'.symbols = w.symbols ∧ s'.sources = w.sources ∧ s'.memory = s.memory ∧
        ∃ x, s'.log = s.log ++ [x] ∧ x.error = w.error ∧ x.bytes = []) := by
  obtain ⟨h1, rest, h2, h3⟩ := hr
  obtain ⟨name, p, h4, h5, rfl⟩ := hn
  simp only [stepLine, encodeLine, pseudoPart, h1, h2, h3, h4, h5, Bool.false_eq_true,
    if_false] at h
  obtain ⟨⟨w, b, e⟩, hx, h⟩ := Out.bind_ok h
  obtain ⟨⟨w1, e1, t1⟩, hy, hx⟩ := Out.bind_ok hx
  obtain ⟨⟨w0, e0, rest0⟩, hz, hy⟩ := Out.bind_ok hy
  have hw1 : w1 = (if e0 = .OK ∧ (C.endOfLine w0.asm (C.current s.asm) rest0).1 = false then
        { w0 with error := .GARBAGE_AT_END } else w0) ∧ e1 = e0 := by
    dsimp only at hy
    split at hy
    · rename_i hc; cases hy; rw [if_pos hc]; exact ⟨rfl, rfl⟩
    · rename_i hc; cases hy; rw [if_neg hc]; exact ⟨rfl, rfl⟩
  refine ⟨w0, e0, rest0, w1, _, hz, hw1.1, rfl, fun he => ?_⟩
  rw [hw1.2] at hx
  simp only [he, ne_eq, not_false_eq_true, if_true] at hx
  cases hx
  dsimp only at h
  split at h
  · cases h
  · cases h
    exact ⟨rfl, rfl, rfl, _, rfl, rfl, rfl⟩

/-- A line with an instruction or a directive of the assembler. -/
theorem line_instruction {C : Cpu σ δ} {files : Files} {report : Bool} {line : List Char}
    {s s' : St σ} {stop : Bool} {label : Name} {text operands : Scan}
    (hr : Reads C s line label false text) (hn : Names C s text none operands)
    (h : stepLine C files report line s = .ok (s', stop)) :
    ∃ w, w = labelPart report s.origin
        (⟨C.setLocation s.asm (C.current s.asm) s.origin, s.symbols, s.sources, .OK, label,
          .undefined⟩ : Work σ) ∧
      s'.symbols = w.symbols ∧ s'.sources = w.sources ∧
      ((C.endOfLine w.asm (C.current s.asm) text).1 = false →
        ∃ asm b x, C.encode w.asm (C.current s.asm) (view w.symbols) s.origin
            (C.endOfLine w.asm (C.current s.asm) text).2 = .ok (asm, b) ∧
          s'.log = s.log ++ [x] ∧ x.address = b.address ∧ x.bytes = b.bytes.take b.length ∧
          x.error =
            if !report && decide (b.error = .UNDEFINED_SYMBOL) then Err.OK else b.error) := by
  obtain ⟨h1, rest, h2, h3⟩ := hr
  obtain ⟨name, p, h4, h5, rfl⟩ := hn
  refine ⟨_, rfl, ?_⟩
  simp only [stepLine, encodeLine, pseudoPart, h1, h2, h3, h4, h5, Bool.false_eq_true,
    if_false, Out.ok_bind, ne_eq, not_true_eq_false] at h
  obtain ⟨⟨w, b, e⟩, hx, h⟩ := Out.bind_ok h
  dsimp only at h
  split at h
  · cases h
  · cases h
    split at hx
    · rename_i hc
      cases hx
      refine ⟨rfl, rfl, fun hf => ?_⟩
      rw [hf] at hc
      cases hc
    · obtain ⟨⟨asm, b'⟩, hz, hx⟩ := Out.bind_ok hx
      cases hx
      exact ⟨rfl, rfl, fun _ => ⟨asm, b', _, hz, rfl, rfl, rfl, rfl⟩⟩

/-- The listing and the image, after one line. -/
theorem stepLine_memory {C : Cpu σ δ} {files : Files} {report : Bool} {line : List Char}
    {s : St σ} {r : St σ × Bool} (h : stepLine C files report line s = .ok r) :
    ∃ x : Entry, r.1.log = s.log ++ [x] ∧
      r.1.memory = writeBytes s.memory (x.address * x.unit) x.bytes := by
  unfold stepLine at h
  dsimp only at h
  obtain ⟨⟨w, b, e⟩, h1, h⟩ := Out.bind_ok h
  dsimp only at h
  split at h
  · cases h
  · cases h
    exact ⟨_, rfl, rfl⟩

theorem writeBytes_eq (bytes : List Nat) : ∀ (m : BinMemory.Blocks) (base k : Nat),
    writeBytes m (base + k) bytes =
      (((bytes.zipIdx k).map fun x => ((base + x.2) % 4294967296, UInt8.ofNat x.1)).foldl
        (fun m w => BinMemory.writeByte m w.1 w.2) m) := by
  induction bytes with
  | nil => intro m base k; rfl
  | cons x xs ih =>
    intro m base k
    simp only [writeBytes, List.zipIdx_cons, List.map_cons, List.foldl_cons]
    rw [Nat.add_assoc, ih]

theorem listed_append (l : List Entry) (x : Entry) (m : BinMemory.Blocks)
    (h : m = BinMemory.writes (listed l)) :
    writeBytes m (x.address * x.unit) x.bytes = BinMemory.writes (listed (l ++ [x])) := by
  have := writeBytes_eq x.bytes m (x.address * x.unit) 0
  rw [Nat.add_zero] at this
  rw [this, h]
  unfold listed BinMemory.writes
  rw [List.flatMap_append, List.foldl_append]
  simp

theorem loop_memory {C : Cpu σ δ} {files : Files} {report : Bool} :
    ∀ (fuel : Nat) {s s' : St σ}, s.memory = BinMemory.writes (listed s.log) →
      loop C files report fuel s = .ok s' → s'.memory = BinMemory.writes (listed s'.log) := by
  intro fuel
  induction fuel with
  | zero => intro s s' _ h; cases h
  | succ fuel ih =>
    intro s s' hs h
    simp only [loop] at h
    split at h
    · cases h; exact hs
    · obtain ⟨⟨s1, stop⟩, h1, h⟩ := Out.bind_ok h
      obtain ⟨x, hx, hm⟩ := stepLine_memory h1
      have : s1.memory = BinMemory.writes (listed s1.log) := by
        dsimp only at hx hm
        rw [hx, hm]
        exact listed_append _ _ _ hs
      dsimp only at h
      split at h
      · cases h; exact this
      · exact ih this h

theorem pass_memory {C : Cpu σ δ} {files : Files} {cmd : Command σ} {report : Bool} {fuel : Nat}
    {p q : Pass σ} (h : pass C files cmd report fuel p = .ok (some q)) :
    q.memory = BinMemory.writes (listed q.log) := by
  unfold pass at h
  obtain ⟨⟨src, e⟩, h1, h⟩ := Out.bind_ok h
  dsimp only at h
  split at h
  · cases h
  · obtain ⟨s, h2, h⟩ := Out.bind_ok h
    cases h
    exact loop_memory fuel (s := ⟨_, _, _, [], 0, []⟩) rfl h2

end Libasm.Driver
