import Verif.Insn.Read
/-
C19: the instruction buffer is never overrun.  C20: emit and read are inverse.
C36: the first error wins.
-/
namespace Libasm.Insn
open Spec

/-! ### C19 -/

theorem fine_new (addr : Nat) : Fine (Buf.new addr) :=
  ⟨by simp [Buf.new, maxCode], by simp [Buf.new], by intro x h; simp [Buf.new] at h; omega⟩

theorem fine_reset {b : Buf} (h : Fine b) (addr length : Nat) : Fine (b.reset addr length) := by
  have hc := h.cells
  refine ⟨?_, ?_, ?_⟩
  · simp only [Buf.reset, maxCode]; simp; split <;> omega
  · show (if length % 256 ≥ 64 then 64 else length % 256) ≤ 64
    split <;> omega
  · intro x hx
    simp only [Buf.reset, maxCode] at hx
    rcases List.mem_append.1 hx with hx | hx
    · exact h.bytes x (List.mem_of_mem_take hx)
    · simp at hx; omega

/-- C19 (safety): no sequence of emit calls, with any data and any explicit positions, reaches
outside the buffer, and the length never exceeds 64 and never shrinks. -/
theorem C19_safe (cs : List Call) (b : Buf) (hb : Fine b) :
    ∃ b' es, b.calls cs = some (b', es) ∧ Fine b' ∧ b.length ≤ b'.length ∧
      b'.address = b.address := by
  induction cs generalizing b with
  | nil => exact ⟨b, [], rfl, hb, Nat.le_refl _, rfl⟩
  | cons c cs ih =>
    have : Safe (Buf.call c) := by
      intro b hb
      unfold Buf.call
      cases c.pos with
      | none => exact emitAt_safe _ _ _ b hb
      | some p => exact emitAt_safe _ _ _ b hb
    obtain ⟨b1, e, h1, h2, h3, h4⟩ := this b hb
    obtain ⟨b2, es, k1, k2, k3, k4⟩ := ih b1 h2
    refine ⟨b2, e :: es, ?_, k2, by omega, by rw [k4, h4]⟩
    simp only [Buf.calls, h1, k1]

/-- The byte string a list of data stands for. -/
def Spec.encodeAll (ds : List (Form × Nat)) : List Nat := ds.flatMap (fun d => encode d.1 d.2)

/-- Emitting data one after the other, without positions. -/
def appendCalls (ds : List (Form × Nat)) : List Call := ds.map (fun d => ⟨d.1, d.2, none⟩)

theorem calls_append (xs ys : List Call) (b : Buf) :
    b.calls (xs ++ ys) = (b.calls xs).bind (fun r => (r.1.calls ys).map (fun q => (q.1, r.2 ++ q.2))) := by
  induction xs generalizing b with
  | nil => simp [Buf.calls]
  | cons x xs ih =>
    simp only [List.cons_append, Buf.calls]
    cases b.call x with
    | none => rfl
    | some r =>
      obtain ⟨b1, e⟩ := r
      simp only [ih]
      cases b1.calls xs with
      | none => rfl
      | some q =>
        obtain ⟨b2, es⟩ := q
        simp only [Option.bind_some]
        cases b2.calls ys <;> rfl

theorem encodeAll_length (ds : List (Form × Nat)) :
    (Spec.encodeAll ds).length = (ds.map (fun d => size d.1)).sum := by
  induction ds with
  | nil => rfl
  | cons d ds ih =>
    simp only [Spec.encodeAll, List.flatMap_cons, List.length_append, size_encode, List.map_cons,
      List.sum_cons] at ih ⊢
    rw [ih]

/-- C19 (appending): emitting any sequence of data after the bytes already there stores exactly
the bytes of the data, in order, as far as 64 bytes go; earlier bytes are kept; and NO_MEMORY is
recorded exactly when the bytes did not fit. -/
theorem C19_append (ds : List (Form × Nat)) (b : Buf) (hb : Fine b) (hok : b.error = .OK) :
    ∃ b' es, b.calls (appendCalls ds) = some (b', es) ∧
      b'.bytes.take b'.length = (b.bytes.take b.length ++ encodeAll ds).take 64 ∧
      b'.length = min 64 (b.length + (encodeAll ds).length) ∧
      b'.error = (if 64 < b.length + (encodeAll ds).length then .NO_MEMORY else .OK) := by
  induction ds generalizing b with
  | nil =>
    refine ⟨b, [], rfl, ?_, ?_, ?_⟩
    · have := hb.used
      simp [Spec.encodeAll, List.take_take, Nat.min_eq_right this]
    · have := hb.used; simp [Spec.encodeAll]; omega
    · have := hb.used; rw [hok, if_neg]; simp [Spec.encodeAll]; omega
  | cons d ds ih =>
    obtain ⟨b1, e, h1, h2, h3⟩ := emit_effect hb d.1 d.2
    have hf1 := fine_cells hb (fun x hx => encode_lt hx) h2
    obtain ⟨a1, a2⟩ := append_take hb h2
    rw [size_encode] at a1
    have hu := hb.used
    have hlen : (Spec.encodeAll (d :: ds)).length = size d.1 + (Spec.encodeAll ds).length := by
      simp [Spec.encodeAll, size_encode]
    have hcat : Spec.encodeAll (d :: ds) = encode d.1 d.2 ++ Spec.encodeAll ds := by
      simp [Spec.encodeAll]
    rw [hlen, hcat]
    by_cases hroom : b.length + size d.1 ≤ 64
    · have he1 : b1.error = .OK := by
        rw [h2.error, hok, size_encode, if_neg (by omega)]
      obtain ⟨b', es, k1, k2, k3, k4⟩ := ih b1 hf1 he1
      refine ⟨b', e :: es, ?_, ?_, ?_, ?_⟩
      · simp only [appendCalls, List.map_cons, Buf.calls, Buf.call] at k1 ⊢
        simp only [h1, k1]
      · rw [k2, a2, List.take_of_length_le (l := b.bytes.take b.length ++ encode d.1 d.2)]
        · rw [List.append_assoc]
        · simp [hb.cells, size_encode]; omega
      · rw [k3, a1]; omega
      · rw [k4, a1]
        have : (64 < min 64 (b.length + size d.1) + (Spec.encodeAll ds).length) =
          (64 < b.length + (size d.1 + (Spec.encodeAll ds).length)) := propext (by omega)
        simp only [this]
    · -- the buffer is full from here on
      have hfull : ∀ (ds : List (Form × Nat)) (b1 : Buf), Fine b1 → b1.length = 64 →
          b1.error = .NO_MEMORY → ∃ b' es, b1.calls (appendCalls ds) = some (b', es) ∧
            b'.bytes.take b'.length = b1.bytes.take b1.length ∧ b'.length = 64 ∧
            b'.error = .NO_MEMORY := by
        intro ds
        induction ds with
        | nil => intro b1 _ h2 h3; exact ⟨b1, [], rfl, rfl, h2, h3⟩
        | cons d ds ih =>
          intro b1 hf hl he
          obtain ⟨b2, e, g1, g2, g3⟩ := emit_effect hf d.1 d.2
          have hf2 := fine_cells hf (fun x hx => encode_lt hx) g2
          obtain ⟨c1, c2⟩ := append_take hf g2
          rw [hl] at c1 c2
          obtain ⟨b', es, k1, k2, k3, k4⟩ := ih b2 hf2 (by omega)
            (by rw [g2.error, he, if_neg (by simp)])
          refine ⟨b', e :: es, ?_, ?_, k3, k4⟩
          · simp only [appendCalls, List.map_cons, Buf.calls, Buf.call] at k1 ⊢
            simp only [g1, k1]
          · rw [k2, c2, List.take_append_of_le_length (by simp [hf.cells]), hl]
            rw [List.take_take]; simp
      have he1 : b1.error = .NO_MEMORY := by
        rw [h2.error, hok, size_encode, if_pos ⟨rfl, by omega⟩]
      obtain ⟨b', es, k1, k2, k3, k4⟩ := hfull ds b1 hf1 (by rw [a1]; omega) he1
      refine ⟨b', e :: es, ?_, ?_, ?_, ?_⟩
      · simp only [appendCalls, List.map_cons, Buf.calls, Buf.call] at k1 ⊢
        simp only [h1, k1]
      · rw [k2, a2, ← List.append_assoc]
        rw [List.take_append_of_le_length (l₁ := b.bytes.take b.length ++ encode d.1 d.2)]
        simp [hb.cells, size_encode]; omega
      · rw [k3]; omega
      · rw [k4, if_pos (by omega)]

/-- C19 (returned errors): a single appending call returns OK exactly when all its bytes fitted,
and NO_MEMORY when they did not and nothing failed before. -/
theorem C19_append_result (f : Form) (v : Nat) (b : Buf) (hb : Fine b) (hok : b.error = .OK) :
    ∃ b', b.emit f v = some (b', if 64 < b.length + size f then .NO_MEMORY else .OK) := by
  obtain ⟨b', e, h1, h2, h3⟩ := emit_effect hb f v
  refine ⟨b', ?_⟩
  rw [h1, h3, h2.error, hok, size_encode]
  by_cases h : 64 < b.length + size f <;> simp [h]

/-- C19 (explicit positions): an emitter at a position that leaves room before 256 changes exactly
the cells from that position on, below 64; OK is returned exactly when all the bytes fitted.
The bound `pos + size ≤ 256` is missing in the code: see `C19_violated_wrap`. -/
theorem C19_at_partial (f : Form) (v pos : Nat) (b : Buf) (hb : Fine b) (hp : pos + size f ≤ 256)
    (hok : b.error = .OK) :
    ∃ b', b.emitAt f v pos = some (b', if 64 < pos + size f then .NO_MEMORY else .OK) ∧
      (∀ i, i < 64 → b'.bytes[i]? =
        if pos ≤ i ∧ i < pos + size f then (encode f v)[i - pos]? else b.bytes[i]?) ∧
      b'.length = (if pos < 64 then max b.length (min 64 (pos + size f)) else b.length) := by
  have hn : encode f v ≠ [] := by
    intro h
    have := size_encode f v
    rw [h] at this
    cases f <;> cases this
  obtain ⟨b', e, h1, h2, h3⟩ := put_effect (e := .OK) (xs := encode f v) (p := pos) hb.cells hb.used
    (fun x hx => encode_lt hx) (by rw [size_encode]; exact hp) hn
  refine ⟨b', ?_, ?_, ?_⟩
  · rw [emitAt_put hp .OK, h1, h3, h2.error, hok, size_encode]
    by_cases h : 64 < pos + size f <;> simp [h]
  · intro i hi
    rw [h2.cell i hi, size_encode]
  · rw [h2.length, size_encode]
    have := hb.used
    split <;> omega

/-- C19 is violated for explicit positions near 255: a 16-bit word emitted at position 255 puts its
second byte in cell 0, over a byte emitted before, and reports success. -/
theorem C19_violated_wrap :
    ((Buf.new 0).calls [⟨.byte, 0x11, none⟩, ⟨.be16, 0xABCD, some 255⟩]).map
        (fun r => (r.1.bytes[0]?, r.2)) = some (some 0xCD, [.OK, .OK]) := by
  decide

/-- Hypotheses of C19_append are met: three data that do not all fit. -/
example : Fine (Buf.new 0x1000) ∧ (Buf.new 0x1000).error = .OK := ⟨fine_new _, rfl⟩
example : ((Buf.new 0).calls (appendCalls [(.be16, 0x1234), (.le32, 0x56789ABC), (.byte, 0x1FF)])).map
    (fun r => (r.1.bytes.take r.1.length, r.2)) =
    some ([0x12, 0x34, 0xBC, 0x9A, 0x78, 0x56, 0xFF], [.OK, .OK, .OK]) := by decide
example : (Buf.new 0).length + 0 ≤ 64 ∧ 60 + size .be64 ≤ 256 := by decide

/-! ### C20 -/

/-- C20: what an emitter stores, at the end of the buffer or at any explicit position with room for
it, the reader of the same size and byte order reads back as the same number, consuming exactly
those bytes and reporting nothing while there is room for them in the instruction being decoded. -/
theorem C20_roundtrip (f : Form) (v pos : Nat) (b : Buf) (hb : Fine b) (hp : pos + size f ≤ 64)
    (hv : v < 256 ^ size f) :
    ∃ b', b.emitAt f v pos = some (b', .OK) ∧
      ∀ (r : Reader) (rest : List Nat), Fine r.insn →
        r.memory = (b'.bytes.drop pos).take (size f) ++ rest →
        ∃ r', r.read f = some (v, r') ∧ r'.memory = rest ∧
          (r.insn.length + size f ≤ 64 → r'.error = r.error ∧
            r'.insn.length = r.insn.length + size f ∧
            r'.insn.bytes.take r'.insn.length =
              r.insn.bytes.take r.insn.length ++ (b'.bytes.drop pos).take (size f)) := by
  have hn : encode f v ≠ [] := by
    intro h
    have := size_encode f v
    rw [h] at this
    cases f <;> cases this
  obtain ⟨b', e, h1, h2, h3⟩ := put_effect (e := .OK) (xs := encode f v) (p := pos) hb.cells hb.used
    (fun x hx => encode_lt hx) (by rw [size_encode]; omega) hn
  rw [size_encode, if_neg (by omega)] at h3
  subst h3
  refine ⟨b', ?_, ?_⟩
  · rw [emitAt_put (by omega) .OK, h1]
  · have hcut : (b'.bytes.drop pos).take (size f) = encode f v := by
      apply List.ext_getElem?
      intro i
      rw [List.getElem?_take]
      by_cases hi : i < size f
      · rw [if_pos hi, List.getElem?_drop, h2.cell _ (by omega), size_encode, if_pos (by omega)]
        congr 1; omega
      · rw [if_neg hi, List.getElem?_eq_none]
        rw [size_encode]; omega
    intro r rest hf hm
    rw [hcut] at hm ⊢
    obtain ⟨r', g1, g2, g3, g4⟩ := read_reads f r _ rest hf hm (size_encode f v)
      (fun x hx => encode_lt hx)
    refine ⟨r', ?_, g2, ?_⟩
    · rw [g1, combine_encode hv]
    · intro hroom
      obtain ⟨c1, c2, c3, c4, c5⟩ := g4 hroom
      exact ⟨c1, c2, c5⟩

/-- C20 (running out of memory): reading when no byte is left returns 0 and reports NO_MEMORY. -/
theorem C20_end (r : Reader) (h : r.memory = []) (hok : r.error = .OK) :
    ∃ r', r.readByte = some (0, r') ∧ r'.error = .NO_MEMORY ∧ r'.insn = r.insn := by
  refine ⟨{ r with error := .NO_MEMORY }, ?_, rfl, rfl⟩
  unfold Reader.readByte Reader.setErrorIf
  rw [h, if_pos ⟨hok, by simp⟩]

/-- Hypotheses of C20 are met. -/
example : 5 + size .le64 ≤ 64 ∧ 0x0123456789ABCDEF < 256 ^ size .le64 := by decide
example : (Reader.read .be32 { insn := Buf.new 0, memory := [0xDE, 0xAD, 0xBE, 0xEF, 1], error := .OK }).map
    (fun p => (p.1, p.2.memory)) = some (0xDEADBEEF, [1]) := by decide

/-! ### C36 -/

/-- The error a report is about. -/
def Spec.errorOf {pos : Type} : Report pos → Err
  | .errorIf e => e
  | .copyIf o => o.error
  | .errorAtIf _ e => e

/-- The place a report names, if it does. -/
def Spec.placeOf {pos : Type} : Report pos → Option pos
  | .errorIf _ => none
  | .copyIf o => some o.at_
  | .errorAtIf p _ => some p

theorem report_error {pos : Type} (s : ErrorAt pos) (r : Report pos) :
    (report s r).1.error = (if s.error ≠ .OK then s.error else Spec.errorOf r) ∧
      (report s r).2 = (report s r).1.error := by
  cases r <;> simp only [report, Spec.errorOf] <;> by_cases h : s.error = .OK <;> simp [h]
  all_goals (split <;> simp_all)

theorem report_keep {pos : Type} (s : ErrorAt pos) (r : Report pos) (h : s.error ≠ .OK) :
    report s r = (s, s.error) := by
  cases r <;> simp [report, h]

theorem reports_keep {pos : Type} (s : ErrorAt pos) (rs : List (Report pos)) (h : s.error ≠ .OK) :
    reports s rs = (s, rs.map (fun _ => s.error)) := by
  induction rs with
  | nil => rfl
  | cons r rs ih => simp [reports, report_keep s r h, ih]

/-- C36: after any sequence of conditional reports the error is the first one reported (an error
already there counts as first), with the place of that report; nothing reported later, of whatever
kind, changes either, and every call returns the error standing after it. -/
theorem C36_first_error {pos : Type} (s : ErrorAt pos) (before after : List (Report pos))
    (r : Report pos) (hs : s.error = .OK) (hbefore : ∀ q ∈ before, Spec.errorOf q = .OK)
    (hr : Spec.errorOf r ≠ .OK) :
    (reports s (before ++ r :: after)).1 =
        { error := Spec.errorOf r, at_ := (Spec.placeOf r).getD s.at_ } ∧
      (reports s (before ++ r :: after)).2 =
        before.map (fun _ => Err.OK) ++ (r :: after).map (fun _ => Spec.errorOf r) := by
  induction before with
  | nil =>
    have h1 : (report s r).1 = { error := Spec.errorOf r, at_ := (Spec.placeOf r).getD s.at_ } := by
      cases r <;> simp_all [report, Spec.errorOf, Spec.placeOf]
    have h2 : (report s r).2 = Spec.errorOf r := by rw [(report_error s r).2, h1]
    have h3 : (report s r).1.error ≠ .OK := by rw [h1]; exact hr
    rw [h1] at h3
    simp only [List.nil_append, reports, h1, h2, List.map_nil, List.map_cons,
      reports_keep _ after h3, and_self]
  | cons q qs ih =>
    have hq : Spec.errorOf q = .OK := hbefore q (by simp)
    have hkeep : report s q = (s, .OK) := by
      cases q <;> simp_all [report, Spec.errorOf]
      · cases s; simp_all
    have := ih (fun q hq => hbefore q (by simp [hq]))
    simp only [List.cons_append, reports, hkeep, this, List.map_cons, and_self]

/-- C36: if nothing is reported the slot stays clear. -/
theorem C36_no_error {pos : Type} (s : ErrorAt pos) (rs : List (Report pos)) (hs : s.error = .OK)
    (h : ∀ q ∈ rs, Spec.errorOf q = .OK) : (reports s rs).1 = s := by
  induction rs with
  | nil => rfl
  | cons q qs ih =>
    have hq : Spec.errorOf q = .OK := h q (by simp)
    have hkeep : report s q = (s, .OK) := by
      cases q <;> simp_all [report, Spec.errorOf]
      · cases s; simp_all
    simp only [reports, hkeep]
    exact ih (fun q hq => h q (by simp [hq]))

/-- C36: an error already recorded is never changed or cleared, nor is its place. -/
theorem C36_error_stays {pos : Type} (s : ErrorAt pos) (rs : List (Report pos))
    (h : s.error ≠ .OK) : (reports s rs).1 = s := by rw [reports_keep s rs h]

/-- C36 as first written said that a real error replaces UNDEFINED_SYMBOL; it does not. -/
theorem C36_violated_undefined :
    (reports (⟨.OK, 0⟩ : ErrorAt Nat)
      [.errorAtIf 3 .UNDEFINED_SYMBOL, .errorAtIf 7 .OVERFLOW_RANGE]).1 = ⟨.UNDEFINED_SYMBOL, 3⟩ := by
  decide

/-- Hypotheses of C36_first_error are met. -/
example : (reports (⟨.OK, 0⟩ : ErrorAt Nat)
    ([.errorIf .OK, .copyIf ⟨.OK, 5⟩] ++ .copyIf ⟨.NO_MEMORY, 9⟩ :: [.errorAtIf 7 .OVERFLOW_RANGE])).1 =
      ⟨.NO_MEMORY, 9⟩ := by decide

end Libasm.Insn
