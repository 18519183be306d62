import Verif.Cpu.Pdp8.Encode
import Verif.Cpu.Back
import Verif.Table.Lemmas
/-
The names of micro-operations, and what the rows of the table do with the codes.
-/
namespace Libasm.Cpu.Pdp8
open Scan Number Number.Spec Eval

/-! ### Capital and small letters -/

theorem cmp_letter (o : Opts) : ∀ n c : List Char, Table.strcasecmp (outText o n) c = Table.strcasecmp n c := by
  have low : ∀ a, Table.low (letter o.upper a) = Table.low a := by
    intro a
    have h := outText_same o [a]
    obtain ⟨x, h1, h2⟩ := Table.key_cons a []
    obtain ⟨y, h3, h4⟩ := Table.key_cons (letter o.upper a) []
    unfold Table.Spec.Same at h
    rw [h2, show outText o [a] = [letter o.upper a] from rfl, h4] at h
    rw [h1, h3]
    injection h with h _
    rw [h]
  intro n
  induction n with
  | nil => intro c; rfl
  | cons a n ih =>
    intro c
    rw [show outText o (a :: n) = letter o.upper a :: outText o n from rfl]
    cases c with
    | nil => simp only [Table.strcasecmp, low]
    | cons b c => simp only [Table.strcasecmp, low, ih]

theorem searchName_letter (o : Opts) (ps : List (Table.Page Op)) (n : List Char) :
    searchName ps (outText o n) = searchName ps n := by
  unfold searchName
  simp only [cmp_letter]

theorem searchMicro_letter (o : Opts) (ps : List (Table.Page Op)) (n : List Char) (m : Mode) :
    searchMicro ps (outText o n) m = searchMicro ps n m := by
  unfold searchMicro
  simp only [cmp_letter]

theorem firstGroup_letter (o : Opts) (ps : List (Table.Page Op)) (n : List Char) (s : Asm) (ms : List Mode) :
    firstGroup ps (outText o n) s ms = firstGroup ps n s ms := by
  induction ms with
  | nil => rfl
  | cons m ms ih => unfold firstGroup; rw [searchMicro_letter, ih]

theorem operateMicro_letter (o : Opts) (ps : List (Table.Page Op)) (n : List Char) (s : Asm) :
    operateMicro ps (outText o n) s = operateMicro ps n s := by
  unfold operateMicro
  simp only [searchName_letter, searchMicro_letter, firstGroup_letter]

/-! ### Names one after another -/

/-- A name of a micro-operation. -/
def microB (n : List Char) : Bool :=
  nameB (syntaxOf .HD6120) n && nameB (syntaxOf .HD6120) (n.map (letter true)) &&
  nameB (syntaxOf .HD6120) (n.map (letter false))

theorem microB_text {n : List Char} (h : microB n = true) (o : Opts) : nameB (syntaxOf .HD6120) (outText o n) = true := by
  unfold microB at h
  simp only [Bool.and_eq_true] at h
  unfold outText
  cases o.upper
  · exact h.2
  · exact h.1.2

theorem syntaxOk (cpu : CpuType) : SyntaxOk (syntaxOf cpu) := by
  constructor
  · intro c hc
    exact Ctype.ascii (p := fun c => Ctype.isSpace c = true → (Eval.symbolLetter false c || c == '*' || c == '=') = false)
      (by decide +kernel) c (space_ascii hc) hc
  · intro c s hc
    exact Ctype.ascii (p := fun c => Ctype.isAlpha c = true → (c == '\x00' || c == '/' || c == ';') = false)
      (by decide +kernel) c (alpha_ascii hc) hc

theorem alpha_not_space {c : Char} (hc : Ctype.isAlpha c = true) : Ctype.isSpace c = false :=
  Ctype.ascii (p := fun c => Ctype.isAlpha c = true → Ctype.isSpace c = false) (by decide +kernel) c (alpha_ascii hc) hc

/-- A printed name of a micro-operation is read as one. -/
theorem micro_read {n rest : List Char} (h : nameB (syntaxOf .HD6120) n = true)
    (hr : ∀ c, rest.head? = some c → Ctype.isSpace c = true) :
    skipSpaces (n ++ rest) = n ++ rest ∧ endOfLine (n ++ rest) = false ∧ readMicro (n ++ rest) = (n, rest) ∧
    n.take 11 = n ∧ n ≠ [] := by
  unfold nameB at h
  simp only [Bool.and_eq_true, decide_eq_true_eq, List.all_eq_true, Bool.not_eq_true'] at h
  obtain ⟨⟨⟨h1, h2⟩, h3⟩, h4⟩ := h
  cases n with
  | nil => cases h1
  | cons c t =>
    refine ⟨?_, (syntaxOk .HD6120).comment c _ h1, ?_, List.take_of_length_le h2, List.cons_ne_nil _ _⟩
    · show skipSpaces (c :: (t ++ rest)) = _
      unfold skipSpaces trimStart
      rw [List.dropWhile_cons, alpha_not_space h1]
      rfl
    · exact readInstruction_name (fun d hd => ⟨(h3 d hd).1.1, (h3 d hd).1.2⟩)
        (fun d hd => (syntaxOk .HD6120).space d (hr d hd))

/-- What the names of micro-operations do one after another. -/
def runNames (ps : List (Table.Page Op)) : List (List Char) → Asm → Out Asm
  | [], s => .ok s
  | n :: ns, s => (operateMicro ps n s).bind (runNames ps ns)

theorem bind_ok' {α β γ : Type} (x : Out α) (f : α → Out β) (g : β → Out γ) :
    (x.bind f).bind g = x.bind fun a => (f a).bind g := by cases x <;> rfl

theorem operate_space (ps : List (Table.Page Op)) (start : Scan) (fuel : Nat) (t : List Char) (s : Asm) :
    operateLoop ps start fuel (' ' :: t) s = operateLoop ps start fuel t s := by
  cases fuel <;> rfl

theorem operate_names (o : Opts) (ps : List (Table.Page Op)) (start : Scan) : ∀ (ns : List (List Char)) (fuel : Nat) (s : Asm),
    (∀ n ∈ ns, microB n = true) → (outMicros o ns).length + 1 ≤ fuel →
    operateLoop ps start fuel (outMicros o ns) s = (runNames ps ns s).bind fun s => .ok (s, [])
  | [], fuel, s, _, hf => by
    obtain ⟨k, rfl⟩ : ∃ k, fuel = k + 1 := ⟨fuel - 1, by omega⟩
    rfl
  | [n], fuel, s, hn, hf => by
    have hm := micro_read (rest := []) (microB_text (hn n (List.mem_cons_self ..)) o) (fun c hc => nomatch hc)
    rw [List.append_nil] at hm
    obtain ⟨h1, h2, h3, h4, h5⟩ := hm
    obtain ⟨k, rfl⟩ : ∃ k, fuel = k + 1 := ⟨fuel - 1, by omega⟩
    have hl : 0 < (outMicros o [n]).length := List.length_pos_iff.2 h5
    obtain ⟨j, rfl⟩ : ∃ j, k = j + 1 := ⟨k - 1, by omega⟩
    unfold operateLoop runNames
    rw [show outMicros o [n] = outText o n from rfl, h1]
    dsimp only
    rw [h2, h3]
    simp only [Bool.false_eq_true, if_false]
    cases he : outText o n with
    | nil => exact absurd he h5
    | cons a b =>
      rw [← he, h4, operateMicro_letter, bind_ok']
      rfl
  | n :: m :: ns, fuel, s, hn, hf => by
    have hm := micro_read (rest := ' ' :: outMicros o (m :: ns)) (microB_text (hn n (List.mem_cons_self ..)) o)
      (fun c hc => by cases hc; rfl)
    obtain ⟨h1, h2, h3, h4, h5⟩ := hm
    obtain ⟨k, rfl⟩ : ∃ k, fuel = k + 1 := ⟨fuel - 1, by omega⟩
    have et : outMicros o (n :: m :: ns) = outText o n ++ ' ' :: outMicros o (m :: ns) := by
      show outText o n ++ [' '] ++ outMicros o (m :: ns) = _
      rw [List.append_assoc]
      rfl
    rw [et] at hf ⊢
    rw [List.length_append, List.length_cons] at hf
    unfold operateLoop runNames
    rw [h1]
    dsimp only
    rw [h2, h3]
    simp only [Bool.false_eq_true, if_false]
    cases he : outText o n with
    | nil => exact absurd he h5
    | cons a b =>
      rw [← he, h4, operateMicro_letter, bind_ok']
      congr 1
      funext s'
      rw [operate_space]
      exact operate_names o ps start (m :: ns) k s' (fun x hx => hn x (List.mem_cons_of_mem _ hx)) (by omega)

/-- What the names of memory extension do one after another. -/
def runMex (ps : List (Table.Page Op)) : List (List Char) → Asm → Option Asm
  | [], s => some s
  | n :: ns, s =>
    match searchName ps n, searchMicro ps n .MEX with
    | some (.ok _), some (.ok e) => runMex ps ns (encodeMicro s e)
    | _, _ => none

theorem extension_space (P : Plugins Value) (radix : Radix) (ps : List (Table.Page Op)) (fuel : Nat) (t : List Char) (s : Asm) :
    extensionLoop P radix ps fuel (' ' :: t) s = extensionLoop P radix ps fuel t s := by
  cases fuel <;> rfl

theorem extension_names (o : Opts) (P : Plugins Value) (radix : Radix) (ps : List (Table.Page Op)) {rest : List Char} :
    ∀ (ns : List (List Char)) (n : List Char) (fuel : Nat) (s s' : Asm),
    (∀ x ∈ n :: ns, microB x = true) → ns.length + 1 ≤ fuel → runMex ps (n :: ns) s = some s' →
    ∃ k, fuel = k + ns.length + 1 ∧
    extensionLoop P radix ps fuel (outMicros o (n :: ns) ++ ' ' :: rest) s = extensionLoop P radix ps k rest s'
  | ns, n, fuel, s, s', hn, hf, hrun => by
    obtain ⟨k, rfl⟩ : ∃ k, fuel = k + 1 := ⟨fuel - 1, by omega⟩
    obtain ⟨tail, et, htail⟩ : ∃ tail, outMicros o (n :: ns) ++ ' ' :: rest = outText o n ++ ' ' :: tail ∧
        ((ns = [] ∧ tail = rest) ∨ ∃ m ms, ns = m :: ms ∧ tail = outMicros o (m :: ms) ++ ' ' :: rest) := by
      cases ns with
      | nil => exact ⟨rest, rfl, Or.inl ⟨rfl, rfl⟩⟩
      | cons m ms =>
        refine ⟨_, ?_, Or.inr ⟨m, ms, rfl, rfl⟩⟩
        show outText o n ++ [' '] ++ outMicros o (m :: ms) ++ ' ' :: rest = _
        simp [List.append_assoc]
    obtain ⟨h1, h2, h3, h4, h5⟩ := micro_read (rest := ' ' :: tail) (microB_text (hn n (List.mem_cons_self ..)) o)
      (fun c hc => by cases hc; rfl)
    rw [et]
    unfold runMex at hrun
    have step : ∃ e, searchMicro ps n .MEX = some (.ok e) ∧ runMex ps ns (encodeMicro s e) = some s' ∧
        ∃ e', searchName ps n = some (.ok e') := by
      split at hrun
      · rename_i e' e ha hb
        exact ⟨e, hb, hrun, e', ha⟩
      · cases hrun
    obtain ⟨e, g1, g2, e', g3⟩ := step
    have first : extensionLoop P radix ps (k + 1) (outText o n ++ ' ' :: tail) s =
        extensionLoop P radix ps k tail (encodeMicro s e) := by
      rw [extensionLoop]
      rw [h1]
      rw [h2, h3]
      simp only [Bool.false_eq_true, if_false]
      cases he : outText o n with
      | nil => exact absurd he h5
      | cons a b =>
        rw [← he, h4, searchName_letter, searchMicro_letter, g3, g1]
        dsimp only
        exact extension_space ..
    rw [first]
    rcases htail with ⟨rfl, rfl⟩ | ⟨m, ms, rfl, rfl⟩
    · cases g2
      exact ⟨k, rfl, rfl⟩
    · rw [List.length_cons] at hf
      obtain ⟨j, hj, hh⟩ := extension_names o P radix ps ms m k _ s' (fun x hx => hn x (List.mem_cons_of_mem _ hx))
        (by omega) g2
      exact ⟨j, by rw [List.length_cons]; omega, hh⟩

/-! ### The rows -/

/-- The names of the pages of a group as one list, if but one page has names. -/
def oneList : List (List (List Char)) → Option (List (List Char))
  | [] => some []
  | [a] => some a
  | [a, []] => some a
  | [[], a] => some a
  | _ => none

theorem oneList_text (o : Opts) {x : List (List (List Char))} {ns : List (List Char)} (h : oneList x = some ns) :
    (x.map (outMicros o)).flatten = outMicros o ns := by
  unfold oneList at h
  split at h
  · cases h; rfl
  · cases h; simp
  · cases h; simp [outMicros]
  · cases h; simp [outMicros]
  · cases h

/-- The codes that are not told apart from those of the first group. -/
def Exception (k : Nat) : Bool := k == 0o7400 || k == 0o7401 || k == 0o7600 || k == 0o7601

/-- The operate codes that are instructions: no two ways to rotate, and no bit of the third group that has no meaning. -/
def allowed (cpu : CpuType) (k : Nat) : Bool :=
  if k < 0xF00 then k &&& 14 != 14 && (cpu == .HD6120 || k &&& 14 != 12)
  else k % 2 == 0 || k &&& 0x2E == 0

/-- Operate instructions: the names make the code. -/
def groupOk (cpu : CpuType) (ps : List (Table.Page Op)) (k : Nat) : Bool :=
  match searchOpCode ps k with
  | none => !allowed cpu k
  | some op =>
    let x := microsOf ps op k
    if x.2 ≠ 0 then !allowed cpu k
    else Exception k || (
      microB op.name && decide (op.mode = .GR1 ∨ op.mode = .GR2 ∨ op.mode = .GR3) &&
      match oneList x.1, searchName ps op.name with
      | some ns, some (.ok op') =>
        ns.all microB && decide (op'.mode = .GR1 ∨ op'.mode = .GR2 ∨ op'.mode = .GR3) &&
        match runNames ps ns ⟨op'.opcode, .OK, if op'.multi then .NONE else op'.mode, op'.bits⟩ with
        | .ok s => decide (s.opcode = k ∧ s.err = .OK)
        | _ => false
      | _, _ => false)

/-- Transfers: the name makes the code, or the name and the numbers. -/
def transferOk (ps : List (Table.Page Op)) (k : Nat) : Bool :=
  match searchOpCode ps k with
  | none => false
  | some op =>
    decide ((microsOf ps op k).2 = 0) && microB op.name &&
    match op.mode, searchName ps op.name with
    | .CMP, some (.ok op') => decide (op'.mode = .CMP ∧ op'.opcode = k)
    | .IOT, some (.ok op') => decide (op'.mode = .IOT ∧ op'.opcode ||| (k / 8 % 64 * 8 ||| k % 8) % 65536 = k)
    | .MEX, some (.ok op') =>
      decide (op'.mode = .MEX) &&
      match oneList (microsOf ps op k).1 with
      | some ns =>
        ns.all microB &&
        match runMex ps ns ⟨op'.opcode, .OK, .MEX, andNot op'.opcode op'.bits⟩ with
        | some s => decide (s.opcode ||| k / 8 % 8 * 8 = k ∧ s.err = .OK)
        | none => false
      | none => false
    | _, _ => false

/-- Memory reference: the name makes the first three bits. -/
def memoryOk (ps : List (Table.Page Op)) (k : Nat) : Bool :=
  match searchOpCode ps k with
  | none => false
  | some op =>
    microB op.name && decide (op.mode = .MEM) &&
    match searchName ps op.name with
    | some (.ok op') =>
      decide (op'.mode = .MEM ∧
        (let c := if k / 256 % 2 = 1 then op'.opcode ||| 0x100 else op'.opcode
         (if k / 128 % 2 = 0 then c ||| k % 128 else c ||| (0x80 ||| k % 128)) = k))
    | _ => false

theorem group_rows (cpu : CpuType) : ∀ a, a < 16 → ∀ b, b < 32 →
    groupOk cpu (fast cpu) (0xE00 + a * 32 + b) = true := by
  cases cpu <;> decide +kernel

theorem transfer_rows (cpu : CpuType) : ∀ a, a < 16 → ∀ b, b < 32 → transferOk (fast cpu) (0xC00 + a * 32 + b) = true := by
  cases cpu <;> decide +kernel

theorem memory_rows (cpu : CpuType) : ∀ a, a < 48 → ∀ b, b < 64 → memoryOk (fast cpu) (a * 64 + b) = true := by
  cases cpu <;> decide +kernel

end Libasm.Cpu.Pdp8
