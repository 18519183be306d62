import Verif.Driver.Ends
import Verif.Driver.Invariant
import Verif.Driver.DataLemmas
import Verif.Driver.Lines
import Verif.BinMemory.Props
/-
C31, C43, C47, C48, C49, C50, C51: include files, passes, END, labels and the listing.
-/
namespace Libasm.Driver.Props
open Eval (Out)
open Store (Name Symbols Fn Map)
open Insn (Buf)
open Spec

variable {σ δ : Type}

/-! ### C43: include files -/

/-- C43, in place: assembling from a file just opened is the recursion over include files
(Spec.lean): a file included by a line is assembled as a whole right after that line, down to four
levels, and at the end all files are closed.  For every assembler, every set of files and every
source. -/
theorem C43_in_place (C : Cpu σ δ) (hC : NoEnd C) (files : Files) (report : Bool) (r : Reader)
    (s : St σ) :
    ∃ n, ∀ fuel ≥ n, loop C files report fuel { s with sources := [r] } =
      (inPlace C files report 3 [] r s).bind fun s' => .ok { s' with sources := [] } := by
  obtain ⟨k, hk⟩ := inPlace_agree (files := files) (report := report) hC 3 [] r s rfl
  refine ⟨k + 1, fun fuel hf => ?_⟩
  obtain ⟨m, rfl⟩ : ∃ m, fuel = (m + 1) + k := ⟨fuel - k - 1, by omega⟩
  rw [hk]
  rfl

/-- C43, the end: if the assemblers and parsers come to an end on every text, so does assembling a
source, also one that includes itself. -/
theorem C43_ends (C : Cpu σ δ) (hC : NoEnd C) (hE : Ends C) (files : Files) (report : Bool)
    (r : Reader) (s : St σ) :
    ∃ n, ∀ fuel ≥ n, loop C files report fuel { s with sources := [r] } ≠ .diverge := by
  obtain ⟨n, hn⟩ := C43_in_place C hC files report r s
  refine ⟨n, fun fuel hf => ?_⟩
  rw [hn fuel hf]
  exact Out.bind_ends (inPlace_ends hE files report 3 [] r s) (fun _ => by simp)

theorem readLine_length (s : Sources) : s.readLine.2.length ≤ s.length ∧
    (s.readLine.1 = none → s.readLine.2 = []) := by
  induction s with
  | nil => exact ⟨Nat.le_refl _, fun _ => rfl⟩
  | cons r rs ih =>
    unfold Sources.readLine
    split
    · exact ⟨by simp, fun h => by cases h⟩
    · exact ⟨by have := ih.1; simp only [List.length_cons]; omega, ih.2⟩

/-- C43, the bound: at no point are more than four files open. -/
theorem C43_bound (C : Cpu σ δ) (hC : NoEnd C) (files : Files) (report : Bool) (r : Reader)
    (s s' : St σ) (h : Reach C files report { s with sources := [r] } s') :
    s'.sources.length ≤ 4 := by
  induction h with
  | start => simp
  | line h1 h2 h3 ih =>
    rename_i s1 s2 l st src
    have hl := (readLine_length s1.sources).1
    rw [h2] at hl
    rcases (stepLine_sources hC h3).1 with hg | ⟨hlt, _, _, _, hg⟩
    · rw [hg]; exact Nat.le_trans hl ih
    · rw [hg]; simp only [List.length_cons]; dsimp only at hlt; omega

/-- C43, closing: when assembling has ended, no file is open. -/
theorem C43_closed (C : Cpu σ δ) (hC : NoEnd C) (files : Files) (report : Bool) (fuel : Nat)
    (s s' : St σ) (h : loop C files report fuel s = .ok s') : s'.sources = [] := by
  induction fuel generalizing s with
  | zero => cases h
  | succ fuel ih =>
    simp only [loop] at h
    cases hr : s.sources.readLine with
    | mk line src =>
      rw [hr] at h
      cases line with
      | none =>
        have := (readLine_length s.sources).2 (by rw [hr])
        rw [hr] at this
        dsimp only at this h
        rw [this] at h
        cases h
        rfl
      | some line =>
        obtain ⟨⟨x, b⟩, h1, h⟩ := Out.bind_ok h
        have := (stepLine_sources hC h1).2
        dsimp only at this h
        subst this
        exact ih _ h

/-- C43 does not hold for a source named with a directory: including an existing file from it is
undefined behaviour (a reader with a freed line buffer), whatever the assembler. -/
theorem C43_violated_directory :
    Sources.open (fun _ => some []) [⟨"src/a.asm".toList, [], 1⟩] "b.inc".toList = .ub := by
  rfl

/-- The hypotheses of C43 are met by the assembler of the examples; a file that includes itself is
read four times, and the fourth inclusion is an error. -/
example : NoEnd dataCpu ∧ Ends dataCpu ∧
    (listing [" nop", " include a", " byte 7"] 10).map (·.map fun e => (e.bytes, e.error)) =
      some [([0], .OK), ([], .OK), ([0], .OK), ([], .OK), ([0], .OK), ([], .OK), ([0], .OK),
        ([], .TOO_MANY_INCLUDE), ([7], .OK), ([7], .OK), ([7], .OK), ([7], .OK)] :=
  ⟨data_noEnd, data_ends, by decide +kernel⟩

/-! ### C31: passes -/

/-- C31, proved part: when the pass loop has ended after two or more passes without an error, one
more pass makes the same image, the same listing and the same symbols, for every assembler whose
expressions have proper values, every source and every command line, if
* what the command line sets up does not depend on the state the passes have left behind
  (the CPU and its options persist between passes), and
* no symbol was undefined in one of the last two passes and defined in the other (the comparison
  takes an undefined value for 0). -/
theorem C31_fixed_point_partial (C : Cpu σ δ)
    (hC : ∀ s d v t r, (∀ n x, v.symbol n = some x → Value.Spec.Valid x) →
      C.eval s d v t = .ok r → Value.Spec.Valid r.1)
    (files : Files) (cmd : Command σ) (lines fuel : Nat) (asm : σ) (p q : Pass σ)
    (h : assemble C files cmd lines fuel asm = .ok (some (p, q, true))) (hclean : Clean q.log)
    (hup : cmd.setUp q.asm = cmd.setUp p.asm)
    (hu : ∀ n v w, p.symbols.lookup n = some v → q.symbols.lookup n = some w →
      (v.type = .undef ↔ w.type = .undef)) :
    ∃ q', pass C files cmd true lines q = .ok (some q') ∧ q'.memory = q.memory ∧ q'.log = q.log ∧
      ∀ n, q'.symbols.lookup n = q.symbols.lookup n := by
  have hK := tidy_kept hC
  have hcl : ∀ s : Symbols, TidyStore s → TidyStore s.clearFunctions :=
    fun s hs => ⟨hs.constants, hs.variables, hs.kinds⟩
  have hempty : TidyStore Symbols.empty :=
    ⟨fun n v h => (by cases h), fun n v h => (by cases h), fun n => .inl rfl⟩
  obtain ⟨hp, hq, ha⟩ := passes_spec (fun p : Pass σ => TidyStore p.symbols)
    (fun r p q hp h => pass_kept hK hcl hp h) fuel false _ p q true hempty h
  have hq' := pass_kept hK hcl hp hq
  have hne : q.log.all (fun e => !e.hasError) = true := by
    rw [List.all_eq_true]
    intro e he
    simp [Entry.hasError, hclean e he]
  have hs : Symbols.same p.symbols q.symbols = true := by
    unfold again at ha
    rw [hne] at ha
    simp at ha
    exact ha.2
  obtain ⟨h1, h2⟩ := same_alike hp hq' hs hu
  obtain ⟨q', hpass, _, hal, hm, hl⟩ := pass_alike C files cmd true lines hup h1 h2 hq
  refine ⟨q', hpass, hm, hl, fun n => ?_⟩
  unfold Symbols.lookup
  rw [hal.constants n, hal.variables n]

/-- The result of assembling the lines of a file: the last two states. -/
def lastTwo (lines : List String) (fuel : Nat) : Option (Pass Nat × Pass Nat × Bool) :=
  match assemble dataCpu (oneFile lines) plain 20 fuel 0 with
  | .ok (some x) => some x
  | _ => none

/-- A source whose first pass makes a different image: `b` is used before it is defined.  The last
pass starts where the one before has ended: at the location of `b`. -/
def forward : List String := [" ds 2", " byte b", "b: nop", " org 0"]

theorem find_mem {α : Type} (m : Map α) (n : Name) (v : α) (h : m.find n = some v) :
    (n, v) ∈ m := by
  induction m with
  | nil => cases h
  | cons kv rest ih =>
    obtain ⟨k, x⟩ := kv
    simp only [Map.find] at h
    split at h
    · rename_i hk; cases h; subst hk; exact List.mem_cons_self
    · exact List.mem_cons_of_mem _ (ih h)

/-- A store whose symbols are all defined. -/
theorem defined_lookup (s : Symbols) (h1 : ∀ kv ∈ s.constants, kv.2.type ≠ .undef)
    (h2 : s.variables = []) (n : Name) (v : Value) (h : s.lookup n = some v) :
    v.type ≠ .undef := by
  unfold Symbols.lookup at h
  split at h
  · rename_i x hx
    cases h
    exact h1 _ (find_mem _ _ _ hx)
  · rw [h2] at h; cases h

example : ∃ p q, assemble dataCpu (oneFile forward) plain 20 10 0 = .ok (some (p, q, true)) ∧
    Clean q.log ∧ plain.setUp q.asm = plain.setUp p.asm ∧
    (∀ n v w, p.symbols.lookup n = some v → q.symbols.lookup n = some w →
      (v.type = .undef ↔ w.type = .undef)) ∧
    q.symbols.lookup ['b'] = some ⟨3, .unsigned⟩ ∧ q.log.map (·.bytes) = [[], [3], [0], []] := by
  refine ⟨_, _, rfl, ?_, rfl, ?_, by decide +kernel, by decide +kernel⟩
  · unfold Clean
    decide +kernel
  · intro n v w hv hw
    have h1 := defined_lookup _ (by decide +kernel) (by decide +kernel) n v hv
    have h2 := defined_lookup _ (by decide +kernel) (by decide +kernel) n w hw
    exact ⟨fun h => absurd h h1, fun h => absurd h h2⟩

/-- C31 fails: the comparison of symbols takes an undefined value for 0, so the passes end although
another one would report a division by zero. -/
theorem C31_violated_undefined :
    ∃ p q q', assemble dataCpu (oneFile [" byte 1/a", "a equ b", "b equ 0"]) plain 20 10 0 =
        .ok (some (p, q, true)) ∧
      (∀ e ∈ q.log, e.hasError = false) ∧
      pass dataCpu (oneFile [" byte 1/a", "a equ b", "b equ 0"]) plain true 20 q = .ok (some q') ∧
      q'.log.map (·.error) = [.DIVIDE_BY_ZERO, .OK, .OK] := by
  refine ⟨_, _, _, rfl, ?_, rfl, by decide +kernel⟩
  decide +kernel

/-- C31 fails: the loop may end after the first pass, in which undefined symbols are not reported:
a source that leaves neither bytes nor symbols.  Another pass reports the error. -/
theorem C31_violated_report :
    ∃ p q q', assemble dataCpu (oneFile [" org undef"]) plain 20 10 0 = .ok (some (p, q, false)) ∧
      Clean q.log ∧ pass dataCpu (oneFile [" org undef"]) plain true 20 q = .ok (some q') ∧
      q'.log.map (·.error) = [.UNDEFINED_SYMBOL] := by
  refine ⟨_, _, _, rfl, ?_, rfl, by decide +kernel⟩
  unfold Clean
  decide +kernel

/-- A source whose passes never agree. -/
def flipping : List String := [" ds 1-b", "b:"]

/-- A state between its passes. -/
def flip (b : Nat) : Pass Nat := ⟨b, ⟨[(['b'], ⟨b, .unsigned⟩)], [], []⟩, [], []⟩

/-- The state is one in which `b` has the value `b`. -/
structure IsFlip (b : Nat) (p : Pass Nat) : Prop where
  asm : p.asm = b
  constants : ∀ n, (flip b).symbols.constants.find n = p.symbols.constants.find n
  variables : ∀ n, (flip b).symbols.variables.find n = p.symbols.variables.find n

theorem flip_pass (b c : Nat)
    (h : ∃ q : Pass Nat, pass dataCpu (oneFile flipping) plain true 20 (flip b) = .ok (some q) ∧
      q.asm = c ∧ q.log.all (fun e => !e.hasError) = true ∧
      (∀ n, (flip c).symbols.constants.find n = q.symbols.constants.find n) ∧
      q.symbols.variables = [])
    (hbc : b ≠ c) (p : Pass Nat) (hp : IsFlip b p) :
    ∃ q, pass dataCpu (oneFile flipping) plain true 20 p = .ok (some q) ∧ IsFlip c q ∧
      again p q = true := by
  obtain ⟨q, h1, h2, h3, h4, h5⟩ := h
  obtain ⟨q', g1, g2, g3, _, g5⟩ := pass_alike dataCpu (oneFile flipping) plain true 20
    (p := flip b) (p' := p) (by rw [hp.asm]; rfl) hp.constants hp.variables h1
  refine ⟨q', g1, ⟨by rw [g2, h2], fun n => by rw [h4 n, g3.constants n], fun n => ?_⟩, ?_⟩
  · rw [← g3.variables n, h5]; rfl
  · unfold again
    rw [g5, h3]
    cases hs : Symbols.same p.symbols q'.symbols with
    | false => simp
    | true =>
      unfold Symbols.same at hs
      simp only [Bool.and_eq_true] at hs
      have := same_find hs.1.1 ['b']
      rw [← hp.constants, ← g3.constants, ← h4] at this
      rcases this with ⟨h, _⟩ | ⟨x, y, hx, hy, hxy⟩
      · cases h
      · cases hx; cases hy
        simp [Value.eq] at hxy
        exact absurd hxy hbc

theorem find_b (v : Value) (m : Map Value) (hm : ∀ kv ∈ m, kv.1 = ['b']) (n : Name) :
    Map.find ((['b'], v) :: m) n = Map.find [(['b'], v)] n := by
  simp only [Map.find]
  split
  · rfl
  · rename_i hn
    cases hf : m.find n with
    | none => rfl
    | some x => exact absurd (hm _ (find_mem _ _ _ hf)).symm hn

/-- The pass loop need not end: with `ds 1-b` before the label `b`, the value of `b` is 0 and 1 in
turn, in each pass without an error. -/
theorem C31_violated_terminates (fuel : Nat) :
    assemble dataCpu (oneFile flipping) plain 20 fuel 0 = .diverge := by
  have h1 := flip_pass 0 1 ⟨_, rfl, rfl, by decide +kernel,
    fun n => (find_b _ _ (by decide +kernel) n).symm, rfl⟩ (by decide)
  have h2 := flip_pass 1 0 ⟨_, rfl, rfl, by decide +kernel,
    fun n => (find_b _ _ (by decide +kernel) n).symm, rfl⟩ (by decide)
  have hl : ∀ fuel,
      (∀ p, IsFlip 0 p → passes dataCpu (oneFile flipping) plain 20 fuel true p = .diverge) ∧
      ∀ p, IsFlip 1 p → passes dataCpu (oneFile flipping) plain 20 fuel true p = .diverge := by
    intro fuel
    induction fuel with
    | zero => exact ⟨fun _ _ => rfl, fun _ _ => rfl⟩
    | succ fuel ih =>
      constructor
      · intro p hp
        obtain ⟨q, g1, g2, g3⟩ := h1 p hp
        simp only [passes, g1, Out.ok_bind, g3, if_true]; exact ih.2 q g2
      · intro p hp
        obtain ⟨q, g1, g2, g3⟩ := h2 p hp
        simp only [passes, g1, Out.ok_bind, g3, if_true]; exact ih.1 q g2
  unfold assemble
  cases fuel with
  | zero => rfl
  | succ fuel =>
    have h0 : ∃ q, pass dataCpu (oneFile flipping) plain false 20 ⟨0, .empty, [], []⟩ =
        .ok (some q) ∧ IsFlip 0 q ∧ again (⟨0, .empty, [], []⟩ : Pass Nat) q = true :=
      ⟨_, rfl, ⟨rfl, fun n => rfl, fun n => rfl⟩, by decide +kernel⟩
    obtain ⟨q, g1, g2, g3⟩ := h0
    simp only [passes, g1, Out.ok_bind, g3, if_true]; exact (hl fuel).1 q g2

/-! ### C47: END -/

/-- C47 fails, for every assembler: no line ever ends the assembly, whatever it says. -/
theorem C47_violated (C : Cpu σ δ) (hC : NoEnd C) (files : Files) (report : Bool)
    (line : List Char) (s s' : St σ) (stop : Bool)
    (h : stepLine C files report line s = .ok (s', stop)) : stop = false :=
  (stepLine_sources hC h).2

/-- C47 fails: the lines after END are assembled. -/
theorem C47_violated_lines :
    (listing [" byte 1", " end", " byte 2"] 10).map (·.map fun e => (e.bytes, e.error)) =
      some [([1], .OK), ([], .OK), ([2], .OK)] := by
  decide +kernel

/-- C47, the little that holds: a line with END and no label adds nothing to the image, to the
symbols or to the open files, and is not an error. -/
theorem C47_end_line_partial (C : Cpu σ δ) (files : Files) (report : Bool) (line : List Char)
    (s s' : St σ) (stop : Bool) (text operands : Scan) (hr : Reads C s line [] false text)
    (hn : Names C s text (some .end_) operands)
    (h : stepLine C files report line s = .ok (s', stop)) :
    s'.memory = s.memory ∧ s'.symbols = s.symbols ∧ s'.sources = s.sources ∧
      ∃ x, s'.log = s.log ++ [x] ∧ x.error = .OK ∧ x.bytes = [] := by
  obtain ⟨w0, e, rest, w1, w, h1, h2, h3, h4⟩ := line_directive hr hn h
  simp only [handle] at h1
  cases h1
  rw [if_neg (by simp)] at h2
  subst h2
  simp only [labelPart, if_true] at h3
  subst h3
  obtain ⟨g1, g2, g3, g4⟩ := h4 (by simp)
  exact ⟨g3, g1, g2, g4⟩

/-- ` end` is read as the directive END by the assembler of the examples. -/
example : Reads dataCpu (⟨0, .empty, [], [], 5, []⟩ : St Nat) " end ".toList [] false
      "end ".toList ∧
    Names dataCpu (⟨0, .empty, [], [], 5, []⟩ : St Nat) "end ".toList (some .end_) [] ∧
    ∃ x, stepLine dataCpu (oneFile []) true " end ".toList (⟨0, .empty, [], [], 5, []⟩ : St Nat) =
      .ok x :=
  ⟨⟨rfl, _, rfl, rfl⟩, ⟨_, _, rfl, rfl, rfl⟩, _, rfl⟩

/-! ### C48: duplicate definitions -/

/-- C48, proved part, labels: in the first pass, a line that has only a label which is defined
already is reported, and the label keeps its value. -/
theorem C48_label_partial (C : Cpu σ δ) (files : Files) (line : List Char) (s s' : St σ)
    (stop : Bool) (label : Name) (text : Scan) (hl : label ≠ [])
    (hd : s.symbols.lookup label ≠ none) (hr : Reads C s line label true text)
    (h : stepLine C files false line s = .ok (s', stop)) :
    s'.symbols = s.symbols ∧ ∃ x, s'.log = s.log ++ [x] ∧ x.error = .DUPLICATE_LABEL := by
  obtain ⟨w, hw, h1, h2, h3, h4⟩ := line_blank hr h
  have hs : s.symbols.hasSymbol label = true := by
    unfold Symbols.lookup at hd
    unfold Symbols.hasSymbol Symbols.hasValue
    cases hc : s.symbols.constants.find label with
    | some v => simp [hc]
    | none =>
      rw [hc] at hd
      cases hv : s.symbols.variables.find label with
      | some v => simp [hv]
      | none => exact absurd hv hd
  simp only [labelPart, hl, if_false, hs, Bool.not_false, Bool.and_self, if_true] at hw
  subst hw
  exact ⟨h1, _, h4, rfl⟩

/-- C48, proved part, EQU: in the first pass, an EQU for a name that is a symbol or a function
already is reported, and the symbols stay as they are. -/
theorem C48_equ_partial (C : Cpu σ δ) (files : Files) (line : List Char) (s s' : St σ)
    (stop : Bool) (label : Name) (text operands : Scan)
    (hd : s.symbols.lookup label ≠ none ∨ s.symbols.functions.find label ≠ none)
    (hr : Reads C s line label false text) (hn : Names C s text (some .constant) operands)
    (h : stepLine C files false line s = .ok (s', stop)) :
    s'.symbols = s.symbols ∧ ∃ x, s'.log = s.log ++ [x] ∧ x.error = .DUPLICATE_LABEL := by
  obtain ⟨w0, e, rest, w1, w, h1, h2, h3, h4⟩ := line_directive hr hn h
  have hs : isDuplicate s.symbols label false = true := by
    unfold isDuplicate Symbols.hasValue Symbols.hasFunction
    rcases hd with hd | hd
    · unfold Symbols.lookup at hd
      cases hc : s.symbols.constants.find label with
      | some v => simp [hc]
      | none =>
        rw [hc] at hd
        cases hv : s.symbols.variables.find label with
        | some v => simp [hv]
        | none => exact absurd hv hd
    · cases hc : s.symbols.functions.find label with
      | some v => simp [hc]
      | none => exact absurd hc hd
  simp only [handle, defineSymbol, hs, Bool.not_false, Bool.and_self, if_true, Out.ok_bind] at h1
  cases h1
  rw [if_neg (by simp)] at h2
  subst h2
  simp only [labelPart, if_true] at h3
  subst h3
  obtain ⟨g1, g2, g3, x, g4, g5, g6⟩ := h4 (by simp)
  exact ⟨g1, x, g4, g5⟩

/-- C48, proved part, FUNCTION: in any pass, a function defined for the second time is reported, and
in the first pass also one whose name is a symbol; the symbols stay as they are. -/
theorem C48_function_partial (C : Cpu σ δ) (files : Files) (report : Bool) (line : List Char)
    (s s' : St σ) (stop : Bool) (label : Name) (text operands : Scan) (hl : label ≠ [])
    (hd : s.symbols.functions.find label ≠ none ∨
      (report = false ∧ s.symbols.lookup label ≠ none))
    (hr : Reads C s line label false text) (hn : Names C s text (some .function) operands)
    (h : stepLine C files report line s = .ok (s', stop)) :
    s'.symbols = s.symbols ∧ ∃ x, s'.log = s.log ++ [x] ∧
      (x.error = .DUPLICATE_LABEL ∨ x.error = .DUPLICATE_FUNCTION) := by
  obtain ⟨w0, e, rest, w1, w, h1, h2, h3, h4⟩ := line_directive hr hn h
  simp only [handle, hl, if_false] at h1
  split at h1
  · cases h1
  · rename_i params scan hp
    split at h1
    · cases h1
      rw [if_neg (by simp [Config.setErrorIf])] at h2
      subst h2
      simp only [labelPart, if_true] at h3
      subst h3
      obtain ⟨g1, g2, g3, x, g4, g5, g6⟩ := h4 (by simp [Config.setErrorIf])
      exact ⟨g1, x, g4, .inl g5⟩
    · rename_i hns
      have hf : (s.symbols.functions.find label).isSome = true := by
        rcases hd with hd | ⟨hrep, hd⟩
        · cases hc : s.symbols.functions.find label with
          | some v => rfl
          | none => exact absurd hc hd
        · exfalso
          apply hns
          subst hrep
          unfold Symbols.lookup at hd
          unfold Symbols.hasSymbol Symbols.hasValue
          cases hc : s.symbols.constants.find label with
          | some v => simp [hc]
          | none =>
            rw [hc] at hd
            cases hv : s.symbols.variables.find label with
            | some v => simp [hv]
            | none => exact absurd hv hd
      simp only [Symbols.internFunction, hf, if_true] at h1
      cases h1
      rw [if_neg (by simp [Config.setErrorIf])] at h2
      subst h2
      simp only [labelPart, if_true] at h3
      subst h3
      obtain ⟨g1, g2, g3, x, g4, g5, g6⟩ := h4 (by simp [Config.setErrorIf])
      exact ⟨g1, x, g4, .inr g5⟩

/-- A state in which `b` is a symbol and `f` a function. -/
def some2 : St Nat :=
  ⟨0, ⟨[(['b'], ⟨3, .unsigned⟩)], [], [(['f'], ⟨['1'], []⟩)]⟩, [], [], 5, []⟩

example : Reads dataCpu some2 "b: ; again".toList ['b'] true "; again".toList ∧
    some2.symbols.lookup ['b'] ≠ none ∧
    ∃ x, stepLine dataCpu (oneFile []) false "b: ; again".toList some2 = .ok x :=
  ⟨⟨rfl, _, rfl, rfl⟩, by decide +kernel, _, rfl⟩

example : Reads dataCpu some2 "f equ 1".toList ['f'] false "equ 1".toList ∧
    Names dataCpu some2 "equ 1".toList (some .constant) ['1'] ∧
    some2.symbols.functions.find ['f'] ≠ none ∧
    ∃ x, stepLine dataCpu (oneFile []) false "f equ 1".toList some2 = .ok x :=
  ⟨⟨rfl, _, rfl, rfl⟩, ⟨_, _, rfl, rfl, rfl⟩, by simp [some2, Map.find], _, rfl⟩

example : Reads dataCpu some2 "f function x,x+1".toList ['f'] false "function x,x+1".toList ∧
    Names dataCpu some2 "function x,x+1".toList (some .function) "x,x+1".toList ∧
    some2.symbols.functions.find ['f'] ≠ none ∧
    ∃ x, stepLine dataCpu (oneFile []) true "f function x,x+1".toList some2 = .ok x :=
  ⟨⟨rfl, _, rfl, rfl⟩, ⟨_, _, rfl, rfl, rfl⟩, by simp [some2, Map.find], _, rfl⟩

/-- C48 fails on a line with an instruction: the error of the label is replaced by the result of the
instruction, so that a label defined twice is not reported; it has its last value afterwards. -/
theorem C48_violated_instruction :
    (listing ["b: nop", "b: nop", " byte b"] 10).map (·.map fun e => (e.bytes, e.error)) =
      some [([0], .OK), ([0], .OK), ([1], .OK)] := by
  decide +kernel

/-- C48 fails for a label that is the name of a function. -/
theorem C48_violated_function :
    (listing ["b function x,x+1", "b:"] 10).map (·.map fun e => e.error) = some [.OK, .OK] := by
  decide +kernel

/-! ### C49: listing and image -/

/-- C49. The image of a pass holds exactly the bytes shown in its listing: an address has a byte when
some line shows one at it, and its value is what the last such line shows.  For every assembler,
source and pass. -/
theorem C49_listing_is_image (C : Cpu σ δ) (files : Files) (cmd : Command σ) (report : Bool)
    (fuel : Nat) (p q : Pass σ) (h : pass C files cmd report fuel p = .ok (some q)) (a : Nat) :
    BinMemory.hasByte q.memory a = (BinMemory.Spec.lastWrite (listed q.log) a).isSome ∧
    BinMemory.readByte q.memory a = (BinMemory.Spec.lastWrite (listed q.log) a).getD 0 := by
  rw [pass_memory h]
  refine BinMemory.C01_last_write_wins _ ?_ a
  intro w hw
  unfold listed at hw
  simp only [List.mem_flatMap, List.mem_map] at hw
  obtain ⟨e, _, x, _, rfl⟩ := hw
  exact Nat.mod_lt _ (by decide)

example : ∃ q, pass dataCpu (oneFile [" byte 1,2,3", " org 1", " byte 9"]) plain true 20
      ⟨0, .empty, [], []⟩ = .ok (some q) ∧
    listed q.log = [(0, 1), (1, 2), (2, 3), (1, 9)] ∧ BinMemory.readByte q.memory 1 = 9 :=
  ⟨_, rfl, by decide +kernel, by decide +kernel⟩

/-! ### C50: undefined symbols -/

/-- C50, proved part, lines: in a pass that reports undefined symbols (every pass but the first), any
error of an instruction or of a directive of the assembler is in the listing. -/
theorem C50_reported_partial (C : Cpu σ δ) (files : Files) (line : List Char) (s s' : St σ)
    (stop : Bool) (label : Name) (text operands : Scan)
    (hr : Reads C s line label false text) (hn : Names C s text none operands)
    (ht : ∀ asm, C.endOfLine asm (C.current s.asm) text = (false, text))
    (h : stepLine C files true line s = .ok (s', stop)) :
    ∃ asm symbols asm' b x,
      C.encode asm (C.current s.asm) (view symbols) s.origin text = .ok (asm', b) ∧
      s'.symbols = symbols ∧ s'.log = s.log ++ [x] ∧ x.error = b.error := by
  obtain ⟨w, hw, h1, h2, h3⟩ := line_instruction hr hn h
  rw [ht] at h3
  obtain ⟨asm, b, x, g1, g2, g3, g4, g5⟩ := h3 rfl
  exact ⟨_, _, asm, b, x, g1, h1, g2, g5⟩

/-- C50, proved part, passes: if assembling ends after the first pass and that pass had no error,
the image is empty and there is no symbol.  So undefined symbols can only go unreported in a source
that leaves neither bytes nor symbols. -/
theorem C50_single_pass_partial (C : Cpu σ δ) (files : Files) (cmd : Command σ) (lines fuel : Nat)
    (asm : σ) (p q : Pass σ) (h : assemble C files cmd lines fuel asm = .ok (some (p, q, false)))
    (hq : ∀ e ∈ q.log, e.hasError = false) :
    (∀ a, BinMemory.hasByte q.memory a = false) ∧ ∀ n, q.symbols.lookup n = none := by
  unfold assemble at h
  cases fuel with
  | zero => cases h
  | succ fuel =>
    simp only [passes] at h
    obtain ⟨x, h1, h⟩ := Out.bind_ok h
    cases x with
    | none => cases h
    | some y =>
      dsimp only at h
      split at h
      · exfalso
        have : ∀ (fuel : Nat) (p0 : Pass σ),
            passes C files cmd lines fuel true p0 ≠ .ok (some (p, q, false)) := by
          intro fuel
          induction fuel with
          | zero => intro p0 h; cases h
          | succ fuel ih =>
            intro p0 h
            simp only [passes] at h
            obtain ⟨x, h1, h⟩ := Out.bind_ok h
            cases x with
            | none => cases h
            | some y =>
              dsimp only at h
              split at h
              · exact ih _ h
              · cases h
        exact this _ _ h
      · rename_i ha
        cases h
        have hne : q.log.all (fun e => !e.hasError) = true := by
          rw [List.all_eq_true]
          intro e he
          simp [hq e he]
        unfold again at ha
        rw [hne] at ha
        simp only [Bool.true_and, Bool.or_eq_true, Bool.not_eq_true', not_or,
          Bool.not_eq_false] at ha
        obtain ⟨hm, hs⟩ := ha
        constructor
        · intro a
          have hm' := hm
          rw [pass_memory h1] at hm'
          have h0 := (BinMemory.C02_equality_is_content (listed q.log) [] (by
            intro w hw
            unfold listed at hw
            simp only [List.mem_flatMap, List.mem_map] at hw
            obtain ⟨e, _, x, _, rfl⟩ := hw
            exact Nat.mod_lt _ (by decide)) (fun w hw => by cases hw)).1 hm' a
          rw [(C49_listing_is_image C files cmd _ _ _ _ h1 a).1, h0]
          rfl
        · intro n
          unfold Symbols.same at hs
          simp only [Bool.and_eq_true] at hs
          have h1 := same_find hs.1.1 n
          have h2 := same_find hs.1.2 n
          unfold Symbols.lookup
          rcases h1 with ⟨_, h1⟩ | ⟨x, y, hx, _⟩
          · rw [h1]
            rcases h2 with ⟨_, h2⟩ | ⟨x, y, hx, _⟩
            · exact h2
            · cases hx
          · cases hx

example : ∃ p q, assemble dataCpu (oneFile [" org 5", " ds 2"]) plain 20 10 0 =
    .ok (some (p, q, false)) ∧ ∀ e ∈ q.log, e.hasError = false :=
  ⟨_, _, rfl, by decide +kernel⟩

example : Reads dataCpu some2 "x: byte y".toList ['x'] false "byte y".toList ∧
    Names dataCpu some2 "byte y".toList none "y".toList ∧
    (∀ asm, dataCpu.endOfLine asm (dataCpu.current some2.asm) "byte y".toList =
      (false, "byte y".toList)) ∧
    ∃ s' stop, stepLine dataCpu (oneFile []) true "x: byte y".toList some2 = .ok (s', stop) ∧
      s'.log.map (·.error) = [.UNDEFINED_SYMBOL] :=
  ⟨⟨rfl, _, rfl, rfl⟩, ⟨_, _, rfl, rfl, rfl⟩, fun _ => rfl, _, _, rfl, by decide +kernel⟩

/-- C50 fails: an undefined symbol goes unreported when the source leaves neither bytes nor
symbols. -/
theorem C50_violated :
    (listing [" org undef"] 10).map (·.map fun e => e.error) = some [.OK] := by
  decide +kernel

/-! ### C51: the value of a label -/

/-- C51, proved part: after a line with a label and nothing else, or with a label and an instruction,
the value of the label is the address at which the line was reached, provided the label is not a
variable, and not defined yet in the first pass. -/
theorem C51_label_partial (C : Cpu σ δ) (files : Files) (report : Bool) (line : List Char)
    (s s' : St σ) (stop : Bool) (label : Name) (text operands : Scan) (eol : Bool)
    (hl : label ≠ []) (hv : s.symbols.variables.find label = none)
    (hnew : report = true ∨ s.symbols.lookup label = none) (ho : s.origin < 4294967296)
    (hr : Reads C s line label eol text)
    (hn : eol = true ∨ Names C s text none operands)
    (h : stepLine C files report line s = .ok (s', stop)) :
    s'.symbols.lookup label = some ⟨s.origin, .unsigned⟩ := by
  have hlp : ∀ w : Work σ, w.symbols = s.symbols → w.label = label →
      (labelPart report s.origin w).symbols.lookup label = some ⟨s.origin, .unsigned⟩ := by
    intro w hw hlab
    unfold labelPart
    rw [hlab, hw, if_neg hl]
    rw [if_neg]
    · simp only [Symbols.intern, Symbols.hasValue, Bool.not_false, if_true, hv, Option.isSome_none,
        Bool.false_eq_true, if_false]
      have h1 : Value.setUnsigned s.origin = ⟨s.origin, .unsigned⟩ := by
        unfold Value.setUnsigned Value.setU
        rw [Nat.mod_eq_of_lt ho, Nat.mod_eq_of_lt (by unfold Value.M; omega)]
      have h2 : (⟨s.origin, .unsigned⟩ : Value).overflowUint32 = false := by
        simp [Value.overflowUint32, Value.isUnsigned]
        omega
      rw [h1, h2]
      simp [Symbols.lookup, Map.put, Map.find]
    · rcases hnew with hnew | hnew
      · simp [hnew]
      · unfold Symbols.lookup at hnew
        unfold Symbols.hasSymbol Symbols.hasValue
        split at hnew
        · cases hnew
        · rename_i hc; simp [hc, hv]
  rcases hn with hn | hn
  · subst hn
    obtain ⟨w, hw, h1, _⟩ := line_blank hr h
    rw [h1, hw]
    exact hlp _ rfl rfl
  · cases eol with
    | true =>
      obtain ⟨w, hw, h1, _⟩ := line_blank hr h
      rw [h1, hw]
      exact hlp _ rfl rfl
    | false =>
      obtain ⟨w, hw, h1, _⟩ := line_instruction hr hn h
      rw [h1, hw]
      exact hlp _ rfl rfl

example : Reads dataCpu some2 "x: byte y".toList ['x'] false "byte y".toList ∧
    Names dataCpu some2 "byte y".toList none "y".toList ∧
    some2.symbols.variables.find ['x'] = none ∧ some2.symbols.lookup ['x'] = none ∧
    some2.origin < 4294967296 ∧
    ∃ s' stop, stepLine dataCpu (oneFile []) true "x: byte y".toList some2 = .ok (s', stop) ∧
      s'.symbols.lookup ['x'] = some ⟨5, .unsigned⟩ :=
  ⟨⟨rfl, _, rfl, rfl⟩, ⟨_, _, rfl, rfl, rfl⟩, rfl, rfl, by decide, _, _, rfl, rfl⟩

/-- C51 fails when the data of the line are aligned: the label `b` is 1, the word is at 2. -/
theorem C51_violated_aligned :
    (listing [" nop", "b word 1", " byte b"] 10).map (·.map fun e => (e.address, e.bytes, e.error)) =
      some [(0, [0], .OK), (2, [1, 0], .OK), (4, [1], .OK)] := by
  decide +kernel

/-! ### C53: lines follow one another -/

/-- C53. After a line that has generated bytes, the next line is reached at the address right after
them, counted in address units (and modulo 2^32); after any other line, at the location the
assembler has set.  For every assembler whose instructions hold the bytes they say (C19). -/
theorem C53_sequential (C : Cpu σ δ)
    (hC : ∀ s d v a t asm b, C.encode s d v a t = .ok (asm, b) → b.length ≤ b.bytes.length)
    (files : Files) (report : Bool) (line : List Char) (s s' : St σ) (stop : Bool)
    (h : stepLine C files report line s = .ok (s', stop)) :
    ∃ x : Entry, s'.log = s.log ++ [x] ∧ 0 < x.unit ∧
      (x.bytes ≠ [] → s'.origin = (x.address + x.bytes.length / x.unit) % 2 ^ 32) ∧
      (x.bytes = [] → s'.origin = C.location s'.asm (C.current s.asm)) := by
  unfold stepLine at h
  dsimp only at h
  obtain ⟨⟨w, b, e⟩, h1, h⟩ := Out.bind_ok h
  have hb : b.length ≤ b.bytes.length := by
    unfold encodeLine at h1
    dsimp only at h1
    split at h1
    · cases h1; simp [Buf.new]
    · obtain ⟨⟨w1, e1, t1⟩, _, h1⟩ := Out.bind_ok h1
      dsimp only at h1
      split at h1
      · cases h1; simp [Buf.new]
      · split at h1
        · cases h1; simp [Buf.new]
        · obtain ⟨⟨asm, b'⟩, hz, h1⟩ := Out.bind_ok h1
          cases h1
          exact hC _ _ _ _ _ _ _ hz
  dsimp only at h
  split at h
  · cases h
  · rename_i hu
    cases h
    refine ⟨_, rfl, Nat.pos_of_ne_zero hu, fun hx => ?_, fun hx => ?_⟩
    · dsimp only at hx ⊢
      have : b.length ≠ 0 := by
        intro h0; rw [h0] at hx; exact hx rfl
      rw [if_neg this, List.length_take, Nat.min_eq_left hb]
    · dsimp only at hx ⊢
      have : b.length = 0 := by
        have := congrArg List.length hx
        rw [List.length_take, Nat.min_eq_left hb] at this
        exact this
      rw [if_pos this]

example : (∀ s d v a t asm b, dataCpu.encode s d v a t = .ok (asm, b) → b.length ≤ b.bytes.length) ∧
    ∃ s' stop, stepLine dataCpu (oneFile []) true "x: byte 1,2,3".toList some2 = .ok (s', stop) ∧
      s'.origin = 8 := by
  refine ⟨fun s d v a t asm b h => ?_, _, _, rfl, by decide +kernel⟩
  have := (dataEncode_noEnd s v a t (asm, b) h).2
  rw [this.cells]
  exact this.used

end Libasm.Driver.Props
