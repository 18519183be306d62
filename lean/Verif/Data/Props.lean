import Verif.Data.Operands
/-
C45: data directives emit the values of their operands in order.
-/
namespace Libasm.Data.Props
open Scan Ctype Insn Insn.Spec Number Eval.Spec Data.Spec Value.Spec
open Eval hiding setErrorIf
open Config (setErrorIf)

theorem parse_c {float : Scan → Option (Err × Value × Scan)}
    (hfloat : ∀ s v rest, float s = some (.OK, v, rest) → rest.length < s.length)
    {symbols : List Char → Option Value}
    {functions : List Char → Option (Int × (List Value → Out (Except Err Value)))}
    {loc : Nat} (hloc : loc < 2 ^ 32) {names : List Char → Option Int} (hn : Named symbols names)
    (delims : List Char) (big wordUnit : Bool)
    {e : Expr} {t rest : List Char} (hw : Writes e t) (hg : Data.Spec.Fits (fun n => functions n ≠ none) (.value e))
    (hf : Follow rest) {x : Int} (hx : e.value names loc = .ok x) :
    ∃ val p, (defaultEnv delims float symbols functions loc big wordUnit).parseExpr
        (skipSpaces t ++ rest) = .ok (val, .OK, p) ∧ denote val = x ∧ Valid val ∧
      skipSpaces p = skipSpaces rest := by
  obtain ⟨h1, h2, h3, h4⟩ := hg
  obtain ⟨r, hr, he, hd, hv, sp, hsp, hrest⟩ := C15_value_partial float hfloat symbols functions
    '\x00' ⟨by simp [TokenStart, IsLetter, IsDecimal], by decide⟩ loc hloc names hn e _ rest
    (writes_skip hw).1 h1 h2 h3 h4 (follow_stops hf) x hx
  refine ⟨r.value, r.scan, ?_, hd, hv, ?_⟩
  · show (eval _ _ _ _).bind _ = _
    rw [hr, ← he]
    rfl
  · conv => rhs; rw [hrest]
    rw [skip_blanks hsp]

section
variable (delims : List Char) (hd : ∀ d ∈ delims, d = '\'' ∨ d = '"')
  (float : Scan → Option (Err × Value × Scan))
  (hfloat : ∀ s v rest, float s = some (.OK, v, rest) → rest.length < s.length)
  (symbols : List Char → Option Value)
  (functions : List Char → Option (Int × (List Value → Out (Except Err Value))))
  (loc : Nat) (hloc : loc < 2 ^ 32) (names : List Char → Option Int) (hn : Named symbols names)
  (big wordUnit : Bool) (type : DataType)
include hd hfloat hloc hn

theorem loop_list (items : List Item) (text : List Char) (ht : ListText delims type items text)
    (hfit : ∀ i ∈ items, Data.Spec.Fits (fun n => functions n ≠ none) i) {rest : List Char}
    (hrest : Ending rest) {b0 : Buf} :
    ∀ (xs : List Nat), allBytes type big wordUnit names loc items = .ok xs →
    ∀ fuel b ys, (text ++ rest).length < fuel → Track b0 ys b .OK →
      ∃ sc b' err, operands (defaultEnv delims float symbols functions loc big wordUnit) type fuel
          (text ++ rest) b .OK = .ok (sc, b', err) ∧ Track b0 (ys ++ xs) b' err ∧
        (err = .OK → sc = skipSpaces rest) := by
  have one : ∀ (i : Item) (t : List Char), ItemText delims type i t →
      Data.Spec.Fits (fun n => functions n ≠ none) i → ∀ xs, bytes type big wordUnit names loc i = .ok xs →
      ∀ rest, Follow rest → ∀ b ys, Track b0 ys b .OK →
      ∃ p b' err, operand (defaultEnv delims float symbols functions loc big wordUnit) type
          (t ++ rest) b .OK = .ok (if err = .NO_MEMORY then .stop p b' err else .next p b' err) ∧
        Track b0 (ys ++ xs) b' err ∧ skipSpaces p = skipSpaces rest := by
    intro i t hi hfi xs hxs rest hf b ys htr
    cases hi with
    | value e t h hq =>
      unfold bytes at hxs
      dsimp only at hxs
      cases hx : e.value names loc with
      | error f => rw [hx] at hxs; cases hxs
      | ok x =>
        rw [hx] at hxs
        injection hxs with hxs
        subst hxs
        obtain ⟨val, p, hp, hdn, hv, hs⟩ := parse_c hfloat hloc hn delims big wordUnit h hfi hf hx
        obtain ⟨b', err, h1, h2⟩ := operand_value
          (defaultEnv delims float symbols functions loc big wordUnit) rfl rfl type h hq hdn hv hp hs
          hf htr
        exact ⟨skipSpaces rest, b', err, h1, h2, skip_skip rest⟩
    | string s d sp hs hdm hsp hc =>
      injection hxs with hxs
      subst hxs
      have hD : Delim d ∧ d.toNat < 256 := by
        rcases hd d hdm with rfl | rfl <;> refine ⟨⟨?_, ?_, ?_, ?_⟩, ?_⟩ <;> decide
      obtain ⟨b', err, h1, h2⟩ := operand_string
        (defaultEnv delims float symbols functions loc big wordUnit) rfl rfl type hD.1 hdm hD.2 hs
        hsp hc hf htr
      exact ⟨rest, b', err, h1, h2, rfl⟩
  induction ht with
  | last i t h =>
    intro xs hxs fuel b ys hl htr
    have hx1 : bytes type big wordUnit names loc i = .ok xs := by
      unfold allBytes at hxs
      cases hb : bytes type big wordUnit names loc i with
      | error f => rw [hb] at hxs; cases hxs
      | ok x =>
        rw [hb] at hxs
        simp only [allBytes, List.append_nil] at hxs
        exact hxs
    obtain ⟨p, b', err, h1, h2, h3⟩ := one i t h (hfit i (List.mem_cons_self ..)) xs hx1 rest
      (ending_follow hrest) b ys htr
    cases fuel with
    | zero => omega
    | succ fuel =>
      by_cases he : err = .NO_MEMORY
      · refine ⟨p, b', err, ?_, h2, fun h => by rw [he] at h; cases h⟩
        unfold operands; rw [h1, if_pos he]; rfl
      · refine ⟨skipSpaces p, b', err, ?_, h2, fun _ => h3⟩
        unfold operands; rw [h1, if_neg he]
        dsimp only [Out.bind]
        rw [h3, ending_no_comma hrest]
  | more i t sp is u h hsp hu ih =>
    intro xs hxs fuel b ys hl htr
    unfold allBytes at hxs
    cases hb : bytes type big wordUnit names loc i with
    | error f => rw [hb] at hxs; cases hxs
    | ok x =>
      cases ha : allBytes type big wordUnit names loc is with
      | error f => rw [hb, ha] at hxs; cases hxs
      | ok y =>
        rw [hb, ha] at hxs
        injection hxs with hxs
        subst hxs
        have e : t ++ sp ++ ',' :: u ++ rest = t ++ (sp ++ ',' :: (u ++ rest)) := by simp
        rw [e] at hl ⊢
        obtain ⟨p, b', err, h1, h2, h3⟩ := one i t h (hfit i (List.mem_cons_self ..)) x hb
          (sp ++ ',' :: (u ++ rest)) ⟨sp, _, rfl, hsp, .inr (.inr ⟨_, rfl⟩)⟩ b ys htr
        cases fuel with
        | zero => omega
        | succ fuel =>
          by_cases he : err = .NO_MEMORY
          · subst he
            refine ⟨p, b', .NO_MEMORY, ?_, ?_, fun h => by cases h⟩
            · unfold operands; rw [h1, if_pos rfl]; rfl
            · rw [← List.append_assoc]; exact h2.more y
          · have heok : err = .OK := by
              have := h2.err
              split at this
              · exact absurd this he
              · exact this
            subst heok
            obtain ⟨sc, b2, err2, k1, k2, k3⟩ := ih
              (fun i hi => hfit i (List.mem_cons_of_mem _ hi)) y ha fuel b' _
              (by simp only [List.length_append, List.length_cons] at hl ⊢; omega) h2
            refine ⟨sc, b2, err2, ?_, by rw [← List.append_assoc]; exact k2, k3⟩
            unfold operands; rw [h1, if_neg he]
            dsimp only [Out.bind]
            rw [h3, skip_blanks hsp, skip_cons (by decide), expect_self]
            exact k1

/-- C45, default notation: a data directive with any list of expressions and strings, written in
any way, puts exactly the bytes of its operands, in order and in the byte order of the CPU, after
the bytes that are there, as far as 64 bytes go.  It reports NO_MEMORY when they do not fit and no
error otherwise, and then leaves the text after the operands.  With alignment the address is first
rounded up to an even one.

Not covered: floating point data, other notations, expressions that start with a letter in quotes
(which are read as strings), and range checks, which the code does not make: see
`C45_violated_range`. -/
theorem C45_bytes_partial (items : List Item) (text rest : List Char)
    (ht : ListText delims type items text) (hrest : Ending rest)
    (hfit : ∀ i ∈ items, Data.Spec.Fits (fun n => functions n ≠ none) i) (xs : List Nat)
    (hxs : allBytes type big wordUnit names loc items = .ok xs) (align2 : Bool) (b : Buf)
    (hb : Fine b) (hok : b.error = .OK) (ha : b.address < 2 ^ 32) :
    ∃ sc b', defineDataConstant (defaultEnv delims float symbols functions loc big wordUnit) type
        align2 (text ++ rest) b = .ok (sc, b') ∧
      b'.bytes.take b'.length = (b.bytes.take b.length ++ xs).take 64 ∧
      b'.length = min 64 (b.length + xs.length) ∧
      b'.error = (if 64 < b.length + xs.length then .NO_MEMORY else .OK) ∧
      (b.length + xs.length ≤ 64 → ∃ sp, (∀ c ∈ sp, Blank c) ∧ rest = sp ++ sc) ∧
      b'.address = (if align2 then (b.address + b.address % 2) % 2 ^ 32 else b.address) ∧
      Fine b' := by
  have key : ∀ b : Buf, Fine b → b.error = .OK → ∃ sc b', (operands
        (defaultEnv delims float symbols functions loc big wordUnit) type ((text ++ rest).length + 1)
        (text ++ rest) b .OK).bind (fun (scan, b, error) => .ok (scan, { b with error := error })) =
          .ok (sc, b') ∧
      b'.bytes.take b'.length = (b.bytes.take b.length ++ xs).take 64 ∧
      b'.length = min 64 (b.length + xs.length) ∧
      b'.error = (if 64 < b.length + xs.length then .NO_MEMORY else .OK) ∧
      (b.length + xs.length ≤ 64 → ∃ sp, (∀ c ∈ sp, Blank c) ∧ rest = sp ++ sc) ∧
      b'.address = b.address ∧ Fine b' := by
    intro b hb hok
    obtain ⟨sc, b', err, h1, h2, h3⟩ := loop_list delims hd float hfloat symbols functions loc hloc
      names hn big wordUnit type items text ht hfit hrest xs hxs ((text ++ rest).length + 1) b []
      (by omega) (track_start hb hok)
    rw [List.nil_append] at h2
    refine ⟨sc, { b' with error := err }, by rw [h1]; rfl, h2.bytes, h2.length, h2.err, ?_,
      h2.address, ⟨h2.fine.cells, h2.fine.used, h2.fine.bytes⟩⟩
    intro hl
    have : err = .OK := by rw [h2.err, if_neg (by omega)]
    rw [h3 this]
    exact skip_split rest
  unfold defineDataConstant
  cases align2 with
  | false =>
    exact key b hb hok
  | true =>
    have hal : b.align 2 = some { b with address := (b.address + b.address % 2) % 2 ^ 32 } := by
      unfold Buf.align
      dsimp only
      rw [show 2 % 256 = 2 from rfl, if_neg (by decide),
        show b.address % 2 % 256 = b.address % 2 by omega]
      by_cases h : b.address % 2 ≠ 0
      · rw [if_pos h, show 2 - b.address % 2 = b.address % 2 by omega]
      · rw [if_neg h, show (b.address + b.address % 2) % 2 ^ 32 = b.address by omega]
    dsimp only
    rw [if_pos rfl, hal]
    exact key { b with address := (b.address + b.address % 2) % 2 ^ 32 }
      ⟨hb.cells, hb.used, hb.bytes⟩ hok

end

/-! ### Strings with any delimiter -/

/-- Strings as `fcc` takes them: each between two copies of any character that is not in it. -/
inductive RawText : List (List Char) → List Char → Prop
  | last (s : List Char) (d : Char) (sp : List Char) (hsp : ∀ c ∈ sp, Blank c) (hb : ¬ Blank d)
      (h0 : d ≠ '\x00') (hs : ∀ c ∈ s, c ≠ d ∧ c ≠ '\x00' ∧ c.toNat < 256) :
      RawText [s] (sp ++ d :: s ++ [d])
  | more (s : List Char) (d : Char) (sp : List Char) (hsp : ∀ c ∈ sp, Blank c) (hb : ¬ Blank d)
      (h0 : d ≠ '\x00') (hs : ∀ c ∈ s, c ≠ d ∧ c ≠ '\x00' ∧ c.toNat < 256) (sp2 : List Char)
      (hsp2 : ∀ c ∈ sp2, Blank c) (ss : List (List Char)) (u : List Char) (hu : RawText ss u) :
      RawText (s :: ss) (sp ++ d :: s ++ d :: (sp2 ++ ',' :: u))

theorem rawString_ok {d : Char} {rest : Scan} {b0 : Buf} (s : List Char)
    (hs : ∀ c ∈ s, c ≠ d ∧ c ≠ '\x00' ∧ c.toNat < 256) : ∀ b xs err, Track b0 xs b err →
    ∃ b' err', rawString d (s ++ d :: rest) b err = .ok (some (rest, err'), b') ∧
      Track b0 (xs ++ s.map Char.toNat) b' err' := by
  induction s with
  | nil =>
    intro b xs err h
    refine ⟨b, err, ?_, by simpa using h⟩
    show rawString d (d :: rest) b err = _
    unfold rawString; rw [if_pos rfl]
  | cons c s ih =>
    intro b xs err h
    obtain ⟨h1, h2, h3⟩ := hs c (List.mem_cons_self ..)
    obtain ⟨b1, e1, k1, k2⟩ := track_emit h .byte c.toNat
    rw [encode_byte h3] at k2
    obtain ⟨b2, e2, k3, k4⟩ := ih (fun x hx => hs x (List.mem_cons_of_mem _ hx)) b1 _ e1 k2
    refine ⟨b2, e2, ?_, by simpa using k4⟩
    show rawString d (c :: (s ++ d :: rest)) b err = _
    unfold rawString
    rw [if_neg h1, if_neg h2, k1]
    exact k3

theorem space_not {d : Char} (hb : ¬ Blank d) : isSpace d = false := by
  cases h : isSpace d with
  | false => rfl
  | true => exact absurd (blank_space.mpr h) hb

/-- C45, strings with any delimiter: the directive puts exactly the characters of the strings, in
order, after the bytes that are there, as far as 64 bytes go, and reports NO_MEMORY exactly when
they do not fit. -/
theorem C45_strings (ss : List (List Char)) (text rest : List Char) (ht : RawText ss text)
    (hrest : Ending rest) (b : Buf) (hb : Fine b) (hok : b.error = .OK) :
    ∃ sc b', defineString (text ++ rest) b = .ok (sc, b') ∧
      b'.bytes.take b'.length =
        (b.bytes.take b.length ++ (ss.flatMap fun s => s.map Char.toNat)).take 64 ∧
      b'.error = (if 64 < b.length + (ss.map List.length).sum then .NO_MEMORY else .OK) ∧
      (∃ sp, (∀ c ∈ sp, Blank c) ∧ rest = sp ++ sc) ∧ b'.address = b.address ∧ Fine b' := by
  have key : ∀ fuel b1 xs err, (text ++ rest).length < fuel → Track b xs b1 err →
      ∃ b2 err', defineStringLoop fuel (text ++ rest) b1 err =
          .ok (skipSpaces rest, { b2 with error := err' }) ∧
        Track b (xs ++ (ss.flatMap fun s => s.map Char.toNat)) b2 err' := by
    clear hok hb
    induction ht with
    | last s d sp hsp hbl h0 hs =>
      intro fuel b1 xs err hl htr
      cases fuel with
      | zero => omega
      | succ fuel =>
        obtain ⟨b2, e2, k1, k2⟩ := rawString_ok (rest := rest) s hs b1 xs err htr
        refine ⟨b2, e2, ?_, by simpa using k2⟩
        unfold defineStringLoop
        have e : skipSpaces (sp ++ d :: s ++ [d] ++ rest) = d :: (s ++ d :: rest) := by
          simp only [List.append_assoc, List.cons_append, List.nil_append]
          rw [skip_blanks hsp, skip_cons (space_not hbl)]
        rw [e]
        show (rawString d (s ++ d :: rest) b1 err).bind _ = _
        rw [k1]
        dsimp only [Out.bind]
        rw [ending_no_comma hrest]
    | more s d sp hsp hbl h0 hs sp2 hsp2 ss u hu ih =>
      intro fuel b1 xs err hl htr
      cases fuel with
      | zero => omega
      | succ fuel =>
        obtain ⟨b2, e2, k1, k2⟩ := rawString_ok (rest := sp2 ++ ',' :: (u ++ rest)) s hs b1 xs err htr
        obtain ⟨b3, e3, k3, k4⟩ := ih fuel b2 _ e2
          (by simp only [List.length_append, List.length_cons] at hl ⊢; omega) k2
        refine ⟨b3, e3, ?_, by simpa using k4⟩
        unfold defineStringLoop
        have e : skipSpaces (sp ++ d :: s ++ d :: (sp2 ++ ',' :: u) ++ rest) =
            d :: (s ++ d :: (sp2 ++ ',' :: (u ++ rest))) := by
          simp only [List.append_assoc, List.cons_append]
          rw [skip_blanks hsp, skip_cons (space_not hbl)]
        rw [e]
        show (rawString d (s ++ d :: (sp2 ++ ',' :: (u ++ rest))) b1 err).bind _ = _
        rw [k1]
        dsimp only [Out.bind]
        rw [skip_blanks hsp2, skip_cons (by decide), expect_self]
        exact k3
  obtain ⟨b2, err, h1, h2⟩ := key ((text ++ rest).length + 1) b [] .OK (by omega)
    (track_start hb hok)
  rw [List.nil_append] at h2
  refine ⟨_, _, h1, h2.bytes, ?_, skip_split rest, h2.address,
    ⟨h2.fine.cells, h2.fine.used, h2.fine.bytes⟩⟩
  have hlen : (ss.flatMap fun s => s.map Char.toNat).length = (ss.map List.length).sum := by
    rw [List.length_flatMap]; simp [Function.comp_def]
  rw [← hlen]
  exact h2.err

/-- `/it's/, "a"`: two strings. -/
example : RawText [['i', 't', '\'', 's'], ['a']]
    ['/', 'i', 't', '\'', 's', '/', ',', ' ', '"', 'a', '"'] :=
  .more _ '/' [] (by simp) (by decide) (by decide) (by decide) [] (by simp) _ _
    (.last _ '"' [' '] (by decide) (by decide) (by decide) (by decide))

/-! ### A case: ` N+3, 'it''s' ,-2 ; comment` with `N` = 5, words of a little endian CPU. -/

/-- ` N+3, 'it''s' ,-2`. -/
def sampleList : List Item :=
  [.value (.bin .add (.sym ['N']) (.num 3)), .string ['i', 't', '\'', 's'],
    .value (.un .minus (.num 2))]

def sampleListText : List Char :=
  [' ', 'N', '+', '3', ',', ' ', '\'', 'i', 't', '\'', '\'', 's', '\'', ' ', ',', '-', '2']

example : ListText ['\''] .word sampleList sampleListText := by
  have n3 : Writes (.num 3) ['3'] :=
    .num _ _ (Literal.dec ['3'] (by decide) ⟨'3', [], rfl, by decide⟩)
  have n2 : Writes (.num 2) ['2'] :=
    .num _ _ (Literal.dec ['2'] (by decide) ⟨'2', [], rfl, by decide⟩)
  have nN : Writes (.sym ['N']) ['N'] :=
    .sym _ ⟨⟨'N', [], rfl, by decide, by decide⟩, by unfold FloatWord; decide⟩
  have i1 : ItemText ['\''] .word (.value (.bin .add (.sym ['N']) (.num 3))) [' ', 'N', '+', '3'] := by
    refine .value _ _ (.blank _ _ _ (by decide) (.bin .add _ _ ['N'] [] ['3'] nN (by simp) n3)) ?_
    intro _ c u sp h hsp hc hm
    have hc' : c = '\'' := List.mem_singleton.mp hm
    subst hc'
    have : '\'' ∈ [' ', 'N', '+', '3'] := by rw [h]; simp
    revert this; decide
  have i2 : ItemText ['\''] .word (.string ['i', 't', '\'', 's'])
      [' ', '\'', 'i', 't', '\'', '\'', 's', '\''] :=
    .string _ '\'' [' '] rfl (by decide) (by decide) (by decide)
  have i3 : ItemText ['\''] .word (.value (.un .minus (.num 2))) ['-', '2'] := by
    refine .value _ _ (.un .minus _ _ n2) ?_
    intro _ c u sp h hsp hc hm
    have hc' : c = '\'' := List.mem_singleton.mp hm
    subst hc'
    have : '\'' ∈ ['-', '2'] := by rw [h]; simp
    revert this; decide
  exact .more _ _ [] _ _ i1 (by simp) (.more _ _ [' '] _ _ i2 (by decide) (.last _ _ i3))

example : Ending [' ', ';', 'x'] := ⟨[' '], [';', 'x'], rfl, by decide, .inr ⟨_, rfl⟩⟩

example : ∀ i ∈ sampleList, Data.Spec.Fits (fun n => noFunctions n ≠ none) i := by
  intro i hi
  simp only [sampleList, List.mem_cons, List.not_mem_nil, or_false] at hi
  rcases hi with rfl | rfl | rfl
  · simp [Data.Spec.Fits, Expr.Grouped, Expr.Fits, Expr.values, Expr.operators, Expr.level,
      BinOp.level, BinOp.chains, noFunctions]
  · trivial
  · simp [Data.Spec.Fits, Expr.Grouped, Expr.Fits, Expr.values, Expr.operators, Expr.level]

example : allBytes .word false false oneName 0 sampleList =
    .ok [8, 0, 0x69, 0x74, 0x27, 0x73, 0xFE, 0xFF] := by rfl

/-- In the model: the directive on that text. -/
example : (match defineDataConstant (defaultEnv ['\''] noFloat oneSymbol noFunctions 0 false false)
      .word false (sampleListText ++ [' ', ';', 'x']) (Buf.new 0x100) with
    | .ok (sc, b) => decide (sc = [';', 'x'] ∧ b.length = 8 ∧ b.error = .OK)
    | _ => false) = true := by decide +kernel

/-- C45 fails for range checks: `byte 256` emits a zero and reports nothing. -/
theorem C45_violated_range :
    ∃ sc b, defineDataConstant (defaultEnv ['\''] noFloat noSymbols noFunctions 0 true false)
        .byte false ['2', '5', '6'] (Buf.new 0) = .ok (sc, b) ∧
      b.error = .OK ∧ b.bytes.take b.length = [0] := by
  refine ⟨_, _, rfl, ?_, ?_⟩ <;> decide +kernel

/-- C45 fails for a single letter: as a word of a big endian CPU `'A'` is 0x4100, while `'A'+0` is
0x0041. -/
theorem C45_violated_letter :
    (∃ sc b, defineDataConstant (defaultEnv ['\''] noFloat noSymbols noFunctions 0 true false)
        .word false ['\'', 'A', '\''] (Buf.new 0) = .ok (sc, b) ∧
      b.error = .OK ∧ b.bytes.take b.length = [0x41, 0]) ∧
    ∃ sc b, defineDataConstant (defaultEnv ['\''] noFloat noSymbols noFunctions 0 true false)
        .word false ['\'', 'A', '\'', '+', '0'] (Buf.new 0) = .ok (sc, b) ∧
      b.error = .OK ∧ b.bytes.take b.length = [0, 0x41] := by
  refine ⟨⟨_, _, rfl, ?_, ?_⟩, _, _, rfl, ?_, ?_⟩ <;> decide +kernel

end Libasm.Data.Props
