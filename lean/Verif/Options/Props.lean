import Verif.Options.Lemmas
/-
C69: options given by name and text.

`disSetOption sym own name text st` is `Disassembler::setOption(name, text)` of a CPU with the location
symbol `sym` and the options `own`; `st` are the common settings and those of the CPU.
-/
namespace Libasm.Options
open Spec
open Table.Spec (Same)

/-- The settings as `look` shows them are all there is to them. -/
theorem look_ext {o o' : Cpu.Opts} (h : ∀ k, look o k = look o' k) : o = o' := by
  cases o
  cases o'
  have h1 := h .upperHex
  have h2 := h .upperCase
  have h3 := h .listRadix
  have h4 := h .relative
  have h5 := h .cStyle
  have h6 := h .intelHex
  have h7 := h .originChar
  simp only [look, Content.flag.injEq, Content.letter.injEq] at h1 h2 h3 h4 h5 h6 h7
  subst h1 h2 h3 h4 h5 h6 h7
  rfl

theorem flag_option {sym : Char} {k : Setting} {u : List Char} {v : Content} (f : Bool → Cpu.Opts → Cpu.Opts)
    (hv : ∃ t b, BoolText t b ∧ Quoted t u ∧ v = .flag b) (n : String) (o : Cpu.Opts)
    (hs : ∀ b, Set o k (.flag b) (f b o))
    (hf : (disOptions sym).find? (fun e => Eval.iequals k.name.toList e.name.toList) =
      some ⟨n, .bool fun v o => .ok (f v o)⟩) :
    ∃ o', setIn plainReaders (disOptions sym) k.name.toList u o = (.OK, o') ∧ Set o k v o' := by
  obtain ⟨t, b, h1, h2, rfl⟩ := hv
  refine ⟨f b o, ?_, hs b⟩
  unfold setIn
  rw [hf]
  simp only [Entry.set, plainReaders, parseBoolOption_bool h1 h2]

theorem set_found {sym : Char} {k : Setting} {u : List Char} {o : Cpu.Opts} {e : Entry Cpu.Opts}
    (hf : (disOptions sym).find? (fun e => Eval.iequals k.name.toList e.name.toList) = some e) :
    setIn plainReaders (disOptions sym) k.name.toList u o = e.set plainReaders u o := by
  unfold setIn
  rw [hf]

theorem set_common (sym : Char) (k : Setting) (u : List Char) (v : Content) (hv : ValueText sym k u v)
    (o : Cpu.Opts) :
    ∃ o', setIn plainReaders (disOptions sym) k.name.toList u o = (.OK, o') ∧ Set o k v o' := by
  cases k with
  | upperHex =>
    refine flag_option (fun v o => { o with upperHex := v }) hv _ o (fun b => ⟨rfl, fun j hj => ?_⟩) rfl
    cases j <;> simp_all [look, Rivals]
  | upperCase =>
    refine flag_option (fun v o => { o with upper := v }) hv _ o (fun b => ⟨rfl, fun j hj => ?_⟩) rfl
    cases j <;> simp_all [look, Rivals]
  | relative =>
    refine flag_option (fun v o => { o with relative := v }) hv _ o (fun b => ⟨rfl, fun j hj => ?_⟩) rfl
    cases j <;> simp_all [look, Rivals]
  | cStyle =>
    refine flag_option (fun v o => { o with cstyle := v, intelHex := if v && o.intelHex then false else o.intelHex })
      hv _ o (fun b => ⟨rfl, fun j hj => ?_⟩) rfl
    cases j <;> simp_all [look, Rivals]
    cases b <;> cases o.intelHex <;> simp
  | intelHex =>
    refine flag_option (fun v o => { o with intelHex := v, cstyle := if v && o.cstyle then false else o.cstyle })
      hv _ o (fun b => ⟨rfl, fun j hj => ?_⟩) rfl
    cases j <;> simp_all [look, Rivals]
    cases b <;> cases o.cstyle <;> simp
  | listRadix =>
    obtain ⟨t, i, h1, h2, rfl⟩ := hv
    refine ⟨{ o with octal := decide (i = 8) }, ?_, rfl, fun j hj => ?_⟩
    · rw [set_found (e := ⟨"list-radix", .int fun v o => .ok { o with octal := decide (v = 8) }⟩) rfl]
      simp only [Entry.set, plainReaders, parseIntOption_int h1 h2]
    · cases j <;> simp_all [look, Rivals]
  | originChar =>
    rcases hv with ⟨rfl, rfl⟩ | ⟨c, rfl, h1, h2, h3, rfl⟩
    · refine ⟨{ o with curSym := sym }, ?_, rfl, fun j hj => ?_⟩
      · rw [set_found (e := ⟨"origin-char", .char fun v o => .ok { o with curSym := if v ≠ '\x00' then v else sym }⟩)
          (by unfold disOptions; simp only [List.find?_cons, Setting.name]; rfl)]
        simp only [Entry.set, parseCharOption, Scan.deref]
        rfl
      · cases j <;> simp_all [look, Rivals]
    · refine ⟨{ o with curSym := c }, ?_, rfl, fun j hj => ?_⟩
      · rw [set_found (e := ⟨"origin-char", .char fun v o => .ok { o with curSym := if v ≠ '\x00' then v else sym }⟩)
          (by unfold disOptions; simp only [List.find?_cons, Setting.name]; rfl)]
        simp only [Entry.set, parseChar_plain h1 h2]
        rw [if_pos h3]
      · cases j <;> simp_all [look, Rivals]

/-- **C69, a value is set.** Giving a common option by its name, in any case, with the text of a
value is accepted; that setting has the value afterwards, a style of numbers turned on turns the other one off,
and nothing else changes, whatever the CPU. -/
theorem C69_set {τ : Type} (sym : Char) (own : List (Entry τ)) (k : Setting) (name u : List Char)
    (v : Content) (hn : Same name k.name.toList) (hv : ValueText sym k u v) (st : Cpu.Opts × τ) :
    ∃ o', disSetOption sym own name u st = (.OK, (o', st.2)) ∧ Set st.1 k v o' := by
  obtain ⟨o', h1, h2⟩ := set_common sym k u v hv st.1
  refine ⟨o', setOption_ok _ _ _ _ _ _ ?_, h2⟩
  rw [setIn_same hn, h1]

/-- `Upper-Hex` may be given as `"OFF"`, with the quotes, `c-style` as `-12`. -/
example : Same "Upper-Hex".toList (Setting.name .upperHex).toList ∧
    ValueText '$' .upperHex "\"OFF\"".toList (.flag false) ∧
    ValueText '$' .cStyle "-12".toList (.flag true) ∧
    ValueText '$' .originChar "@".toList (.letter '@') := by
  refine ⟨by decide, ⟨"OFF".toList, false, .inl ⟨"off", by decide, by decide⟩, .inr rfl, rfl⟩,
    ⟨"-12".toList, true, .inr ⟨-12, ⟨"12".toList, 12, ?_, by decide, .inr (.inr ⟨rfl, rfl⟩)⟩, rfl⟩, .inl rfl, rfl⟩,
    .inr ⟨'@', rfl, by decide, by decide, by decide, rfl⟩⟩
  exact Numeral.more ['1'] 1 2 (by decide) (.one 1 (by decide))

/-- The options that have a say in the setting `k`: its own, and that of the rival style. -/
theorem set_frame (sym : Char) (name u : List Char) (k : Setting) (o : Cpu.Opts)
    (h1 : ¬ Same name k.name.toList) (h2 : ∀ j, Rivals k j → ¬ Same name j.name.toList) :
    look (setIn plainReaders (disOptions sym) name u o).2 k = look o k := by
  rcases setIn_cases plainReaders (disOptions sym) name u o with ⟨h, _⟩ | ⟨e, he, hs, h⟩
  · rw [h]
  · rw [h]
    have hr : ∀ j, Rivals k j → e.name ≠ j.name := fun j hj hc => h2 j hj (hc ▸ hs)
    have hk : e.name ≠ k.name := fun hc => h1 (hc ▸ hs)
    have hr1 := hr .cStyle
    have hr2 := hr .intelHex
    simp only [disOptions, List.mem_cons, List.not_mem_nil, or_false] at he
    rcases he with rfl | rfl | rfl | rfl | rfl | rfl | rfl <;>
      simp only [Entry.set, plainReaders] <;> split <;> first
      | rfl
      | (cases k <;> first | rfl | exact absurd rfl hk | exact absurd rfl (hr1 (by decide)) |
          exact absurd rfl (hr2 (by decide)))

/-- **C69, nothing else is touched.** Whatever is given as a text, and whether it is accepted or not, an
option of another name leaves a setting alone; a style of numbers has a say in the other. -/
theorem C69_frame {τ : Type} (sym : Char) (own : List (Entry τ)) (name u : List Char) (k : Setting)
    (h1 : ¬ Same name k.name.toList) (h2 : ∀ j, Rivals k j → ¬ Same name j.name.toList)
    (st : Cpu.Opts × τ) : look (disSetOption sym own name u st).2.1 k = look st.1 k := by
  unfold disSetOption
  rw [setOption_common]
  exact set_frame sym name u k st.1 h1 h2

example : ¬ Same "RELATIVE".toList (Setting.name .cStyle).toList ∧
    ∀ j, Rivals .cStyle j → ¬ Same "RELATIVE".toList j.name.toList := by
  refine ⟨by decide, fun j => ?_⟩
  cases j <;> decide

/-- **C69, errors.** If giving an option is an error, all common settings are as they were. -/
theorem C69_error {τ : Type} (sym : Char) (own : List (Entry τ)) (name u : List Char)
    (st : Cpu.Opts × τ) (h : (disSetOption sym own name u st).1 ≠ .OK) :
    (disSetOption sym own name u st).2.1 = st.1 := by
  unfold disSetOption at h ⊢
  rw [setOption_common]
  exact setIn_error _ _ _ _ _ (setOption_error _ _ _ _ _ _ h)

example : (disSetOption (τ := Unit) '$' [] "list-radix".toList "eight".toList (Cpu.Opts.default '$', ())).1
    ≠ .OK := by decide

/-- **C69, unknown options.** A name no option has is an error. -/
theorem C69_unknown {τ : Type} (sym : Char) (own : List (Entry τ)) (name u : List Char)
    (h1 : ∀ k : Setting, ¬ Same name k.name.toList) (h2 : ∀ e ∈ own, ¬ Same name e.name.toList)
    (st : Cpu.Opts × τ) : (disSetOption sym own name u st).1 = .UNKNOWN_OPTION := by
  unfold disSetOption setOption
  have e1 : setIn plainReaders (disOptions sym) name u st.1 = (.UNKNOWN_OPTION, st.1) := by
    rcases setIn_cases plainReaders (disOptions sym) name u st.1 with ⟨h, _⟩ | ⟨e, he, hs, h⟩
    · exact h
    · exfalso
      simp only [disOptions, List.mem_cons, List.not_mem_nil, or_false] at he
      rcases he with rfl | rfl | rfl | rfl | rfl | rfl | rfl
      · exact h1 .upperHex hs
      · exact h1 .upperCase hs
      · exact h1 .listRadix hs
      · exact h1 .relative hs
      · exact h1 .cStyle hs
      · exact h1 .intelHex hs
      · exact h1 .originChar hs
  rw [e1]
  rcases setIn_cases plainReaders own name u st.2 with ⟨h, _⟩ | ⟨e, he, hs, h⟩
  · rw [h]
  · exact absurd hs (h2 e he)

example : ∀ k : Setting, ¬ Same "upperhex".toList k.name.toList := by
  intro k
  cases k <;> decide

/-! ### Histories -/

/-- The settings after a series of options, errors ignored as cli/dis_commander.cpp:92-94 does. -/
def setAll {τ : Type} (sym : Char) (own : List (Entry τ)) (calls : List (List Char × List Char))
    (st : Cpu.Opts × τ) : Cpu.Opts × τ :=
  calls.foldl (fun st c => (disSetOption sym own c.1 c.2 st).2) st

/-- **C69, the last one counts.** After any series of options, good and bad ones, a setting has the last
value given for it, provided no later option has its name or that of the rival style. -/
theorem C69_last {τ : Type} (sym : Char) (own : List (Entry τ)) (before after : List (List Char × List Char))
    (k : Setting) (name u : List Char) (v : Content) (hn : Same name k.name.toList)
    (hv : ValueText sym k u v)
    (h1 : ∀ c ∈ after, ¬ Same c.1 k.name.toList)
    (h2 : ∀ c ∈ after, ∀ j, Rivals k j → ¬ Same c.1 j.name.toList) (st : Cpu.Opts × τ) :
    look (setAll sym own (before ++ (name, u) :: after) st).1 k = v := by
  have key : ∀ st : Cpu.Opts × τ, look (setAll sym own after st).1 k = look st.1 k := by
    induction after with
    | nil => intro st; rfl
    | cons c after ih =>
      intro st
      have := ih (fun d hd => h1 d (List.mem_cons_of_mem _ hd)) (fun d hd => h2 d (List.mem_cons_of_mem _ hd))
        (disSetOption sym own c.1 c.2 st).2
      rw [show setAll sym own (c :: after) st = setAll sym own after (disSetOption sym own c.1 c.2 st).2 from rfl,
        this]
      exact C69_frame sym own _ _ k (h1 c (List.mem_cons_self ..)) (h2 c (List.mem_cons_self ..)) st
  have : setAll sym own (before ++ (name, u) :: after) st =
      setAll sym own after (disSetOption sym own name u (setAll sym own before st)).2 := by
    unfold setAll
    rw [List.foldl_append, List.foldl_cons]
  rw [this, key]
  obtain ⟨o', e1, e2, _⟩ := C69_set sym own k name u v hn hv (setAll sym own before st)
  rw [e1]
  exact e2

/-- **C69, one style of numbers.** From `reset` on, whatever options are given, the two styles of numbers are
never both on. -/
theorem C69_one_style {τ : Type} (sym : Char) (own : List (Entry τ)) (calls : List (List Char × List Char))
    (x : τ) : ¬ (look (setAll sym own calls (Cpu.Opts.default sym, x)).1 .cStyle = .flag true ∧
      look (setAll sym own calls (Cpu.Opts.default sym, x)).1 .intelHex = .flag true) := by
  have step : ∀ (name u : List Char) (o : Cpu.Opts), (o.cstyle && o.intelHex) = false →
      ((setIn plainReaders (disOptions sym) name u o).2.cstyle &&
        (setIn plainReaders (disOptions sym) name u o).2.intelHex) = false := by
    intro name u o ho
    rcases setIn_cases plainReaders (disOptions sym) name u o with ⟨h, _⟩ | ⟨e, he, hs, h⟩
    · rw [h]
      exact ho
    · rw [h]
      simp only [disOptions, List.mem_cons, List.not_mem_nil, or_false] at he
      rcases he with rfl | rfl | rfl | rfl | rfl | rfl | rfl <;>
        simp only [Entry.set, plainReaders] <;> split <;> first
        | exact ho
        | (rename_i v _ _
           revert ho
           cases v <;> cases o.cstyle <;> cases o.intelHex <;> simp)
  have all : ∀ (calls : List (List Char × List Char)) (st : Cpu.Opts × τ), (st.1.cstyle && st.1.intelHex) = false →
      ((setAll sym own calls st).1.cstyle && (setAll sym own calls st).1.intelHex) = false := by
    intro calls
    induction calls with
    | nil => intro st h; exact h
    | cons c calls ih =>
      intro st h
      refine ih _ ?_
      simp only [disSetOption, setOption_common]
      exact step _ _ _ h
  have := all calls (Cpu.Opts.default sym, x) rfl
  rintro ⟨h1, h2⟩
  simp only [look, Content.flag.injEq] at h1 h2
  rw [h1, h2] at this
  contradiction

example : look (setAll (τ := Unit) '$' [] [("c-style".toList, "on".toList), ("bogus".toList, "1".toList),
    ("intel-hex".toList, "YES".toList)] (Cpu.Opts.default '$', ())).1 .intelHex = .flag true := by decide

/-! ### What is accepted -/

/-- The option of a flag, once found. -/
theorem flag_accept {sym : Char} {k : Setting} {u : List Char} {o : Cpu.Opts} (f : Bool → Cpu.Opts → Cpu.Opts)
    (n : String) (hs : ∀ b, look (f b o) k = .flag b)
    (hf : (disOptions sym).find? (fun e => Eval.iequals k.name.toList e.name.toList) =
      some ⟨n, .bool fun v o => .ok (f v o)⟩)
    (h : (setIn plainReaders (disOptions sym) k.name.toList u o).1 = .OK) :
    ∃ b r, parseBoolOption u = .ok (b, r) ∧
      look (setIn plainReaders (disOptions sym) k.name.toList u o).2 k = .flag b := by
  rw [set_found hf] at h ⊢
  simp only [Entry.set, plainReaders] at h ⊢
  cases hp : parseBoolOption u with
  | error e =>
    simp only [hp] at h
    subst h
    have : parseBoolOption u ≠ .error .OK := parseBoolOption_error u
    exact absurd hp this
  | ok v =>
    exact ⟨v.1, v.2, rfl, hs _⟩

/-- **C69, what is accepted for a flag** (part: what follows the value is not looked at). If a text is accepted
for an option which is on or off, and the CPU has no option of that name, then the text begins, after a double
quote perhaps, with a word for true or false, or with a number, perhaps after blanks; the setting is that value,
if the number is not too large. -/
theorem C69_accept_partial {τ : Type} (sym : Char) (own : List (Entry τ)) (k : Setting) (name u : List Char)
    (hn : Same name k.name.toList) (hk : k ≠ .listRadix ∧ k ≠ .originChar)
    (ho : ∀ e ∈ own, ¬ Same name e.name.toList) (st : Cpu.Opts × τ)
    (h : (disSetOption sym own name u st).1 = .OK) :
    ∃ q blanks sign t rest b, u = q ++ blanks ++ sign ++ t ++ rest ∧ (q = [] ∨ q = ['"']) ∧
      look (disSetOption sym own name u st).2.1 k = .flag b ∧
      ((blanks = [] ∧ sign = [] ∧ WordText t b) ∨
        ((∀ c ∈ blanks, Ctype.isSpace c = true) ∧ (sign = [] ∨ sign = ['+'] ∨ sign = ['-']) ∧
          ∃ n, Numeral t n ∧ (n < 2 ^ 31 → b = decide (n ≠ 0)))) := by
  have hc : (setIn plainReaders (disOptions sym) k.name.toList u st.1).1 = .OK := by
    rw [← setIn_same hn]
    unfold disSetOption setOption at h
    cases hx : setIn plainReaders (disOptions sym) name u st.1 with
    | mk e x =>
      rw [hx] at h
      cases e with
      | OK => rfl
      | _ =>
        dsimp only at h
        rcases setIn_cases plainReaders own name u st.2 with ⟨h2, _⟩ | ⟨e, he, hs, _⟩
        · rw [h2] at h
          exact absurd h (by simp)
        · exact absurd hs (ho e he)
  have key : ∃ b r, parseBoolOption u = .ok (b, r) ∧
      look (setIn plainReaders (disOptions sym) k.name.toList u st.1).2 k = .flag b := by
    cases k with
    | upperHex => exact flag_accept (fun v o => { o with upperHex := v }) _ (fun _ => rfl) rfl hc
    | upperCase => exact flag_accept (fun v o => { o with upper := v }) _ (fun _ => rfl) rfl hc
    | relative => exact flag_accept (fun v o => { o with relative := v }) _ (fun _ => rfl) rfl hc
    | cStyle =>
      exact flag_accept (fun v o => { o with cstyle := v, intelHex := if v && o.intelHex then false else o.intelHex })
        _ (fun _ => rfl) rfl hc
    | intelHex =>
      exact flag_accept (fun v o => { o with intelHex := v, cstyle := if v && o.cstyle then false else o.cstyle })
        _ (fun _ => rfl) rfl hc
    | listRadix => exact absurd rfl hk.1
    | originChar => exact absurd rfl hk.2
  obtain ⟨b, r, h1, h2⟩ := key
  obtain ⟨q, blanks, sign, t, rest, e1, e2, e3⟩ := parseBoolOption_inv h1
  refine ⟨q, blanks, sign, t, rest, b, e1, e2, ?_, e3⟩
  unfold disSetOption
  rw [setOption_common, setIn_same hn, h2]

example : (disSetOption (τ := Unit) '$' [] "c-style".toList "\"Yes\"".toList (Cpu.Opts.default '$', ())).1 = .OK := by
  decide

/-- **C69 violated: letters in quotes.** No letter in double quotes is accepted as the location symbol, though truth values and
numbers in double quotes are. -/
theorem C69_violated_quoted_letter (sym c : Char) (hc : c ≠ '"') (o : Cpu.Opts) :
    disSetOption (τ := Unit) sym [] "origin-char".toList ['"', c, '"'] (o, ()) = (.UNKNOWN_OPTION, (o, ())) := by
  have h1 : setIn plainReaders (disOptions sym) "origin-char".toList ['"', c, '"'] o =
      (.MISSING_CLOSING_DQUOTE, o) := by
    rw [show "origin-char".toList = (Setting.name .originChar).toList from rfl,
      set_found (e := ⟨"origin-char", .char fun v o => .ok { o with curSym := if v ≠ '\x00' then v else sym }⟩)
        (by unfold disOptions; simp only [List.find?_cons, Setting.name]; rfl)]
    simp [Entry.set, parseCharOption, Scan.deref, Scan.expect, Scan.expectP, hc]
  unfold disSetOption setOption
  rw [h1]
  rfl

/-- **C69 violated: the error.** A bad value of a known option is reported as an unknown option. -/
theorem C69_violated_diagnosis :
    (disSetOption (τ := Unit) '$' [] "list-radix".toList "eight".toList (Cpu.Opts.default '$', ())).1 =
      .UNKNOWN_OPTION := by decide

/-- **C69 violated: text after the value.** What follows the value is ignored: `8x` is octal. -/
theorem C69_violated_rest :
    disSetOption (τ := Unit) '$' [] "list-radix".toList "8x".toList (Cpu.Opts.default '$', ()) =
      (.OK, ({ Cpu.Opts.default '$' with octal := true }, ())) := by rfl

/-- **C69 violated: large numbers.** 4294967304 is taken for 8, and 4294967296 for false. -/
theorem C69_violated_wrap :
    disSetOption (τ := Unit) '$' [] "list-radix".toList "4294967304".toList (Cpu.Opts.default '$', ()) =
      (.OK, ({ Cpu.Opts.default '$' with octal := true }, ())) ∧
    disSetOption (τ := Unit) '$' [] "upper-hex".toList "4294967296".toList (Cpu.Opts.default '$', ()) =
      (.OK, ({ Cpu.Opts.default '$' with upperHex := false }, ())) := ⟨by rfl, by rfl⟩

/-! ### The assembler -/

/-- **C69, assembler.** `smart-branch`, in any case, with the text of a truth value sets it and nothing
else, whatever expressions mean. -/
theorem C69_asm_set {τ : Type} (eval : Scan → Err × Int × Scan) (own : List (Entry τ)) (name t u : List Char)
    (b : Bool) (hn : Same name "smart-branch".toList) (hv : BoolText t b) (hq : Quoted t u)
    (st : AsmOpts × τ) :
    asmSetOption eval own name u st = (.OK, ({ st.1 with smart := b }, st.2)) := by
  refine setOption_ok _ _ _ _ _ _ ?_
  rw [setIn_same hn]
  unfold setIn
  rw [show asmOptions.find? (fun e => Eval.iequals "smart-branch".toList e.name.toList) =
    some ⟨"smart-branch", .bool fun v o => .ok { o with smart := v }⟩ from rfl]
  simp only [Entry.set, asmParseBool, parseBoolOption_bool hv hq]

/-- **C69, assembler, a radix.** `list-radix`, in any case, takes an expression, perhaps in double quotes, and
lists in octal if the value is 8 and in hexadecimal otherwise. An expression that is not one is refused, and so is
one in quotes where the second quote is missing. `eval` is how expressions are read: the error, the value and the
text after them. -/
theorem C69_asm_radix {τ : Type} (eval : Scan → Err × Int × Scan) (own : List (Entry τ)) (name u : List Char)
    (v : Int) (rest : List Char) (hn : Same name "list-radix".toList) (st : AsmOpts × τ) :
    (u.head? ≠ some '"' → eval u = (.OK, v, rest) →
      asmSetOption eval own name u st = (.OK, ({ st.1 with octal := decide (v = 8) }, st.2))) ∧
    (eval u = (.OK, v, '"' :: rest) →
      asmSetOption eval own name ('"' :: u) st = (.OK, ({ st.1 with octal := decide (v = 8) }, st.2))) ∧
    (eval u = (.OK, v, rest) → rest.head? ≠ some '"' → (∀ e ∈ own, ¬ Same name e.name.toList) →
      (asmSetOption eval own name ('"' :: u) st).1 ≠ .OK) ∧
    (u.head? ≠ some '"' → (eval u).1 ≠ .OK → (∀ e ∈ own, ¬ Same name e.name.toList) →
      (asmSetOption eval own name u st).1 ≠ .OK) := by
  have hset : ∀ s : Scan, setIn ⟨asmParseBool eval, asmParseInt eval⟩ asmOptions name s st.1 =
      (⟨"list-radix", .int fun v o => .ok { o with octal := decide (v = 8) }⟩ : Entry AsmOpts).set
        ⟨asmParseBool eval, asmParseInt eval⟩ s st.1 := by
    intro s
    rw [setIn_same hn]
    unfold setIn
    rw [show asmOptions.find? (fun e => Eval.iequals "list-radix".toList e.name.toList) =
      some ⟨"list-radix", .int fun v o => .ok { o with octal := decide (v = 8) }⟩ from rfl]
  have noQuote : ∀ t : Scan, t.head? ≠ some '"' → Scan.expect '"' t = none := by
    intro t h
    cases t with
    | nil => rfl
    | cons c t =>
      have hc : c ≠ '"' := fun hc => h (by rw [hc]; rfl)
      show (if (c == '"') = true then some t else none) = none
      rw [if_neg (by simpa using hc)]
  have plain : u.head? ≠ some '"' → dquote u = (false, u) := by
    intro h
    unfold dquote
    rw [noQuote u h]
  have missing : rest.head? ≠ some '"' → Scan.expect '"' rest = none := noQuote rest
  have refused : ∀ (s : Scan) (e : Err), e ≠ .OK → asmParseInt eval s = .error e →
      (∀ e ∈ own, ¬ Same name e.name.toList) → (asmSetOption eval own name s st).1 ≠ .OK := by
    intro s e he hp ho
    unfold asmSetOption setOption
    rw [hset]
    simp only [Entry.set, hp]
    cases e with
    | OK => exact absurd rfl he
    | _ =>
      rcases setIn_cases ⟨asmParseBool eval, asmParseInt eval⟩ own name s st.2 with ⟨h, _⟩ | ⟨e, he, hs, h⟩
      · rw [h]; exact fun h => nomatch h
      · exact absurd hs (ho e he)
  refine ⟨fun h1 h2 => ?_, fun h1 => ?_, fun h1 h2 h3 => ?_, fun h1 h2 h3 => ?_⟩
  · refine setOption_ok _ _ _ _ _ _ ?_
    rw [hset]
    simp only [Entry.set, asmParseInt, plain h1, h2]
    rfl
  · refine setOption_ok _ _ _ _ _ _ ?_
    rw [hset]
    simp only [Entry.set, asmParseInt, show dquote ('"' :: u) = (true, u) from rfl, h1]
    rfl
  · refine refused _ .ILLEGAL_CONSTANT (by decide) ?_ h3
    simp only [asmParseInt, show dquote ('"' :: u) = (true, u) from rfl, h1, closing, missing h2]
    rfl
  · refine refused _ (eval u).1 h2 ?_ h3
    simp only [asmParseInt, plain h1]

/-- A case of `C69_asm_radix`: the value of the whole text is 8, the quote is there, or it is not. -/
example : (asmSetOption (τ := Unit) (fun s => (.OK, 8, s.drop 1)) [] "LIST-RADIX".toList "8".toList (⟨false, true⟩, ())) =
      (.OK, (⟨true, true⟩, ())) ∧
    (asmSetOption (τ := Unit) (fun s => (.OK, 8, s.drop 1)) [] "list-radix".toList "\"8\"".toList (⟨false, true⟩, ())) =
      (.OK, (⟨true, true⟩, ())) ∧
    (asmSetOption (τ := Unit) (fun s => (.OK, 8, s.drop 1)) [] "list-radix".toList "\"8".toList (⟨false, true⟩, ())).1 =
      .UNKNOWN_OPTION := by
  decide +kernel

/-- **C69, assembler, other options.** Options of another name leave both settings alone, and so do all errors. -/
theorem C69_asm_frame {τ : Type} (eval : Scan → Err × Int × Scan) (own : List (Entry τ)) (name u : List Char)
    (st : AsmOpts × τ) :
    (¬ Same name "smart-branch".toList → (asmSetOption eval own name u st).2.1.smart = st.1.smart) ∧
    (¬ Same name "list-radix".toList → (asmSetOption eval own name u st).2.1.octal = st.1.octal) ∧
    ((asmSetOption eval own name u st).1 ≠ .OK → (asmSetOption eval own name u st).2.1 = st.1) := by
  have hc := setIn_cases ⟨asmParseBool eval, asmParseInt eval⟩ asmOptions name u st.1
  refine ⟨fun h => ?_, fun h => ?_, fun h => ?_⟩
  · unfold asmSetOption
    rw [setOption_common]
    rcases hc with ⟨h2, _⟩ | ⟨e, he, hs, h2⟩
    · rw [h2]
    · rw [h2]
      simp only [asmOptions, List.mem_cons, List.not_mem_nil, or_false] at he
      rcases he with rfl | rfl
      · simp only [Entry.set]
        split <;> rfl
      · exact absurd hs h
  · unfold asmSetOption
    rw [setOption_common]
    rcases hc with ⟨h2, _⟩ | ⟨e, he, hs, h2⟩
    · rw [h2]
    · rw [h2]
      simp only [asmOptions, List.mem_cons, List.not_mem_nil, or_false] at he
      rcases he with rfl | rfl
      · exact absurd hs h
      · simp only [Entry.set]
        split <;> rfl
  · unfold asmSetOption at h ⊢
    rw [setOption_common]
    exact setIn_error _ _ _ _ _ (setOption_error _ _ _ _ _ _ h)

/-- **C69, the directive.** The operands of `option`, a name of letters, digits and dashes, perhaps in double
quotes, a comma and a value, with blanks between, do what setting that option does. -/
theorem C69_directive {τ : Type} (eval : Scan → Err × Int × Scan) (own : List (Entry τ))
    (b1 b2 b3 name w u : List Char)
    (hb : ∀ c ∈ b1 ++ b2 ++ b3, c = ' ' ∨ c = '\t')
    (hn : ∀ c ∈ name, ('a' ≤ c ∧ c ≤ 'z') ∨ ('A' ≤ c ∧ c ≤ 'Z') ∨ ('0' ≤ c ∧ c ≤ '9') ∨ c = '-')
    (hw : Quoted name w) (hne : name ≠ []) (hu : ∀ c ∈ u.head?, Ctype.isSpace c = false)
    (st : AsmOpts × τ) :
    optionDirective eval own (b1 ++ w ++ b2 ++ ',' :: (b3 ++ u)) st = asmSetOption eval own name u st := by
  have sp : ∀ c : Char, (c = ' ' ∨ c = '\t') → Ctype.isSpace c = true := by
    rintro c (rfl | rfl) <;> decide
  have h1 : b1.all Ctype.isSpace = true :=
    List.all_eq_true.2 fun c hc => sp c (hb c (by simp [hc]))
  have h2 : b2.all Ctype.isSpace = true :=
    List.all_eq_true.2 fun c hc => sp c (hb c (by simp [hc]))
  have h3 : b3.all Ctype.isSpace = true :=
    List.all_eq_true.2 fun c hc => sp c (hb c (by simp [hc]))
  have hletter : ∀ c : Char, (('a' ≤ c ∧ c ≤ 'z') ∨ ('A' ≤ c ∧ c ≤ 'Z') ∨ ('0' ≤ c ∧ c ≤ '9') ∨ c = '-') →
      (Ctype.isAlnum c || c == '-') = true ∧ Ctype.isSpace c = false ∧ c ≠ '"' := by
    intro c hc
    have hc' : (97 ≤ c.toNat ∧ c.toNat ≤ 122) ∨ (65 ≤ c.toNat ∧ c.toNat ≤ 90) ∨ (48 ≤ c.toNat ∧ c.toNat ≤ 57) ∨
        c.toNat = 45 := by
      rcases hc with hc | hc | hc | rfl
      · exact .inl ⟨by exact hc.1, by exact hc.2⟩
      · exact .inr (.inl ⟨by exact hc.1, by exact hc.2⟩)
      · exact .inr (.inr (.inl ⟨by exact hc.1, by exact hc.2⟩))
      · exact .inr (.inr (.inr rfl))
    refine ⟨?_, ?_, ?_⟩
    · unfold Ctype.isAlnum Ctype.isAlpha Ctype.isUpper Ctype.isLower Ctype.isDigit
      rcases hc' with h | h | h | h
      · simp [h]
      · simp [h]
      · simp [h]
      · have : c = '-' := Char.toNat_inj.1 h
        simp [this]
    · unfold Ctype.isSpace
      simp
      omega
    · rintro rfl
      simp at hc'
  have hall : name.all (fun c => Ctype.isAlnum c || c == '-') = true :=
    List.all_eq_true.2 fun c hc => (hletter c (hn c hc)).1
  cases name with
  | nil => contradiction
  | cons c name =>
    obtain ⟨_, l2, l3⟩ := hletter c (hn c (List.mem_cons_self ..))
    have stop : ∀ r : List Char, (∀ d ∈ r.head?, (Ctype.isAlnum d || d == '-') = false) →
        ((c :: name) ++ r).takeWhile (fun c => Ctype.isAlnum c || c == '-') = c :: name ∧
        ((c :: name) ++ r).dropWhile (fun c => Ctype.isAlnum c || c == '-') = r :=
      fun r hr => takeWhile_all hall hr
    have hcomma : ∀ d ∈ (b2 ++ ',' :: (b3 ++ u)).head?, (Ctype.isAlnum d || d == '-') = false := by
      intro d hd
      cases b2 with
      | nil =>
        simp at hd
        subst hd
        decide
      | cons e b2 =>
        simp at hd
        subst hd
        rcases hb e (by simp) with rfl | rfl <;> decide
    have tail : Scan.expect ',' (Scan.skipSpaces (b2 ++ ',' :: (b3 ++ u))) = some (b3 ++ u) := by
      unfold Scan.skipSpaces Scan.trimStart
      rw [(takeWhile_all h2 (by simp [Ctype.isSpace])).2]
      rfl
    have tail2 : Scan.skipSpaces (b3 ++ u) = u := (takeWhile_all h3 hu).2
    rcases hw with rfl | rfl
    · have e1 : Scan.skipSpaces (b1 ++ (c :: name) ++ b2 ++ ',' :: (b3 ++ u)) =
          (c :: name) ++ (b2 ++ ',' :: (b3 ++ u)) := by
        unfold Scan.skipSpaces Scan.trimStart
        rw [show b1 ++ (c :: name) ++ b2 ++ ',' :: (b3 ++ u) = b1 ++ ((c :: name) ++ (b2 ++ ',' :: (b3 ++ u))) by simp]
        exact (takeWhile_all h1 (by simpa using l2)).2
      unfold optionDirective
      simp only [e1]
      rw [show dquote ((c :: name) ++ (b2 ++ ',' :: (b3 ++ u))) = (false, (c :: name) ++ (b2 ++ ',' :: (b3 ++ u)))
        from dquote_plain l3 _]
      simp only [(stop _ hcomma).1, (stop _ hcomma).2, closing_plain, tail, tail2]
    · have e1 : Scan.skipSpaces (b1 ++ '"' :: (c :: name ++ ['"']) ++ b2 ++ ',' :: (b3 ++ u)) =
          '"' :: ((c :: name) ++ '"' :: (b2 ++ ',' :: (b3 ++ u))) := by
        unfold Scan.skipSpaces Scan.trimStart
        rw [show b1 ++ '"' :: (c :: name ++ ['"']) ++ b2 ++ ',' :: (b3 ++ u) =
          b1 ++ ('"' :: ((c :: name) ++ '"' :: (b2 ++ ',' :: (b3 ++ u)))) by simp]
        exact (takeWhile_all h1 (by simp [Ctype.isSpace])).2
      unfold optionDirective
      simp only [e1, dquote_quoted]
      have hq : ∀ d ∈ ('"' :: (b2 ++ ',' :: (b3 ++ u))).head?, (Ctype.isAlnum d || d == '-') = false := by
        intro d hd
        simp at hd
        subst hd
        decide
      simp only [(stop _ hq).1, (stop _ hq).2, closing_quoted, tail, tail2]

/-- `option "Smart-Branch", on`. -/
example (eval : Scan → Err × Int × Scan) :
    optionDirective (τ := Unit) eval [] " \"Smart-Branch\" , \"on\"".toList (⟨false, false⟩, ()) =
      (.OK, (⟨false, true⟩, ())) := by
  have := C69_directive (τ := Unit) eval [] [' '] [' '] [' '] "Smart-Branch".toList "\"Smart-Branch\"".toList
    "\"on\"".toList (by decide) (by decide) (.inr rfl) (by decide) (by decide) (⟨false, false⟩, ())
  rw [show " \"Smart-Branch\" , \"on\"".toList = [' '] ++ "\"Smart-Branch\"".toList ++ [' '] ++
    ',' :: ([' '] ++ "\"on\"".toList) from rfl, this]
  exact C69_asm_set eval [] _ "on".toList _ true (by decide) (.inl ⟨"on", by decide, by decide⟩) (.inr rfl) _

/-- **C69 violated: expressions.** In the assembler an option may be an expression, but a truth value is read
as a decimal number first: `0x1` turns the option off and `1-1` turns it on. -/
theorem C69_violated_expression (eval : Scan → Err × Int × Scan) (o : AsmOpts) :
    asmSetOption (τ := Unit) eval [] "smart-branch".toList "0x1".toList (o, ()) =
      (.OK, ({ o with smart := false }, ())) ∧
    asmSetOption (τ := Unit) eval [] "smart-branch".toList "1-1".toList (o, ()) =
      (.OK, ({ o with smart := true }, ())) := ⟨by rfl, by rfl⟩

end Libasm.Options
