import Verif.Store.Calls
import Verif.Eval.Props
import Verif.Eval.ExprProps
/-
C30 and C37.  Specification: Verif/Store/Spec.lean, and for C notation Verif/Eval/Spec.lean.

The operations of a history are those of a symbol table: definitions of constants and variables,
definitions of functions, `clearFunctions` and `clear`.
-/
namespace Libasm.Store.Props
open Eval Eval.Spec Number Store.Spec Value.Spec

/-! ### C30 -/

/-- C30: after every history the value of a name is that of the last definition of it that has the
kind of its first definition and a value of 32 bits; a name is known exactly if it has one. -/
theorem C30_lookup (ops : List Store.Spec.Op) (name : List Char) :
    (run ops).lookup name = Store.Spec.value (history ops) name ∧
    ((run ops).hasSymbol name = true ↔ Store.Spec.value (history ops) name ≠ none) := by
  have h := holds_run ops
  have h1 := h name
  constructor
  · unfold Symbols.lookup
    rw [h1.1, h1.2]
    cases hk : kind (history ops) name with
    | none => simp [value_none name _ hk]
    | some b =>
      obtain ⟨v, hv⟩ := value_some name _ b hk
      cases b <;> simp [hv]
  · unfold Symbols.hasSymbol
    rw [holds_hasValue h, holds_hasValue h]
    cases hk : kind (history ops) name with
    | none => simp [value_none name _ hk]
    | some b =>
      obtain ⟨v, hv⟩ := value_some name _ b hk
      cases b <;> simp [hv]

/-- C30: no history makes a name both a constant and a variable. -/
theorem C30_kinds (ops : List Store.Spec.Op) (name : List Char) :
    ¬ ((run ops).hasValue name false = true ∧ (run ops).hasValue name true = true) ∧
    (∀ b, (run ops).hasValue name b = true ↔ Store.Spec.kind (history ops) name = some b) := by
  have h := holds_run ops
  refine ⟨?_, fun b => by rw [holds_hasValue h]; simp⟩
  rw [holds_hasValue h, holds_hasValue h]
  cases hk : kind (history ops) name with
  | none => simp
  | some b => cases b <;> simp

/-- C30: the verdict on a definition, after every history: a conflict is DUPLICATE_LABEL, a value
of more than 32 bits OVERFLOW_RANGE, and in both cases nothing changes. -/
theorem C30_define (ops : List Store.Spec.Op) (d : Def) :
    ((run ops).intern d.value d.name d.isVar).2 =
      (match verdict (history ops) d with
        | .accepted => .OK | .conflict => .DUPLICATE_LABEL | .tooLarge => .OVERFLOW_RANGE) ∧
    (verdict (history ops) d ≠ .accepted →
      ((run ops).intern d.value d.name d.isVar).1 = run ops) ∧
    (verdict (history ops) d = .accepted →
      ((run ops).intern d.value d.name d.isVar).1.lookup d.name = some d.value ∧
      ∀ n, n ≠ d.name →
        ((run ops).intern d.value d.name d.isVar).1.lookup n = (run ops).lookup n) := by
  have h := holds_intern (holds_run ops) d
  refine ⟨h.2.1, h.2.2, fun hv => ?_⟩
  have hr : ((run ops).intern d.value d.name d.isVar).1 = run (ops ++ [.define d]) := by
    unfold run
    rw [List.foldl_append]
    rfl
  have hh : history (ops ++ [.define d]) = history ops ++ [d] := by
    unfold history
    rw [List.foldl_append]
    rfl
  unfold verdict at hv
  split at hv
  · cases hv
  next hc =>
    split at hv
    case isFalse => cases hv
    next hf =>
      rw [hr]
      refine ⟨?_, fun n hn => ?_⟩
      · rw [(C30_lookup _ _).1, hh, (append_take hf hc).1]
      · rw [(C30_lookup _ _).1, (C30_lookup _ _).1, hh,
          (append_skip (fun x => hn x.1.symm)).1]

/-- `a equ 1`, `a set 2` (refused), `a equ 3`, `b set 2^32` (refused), `b set 4`, `b set 5`. -/
def someHistory : List Store.Spec.Op :=
  [.define ⟨['a'], false, ⟨1, .unsigned⟩⟩, .define ⟨['a'], true, ⟨2, .unsigned⟩⟩,
   .define ⟨['a'], false, ⟨3, .unsigned⟩⟩, .define ⟨['b'], true, ⟨2 ^ 32, .unsigned⟩⟩,
   .define ⟨['b'], true, ⟨4, .unsigned⟩⟩, .define ⟨['b'], true, ⟨5, .unsigned⟩⟩]

example : Store.Spec.value (history someHistory) ['a'] = some ⟨3, .unsigned⟩ ∧
    Store.Spec.value (history someHistory) ['b'] = some ⟨5, .unsigned⟩ ∧
    Store.Spec.kind (history someHistory) ['b'] = some true ∧
    verdict (history someHistory) ⟨['b'], false, ⟨1, .unsigned⟩⟩ = .conflict ∧
    verdict (history someHistory) ⟨['c'], false, ⟨2 ^ 40, .unsigned⟩⟩ = .tooLarge ∧
    verdict (history someHistory) ⟨['c'], false, ⟨7, .unsigned⟩⟩ = .accepted := by decide

/-! ### C37 -/

/-- C37: a function is what its first definition since `clearFunctions` says; a second definition
is DUPLICATE_FUNCTION and changes nothing. -/
theorem C37_definition (ops : List Store.Spec.Op) (name : List Char) (params : List (List Char))
    (body : List Char) :
    ((run ops).hasFunction name = true ↔ Store.Spec.function (Store.Spec.functions ops) name ≠ none) ∧
    (Store.Spec.function (Store.Spec.functions ops) name ≠ none →
      (run ops).internFunction name params body = (run ops, .DUPLICATE_FUNCTION)) ∧
    (Store.Spec.function (Store.Spec.functions ops) name = none →
      ((run ops).internFunction name params body).2 = .OK) := by
  have h := functions_run ops name
  cases hf : Store.Spec.function (Store.Spec.functions ops) name with
  | none =>
    rw [hf] at h
    simp [Symbols.hasFunction, Symbols.internFunction, h]
  | some x =>
    rw [hf] at h
    simp [Symbols.hasFunction, Symbols.internFunction, h]

/-- C37: after every history, in every evaluation with any plugins: a function of the table that is
not a built-in one has as many arguments as parameters, and its value for the arguments (the last
on top of the stack) is the value of its body with the parameters bound to the arguments and the
other names as where it is called.  At most 8 parameters, of different names. -/
theorem C37_call_partial {V : Type} (P : Plugins V) (ops : List Store.Spec.Op) (radix : Radix) (depth : Nat)
    (symbols : List Char → Option V) (name : List Char) (params : List (List Char))
    (body : List Char) (hf : Store.Spec.function (Store.Spec.functions ops) name = some (params, body))
    (hb : P.lookupFunction name = none) (hp : params.Nodup) (h8 : params.length ≤ 8) :
    ∃ f, (plugins P (run ops).functions radix (depth + 1) symbols).lookupFunction name =
        some ((params.length : Int), f) ∧
      ∀ args rest : List V, args.length = params.length →
        f (args.reverse ++ rest) =
          (eval (plugins P (run ops).functions radix depth (env params args symbols)) body .OK
            radix).bind fun r => .ok (if r.err = .OK then .ok r.value else .error r.err) := by
  have hfn := functions_run ops name
  rw [hf] at hfn
  have hfn : (run ops).functions.find name = some (mkFn params body) := hfn
  refine ⟨fun st => (mkFn params body).eval (plugins P (run ops).functions radix depth) radix
    symbols st, ?_, ?_⟩
  · rw [plugins_user hb hfn, mkFn_nargs _ _ hp h8]
  · intro args rest hl
    exact mkFn_eval _ _ _ _ _ _ _ hl.symm

/-- C37, C notation: if the body of the function is an expression (see C15) that stands for an
integer when the parameters have the values of the arguments, that is the value of the call. -/
theorem C37_value_partial (float : Scan → Option (Err × Value × Scan))
    (hfloat : ∀ s v rest, float s = some (.OK, v, rest) → rest.length < s.length)
    (builtin : List Char → Option (Int × (List Value → Out (Except Err Value))))
    (delim : Char) (hd : ¬ TokenStart delim ∧ ¬ Blank delim) (loc : Nat) (hloc : loc < 2 ^ 32)
    (ops : List Store.Spec.Op) (depth : Nat) (outer symbols : List Char → Option Value) (name : List Char)
    (params : List (List Char)) (body : List Char)
    (hf : Store.Spec.function (Store.Spec.functions ops) name = some (params, body))
    (hb : builtin name = none) (hp : params.Nodup) (h8 : params.length ≤ 8)
    (args : List Value) (hl : args.length = params.length)
    (names : List Char → Option Int) (hn : Named (env params args symbols) names)
    (e : Expr) (hw : Writes e body) (hg : e.Grouped)
    (hfits : e.Fits (fun n => builtin n ≠ none ∨ Store.Spec.function (Store.Spec.functions ops) n ≠ none))
    (hv : e.values ≤ 8) (ho : e.operators ≤ 8) (x : Int) (hx : e.value names loc = .ok x) :
    ∃ f, (plugins (stylePlugins .cstyle .c float outer builtin delim loc) (run ops).functions .r10
        (depth + 1) symbols).lookupFunction name = some ((params.length : Int), f) ∧
      ∀ rest, ∃ v, f (args.reverse ++ rest) = .ok (.ok v) ∧ denote v = x := by
  obtain ⟨f, h1, h2⟩ := C37_call_partial (stylePlugins .cstyle .c float outer builtin delim loc) ops
    .r10 depth symbols name params body hf hb hp h8
  refine ⟨f, h1, fun rest => ?_⟩
  rw [h2 args rest hl, plugins_form]
  have hfun : ∀ n, ¬ (builtin n ≠ none ∨ Store.Spec.function (Store.Spec.functions ops) n ≠ none) →
      (plugins (stylePlugins .cstyle .c float outer builtin delim loc) (run ops).functions .r10
        depth (env params args symbols)).lookupFunction n = none := by
    intro n h
    have hb' : builtin n = none := Decidable.byContradiction fun hc => h (.inl hc)
    have hf' : Store.Spec.function (Store.Spec.functions ops) n = none :=
      Decidable.byContradiction fun hc => h (.inr hc)
    refine plugins_none hb' ?_ _ _ _
    rw [functions_run, hf']
    rfl
  have hfits' : ∀ (L : List Char → Option (Int × (List Value → Out (Except Err Value)))),
      (∀ n, ¬ (builtin n ≠ none ∨ Store.Spec.function (Store.Spec.functions ops) n ≠ none) → L n = none) →
      e.Fits (fun n => L n ≠ none) := by
    intro L hL
    clear hw hg hv ho hx
    induction e with
    | num n => exact hfits
    | sym n => exact fun hc => hc (hL n hfits)
    | paren e ih => exact ih hfits
    | un o e ih => exact ih hfits
    | bin o l r ihl ihr => exact ⟨ihl hfits.1, ihr hfits.2⟩
    | char c => trivial
    | here => trivial
  obtain ⟨r, hr, herr, hval, _⟩ := C15_value_partial float hfloat (env params args symbols) _ delim hd
    loc hloc names hn e body [] hw hg (hfits' _ hfun) hv ho ⟨[], [], rfl, by simp, .inl rfl⟩ x hx
  rw [List.append_nil] at hr
  refine ⟨r.value, ?_, hval⟩
  have hform : ∀ L, (stylePlugins .cstyle .c float outer builtin delim loc).withTables L
      (env params args symbols) =
      stylePlugins .cstyle .c float (env params args symbols) L delim loc := fun _ => rfl
  rw [hform, hr]
  simp [Out.bind, herr]

/-- `f function x, y, x * (y - n)`. -/
def oneFunctionTable : List Store.Spec.Op :=
  [.function ['f'] [['x'], ['y']] ['x', '*', '(', 'y', '-', 'n', ')']]

def productTree : Expr := .bin .mul (.sym ['x']) (.paren (.bin .sub (.sym ['y']) (.sym ['n'])))

def outerSymbols (n : List Char) : Option Value :=
  if n = ['n'] then some ⟨2, .unsigned⟩ else if n = ['x'] then some ⟨100, .unsigned⟩ else none

/-- `f(3, 6)` with `n` = 2 and a symbol `x`, which the parameter hides: 12. -/
example : Store.Spec.function (Store.Spec.functions oneFunctionTable) ['f'] =
      some ([['x'], ['y']], ['x', '*', '(', 'y', '-', 'n', ')']) ∧
    [['x'], ['y']].Nodup ∧
    Writes productTree ['x', '*', '(', 'y', '-', 'n', ')'] ∧ productTree.Grouped ∧
    productTree.values ≤ 8 ∧ productTree.operators ≤ 8 ∧
    productTree.Fits (fun n => noFunctions n ≠ none ∨
      Store.Spec.function (Store.Spec.functions oneFunctionTable) n ≠ none) ∧
    (env [['x'], ['y']] [⟨3, .unsigned⟩, ⟨6, .unsigned⟩] outerSymbols) ['x'] = some ⟨3, .unsigned⟩ ∧
    (env [['x'], ['y']] [⟨3, .unsigned⟩, ⟨6, .unsigned⟩] outerSymbols) ['n'] = some ⟨2, .unsigned⟩ ∧
    productTree.value (fun n => (env [['x'], ['y']] [⟨3, .unsigned⟩, ⟨6, .unsigned⟩] outerSymbols n).map
      denote) 0 = .ok 12 := by
  have nm : ∀ c, IsLetter c → Writes (.sym [c]) [c] := fun c hc =>
    .sym _ ⟨⟨c, [], rfl, hc, by simp⟩, by unfold FloatWord; simp⟩
  refine ⟨by decide, by decide, ?_, ?_, by decide, by decide, ?_, by decide, by decide, ?_⟩
  · have h := Writes.paren _ _ [] (Writes.bin .sub _ _ _ [] _ (nm 'y' (by decide)) (by simp)
      (nm 'n' (by decide))) (by simp)
    exact Writes.bin .mul _ _ _ [] _ (nm 'x' (by decide)) (by simp) h
  · simp [productTree, Expr.Grouped, Expr.level, BinOp.level, BinOp.chains]
  · simp [productTree, Expr.Fits, noFunctions, oneFunctionTable, Store.Spec.functions, Store.Spec.function]
  · decide +kernel

/-- The whole expression `1 + f(3, 2 * 3)` is 13. -/
example : ∃ r, eval (plugins (stylePlugins .cstyle .c noFloat noSymbols noFunctions ',' 0)
    (run oneFunctionTable).functions .r10 1 outerSymbols)
    ['1', '+', 'f', '(', '3', ',', '2', '*', '3', ')'] .OK .r10 = .ok r ∧ r.err = .OK ∧
    denote r.value = 13 := by
  refine ⟨_, rfl, ?_, ?_⟩ <;> decide +kernel

/-- C37: if functions can be ranked so that the body of each names only functions of lower rank,
evaluation ends on every text, and how deep the model lets calls nest does not matter. -/
theorem C37_terminates_partial (number : Parser) (style : OpStyle) (hst : style ≠ .pdp11)
    (float : Scan → Option (Err × Value × Scan))
    (hfloat : ∀ s v rest, float s = some (.OK, v, rest) → rest <:+ s ∧ rest.length < s.length)
    (builtin : List Char → Option (Int × (List Value → Out (Except Err Value))))
    (hbuiltin : ∀ name nargs f, builtin name = some (nargs, f) → ∀ st, f st ≠ .diverge)
    (delim : Char) (loc : Nat) (ops : List Store.Spec.Op) (rank : List Char → Nat)
    (hrank : ∀ name params body, Store.Spec.function (Store.Spec.functions ops) name = some (params, body) →
      ∀ g, Store.Spec.function (Store.Spec.functions ops) g ≠ none → g <:+: body → rank g < rank name)
    (outer symbols : List Char → Option Value) (text : List Char) (err : Err) (radix : Radix)
    (depth depth' : Nat)
    (hd : ∀ name, Store.Spec.function (Store.Spec.functions ops) name ≠ none → rank name < depth)
    (hd' : ∀ name, Store.Spec.function (Store.Spec.functions ops) name ≠ none → rank name < depth') :
    eval (plugins (stylePlugins number style float outer builtin delim loc) (run ops).functions
      radix depth symbols) text err radix ≠ .diverge ∧
    eval (plugins (stylePlugins number style float outer builtin delim loc) (run ops).functions
      radix depth symbols) text err radix =
    eval (plugins (stylePlugins number style float outer builtin delim loc) (run ops).functions
      radix depth' symbols) text err radix := by
  have hS : ∀ L T, Suffixes ((stylePlugins number style float outer builtin delim loc).withTables L T) :=
    fun L T => stylePlugins_suffixes number style hst float (fun s v rest h => (hfloat s v rest h).1) T L
      delim loc
  have hq : Quiet (stylePlugins number style float outer builtin delim loc).ops :=
    (style_good style hst).quiet
  have hR : ReadsParts (stylePlugins number style float outer builtin delim loc) := by
    intro t n rest h
    have h : defaultSymbol t = some (n, rest) := h
    unfold defaultSymbol at h
    split at h
    · cases h
    · rename_i c t _
      split at h
      · simp only [Option.some.injEq, Prod.mk.injEq] at h
        obtain ⟨rfl, rfl⟩ := h
        exact ⟨[], t.dropWhile (symbolLetter false), by simp [List.takeWhile_append_dropWhile]⟩
      · cases h
  have hE : ∀ L T, (∀ name nargs f, L name = some (nargs, f) → ∀ st, (f st).Ends) →
      ∀ text err radix, (eval ((stylePlugins number style float outer builtin delim loc).withTables L T)
        text err radix).Ends := by
    intro L T hL text err radix
    have := C17_terminates number style float (fun s v rest h => (hfloat s v rest h).2) T L hL delim loc
      text err radix (text.length + 1) (by omega)
    have h1 := this.1
    rw [this.2] at h1
    exact h1
  have hfind : ∀ n f, (run ops).functions.find n = some f →
      ∃ params body, Store.Spec.function (Store.Spec.functions ops) n = some (params, body) ∧
        f = mkFn params body := by
    intro n f h
    rw [functions_run] at h
    cases hs : Store.Spec.function (Store.Spec.functions ops) n with
    | none => rw [hs] at h; cases h
    | some x =>
      rw [hs] at h
      simp only [Option.map_some, Option.some.injEq] at h
      exact ⟨x.1, x.2, rfl, h.symm⟩
  have hL : Layered (run ops).functions rank := by
    intro name f hf g hg hgb
    obtain ⟨ps, b, h1, rfl⟩ := hfind name f hf
    refine hrank name ps b h1 g ?_ hgb
    intro hc
    rw [functions_run, hc] at hg
    exact hg rfl
  have hlook : ∀ T g, (plugins (stylePlugins number style float outer builtin delim loc)
        (run ops).functions radix depth T).lookupFunction g =
      (plugins (stylePlugins number style float outer builtin delim loc)
        (run ops).functions radix depth' T).lookupFunction g := by
    intro T g
    cases hp : builtin g with
    | some x => rw [plugins_builtin (P := stylePlugins number style float outer builtin delim loc) hp,
        plugins_builtin (P := stylePlugins number style float outer builtin delim loc) hp]
    | none =>
      cases hgf : (run ops).functions.find g with
      | none => rw [plugins_none (P := stylePlugins number style float outer builtin delim loc) hp hgf,
          plugins_none (P := stylePlugins number style float outer builtin delim loc) hp hgf]
      | some x =>
        obtain ⟨ps, b, h1, _⟩ := hfind g x hgf
        have e1 := hd g (by rw [h1]; nofun)
        have e2 := hd' g (by rw [h1]; nofun)
        obtain ⟨d, rfl⟩ : ∃ k, depth = k + 1 := ⟨depth - 1, by omega⟩
        obtain ⟨d', rfl⟩ : ∃ k, depth' = k + 1 := ⟨depth' - 1, by omega⟩
        rw [plugins_user (P := stylePlugins number style float outer builtin delim loc) hp hgf,
          plugins_user (P := stylePlugins number style float outer builtin delim loc) hp hgf]
        congr 2
        funext st
        exact depth_same hS hq hR hL radix (rank g) d d' g x hgf (Nat.le_refl _) (by omega) (by omega) T st
  constructor
  · rw [plugins_form]
    refine hE _ _ ?_ _ _ _
    intro n nargs f hn st
    cases hp : builtin n with
    | some y =>
      rw [plugins_builtin (P := stylePlugins number style float outer builtin delim loc) hp] at hn
      exact hbuiltin n nargs f (by rw [hp, hn]) st
    | none =>
      cases hgf : (run ops).functions.find n with
      | none =>
        rw [plugins_none (P := stylePlugins number style float outer builtin delim loc) hp hgf] at hn
        cases hn
      | some x =>
        obtain ⟨ps, b, h1, _⟩ := hfind n x hgf
        have e1 := hd n (by rw [h1]; nofun)
        obtain ⟨d, rfl⟩ : ∃ k, depth = k + 1 := ⟨depth - 1, by omega⟩
        rw [plugins_user (P := stylePlugins number style float outer builtin delim loc) hp hgf] at hn
        simp only [Option.some.injEq, Prod.mk.injEq] at hn
        rw [← hn.2]
        exact depth_ends hS hq hR hE hbuiltin hL radix (rank n) d n x hgf (Nat.le_refl _) (by omega)
          symbols st
  · rw [plugins_form, plugins_form _ _ _ depth', tables_same hS hq hR (fun g _ => hlook symbols g)]

/-- `dbl function x, x+x` and `quad function x, dbl(dbl(x))`, ranked 0 and 1. -/
def layered : List Store.Spec.Op :=
  [.function ['d', 'b', 'l'] [['x']] ['x', '+', 'x'],
   .function ['q'] [['x']] ['d', 'b', 'l', '(', 'd', 'b', 'l', '(', 'x', ')', ')']]

example : ∃ r, eval (plugins (stylePlugins .cstyle .c noFloat noSymbols noFunctions ',' 0)
    (run layered).functions .r10 2 noSymbols) ['q', '(', '5', ')'] .OK .r10 = .ok r ∧ r.err = .OK ∧
    denote r.value = 20 := by
  refine ⟨_, rfl, ?_, ?_⟩ <;> decide +kernel

example : ∀ name params body, Store.Spec.function (Store.Spec.functions layered) name = some (params, body) →
    ∀ g, Store.Spec.function (Store.Spec.functions layered) g ≠ none → g <:+: body →
      (if g = ['q'] then 1 else 0) < (if name = ['q'] then 1 else 0) := by
  have hall : ∀ n, Store.Spec.function (Store.Spec.functions layered) n ≠ none → n = ['d', 'b', 'l'] ∨ n = ['q'] := by
    intro n h
    by_cases h1 : n = ['d', 'b', 'l']
    · exact .inl h1
    · by_cases h2 : n = ['q']
      · exact .inr h2
      · refine absurd ?_ h
        have h1' : ¬ ['d', 'b', 'l'] = n := fun h => h1 h.symm
        have h2' : ¬ ['q'] = n := fun h => h2 h.symm
        simp [Store.Spec.functions, Store.Spec.function, layered, h1', h2']
  intro name params body h g hg hgb
  rcases hall name (by rw [h]; nofun) with rfl | rfl
  · simp [Store.Spec.functions, Store.Spec.function, layered] at h
    obtain ⟨rfl, rfl⟩ := h
    rcases hall g hg with rfl | rfl <;> revert hgb <;> decide
  · simp [Store.Spec.functions, Store.Spec.function, layered] at h
    obtain ⟨rfl, rfl⟩ := h
    rcases hall g hg with rfl | rfl
    · decide
    · revert hgb; decide

/-! C37 as stated fails in three ways. -/

/-- `f function x, f(1)`. -/
def recursive : List Store.Spec.Op := [.function ['f'] [['x']] ['f', '(', '1', ')']]

/-- C37 fails for a function that calls itself: no depth of nesting is enough. -/
theorem C37_violated_recursion (depth : Nat) (symbols : List Char → Option Value) :
    eval (plugins (stylePlugins .cstyle .c noFloat noSymbols noFunctions ',' 0)
      (run recursive).functions .r10 depth symbols) ['f', '(', '1', ')'] .OK .r10 = .diverge := by
  induction depth generalizing symbols with
  | zero => with_unfolding_all rfl
  | succ d ih =>
    have hL : (plugins (stylePlugins .cstyle .c noFloat noSymbols noFunctions ',' 0)
        (run recursive).functions .r10 (d + 1) symbols).lookupFunction =
        fun n => if ['f'] = n then
          some (1, fun st => if (0 < st.length) then .diverge else .ub) else none := by
      funext n
      show (match (run recursive).functions.find n with
        | none => none
        | some f => some (f.nargs, fun st => f.eval (plugins (stylePlugins .cstyle .c noFloat
            noSymbols noFunctions ',' 0) (run recursive).functions .r10 d) .r10 symbols st)) = _
      by_cases hn : ['f'] = n
      · have hfind : (run recursive).functions.find n = some (mkFn [['x']] ['f', '(', '1', ')']) := by
          rw [← hn]; rfl
        rw [hfind, if_pos hn]
        have hF : ∀ st : List Value, (mkFn [['x']] ['f', '(', '1', ')']).eval (plugins (stylePlugins
            .cstyle .c noFloat noSymbols noFunctions ',' 0) (run recursive).functions .r10 d) .r10
            symbols st = if (0 < st.length) then .diverge else .ub := by
          intro st
          unfold Fn.eval
          have hb : (mkFn [['x']] ['f', '(', '1', ')']).body = ['f', '(', '1', ')'] := rfl
          rw [hb, ih]
          cases st <;> rfl
        simp only [hF]
        rfl
      · have hfind : (run recursive).functions.find n = none := by
          rw [functions_run]
          simp [recursive, Store.Spec.functions, Store.Spec.function, hn]
        rw [hfind, if_neg hn]
    rw [plugins_form, hL]
    with_unfolding_all rfl

/-- `g function y, x` and `f function x, g(0)`. -/
def dynamic : List Store.Spec.Op :=
  [.function ['g'] [['y']] ['x'], .function ['f'] [['x']] ['g', '(', '0', ')']]

/-- C37 fails for a function whose body has a name that is no parameter, when another function
calls it: `g(0)` is the symbol `x`, 100, but `f(3)`, which is `g(0)`, is the parameter of `f`. -/
theorem C37_violated_scope :
    (∃ r, eval (plugins (stylePlugins .cstyle .c noFloat noSymbols noFunctions ',' 0)
      (run dynamic).functions .r10 2 outerSymbols) ['g', '(', '0', ')'] .OK .r10 = .ok r ∧
      r.err = .OK ∧ denote r.value = 100) ∧
    (∃ r, eval (plugins (stylePlugins .cstyle .c noFloat noSymbols noFunctions ',' 0)
      (run dynamic).functions .r10 2 outerSymbols) ['f', '(', '3', ')'] .OK .r10 = .ok r ∧
      r.err = .OK ∧ denote r.value = 3) := by
  refine ⟨⟨_, rfl, ?_, ?_⟩, ⟨_, rfl, ?_, ?_⟩⟩ <;> decide +kernel

/-- C37 fails for parameters of the same name: `f function x, x, x` takes one argument, and `f(5)`
reads a value outside the stack. -/
theorem C37_violated_duplicate :
    eval (plugins (stylePlugins .cstyle .c noFloat noSymbols noFunctions ',' 0)
      (run [.function ['f'] [['x'], ['x']] ['x']]).functions .r10 2 noSymbols)
      ['f', '(', '5', ')'] .OK .r10 = .ub := rfl

end Libasm.Store.Props
