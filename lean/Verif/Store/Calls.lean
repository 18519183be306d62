import Verif.Store.Functions
/-
Parameters and calls of user functions.
-/
namespace Libasm.Store
open Eval Number Spec
variable {V : Type}

theorem bindParams_find (ps : List Name) : ∀ (argc : Nat) (m : Map Nat) (n : Name),
    (bindParams ps argc m).find n =
      (m.find n).or ((ps.findIdx? (fun p => decide (p = n))).map (argc - 1 - ·)) := by
  induction ps with
  | nil => intro argc m n; simp [bindParams]
  | cons p ps ih =>
    intro argc m n
    unfold bindParams
    rw [ih, List.findIdx?_cons]
    by_cases hp : p = n
    · subst hp
      simp only [decide_true, if_true]
      cases hm : m.find p with
      | some i => simp [hm]
      | none => simp [find_put]
    · simp only [hp, decide_false, Bool.false_eq_true, if_false]
      have hm : (if (m.find p).isSome = true then m else m.put p (argc - 1)).find n = m.find n := by
        split
        · rfl
        · rw [find_put, if_neg hp]
      rw [hm]
      cases m.find n with
      | some i => rfl
      | none =>
        simp only [Option.none_or, Option.map_map]
        congr 1
        funext i
        simp only [Function.comp]
        omega

theorem bindParams_length (ps : List Name) (hd : ps.Nodup) : ∀ (argc : Nat) (m : Map Nat),
    (∀ p ∈ ps, m.find p = none) → (bindParams ps argc m).length = m.length + ps.length := by
  induction ps with
  | nil => intro argc m _; rfl
  | cons p ps ih =>
    intro argc m hm
    have hd := List.nodup_cons.mp hd
    unfold bindParams
    have hp := hm p (by simp)
    rw [hp]
    rw [ih hd.2]
    · simp [Map.put]; omega
    · intro q hq
      simp only [Option.isSome_none, Bool.false_eq_true, if_false]
      rw [find_put, if_neg (fun h : p = q => hd.1 (h ▸ hq))]
      exact hm q (List.mem_cons_of_mem _ hq)

theorem bindParams_lt (ps : List Name) : ∀ (argc k : Nat) (m : Map Nat), 0 < k → argc ≤ k →
    (∀ x ∈ m, x.2 < k) → ∀ x ∈ bindParams ps argc m, x.2 < k := by
  induction ps with
  | nil => intro argc k m _ _ h; exact h
  | cons p ps ih =>
    intro argc k m hk ha h
    unfold bindParams
    refine ih _ k _ hk (by omega) ?_
    split
    · exact h
    · intro x hx
      rcases List.mem_cons.mp hx with rfl | hx
      · show argc - 1 < k; omega
      · exact h x hx

/-- The function a definition makes. -/
def mkFn (params : List Name) (body : List Char) : Fn := ⟨body, bindParams params params.length []⟩

theorem mkFn_nargs (params : List Name) (body : List Char) (hd : params.Nodup)
    (h8 : params.length ≤ 8) : (mkFn params body).nargs = params.length := by
  have h := bindParams_length params hd params.length [] (fun _ _ => rfl)
  unfold Fn.nargs mkFn
  simp only
  rw [h]
  simp only [List.length_nil, Nat.zero_add]
  rw [if_pos (by omega), Nat.mod_eq_of_lt (by omega)]

theorem env_eq (params : List Name) (args rest : List V) (outer : Name → Option V) (body : List Char)
    (hl : params.length = args.length) :
    bound (mkFn params body) (args.reverse ++ rest) outer = env params args outer := by
  funext n
  unfold bound env mkFn
  simp only
  rw [bindParams_find]
  simp only [Map.find, Option.none_or]
  have key : ∀ (ps : List Name) (as : List V), ps.length = as.length →
      ∀ k : Nat, (ps.findIdx? (fun p => decide (p = n))) = some k →
        ∃ a, as[k]? = some a ∧ ∃ p, (ps.zip as).find? (fun p => decide (p.1 = n)) = some (p, a) := by
    intro ps
    induction ps with
    | nil => intro as _ k h; cases h
    | cons p ps ih =>
      intro as hl k hk
      cases as with
      | nil => cases hl
      | cons a as =>
        rw [List.findIdx?_cons] at hk
        by_cases hp : p = n
        · simp only [hp, decide_true, if_true, Option.some.injEq] at hk
          subst hk
          exact ⟨a, rfl, p, by simp [hp]⟩
        · simp only [hp, decide_false, Bool.false_eq_true, if_false, Option.map_eq_some_iff] at hk
          obtain ⟨j, hj, rfl⟩ := hk
          obtain ⟨b, hb, q, hq⟩ := ih as (by simpa using hl) j hj
          refine ⟨b, by simpa using hb, q, ?_⟩
          simp [hp, hq]
  have key2 : ∀ (ps : List Name) (as : List V),
      (ps.findIdx? (fun p => decide (p = n))) = none →
        (ps.zip as).find? (fun p => decide (p.1 = n)) = none := by
    intro ps as h
    rw [List.find?_eq_none]
    intro x hx
    have := List.findIdx?_eq_none_iff.mp h x.1 (List.of_mem_zip hx).1
    simpa using this
  cases hk : params.findIdx? (fun p => decide (p = n)) with
  | none =>
    rw [key2 _ _ hk]
    rfl
  | some k =>
    obtain ⟨a, ha, p, hp⟩ := key params args hl k hk
    rw [hp]
    simp only [Option.map_some]
    have hk' : k < args.length := (List.getElem?_eq_some_iff.mp ha).1
    rw [List.getElem?_append_left (by simp; omega), List.getElem?_reverse (by omega)]
    rw [← ha]
    congr 1
    omega

theorem mkFn_eval (mk : (Name → Option V) → Plugins V) (radix : Radix) (params : List Name)
    (body : List Char) (args rest : List V) (outer : Name → Option V)
    (hl : params.length = args.length) :
    (mkFn params body).eval mk radix outer (args.reverse ++ rest) =
      (Eval.eval (mk (env params args outer)) body .OK radix).bind fun r =>
        .ok (if r.err = .OK then .ok r.value else .error r.err) := by
  unfold Fn.eval
  rw [env_eq _ _ _ _ _ hl]
  rw [if_pos]
  · rfl
  · rw [List.all_eq_true]
    intro x hx
    cases params with
    | nil => cases hx
    | cons p ps =>
      have := bindParams_lt (p :: ps) (p :: ps).length (p :: ps).length [] (by simp) (by omega) nofun x hx
      rw [hl] at this
      simp only [List.length_append, List.length_reverse, decide_eq_true_eq]
      omega

theorem functions_run (ops : List Spec.Op) (name : Name) :
    (run ops).functions.find name =
      (Spec.function (Spec.functions ops) name).map fun f => mkFn f.1 f.2 := by
  unfold run functions
  suffices ∀ (s : Symbols) (h : List (Name × List Name × List Char)),
      (∀ n, s.functions.find n = (Spec.function h n).map fun f => mkFn f.1 f.2) →
      ∀ n, (ops.foldl Symbols.step s).functions.find n =
        (Spec.function (ops.foldl (fun h o => match o with
          | .function name params body => h ++ [(name, params, body)]
          | .clear | .clearFunctions => []
          | .define _ => h) h) n).map fun f => mkFn f.1 f.2 from
    this _ _ (fun _ => rfl) name
  induction ops with
  | nil => intro s h hs; exact hs
  | cons o ops ih =>
    intro s h hs
    simp only [List.foldl_cons]
    cases o with
    | define d =>
      refine ih _ _ ?_
      intro n
      rw [← hs n]
      show (s.intern d.value d.name d.isVar).1.functions.find n = s.functions.find n
      unfold Symbols.intern
      split
      · rfl
      split
      · rfl
      split <;> rfl
    | clear => exact ih _ _ (fun _ => rfl)
    | clearFunctions => exact ih _ _ (fun _ => rfl)
    | function m ps b =>
      refine ih _ _ ?_
      intro n
      show (s.internFunction m ps b).1.functions.find n = _
      unfold Symbols.internFunction
      have hm := hs m
      have hn := hs n
      unfold Spec.function at hm hn ⊢
      rw [List.find?_append]
      cases hf : h.find? fun f => decide (f.1 = n) with
      | some x =>
        rw [hf] at hn
        simp only [Option.some_or]
        split
        · exact hn
        next hne =>
          simp only
          rw [find_put]
          split
          next he =>
            subst he
            rw [hn] at hne
            simp at hne
          next => exact hn
      | none =>
        rw [hf] at hn
        simp only [Option.none_or, List.find?_cons, List.find?_nil]
        by_cases he : m = n
        · subst he
          rw [hn]
          simp only [Option.map_none, Option.isSome_none, Bool.false_eq_true, if_false, decide_true,
            Option.map_some]
          rw [find_put, if_pos rfl]
          rfl
        · simp only [he, decide_false]
          split
          · exact hn
          · simp only
            rw [find_put, if_neg he]
            exact hn

/-! ### Nesting -/

/-- Names in the bodies of the functions have a smaller rank. -/
def Layered (fns : Map Fn) (rank : Name → Nat) : Prop :=
  ∀ name f, fns.find name = some f → ∀ g, fns.find g ≠ none → g <:+: f.body → rank g < rank name

/-- A name read is a part of the text. -/
def ReadsParts (P : Plugins V) : Prop :=
  ∀ t name rest, P.readFunctionName t = some (name, rest) → name <:+: t

abbrev _root_.Libasm.Eval.Plugins.withTables (P : Plugins V)
    (L : Name → Option (Int × (List V → Out (Except Err V)))) (T : Name → Option V) : Plugins V :=
  { P with lookupFunction := L, lookupSymbol := T }

theorem plugins_form (P : Plugins V) (fns : Map Fn) (radix : Radix) (d : Nat) (T : Name → Option V) :
    plugins P fns radix d T = P.withTables (plugins P fns radix d T).lookupFunction T := by
  cases d <;> rfl

theorem plugins_builtin {P : Plugins V} {name : Name} {x} (h : P.lookupFunction name = some x)
    (fns : Map Fn) (radix : Radix) (d : Nat) (T : Name → Option V) :
    (plugins P fns radix d T).lookupFunction name = some x := by
  cases d <;> simp [plugins, withFns, h]

theorem plugins_none {P : Plugins V} {name : Name} (h : P.lookupFunction name = none)
    {fns : Map Fn} (hf : fns.find name = none) (radix : Radix) (d : Nat) (T : Name → Option V) :
    (plugins P fns radix d T).lookupFunction name = none := by
  cases d <;> simp [plugins, withFns, h, hf]

theorem plugins_user {P : Plugins V} {name : Name} (h : P.lookupFunction name = none)
    {fns : Map Fn} {f : Fn} (hf : fns.find name = some f) (radix : Radix) (d : Nat)
    (T : Name → Option V) :
    (plugins P fns radix (d + 1) T).lookupFunction name =
      some (f.nargs, fun st => f.eval (plugins P fns radix d) radix T st) := by
  simp [plugins, withFns, h, hf]

theorem tables_same {P : Plugins V} (hS : ∀ L T, Suffixes (P.withTables L T))
    (hq : Quiet P.ops) (hR : ReadsParts P) {L L' : Name → Option (Int × (List V → Out (Except Err V)))}
    {T : Name → Option V} {text : List Char} (h : ∀ g, g <:+: text → L g = L' g) (err : Err)
    (radix : Radix) :
    Eval.eval (P.withTables L T) text err radix = Eval.eval (P.withTables L' T) text err radix := by
  have h1 := eval_functions (P := P.withTables L' T) (L := L) (hS L' T) hq text
    (fun t ht g rest hg => h g ((hR t g rest hg).trans ht.isInfix)) err radix
  exact h1

theorem depth_same {P : Plugins V} (hS : ∀ L T, Suffixes (P.withTables L T))
    (hq : Quiet P.ops) (hR : ReadsParts P) {fns : Map Fn} {rank : Name → Nat}
    (hL : Layered fns rank) (radix : Radix) : ∀ (r d d' : Nat) (name : Name) (f : Fn), fns.find name = some f →
      rank name ≤ r → r ≤ d → r ≤ d' → ∀ symbols st,
      f.eval (plugins P fns radix d) radix symbols st = f.eval (plugins P fns radix d') radix symbols st := by
  have hmain : ∀ (d d' : Nat) (f : Fn), (∀ T g, g <:+: f.body →
        (plugins P fns radix d T).lookupFunction g = (plugins P fns radix d' T).lookupFunction g) →
      ∀ symbols st, f.eval (plugins P fns radix d) radix symbols st =
        f.eval (plugins P fns radix d') radix symbols st := by
    intro d d' f h symbols st
    unfold Fn.eval
    rw [plugins_form P fns radix d, plugins_form P fns radix d', tables_same hS hq hR (h _)]
  intro r
  induction r with
  | zero =>
    intro d d' name f hf hr hd hd'
    refine hmain d d' f ?_
    intro T g hg
    cases hp : P.lookupFunction g with
    | some x => rw [plugins_builtin hp, plugins_builtin hp]
    | none =>
      cases hgf : fns.find g with
      | none => rw [plugins_none hp hgf, plugins_none hp hgf]
      | some x =>
        have := hL name f hf g (by rw [hgf]; nofun) hg
        omega
  | succ r ih =>
    intro d d' name f hf hr hd hd'
    refine hmain d d' f ?_
    intro T g hg
    cases hp : P.lookupFunction g with
    | some x => rw [plugins_builtin hp, plugins_builtin hp]
    | none =>
      cases hgf : fns.find g with
      | none => rw [plugins_none hp hgf, plugins_none hp hgf]
      | some x =>
        have := hL name f hf g (by rw [hgf]; nofun) hg
        obtain ⟨d, rfl⟩ : ∃ k, d = k + 1 := ⟨d - 1, by omega⟩
        obtain ⟨d', rfl⟩ : ∃ k, d' = k + 1 := ⟨d' - 1, by omega⟩
        rw [plugins_user hp hgf, plugins_user hp hgf]
        congr 2
        funext st
        exact ih d d' g x hgf (by omega) (by omega) (by omega) T st

theorem depth_ends {P : Plugins V} (hS : ∀ L T, Suffixes (P.withTables L T))
    (hq : Quiet P.ops) (hR : ReadsParts P)
    (hE : ∀ L T, (∀ name nargs f, L name = some (nargs, f) → ∀ st, (f st).Ends) →
      ∀ text err radix, (Eval.eval (P.withTables L T) text err radix).Ends)
    (hb : ∀ name nargs f, P.lookupFunction name = some (nargs, f) → ∀ st, (f st).Ends)
    {fns : Map Fn} {rank : Name → Nat}
    (hL : Layered fns rank) (radix : Radix) : ∀ (r d : Nat) (name : Name) (f : Fn), fns.find name = some f →
      rank name ≤ r → r ≤ d → ∀ symbols st,
      (f.eval (plugins P fns radix d) radix symbols st).Ends := by
  have hmain : ∀ (d : Nat) (f : Fn),
      (∀ T g x, fns.find g = some x → g <:+: f.body → P.lookupFunction g = none →
        ∀ nargs k, (plugins P fns radix d T).lookupFunction g = some (nargs, k) → ∀ st, (k st).Ends) →
      ∀ symbols st, (f.eval (plugins P fns radix d) radix symbols st).Ends := by
    intro d f hg symbols st
    unfold Fn.eval
    split
    · refine Out.Ends.bind ?_ fun _ _ => Out.ends_ok _
      generalize bound f st symbols = T
      rw [plugins_form, tables_same (L' := fun n => if n <:+: f.body then
        (plugins P fns radix d T).lookupFunction n else none) hS hq hR
        (fun g hg => by simp [hg])]
      refine hE _ _ ?_ _ _ _
      intro n nargs k h
      split at h
      case isFalse => cases h
      case isTrue hn =>
        cases hp : P.lookupFunction n with
        | some y =>
          rw [plugins_builtin hp] at h
          exact hb n nargs k (by rw [hp, h])
        | none =>
          cases hfn : fns.find n with
          | some x => exact hg T n x hfn hn hp nargs k h
          | none => rw [plugins_none hp hfn] at h; cases h
    · intro h; cases h
  intro r
  induction r with
  | zero =>
    intro d name f hf hr hd
    refine hmain d f ?_
    intro T g x hgf hgb
    have := hL name f hf g (by rw [hgf]; nofun) hgb
    omega
  | succ r ih =>
    intro d name f hf hr hd
    refine hmain d f ?_
    intro T g x hgf hgb hp nargs k hk
    have hlt := hL name f hf g (by rw [hgf]; nofun) hgb
    obtain ⟨d, rfl⟩ : ∃ k, d = k + 1 := ⟨d - 1, by omega⟩
    rw [plugins_user hp hgf] at hk
    simp only [Option.some.injEq, Prod.mk.injEq] at hk
    intro st
    rw [← hk.2]
    exact ih d g x hgf (by omega) (by omega) T st

end Libasm.Store
