import Verif.Eval.Suffix
import Verif.Eval.Styles
/-
What an evaluation leaves is the end of its text, whatever the text.
-/
namespace Libasm.Eval
open Scan Number

variable {V : Type}

/-- Plugins that leave the end of their text, also when they report an error. -/
structure Ends' (P : Plugins V) : Prop where
  suffixes : Suffixes P
  pre : ∀ s st r o rest st' r', P.ops.readPrefix s st r = .ok (o, rest, st', r') → rest <:+ s
  const : ∀ s r, (P.parseConstant s r).2.2 <:+ s

variable {P : Plugins V}

/-- The text after an iteration. -/
def Next.scan : Next V → Scan
  | .cont s => s.scan
  | .brk s => s.scan
  | .ret s _ => s.scan

theorem stepOperator_rest {s : St V} {o : Operator V} {rest : Scan} {n : Next V}
    (h : stepOperator P s o rest = .ok n) : n.scan = rest := by
  unfold stepOperator at h
  obtain ⟨a, ha, h⟩ := Out.bind_ok h
  rcases a with e | ⟨ost, vst, radix⟩
  · cases h; rfl
  · dsimp only at h
    split at h <;> cases h <;> rfl

theorem stepPunct_rest (hE : Ends' P) {s : St V} {expr scan : Scan} {n : Next V}
    (hs : scan <:+ expr) (h : stepPunct P s expr scan = .ok n) : n.scan <:+ expr := by
  unfold stepPunct at h
  split at h
  next rest hc =>
    have hr : rest <:+ expr := by
      split at hc
      · exact (expect_suffix hc).trans hs
      · cases hc
    obtain ⟨a, ha, h⟩ := Out.bind_ok h
    rcases a with e | ⟨ost, vst, radix⟩ <;> cases h <;> exact hr
  next =>
    split at h
    next rest ho =>
      have hr := (hE.suffixes.opening _ _ ho).trans hs
      split at h
      · cases h; exact hs
      · split at h <;> cases h <;> exact hr
    next =>
      split at h
      next rest hc =>
        have hr : rest <:+ expr := by
          refine List.IsSuffix.trans ?_ hs
          rw [hE.suffixes.closing _ _ hc]; exact List.suffix_cons _ _
        obtain ⟨a, ha, h⟩ := Out.bind_ok h
        rcases a with e | ⟨ost, vst, radix⟩
        · cases h; exact hr
        · cases ost with
          | nil => cases h; exact hr
          | cons p ost =>
            cases ost with
            | nil => cases h; exact hr
            | cons f ost =>
              dsimp only at h
              split at h
              · obtain ⟨b, hb, h⟩ := Out.bind_ok h
                rcases b with e | ⟨vst', radix'⟩ <;> cases h <;> exact hr
              · cases h; exact hr
      next => cases h; exact List.suffix_refl _

theorem stepSymbol_rest (hE : Ends' P) {s : St V} {expr scan : Scan} {n : Next V}
    (hs : scan <:+ expr) (h : stepSymbol P s expr scan = .ok n) : n.scan <:+ expr := by
  unfold stepSymbol at h
  split at h
  next name rest hr =>
    have hr := (hE.suffixes.symbol _ _ _ hr).trans hs
    split at h
    · cases h; exact hr
    · dsimp only at h
      split at h
      all_goals
        obtain ⟨a, ha, h⟩ := Out.bind_ok h
        cases h; exact hr
  next => exact stepPunct_rest hE hs h

theorem stepOperand_rest (hE : Ends' P) {s : St V} {expr scan : Scan} {n : Next V}
    (hs : scan <:+ expr) (h : stepOperand P s expr scan = .ok n) : n.scan <:+ expr := by
  have hc := (hE.const scan s.radix).trans hs
  unfold stepOperand at h
  split at h
  next v rest h1 =>
    rw [h1] at hc
    split at h
    · cases h; exact hc
    · obtain ⟨a, ha, h⟩ := Out.bind_ok h
      cases h; exact hc
  next =>
    split at h
    next name rest hr =>
      have hr := (skipSpaces_suffix rest).trans ((hE.suffixes.fn _ _ _ hr).trans hs)
      split at h
      next nargs f hl =>
        dsimp only at h
        split at h <;> cases h <;> exact hr
      next => exact stepSymbol_rest hE hs h
    next => exact stepSymbol_rest hE hs h
  next e v rest _ _ h1 =>
    rw [h1] at hc
    cases h; exact hc

theorem step_rest (hE : Ends' P) (hq : Quiet P.ops) {s : St V} {n : Next V}
    (h : step P s = .ok n) : n.scan <:+ s.scan := by
  have hk := skipSpaces_suffix s.scan
  unfold step at h
  dsimp only at h
  split at h
  · cases h; exact hk
  split at h
  · cases h; exact hk
  split at h
  · obtain ⟨o, rest, hr⟩ := hq (skipSpaces s.scan) s.vst s.radix
    have h1 := (hE.pre _ _ _ _ _ _ _ hr).trans hk
    rw [hr] at h
    dsimp only [Out.bind] at h
    split at h
    · cases h; exact h1
    · cases o with
      | some o =>
        rw [stepOperator_rest (s := { s with vst := s.vst }) h]; exact h1
      | none => exact stepOperand_rest hE (s := { s with vst := s.vst }) hk h
  · split at h
    next o rest hr =>
      have h1 := (hE.suffixes.inf _ _ _ hr).trans hk
      split at h
      · cases h; exact h1
      · rw [stepOperator_rest h]; exact h1
    next =>
      split at h
      · cases h; exact hk
      · exact stepPunct_rest hE hk h

theorem loop_rest (hE : Ends' P) (hq : Quiet P.ops) (fuel : Nat) :
    ∀ (s : St V) (r : Result V), loop P fuel s = .ok r → r.scan <:+ s.scan := by
  induction fuel with
  | zero => intro s r h; cases h
  | succ fuel ih =>
    intro s r h
    unfold loop at h
    obtain ⟨a, ha, h⟩ := Out.bind_ok h
    have := step_rest hE hq ha
    cases a with
    | cont s' => exact (ih _ _ h).trans this
    | brk u =>
      unfold finish at h
      obtain ⟨b, hb, h⟩ := Out.bind_ok h
      rcases b with e | ⟨vst, radix⟩ <;> cases h <;> exact this
    | ret s' v => cases h; exact this

/-- Whatever the text, the rest is the end of it. -/
theorem eval_rest (hE : Ends' P) (hq : Quiet P.ops) {text : Scan} {err : Err} {radix : Radix}
    {r : Result V} (h : eval P text err radix = .ok r) : r.scan <:+ text := by
  unfold eval evalFuel at h
  dsimp only at h
  obtain ⟨a, ha, h⟩ := Out.bind_ok h
  have := (loop_rest hE hq _ _ a ha).trans (skipSpaces_suffix text)
  cases h
  split <;> exact this

theorem pure_rest {r : Read} (hr : Leaves r) (s : Scan) (st : List Value) (radix : Radix)
    (o : Option Op) (rest : Scan) (st' : List Value) (radix' : Radix)
    (h : Eval.pure r s st radix = .ok (o, rest, st', radix')) : rest <:+ s := by
  unfold Eval.pure at h
  split at h
  · rename_i o' p hp
    cases h; exact hr _ _ _ hp
  · cases h; exact List.suffix_refl _

theorem letter_rest (s : Scan) : (defaultLetter s).2.2 <:+ s := by
  by_cases h : (defaultLetter s).1 = .OK
  · exact letter_suffix (c := (defaultLetter s).2.1) (by rw [← h])
  · unfold defaultLetter at h ⊢
    repeat' split
    all_goals first
      | exact List.suffix_refl _
      | (exfalso; simp_all)

theorem constant_rest (number : Parser) {float : Scan → Option (Err × Value × Scan)}
    (hfloat : ∀ s r, float s = some r → r.2.2 <:+ s) (delim : Char) (loc : Nat) (s : Scan)
    (r : Radix) :
    (constant defaultLetter number.parse defaultLocation float delim loc s r).2.2 <:+ s := by
  have hl := letter_rest s
  unfold constant
  split
  next c p h1 => rw [h1] at hl; exact hl
  next =>
    dsimp only
    split
    next x hx =>
      split at hx
      · exact hfloat s x hx
      · cases hx
    next =>
      split
      · exact parse_keeps number s r
      · split
        next p hp => exact location_suffix hp
        · exact List.suffix_refl _
  next => exact List.suffix_refl _

/-- The plugins of C style operators. -/
theorem c_ends (number : Parser) {float : Scan → Option (Err × Value × Scan)}
    (hfloat : ∀ s r, float s = some r → r.2.2 <:+ s) (symbols : List Char → Option Value)
    (functions : List Char → Option (Int × (List Value → Out (Except Err Value))))
    (delim : Char) (loc : Nat) : Ends' (stylePlugins number .c float symbols functions delim loc) where
  suffixes := stylePlugins_suffixes number .c (by decide) float
    (fun s v rest h => hfloat s _ h) symbols functions delim loc
  pre := fun s st r o rest st' r' h => pure_rest cPrefix_leaves s st r o rest st' r' h
  const := constant_rest number hfloat delim loc

end Libasm.Eval
