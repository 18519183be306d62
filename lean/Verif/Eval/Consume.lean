import Verif.Eval.Loop
import Verif.Number.Parse
/-
The number, letter and symbol readers consume what they recognise.
-/
namespace Libasm.Eval
open Scan Number Ctype

theorem strLoop_length (r : Radix) (s : Scan) :
    ∀ v ovf, (strLoop r s v ovf).2.2.length ≤ s.length := by
  induction s with
  | nil => intro v ovf; exact Nat.le_refl _
  | cons c t ih =>
    intro v ovf
    unfold strLoop
    split
    · exact Nat.le_succ_of_le (ih _ _)
    · exact Nat.le_refl _

/-- `x` consumed something if it is not "no number here". -/
def Eats (s : Scan) (x : Err × Value × Scan) : Prop :=
  x.1 = .OK → x.2.2.length < s.length

theorem read_eats (r : Radix) (s : Scan) : Eats s (read r s) := by
  intro h
  unfold Number.read at h ⊢
  by_cases hd : isDigitOf r (deref s) = true
  · rw [if_pos hd] at h ⊢
    cases s with
    | nil => cases r <;> exact absurd hd (by decide)
    | cons c t =>
      have hd : isDigitOf r c = true := hd
      have hl : (strLoop r (c :: t) 0 false).2.2.length < (c :: t).length := by
        unfold strLoop
        rw [if_pos hd]
        exact Nat.lt_succ_of_le (strLoop_length r t _ _)
      revert h hl
      generalize strLoop r (c :: t) 0 false = x
      intro h hl
      obtain ⟨v, ovf, rest⟩ := x
      cases ovf with
      | true => cases h
      | false => exact hl
  · rw [if_neg hd] at h; cases h

theorem eats_advance {s p : Scan} {x : Err × Value × Scan} (hx : Eats p x)
    (hp : p.length ≤ s.length) : Eats s (advance s x) := by
  unfold advance
  split
  next h => intro hok; rw [h] at hok; cases hok
  next => intro hok; have := hx hok; omega

theorem eats_notNumber (s : Scan) : Eats s (notNumber s) := by intro h; cases h

theorem cstylePrefix_length {s p : Scan} {d r : Radix} (h : cstylePrefix s d = some (r, p)) :
    p.length ≤ s.length := by
  unfold cstylePrefix at h
  split at h
  next q hq =>
    have := iexpectText_length hq
    simp only [Option.some.injEq, Prod.mk.injEq] at h
    rw [← h.2]; omega
  next =>
    split at h
    next q hq =>
      have := iexpectText_length hq
      simp only [Option.some.injEq, Prod.mk.injEq] at h
      rw [← h.2]; omega
    next =>
      split at h
      · simp only [Option.some.injEq, Prod.mk.injEq] at h
        rw [← h.2]; exact Nat.le_refl _
      · split at h
        · simp only [Option.some.injEq, Prod.mk.injEq] at h
          rw [← h.2]; exact Nat.le_refl _
        · cases h

theorem cstyle_eats (s : Scan) (d : Radix) : Eats s (cstyleParse s d) := by
  unfold cstyleParse
  split
  · exact eats_notNumber s
  next r p hp => exact eats_advance (read_eats r p) (cstylePrefix_length hp)

theorem scanNumberEnd_length {s e : Scan} {r : Radix} {c : Char}
    (h : scanNumberEnd s r (some c) = some e) : e.length < s.length := by
  unfold scanNumberEnd at h
  split at h
  · cases h
  split at h
  · split at h
    · cases h
    · have h1 := iexpect_length h
      have h2 := dropWhile_length (isDigitOf r) s
      unfold trimStart at h1
      omega
  · cases h

theorem intelSuffix_length {s e : Scan} {r : Radix} (h : intelSuffix s = some (r, e)) :
    e.length < s.length := by
  unfold intelSuffix at h
  split at h
  next x hx => injection h with h; injection h with _ h; exact h ▸ scanNumberEnd_length hx
  split at h
  next x hx => injection h with h; injection h with _ h; exact h ▸ scanNumberEnd_length hx
  split at h
  next x hx => injection h with h; injection h with _ h; exact h ▸ scanNumberEnd_length hx
  split at h
  next x hx => injection h with h; injection h with _ h; exact h ▸ scanNumberEnd_length hx
  split at h
  next x hx => injection h with h; injection h with _ h; exact h ▸ scanNumberEnd_length hx
  cases h

theorem intelRead_eats {s e : Scan} {r : Radix} (h : e.length < s.length) :
    Eats s (intelRead s r e) := by
  unfold intelRead
  dsimp only
  split
  · exact read_eats r s
  · exact fun _ => h

theorem intel_eats (s : Scan) (d : Radix) : Eats s (intelParse s d) := by
  unfold intelParse
  split
  · exact cstyle_eats s d
  next r e he => exact intelRead_eats (intelSuffix_length he)

theorem optExpect_length {c : Option Char} {s p : Scan} (h : optExpect c s = some p) :
    p.length < s.length := by
  cases c with
  | none => cases h
  | some c => exact iexpect_length h

theorem prefixRadix_length {k : Prefixes} {s p : Scan} {r : Radix}
    (h : prefixRadix k s = some (r, p)) : p.length < s.length := by
  unfold prefixRadix at h
  split at h
  next x hx => injection h with h; injection h with _ h; exact h ▸ optExpect_length hx
  split at h
  next x hx => injection h with h; injection h with _ h; exact h ▸ optExpect_length hx
  split at h
  next x hx => injection h with h; injection h with _ h; exact h ▸ optExpect_length hx
  split at h
  next x hx => injection h with h; injection h with _ h; exact h ▸ optExpect_length hx
  cases h

theorem prefix_eats (k : Prefixes) (s : Scan) (d : Radix) : Eats s (prefixParse k s d) := by
  unfold prefixParse
  split
  · exact intel_eats s d
  next r p hp => exact eats_advance (read_eats r p) (Nat.le_of_lt (prefixRadix_length hp))

theorem zilogPrefix_length {s p : Scan} {r : Radix} (h : Number.zilogPrefix s = some (r, p)) :
    p.length ≤ s.length := by
  unfold Number.zilogPrefix at h
  split at h
  next x hx =>
    have := iexpectText_length hx
    injection h with h; injection h with _ h; subst h; omega
  split at h
  next x hx =>
    have := iexpectText_length hx
    injection h with h; injection h with _ h; subst h; omega
  split at h
  next x hx =>
    have := expect_length hx
    split at h
    · injection h with h; injection h with _ h; subst h; omega
    · cases h
  cases h

theorem zilog_eats (s : Scan) (d : Radix) : Eats s (zilogParse s d) := by
  unfold zilogParse
  split
  · exact intel_eats s d
  next r p hp => exact eats_advance (read_eats r p) (zilogPrefix_length hp)

theorem ibm_eats (k : Prefixes) (s : Scan) (d : Radix) : Eats s (ibmParse k s d) := by
  unfold ibmParse
  split
  · exact intel_eats s d
  next r p hp =>
    have h1 := prefixRadix_length hp
    split
    · exact eats_notNumber s
    next q hq =>
      have h2 := expect_length hq
      split
      · dsimp only
        split
        next y hy =>
          intro hok
          have h3 := read_eats r q hok
          have h4 := expect_length hy
          show y.length < s.length
          omega
        next => intro h; cases h
      · exact eats_notNumber s

theorem eats_drop {s : Scan} {x : Err × Value × Scan} (hx : Eats (s.drop 1) x) : Eats s x := by
  intro h
  have := hx h
  rw [List.length_drop] at this
  omega

theorem rca_eats (s : Scan) (d : Radix) : Eats s (rcaParse s d) := by
  unfold rcaParse
  split
  · dsimp only
    split
    · exact eats_drop (read_eats _ _)
    next h => intro hok; exact absurd hok h
  · exact ibm_eats _ _ _

theorem nationalPrefix_length {k : Prefixes} {s p : Scan} {r : Radix}
    (h : nationalPrefix k s = some (r, p)) : p.length < s.length := by
  unfold nationalPrefix at h
  split at h
  next x hx =>
    injection h with h; injection h with _ h; subst h
    split at hx
    · cases h1 : iexpect 'X' s with
      | none => rw [h1] at hx; exact iexpect_length hx
      | some y => rw [h1] at hx; injection hx with hx; exact hx ▸ iexpect_length h1
    · cases hx
  split at h
  next x hx =>
    injection h with h; injection h with _ h; subst h
    split at hx
    · exact iexpect_length hx
    · cases hx
  exact prefixRadix_length h

theorem national_eats (k : Prefixes) (s : Scan) (d : Radix) : Eats s (nationalParse k s d) := by
  unfold nationalParse
  split
  · exact intel_eats s d
  next r p hp =>
    have h1 := nationalPrefix_length hp
    split
    · exact eats_notNumber s
    next q hq =>
      have h2 := expect_length hq
      split
      · dsimp only
        refine eats_advance (p := q) ?_ (by omega)
        intro hok
        have h3 := read_eats r q hok
        show ((expect '\'' (read r q).2.2).getD (read r q).2.2).length < q.length
        cases h4 : expect '\'' (read r q).2.2 with
        | none => exact h3
        | some y => have := expect_length h4; show y.length < _; omega
      · exact eats_notNumber s

theorem fairchild_eats (s : Scan) (d : Radix) : Eats s (fairchildParse s d) := by
  unfold fairchildParse
  split
  · exact eats_advance (read_eats _ _) (by rw [List.length_drop]; omega)
  · exact ibm_eats _ _ _

theorem pdp11_eats (s : Scan) (d : Radix) : Eats s (pdp11Parse s d) := by
  unfold pdp11Parse
  split
  · intro _; simp only [List.length_cons]; omega
  · split
    next e he =>
      split
      · exact intel_eats _ _
      · exact intelRead_eats (scanNumberEnd_length he)
    · exact intel_eats _ _

theorem parse_eats (p : Parser) (s : Scan) (d : Radix) : Eats s (p.parse s d) := by
  cases p with
  | cstyle => exact cstyle_eats s d
  | intel => exact intel_eats s d
  | motorola => exact prefix_eats _ s d
  | zilog => exact zilog_eats s d
  | texas => exact prefix_eats _ s d
  | rca => exact rca_eats s d
  | fairchild => exact fairchild_eats s d
  | panasonic => exact ibm_eats _ s d
  | signetics => exact ibm_eats _ s d
  | ins80xx => exact national_eats _ s d
  | ns32000 => exact national_eats _ s d
  | pdp11 => exact pdp11_eats s d

theorem letter_length {s rest : Scan} {c : Nat} (h : defaultLetter s = (.OK, c, rest)) :
    rest.length < s.length := by
  unfold defaultLetter at h
  split at h
  · simp at h
  next p hp =>
    have h1 := expect_length hp
    split at h
    next q hq =>
      have h2 := expect_length hq
      split at h
      next q2 hq2 =>
        have h3 := expect_length hq2
        split at h
        next q3 hq3 =>
          have h4 := expect_length hq3
          simp only [Prod.mk.injEq] at h
          rw [← h.2.2]; omega
        next => simp at h
      next => simp at h
    next =>
      split at h
      · simp at h
      next c q =>
        split at h
        next q3 hq3 =>
          have h4 := expect_length hq3
          simp only [List.length_cons] at h1
          simp only [Prod.mk.injEq] at h
          rw [← h.2.2]; omega
        next => simp at h

theorem location_length {s rest : Scan} (h : defaultLocation s = some rest) :
    rest.length < s.length := by
  unfold defaultLocation at h
  split at h
  next p hp =>
    split at h
    · cases h
    · injection h with h; exact h ▸ expect_length hp
  next => cases h

theorem symbol_length {s rest : Scan} {name : List Char}
    (h : defaultSymbol s = some (name, rest)) : rest.length < s.length := by
  unfold defaultSymbol at h
  split at h
  · cases h
  next c t =>
    split at h
    · injection h with h
      injection h with _ h
      rw [← h]
      exact Nat.lt_succ_of_le (dropWhile_length _ t)
    · cases h

theorem constant_length (number : Parser) (float : Scan → Option (Err × Value × Scan))
    (hfloat : ∀ s v rest, float s = some (.OK, v, rest) → rest.length < s.length)
    (delim : Char) (loc : Nat) (s : Scan) (r : Radix) (v : Value) (rest : Scan)
    (h : constant defaultLetter number.parse defaultLocation float delim loc s r = (.OK, v, rest)) :
    rest.length < s.length := by
  unfold constant at h
  split at h
  next c p hl =>
    simp only [Prod.mk.injEq] at h
    rw [← h.2.2]; exact letter_length hl
  next =>
    dsimp only at h
    split at h
    next x hx =>
      split at hx
      · subst h; exact hfloat s v rest hx
      · cases hx
    next =>
      split at h
      · have h1 : (number.parse s r).1 = .OK := by rw [Prod.mk.injEq] at h; exact h.1
        have h2 := parse_eats number s r h1
        have h3 : (number.parse s r).2.2 = rest := by
          rw [Prod.mk.injEq, Prod.mk.injEq] at h; exact h.2.2
        rw [h3] at h2; exact h2
      · split at h
        next p hp =>
          simp only [Prod.mk.injEq] at h
          rw [← h.2.2]; exact location_length hp
        · simp at h
  next e x y hne hne2 _ =>
    exfalso
    rw [Prod.mk.injEq] at h
    exact hne h.1

theorem stylePlugins_consumes (number : Parser) (style : OpStyle)
    (float : Scan → Option (Err × Value × Scan))
    (hfloat : ∀ s v rest, float s = some (.OK, v, rest) → rest.length < s.length)
    (symbols : List Char → Option Value)
    (functions : List Char → Option (Int × (List Value → Out (Except Err Value))))
    (delim : Char) (loc : Nat) :
    Consumes (stylePlugins number style float symbols functions delim loc) :=
  style_consumes style _ rfl (constant_length number float hfloat delim loc)
    (fun _ _ _ => symbol_length) (fun _ _ _ => symbol_length)

end Libasm.Eval
