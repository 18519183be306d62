import Verif.Maker.Lexers
import Verif.Maker.Eval
import Verif.Eval.ExprProps
/-
The operators of the code compute the integers of the specification.
-/
namespace Libasm.Maker
open Scan Number Ctype Eval Value Value.Spec
open Eval.Spec (Fail inWord UnOp BinOp)

theorem low32 {v : Value} {x : Int} (h : Holds v x) : (v.getUnsigned : Int) = x % 2 ^ 32 := by
  have hb := bits_denote h.valid
  unfold getUnsigned
  rw [← hb, h.eq, show (M : Int) = 18446744073709551616 from rfl]
  omega

theorem unsigned_ok {n : Nat} {w : Int} (h : (n : Int) = w) (hn : n < 2 ^ 32) :
    ∃ r, unsigned n = .ok (.ok r) ∧ Holds r w := by
  subst h
  exact ⟨_, rfl, setUnsigned_holds hn⟩

theorem unok {o : Un} {v : Value} {x y z : Int} (hv : Holds v x) (h : Maker.un o x = .ok y)
    (hz : inWord y = .ok z) : ∃ w, fnU o v = .ok (.ok w) ∧ Holds w z := by
  cases o with
  | basic o => exact Eval.un_ok hv h hz
  | highByte =>
    obtain ⟨rfl, -, -⟩ := inWord_ok hz
    injection h with h
    have := low32 hv
    exact unsigned_ok (by omega) (by omega)
  | lowByte =>
    obtain ⟨rfl, -, -⟩ := inWord_ok hz
    injection h with h
    have := low32 hv
    exact unsigned_ok (by omega) (by omega)
  | highWord =>
    obtain ⟨rfl, -, -⟩ := inWord_ok hz
    injection h with h
    have := low32 hv
    exact unsigned_ok (by omega) (by omega)
  | lowWord =>
    obtain ⟨rfl, -, -⟩ := inWord_ok hz
    injection h with h
    have := low32 hv
    exact unsigned_ok (by omega) (by omega)

theorem unerr {o : Un} {x : Int} {e : Fail} (h : Maker.un o x = .error e) : e = .unspecified := by
  cases o with
  | basic o => exact Eval.un_err h
  | _ => cases h

theorem exponential_typed {a b r : Value} (h : a.exponential b = some r) : r.type ≠ .undef := by
  unfold Value.exponential at h
  split at h
  · cases hp : powerS 1 (asSigned a.bits) b.bits with
    | none => rw [hp] at h; cases h
    | some s => rw [hp] at h; injection h with h; rw [← h]; exact setS_typed _
  · injection h with h; rw [← h]; exact setU_typed _

/-- Shifts of 16 bits, on natural numbers. -/
theorem shl_nat (X n : Nat) (hX : X < 65536) :
    (if n < 16 then X <<< n else 0) % 65536 = X * 2 ^ n % 65536 := by
  split
  · rw [Nat.shiftLeft_eq]
  next h =>
    rw [show n = 16 + (n - 16) by omega, Nat.pow_add, show 2 ^ 16 = 65536 from rfl,
      Nat.mul_left_comm, Nat.mul_mod_right]

theorem shr_nat (X n : Nat) (hX : X < 65536) :
    (if n < 16 then X >>> n else 0) % 65536 = X / 2 ^ n := by
  split
  · rw [Nat.shiftRight_eq_div_pow]
    have : X / 2 ^ n ≤ X := Nat.div_le_self _ _
    exact Nat.mod_eq_of_lt (by omega)
  next h =>
    have : 2 ^ 16 ≤ 2 ^ n := Nat.pow_le_pow_right (by decide) (by omega)
    have h2 : 2 ^ 16 = 65536 := rfl
    rw [Nat.div_eq_of_lt (show X < 2 ^ n by omega)]

theorem rol_nat (X n : Nat) (hX : X < 65536) (hn : n < 16) :
    (X <<< n ||| X >>> (16 - n)) % 65536 = X * 2 ^ n % 65536 + X / 2 ^ (16 - n) := by
  have h1 : X >>> (16 - n) < 2 ^ n := by
    rw [Nat.shiftRight_eq_div_pow, Nat.div_lt_iff_lt_mul (Nat.two_pow_pos _), ← Nat.pow_add,
      show n + (16 - n) = 16 by omega]
    exact hX
  rw [← Nat.shiftLeft_add_eq_or_of_lt h1, Nat.shiftLeft_eq, Nat.shiftRight_eq_div_pow] 
  have : n = 0 ∨ n = 1 ∨ n = 2 ∨ n = 3 ∨ n = 4 ∨ n = 5 ∨ n = 6 ∨ n = 7 ∨ n = 8 ∨ n = 9 ∨ n = 10 ∨
    n = 11 ∨ n = 12 ∨ n = 13 ∨ n = 14 ∨ n = 15 := by omega
  clear h1 hn
  rcases this with h | h | h | h | h | h | h | h | h | h | h | h | h | h | h | h <;> subst h <;>
    simp only [Nat.reduceSub, Nat.reducePow] <;> omega

theorem ror_nat (X n : Nat) (hX : X < 65536) (hn : n < 16) :
    (X >>> n ||| X <<< (16 - n)) % 65536 = X / 2 ^ n + X * 2 ^ (16 - n) % 65536 := by
  have h1 : X >>> n < 2 ^ (16 - n) := by
    rw [Nat.shiftRight_eq_div_pow, Nat.div_lt_iff_lt_mul (Nat.two_pow_pos _), ← Nat.pow_add,
      show 16 - n + n = 16 by omega]
    exact hX
  rw [Nat.or_comm, ← Nat.shiftLeft_add_eq_or_of_lt h1, Nat.shiftLeft_eq, Nat.shiftRight_eq_div_pow] 
  have : n = 0 ∨ n = 1 ∨ n = 2 ∨ n = 3 ∨ n = 4 ∨ n = 5 ∨ n = 6 ∨ n = 7 ∨ n = 8 ∨ n = 9 ∨ n = 10 ∨
    n = 11 ∨ n = 12 ∨ n = 13 ∨ n = 14 ∨ n = 15 := by omega
  clear h1 hn
  rcases this with h | h | h | h | h | h | h | h | h | h | h | h | h | h | h | h <;> subst h <;>
    simp only [Nat.reduceSub, Nat.reducePow] <;> omega

theorem mul_low (x : Int) (X n : Nat) (h : (X : Int) = x % 2 ^ 16) :
    ((X * 2 ^ n % 65536 : Nat) : Int) = x * 2 ^ n % 2 ^ 16 := by
  rw [Int.natCast_emod, Int.natCast_mul, h, Int.natCast_pow]
  show x % 2 ^ 16 * 2 ^ n % 2 ^ 16 = _
  rw [Int.mul_emod, Int.emod_emod, ← Int.mul_emod]

theorem div_low (x : Int) (X n : Nat) (h : (X : Int) = x % 2 ^ 16) :
    ((X / 2 ^ n : Nat) : Int) = x % 2 ^ 16 / 2 ^ n := by
  rw [Int.natCast_ediv, h, Int.natCast_pow]
  rfl

theorem binok {o : Bin} {a b : Value} {x y z w : Int} (ha : Holds a x) (hb : Holds b y)
    (h : Maker.bin o x y = .ok z) (hw : inWord z = .ok w) :
    ∃ r, fnB o a b = .ok (.ok r) ∧ Holds r w := by
  have hA := low32 ha
  have hB := low32 hb
  have hX : ((a.getUnsigned % 65536 : Nat) : Int) = x % 2 ^ 16 := by omega
  have hX' : a.getUnsigned % 65536 < 65536 := Nat.mod_lt _ (by decide)
  cases o with
  | basic o => exact Eval.bin_ok ha hb h hw
  | power =>
    obtain ⟨rfl, l1, l2⟩ := inWord_ok hw
    unfold Maker.bin at h
    dsimp only at h
    split at h
    next h0 =>
      injection h with h
      obtain ⟨r, h1, h2, h3⟩ := C12_power_partial a b ha.valid hb.valid (by rw [hb.eq]; exact h0)
        (by rw [ha.eq, hb.eq, h]; unfold InRange; omega) (fun _ => by rw [ha.eq, hb.eq, h]; exact l2)
      exact ⟨r, by show lift (a.exponential b) = _; rw [h1]; rfl, h2, exponential_typed h1,
        by rw [h3, ha.eq, hb.eq, h], l1, l2⟩
    · cases h
  | shl16 =>
    obtain ⟨rfl, l1, l2⟩ := inWord_ok hw
    unfold Maker.bin at h
    dsimp only at h
    split at h
    next h0 =>
      injection h with h
      have hn : b.getUnsigned = y.toNat := by omega
      unfold fnB shiftLeft16
      dsimp only
      rw [shl_nat _ _ hX']
      refine unsigned_ok ?_ (Nat.lt_of_lt_of_le (Nat.mod_lt _ (by decide)) (by decide))
      rw [hn, mul_low x _ _ hX, h]
    · cases h
  | shr16 =>
    obtain ⟨rfl, l1, l2⟩ := inWord_ok hw
    unfold Maker.bin at h
    dsimp only at h
    split at h
    next h0 =>
      injection h with h
      have hn : b.getUnsigned = y.toNat := by omega
      unfold fnB shiftRight16
      dsimp only
      rw [shr_nat _ _ hX']
      refine unsigned_ok ?_ (Nat.lt_of_le_of_lt (Nat.div_le_self _ _) (Nat.lt_trans hX' (by decide)))
      rw [hn, div_low x _ _ hX, h]
    · cases h
  | rol16 =>
    obtain ⟨rfl, l1, l2⟩ := inWord_ok hw
    injection h with h
    have hn : b.getUnsigned % 16 = (y % 16).toNat := by omega
    unfold fnB rotateLeft16
    dsimp only
    have hlt : (y % 16).toNat < 16 := by omega
    have hr := rol_nat (a.getUnsigned % 65536) (y % 16).toNat hX' hlt
    rw [hn]
    refine unsigned_ok ?_ (Nat.lt_of_lt_of_le (Nat.mod_lt _ (by decide)) (by decide))
    rw [hr, Int.natCast_add, mul_low x _ _ hX, div_low x _ _ hX, h]
  | ror16 =>
    obtain ⟨rfl, l1, l2⟩ := inWord_ok hw
    injection h with h
    have hn : b.getUnsigned % 16 = (y % 16).toNat := by omega
    unfold fnB rotateRight16
    dsimp only
    have hlt : (y % 16).toNat < 16 := by omega
    have hr := ror_nat (a.getUnsigned % 65536) (y % 16).toNat hX' hlt
    rw [hn]
    refine unsigned_ok ?_ (Nat.lt_of_lt_of_le (Nat.mod_lt _ (by decide)) (by decide))
    rw [hr, Int.natCast_add, mul_low x _ _ hX, div_low x _ _ hX, h]

theorem binerr {o : Bin} {x y : Int} {e : Fail} (h : Maker.bin o x y = .error e) :
    e = .unspecified ∨ (e = .zeroDivide ∧ y = 0 ∧ (o = .basic .div ∨ o = .basic .mod)) := by
  cases o with
  | basic o =>
    rcases Eval.bin_err h with h1 | ⟨h1, h2, h3⟩
    · exact .inl h1
    · exact .inr ⟨h1, h2, by rcases h3 with rfl | rfl <;> simp⟩
  | _ =>
    unfold Maker.bin at h
    dsimp only at h
    first
    | (split at h
       · cases h
       · injection h with h; exact .inl h.symm)
    | cases h

theorem binzero {o : Bin} (ho : o = .basic .div ∨ o = .basic .mod) {a b : Value} (hb : Holds b 0) :
    fnB o a b = .ok (.error .DIVIDE_BY_ZERO) := by
  rcases ho with rfl | rfl
  · exact Eval.bin_zero (.inl rfl) hb
  · exact Eval.bin_zero (.inr rfl) hb

/-- The functions of the table look at their arguments only and compute `funs`: where `funs` gives
an integer for the arguments, they are as many as the function takes, and it returns that integer. -/
def Computes (functions : List Char → Option (Int × (List Value → Out (Except Err Value))))
    (funs : List Char → Option (List Int → Option Int)) : Prop :=
  ∀ name, match functions name with
    | none => funs name = none
    | some (n, f) => 0 ≤ n ∧
      (∀ vs st : List Value, (vs.length : Int) = n → f (vs ++ st) = f vs) ∧
      ∃ g, funs name = some g ∧ ∀ (vs : List Value) (z : Int),
        (∀ v ∈ vs, Valid v ∧ v.type ≠ .undef ∧ -2 ^ 63 < denote v ∧ denote v < 2 ^ 63) →
        g (vs.map denote) = some z → (vs.length : Int) = n ∧
          ∃ w, f vs.reverse = .ok (.ok w) ∧ Valid w ∧ w.type ≠ .undef ∧ denote w = z

section
variable {l : List (Except Fail Int × (Err → Out (Err × Option Value)))}

theorem args_ok {err : Err} {xs : List Int} :
    (∀ p ∈ l, ∀ x, p.1 = .ok x → ∃ v, p.2 err = .ok (err, some v) ∧ Holds v x) →
    allOf (l.map Prod.fst) = .ok xs → ∀ k, ∃ vs : List Value,
      meanArgs (l.map Prod.snd) err k = k vs err ∧ vs.map denote = xs ∧
      ∀ v ∈ vs, Valid v ∧ v.type ≠ .undef ∧ -2 ^ 63 < denote v ∧ denote v < 2 ^ 63 := by
  induction l generalizing xs with
  | nil =>
    intro _ h k
    injection h with h
    exact ⟨[], rfl, h, by intro v hv; cases hv⟩
  | cons p l ih =>
    intro hp h k
    obtain ⟨y, m⟩ := p
    cases y with
    | error f => cases h
    | ok x =>
      unfold allOf at h
      dsimp only [List.map] at h
      cases hr : allOf (l.map Prod.fst) with
      | error f => rw [hr] at h; cases h
      | ok ys =>
        rw [hr] at h
        injection h with h
        obtain ⟨v, hv, hh⟩ := hp _ (List.mem_cons_self ..) x rfl
        obtain ⟨vs, h1, h2, h3⟩ := ih (fun p hp' => hp p (List.mem_cons_of_mem _ hp')) hr
          (fun vs => k (v :: vs))
        refine ⟨v :: vs, ?_, ?_, ?_⟩
        · show Out.bind (m err) _ = _
          rw [show m err = _ from hv]
          exact h1
        · rw [List.map_cons, h2, hh.eq, h]
        · intro w hw
          rcases List.mem_cons.mp hw with rfl | hw
          · exact ⟨hh.valid, hh.typed, by rw [hh.eq]; exact hh.lo, by rw [hh.eq]; exact hh.hi⟩
          · exact h3 w hw

theorem args_zero (hok : ∀ p ∈ l, ∀ x, p.1 = .ok x → ∃ v, p.2 .OK = .ok (.OK, some v) ∧ Holds v x)
    (hz : ∀ p ∈ l, p.1 = .error .zeroDivide → p.2 .OK = .ok (.DIVIDE_BY_ZERO, none)) :
    allOf (l.map Prod.fst) = .error .zeroDivide → ∀ k,
      meanArgs (l.map Prod.snd) .OK k = .ok (.DIVIDE_BY_ZERO, none) := by
  induction l with
  | nil => intro h; cases h
  | cons p l ih =>
    intro h k
    obtain ⟨y, m⟩ := p
    show Out.bind (m .OK) _ = _
    cases y with
    | error f =>
      have : f = .zeroDivide := by injection h
      subst this
      rw [show m .OK = _ from hz _ (List.mem_cons_self ..) rfl]
      rfl
    | ok x =>
      unfold allOf at h
      dsimp only [List.map] at h
      obtain ⟨v, hv, hh⟩ := hok _ (List.mem_cons_self ..) x rfl
      rw [show m .OK = _ from hv]
      cases hr : allOf (l.map Prod.fst) with
      | ok ys => rw [hr] at h; cases h
      | error f =>
        rw [hr] at h
        have : f = .zeroDivide := by injection h
        subst this
        exact ih (fun p hp' => hok p (List.mem_cons_of_mem _ hp'))
          (fun p hp' => hz p (List.mem_cons_of_mem _ hp')) hr _

theorem args_undef {l : List (Err → Out (Err × Option Value))}
    (hl : ∀ m ∈ l, ∀ er v, m .UNDEFINED_SYMBOL = .ok (er, v) → er = .UNDEFINED_SYMBOL) :
    ∀ k, (∀ vs er v, k vs .UNDEFINED_SYMBOL = .ok (er, v) → er = .UNDEFINED_SYMBOL) →
    ∀ er v, meanArgs l .UNDEFINED_SYMBOL k = .ok (er, v) → er = .UNDEFINED_SYMBOL := by
  induction l with
  | nil => intro k hk er v h; exact hk _ _ _ h
  | cons m l ih =>
    intro k hk er v h
    obtain ⟨⟨e1, v1⟩, h1, h2⟩ := Out.bind_ok (show (m .UNDEFINED_SYMBOL).bind _ = _ from h)
    have := hl m (List.mem_cons_self ..) _ _ h1
    subst this
    cases v1 with
    | none => injection h2 with h2; injection h2 with h2 _; exact h2.symm
    | some w =>
      exact ih (fun p hp' => hl p (List.mem_cons_of_mem _ hp')) _ (fun vs => hk (w :: vs)) _ _ h2

theorem args_unknown
    (hok : ∀ p ∈ l, ∀ x, p.1 = .ok x → ∃ v, p.2 .OK = .ok (.OK, some v) ∧ Holds v x)
    (hun : ∀ p ∈ l, p.1 = .error .unknown → ∀ er v, p.2 .OK = .ok (er, v) → er = .UNDEFINED_SYMBOL)
    (hl : ∀ p ∈ l, ∀ er v, p.2 .UNDEFINED_SYMBOL = .ok (er, v) → er = .UNDEFINED_SYMBOL) :
    allOf (l.map Prod.fst) = .error .unknown → ∀ k,
    (∀ vs er v, k vs .UNDEFINED_SYMBOL = .ok (er, v) → er = .UNDEFINED_SYMBOL) →
    ∀ er v, meanArgs (l.map Prod.snd) .OK k = .ok (er, v) → er = .UNDEFINED_SYMBOL := by
  induction l with
  | nil => intro h; cases h
  | cons p l ih =>
    intro h k hk er v hm
    obtain ⟨y, m⟩ := p
    obtain ⟨⟨e1, v1⟩, h1, h2⟩ := Out.bind_ok (show (m .OK).bind _ = _ from hm)
    cases y with
    | error f =>
      have : f = .unknown := by injection h
      subst this
      have := hun _ (List.mem_cons_self ..) rfl _ _ h1
      subst this
      cases v1 with
      | none => injection h2 with h2; injection h2 with h2 _; exact h2.symm
      | some w =>
        refine args_undef (fun m hm er v h => ?_) _ (fun vs => hk (w :: vs)) _ _ h2
        obtain ⟨p, hp, rfl⟩ := List.mem_map.mp hm
        exact hl p (List.mem_cons_of_mem _ hp) _ _ h
    | ok x =>
      unfold allOf at h
      dsimp only [List.map] at h
      obtain ⟨a, hv, hh⟩ := hok _ (List.mem_cons_self ..) x rfl
      rw [show m .OK = _ from hv] at h1
      injection h1 with h1; injection h1 with h1 h1'
      subst h1; subst h1'
      cases hr : allOf (l.map Prod.fst) with
      | ok ys => rw [hr] at h; cases h
      | error f =>
        rw [hr] at h
        have : f = .unknown := by injection h
        subst this
        exact ih (fun p hp' => hok p (List.mem_cons_of_mem _ hp'))
          (fun p hp' => hun p (List.mem_cons_of_mem _ hp'))
          (fun p hp' => hl p (List.mem_cons_of_mem _ hp')) hr _ (fun vs => hk (a :: vs)) _ _ h2

end

section
variable {symbols : List Char → Option Value} {names : List Char → Option Int} {loc : Nat}
  {functions : List Char → Option (Int × (List Value → Out (Except Err Value)))}
  {funs : List Char → Option (List Int → Option Int)}

/-- The arguments of a call, for the code and for the specification. -/
def both (symbols : List Char → Option Value) (names : List Char → Option Int) (loc : Nat)
    (functions : List Char → Option (Int × (List Value → Out (Except Err Value))))
    (funs : List Char → Option (List Int → Option Int)) {n : Nat} (args : Fin (n + 1) → Expr) :
    List (Except Fail Int × (Err → Out (Err × Option Value))) :=
  List.ofFn fun i => ((args i).value names funs loc, Maker.mean symbols functions loc (args i))

theorem both_fst {n : Nat} (args : Fin (n + 1) → Expr) :
    (both symbols names loc functions funs args).map Prod.fst =
      List.ofFn fun i => (args i).value names funs loc := by
  unfold both; rw [List.map_ofFn]; rfl

theorem both_snd {n : Nat} (args : Fin (n + 1) → Expr) :
    (both symbols names loc functions funs args).map Prod.snd =
      List.ofFn fun i => Maker.mean symbols functions loc (args i) := by
  unfold both; rw [List.map_ofFn]; rfl

theorem both_mem {n : Nat} {args : Fin (n + 1) → Expr} {p}
    (h : p ∈ both symbols names loc functions funs args) :
    ∃ i, p = ((args i).value names funs loc, Maker.mean symbols functions loc (args i)) := by
  obtain ⟨i, rfl⟩ := List.mem_ofFn.mp h
  exact ⟨i, rfl⟩

/-- What the value of a call is. -/
theorem value_call (name : List Char) {n : Nat} (args : Fin (n + 1) → Expr) :
    (Expr.call name n args).value names funs loc = match funs name with
      | none => .error .unspecified
      | some g => match allOf (List.ofFn fun i => (args i).value names funs loc) with
        | .error f => .error f
        | .ok xs => match g xs with
          | some z => inWord z
          | none => .error .unspecified := by
  conv => lhs; unfold Expr.value
  rfl

theorem mean_call (name : List Char) {n : Nat} (args : Fin (n + 1) → Expr) (err : Err) :
    Maker.mean symbols functions loc (.call name n args) err = match functions name with
      | none => .ok (err, none)
      | some (nargs, f) =>
        meanArgs (List.ofFn fun i => Maker.mean symbols functions loc (args i)) err fun vs err =>
          Eval.mean.settle err (callFn nargs f vs) := by
  conv => lhs; unfold Maker.mean
  rfl

theorem mean_ok (hn : Named symbols names) (hF : Computes functions funs) (hloc : loc < 2 ^ 32) {e : Expr} :
    ∀ {x : Int} (err : Err), e.value names funs loc = .ok x →
      ∃ v, Maker.mean symbols functions loc e err = .ok (err, some v) ∧ Holds v x := by
  induction e with
  | num n =>
    intro x err h
    obtain ⟨rfl, l1, l2⟩ := inWord_ok h
    exact ⟨_, rfl, by show n < 2 ^ 64; omega, nofun, rfl, l1, l2⟩
  | char c =>
    intro x err h
    obtain ⟨rfl, l1, l2⟩ := inWord_ok h
    exact ⟨_, rfl, setUnsigned_holds (char_lt c)⟩
  | here =>
    intro x err h
    obtain ⟨rfl, l1, l2⟩ := inWord_ok h
    exact ⟨_, rfl, setUnsigned_holds hloc⟩
  | sym name =>
    intro x err h
    have hs := hn name
    unfold Expr.value at h
    unfold mean
    cases hv : symbols name with
    | some v =>
      rw [hv] at hs
      obtain ⟨h1, h2, h3⟩ := hs
      rw [h3] at h
      obtain ⟨rfl, l1, l2⟩ := inWord_ok h
      exact ⟨v, rfl, h1, h2, rfl, l1, l2⟩
    | none =>
      rw [hv] at hs
      rw [show names name = none from hs] at h
      cases h
  | paren e ih => intro x err h; exact ih err h
  | un o e ih =>
    intro x err h
    have h' : (e.value names funs loc).bind (fun y => (Maker.un o.does y).bind inWord) = .ok x := h
    cases he : e.value names funs loc with
    | error f => rw [he] at h'; cases h'
    | ok y =>
      rw [he] at h'
      obtain ⟨v, hv, hh⟩ := ih err he
      have h2 : (Maker.un o.does y).bind inWord = .ok x := h'
      cases hu : Maker.un o.does y with
      | error f => rw [hu] at h2; cases h2
      | ok z =>
        rw [hu] at h2
        obtain ⟨w, hw, hh'⟩ := unok hh hu h2
        refine ⟨w, ?_, hh'⟩
        show (Maker.mean symbols functions loc e err).bind _ = _
        rw [hv]
        show Eval.mean.settle err (fnU o.does v) = _
        rw [hw]
        rfl
  | bin o l r ihl ihr =>
    intro x err h
    have h' : (l.value names funs loc).bind (fun y => (r.value names funs loc).bind fun z =>
      (Maker.bin o.does y z).bind inWord) = .ok x := h
    cases hl : l.value names funs loc with
    | error f => rw [hl] at h'; cases h'
    | ok y =>
      rw [hl] at h'
      obtain ⟨a, ha, hha⟩ := ihl err hl
      have h1 : (r.value names funs loc).bind (fun z => (Maker.bin o.does y z).bind inWord) = .ok x := h'
      cases hr : r.value names funs loc with
      | error f => rw [hr] at h1; cases h1
      | ok z =>
        rw [hr] at h1
        obtain ⟨b, hb, hhb⟩ := ihr err hr
        have h2 : (Maker.bin o.does y z).bind inWord = .ok x := h1
        cases hu : Maker.bin o.does y z with
        | error f => rw [hu] at h2; cases h2
        | ok q =>
          rw [hu] at h2
          obtain ⟨w, hw, hh'⟩ := binok hha hhb hu h2
          refine ⟨w, ?_, hh'⟩
          show (Maker.mean symbols functions loc l err).bind _ = _
          rw [ha]
          show (Maker.mean symbols functions loc r err).bind _ = _
          rw [hb]
          show Eval.mean.settle err (fnB o.does a b) = _
          rw [hw]
          rfl
  | call name n args ih =>
    intro x err h
    rw [value_call] at h
    rw [mean_call]
    have hf := hF name
    cases hfun : functions name with
    | none =>
      rw [hfun] at hf
      dsimp only at hf
      rw [hf] at h
      cases h
    | some nf =>
      obtain ⟨nargs, f⟩ := nf
      rw [hfun] at hf
      obtain ⟨hn0, -, g, hg, hcomp⟩ := hf
      rw [hg] at h
      dsimp only at h ⊢
      rw [← both_fst (symbols := symbols) (functions := functions)] at h
      rw [← both_snd (names := names) (funs := funs)]
      cases hall : allOf ((both symbols names loc functions funs args).map Prod.fst) with
      | error f => rw [hall] at h; cases h
      | ok xs =>
        rw [hall] at h
        dsimp only at h
        obtain ⟨vs, h1, h2, h3⟩ := args_ok (err := err) (by
          intro p hp y hy
          obtain ⟨i, rfl⟩ := both_mem hp
          exact ih i err hy) hall (fun vs err => Eval.mean.settle err (callFn nargs f vs))
        rw [h1]
        cases hgx : g xs with
        | none => rw [hgx] at h; cases h
        | some z =>
          rw [hgx] at h
          obtain ⟨rfl, l1, l2⟩ := inWord_ok h
          obtain ⟨hlen, w, hw, w1, w2, w3⟩ := hcomp vs _ h3 (by rw [h2]; exact hgx)
          refine ⟨w, ?_, w1, w2, w3, l1, l2⟩
          unfold callFn
          rw [if_pos (.inr hlen), hw]
          rfl

theorem mean_zero (hn : Named symbols names) (hF : Computes functions funs) (hloc : loc < 2 ^ 32) {e : Expr}
    (h : e.value names funs loc = .error .zeroDivide) :
    Maker.mean symbols functions loc e .OK = .ok (.DIVIDE_BY_ZERO, none) := by
  induction e with
  | num n => exact absurd (inWord_err h) (by decide)
  | char c => exact absurd (inWord_err h) (by decide)
  | here => exact absurd (inWord_err h) (by decide)
  | sym name =>
    unfold Expr.value at h
    split at h
    · exact absurd (inWord_err h) (by decide)
    · cases h
  | paren e ih => exact ih h
  | un o e ih =>
    have h' : (e.value names funs loc).bind (fun y => (Maker.un o.does y).bind inWord) = .error .zeroDivide := h
    show (Maker.mean symbols functions loc e .OK).bind _ = _
    cases he : e.value names funs loc with
    | error f =>
      rw [he] at h'
      have : f = .zeroDivide := by injection h'
      subst this
      rw [ih he]
      rfl
    | ok y =>
      rw [he] at h'
      have h2 : (Maker.un o.does y).bind inWord = .error .zeroDivide := h'
      cases hu : Maker.un o.does y with
      | error f =>
        rw [hu] at h2
        have : f = .zeroDivide := by injection h2
        subst this
        exact absurd (unerr hu) (by decide)
      | ok z => rw [hu] at h2; exact absurd (inWord_err h2) (by decide)
  | bin o l r ihl ihr =>
    have h' : (l.value names funs loc).bind (fun y => (r.value names funs loc).bind fun z =>
      (Maker.bin o.does y z).bind inWord) = .error .zeroDivide := h
    show (Maker.mean symbols functions loc l .OK).bind _ = _
    cases hl : l.value names funs loc with
    | error f =>
      rw [hl] at h'
      have : f = .zeroDivide := by injection h'
      subst this
      rw [ihl hl]
      rfl
    | ok y =>
      rw [hl] at h'
      obtain ⟨a, ha, hha⟩ := mean_ok hn hF hloc .OK hl
      rw [ha]
      show (Maker.mean symbols functions loc r .OK).bind _ = _
      have h1 : (r.value names funs loc).bind (fun z => (Maker.bin o.does y z).bind inWord) =
        .error .zeroDivide := h'
      cases hr : r.value names funs loc with
      | error f =>
        rw [hr] at h1
        have : f = .zeroDivide := by injection h1
        subst this
        rw [ihr hr]
        rfl
      | ok z =>
        rw [hr] at h1
        obtain ⟨b, hb, hhb⟩ := mean_ok hn hF hloc .OK hr
        rw [hb]
        show Eval.mean.settle .OK (fnB o.does a b) = _
        have h2 : (Maker.bin o.does y z).bind inWord = .error .zeroDivide := h1
        cases hu : Maker.bin o.does y z with
        | error f =>
          rw [hu] at h2
          have : f = .zeroDivide := by injection h2
          subst this
          rcases binerr hu with h3 | ⟨_, rfl, ho⟩
          · cases h3
          · rw [binzero ho hhb]
            rfl
        | ok q => rw [hu] at h2; exact absurd (inWord_err h2) (by decide)
  | call name n args ih =>
    rw [value_call] at h
    rw [mean_call]
    have hf := hF name
    cases hfun : functions name with
    | none =>
      rw [hfun] at hf
      dsimp only at hf
      rw [hf] at h
      cases h
    | some nf =>
      obtain ⟨nargs, f⟩ := nf
      rw [hfun] at hf
      obtain ⟨hn0, -, g, hg, hcomp⟩ := hf
      rw [hg] at h
      dsimp only at h ⊢
      rw [← both_fst (symbols := symbols) (functions := functions)] at h
      rw [← both_snd (names := names) (funs := funs)]
      cases hall : allOf ((both symbols names loc functions funs args).map Prod.fst) with
      | error f =>
        rw [hall] at h
        have : f = .zeroDivide := by injection h
        subst this
        exact args_zero (by
          intro p hp y hy
          obtain ⟨i, rfl⟩ := both_mem hp
          exact mean_ok hn hF hloc .OK hy) (by
          intro p hp hy
          obtain ⟨i, rfl⟩ := both_mem hp
          exact ih i hy) hall _
      | ok xs =>
        rw [hall] at h
        dsimp only at h
        cases hgx : g xs with
        | none => rw [hgx] at h; cases h
        | some z => rw [hgx] at h; exact absurd (inWord_err h) (by decide)

/-- Once a symbol is undefined that stays the error. -/
theorem mean_undef {e : Expr} : ∀ {er : Err} {v : Option Value},
    Maker.mean symbols functions loc e .UNDEFINED_SYMBOL = .ok (er, v) → er = .UNDEFINED_SYMBOL := by
  induction e with
  | num n => intro er v h; injection h with h; injection h with h _; exact h.symm
  | char c => intro er v h; injection h with h; injection h with h _; exact h.symm
  | here => intro er v h; injection h with h; injection h with h _; exact h.symm
  | sym name =>
    intro er v h
    unfold mean at h
    split at h <;> (injection h with h; injection h with h _; exact h.symm)
  | paren e ih => intro er v h; exact ih h
  | un o e ih =>
    intro er v h
    obtain ⟨⟨e1, v1⟩, h1, h2⟩ := Out.bind_ok (show (Maker.mean symbols functions loc e .UNDEFINED_SYMBOL).bind _ = _
      from h)
    have := ih h1
    subst this
    cases v1 with
    | none => injection h2 with h2; injection h2 with h2 _; exact h2.symm
    | some w => exact settle_undef h2
  | bin o l r ihl ihr =>
    intro er v h
    obtain ⟨⟨e1, v1⟩, h1, h2⟩ := Out.bind_ok (show (Maker.mean symbols functions loc l .UNDEFINED_SYMBOL).bind _ = _
      from h)
    have := ihl h1
    subst this
    cases v1 with
    | none => injection h2 with h2; injection h2 with h2 _; exact h2.symm
    | some w =>
      obtain ⟨⟨e2, v2⟩, h3, h4⟩ := Out.bind_ok (show (Maker.mean symbols functions loc r .UNDEFINED_SYMBOL).bind _ = _
        from h2)
      have := ihr h3
      subst this
      cases v2 with
      | none => injection h4 with h4; injection h4 with h4 _; exact h4.symm
      | some w => exact settle_undef h4
  | call name n args ih =>
    intro er v h
    rw [mean_call] at h
    cases hfun : functions name with
    | none => rw [hfun] at h; injection h with h; injection h with h _; exact h.symm
    | some nf =>
      rw [hfun] at h
      refine args_undef (fun m hm er v h => ?_) _ (fun vs er v h => settle_undef h) _ _ h
      obtain ⟨i, rfl⟩ := List.mem_ofFn.mp hm
      exact ih i h

theorem mean_unknown (hn : Named symbols names) (hF : Computes functions funs) (hloc : loc < 2 ^ 32) {e : Expr} :
    ∀ {er : Err} {v : Option Value}, e.value names funs loc = .error .unknown →
    Maker.mean symbols functions loc e .OK = .ok (er, v) → er = .UNDEFINED_SYMBOL := by
  induction e with
  | num n => intro er v h; exact absurd (inWord_err h) (by decide)
  | char c => intro er v h; exact absurd (inWord_err h) (by decide)
  | here => intro er v h; exact absurd (inWord_err h) (by decide)
  | sym name =>
    intro er v h hm
    have hs := hn name
    unfold mean at hm
    unfold Expr.value at h
    cases hv : symbols name with
    | some w =>
      rw [hv] at hs
      rw [hs.2.2] at h
      exact absurd (inWord_err h) (by decide)
    | none =>
      rw [hv] at hm
      injection hm with hm; injection hm with hm _; exact hm.symm
  | paren e ih => intro er v h hm; exact ih h hm
  | un o e ih =>
    intro er v h hm
    have h' : (e.value names funs loc).bind (fun y => (Maker.un o.does y).bind inWord) = .error .unknown := h
    cases he : e.value names funs loc with
    | error f =>
      rw [he] at h'
      have : f = .unknown := by injection h'
      subst this
      obtain ⟨⟨e1, v1⟩, h1, h2⟩ := Out.bind_ok (show (Maker.mean symbols functions loc e .OK).bind _ = _ from hm)
      have := ih he h1
      subst this
      cases v1 with
      | none => injection h2 with h2; injection h2 with h2 _; exact h2.symm
      | some w => exact settle_undef h2
    | ok y =>
      rw [he] at h'
      have h2 : (Maker.un o.does y).bind inWord = .error .unknown := h'
      cases hu : Maker.un o.does y with
      | error f =>
        rw [hu] at h2
        have : f = .unknown := by injection h2
        subst this
        exact absurd (unerr hu) (by decide)
      | ok z => rw [hu] at h2; exact absurd (inWord_err h2) (by decide)
  | bin o l r ihl ihr =>
    intro er v h hm
    have h' : (l.value names funs loc).bind (fun y => (r.value names funs loc).bind fun z =>
      (Maker.bin o.does y z).bind inWord) = .error .unknown := h
    obtain ⟨⟨e1, v1⟩, h1, h2⟩ := Out.bind_ok (show (Maker.mean symbols functions loc l .OK).bind _ = _ from hm)
    cases hl : l.value names funs loc with
    | error f =>
      rw [hl] at h'
      have : f = .unknown := by injection h'
      subst this
      have := ihl hl h1
      subst this
      cases v1 with
      | none => injection h2 with h2; injection h2 with h2 _; exact h2.symm
      | some w =>
        obtain ⟨⟨e2, v2⟩, h3, h4⟩ := Out.bind_ok
          (show (Maker.mean symbols functions loc r .UNDEFINED_SYMBOL).bind _ = _ from h2)
        have := mean_undef h3
        subst this
        cases v2 with
        | none => injection h4 with h4; injection h4 with h4 _; exact h4.symm
        | some w => exact settle_undef h4
    | ok y =>
      rw [hl] at h'
      obtain ⟨a, ha, hha⟩ := mean_ok hn hF hloc .OK hl
      rw [ha] at h1
      injection h1 with h1; injection h1 with h1 h1'
      subst h1; subst h1'
      obtain ⟨⟨e2, v2⟩, h3, h4⟩ := Out.bind_ok
        (show (Maker.mean symbols functions loc r .OK).bind _ = _ from h2)
      have h5 : (r.value names funs loc).bind (fun z => (Maker.bin o.does y z).bind inWord) =
        .error .unknown := h'
      cases hr : r.value names funs loc with
      | error f =>
        rw [hr] at h5
        have : f = .unknown := by injection h5
        subst this
        have := ihr hr h3
        subst this
        cases v2 with
        | none => injection h4 with h4; injection h4 with h4 _; exact h4.symm
        | some w => exact settle_undef h4
      | ok z =>
        rw [hr] at h5
        have h6 : (Maker.bin o.does y z).bind inWord = .error .unknown := h5
        cases hu : Maker.bin o.does y z with
        | error f =>
          rw [hu] at h6
          have : f = .unknown := by injection h6
          subst this
          rcases binerr hu with h7 | ⟨h7, _⟩ <;> cases h7
        | ok q => rw [hu] at h6; exact absurd (inWord_err h6) (by decide)
  | call name n args ih =>
    intro er v h hm
    rw [value_call] at h
    rw [mean_call] at hm
    have hf := hF name
    cases hfun : functions name with
    | none =>
      rw [hfun] at hf
      dsimp only at hf
      rw [hf] at h
      cases h
    | some nf =>
      obtain ⟨nargs, f⟩ := nf
      rw [hfun] at hf hm
      obtain ⟨hn0, -, g, hg, hcomp⟩ := hf
      rw [hg] at h
      dsimp only at h hm
      rw [← both_fst (symbols := symbols) (functions := functions)] at h
      rw [← both_snd (names := names) (funs := funs)] at hm
      cases hall : allOf ((both symbols names loc functions funs args).map Prod.fst) with
      | error f =>
        rw [hall] at h
        have : f = .unknown := by injection h
        subst this
        exact args_unknown (by
          intro p hp y hy
          obtain ⟨i, rfl⟩ := both_mem hp
          exact mean_ok hn hF hloc .OK hy) (by
          intro p hp hy er v h
          obtain ⟨i, rfl⟩ := both_mem hp
          exact ih i hy h) (by
          intro p hp er v h
          obtain ⟨i, rfl⟩ := both_mem hp
          exact mean_undef h) hall _ (fun vs er v h => settle_undef h) _ _ hm
      | ok xs =>
        rw [hall] at h
        dsimp only at h
        cases hgx : g xs with
        | none => rw [hgx] at h; cases h
        | some z => rw [hgx] at h; exact absurd (inWord_err h) (by decide)

end

end Libasm.Maker
