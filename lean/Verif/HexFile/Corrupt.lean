import Verif.HexFile.Text
import Verif.HexFile.Spec
/-
Helper lemmas for the corruption theorems: the result code of a decoder as a function of the
bytes a line spells.
-/
namespace Libasm.HexFile
open Libasm.Ctype Libasm.BinMemory Spec

theorem digitValue_ok {c : Char} {v : Nat} (h : digitValue c = some v) :
    isXdigit c = true ∧ parseHex c = v ∧ v < 16 := by
  have hc : c.toNat < 128 := by
    unfold digitValue at h
    have hle : ∀ a b : Char, a ≤ b ↔ a.toNat ≤ b.toNat := fun a b => Iff.rfl
    simp only [hle] at h
    have e9 : '9'.toNat = 57 := rfl
    have eF : 'F'.toNat = 70 := rfl
    have ef : 'f'.toNat = 102 := rfl
    rw [e9, eF, ef] at h
    split at h
    · omega
    · split at h
      · omega
      · split at h
        · omega
        · simp at h
  revert v
  intro v; exact ascii (p := fun c => ∀ v, digitValue c = some v →
    isXdigit c = true ∧ parseHex c = v ∧ v < 16)
    (by
      have : ∀ n < 128, ∀ v ∈ digitValue (Char.ofNat n),
        isXdigit (Char.ofNat n) = true ∧ parseHex (Char.ofNat n) = v ∧ v < 16 := by decide +kernel
      exact fun n hn v hv => this n hn v hv) c hc v

theorem hexBytes_cons {s : List Char} {b : Nat} {bs : List Nat} (h : hexBytes s = some (b :: bs)) :
    ∃ s', parseByte s = some (b, s') ∧ hexBytes s' = some bs ∧ b < 256 := by
  match s, h with
  | [], h => simp [hexBytes] at h
  | [_], h => simp [hexBytes] at h
  | c1 :: c2 :: r, h =>
    unfold hexBytes at h
    split at h
    · rename_i hv lv bs' h1 h2 h3
      simp only [Option.some.injEq, List.cons.injEq] at h
      obtain ⟨g1, g2, g3⟩ := digitValue_ok h1
      obtain ⟨k1, k2, k3⟩ := digitValue_ok h2
      refine ⟨r, ?_, by rw [h3, h.2], by omega⟩
      simp only [parseByte, g1, k1, Bool.and_self, if_true, g2, k2, Option.some.injEq,
        Prod.mk.injEq, and_true]
      omega
    · simp at h

theorem hexBytes_nil {s : List Char} (h : hexBytes s = some []) : parseByte s = none := by
  match s, h with
  | [], _ => rfl
  | [_], _ => rfl
  | c1 :: c2 :: r, h =>
    unfold hexBytes at h
    split at h <;> simp at h

theorem parseUint16_bytes {s : List Char} {a b : Nat} {bs : List Nat}
    (h : hexBytes s = some (a :: b :: bs)) :
    ∃ s', parseUint16 s = some (a * 256 + b, s') ∧ hexBytes s' = some bs ∧ a < 256 ∧ b < 256 := by
  obtain ⟨s1, h1, h2, h3⟩ := hexBytes_cons h
  obtain ⟨s2, g1, g2, g3⟩ := hexBytes_cons h2
  exact ⟨s2, by simp [parseUint16, h1, g1], g2, h3, g3⟩

theorem parseUint16_short {s : List Char} {bs : List Nat}
    (h : hexBytes s = some bs) (hl : bs.length < 2) : parseUint16 s = none := by
  match bs, h, hl with
  | [], h, _ => simp [parseUint16, hexBytes_nil h]
  | [a], h, _ =>
    obtain ⟨s1, h1, h2, _⟩ := hexBytes_cons h
    simp [parseUint16, h1, hexBytes_nil h2]

theorem parseUint24_bytes {s : List Char} {a b c : Nat} {bs : List Nat}
    (h : hexBytes s = some (a :: b :: c :: bs)) :
    ∃ s', parseUint24 s = some (a * 65536 + (b * 256 + c), s') ∧ hexBytes s' = some bs ∧
      a < 256 ∧ b < 256 ∧ c < 256 := by
  obtain ⟨s1, h1, h2, h3⟩ := hexBytes_cons h
  obtain ⟨s2, g1, g2, g3, g4⟩ := parseUint16_bytes h2
  exact ⟨s2, by simp [parseUint24, h1, g1], g2, h3, g3, g4⟩

theorem parseUint24_short {s : List Char} {bs : List Nat}
    (h : hexBytes s = some bs) (hl : bs.length < 3) : parseUint24 s = none := by
  match bs, h, hl with
  | [], h, _ => simp [parseUint24, hexBytes_nil h]
  | a :: r, h, hl =>
    obtain ⟨s1, h1, h2, _⟩ := hexBytes_cons h
    simp only [List.length_cons] at hl
    simp [parseUint24, h1, parseUint16_short h2 (by omega)]

theorem parseUint32_bytes {s : List Char} {a b c d : Nat} {bs : List Nat}
    (h : hexBytes s = some (a :: b :: c :: d :: bs)) :
    ∃ s', parseUint32 s = some ((a * 256 + b) * 65536 + (c * 256 + d), s') ∧
      hexBytes s' = some bs ∧ a < 256 ∧ b < 256 ∧ c < 256 ∧ d < 256 := by
  obtain ⟨s1, h1, h2, h3, h4⟩ := parseUint16_bytes h
  obtain ⟨s2, g1, g2, g3, g4⟩ := parseUint16_bytes h2
  exact ⟨s2, by simp [parseUint32, h1, g1], g2, h3, h4, g3, g4⟩

theorem parseUint32_short {s : List Char} {bs : List Nat}
    (h : hexBytes s = some bs) (hl : bs.length < 4) : parseUint32 s = none := by
  match bs, h, hl with
  | [], h, hl => simp [parseUint32, parseUint16_short h (by simp)]
  | [a], h, hl => simp [parseUint32, parseUint16_short h (by simp)]
  | a :: b :: r, h, hl =>
    obtain ⟨s1, h1, h2, _⟩ := parseUint16_bytes h
    simp only [List.length_cons] at hl
    simp [parseUint32, h1, parseUint16_short h2 (by omega)]

theorem readData_bytes : ∀ (n addr sum : Nat) (s : List Char) (m : Blocks) (bs : List Nat),
    hexBytes s = some bs → n ≤ bs.length → sum < 256 →
    ∃ m' s', readData n addr sum s m = (m', some ((sum + (bs.take n).sum) % 256, s')) ∧
      hexBytes s' = some (bs.drop n) := by
  intro n
  induction n with
  | zero =>
    intro addr sum s m bs h _ hs
    refine ⟨m, s, ?_, by simpa using h⟩
    simp [readData]; omega
  | succ n ih =>
    intro addr sum s m bs h hn hs
    match bs, h, hn with
    | b :: r, h, hn =>
      obtain ⟨s1, h1, h2, h3⟩ := hexBytes_cons h
      simp only [readData, h1]
      obtain ⟨m', s', g1, g2⟩ := ih (addr + 1) (addSum8 sum b) s1
        (writeByte m (addr % 2 ^ 32) (UInt8.ofNat b)) r h2 (by simpa using hn) (addSum8_lt _ _)
      refine ⟨m', s', ?_, by simpa using g2⟩
      rw [g1]
      have : (addSum8 sum b + (List.take n r).sum) % 256 =
          (sum + (List.take (n + 1) (b :: r)).sum) % 256 := by
        simp only [List.take_succ_cons, List.sum_cons, addSum8]
        omega
      rw [this]

theorem readData_short : ∀ (n addr sum : Nat) (s : List Char) (m : Blocks) (bs : List Nat),
    hexBytes s = some bs → bs.length < n →
    ∃ m', readData n addr sum s m = (m', none) := by
  intro n
  induction n with
  | zero => intro addr sum s m bs _ h; simp at h
  | succ n ih =>
    intro addr sum s m bs h hn
    match bs, h, hn with
    | [], h, _ => exact ⟨m, by simp [readData, hexBytes_nil h]⟩
    | b :: r, h, hn =>
      obtain ⟨s1, h1, h2, h3⟩ := hexBytes_cons h
      simp only [readData, h1]
      exact ih _ _ _ _ r h2 (by simpa using hn)

theorem addSum16_eq {s a b : Nat} (ha : a < 256) (hb : b < 256) :
    addSum16 s (a * 256 + b) = (s + a + b) % 256 := by
  unfold addSum16 addSum8
  rw [show (a * 256 + b) / 256 = a by omega, show (a * 256 + b) % 256 = b by omega]
  omega

theorem addSum24_eq {s a b c : Nat} (ha : a < 256) (hb : b < 256) (hc : c < 256) :
    addSum24 s (a * 65536 + (b * 256 + c)) = (s + a + b + c) % 256 := by
  unfold addSum24
  rw [show (a * 65536 + (b * 256 + c)) / 65536 = a by omega]
  unfold addSum16 addSum8
  rw [show (a * 65536 + (b * 256 + c)) / 256 % 256 = b by omega,
    show (a * 65536 + (b * 256 + c)) % 256 = c by omega]
  omega

theorem addSum32_eq {s a b c d : Nat} (ha : a < 256) (hb : b < 256) (hc : c < 256) (hd : d < 256) :
    addSum32 s ((a * 256 + b) * 65536 + (c * 256 + d)) = (s + a + b + c + d) % 256 := by
  unfold addSum32
  rw [show ((a * 256 + b) * 65536 + (c * 256 + d)) / 65536 = a * 256 + b by omega,
    addSum16_eq ha hb]
  unfold addSum16 addSum8
  rw [show ((a * 256 + b) * 65536 + (c * 256 + d)) / 256 % 256 = c by omega,
    show ((a * 256 + b) * 65536 + (c * 256 + d)) % 256 = d by omega]
  omega

theorem take_succ_sum {bs : List Nat} {n : Nat} {b : Nat} {r : List Nat} (h : bs.drop n = b :: r) :
    (bs.take (n + 1)).sum = (bs.take n).sum + b ∧ n < bs.length := by
  have hn : n < bs.length := by
    by_cases hn : n < bs.length
    · exact hn
    · rw [List.drop_eq_nil_of_le (by omega)] at h; simp at h
  have hb : bs[n] = b := by
    rw [List.drop_eq_getElem_cons hn] at h
    simp only [List.cons.injEq] at h
    exact h.1
  rw [List.take_succ_eq_append_getElem hn, List.sum_append, hb]
  simp [hn]

/-- Number of address bytes of a data record type. -/
def addrBytes (type : Char) : Nat := if type = '1' then 2 else if type = '2' then 3 else 4

/-- Result code of an S-record data line: `rest` are the bytes after the length byte. -/
def srecCode (n len : Nat) (rest : List Nat) : Int :=
  if len < n then -1
  else if rest.length < n then -1
  else if len < n + 1 then -2
  else if rest.length < len then -1
  else if (len + (rest.take len).sum) % 256 = 255 then (len - n - 1 : Nat) else -1

theorem Moto.tail_code {n len A : Nat} {sum : Nat} {pre rest : List Nat} {s : List Char} (m : Blocks)
    (h : hexBytes s = some rest) (hlen : n ≤ len) (hp : pre.length = n)
    (hsum : sum = (len + pre.sum) % 256) :
    (if len - n < 1 then ((-2 : Int), m)
      else Moto.checkEnd (len - n - 1) (readData (len - n - 1) A sum s m)).1 =
      srecCode n len (pre ++ rest) := by
  unfold srecCode
  have hl : (pre ++ rest).length = n + rest.length := by rw [List.length_append, hp]
  rw [if_neg (show ¬ len < n by omega), if_neg (show ¬ (pre ++ rest).length < n by omega)]
  by_cases h1 : len < n + 1
  · rw [if_pos (show len - n < 1 by omega), if_pos h1]
  · rw [if_neg (show ¬ len - n < 1 by omega), if_neg h1]
    by_cases h2 : rest.length < len - n - 1
    · obtain ⟨m', g⟩ := readData_short (len - n - 1) A sum s m rest h h2
      rw [g, if_pos (by simp; omega)]
      rfl
    · obtain ⟨m', s', g1, g2⟩ := readData_bytes (len - n - 1) A sum s m rest h (by omega) (by omega)
      rw [g1]
      simp only [Moto.checkEnd]
      cases hd : rest.drop (len - n - 1) with
      | nil =>
        rw [hd] at g2
        rw [hexBytes_nil g2, if_pos]
        have := congrArg List.length hd
        simp at this
        simp; omega
      | cons b r =>
        rw [hd] at g2
        obtain ⟨s2, k1, _, k3⟩ := hexBytes_cons g2
        obtain ⟨t1, t2⟩ := take_succ_sum hd
        rw [k1, if_neg (by simp; omega)]
        have htake : ((pre ++ rest).take len).sum = pre.sum + (rest.take (len - n - 1)).sum + b := by
          rw [List.take_append, hp, List.sum_append, List.take_of_length_le (by omega)]
          have t1' : (rest.take (len - n)).sum = (rest.take (len - n - 1)).sum + b := by
            have e : len - n - 1 + 1 = len - n := by omega
            rw [← t1, e]
          omega
        rw [htake]
        have hmod : (sum + (rest.take (len - n - 1)).sum) % 256 =
            (len + pre.sum + (rest.take (len - n - 1)).sum) % 256 := by omega
        rw [hmod]
        by_cases hb : (len + (pre.sum + (rest.take (len - n - 1)).sum + b)) % 256 = 255
        · rw [if_pos hb]
          simp only
          rw [if_neg (by unfold Moto.getSum; omega)]
        · rw [if_neg hb]
          simp only
          rw [if_pos (by unfold Moto.getSum; omega)]

theorem Moto.decode_code {type : Char} (ht : type = '1' ∨ type = '2' ∨ type = '3') {s : List Char}
    {len : Nat} {rest : List Nat} (h : hexBytes s = some (len :: rest)) (m : Blocks) :
    (Moto.decode ('S' :: type :: s) m).1 = srecCode (addrBytes type) len rest := by
  have h0 : Moto.decode ('S' :: type :: s) m = Moto.decodeData type s m := by
    rcases ht with rfl | rfl | rfl <;> rfl
  rw [h0]
  unfold Moto.decodeData
  obtain ⟨s1, h1, h2, h3⟩ := hexBytes_cons h
  rw [h1]
  simp only
  rcases ht with rfl | rfl | rfl
  · simp only [Moto.parseAddress, addrBytes, if_true]
    by_cases hl : len < 2
    · simp [hl, srecCode]
    · rw [if_neg hl]
      by_cases hr : rest.length < 2
      · simp [parseUint16_short h2 hr, srecCode, hr]
      · match rest, h2, hr with
        | [_], _, hr => simp at hr
        | a :: b :: r, h2, hr =>
          obtain ⟨s2, g1, g2, g3, g4⟩ := parseUint16_bytes h2
          rw [g1]
          exact Moto.tail_code m g2 (pre := [a, b]) (by omega) rfl
            (by rw [addSum16_eq g3 g4]; simp only [addSum8, List.sum_cons, List.sum_nil]; omega)
  · simp only [Moto.parseAddress, addrBytes, show ('2' = '1') = False by simp, if_true, if_false]
    by_cases hl : len < 3
    · simp [hl, srecCode]
    · rw [if_neg hl]
      by_cases hr : rest.length < 3
      · simp [parseUint24_short h2 hr, srecCode, hr]
      · match rest, h2, hr with
        | [_], _, hr => simp at hr
        | [_, _], _, hr => simp at hr
        | a :: b :: c :: r, h2, hr =>
          obtain ⟨s2, g1, g2, g3, g4, g5⟩ := parseUint24_bytes h2
          rw [g1]
          exact Moto.tail_code m g2 (pre := [a, b, c]) (by omega) rfl
            (by rw [addSum24_eq g3 g4 g5]; simp only [addSum8, List.sum_cons, List.sum_nil]; omega)
  · simp only [Moto.parseAddress, addrBytes, show ('3' = '1') = False by simp,
      show ('3' = '2') = False by simp, if_false]
    by_cases hl : len < 4
    · simp [hl, srecCode]
    · rw [if_neg hl]
      by_cases hr : rest.length < 4
      · simp [parseUint32_short h2 hr, srecCode, hr]
      · match rest, h2, hr with
        | [_], _, hr => simp at hr
        | [_, _], _, hr => simp at hr
        | [_, _, _], _, hr => simp at hr
        | a :: b :: c :: d :: r, h2, hr =>
          obtain ⟨s2, g1, g2, g3, g4, g5, g6⟩ := parseUint32_bytes h2
          rw [g1]
          exact Moto.tail_code m g2 (pre := [a, b, c, d]) (by omega) rfl
            (by rw [addSum32_eq g3 g4 g5 g6]; simp only [addSum8, List.sum_cons, List.sum_nil]; omega)

/-- Changing one byte changes the sum modulo 256. -/
theorem sum_differ : ∀ {a b : List Nat} {i : Nat}, a.length = b.length → i < a.length →
    (∀ x ∈ a, x < 256) → (∀ x ∈ b, x < 256) → a[i]? ≠ b[i]? → (∀ j, j ≠ i → a[j]? = b[j]?) →
    ∀ c, (c + a.sum) % 256 ≠ (c + b.sum) % 256 := by
  intro a
  induction a with
  | nil => intro b i _ hi; simp at hi
  | cons x xs ih =>
    intro b i hl hi ha hb hne heq c
    match b, hl with
    | y :: ys, hl =>
      simp only [List.length_cons, Nat.add_right_cancel_iff] at hl
      have hx := ha x (by simp)
      have hy := hb y (by simp)
      simp only [List.sum_cons]
      cases i with
      | zero =>
        have : xs = ys := by
          apply List.ext_getElem?
          intro j
          have := heq (j + 1) (by omega)
          simpa using this
        subst this
        have hxy : x ≠ y := by simpa using hne
        omega
      | succ i =>
        have hxy : x = y := by
          have := heq 0 (by omega)
          simpa using this
        subst hxy
        have := ih (b := ys) (i := i) hl (by simpa using hi) (fun z hz => ha z (by simp [hz]))
          (fun z hz => hb z (by simp [hz])) (by simpa using hne) (fun j hj => by
            have := heq (j + 1) (by omega)
            simpa using this) (c + x)
        rw [← Nat.add_assoc, ← Nat.add_assoc]
        exact this

theorem hexBytes_lt {s : List Char} {bs : List Nat} (h : hexBytes s = some bs) :
    ∀ b ∈ bs, b < 256 := by
  induction bs generalizing s with
  | nil => simp
  | cons b r ih =>
    obtain ⟨s', _, h2, h3⟩ := hexBytes_cons h
    intro x hx
    rcases List.mem_cons.1 hx with rfl | hx
    · exact h3
    · exact ih h2 x hx

theorem differ_take {a b : List Nat} {i n : Nat} (h : DifferAt a b i) (hi : i < n) (c : Nat)
    (ha : ∀ x ∈ a, x < 256) (hb : ∀ x ∈ b, x < 256) :
    (c + (a.take n).sum) % 256 ≠ (c + (b.take n).sum) % 256 := by
  obtain ⟨h1, h2, h3, h4⟩ := h
  apply sum_differ (i := i)
  · simp [h1]
  · simp; omega
  · intro x hx; exact ha x (List.mem_of_mem_take hx)
  · intro x hx; exact hb x (List.mem_of_mem_take hx)
  · rw [List.getElem?_take_of_lt hi, List.getElem?_take_of_lt hi]; exact h3
  · intro j hj
    by_cases hjn : j < n
    · rw [List.getElem?_take_of_lt hjn, List.getElem?_take_of_lt hjn]; exact h4 j hj
    · rw [List.getElem?_eq_none (by simp; omega), List.getElem?_eq_none (by simp; omega)]

/-! Intel HEX -/

/-- Result code of an Intel HEX line spelling `len, ah, al, type, rest`. -/
def ihexCode (len ah al type : Nat) (rest : List Nat) : Int :=
  if type = 4 then
    if rest.length < 3 then -1
    else if (len + ah + al + type + (rest.take 3).sum) % 256 = 0 then 0 else -1
  else if type ≠ 0 then 0
  else if rest.length < len + 1 then -1
  else if (len + ah + al + type + (rest.take (len + 1)).sum) % 256 = 0 then (len : Int) else -1

theorem Intel.decode_code {s : List Char} {len ah al type : Nat} {rest : List Nat} {ela : Nat}
    (h : hexBytes s = some (len :: ah :: al :: type :: rest)) (m : Blocks) :
    (Intel.decode (':' :: s) ela m).1 = ihexCode len ah al type rest := by
  obtain ⟨s1, a1, a2, a3⟩ := hexBytes_cons h
  obtain ⟨s2, b1, b2, b3, b4⟩ := parseUint16_bytes a2
  obtain ⟨s3, c1, c2, c3⟩ := hexBytes_cons b2
  unfold Intel.decode
  simp only [a1, b1, c1]
  unfold ihexCode
  have hsum : addSum8 (addSum16 (addSum8 0 len) (ah * 256 + al)) type =
      (len + ah + al + type) % 256 := by
    rw [addSum16_eq b3 b4]; simp only [addSum8]; omega
  rw [hsum]
  by_cases h4 : type = 4
  · rw [if_pos h4, if_pos h4]
    unfold Intel.decodeEla
    by_cases hr : rest.length < 2
    · rw [parseUint16_short c2 hr, if_pos (by omega)]
    · match rest, c2, hr with
      | [_], _, hr => simp at hr
      | [x, y], c2, _ =>
        obtain ⟨s4, d1, d2, _⟩ := parseUint16_bytes c2
        rw [d1]
        simp only
        rw [hexBytes_nil d2]
        simp
      | x :: y :: z :: r, c2, _ =>
        obtain ⟨s4, d1, d2, d3, d4⟩ := parseUint16_bytes c2
        obtain ⟨s5, e1, e2, e3⟩ := hexBytes_cons d2
        rw [d1]
        simp only
        rw [e1]
        have hs3 : ((x :: y :: z :: r).take 3).sum = x + (y + (z + 0)) := rfl
        rw [if_neg (show ¬ (x :: y :: z :: r).length < 3 by simp), hs3]
        simp only
        have : addSum8 (addSum16 ((len + ah + al + type) % 256) (x * 256 + y)) z =
            (len + ah + al + type + (x + (y + (z + 0)))) % 256 := by
          rw [addSum16_eq d3 d4]; simp only [addSum8]; omega
        rw [this]
        by_cases hne : (len + ah + al + type + (x + (y + (z + 0)))) % 256 = 0
        · rw [if_pos hne, if_neg (by simpa using hne)]
        · rw [if_neg hne, if_pos hne]
  · rw [if_neg h4, if_neg h4]
    by_cases h0 : type = 0
    · rw [if_neg (by simpa using h0), if_neg (by simpa using h0)]
      simp only
      by_cases hr : rest.length < len
      · obtain ⟨m', g⟩ := readData_short len (ela + (ah * 256 + al))
          ((len + ah + al + type) % 256) s3 m rest c2 hr
        rw [g, if_pos (by omega)]
        rfl
      · obtain ⟨m', s', g1, g2⟩ := readData_bytes len (ela + (ah * 256 + al))
          ((len + ah + al + type) % 256) s3 m rest c2 (by omega) (by omega)
        rw [g1]
        simp only [Intel.checkEnd]
        cases hd : rest.drop len with
        | nil =>
          rw [hd] at g2
          rw [hexBytes_nil g2, if_pos]
          have := congrArg List.length hd
          simp at this
          omega
        | cons b r =>
          rw [hd] at g2
          obtain ⟨s4, k1, _, k3⟩ := hexBytes_cons g2
          obtain ⟨t1, t2⟩ := take_succ_sum hd
          rw [k1, if_neg (by omega), t1]
          simp only
          have : addSum8 (((len + ah + al + type) % 256 + (rest.take len).sum) % 256) b =
              (len + ah + al + type + ((rest.take len).sum + b)) % 256 := by
            simp only [addSum8]; omega
          rw [this]
          by_cases hne : (len + ah + al + type + ((rest.take len).sum + b)) % 256 = 0
          · rw [if_pos hne, if_neg (by simpa using hne)]
          · rw [if_neg hne, if_pos hne]
    · rw [if_pos h0, if_pos h0]

end Libasm.HexFile
