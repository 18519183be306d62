import Verif.Data.Lemmas
namespace Libasm.Data
open Scan Ctype Insn Insn.Spec Number Eval.Spec Data.Spec Value.Spec
open Eval hiding setErrorIf
open Config (setErrorIf)

theorem setErrorIf_ok (e : Err) : setErrorIf .OK e = e := by
  unfold setErrorIf; by_cases h : e = .OK <;> simp [h]

theorem Track.more {b0 b : Buf} {xs : List Nat} (h : Track b0 xs b .NO_MEMORY) (ys : List Nat) :
    Track b0 (xs ++ ys) b .NO_MEMORY := by
  have h64 : 64 < b0.length + xs.length := by
    have := h.err
    by_cases g : 64 < b0.length + xs.length
    · exact g
    · rw [if_neg g] at this; cases this
  have hu := h.fine.used
  have hl : b.length = 64 := by rw [h.length]; omega
  refine ⟨h.fine, ?_, ?_, h.address, ?_, ?_⟩
  · have hlen := congrArg List.length h.bytes
    simp only [List.length_take, h.fine.cells, hl] at hlen
    rw [h.bytes, ← List.append_assoc,
      List.take_append_of_le_length (l₁ := b0.bytes.take b0.length ++ xs) (by omega)]
  · rw [hl, List.length_append]; omega
  · rw [h.own, if_pos h64, if_pos (by rw [List.length_append]; omega)]
  · rw [if_pos (by rw [List.length_append]; omega)]

/-! ### Values -/

theorem digits_eq (n v : Nat) : digits n v = littleEndian n v := by
  induction n generalizing v with
  | zero => rfl
  | succ n ih => unfold digits littleEndian; rw [ih]

theorem littleEndian_mod (n v m : Nat) (h : 256 ^ n ∣ m) (hm : 0 < m) :
    littleEndian n (v % m) = littleEndian n v := by
  induction n generalizing v m with
  | zero => rfl
  | succ n ih =>
    obtain ⟨k, rfl⟩ := h
    have hk : 0 < 256 ^ n * k := by
      rcases Nat.eq_zero_or_pos k with rfl | hk
      · simp at hm
      · exact Nat.mul_pos (Nat.pow_pos (by decide)) hk
    have e : 256 ^ (n + 1) * k = 256 * (256 ^ n * k) := by rw [Nat.pow_succ]; ac_rfl
    unfold littleEndian
    rw [e, Nat.mod_mul_right_div_self, ih _ _ ⟨k, rfl⟩ hk, Nat.mod_mul_right_mod]

/-- The low bits of a value are those of the integer it denotes. -/
theorem bits_mod {v : Value} {x : Int} (hx : denote v = x) (m : Nat) (hm : m ∣ 4294967296) :
    v.getUnsigned % m = (x % (m : Int)).toNat := by
  have hm0 : 0 < m := Nat.pos_of_dvd_of_pos hm (by decide)
  have h1 : v.getUnsigned % m = v.bits % m := Nat.mod_mod_of_dvd _ hm
  have h2 : (x % (m : Int)) = (v.bits : Int) % m := by
    unfold denote at hx
    have hd : (m : Int) ∣ 2 ^ 64 := by
      obtain ⟨k, hk⟩ := hm
      refine ⟨k * 4294967296, ?_⟩
      rw [← Int.mul_assoc]
      rw [← Int.natCast_mul, ← hk]; rfl
    cases ht : v.type with
    | signed =>
      rw [ht] at hx
      dsimp only at hx
      obtain ⟨k, hk⟩ := hd
      rw [← hx, hk, Int.sub_mul_emod_self_left]
    | _ => rw [ht] at hx; dsimp only at hx; rw [← hx]
  rw [h1, h2, ← Int.natCast_emod, Int.toNat_natCast]

theorem littleEndian_low {v : Value} {x : Int} (hx : denote v = x) (n : Nat)
    (hm : 256 ^ n ∣ 4294967296) :
    littleEndian n (x % 256 ^ n).toNat = littleEndian n v.getUnsigned := by
  have := bits_mod hx (256 ^ n) hm
  rw [← littleEndian_mod n v.getUnsigned (256 ^ n) ⟨1, by simp⟩ (Nat.pow_pos (by decide)), this,
    Int.natCast_pow]
  rfl

theorem track_value (E : Env) (type : DataType) {val : Value} {x : Int} (hx : denote val = x)
    (hv : Valid val) {b0 b : Buf} {xs : List Nat} (h : Track b0 xs b .OK) :
    ∃ b' err, emitValue E type val b .OK = .ok (b', err) ∧
      Track b0 (xs ++ valueBytes type E.big x) b' err := by
  have key : ∀ n f v, 0 < n → width type x = n → stored type x = (x % 256 ^ n).toNat →
      256 ^ n ∣ 4294967296 → encode f val.getUnsigned = (if E.big then
        (digits n val.getUnsigned).reverse else digits n val.getUnsigned) → v = val.getUnsigned →
      ∃ b' err, emitIf b .OK f v = .ok (b', err) ∧
        Track b0 (xs ++ valueBytes type E.big x) b' err := by
    intro n f v _ hw hs hd he hvv
    subst hvv
    obtain ⟨b', err, h1, h2⟩ := track_emit h f val.getUnsigned
    refine ⟨b', err, h1, ?_⟩
    have : valueBytes type E.big x = encode f val.getUnsigned := by
      unfold valueBytes
      rw [he, hw, hs, littleEndian_low hx n hd, digits_eq]
    rw [this]; exact h2
  have word : width type x = 2 → stored type x = (x % 256 ^ 2).toNat →
      ∃ b' err, emitIf b .OK (if E.big then Form.be16 else Form.le16) val.getUnsigned = .ok (b', err) ∧
        Track b0 (xs ++ valueBytes type E.big x) b' err := by
    intro h1 h2
    exact key 2 _ _ (by decide) h1 h2 ⟨65536, rfl⟩ (by cases E.big <;> rfl) rfl
  have one : width type x = 1 → stored type x = (x % 256 ^ 1).toNat →
      ∃ b' err, emitIf b .OK .byte val.getUnsigned = .ok (b', err) ∧
        Track b0 (xs ++ valueBytes type E.big x) b' err := by
    intro h1 h2
    exact key 1 _ _ (by decide) h1 h2 ⟨16777216, rfl⟩ (by cases E.big <;> rfl) rfl
  cases type with
  | byte => exact one rfl rfl
  | byteNoString => exact one rfl rfl
  | word => exact word rfl rfl
  | wordNoString => exact word rfl rfl
  | long => exact key 4 _ _ (by decide) rfl rfl ⟨1, rfl⟩ (by cases E.big <;> rfl) rfl
  | byteOrWord =>
    have ho := (Value.C14_fixed_widths val hv).2.1
    rw [hx] at ho
    unfold emitValue
    dsimp only
    by_cases hr : -128 ≤ x ∧ x ≤ 255
    · have hw : width .byteOrWord x = 1 := by simp only [width, if_pos hr]
      rw [if_neg (fun h => (ho.mp h) ⟨by omega, by omega⟩)]
      exact one hw (by unfold stored; dsimp only; rw [hw])
    · have hw : width .byteOrWord x = 2 := by simp only [width, if_neg hr]
      rw [if_pos (ho.mpr (fun h => hr ⟨by omega, by omega⟩))]
      exact word hw (by unfold stored; dsimp only; rw [hw])
  | byteInWord =>
    have hm := bits_mod hx 256 ⟨16777216, rfl⟩
    obtain ⟨b', err, h1, h2⟩ := track_emit h (if E.big then Form.be16 else Form.le16)
      (val.getUnsigned % 256)
    refine ⟨b', err, h1, ?_⟩
    have : valueBytes .byteInWord E.big x =
        encode (if E.big then Form.be16 else Form.le16) (val.getUnsigned % 256) := by
      rw [hm]
      unfold valueBytes width stored
      cases E.big <;> simp [encode, digits_eq]
    rw [this]; exact h2

theorem valueOperand_ok (E : Env) (hE : E.endOfLine = semicolonEndOfLine) (type : DataType)
    {scan p rest : Scan} (strErr : Err) {val : Value} {x : Int} (hx : denote val = x)
    (hv : Valid val) (hp : E.parseExpr scan = .ok (val, .OK, p))
    (hs : skipSpaces p = skipSpaces rest) (hf : Follow rest) {b0 b : Buf} {xs : List Nat}
    (h : Track b0 xs b .OK) :
    ∃ b' err, valueOperand E type scan strErr b .OK = .ok (if err = .NO_MEMORY then
        .stop (skipSpaces rest) b' err else .next (skipSpaces rest) b' err) ∧
      Track b0 (xs ++ valueBytes type E.big x) b' err := by
  obtain ⟨b', err, h1, h2⟩ := track_value E type hx hv h
  refine ⟨b', err, ?_, h2⟩
  unfold valueOperand
  rw [hp, hE]
  dsimp only [Out.bind]
  have he := follow_ends hf
  have hr : semicolonEndOfLine p = semicolonEndOfLine rest := by
    unfold semicolonEndOfLine; rw [hs]
  rw [hr, if_neg (by
    intro hc
    rcases he with he | he
    · rw [he] at hc; simp at hc
    · rw [he] at hc; simp at hc), if_neg (by simp [hard]), h1]
  dsimp only [Out.bind]
  rw [setErrorIf_ok]
  rfl

/-! ### Strings -/

theorem operand_string (E : Env) (hE : E.endOfLine = semicolonEndOfLine) {delims : List Char}
    (hL : E.letters = simpleLetters delims) (type : DataType) {d : Char} (hd : Delim d)
    (hm : d ∈ delims) (hdb : d.toNat < 256) (hty : DataType.strings type = true) {sp s rest : List Char}
    (hsp : ∀ c ∈ sp, Blank c) (hs : ∀ c ∈ s, c ≠ '\x00' ∧ c.toNat < 256) (hf : Follow rest)
    {b0 b : Buf} {xs : List Nat} (h : Track b0 xs b .OK) :
    ∃ b' err, operand E type (sp ++ quoted d s ++ rest) b .OK = .ok (if err = .NO_MEMORY then
        .stop rest b' err else .next rest b' err) ∧
      Track b0 (xs ++ (s.map Char.toNat ++ fill (unit type E.wordUnit) s.length)) b' err := by
  have hr : E.letters.readLetter = defaultReadLetter := by rw [hL]; rfl
  have hq : skipSpaces (sp ++ quoted d s ++ rest) = d :: (inside d s ++ d :: rest) := by
    rw [List.append_assoc, skip_blanks hsp, quoted_eq, skip_cons (delim_space hd)]
  have hone : ∀ t, E.letters.stringDelimiter (d :: t) = some (d, t) := by
    intro t; rw [hL]; show oneOf delims (d :: t) = _; unfold oneOf; dsimp only; rw [if_pos hm]
  have hpre : ∀ t, E.letters.stringPrefix t = t := by intro t; rw [hL]; rfl
  have hstr : isString E (d :: (inside d s ++ d :: rest)) = .ok (.OK, d :: rest) := by
    unfold isString
    rw [hpre, hone]
    exact stringEnd_inside E hE hr hd hf s (fun c hc => (hs c hc).1) _ (by omega)
  obtain ⟨b1, e1, n, h1, hn, h2⟩ := letterLoop_inside E hr hdb (rest := rest) s
    (fun c hc => (hs c hc).1) (fun c hc => (hs c hc).2)
    ((inside d s ++ d :: rest).length + 1) b xs .OK 0 (by omega) h
  obtain ⟨b2, e2, h3, h4⟩ := track_pad (padding E type n) h2
  refine ⟨b2, e2, ?_, ?_⟩
  · unfold operand
    dsimp only
    rw [if_neg (by rintro (rfl | rfl) <;> cases hty), hq, hstr]
    dsimp only [Out.bind]
    rw [if_pos rfl]
    unfold generateString
    dsimp only
    rw [hpre, hone, hone]
    dsimp only
    rw [h1]
    dsimp only [Out.bind]
    rw [h3]
    dsimp only [Out.bind]
    rw [setErrorIf_ok]
  · have hpad : List.replicate (padding E type n) 0 = fill (unit type E.wordUnit) s.length := by
      unfold fill
      congr 1
      have hn' : n % 4 = s.length % 4 := by rw [hn, Nat.zero_add]
      have h2' : n % 2 = s.length % 2 := by omega
      have dflt : (if E.wordUnit = true ∧ n % 2 ≠ 0 then 1 else 0) =
          ((if E.wordUnit = true then 2 else 1) - s.length % (if E.wordUnit = true then 2 else 1)) %
            (if E.wordUnit = true then 2 else 1) := by
        cases E.wordUnit with
        | true =>
          simp only [true_and, if_true]
          split <;> omega
        | false => simp [Nat.mod_one]
      cases type with
      | word => unfold padding unit; dsimp only; split <;> omega
      | long => unfold padding unit; dsimp only; omega
      | _ => exact dflt
    rw [← hpad, ← List.append_assoc]
    exact h4

/-! ### Expressions -/

theorem writes_skip {e : Expr} {t : List Char} (h : Writes e t) :
    Writes e (skipSpaces t) ∧ ∃ c u, skipSpaces t = c :: u ∧ isSpace c = false := by
  have key : ∀ {e : Expr} {t : List Char} (c : Char) (u : List Char), Writes e t → t = c :: u →
      isSpace c = false → Writes e (skipSpaces t) ∧ ∃ c u, skipSpaces t = c :: u ∧
        isSpace c = false := by
    intro e t c u h ht hc
    subst ht
    rw [skip_cons hc]
    exact ⟨h, c, u, rfl, hc⟩
  induction h with
  | num n t h =>
    obtain ⟨c, u, rfl, hc⟩ := literal_head h
    exact key c u (.num n _ h) rfl (atom_space (.inr (.inl (digit10_decimal hc))))
  | char c h => exact key _ _ (.char c h) rfl rfl
  | quote => exact key _ _ .quote rfl rfl
  | here => exact key _ _ .here rfl rfl
  | sym name h =>
    obtain ⟨⟨c, u, rfl, hc, hu⟩, hf⟩ := h
    exact key c u (.sym _ ⟨⟨c, u, rfl, hc, hu⟩, hf⟩) rfl (atom_space (.inl hc))
  | paren e t sp h hsp ih => exact key _ _ (.paren e t sp h hsp) rfl rfl
  | un o e t h ih =>
    obtain ⟨c, u, ho, _, hc, _⟩ := unText_head o
    exact key c (u ++ t) (.un o e t h) (by rw [ho]; rfl) hc
  | bin o l r tl sp tr hl hsp hr ihl ihr =>
    obtain ⟨hw, c, u, hc, hs⟩ := ihl
    have e : skipSpaces (tl ++ sp ++ o.text ++ tr) = skipSpaces tl ++ sp ++ o.text ++ tr := by
      obtain ⟨bl, hb1, hb2⟩ := skip_split tl
      conv => lhs; rw [hb2]
      simp only [List.append_assoc]
      rw [skip_blanks hb1, hc, List.cons_append, skip_cons hs]
    rw [e]
    refine ⟨.bin o l r _ sp tr hw hsp hr, c, u ++ sp ++ o.text ++ tr, ?_, hs⟩
    rw [hc]; simp
  | blank e c t hc h ih =>
    rw [skip_blank (blank_space.mp hc)]
    exact ih

theorem skip_append {t rest : List Char} {c : Char} {u : List Char} (hc : skipSpaces t = c :: u)
    (hs : isSpace c = false) : skipSpaces (t ++ rest) = skipSpaces t ++ rest := by
  obtain ⟨bl, hb1, hb2⟩ := skip_split t
  conv => lhs; rw [hb2]
  rw [List.append_assoc, skip_blanks hb1, hc, List.cons_append, skip_cons hs]

theorem no_delimiter {E : Env} {delims : List Char} (hL : E.letters = simpleLetters delims)
    {c : Char} {t : Scan} (h : c ∉ delims) : isString E (c :: t) = .ok (.NOT_AN_EXPECTED, c :: t) := by
  unfold isString
  rw [hL]
  show (match oneOf delims (c :: t) with | none => _ | some (delim, p) => _) = _
  unfold oneOf
  dsimp only
  rw [if_neg h]

theorem operand_value (E : Env) (hE : E.endOfLine = semicolonEndOfLine) {delims : List Char}
    (hL : E.letters = simpleLetters delims) (type : DataType) {e : Expr} {t rest : List Char}
    (hw : Writes e t)
    (hq : DataType.strings type = true → ∀ c u sp, t = sp ++ c :: u → (∀ x ∈ sp, Blank x) →
      ¬ Blank c → c ∉ delims)
    {val : Value} {x : Int} {p : Scan} (hx : denote val = x) (hv : Valid val)
    (hp : E.parseExpr (skipSpaces t ++ rest) = .ok (val, .OK, p))
    (hs : skipSpaces p = skipSpaces rest) (hf : Follow rest) {b0 b : Buf} {xs : List Nat}
    (h : Track b0 xs b .OK) :
    ∃ b' err, operand E type (t ++ rest) b .OK = .ok (if err = .NO_MEMORY then
        .stop (skipSpaces rest) b' err else .next (skipSpaces rest) b' err) ∧
      Track b0 (xs ++ valueBytes type E.big x) b' err := by
  obtain ⟨_, c, u, hc, hcs⟩ := writes_skip hw
  have hsk : skipSpaces (t ++ rest) = skipSpaces t ++ rest := skip_append hc hcs
  unfold operand
  dsimp only
  rw [hsk]
  by_cases hty : type = .byteNoString ∨ type = .wordNoString
  · rw [if_pos hty]
    exact valueOperand_ok E hE type .OK hx hv hp hs hf h
  · rw [if_neg hty]
    have hstr : DataType.strings type = true := by
      cases type <;> first | rfl | (exfalso; exact hty (by simp))
    have hnd : c ∉ delims := by
      obtain ⟨bl, hb1, hb2⟩ := skip_split t
      rw [hc] at hb2
      refine hq hstr c u bl hb2 hb1 ?_
      intro hb
      rw [blank_space.mp hb] at hcs
      cases hcs
    have hi : isString E (skipSpaces t ++ rest) = .ok (.NOT_AN_EXPECTED, skipSpaces t ++ rest) := by
      rw [hc]; exact no_delimiter hL hnd
    rw [hi]
    dsimp only [Out.bind]
    rw [if_neg (by decide), if_pos rfl]
    exact valueOperand_ok E hE type .OK hx hv hp hs hf h

end Libasm.Data
