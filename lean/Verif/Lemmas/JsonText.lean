import Verif.Model.JsonText
import Verif.Spec.JsonText
import Verif.Lemmas.Json

/-! Lemmas on the text layer of JSON. -/

namespace Metro2

/-! ### Bytes -/

theorem c_quote : '"'.toNat.toUInt8 = 34 := rfl
theorem c_back : '\\'.toNat.toUInt8 = 92 := rfl
theorem c_u : 'u'.toNat.toUInt8 = 117 := rfl
theorem c_comma : ','.toNat.toUInt8 = 44 := rfl
theorem c_colon : ':'.toNat.toUInt8 = 58 := rfl
theorem c_lbrack : '['.toNat.toUInt8 = 91 := rfl
theorem c_rbrack : ']'.toNat.toUInt8 = 93 := rfl
theorem c_lbrace : '{'.toNat.toUInt8 = 123 := rfl
theorem c_rbrace : '}'.toNat.toUInt8 = 125 := rfl
theorem c_zero : '0'.toNat.toUInt8 = 48 := rfl
theorem c_dot : '.'.toNat.toUInt8 = 46 := rfl
theorem c_plus : '+'.toNat.toUInt8 = 43 := rfl
theorem c_minus : '-'.toNat.toUInt8 = 45 := rfl
theorem c_e : 'e'.toNat.toUInt8 = 101 := rfl
theorem c_E : 'E'.toNat.toUInt8 = 69 := rfl

/-! ### White space -/

theorem jsonSpace_iff (c : UInt8) : jsonSpace c = true ↔
    (c = ' '.toNat.toUInt8 ∨ c = '\t'.toNat.toUInt8 ∨ c = '\n'.toNat.toUInt8 ∨ c = '\r'.toNat.toUInt8) := by
  show _ ↔ (c = 32 ∨ c = 9 ∨ c = 10 ∨ c = 13)
  simp only [jsonSpace, Bool.or_eq_true, beq_iff_eq]
  constructor
  · rintro (((h | h) | h) | h) <;> simp [h]
  · rintro (h | h | h | h) <;> simp [h]

theorem skipSpace_append {w : Bytes} (hw : Spec.Space w) (s : Bytes) : skipSpace (w ++ s) = skipSpace s := by
  unfold skipSpace
  rw [List.dropWhile_append_of_pos]
  intro c hc
  exact (jsonSpace_iff c).2 (hw c hc)

theorem skipSpace_cons {c : UInt8} (h : jsonSpace c = false) (s : Bytes) : skipSpace (c :: s) = c :: s := by
  unfold skipSpace
  rw [List.dropWhile_cons, if_neg (by simp [h])]

theorem skipSpace_split (s : Bytes) : ∃ w, Spec.Space w ∧ s = w ++ skipSpace s := by
  refine ⟨s.takeWhile jsonSpace, ?_, (List.takeWhile_append_dropWhile).symm⟩
  intro c hc
  exact (jsonSpace_iff c).1 (by have := List.all_takeWhile (p := jsonSpace) (l := s); exact List.all_eq_true.1 this c hc)

theorem skipSpace_head {s : Bytes} {c : UInt8} {r : Bytes} (h : skipSpace s = c :: r) : jsonSpace c = false := by
  have := List.head?_dropWhile_not jsonSpace s
  unfold skipSpace at h
  rw [h] at this
  simpa using this

theorem skipSpace_length (s : Bytes) : (skipSpace s).length ≤ s.length := (List.dropWhile_sublist _).length_le

/-! ### Hexadecimal digits -/

theorem hexVal_iff (c : UInt8) (n : Nat) : hexVal c = some n ↔ Spec.HexDigit c n := by
  show _ ↔ ((n < 10 ∧ c.toNat = 48 + n) ∨ (10 ≤ n ∧ n < 16 ∧ (c.toNat = 97 + (n - 10) ∨ c.toNat = 65 + (n - 10))))
  unfold hexVal
  have h1 : (48 ≤ c ∧ c ≤ 57) ↔ (48 ≤ c.toNat ∧ c.toNat ≤ 57) := by simp [UInt8.le_iff_toNat_le]
  have h2 : (97 ≤ c ∧ c ≤ 102) ↔ (97 ≤ c.toNat ∧ c.toNat ≤ 102) := by simp [UInt8.le_iff_toNat_le]
  have h3 : (65 ≤ c ∧ c ≤ 70) ↔ (65 ≤ c.toNat ∧ c.toNat ≤ 70) := by simp [UInt8.le_iff_toNat_le]
  simp only [h1, h2, h3]
  split
  · simp only [Option.some.injEq]; omega
  split
  · simp only [Option.some.injEq]; omega
  split
  · simp only [Option.some.injEq]; omega
  · simp only [reduceCtorEq, false_iff]; omega

theorem hexFour_some {s : Bytes} {u : Nat} {r : Bytes} (h : hexFour s = some (u, r)) :
    ∃ a b c d w x y z, s = a :: b :: c :: d :: r ∧ Spec.HexDigit a w ∧ Spec.HexDigit b x ∧ Spec.HexDigit c y ∧ Spec.HexDigit d z ∧
      u = ((w * 16 + x) * 16 + y) * 16 + z := by
  match s, h with
  | a :: b :: c :: d :: rest, h =>
    simp only [hexFour] at h
    split at h
    · next w x y z hw hx hy hz =>
      cases h
      exact ⟨a, b, c, d, w, x, y, z, rfl, (hexVal_iff ..).1 hw, (hexVal_iff ..).1 hx, (hexVal_iff ..).1 hy, (hexVal_iff ..).1 hz, by omega⟩
    · cases h

theorem hexFour_of {a b c d : UInt8} {w x y z : Nat} (ha : Spec.HexDigit a w) (hb : Spec.HexDigit b x) (hc : Spec.HexDigit c y)
    (hd : Spec.HexDigit d z) (r : Bytes) : hexFour (a :: b :: c :: d :: r) = some (((w * 16 + x) * 16 + y) * 16 + z, r) := by
  simp only [hexFour, (hexVal_iff ..).2 ha, (hexVal_iff ..).2 hb, (hexVal_iff ..).2 hc, (hexVal_iff ..).2 hd, Option.some.injEq, Prod.mk.injEq,
    and_true]
  omega

theorem escapedUnit_iff (s : Bytes) (u : Nat) (r : Bytes) : escapedUnit s = some (u, r) ↔ ∃ a, s = a ++ r ∧ Spec.UnitEscape a u := by
  constructor
  · intro h
    unfold escapedUnit at h
    split at h
    · obtain ⟨a, b, c, d, w, x, y, z, rfl, h1, h2, h3, h4, h5⟩ := hexFour_some h
      exact ⟨[92, 117, a, b, c, d], rfl, a, b, c, d, w, x, y, z, rfl, h1, h2, h3, h4, h5⟩
    · cases h
  · rintro ⟨_, rfl, a, b, c, d, w, x, y, z, rfl, h1, h2, h3, h4, rfl⟩
    exact hexFour_of h1 h2 h3 h4 r

theorem hexDigit_lt {c : UInt8} {n : Nat} (h : Spec.HexDigit c n) : n < 16 := by
  rcases h with h | h <;> omega

theorem unitEscape_lt {s : Bytes} {u : Nat} (h : Spec.UnitEscape s u) : u < 0x10000 := by
  obtain ⟨a, b, c, d, w, x, y, z, rfl, h1, h2, h3, h4, rfl⟩ := h
  have := hexDigit_lt h1; have := hexDigit_lt h2; have := hexDigit_lt h3; have := hexDigit_lt h4
  omega

theorem unitEscape_length {s : Bytes} {u : Nat} (h : Spec.UnitEscape s u) : s.length = 6 := by
  obtain ⟨a, b, c, d, w, x, y, z, rfl, h1, h2, h3, h4, rfl⟩ := h
  rfl

theorem hexDigit_ne_quote {c : UInt8} {n : Nat} (h : Spec.HexDigit c n) : c ≠ 34 := by
  rintro rfl
  have h : (n < 10 ∧ 34 = 48 + n) ∨ (10 ≤ n ∧ n < 16 ∧ (34 = 97 + (n - 10) ∨ 34 = 65 + (n - 10))) := h
  omega

theorem unitEscape_no_quote {s : Bytes} {u : Nat} (h : Spec.UnitEscape s u) : (34 : UInt8) ∉ s := by
  obtain ⟨a, b, c, d, w, x, y, z, rfl, h1, h2, h3, h4, rfl⟩ := h
  have e1 := hexDigit_ne_quote h1; have e2 := hexDigit_ne_quote h2; have e3 := hexDigit_ne_quote h3; have e4 := hexDigit_ne_quote h4
  rw [c_back, c_u]
  simp only [List.mem_cons, List.not_mem_nil, or_false, not_or]
  exact ⟨by decide, by decide, e1.symm, e2.symm, e3.symm, e4.symm⟩

/-! ### Characters -/

theorem encode_cases (c : Char) : (c.toNat < 128 ∧ String.utf8EncodeChar c = [UInt8.ofNat c.toNat]) ∨
    (128 ≤ c.toNat ∧ ∀ b ∈ String.utf8EncodeChar c, 128 ≤ b) := by
  have hb := char_bound c
  unfold String.utf8EncodeChar
  simp only [show c.val.toNat = c.toNat from rfl]
  generalize c.toNat = v at hb
  have key : ∀ n, 128 ≤ n → n < 256 → (128 : UInt8) ≤ UInt8.ofNat n := by
    intro n h1 h2
    rw [UInt8.le_iff_toNat_le, UInt8.toNat_ofNat_of_lt' h2]
    exact h1
  by_cases h1 : v ≤ 0x7f
  · left; rw [if_pos h1]; exact ⟨by omega, rfl⟩
  right
  refine ⟨by omega, ?_⟩
  rw [if_neg h1]
  by_cases h2 : v ≤ 0x7ff
  · rw [if_pos h2]
    simp only [List.mem_cons, List.not_mem_nil, or_false]
    rintro b (rfl | rfl) <;> exact key _ (by omega) (by omega)
  rw [if_neg h2]
  by_cases h3 : v ≤ 0xffff
  · rw [if_pos h3]
    simp only [List.mem_cons, List.not_mem_nil, or_false]
    rintro b (rfl | rfl | rfl) <;> exact key _ (by omega) (by omega)
  · rw [if_neg h3]
    simp only [List.mem_cons, List.not_mem_nil, or_false]
    rintro b (rfl | rfl | rfl | rfl) <;> exact key _ (by omega) (by omega)

theorem appendRune_eq (c : Char) : appendRune c.toNat = String.utf8EncodeChar c := by
  have hb := char_bound c
  unfold String.utf8EncodeChar appendRune
  simp only [show c.val.toNat = c.toNat from rfl]
  generalize c.toNat = v at hb
  by_cases h1 : v ≤ 0x7f
  · rw [if_pos h1, if_pos (by omega)]
  rw [if_neg h1, if_neg (by omega)]
  by_cases h2 : v ≤ 0x7ff
  · rw [if_pos h2, if_pos (by omega)]
    simp only [List.cons.injEq, and_true]
    refine ⟨congrArg _ ?_, congrArg _ ?_⟩ <;> omega
  rw [if_neg h2, if_neg (by omega)]
  by_cases h3 : v ≤ 0xffff
  · rw [if_pos h3, if_pos (by omega)]
    simp only [List.cons.injEq, and_true]
    refine ⟨congrArg _ ?_, congrArg _ ?_, congrArg _ ?_⟩ <;> omega
  · rw [if_neg h3, if_neg (by omega)]
    simp only [List.cons.injEq, and_true]
    refine ⟨congrArg _ ?_, congrArg _ ?_, congrArg _ ?_, congrArg _ ?_⟩ <;> omega

theorem runeError_eq : runeError = String.utf8EncodeChar '\uFFFD' := by decide

theorem readChars_quote (fuel : Nat) (s : Bytes) : readChars (fuel + 1) (34 :: s) = some ([], s) := by
  simp [readChars]

theorem readChars_plain {c : Char} (h : 0x20 ≤ c.toNat) (hq : c ≠ '"') (hb : c ≠ '\\') (fuel : Nat) (s : Bytes) :
    readChars (fuel + 1) (String.utf8EncodeChar c ++ s) = prepend (String.utf8EncodeChar c) (readChars fuel s) := by
  have hw := runeWidth_encode c s
  rcases encode_cases c with ⟨h1, h2⟩ | ⟨h1, h2⟩
  · rw [h2]
    have hn : (UInt8.ofNat c.toNat).toNat = c.toNat := UInt8.toNat_ofNat_of_lt' (by show c.toNat < 256; omega)
    have e1 : UInt8.ofNat c.toNat ≠ 34 := by
      intro he
      refine hq (Char.toNat_inj.1 ?_)
      rw [← hn, he]; rfl
    have e2 : UInt8.ofNat c.toNat ≠ 92 := by
      intro he
      refine hb (Char.toNat_inj.1 ?_)
      rw [← hn, he]; rfl
    have e3 : ¬ UInt8.ofNat c.toNat < 32 := by rw [UInt8.lt_iff_toNat_lt, hn]; exact Nat.not_lt.2 h
    have e4 : UInt8.ofNat c.toNat < 128 := by rw [UInt8.lt_iff_toNat_lt, hn]; exact h1
    rw [List.singleton_append, readChars, if_neg e1, if_neg e2, if_neg e3, if_pos e4]
  · cases he : String.utf8EncodeChar c with
    | nil => exact absurd he (encode_ne_nil c)
    | cons a l =>
      have ha := h2 a (by rw [he]; exact List.mem_cons_self)
      have ha' : 128 ≤ a.toNat := UInt8.le_iff_toNat_le.1 ha
      have e1 : a ≠ 34 := by rintro rfl; exact absurd ha' (by decide)
      have e2 : a ≠ 92 := by rintro rfl; exact absurd ha' (by decide)
      have e3 : ¬ a < 32 := by rw [UInt8.lt_iff_toNat_lt]; simp; omega
      have e4 : ¬ a < 128 := by rw [UInt8.lt_iff_toNat_lt]; simp; omega
      have e5 : runeWidth (a :: (l ++ s)) ≠ 1 := by
        rw [← List.cons_append, ← he, hw]
        intro h1
        have := encode_single (c := c) (a := a)
        rw [he] at h1 this
        have hl : l = [] := by simpa using h1
        exact e4 (this (by rw [hl]))
      rw [List.cons_append, readChars, if_neg e1, if_neg e2, if_neg e3, if_neg e4, if_neg e5]
      rw [← List.cons_append, ← he, hw, List.drop_left, List.take_left]

theorem readChars_short {c e : Char} (h : (c, e) ∈ Spec.shortEscapes) (fuel : Nat) (s : Bytes) :
    readChars (fuel + 1) (92 :: e.toNat.toUInt8 :: s) = prepend (String.utf8EncodeChar c) (readChars fuel s) := by
  have key : e.toNat.toUInt8 ≠ 117 ∧ ∃ b, shortEscape e.toNat.toUInt8 = some b ∧ String.utf8EncodeChar c = [b] := by
    simp only [Spec.shortEscapes, List.mem_cons, Prod.mk.injEq, List.not_mem_nil, or_false] at h
    rcases h with ⟨rfl, rfl⟩ | ⟨rfl, rfl⟩ | ⟨rfl, rfl⟩ | ⟨rfl, rfl⟩ | ⟨rfl, rfl⟩ | ⟨rfl, rfl⟩ | ⟨rfl, rfl⟩ | ⟨rfl, rfl⟩ <;>
      exact ⟨by decide, _, rfl, by decide⟩
  obtain ⟨h1, b, h2, h3⟩ := key
  rw [readChars, if_neg (by decide), if_pos rfl, h3]
  simp only [readEscape, if_neg h1, h2]

theorem readChars_unit {a : Bytes} {u : Nat} (h : Spec.UnitEscape a u) (fuel : Nat) (s : Bytes) :
    readChars (fuel + 1) (a ++ s) = prepend (unitChar u s).1 (readChars fuel (unitChar u s).2) := by
  obtain ⟨a, b, c, d, w, x, y, z, rfl, h1, h2, h3, h4, rfl⟩ := h
  rw [c_back, c_u]
  simp only [List.cons_append, List.nil_append]
  rw [readChars, if_neg (by decide), if_pos rfl]
  simp only [readEscape, if_pos]
  rw [hexFour_of h1 h2 h3 h4]

theorem readChars_invalid {b : UInt8} {s : Bytes} (h : ∀ c : Char, ¬ String.utf8EncodeChar c <+: b :: s) (fuel : Nat) :
    readChars (fuel + 1) (b :: s) = prepend (String.utf8EncodeChar '\uFFFD') (readChars fuel s) := by
  have hb : 128 ≤ b.toNat := by
    apply Classical.byContradiction
    intro hn
    refine h (charOf b.toNat (by omega)) ⟨s, ?_⟩
    rcases encode_cases (charOf b.toNat (by omega)) with ⟨h1, h2⟩ | ⟨h1, h2⟩
    · rw [h2, show (charOf b.toNat (by omega)).toNat = b.toNat from charOf_toNat ..]
      simp
    · rw [show (charOf b.toNat (by omega)).toNat = b.toNat from charOf_toNat ..] at h1
      omega
  have e1 : b ≠ 34 := by rintro rfl; exact absurd hb (by decide)
  have e2 : b ≠ 92 := by rintro rfl; exact absurd hb (by decide)
  have e3 : ¬ b < 32 := by rw [UInt8.lt_iff_toNat_lt]; simp; omega
  have e4 : ¬ b < 128 := by rw [UInt8.lt_iff_toNat_lt]; simp; omega
  rw [readChars, if_neg e1, if_neg e2, if_neg e3, if_neg e4, if_pos (runeWidth_invalid h), ← runeError_eq]

theorem encode_quote {c : Char} (h : (34 : UInt8) ∈ String.utf8EncodeChar c) : String.utf8EncodeChar c = [34] := by
  rcases encode_cases c with ⟨_, h2⟩ | ⟨_, h2⟩
  · rw [h2] at h ⊢; rw [List.mem_singleton.1 h]
  · exact absurd (h2 _ h) (by decide)

/-- A byte that begins no character still begins none if a quote is put after the text. -/
theorem invalid_append {b : UInt8} {t : Bytes} (h : ∀ c : Char, ¬ String.utf8EncodeChar c <+: b :: t) (r : Bytes) :
    ∀ c : Char, ¬ String.utf8EncodeChar c <+: b :: (t ++ 34 :: r) := by
  rintro c ⟨z, hz⟩
  rw [← List.cons_append] at hz
  rcases List.append_eq_append_iff.1 hz with ⟨x, h1, h2⟩ | ⟨x, h1, h2⟩
  · exact h c ⟨x, h1.symm⟩
  · cases x with
    | nil => rw [List.append_nil] at h1; exact h c ⟨[], by rw [List.append_nil, h1]⟩
    | cons y x =>
      have hy : y = 34 := by
        have := congrArg List.head? h2
        simpa using this.symm
      subst hy
      have := encode_quote (c := c) (by rw [h1]; simp)
      rw [this] at h1
      have := congrArg List.length h1
      simp at this

theorem readChars_text {v t : Bytes} (h : Spec.StringText v t) (r : Bytes) :
    ∀ fuel, t.length < fuel → readChars fuel (t ++ 34 :: r) = some (v, r) := by
  induction h with
  | nil =>
    intro fuel hf
    cases fuel with
    | zero => omega
    | succ fuel => exact readChars_quote fuel r
  | @char c s v t hc h ih =>
    intro fuel hf
    cases fuel with
    | zero => omega
    | succ fuel =>
      have hs : readChars (fuel + 1) (s ++ (t ++ 34 :: r)) = prepend (String.utf8EncodeChar c) (readChars fuel (t ++ 34 :: r)) ∧ 0 < s.length := by
        cases hc with
        | plain h hq hb => exact ⟨readChars_plain h hq hb fuel _, List.length_pos_iff.2 (encode_ne_nil c)⟩
        | short e h => exact ⟨readChars_short h fuel _, by simp⟩
        | unit h =>
          refine ⟨?_, by rw [unitEscape_length h]; omega⟩
          rw [readChars_unit h]
          have hu : unitChar c.toNat (t ++ 34 :: r) = (String.utf8EncodeChar c, t ++ 34 :: r) := by
            unfold unitChar
            rw [if_neg (by have := char_bound c; omega), appendRune_eq]
          rw [hu]
        | @pair s t' hi lo hs ht h1 h2 hc =>
          refine ⟨?_, by rw [List.length_append, unitEscape_length hs]; omega⟩
          rw [List.append_assoc, readChars_unit hs]
          have hu : unitChar hi (t' ++ (t ++ 34 :: r)) = (String.utf8EncodeChar c, t ++ 34 :: r) := by
            unfold unitChar
            rw [if_pos (by omega), (escapedUnit_iff _ _ _).2 ⟨t', rfl, ht⟩]
            simp only
            rw [if_pos (by omega), show (hi - 0xD800) * 1024 + (lo - 0xDC00) + 0x10000 = c.toNat by omega, appendRune_eq]
          rw [hu]
      rw [List.append_assoc, hs.1, ih fuel (by rw [List.length_append] at hf; omega)]
      rfl
  | @lone u s v t hs hu hn h ih =>
    intro fuel hf
    cases fuel with
    | zero => omega
    | succ fuel =>
      rw [List.append_assoc, readChars_unit hs]
      have hu : unitChar u (t ++ 34 :: r) = (String.utf8EncodeChar '\uFFFD', t ++ 34 :: r) := by
        unfold unitChar
        rw [if_pos (by omega)]
        split
        · next lo r' he =>
          obtain ⟨a, h1, h2⟩ := (escapedUnit_iff _ _ _).1 he
          have : ∃ b, t = a ++ b := by
            rcases List.append_eq_append_iff.1 h1 with ⟨x, h3, h4⟩ | ⟨x, h3, h4⟩
            · cases x with
              | nil => exact ⟨[], by rw [List.append_nil] at h3 ⊢; exact h3.symm⟩
              | cons y x =>
                have hy : y = 34 := by
                  have := congrArg List.head? h4
                  simpa using this.symm
                subst hy
                exact absurd (by rw [h3]; simp) (unitEscape_no_quote h2)
            · exact ⟨x, h3⟩
          obtain ⟨b, hb⟩ := this
          rw [if_neg (by have := hn a b lo hb h2; omega), runeError_eq]
        · rw [runeError_eq]
      rw [hu]
      simp only
      rw [ih fuel (by rw [List.length_append, unitEscape_length hs] at hf; omega)]
      rfl
  | @invalid b v t hb h ih =>
    intro fuel hf
    cases fuel with
    | zero => omega
    | succ fuel =>
      rw [List.cons_append, readChars_invalid (invalid_append hb r), ih fuel (by rw [List.length_cons] at hf; omega)]
      rfl

theorem prepend_some {v w r : Bytes} {x : Option (Bytes × Bytes)} (h : prepend v x = some (w, r)) : ∃ t, x = some (t, r) ∧ w = v ++ t := by
  cases x with
  | none => cases h
  | some p => obtain ⟨t, q⟩ := p; cases h; exact ⟨t, rfl, rfl⟩

theorem charOf_encode {v : Nat} (h) : appendRune v = String.utf8EncodeChar (charOf v h) := by
  rw [← appendRune_eq]
  exact congrArg appendRune (charOf_toNat v h).symm

theorem shortEscape_some {e b : UInt8} (h : shortEscape e = some b) :
    ∃ c d : Char, (c, d) ∈ Spec.shortEscapes ∧ d.toNat.toUInt8 = e ∧ String.utf8EncodeChar c = [b] := by
  unfold shortEscape at h
  have key : ∀ c d : Char, (c, d) ∈ Spec.shortEscapes → ∀ {e' b'}, e = e' → some b' = some b → d.toNat.toUInt8 = e' →
      String.utf8EncodeChar c = [b'] → ∃ c d : Char, (c, d) ∈ Spec.shortEscapes ∧ d.toNat.toUInt8 = e ∧ String.utf8EncodeChar c = [b] := by
    intro c d hm e' b' he hb hd hc
    cases hb
    exact ⟨c, d, hm, hd.trans he.symm, hc⟩
  split at h
  · next he => exact key '"' '"' (by decide) he h (by decide) (by decide)
  split at h
  · next he => exact key '\\' '\\' (by decide) he h (by decide) (by decide)
  split at h
  · next he => exact key '/' '/' (by decide) he h (by decide) (by decide)
  split at h
  · next he => exact key '\u0008' 'b' (by decide) he h (by decide) (by decide)
  split at h
  · next he => exact key '\u000C' 'f' (by decide) he h (by decide) (by decide)
  split at h
  · next he => exact key '\n' 'n' (by decide) he h (by decide) (by decide)
  split at h
  · next he => exact key '\r' 'r' (by decide) he h (by decide) (by decide)
  split at h
  · next he => exact key '\t' 't' (by decide) he h (by decide) (by decide)
  · cases h

theorem unitChar_sound {u : Nat} {a s v s' : Bytes} (ha : Spec.UnitEscape a u) (h : unitChar u s = (v, s')) {w t r : Bytes}
    (ht : Spec.StringText w t) (hs : s' = t ++ 34 :: r) : ∃ x, a ++ s = x ++ 34 :: r ∧ Spec.StringText (v ++ w) x := by
  have hlt := unitEscape_lt ha
  unfold unitChar at h
  split at h
  · next hu =>
    split at h
    · next lo r' he =>
      obtain ⟨b, h1, h2⟩ := (escapedUnit_iff _ _ _).1 he
      split at h
      · next hl =>
        generalize hn : (u - 0xD800) * 1024 + (lo - 0xDC00) + 0x10000 = n at h
        cases h
        subst hs
        refine ⟨a ++ b ++ t, by simp [h1], ?_⟩
        rw [charOf_encode (v := n) (by omega)]
        refine .char (.pair _ ha h2 (by omega) (by omega) ?_) ht
        rw [show (charOf n (by omega)).toNat = n from charOf_toNat ..]
        omega
      · next hl =>
        cases h
        subst hs
        refine ⟨a ++ t, by simp, ?_⟩
        rw [runeError_eq]
        refine .lone ha (by omega) ?_ ht
        intro x y lo' hx hlo
        have h3 := (escapedUnit_iff (t ++ 34 :: r) lo' (y ++ 34 :: r)).2 ⟨x, by rw [hx, List.append_assoc], hlo⟩
        rw [h3] at he
        cases he
        omega
    · next he =>
      cases h
      subst hs
      refine ⟨a ++ t, by simp, ?_⟩
      rw [runeError_eq]
      refine .lone ha (by omega) ?_ ht
      intro x y lo' hx hlo
      have h3 := (escapedUnit_iff (t ++ 34 :: r) lo' (y ++ 34 :: r)).2 ⟨x, by rw [hx, List.append_assoc], hlo⟩
      rw [h3] at he
      cases he
  · next hu =>
    cases h
    subst hs
    refine ⟨a ++ t, by simp, ?_⟩
    rw [charOf_encode (v := u) (by omega)]
    refine .char (.unit _ ?_) ht
    rw [show (charOf u (by omega)).toNat = u from charOf_toNat ..]
    exact ha

theorem readChars_sound : ∀ {fuel : Nat} {s v r : Bytes}, readChars fuel s = some (v, r) → ∃ t, s = t ++ 34 :: r ∧ Spec.StringText v t := by
  intro fuel
  induction fuel with
  | zero => intro s v r h; cases h
  | succ fuel ih =>
    intro s v r h
    cases s with
    | nil => cases h
    | cons c s =>
      rw [readChars] at h
      split at h
      · next hc =>
        cases h
        exact ⟨[], by rw [hc]; rfl, .nil⟩
      split at h
      · next hc =>
        subst hc
        split at h
        · cases h
        · next v' s' he =>
          obtain ⟨w, h1, rfl⟩ := prepend_some h
          obtain ⟨t, h2, h3⟩ := ih h1
          cases s with
          | nil => cases he
          | cons e s =>
            simp only [readEscape] at he
            split at he
            · next hu =>
              subst hu
              split at he
              · cases he
              · next u s2 hx =>
                obtain ⟨a, b, c, d, w', x, y, z, rfl, e1, e2, e3, e4, e5⟩ := hexFour_some hx
                have := unitChar_sound (a := [92, 117, a, b, c, d]) ⟨a, b, c, d, w', x, y, z, rfl, e1, e2, e3, e4, e5⟩
                  (Option.some.inj he) h3 h2
                exact this
            · split at he
              · cases he
              · next b hb =>
                cases he
                obtain ⟨c, d, g1, g2, g3⟩ := shortEscape_some hb
                refine ⟨[92, e] ++ t, by rw [h2]; rfl, ?_⟩
                rw [← g3]
                refine .char ?_ h3
                rw [← g2]
                exact .short c d g1
      split at h
      · cases h
      split at h
      · next hq hb h1 h2 =>
        obtain ⟨w, g1, rfl⟩ := prepend_some h
        obtain ⟨t, g2, g3⟩ := ih g1
        rw [UInt8.lt_iff_toNat_lt] at h1 h2
        have h1 : ¬ c.toNat < 32 := h1
        have h2 : c.toNat < 128 := h2
        have hn : (charOf c.toNat (by omega)).toNat = c.toNat := charOf_toNat ..
        have he : String.utf8EncodeChar (charOf c.toNat (by omega)) = [c] := by
          rcases encode_cases (charOf c.toNat (by omega)) with ⟨_, x⟩ | ⟨x, _⟩
          · rw [x, hn]; simp
          · rw [hn] at x; omega
        refine ⟨[c] ++ t, by rw [g2]; rfl, ?_⟩
        rw [← he]
        refine .char (.plain _ (by omega) ?_ ?_) g3
        · intro hx
          rw [hx] at he
          exact hq (by have : [(34 : UInt8)] = [c] := he; simpa using this.symm)
        · intro hx
          rw [hx] at he
          exact hb (by have : [(92 : UInt8)] = [c] := he; simpa using this.symm)
      split at h
      · next hq hb h1 h2 hw =>
        obtain ⟨w, g1, rfl⟩ := prepend_some h
        obtain ⟨t, g2, g3⟩ := ih g1
        refine ⟨c :: t, by rw [g2]; rfl, ?_⟩
        rw [runeError_eq]
        refine .invalid ?_ g3
        rintro x ⟨y, hy⟩
        have hx := runeWidth_encode x (y ++ 34 :: r)
        rw [← List.append_assoc, hy, List.cons_append, ← g2, hw] at hx
        cases he : String.utf8EncodeChar x with
        | nil => exact encode_ne_nil x he
        | cons a l =>
          rw [he] at hx hy
          have hl : l = [] := by
            rw [List.length_cons] at hx
            exact List.length_eq_zero_iff.1 (by omega)
          subst hl
          cases hy
          exact h2 (encode_single he)
      · next hq hb h1 h2 hw =>
        obtain ⟨w, g1, rfl⟩ := prepend_some h
        obtain ⟨t, g2, g3⟩ := ih g1
        obtain ⟨x, y, hy⟩ := runeWidth_two_le hw
        have hx := runeWidth_encode x y
        rw [hy] at hx
        rw [hx] at g2 ⊢
        rw [← hy, List.drop_left] at g2
        rw [← hy, List.take_left]
        refine ⟨String.utf8EncodeChar x ++ t, by rw [g2, List.append_assoc], ?_⟩
        refine .char (.plain _ ?_ ?_ ?_) g3
        all_goals
          have : 128 ≤ x.toNat := by
            rcases encode_cases x with ⟨_, z⟩ | ⟨z, _⟩
            · rw [z] at hy
              cases hy
              exfalso
              apply h2
              rw [UInt8.lt_iff_toNat_lt, UInt8.toNat_ofNat_of_lt' (by show x.toNat < 256; omega)]
              show x.toNat < 128
              assumption
            · exact z
        · omega
        · rintro rfl; exact absurd this (by decide)
        · rintro rfl; exact absurd this (by decide)

end Metro2
