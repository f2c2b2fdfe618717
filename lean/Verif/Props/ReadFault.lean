import Verif.Spec.ReadFault
import Verif.Props.Refused
import Verif.Props.Messages
import Verif.Lemmas.PackedText
import Verif.Lemmas.Order

/-! Property C130: the error of a refused text is about its first fault and says what is wrong.

A numeral of more than 19 digits in which a sign or a letter follows could be out of range before the letter is seen; no numeric field of a table is that wide, and the model
of the conversion looks at the letters first. -/

namespace Metro2
open Spec Samples

/-! ### Fields -/

/-- What the loops of `Parse` do with the text of a field, /repo/pkg/lib/converters.go:139-147: the check of its type, then the conversion. -/
def verdict (e : Field) (f : F) (s : Bytes) : Except Err Val :=
  match isValidType e f s with
  | some err => .error err
  | none => parseValue e s

theorem hexByte_iff (c : UInt8) : hexByte c = true ↔ HexNumeral c := by
  unfold HexNumeral
  revert c
  apply forall_uint8
  decide +kernel

theorem any_hex (s : Bytes) : s.any hexByte = true ↔ ∃ c ∈ s, HexNumeral c := by
  rw [List.any_eq_true]
  exact exists_congr fun c => and_congr_right fun _ => hexByte_iff c

theorem syntax_bits {b b' : Nat} {s : Bytes} (h : parseIntBits b s = .error .syntax) : parseIntBits b' s = .error .syntax := by
  unfold parseIntBits at h ⊢
  simp only at h ⊢
  generalize (if s.head? = some 45 ∨ s.head? = some 43 then s.drop 1 else s) = body at h ⊢
  split at h
  · next h1 => rw [if_pos h1]
  split at h
  · next h1 h2 => rw [if_neg h1, if_pos h2]
  split at h <;> split at h <;> cases h

theorem syntax_or (b : Nat) (s : Bytes) : parseIntBits b s = .error .syntax ∨ ∃ b' i, parseIntBits b' s = .ok i := by
  unfold parseIntBits
  simp only
  generalize hb : (if s.head? = some 45 ∨ s.head? = some 43 then s.drop 1 else s) = body
  by_cases h1 : body = []
  · rw [if_pos h1]; exact .inl rfl
  by_cases h2 : body.all isDigit = false
  · rw [if_neg h1, if_pos h2]; exact .inl rfl
  right
  have h3 : digitsVal body < 2 ^ (digitsVal body + 1 - 1) := Nat.lt_two_pow_self
  by_cases h4 : s.head? = some 45
  · exact ⟨digitsVal body + 1, -(digitsVal body : Int), by rw [if_neg h1, if_neg h2, if_pos h4, if_pos (Nat.le_of_lt h3)]⟩
  · exact ⟨digitsVal body + 1, (digitsVal body : Int), by rw [if_neg h1, if_neg h2, if_neg h4, if_pos h3]⟩

theorem parseIntBits_wide {s : Bytes} {i : Int} (h : SignedDecimal s i) {b : Nat} (hb : i.natAbs + 1 ≤ b) : parseIntBits b s = .ok i := by
  have h1 : i.natAbs < 2 ^ i.natAbs := Nat.lt_two_pow_self
  have h2 : 2 ^ i.natAbs ≤ 2 ^ (b - 1) := Nat.pow_le_pow_right (by decide) (by omega)
  have h3 : ((2 ^ (b - 1) : Nat) : Int) = 2 ^ (b - 1) := by norm_cast
  exact parseIntBits_ok_iff.2 ⟨h, by omega, by omega⟩

theorem signed_unique {s : Bytes} {i j : Int} (hi : SignedDecimal s i) (hj : SignedDecimal s j) : i = j := by
  have h1 := parseIntBits_wide hi (b := i.natAbs + j.natAbs + 1) (by omega)
  rw [parseIntBits_wide hj (by omega)] at h1
  cases h1; rfl

theorem parseInt_syntax {s : Bytes} : parseInt s = .error .syntax ↔ ∀ i, ¬ SignedDecimal s i := by
  constructor
  · intro h i hi
    have h1 := syntax_bits (b' := i.natAbs + 1) h
    rw [parseIntBits_wide hi (by omega)] at h1
    cases h1
  · intro h
    rcases syntax_or 64 s with h1 | ⟨b, i, h1⟩
    · exact h1
    · exact absurd (parseIntBits_ok_iff.1 h1).1 (h i)

theorem parseInt_range {s : Bytes} : parseInt s = .error .range ↔ ∃ i, SignedDecimal s i ∧ (i < -(2 ^ 63) ∨ 2 ^ 63 ≤ i) := by
  constructor
  · intro h
    have h1 : ¬ ∀ i, ¬ SignedDecimal s i := fun hn => by rw [parseInt_syntax.2 hn] at h; cases h
    simp only [not_forall, not_not] at h1
    obtain ⟨i, hi⟩ := h1
    refine ⟨i, hi, ?_⟩
    by_contra hr
    rw [parseInt_ok_iff.2 ⟨hi, by omega, by omega⟩] at h
    cases h
  · rintro ⟨i, hi, hr⟩
    cases hp : parseInt s with
    | ok v =>
      obtain ⟨h1, h2, h3⟩ := parseInt_ok_iff.1 hp
      cases signed_unique hi h1
      omega
    | error x =>
      cases x with
      | range => rfl
      | «syntax» => exact absurd hi (parseInt_syntax.1 hp i)

theorem unsaid_numeric {s : Bytes} : atoiVal s = 0 ↔ Unsaid .numeric s := by
  simp only [Unsaid]
  cases hp : parseInt s with
  | ok v =>
    rw [atoiVal_of_ok hp]
    have h1 := (parseInt_ok_iff.1 hp).1
    exact ⟨fun h0 i hi => (signed_unique hi h1).trans h0, fun h => h v h1⟩
  | error x =>
    cases x with
    | «syntax» =>
      simp only [atoiVal, hp, true_iff]
      exact fun i hi => absurd hi (parseInt_syntax.1 hp i)
    | range =>
      obtain ⟨i, hi, hr⟩ := parseInt_range.1 hp
      refine iff_of_false ?_ fun h => ?_
      · simp only [atoiVal, hp]
        split <;> decide
      · have := h i hi
        subst this
        omega

theorem unsaid_filled (s : Bytes) : validFilledString s = true ↔ ∃ c ∈ b! "09 ", s = List.replicate s.length c := by
  simp only [validFilledString, Bool.or_eq_true, allByte_iff]
  constructor
  · rintro ((h | h) | h)
    · exact ⟨48, by decide, h⟩
    · exact ⟨57, by decide, h⟩
    · exact ⟨32, by decide, h⟩
  · rintro ⟨c, hc, h⟩
    have : c = 48 ∨ c = 57 ∨ c = 32 := by
      revert hc; revert c; intro c h hc
      simpa using hc
    rcases this with rfl | rfl | rfl
    · exact .inl (.inl h)
    · exact .inl (.inr h)
    · exact .inr h

theorem timeFromString_error {layout : List Std} {s : Bytes} {err : Err} :
    timeFromString layout s = .error err ↔ err = .timeFormat ∧ ∀ t, timeFromString layout s ≠ .ok t := by
  unfold timeFromString
  split
  · simp
  · split <;> simp [eq_comm]

theorem dateText_length {s : Bytes} {m d y : Nat} (h : DateText s m d y) : s.length = 8 := by
  obtain ⟨a, b, c, rfl, ha, hb, hc, -⟩ := h
  simp [ha, hb, hc]

theorem clockText_length {s : Bytes} {h mi se : Nat} (hh : ClockText s h mi se) : s.length = 6 := by
  obtain ⟨a, b, c, rfl, ha, hb, hc, -⟩ := hh
  simp [ha, hb, hc]

theorem date_ok (s : Bytes) : (∃ t, timeFromString dateFormat s = .ok t) ↔ s = List.replicate s.length 48 ∨ ∃ m d y, DateText s m d y := by
  by_cases hl : s.length = 8
  · have := fun t => C06_date_accepted_iff ⟨0, 8, .date, false, false, .nullable⟩ .DateBirth s t rfl rfl hl
    simp only [Reads, isValidType, requiredCheck, parseValue] at this
    constructor
    · rintro ⟨t, h⟩
      rcases (this t).1 ⟨by simp, by rw [h]; rfl⟩ with ⟨-, h1, -⟩ | ⟨m, d, y, h1, -⟩
      · exact .inl (by rw [hl]; exact h1)
      · exact .inr ⟨m, d, y, h1⟩
    · rintro (h | ⟨m, d, y, h⟩)
      · exact ⟨_, timeFromString_ok_iff.2 (.inl ⟨h, rfl⟩)⟩
      · have h2 := ((this _).2 (.inr ⟨m, d, y, h, rfl⟩)).2
        cases ht : timeFromString dateFormat s with
        | ok t => exact ⟨t, rfl⟩
        | error e => rw [ht] at h2; cases h2
  · constructor
    · rintro ⟨t, h⟩
      rcases timeFromString_ok_iff.1 h with ⟨h1, -⟩ | ⟨-, h1⟩
      · exact .inl h1
      · obtain ⟨a, b, c, rfl, ha, hb, hc, -⟩ := Time.parse_date.1 h1
        exact absurd (by simp [ha, hb, hc]) hl
    · rintro (h | ⟨m, d, y, h⟩)
      · exact ⟨_, timeFromString_ok_iff.2 (.inl ⟨h, rfl⟩)⟩
      · exact absurd (dateText_length h) hl

theorem timestamp_ok (s : Bytes) : (∃ t, timeFromString timestampFormat s = .ok t) ↔
    s = List.replicate s.length 48 ∨ ∃ a b m d y h mi se, s = a ++ b ∧ DateText a m d y ∧ ClockText b h mi se := by
  by_cases hl : s.length = 14
  · have := fun t => C06_timestamp_accepted_iff ⟨0, 14, .timestamp, false, false, .nullable⟩ .DateBirth s t rfl rfl hl
    simp only [Reads, isValidType, requiredCheck, parseValue] at this
    constructor
    · rintro ⟨t, h⟩
      rcases (this t).1 ⟨by simp, by rw [h]; rfl⟩ with ⟨-, h1, -⟩ | ⟨a, b, m, d, y, h', mi, se, h1, h2, h3, -⟩
      · exact .inl (by rw [hl]; exact h1)
      · exact .inr ⟨a, b, m, d, y, h', mi, se, h1, h2, h3⟩
    · rintro (h | ⟨a, b, m, d, y, h', mi, se, h1, h2, h3⟩)
      · exact ⟨_, timeFromString_ok_iff.2 (.inl ⟨h, rfl⟩)⟩
      · have h2 := ((this _).2 (.inr ⟨a, b, m, d, y, h', mi, se, h1, h2, h3, rfl⟩)).2
        cases ht : timeFromString timestampFormat s with
        | ok t => exact ⟨t, rfl⟩
        | error e => rw [ht] at h2; cases h2
  · constructor
    · rintro ⟨t, h⟩
      rcases timeFromString_ok_iff.1 h with ⟨h1, -⟩ | ⟨-, h1⟩
      · exact .inl h1
      · obtain ⟨a, b, c, d, e, f, rfl, ha, hb, hc, hd, he, hf, -⟩ := Time.parse_timestamp.1 h1
        exact absurd (by simp [ha, hb, hc, hd, he, hf]) hl
    · rintro (h | ⟨a, b, m, d, y, h', mi, se, h1, h2, h3⟩)
      · exact ⟨_, timeFromString_ok_iff.2 (.inl ⟨h, rfl⟩)⟩
      · exact absurd (by rw [h1, List.length_append, dateText_length h2, clockText_length h3]) hl

theorem fmtIntZero_digits (k n : Nat) : ∀ c ∈ fmtIntZero k (n : Int), isDigit c = true := by
  show ∀ c ∈ padLeft k 48 (fmtNat n), isDigit c = true
  unfold padLeft
  intro c hc
  rcases List.mem_append.1 hc with h | h
  · rw [List.eq_of_mem_replicate h]; decide
  · exact fmtNat_all n c h

/-- A packed time that is refused has its first and its last byte. -/
theorem packed_shape {size width : Nat} {layout : List Std} {s : Bytes} {err : Err} (hs : 2 ≤ size) (hl : s.length = size)
    (hz : timeFromString layout (fmtIntZero width 0) = .ok Time.zero) (h : timeFromPacked size width layout s = .error err) :
    ∃ mid : Bytes, s = 0x00 :: mid ++ [0x73] ∧ mid.length = size - 2 := by
  match s, hl with
  | [], hl => simp at hl; omega
  | a :: s, hl =>
    rcases List.eq_nil_or_concat s with rfl | ⟨mid, b, rfl⟩
    · simp at hl; omega
    · rw [List.concat_eq_append] at h ⊢
      rw [List.concat_eq_append, List.length_cons, List.length_append, List.length_singleton] at hl
      have h0 : (a :: (mid ++ [b]) : Bytes)[0]? = some a := rfl
      have h1 : (a :: (mid ++ [b]) : Bytes)[size - 1]? = some b := by
        rw [show size - 1 = mid.length + 1 by omega, List.getElem?_cons_succ, List.getElem?_append_right (Nat.le_refl _)]
        simp
      unfold timeFromPacked at h
      rw [h0, h1] at h
      simp only at h
      split at h
      · next hab =>
        obtain ⟨rfl, rfl⟩ := hab
        exact ⟨mid, rfl, by omega⟩
      · rw [hz] at h; cases h

theorem packedDate_error {s : Bytes} (hs : s.length = 5) {f : F} {err : Err} :
    timeFromPacked 5 8 dateFormat s = .error err ↔ Misread .packedDate f s err := by
  simp only [Misread]
  by_cases hm : ∃ mid : Bytes, s = 0x00 :: mid ++ [0x73] ∧ mid.length = 3
  · obtain ⟨mid, rfl, hl⟩ := hm
    rw [timeFromPacked_bytes (by decide) (by decide) (by rw [hl]), timeFromString_error]
    have hd : Decimal (fmtIntZero 8 (beVal mid : Int)) (beVal mid) :=
      (spec_decimal_iff _ _).2 ⟨fmtIntZero_digits _ _, digitsVal_fmtIntZero _ _⟩
    have hk := not_congr (date_ok (fmtIntZero 8 (beVal mid : Int)))
    simp only [not_exists, not_or] at hk
    constructor
    · rintro ⟨rfl, h⟩
      obtain ⟨h1, h2⟩ := hk.1 h
      refine ⟨mid, beVal mid, rfl, (spec_bigEndian_iff _ _).2 rfl, ?_, ?_, rfl⟩
      · intro h0; rw [h0] at h1; exact h1 (by decide)
      · intro t m d y ht hdt
        obtain ⟨ha, hv⟩ := (spec_decimal_iff _ _).1 hdt
        refine h2 m d y ?_
        rw [← hv, fmtIntZero_digitsVal (by decide) (dateText_length ht) ha]; exact ht
    · rintro ⟨mid', n, h1, h2, h3, h4, rfl⟩
      have : mid = mid' := by simpa using h1
      subst this
      rw [spec_bigEndian_iff] at h2
      subst h2
      refine ⟨rfl, hk.2 ⟨?_, fun m d y ht => h4 _ m d y ht hd⟩⟩
      intro h0
      have := congrArg digitsVal h0
      rw [digitsVal_fmtIntZero, digitsVal_replicate_zero] at this
      exact h3 this
  · constructor
    · intro h
      exfalso
      cases hz : timeFromPacked 5 8 dateFormat s with
      | ok t => rw [hz] at h; cases h
      | error e => exact hm (packed_shape (by decide) hs (by decide +kernel) hz)
    · rintro ⟨mid, n, rfl, -⟩
      exact absurd ⟨mid, rfl, by simp at hs; omega⟩ hm

theorem packedTimestamp_error {s : Bytes} (hs : s.length = 8) {f : F} {err : Err} :
    timeFromPacked 8 14 timestampFormat s = .error err ↔ Misread .packedTimestamp f s err := by
  simp only [Misread]
  by_cases hm : ∃ mid : Bytes, s = 0x00 :: mid ++ [0x73] ∧ mid.length = 6
  · obtain ⟨mid, rfl, hl⟩ := hm
    rw [timeFromPacked_bytes (by decide) (by decide) (by rw [hl]), timeFromString_error]
    have hd : Decimal (fmtIntZero 14 (beVal mid : Int)) (beVal mid) :=
      (spec_decimal_iff _ _).2 ⟨fmtIntZero_digits _ _, digitsVal_fmtIntZero _ _⟩
    have hk := not_congr (timestamp_ok (fmtIntZero 14 (beVal mid : Int)))
    simp only [not_exists, not_or, not_and] at hk
    constructor
    · rintro ⟨rfl, h⟩
      obtain ⟨h1, h2⟩ := hk.1 h
      refine ⟨mid, beVal mid, rfl, (spec_bigEndian_iff _ _).2 rfl, ?_, ?_, rfl⟩
      · intro h0; rw [h0] at h1; exact h1 (by decide)
      · intro a b m d y h' mi se ha hb hdt
        obtain ⟨hg, hv⟩ := (spec_decimal_iff _ _).1 hdt
        refine h2 a b m d y h' mi se ?_ ha hb
        rw [← hv, fmtIntZero_digitsVal (by decide) (by rw [List.length_append, dateText_length ha, clockText_length hb]) hg]
    · rintro ⟨mid', n, h1, h2, h3, h4, rfl⟩
      have : mid = mid' := by simpa using h1
      subst this
      rw [spec_bigEndian_iff] at h2
      subst h2
      refine ⟨rfl, hk.2 ⟨?_, fun a b m d y h' mi se he ha hb => h4 a b m d y h' mi se ha hb (he ▸ hd)⟩⟩
      intro h0
      have := congrArg digitsVal h0
      rw [digitsVal_fmtIntZero, digitsVal_replicate_zero] at this
      exact h3 this
  · constructor
    · intro h
      exfalso
      cases hz : timeFromPacked 8 14 timestampFormat s with
      | ok t => rw [hz] at h; cases h
      | error e => exact hm (packed_shape (by decide) hs (by decide +kernel) hz)
    · rintro ⟨mid, n, rfl, -⟩
      exact absurd ⟨mid, rfl, by simp at hs; omega⟩ hm

theorem unsaid_check (e : Field) (f : F) (s : Bytes) (hw : WidthOk e = true) (hs : s.length = e.len) :
    (requiredCheck e f s = some (.required f) ∧ e.req = .required ∧ Unsaid e.typ s) ∨
    (requiredCheck e f s = none ∧ ¬ (e.req = .required ∧ Unsaid e.typ s)) := by
  obtain ⟨start, len, typ, zf, om, req⟩ := e
  simp only at hs
  subst hs
  unfold requiredCheck
  by_cases hr : req = .required
  swap
  · simp [hr]
  simp only [hr, if_true, true_and]
  cases typ with
  | numeric =>
    have := unsaid_numeric (s := s)
    by_cases h : atoiVal s = 0
    · exact .inl ⟨by simp [h], this.1 h⟩
    · exact .inr ⟨by simp [h], fun hu => h (this.2 hu)⟩
  | timestamp | date =>
    have := unsaid_filled s
    by_cases h : validFilledString s = true
    · exact .inl ⟨by simp [h], this.1 h⟩
    · exact .inr ⟨by simp [h], fun hu => h (this.2 hu)⟩
  | alphanumeric =>
    have : s.length ≠ 0 := by simp only [WidthOk, decide_eq_true_eq] at hw; omega
    exact .inr ⟨by simp only [if_neg this], id⟩
  | alpha => cases hw
  | descriptor =>
    have : s.length ≠ 0 := by simp [WidthOk] at hw; omega
    exact .inr ⟨by simp only [if_neg this], id⟩
  | packedTimestamp | packedDate | packedNumber => exact .inr ⟨rfl, id⟩

theorem mapped_error {α β : Type} {g : α → β} {x : Except Err α} {err : Err} : x.map g = .error err ↔ x = .error err := by
  cases x <;> simp [Except.map]

/-- C130 (fields): the text of a field is refused with an error exactly when this error tells what is wrong with it. -/
theorem C130_field (e : Field) (f : F) (s : Bytes) (hw : WidthOk e = true) (hs : s.length = e.len) (err : Err) :
    verdict e f s = .error err ↔ Refused e f s err := by
  unfold verdict Refused isValidType
  rcases unsaid_check e f s hw hs with ⟨h1, h2, h3⟩ | ⟨h1, h2⟩
  · simp [h1, h2, h3, eq_comm]
  · have hf : ¬ (e.req = .required ∧ Unsaid e.typ s ∧ err = .required f) := fun h => h2 ⟨h.1, h.2.1⟩
    simp only [h1, hf, h2, false_or, not_false_eq_true, true_and, parseValue]
    cases ht : e.typ with
    | numeric =>
      simp only [Misread, isNumeric]
      by_cases hx : s.any hexByte = true
      · have hx' := (any_hex s).1 hx
        have hno : ¬ ∀ c ∈ s, ¬ HexNumeral c := fun h => by obtain ⟨c, hc, h'⟩ := hx'; exact h c hc h'
        simp only [hx, if_true, hno, false_and, false_or, hx', true_and]
        rw [← parseInt_syntax, ← parseInt_range]
        cases hp : parseInt s with
        | ok v => simp
        | error x => cases x <;> simp [eq_comm]
      · have hx' := mt (any_hex s).2 hx
        have hno : ∀ c ∈ s, ¬ HexNumeral c := fun c hc h => hx' ⟨c, hc, h⟩
        simp only [if_neg hx, Except.error.injEq]
        constructor
        · exact fun h => .inl ⟨hno, h.symm⟩
        · rintro (⟨-, h⟩ | ⟨h, -⟩ | ⟨⟨i, hi, -⟩, -⟩)
          · exact h.symm
          · exact absurd h hx'
          · have := isNumeric_signed (f := f) hi
            simp [isNumeric, hx] at this
    | alphanumeric =>
      simp only [Misread]
      by_cases ha : ∀ c ∈ s, Permitted c
      · have : ¬ ∃ c ∈ s, ¬ Permitted c := fun ⟨c, hc, h⟩ => h (ha c hc)
        simp only [isAlphanumeric_eq_none.2 ha, this, false_and, reduceCtorEq]
      · have he : ∃ c ∈ s, ¬ Permitted c := by
          by_contra h
          exact ha fun c hc => by by_contra h'; exact h ⟨c, hc, h'⟩
        have hi : isAlphanumeric f s = some (.nonAlphanumeric f) := by
          have := mt (isAlphanumeric_eq_none (f := f)).1 ha
          unfold isAlphanumeric at this ⊢
          split
          · rfl
          · next h => rw [if_neg h] at this; exact absurd rfl this
        simp only [hi, he, true_and, Except.error.injEq]
        exact eq_comm
    | alpha => simp [WidthOk, ht] at hw
    | timestamp =>
      have hk : (∀ t, timeFromString timestampFormat s ≠ .ok t) ↔ ¬ _ := not_exists.symm.trans (not_congr (timestamp_ok s))
      simp only [Misread, mapped_error, timeFromString_error]
      rw [hk]
      constructor
      · rintro ⟨h1, h2⟩
        exact ⟨fun h => h2 (.inl h), fun a b m d y h mi se h3 h4 h5 => h2 (.inr ⟨a, b, m, d, y, h, mi, se, h3, h4, h5⟩), h1⟩
      · rintro ⟨h1, h2, h3⟩
        refine ⟨h3, ?_⟩
        rintro (h | ⟨a, b, m, d, y, h, mi, se, h4, h5, h6⟩)
        · exact h1 h
        · exact h2 a b m d y h mi se h4 h5 h6
    | date =>
      have hk : (∀ t, timeFromString dateFormat s ≠ .ok t) ↔ ¬ _ := not_exists.symm.trans (not_congr (date_ok s))
      simp only [Misread, mapped_error, timeFromString_error]
      rw [hk]
      constructor
      · rintro ⟨h1, h2⟩
        exact ⟨fun h => h2 (.inl h), fun m d y h => h2 (.inr ⟨m, d, y, h⟩), h1⟩
      · rintro ⟨h1, h2, h3⟩
        refine ⟨h3, ?_⟩
        rintro (h | ⟨m, d, y, h⟩)
        · exact h1 h
        · exact h2 m d y h
    | descriptor =>
      have : ¬ s.length < 2 := by simp [WidthOk, ht] at hw; omega
      simp [Misread, this]
    | packedTimestamp =>
      simp only [mapped_error]
      exact packedTimestamp_error (by simp [WidthOk, ht] at hw; omega)
    | packedDate =>
      simp only [mapped_error]
      exact packedDate_error (by simp [WidthOk, ht] at hw; omega)
    | packedNumber =>
      simp only [mapped_error, Misread, iff_false]
      rw [packedNumberFromString_of_le (by simp [WidthOk, ht] at hw; omega)]
      simp

/-! ### Records -/

theorem first_cons {rows : Format} {text : Bytes} {blocked : Bool} {f : F} {l : List F} {err : Err} :
    FirstRefused rows text blocked (f :: l) err ↔ RefusedAt rows text blocked f err ∨
      ((∀ err', ¬ RefusedAt rows text blocked f err') ∧ FirstRefused rows text blocked l err) := by
  constructor
  · rintro ⟨before, g, behind, h1, h2, h3⟩
    cases before with
    | nil => cases h1; exact .inl h3
    | cons a before =>
      cases h1
      exact .inr ⟨h2 _ List.mem_cons_self, before, g, behind, rfl, fun x hx => h2 x (List.mem_cons_of_mem _ hx), h3⟩
  · rintro (h | ⟨h1, before, g, behind, rfl, h2, h3⟩)
    · exact ⟨[], f, l, rfl, by simp, h⟩
    · refine ⟨f :: before, g, behind, rfl, ?_, h3⟩
      intro x hx
      rcases List.mem_cons.1 hx with rfl | hx
      · exact h1
      · exact h2 x hx

section
variable {fmt : Format} {pol : BdwPolicy} {rec : Bytes} {decl : List (F × FieldDecl)} {bounds : Bool}

theorem refusedAt_iff (hnd : (fmt.map (·.1)).Nodup) {f : F} {e : Field}
    (he : (f, e) ∈ fmt) (hw : WidthOk e = true) {blocked : Bool} {off : Nat} (ho : off = if blocked ∧ f ≠ .BlockDescriptorWord then 4 else 0)
    (hl : e.start + e.len + off ≤ rec.length) {err : Err} :
    RefusedAt fmt rec blocked f err ↔ verdict e f ((rec.drop (e.start + off)).take e.len) = .error err := by
  rw [C130_field e f _ hw (by rw [List.length_take, List.length_drop]; omega), ho]
  constructor
  · rintro ⟨e', h1, h2⟩
    have := lookup_of_mem hnd h1
    rw [lookup_of_mem hnd he] at this; cases this
    exact h2
  · exact fun h => ⟨e, he, h⟩

/-- One step of the loop. -/
theorem parseLoop_verdict {off : Nat} {f : F} {v : Val} {rest : Fields} {e : Field} {k : Kind} (he : fmt.lookup f = some e)
    (hk : Spec.KindOk e k = true) (hv : v.hasKind k = true) (hl : e.start + e.len + off ≤ rec.length) :
    (parseLoop fmt pol bounds rec off ((f, v) :: rest)).2 =
      match verdict e f ((rec.drop (e.start + off)).take e.len) with
      | .error err => some err
      | .ok _ =>
        match f, pol with
        | .BlockDescriptorWord, .fail => some .blockDescriptorWord
        | .BlockDescriptorWord, .accept => (parseLoop fmt pol bounds rec (off + 4) rest).2
        | _, _ => (parseLoop fmt pol bounds rec off rest).2 := by
  rw [parseLoop_cons]
  simp only [he]
  rw [if_neg (by omega)]
  unfold verdict
  cases hi : isValidType e f ((rec.drop (e.start + off)).take e.len) with
  | some err => rfl
  | none =>
    cases hp : parseValue e ((rec.drop (e.start + off)).take e.len) with
    | error err => simp only
    | ok w =>
      have hs := setVal_of_kind hv (parseValue_kind hk hp)
      simp only [hs]
      cases f <;> cases pol <;> rfl

/-- The loop over fields without a block descriptor word. -/
theorem parseLoop_first (hnd : (fmt.map (·.1)).Nodup) {blocked : Bool} {fs : Fields}
    (hl : ∀ d ∈ decl, d.1 ≠ .BlockDescriptorWord ∧ ∃ e, (d.1, e) ∈ fmt ∧ WidthOk e = true ∧ KindOk e d.2.kind = true ∧
      e.start + e.len + (if blocked then 4 else 0) ≤ rec.length)
    (ht : fs.Typed decl) (err : Err) :
    (parseLoop fmt pol bounds rec (if blocked then 4 else 0) fs).2 = some err ↔ FirstRefused fmt rec blocked (fs.map Prod.fst) err := by
  induction decl generalizing fs with
  | nil => cases fs with
    | nil =>
      simp only [parseLoop, List.map_nil, reduceCtorEq, false_iff]
      rintro ⟨b, g, c, h, -⟩
      simp at h
    | cons => exact ht.elim
  | cons d ds ih => cases fs with
    | nil => exact ht.elim
    | cons p fs =>
      obtain ⟨f, v⟩ := p
      obtain ⟨h1, h2, h3⟩ := ht
      obtain ⟨hb, e, he, hw, hk, hlen⟩ := hl d List.mem_cons_self
      rw [h1] at he hb
      have hr := fun err => refusedAt_iff (rec := rec) hnd he hw (blocked := blocked) (off := if blocked then 4 else 0)
        (by simp [hb]) hlen (err := err)
      have ih' := ih (fun d hd => hl d (List.mem_cons_of_mem _ hd)) h3
      rw [List.map_cons, first_cons, parseLoop_verdict (lookup_of_mem hnd he) hk h2 hlen, hr, forall_congr' fun err => not_congr (hr err)]
      cases hv : verdict e f ((rec.drop (e.start + if blocked = true then 4 else 0)).take e.len) with
      | error err0 =>
        simp only [Option.some.injEq, Except.error.injEq]
        exact ⟨.inl, fun h => h.elim id fun h => absurd rfl (h.1 err0)⟩
      | ok w =>
        simp only [reduceCtorEq, false_or, not_false_eq_true, implies_true, true_and]
        rw [← ih']
        cases pol <;> first | rfl | (cases f <;> first | rfl | exact absurd rfl hb)

/-- The loop over the fields of a record that may begin with a block descriptor word. -/
theorem parseLoop_first_blocked {enc : Enc} {L : Nat} (hB : Blocked enc fmt decl) (hL : Layout fmt decl L) (hrow : ∀ r ∈ fmt, r.2.start + r.2.len ≤ L)
    {blocked : Bool} (hp : pol = if blocked then .accept else .skip) (hlen : L + (if blocked then 4 else 0) ≤ rec.length)
    {fs : Fields} (ht : fs.Typed decl) (err : Err) :
    (parseLoop fmt pol bounds rec 0 fs).2 = some err ↔ FirstRefused fmt rec blocked (fs.map Prod.fst) err := by
  obtain ⟨d, d', ds, rfl, hk, hk', hds⟩ := hB.struct
  cases fs with
  | nil => exact ht.elim
  | cons p fs =>
    obtain ⟨f, v⟩ := p
    obtain ⟨h1, h2, h3⟩ := ht
    obtain ⟨e, he, hw, hkk, -⟩ := hL.hasRow _ List.mem_cons_self
    simp only at h1 h2 he hkk
    subst h1
    have hle := hrow _ he
    simp only at hle
    have hl : ∀ x ∈ (F.RecordDescriptorWord, d') :: ds, x.1 ≠ .BlockDescriptorWord ∧ ∃ e, (x.1, e) ∈ fmt ∧ WidthOk e = true ∧
        KindOk e x.2.kind = true ∧ e.start + e.len + (if blocked then 4 else 0) ≤ rec.length := by
      intro x hx
      refine ⟨?_, ?_⟩
      · rcases List.mem_cons.1 hx with rfl | hx
        · simp
        · exact (hds x hx).1
      · obtain ⟨e, h4, h5, h6, -⟩ := hL.hasRow x (List.mem_cons_of_mem _ hx)
        have := hrow _ h4
        simp only at this
        exact ⟨e, h4, h5, h6, by omega⟩
    have hr := fun err => refusedAt_iff (rec := rec) hL.names he hw (blocked := blocked) (off := 0) (by simp) (by omega) (err := err)
    have hrest := parseLoop_first (pol := pol) (bounds := bounds) hL.names hl h3 err
    rw [List.map_cons, first_cons, parseLoop_verdict (lookup_of_mem hL.names he) hkk h2 (by omega), hr, forall_congr' fun err => not_congr (hr err), ← hrest]
    cases hv : verdict e .BlockDescriptorWord ((rec.drop (e.start + 0)).take e.len) with
    | error err0 =>
      simp only [Option.some.injEq, Except.error.injEq]
      exact ⟨.inl, fun h => h.elim id fun h => absurd rfl (h.1 err0)⟩
    | ok w =>
      simp only [reduceCtorEq, false_or, not_false_eq_true, implies_true, true_and]
      subst hp
      cases blocked <;> exact Iff.rfl

end

theorem header_rows_le (enc : Enc) : ∀ r ∈ enc.headerFormat, r.2.start + r.2.len ≤ enc.recordLength := by cases enc <;> decide +kernel
theorem trailer_rows_le (enc : Enc) : ∀ r ∈ enc.trailerFormat, r.2.start + r.2.len ≤ enc.recordLength := by cases enc <;> decide +kernel

/-- C130 (segments): the error of a segment is about the first field, in the order of the declaration, whose text cannot be read, and says what is wrong with this text;
and there is no other error if the text is long enough. -/
theorem C130_segment (s : Seg) (ht : s.fields.Typed s.kind.struct) (text : Bytes) (isVar : Bool) (hl : segmentLength s.kind ≤ text.length) (err : Err) :
    (s.parse text isVar).2 = .error err ↔ FirstRefused s.kind.format text false (s.fields.map Prod.fst) err := by
  rw [segmentLength_eq] at hl
  rw [← parseLoop_first (pol := if isVar then .accept else .skip) (bounds := true) (layout_segment s.kind).names (blocked := false) ?_ ht]
  · unfold Seg.parse
    rw [if_neg (by omega)]
    simp only [Bool.false_eq_true, if_false]
    generalize parseLoop s.kind.format (if isVar then .accept else .skip) true text 0 s.fields = q
    obtain ⟨fs, o⟩ := q
    cases o <;> simp
  · intro d hd
    obtain ⟨e, h1, h2, h3, -⟩ := (layout_segment s.kind).hasRow d hd
    have := seg_rows_le s.kind _ h1
    simp only at this
    exact ⟨seg_noBdw _ d hd, e, h1, h2, h3, by simp; omega⟩

/-- C130 (headers): the same for headers. `blocked` says if the text begins with a block descriptor word; in the packed format it must. -/
theorem C130_header (enc : Enc) (fs : Fields) (ht : fs.Typed headerRecordStruct) (text : Bytes) (isVar blocked : Bool)
    (hb : blocked = if enc = .packed then isVariableLength text else isVar) (hp : enc = .packed → blocked = true)
    (hl : Spec.recordLength enc + (if blocked then 4 else 0) ≤ text.length) (err : Err) :
    ((Record.header enc fs).parse text isVar).2 = .error err ↔ FirstRefused enc.headerFormat text blocked (fs.map Prod.fst) err := by
  rw [recordLength_eq] at hl
  rw [← parseLoop_first_blocked (pol := headerPolicy enc text isVar) (bounds := true) (blocked_header enc) (layout_header enc) (header_rows_le enc) ?_ hl ht]
  · simp only [Record.parse]
    unfold parseHeader
    rw [if_neg (by omega)]
    generalize parseLoop enc.headerFormat (headerPolicy enc text isVar) true text 0 fs = q
    obtain ⟨fs, o⟩ := q
    cases o <;> simp
  · cases enc with
    | character => simp at hb; subst hb; rfl
    | packed =>
      simp only [if_true] at hb
      have := hp rfl
      subst this
      simp [headerPolicy, ← hb]

/-- C130 (trailers): the same for trailers. -/
theorem C130_trailer (enc : Enc) (fs : Fields) (ht : fs.Typed trailerRecordStruct) (text : Bytes) (isVar : Bool)
    (hl : Spec.recordLength enc ≤ text.length) (err : Err) :
    ((Record.trailer enc fs).parse text isVar).2 = .error err ↔ FirstRefused enc.trailerFormat text false (fs.map Prod.fst) err := by
  rw [recordLength_eq] at hl
  have hrows : ∀ d ∈ trailerRecordStruct, d.1 ≠ .BlockDescriptorWord ∧ ∃ e, (d.1, e) ∈ enc.trailerFormat ∧ WidthOk e = true ∧
      KindOk e d.2.kind = true ∧ e.start + e.len + (if false = true then 4 else 0) ≤ text.length := by
    intro d hd
    obtain ⟨e, h1, h2, h3, -⟩ := (layout_trailer enc).hasRow d hd
    have := trailer_rows_le enc _ h1
    simp only at this
    exact ⟨trailer_noBdw d hd, e, h1, h2, h3, by simp; omega⟩
  have key : (trailerLoop enc fs text isVar).2 = some err ↔ FirstRefused enc.trailerFormat text false (fs.map Prod.fst) err := by
    cases enc with
    | character => exact parseLoop_first (blocked := false) (layout_trailer .character).names hrows ht err
    | packed => exact parseLoop_first (blocked := false) (layout_trailer .packed).names hrows ht err
  rw [← key]
  simp only [Record.parse]
  unfold parseTrailer
  rw [if_neg (by omega)]
  generalize trailerLoop enc fs text isVar = q
  obtain ⟨fs, o⟩ := q
  cases o <;> simp

/-- C130 (data records): if a field of a data record cannot be read, the error is about the first such field, whatever segments follow. -/
theorem C130_data (enc : Enc) (fs : Fields) (g : Segs) (ht : fs.Typed baseSegmentStruct) (text : Bytes) (isVar : Bool) (hp : enc = .packed → isVar = true)
    (hl : Spec.recordLength enc + (if isVar then 4 else 0) ≤ text.length) (err : Err)
    (h : FirstRefused enc.baseFormat text isVar (fs.map Prod.fst) err) :
    ((Record.base enc fs g).parse text isVar).2 = .error err := by
  rw [recordLength_eq] at hl
  have key := fun pol hpol => (parseLoop_first_blocked (pol := pol) (bounds := true) (blocked_base enc) (layout_base enc) (base_rows_le enc) hpol hl ht err).2 h
  cases enc with
  | character =>
    have h1 := key (if isVar then .accept else .skip) rfl
    simp only [Enc.baseFormat, Enc.recordLength] at h1 hl
    simp only [Record.parse]
    unfold parseBaseCharacter
    rw [if_neg (by omega)]
    generalize parseLoop baseSegmentCharacterFormat (if isVar then .accept else .skip) true text 0 fs = q at h1
    obtain ⟨fs', o⟩ := q
    simp only at h1
    subst h1
    rfl
  | packed =>
    have := hp rfl
    subst this
    have h1 := key .accept rfl
    simp only [Enc.baseFormat, Enc.recordLength] at h1 hl
    simp only [Record.parse]
    unfold parseBasePacked
    rw [if_neg (by omega)]
    simp only [if_true]
    generalize parseLoop baseSegmentPackedFormat .accept true text 0 fs = q at h1
    obtain ⟨fs', o⟩ := q
    simp only at h1
    subst h1
    rfl

/-! ### Cases -/

theorem error_of_errorIn {α : Type} {x : Except Err α} {err : Err} (h : errorIn x = some err) : x = .error err := by
  cases x with
  | ok => cases h
  | error e => cases h; rfl

/-- Case of `C130_field`: a number without digits; one with a letter that is a digit to the check but not to the conversion; a required number that is zero; one that
does not fit in 64 bits; the thirtieth of February. -/
example : Refused ⟨0, 6, .numeric, false, false, .nullable⟩ .CreditLimit (b! "xyz  g") (.numeric .CreditLimit) ∧
    Refused ⟨0, 6, .numeric, false, false, .nullable⟩ .CreditLimit (b! "00A012") (.number .syntax) ∧
    Refused ⟨0, 6, .numeric, false, false, .required⟩ .CreditLimit (b! "000000") (.required .CreditLimit) ∧
    Refused ⟨0, 19, .numeric, false, false, .nullable⟩ .Reserved2 (b! "9999999999999999999") (.number .range) ∧
    Refused ⟨0, 8, .date, false, false, .nullable⟩ .DateBirth (b! "02302020") .timeFormat :=
  ⟨(C130_field _ _ _ rfl rfl _).1 (error_of_errorIn (by decide +kernel)), (C130_field _ _ _ rfl rfl _).1 (error_of_errorIn (by decide +kernel)),
    (C130_field _ _ _ rfl rfl _).1 (error_of_errorIn (by decide +kernel)), (C130_field _ _ _ rfl rfl _).1 (error_of_errorIn (by decide +kernel)),
    (C130_field _ _ _ rfl rfl _).1 (error_of_errorIn (by decide +kernel))⟩

/-- Case of `C130_segment`: of two faults in a K1 segment the first is reported. -/
example : FirstRefused k1SegmentFormat (b! "K1\tabc                          zz") false ((Seg.new .k1).fields.map Prod.fst)
    (.nonAlphanumeric .OriginalCreditorName) :=
  (C130_segment (Seg.new .k1) (Seg.new_typed _) _ false (by decide +kernel) _).1 (error_of_errorIn (by decide +kernel))

/-- Case of `C130_header`: a control character in the name of the reporter. -/
example : FirstRefused headerRecordCharacterFormat ((Record.header .character (header 0 426)).string.set 90 9) false (headerRecordStruct.map Prod.fst)
    (.nonAlphanumeric .ReporterName) :=
  (C130_header .character (zeroFields headerRecordStruct) (zeroFields_typed _) _ false false rfl (by decide) (by decide +kernel) _).1
    (error_of_errorIn (by decide +kernel))

/-- Case of `C130_trailer`: a letter in a required total, which the code reports as a missing one. -/
example : FirstRefused trailerRecordCharacterFormat ((Record.trailer .character (trailer 426)).string.set 15 120) false (trailerRecordStruct.map Prod.fst)
    (.required .TotalBaseRecords) :=
  (C130_trailer .character (zeroFields trailerRecordStruct) (zeroFields_typed _) _ false (by decide +kernel) _).1
    (error_of_errorIn (by decide +kernel))

/-- Case of `C130_data`: a control character in the surname. -/
example : FirstRefused baseSegmentCharacterFormat ((Record.base .character (base 0 426) {}).string.set 232 9) false (baseSegmentStruct.map Prod.fst)
    (.nonAlphanumeric .Surname) :=
  (parseLoop_first_blocked (pol := .skip) (bounds := true) (blocked_base .character) (layout_base .character) (base_rows_le .character) rfl
    (by decide +kernel) (zeroFields_typed _) _).1 (by decide +kernel)

end Metro2
