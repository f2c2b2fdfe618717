import Verif.Lemmas.Time
import Verif.Spec.Fits

/-! One field: what is written can be read. -/

namespace Metro2

theorem forall_uint8 {p : UInt8 → Prop} (h : ∀ n < 256, p (UInt8.ofNat n)) (c : UInt8) : p c := by
  have := h c.toNat c.toNat_lt
  rwa [UInt8.ofNat_toNat] at this

theorem alnumByte_iff (c : UInt8) : alnumByte c = true ↔ Spec.Permitted c := by
  revert c
  apply forall_uint8
  decide +kernel

theorem spec_leap_iff (y : Nat) : isLeap (y : Int) = true ↔ Spec.LeapYear y := by
  simp only [isLeap, Spec.LeapYear, Bool.and_eq_true, Bool.or_eq_true, decide_eq_true_eq]
  omega

theorem spec_dayExists_iff (m d y : Nat) :
    Spec.DayExists m d y ↔ 1 ≤ m ∧ m ≤ 12 ∧ 1 ≤ d ∧ d ≤ daysIn m (y : Int) := by
  constructor
  · rintro ⟨k, rfl, n, hn, h1, h2⟩
    have hk : k < 12 := by
      have := (List.getElem?_eq_some_iff.1 hn).1
      simpa [Spec.monthLengths] using this
    refine ⟨by omega, by omega, h1, ?_⟩
    have : n = daysIn (k + 1) y := by
      have hl := spec_leap_iff y
      rcases (by omega : k = 0 ∨ k = 1 ∨ k = 2 ∨ k = 3 ∨ k = 4 ∨ k = 5 ∨ k = 6 ∨ k = 7 ∨ k = 8 ∨ k = 9 ∨
        k = 10 ∨ k = 11) with h | h | h | h | h | h | h | h | h | h | h | h <;> subst h <;>
      simp [Spec.monthLengths, daysIn, hl] at hn ⊢ <;> exact hn.symm
    omega
  · rintro ⟨h1, h2, h3, h4⟩
    refine ⟨m - 1, by omega, daysIn m y, ?_, h3, h4⟩
    have hl := spec_leap_iff y
    rcases (by omega : m = 1 ∨ m = 2 ∨ m = 3 ∨ m = 4 ∨ m = 5 ∨ m = 6 ∨ m = 7 ∨ m = 8 ∨ m = 9 ∨ m = 10 ∨
      m = 11 ∨ m = 12) with h | h | h | h | h | h | h | h | h | h | h | h <;> subst h <;>
    simp [Spec.monthLengths, daysIn, hl]

theorem spec_plainTime_iff (t : Time) : Spec.PlainTime t ↔ t.Plain := by
  unfold Spec.PlainTime Time.Plain Time.Valid
  constructor
  · rintro ⟨y, hy, h9, hd, hh, hm, hs, hn, hl⟩
    rw [spec_dayExists_iff, ← hy] at hd
    refine ⟨⟨hd.1, hd.2.1, hd.2.2.1, hd.2.2.2, hh, hm, hs, by omega⟩, by omega, by omega, hn, hl⟩
  · rintro ⟨⟨h1, h2, h3, h4, h5, h6, h7, h8⟩, h0, h9, hn, hl⟩
    obtain ⟨y, hy⟩ := Int.eq_ofNat_of_zero_le h0
    refine ⟨y, hy, by omega, ?_, h5, h6, h7, hn, hl⟩
    rw [spec_dayExists_iff, ← hy]
    exact ⟨h1, h2, h3, h4⟩

theorem spec_noTime : Spec.noTime = Time.zero := rfl

theorem ascii_of_permitted {s : Bytes} (h : ∀ c ∈ s, Spec.Permitted c) : Ascii s := by
  intro c hc
  have : c.toNat ≤ 126 := (h c hc).2.1
  omega

theorem permitted_blank : Spec.Permitted 32 := by decide

theorem isAlphanumeric_eq_none {f : F} {s : Bytes} :
    isAlphanumeric f s = none ↔ ∀ c ∈ s, Spec.Permitted c := by
  unfold isAlphanumeric
  constructor
  · intro h c hc
    rw [← alnumByte_iff]
    split at h
    · simp at h
    · next hn =>
      simp only [List.any_eq_true, not_exists, not_and, Bool.not_eq_true, Bool.not_eq_false'] at hn
      exact hn c hc
  · intro h
    rw [if_neg]
    simp only [List.any_eq_true, not_exists, not_and, Bool.not_eq_true, Bool.not_eq_false']
    intro c hc
    exact (alnumByte_iff c).2 (h c hc)

theorem isNumeric_digits {f : F} {s : Bytes} (hne : s ≠ []) (h : ∀ c ∈ s, isDigit c = true) :
    isNumeric f s = none := by
  unfold isNumeric
  rw [if_pos]
  cases s with
  | nil => exact absurd rfl hne
  | cons c s =>
    have := h c List.mem_cons_self
    simp only [List.any_cons, Bool.or_eq_true]
    left
    unfold isDigit at this
    simp only [hexByte, this, Bool.true_or]

theorem allByte_iff (c : UInt8) (s : Bytes) : allByte c s = true ↔ s = List.replicate s.length c := by
  unfold allByte
  rw [List.all_eq_true]
  constructor
  · intro h
    exact List.eq_replicate_of_mem fun x hx => by simpa using h x hx
  · intro h x hx
    rw [h] at hx
    simp [List.eq_of_mem_replicate hx]

theorem allByte_zero_digitsVal {s : Bytes} (h : allByte 48 s = true) : digitsVal s = 0 := by
  rw [(allByte_iff _ _).1 h, digitsVal_replicate_zero]

theorem digitsVal_take_le {s a b : Bytes} (h : s = a ++ b) : digitsVal a * 10 ^ b.length ≤ digitsVal s := by
  rw [h, digitsVal_append]
  omega

/-- Formatting a plain time does not give zeros only. -/
theorem format_date_val {t : Time} (h : t.Plain) :
    1000000 ≤ digitsVal (t.format dateFormat) ∧ digitsVal (t.format dateFormat) < 13000000 := by
  rw [Time.format_date h]
  obtain ⟨⟨h1, h2, h3, h4, h5, h6, h7, h8⟩, hy0, hy1, hn, hl⟩ := h
  have hd := daysIn_le t.month t.year
  rw [digitsVal_append, digitsVal_append, digitsVal_decDigits_of_lt (by omega),
    digitsVal_decDigits_of_lt (by omega), digitsVal_decDigits_of_lt (by omega)]
  simp
  omega

theorem format_timestamp_val {t : Time} (h : t.Plain) :
    1000000000000 ≤ digitsVal (t.format timestampFormat) ∧
      digitsVal (t.format timestampFormat) < 13000000000000 := by
  rw [Time.format_timestamp h]
  obtain ⟨⟨h1, h2, h3, h4, h5, h6, h7, h8⟩, hy0, hy1, hn, hl⟩ := h
  have hd := daysIn_le t.month t.year
  simp only [digitsVal_append]
  rw [digitsVal_decDigits_of_lt (by omega),
    digitsVal_decDigits_of_lt (by omega), digitsVal_decDigits_of_lt (by omega),
    digitsVal_decDigits_of_lt (by omega),
    digitsVal_decDigits_of_lt (by omega), digitsVal_decDigits_of_lt (by omega)]
  simp
  omega

theorem timeFromString_format_date {t : Time} (h : t.Plain) (hm : t.Midnight) :
    timeFromString dateFormat (t.format dateFormat) = .ok t := by
  unfold timeFromString
  rw [if_neg, Time.parse_format_date h hm]
  intro ha
  have := allByte_zero_digitsVal ha
  have := format_date_val h
  omega

theorem timeFromString_format_timestamp {t : Time} (h : t.Plain) :
    timeFromString timestampFormat (t.format timestampFormat) = .ok t := by
  unfold timeFromString
  rw [if_neg, Time.parse_format_timestamp h]
  intro ha
  have := allByte_zero_digitsVal ha
  have := format_timestamp_val h
  omega

theorem fmtIntZero_digitsVal {k : Nat} {s : Bytes} (hk : 0 < k) (hl : s.length = k)
    (h : ∀ c ∈ s, isDigit c = true) : fmtIntZero k (digitsVal s : Int) = s := by
  have hlt := digitsVal_lt s h
  rw [hl] at hlt
  show padLeft k 48 (fmtNat (digitsVal s)) = s
  rw [padLeft_fmtNat hk hlt]
  have := decDigits_digitsVal s h
  rwa [hl] at this

/-- The three parts of a packed time field. -/
theorem timeFromPacked_bytes {size width : Nat} {layout : List Std} {mid : Bytes}
    (hs : 2 ≤ size) (hs8 : size ≤ 8) (hl : mid.length = size - 2) :
    timeFromPacked size width layout (0x00 :: mid ++ [0x73]) =
      timeFromString layout (fmtIntZero width (beVal mid)) := by
  have h0 : (0x00 :: mid ++ [0x73] : Bytes)[0]? = some 0x00 := rfl
  have h1 : (0x00 :: mid ++ [0x73] : Bytes)[size - 1]? = some 0x73 := by
    rw [List.getElem?_append_right (by simp; omega)]
    simp [hl, show size - 1 - (size - 2 + 1) = 0 by omega]
  have hm : (((0x00 :: mid ++ [0x73] : Bytes).drop 1).take (size - 2)) = mid := by
    simp [← hl]
  have hb := beVal_lt mid
  rw [hl] at hb
  have hle : 256 ^ (size - 2) ≤ 256 ^ 6 := Nat.pow_le_pow_right (by decide) (by omega)
  unfold timeFromPacked
  rw [h0, h1]
  simp only [and_self, if_true, hm]
  rw [convertInt64, if_pos (by omega)]

theorem packedTimeString_date {t : Time} (h : t.Plain) :
    packedTimeString t dateFormat 5 =
      0x00 :: beBytes 3 (digitsVal (t.format dateFormat)) ++ [0x73] := by
  have hv := format_date_val h
  have hd := Time.format_date_digits h
  have hne : t.format dateFormat ≠ [] := by
    intro h0
    have := Time.format_date_length h
    rw [h0] at this
    simp at this
  unfold packedTimeString
  rw [parseInt_digits hne hd (by omega)]
  simp only
  rw [if_pos (by omega)]
  simp

theorem packedTimeString_timestamp {t : Time} (h : t.Plain) :
    packedTimeString t timestampFormat 8 =
      0x00 :: beBytes 6 (digitsVal (t.format timestampFormat)) ++ [0x73] := by
  have hv := format_timestamp_val h
  have hd := Time.format_timestamp_digits h
  have hne : t.format timestampFormat ≠ [] := by
    intro h0
    have := Time.format_timestamp_length h
    rw [h0] at this
    simp at this
  unfold packedTimeString
  rw [parseInt_digits hne hd (by omega)]
  simp only
  rw [if_pos (by omega)]
  simp

theorem timeFromPacked_date {t : Time} (h : t.Plain) (hm : t.Midnight) :
    timeFromPacked 5 8 dateFormat (packedTimeString t dateFormat 5) = .ok t := by
  have hv := format_date_val h
  rw [packedTimeString_date h, timeFromPacked_bytes (by decide) (by decide) (by simp), beVal_beBytes,
    Nat.mod_eq_of_lt (by omega),
    fmtIntZero_digitsVal (by decide) (Time.format_date_length h) (Time.format_date_digits h),
    timeFromString_format_date h hm]

theorem timeFromPacked_timestamp {t : Time} (h : t.Plain) :
    timeFromPacked 8 14 timestampFormat (packedTimeString t timestampFormat 8) = .ok t := by
  have hv := format_timestamp_val h
  rw [packedTimeString_timestamp h, timeFromPacked_bytes (by decide) (by decide) (by simp), beVal_beBytes,
    Nat.mod_eq_of_lt (by omega),
    fmtIntZero_digitsVal (by decide) (Time.format_timestamp_length h)
      (Time.format_timestamp_digits h), timeFromString_format_timestamp h]

theorem packedNumberFromString_of_le {s : Bytes} (h : s.length ≤ 7) :
    packedNumberFromString s = .ok (beVal s : Int) := by
  unfold packedNumberFromString
  rw [List.take_of_length_le (by simp; omega), beVal_append, beVal_replicate_zero]
  have hb := beVal_lt s
  have hle : 256 ^ s.length ≤ 256 ^ 7 := Nat.pow_le_pow_right (by decide) h
  simp only [Nat.zero_mul, Nat.zero_add]
  rw [convertInt64, if_pos (by omega)]

theorem packedNumberString_nonneg {i : Int} {n : Nat} (h : 0 ≤ i) :
    packedNumberString i n = beBytes n i.toNat := by
  unfold packedNumberString
  split
  · rfl
  · have : i = 0 := by omega
    subst this
    clear h
    induction n with
    | zero => rfl
    | succ n ih => rw [List.replicate_succ, ih]; simp [beBytes]

theorem toStr_some {e : Field} {v : Val} (h : ¬ (e.omitted = true ∧ v = .int 0)) :
    toStr e (some v) = valText e v := if_neg h

theorem fmtInt_natCast (n : Nat) : fmtInt (n : Int) = fmtNat n := rfl

theorem fitsNumber_lt {n : Nat} {i : Int} (h : Spec.FitsNumber n i) : i < 10 ^ n := by
  rcases h with ⟨-, h⟩ | ⟨-, h, -⟩
  · exact h
  · have h1 : (0 : Int) < 10 ^ (n - 2) := Int.pow_pos (by decide)
    have h2 : (0 : Int) < 10 ^ n := Int.pow_pos (by decide)
    omega

/-- The text of a negative number that fills its field. -/
theorem fmtZeroStr_negative {k : Nat} {i : Int} (h2 : 2 ≤ k) (h0 : 10 ^ (k - 2) ≤ -i) (h1 : -i < 10 ^ (k - 1)) :
    fmtZeroStr k (fmtInt i) = 45 :: decDigits (k - 1) (-i).toNat := by
  have hpos : (0 : Int) < 10 ^ (k - 2) := Int.pow_pos (by decide)
  obtain ⟨n, rfl⟩ : ∃ n : Nat, i = Int.negSucc n := by
    cases i with
    | ofNat n => simp only [Int.ofNat_eq_natCast] at h0; omega
    | negSucc n => exact ⟨n, rfl⟩
  have e0 : -(Int.negSucc n) = ((n + 1 : Nat) : Int) := by rw [Int.negSucc_eq]; omega
  rw [e0] at h0 h1 ⊢
  have h0' : 10 ^ (k - 2) ≤ n + 1 := by exact_mod_cast h0
  have h1' : n + 1 < 10 ^ (k - 1) := by exact_mod_cast h1
  have hl : numDigits (n + 1) = k - 1 := by
    have ha := (numDigits_le_iff (show 0 < k - 1 by omega)).2 h1'
    have hb : ¬ numDigits (n + 1) ≤ k - 2 := by
      intro hc
      have h3 := lt_pow_numDigits (n + 1)
      have h4 : 10 ^ numDigits (n + 1) ≤ 10 ^ (k - 2) := Nat.pow_le_pow_right (by decide) hc
      omega
    omega
  have hf : fmtInt (Int.negSucc n) = 45 :: decDigits (k - 1) (n + 1) := by
    show 45 :: fmtNat (n + 1) = _
    rw [fmtNat, hl]
  rw [fmtZeroStr_ascii (ascii_fmtInt _), hf, Int.toNat_natCast, List.length_cons, length_decDigits,
    show k - (k - 1 + 1) = 0 by omega, List.take_of_length_le (by rw [List.length_cons, length_decDigits]; omega)]
  rfl

theorem roundtrip_negative {start len : Nat} {zf om : Bool} {req : Req} {i : Int} (f : F) (h2 : 2 ≤ len)
    (h0 : 10 ^ (len - 2) ≤ -i) (h1 : -i < 10 ^ (len - 1)) (hlo : -(2 ^ 63) ≤ i) :
    (toStr ⟨start, len, .numeric, zf, om, req⟩ (some (.int i))).length = len ∧
      isValidType ⟨start, len, .numeric, zf, om, req⟩ f
        (toStr ⟨start, len, .numeric, zf, om, req⟩ (some (.int i))) = none ∧
      parseValue ⟨start, len, .numeric, zf, om, req⟩
        (toStr ⟨start, len, .numeric, zf, om, req⟩ (some (.int i))) = .ok (.int i) := by
  have hpos : (0 : Int) < 10 ^ (len - 2) := Int.pow_pos (by decide)
  have hno : ¬ (om = true ∧ Val.int i = .int 0) := by
    rintro ⟨-, h⟩
    cases h
    omega
  have e1 : toStr ⟨start, len, .numeric, zf, om, req⟩ (some (.int i)) = 45 :: decDigits (len - 1) (-i).toNat := by
    rw [toStr_some hno]; simp only [valText]; rw [fmtZeroStr_negative h2 h0 h1]
  have hne : decDigits (len - 1) (-i).toNat ≠ [] := by
    intro h
    have := length_decDigits (len - 1) (-i).toNat
    rw [h] at this
    simp at this
    omega
  have hall := decDigits_all (len - 1) (-i).toNat
  have h1' : (-i).toNat < 10 ^ (len - 1) := by
    have : ((-i).toNat : Int) = -i := Int.toNat_of_nonneg (by omega)
    rw [← this] at h1
    exact_mod_cast h1
  have hval := digitsVal_decDigits_of_lt h1'
  have hp : parseInt (45 :: decDigits (len - 1) (-i).toNat) = .ok i := by
    have hall' : (decDigits (len - 1) (-i).toNat).all isDigit = true := List.all_eq_true.2 hall
    have hi : i = -((-i).toNat : Int) := by omega
    generalize (-i).toNat = m at hi hval hne hall'
    subst hi
    generalize decDigits (len - 1) m = s at hne hall' hval
    subst hval
    unfold parseInt parseIntBits
    simp [hne, hall']
    omega
  rw [e1]
  refine ⟨by rw [List.length_cons, length_decDigits]; omega, ?_, ?_⟩
  · simp only [isValidType, requiredCheck, atoiVal, hp]
    have hn : isNumeric f (45 :: decDigits (len - 1) (-i).toNat) = none := by
      have h0 := isNumeric_digits (f := f) hne hall
      unfold isNumeric at h0 ⊢
      have h1 : (decDigits (len - 1) (-i).toNat).any hexByte = true := by
        cases hh : (decDigits (len - 1) (-i).toNat).any hexByte
        · rw [hh] at h0; simp at h0
        · rfl
      simp [h1]
    by_cases hr : req = .required
    · rw [if_pos hr, if_neg (show ¬ i = 0 by omega)]; exact hn
    · rw [if_neg hr]; exact hn
  · simp only [parseValue, hp]

theorem roundtrip_numeric {start len : Nat} {zf om : Bool} {req : Req} {i : Int} (f : F)
    (hw : Spec.WidthOk ⟨start, len, .numeric, zf, om, req⟩ = true)
    (hf : Spec.Fits ⟨start, len, .numeric, zf, om, req⟩ (.int i))
    (hno : ¬ (om = true ∧ Val.int i = .int 0)) :
    (toStr ⟨start, len, .numeric, zf, om, req⟩ (some (.int i))).length = len ∧
      isValidType ⟨start, len, .numeric, zf, om, req⟩ f
        (toStr ⟨start, len, .numeric, zf, om, req⟩ (some (.int i))) = none ∧
      parseValue ⟨start, len, .numeric, zf, om, req⟩
        (toStr ⟨start, len, .numeric, zf, om, req⟩ (some (.int i))) = .ok (.int i) := by
  simp only [Spec.Fits] at hf
  simp only [Spec.WidthOk, decide_eq_true_eq] at hw
  obtain ⟨h, hlo, h2, h3⟩ := hf
  rcases h with ⟨h0, h1⟩ | ⟨hl, h0, h1⟩
  swap
  · exact roundtrip_negative f hl h0 h1 hlo
  obtain ⟨n, rfl⟩ := Int.eq_ofNat_of_zero_le h0
  have h1' : n < 10 ^ len := by exact_mod_cast h1
  have h2' : n < 2 ^ 63 := by exact_mod_cast h2
  have e1 : toStr ⟨start, len, .numeric, zf, om, req⟩ (some (.int n)) = decDigits len n := by
    rw [toStr_some hno]; simp only [valText]; rw [fmtInt_natCast, fmtZeroStr_fmtNat hw h1']
  have hne : decDigits len n ≠ [] := by
    intro h0
    have := length_decDigits len n
    rw [h0] at this
    simp at this
    omega
  have hall := decDigits_all len n
  have hval := digitsVal_decDigits_of_lt h1'
  rw [e1]
  refine ⟨length_decDigits _ _, ?_, ?_⟩
  · simp only [isValidType, requiredCheck]
    split
    · next err herr =>
      split at herr
      · next hreq =>
        rw [atoiVal_digits hne hall (by omega), hval] at herr
        rw [if_neg (h3 hreq)] at herr
        simp at herr
      · simp at herr
    · exact isNumeric_digits hne hall
  · simp only [parseValue]
    rw [parseInt_digits hne hall (by omega), hval]

theorem roundtrip_alphanumeric {start len : Nat} {zf om : Bool} {req : Req} {s : Bytes} (f : F)
    (hw : Spec.WidthOk ⟨start, len, .alphanumeric, zf, om, req⟩ = true)
    (hf : Spec.Fits ⟨start, len, .alphanumeric, zf, om, req⟩ (.str s))
    (hno : ¬ (om = true ∧ Val.str s = .int 0)) :
    (toStr ⟨start, len, .alphanumeric, zf, om, req⟩ (some (.str s))).length = len ∧
      isValidType ⟨start, len, .alphanumeric, zf, om, req⟩ f
        (toStr ⟨start, len, .alphanumeric, zf, om, req⟩ (some (.str s))) = none ∧
      parseValue ⟨start, len, .alphanumeric, zf, om, req⟩
        (toStr ⟨start, len, .alphanumeric, zf, om, req⟩ (some (.str s))) = .ok (.str s) := by
  simp only [Spec.Fits] at hf
  simp only [Spec.WidthOk, decide_eq_true_eq] at hw
  obtain ⟨h1, h2, h3⟩ := hf
  have hasc := ascii_of_permitted h2
  have e1 : toStr ⟨start, len, .alphanumeric, zf, om, req⟩ (some (.str s)) =
      s ++ List.replicate (len - s.length) 32 := by
    rw [toStr_some hno]; simp only [valText]; rw [fmtLeftStr_ascii hasc, List.take_of_length_le h1]
  rw [e1]
  have hlen : (s ++ List.replicate (len - s.length) 32 : Bytes).length = len := by
    simp; omega
  refine ⟨hlen, ?_, ?_⟩
  · simp only [isValidType, requiredCheck]
    rw [hlen, if_neg (by omega : ¬ len = 0)]
    simp only [ite_self]
    rw [isAlphanumeric_eq_none]
    intro c hc
    simp only [List.mem_append, List.mem_replicate] at hc
    rcases hc with hc | ⟨_, rfl⟩
    · exact h2 c hc
    · exact permitted_blank
  · simp only [parseValue]
    rw [trimRight_append_blanks, trimRight_eq_self h3]

theorem roundtrip_timestamp {start len : Nat} {zf om : Bool} {req : Req} {t : Time} (f : F)
    (hw : Spec.WidthOk ⟨start, len, .timestamp, zf, om, req⟩ = true)
    (hf : Spec.Fits ⟨start, len, .timestamp, zf, om, req⟩ (.time t))
    (hno : ¬ (om = true ∧ Val.time t = .int 0)) :
    (toStr ⟨start, len, .timestamp, zf, om, req⟩ (some (.time t))).length = len ∧
      isValidType ⟨start, len, .timestamp, zf, om, req⟩ f
        (toStr ⟨start, len, .timestamp, zf, om, req⟩ (some (.time t))) = none ∧
      parseValue ⟨start, len, .timestamp, zf, om, req⟩
        (toStr ⟨start, len, .timestamp, zf, om, req⟩ (some (.time t))) = .ok (.time t) := by
  simp only [Spec.Fits] at hf
  simp only [Spec.WidthOk, decide_eq_true_eq] at hw
  subst hw
  obtain ⟨h1, h2⟩ := hf
  have hp := (spec_plainTime_iff t).1 h1
  by_cases hz : t.isZero = true
  · have hz' := (Time.isZero_iff hp.1 hp.2.2.2.2).1 hz
    subst hz'
    have e1 : toStr ⟨start, 14, .timestamp, zf, om, req⟩ (some (.time Time.zero)) =
        List.replicate 14 48 := by
      rw [toStr_some hno]; simp only [valText]; rw [if_pos hz]
    rw [e1]
    refine ⟨by simp, ?_, rfl⟩
    simp only [isValidType, requiredCheck]
    split
    · next err herr =>
      split at herr
      · next hreq => exact absurd rfl (h2 hreq)
      · simp at herr
    · rfl
  · have e1 : toStr ⟨start, 14, .timestamp, zf, om, req⟩ (some (.time t)) =
        t.format timestampFormat := by
      rw [toStr_some hno]; simp only [valText]; rw [if_neg hz]
    rw [e1]
    refine ⟨Time.format_timestamp_length hp, ?_, ?_⟩
    · simp only [isValidType, requiredCheck]
      have hvf : validFilledString (t.format timestampFormat) = false := by
        rw [Bool.eq_false_iff]
        intro hc
        have hv := format_timestamp_val hp
        have hdg := Time.format_timestamp_digits hp
        simp only [validFilledString, Bool.or_eq_true] at hc
        rcases hc with (hc | hc) | hc
        · have := allByte_zero_digitsVal hc
          omega
        · rw [allByte_iff, Time.format_timestamp_length hp] at hc
          rw [hc] at hv
          exact absurd hv.2 (by decide)
        · rw [allByte_iff, Time.format_timestamp_length hp] at hc
          rw [hc] at hdg
          exact absurd (hdg 32 (by simp)) (by decide)
      simp [hvf]
    · simp only [parseValue]
      rw [timeFromString_format_timestamp hp]
      rfl

theorem roundtrip_date {start len : Nat} {zf om : Bool} {req : Req} {t : Time} (f : F)
    (hw : Spec.WidthOk ⟨start, len, .date, zf, om, req⟩ = true)
    (hf : Spec.Fits ⟨start, len, .date, zf, om, req⟩ (.time t))
    (hno : ¬ (om = true ∧ Val.time t = .int 0)) :
    (toStr ⟨start, len, .date, zf, om, req⟩ (some (.time t))).length = len ∧
      isValidType ⟨start, len, .date, zf, om, req⟩ f
        (toStr ⟨start, len, .date, zf, om, req⟩ (some (.time t))) = none ∧
      parseValue ⟨start, len, .date, zf, om, req⟩
        (toStr ⟨start, len, .date, zf, om, req⟩ (some (.time t))) = .ok (.time t) := by
  simp only [Spec.Fits] at hf
  simp only [Spec.WidthOk, decide_eq_true_eq] at hw
  subst hw
  obtain ⟨h1, hmid, h2⟩ := hf
  have hp := (spec_plainTime_iff t).1 h1
  by_cases hz : t.isZero = true
  · have hz' := (Time.isZero_iff hp.1 hp.2.2.2.2).1 hz
    subst hz'
    have e1 : toStr ⟨start, 8, .date, zf, om, req⟩ (some (.time Time.zero)) =
        List.replicate 8 48 := by
      rw [toStr_some hno]; simp only [valText]; rw [if_pos hz]
    rw [e1]
    refine ⟨by simp, ?_, rfl⟩
    simp only [isValidType, requiredCheck]
    split
    · next err herr =>
      split at herr
      · next hreq => exact absurd rfl (h2 hreq)
      · simp at herr
    · rfl
  · have e1 : toStr ⟨start, 8, .date, zf, om, req⟩ (some (.time t)) = t.format dateFormat := by
      rw [toStr_some hno]; simp only [valText]; rw [if_neg hz]
    rw [e1]
    refine ⟨Time.format_date_length hp, ?_, ?_⟩
    · simp only [isValidType, requiredCheck]
      have hvf : validFilledString (t.format dateFormat) = false := by
        rw [Bool.eq_false_iff]
        intro hc
        have hv := format_date_val hp
        have hdg := Time.format_date_digits hp
        simp only [validFilledString, Bool.or_eq_true] at hc
        rcases hc with (hc | hc) | hc
        · have := allByte_zero_digitsVal hc
          omega
        · rw [allByte_iff, Time.format_date_length hp] at hc
          rw [hc] at hv
          exact absurd hv.2 (by decide)
        · rw [allByte_iff, Time.format_date_length hp] at hc
          rw [hc] at hdg
          exact absurd (hdg 32 (by simp)) (by decide)
      simp [hvf]
    · simp only [parseValue]
      rw [timeFromString_format_date hp hmid]
      rfl

theorem roundtrip_descriptor {start len : Nat} {zf om : Bool} {req : Req} {i : Int} (f : F)
    (hw : Spec.WidthOk ⟨start, len, .descriptor, zf, om, req⟩ = true)
    (hf : Spec.Fits ⟨start, len, .descriptor, zf, om, req⟩ (.int i))
    (hno : ¬ (om = true ∧ Val.int i = .int 0)) :
    (toStr ⟨start, len, .descriptor, zf, om, req⟩ (some (.int i))).length = len ∧
      isValidType ⟨start, len, .descriptor, zf, om, req⟩ f
        (toStr ⟨start, len, .descriptor, zf, om, req⟩ (some (.int i))) = none ∧
      parseValue ⟨start, len, .descriptor, zf, om, req⟩
        (toStr ⟨start, len, .descriptor, zf, om, req⟩ (some (.int i))) = .ok (.int i) := by
  simp only [Spec.Fits] at hf
  simp only [Spec.WidthOk, decide_eq_true_eq] at hw
  subst hw
  have e1 : toStr ⟨start, 4, .descriptor, zf, om, req⟩ (some (.int i)) =
      beBytes 2 i.toNat ++ [0, 0] := by
    rw [toStr_some hno]; simp only [valText]; rw [descriptorString, if_pos hf]
  rw [e1]
  refine ⟨by simp, ?_, ?_⟩
  · simp [isValidType, requiredCheck]
  · simp only [parseValue]
    rw [if_neg (by simp), List.take_append_of_le_length (by simp), List.take_of_length_le (by simp),
      beVal_beBytes, Nat.mod_eq_of_lt (by omega)]
    congr 2
    omega

theorem roundtrip_packedTimestamp {start len : Nat} {zf om : Bool} {req : Req} {t : Time} (f : F)
    (hw : Spec.WidthOk ⟨start, len, .packedTimestamp, zf, om, req⟩ = true)
    (hf : Spec.Fits ⟨start, len, .packedTimestamp, zf, om, req⟩ (.time t))
    (hno : ¬ (om = true ∧ Val.time t = .int 0)) :
    (toStr ⟨start, len, .packedTimestamp, zf, om, req⟩ (some (.time t))).length = len ∧
      isValidType ⟨start, len, .packedTimestamp, zf, om, req⟩ f
        (toStr ⟨start, len, .packedTimestamp, zf, om, req⟩ (some (.time t))) = none ∧
      parseValue ⟨start, len, .packedTimestamp, zf, om, req⟩
        (toStr ⟨start, len, .packedTimestamp, zf, om, req⟩ (some (.time t))) = .ok (.time t) := by
  simp only [Spec.Fits] at hf
  simp only [Spec.WidthOk, decide_eq_true_eq] at hw
  subst hw
  have hp := (spec_plainTime_iff t).1 hf
  have e1 : toStr ⟨start, 8, .packedTimestamp, zf, om, req⟩ (some (.time t)) =
      packedTimeString t timestampFormat 8 := by
    rw [toStr_some hno]; rfl
  rw [e1]
  refine ⟨by rw [packedTimeString_timestamp hp]; simp, by simp [isValidType, requiredCheck], ?_⟩
  simp only [parseValue]
  rw [timeFromPacked_timestamp hp]
  rfl

theorem roundtrip_packedDate {start len : Nat} {zf om : Bool} {req : Req} {t : Time} (f : F)
    (hw : Spec.WidthOk ⟨start, len, .packedDate, zf, om, req⟩ = true)
    (hf : Spec.Fits ⟨start, len, .packedDate, zf, om, req⟩ (.time t))
    (hno : ¬ (om = true ∧ Val.time t = .int 0)) :
    (toStr ⟨start, len, .packedDate, zf, om, req⟩ (some (.time t))).length = len ∧
      isValidType ⟨start, len, .packedDate, zf, om, req⟩ f
        (toStr ⟨start, len, .packedDate, zf, om, req⟩ (some (.time t))) = none ∧
      parseValue ⟨start, len, .packedDate, zf, om, req⟩
        (toStr ⟨start, len, .packedDate, zf, om, req⟩ (some (.time t))) = .ok (.time t) := by
  simp only [Spec.Fits] at hf
  simp only [Spec.WidthOk, decide_eq_true_eq] at hw
  subst hw
  have hp := (spec_plainTime_iff t).1 hf.1
  have e1 : toStr ⟨start, 5, .packedDate, zf, om, req⟩ (some (.time t)) =
      packedTimeString t dateFormat 5 := by
    rw [toStr_some hno]; rfl
  rw [e1]
  refine ⟨by rw [packedTimeString_date hp]; simp, by simp [isValidType, requiredCheck], ?_⟩
  simp only [parseValue]
  rw [timeFromPacked_date hp hf.2]
  rfl

theorem roundtrip_packedNumber {start len : Nat} {zf om : Bool} {req : Req} {i : Int} (f : F)
    (hw : Spec.WidthOk ⟨start, len, .packedNumber, zf, om, req⟩ = true)
    (hf : Spec.Fits ⟨start, len, .packedNumber, zf, om, req⟩ (.int i))
    (hno : ¬ (om = true ∧ Val.int i = .int 0)) :
    (toStr ⟨start, len, .packedNumber, zf, om, req⟩ (some (.int i))).length = len ∧
      isValidType ⟨start, len, .packedNumber, zf, om, req⟩ f
        (toStr ⟨start, len, .packedNumber, zf, om, req⟩ (some (.int i))) = none ∧
      parseValue ⟨start, len, .packedNumber, zf, om, req⟩
        (toStr ⟨start, len, .packedNumber, zf, om, req⟩ (some (.int i))) = .ok (.int i) := by
  simp only [Spec.Fits] at hf
  simp only [Spec.WidthOk, Bool.and_eq_true, decide_eq_true_eq] at hw
  have e1 : toStr ⟨start, len, .packedNumber, zf, om, req⟩ (some (.int i)) = beBytes len i.toNat := by
    rw [toStr_some hno]; simp only [valText]; rw [packedNumberString_nonneg hf.1]
  rw [e1]
  refine ⟨by simp, by simp [isValidType, requiredCheck], ?_⟩
  simp only [parseValue]
  obtain ⟨n, rfl⟩ := Int.eq_ofNat_of_zero_le hf.1
  have h1' : n < 256 ^ len := by exact_mod_cast hf.2
  rw [packedNumberFromString_of_le (by simp; omega), beVal_beBytes]
  simp only [Int.toNat_natCast]
  rw [Nat.mod_eq_of_lt h1']
  rfl

/-- A value that fits is written in exactly the width of its field, passes the read check and is
read back. -/
theorem field_roundtrip {e : Field} {v : Val} (f : F) (hw : Spec.WidthOk e = true) (hf : Spec.Fits e v)
    (ho : e.omitted = true → v ≠ .int 0) :
    (toStr e (some v)).length = e.len ∧ isValidType e f (toStr e (some v)) = none ∧
      parseValue e (toStr e (some v)) = .ok v := by
  obtain ⟨start, len, typ, zf, om, req⟩ := e
  simp only at ho
  have hno : ¬ (om = true ∧ v = .int 0) := fun ⟨a, b⟩ => ho a b
  cases typ <;> cases v <;> first
    | exact hf.elim
    | exact roundtrip_numeric f hw hf hno
    | exact roundtrip_alphanumeric f hw hf hno
    | exact roundtrip_timestamp f hw hf hno
    | exact roundtrip_date f hw hf hno
    | exact roundtrip_descriptor f hw hf hno
    | exact roundtrip_packedTimestamp f hw hf hno
    | exact roundtrip_packedDate f hw hf hno
    | exact roundtrip_packedNumber f hw hf hno

end Metro2
