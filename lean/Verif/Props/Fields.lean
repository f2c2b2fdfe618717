import Verif.Lemmas.ParseInt
import Verif.Lemmas.Utf8

/-!
Properties C01 to C09: single fields. A row `e` of a layout table is arbitrary in all
theorems: any start, width, option and `Required` column.
-/

namespace Metro2

/-- The reader accepts the bytes `s` in field `e` and stores `v`: the type check passes and
the conversion gives `v`, which is what the parse loop requires of each field. -/
def Reads (e : Field) (f : F) (s : Bytes) (v : Val) : Prop :=
  isValidType e f s = none ∧ parseValue e s = .ok v

/-- The reader rejects the bytes. -/
def Rejects (e : Field) (f : F) (s : Bytes) : Prop := ∀ v, ¬ Reads e f s v

/-- The value is not one that the writer leaves out (only the optional block descriptor with value 0 is). -/
def Written (e : Field) (v : Val) : Prop := e.omitted = true → v ≠ .int 0

/-! ### C01 -/

/-- C01. Numeric fields survive write and read. -/
theorem C01_numeric_roundtrip (e : Field) (f : F) (v : Int) (ht : e.typ = .numeric) (hN : 1 ≤ e.len)
    (h0 : 0 ≤ v) (h1 : v < 10 ^ e.len) (h64 : v < 2 ^ 63) (hw : Written e (.int v))
    (hr : e.req = .required → v ≠ 0) :
    (toStr e (some (.int v))).length = e.len ∧
      Spec.Decimal (toStr e (some (.int v))) v.toNat ∧
      Reads e f (toStr e (some (.int v))) (.int v) := by
  obtain ⟨start, len, typ, zf, om, req⟩ := e
  simp only at ht
  subst ht
  have hno : ¬ (om = true ∧ Val.int v = .int 0) := fun ⟨a, b⟩ => hw a b
  obtain ⟨hl, hv, hp⟩ := roundtrip_numeric (start := start) (len := len) (zf := zf) (om := om)
    (req := req) (i := v) f (by simpa [Spec.WidthOk] using hN) ⟨.inl ⟨h0, h1⟩, by omega, h64, hr⟩ hno
  refine ⟨hl, ?_, hv, hp⟩
  obtain ⟨n, rfl⟩ := Int.eq_ofNat_of_zero_le h0
  have h1' : n < 10 ^ len := by exact_mod_cast h1
  rw [toStr_some hno]
  simp only [valText]
  rw [fmtInt_natCast, fmtZeroStr_fmtNat hN h1', spec_decimal_iff]
  exact ⟨decDigits_all _ _, by rw [digitsVal_decDigits_of_lt h1']; simp⟩

/-- Width 9, value 2500: nine digits. -/
example : toStr ⟨13, 9, .numeric, false, false, .required⟩ (some (.int 2500)) = b! "000002500" ∧
    Reads ⟨13, 9, .numeric, false, false, .required⟩ .CreditLimit (b! "000002500") (.int 2500) :=
  ⟨by decide +kernel, by decide +kernel, by rfl⟩

/-! ### C02 -/

/-- C02, the part that holds: whatever the number, the written field has exactly the width of
the field. -/
theorem C02_width_partial (e : Field) (v : Int) (ht : e.typ = .numeric) (hw : Written e (.int v)) :
    (toStr e (some (.int v))).length = e.len := by
  rw [toStr_some (fun ⟨a, b⟩ => hw a b)]
  simp only [valText, ht]
  exact fmtZeroStr_length (ascii_fmtInt v)

example : (toStr ⟨0, 3, .numeric, false, false, .nullable⟩ (some (.int (-123456)))).length = 3 :=
  C02_width_partial ⟨0, 3, .numeric, false, false, .nullable⟩ (-123456) rfl (by intro h; simp at h)

theorem digitsVal_take {s : Bytes} (h : ∀ c ∈ s, isDigit c = true) (n : Nat) :
    digitsVal (s.take n) = digitsVal s / 10 ^ (s.length - n) := by
  have h2 := digitsVal_append (s.take n) (s.drop n)
  rw [List.take_append_drop] at h2
  have h3 := digitsVal_lt (s.drop n) fun c hc => h c (List.mem_of_mem_drop hc)
  rw [List.length_drop] at h2 h3
  rw [h2, Nat.mul_comm, Nat.mul_add_div (Nat.pow_pos (by decide)), Nat.div_eq_of_lt h3, Nat.add_zero]

/-- C02 is violated: every number that needs more digits than the field has is written as
its leading digits, and these are read back as a different number. -/
theorem C02_violated (e : Field) (f : F) (v : Nat) (ht : e.typ = .numeric) (hN : 1 ≤ e.len)
    (hbig : 10 ^ e.len ≤ v) (h64 : v < 2 ^ 63) :
    ∃ k, 0 < k ∧ 10 ^ (e.len - 1) ≤ v / 10 ^ k ∧ v / 10 ^ k < 10 ^ e.len ∧ v / 10 ^ k ≠ v ∧
      Spec.Decimal (toStr e (some (.int v))) (v / 10 ^ k) ∧
      Reads e f (toStr e (some (.int v))) (.int (v / 10 ^ k : Nat)) := by
  have hvpos : 0 < v := Nat.lt_of_lt_of_le (Nat.pow_pos (by decide)) hbig
  have htext : toStr e (some (.int v)) = (fmtNat v).take e.len := by
    rw [toStr_some (by rintro ⟨-, h⟩; simp at h; omega)]
    simp only [valText, ht]
    rw [fmtInt_natCast, fmtZeroStr_ascii (ascii_of_digits (fmtNat_all v))]
    have : e.len < numDigits v := by
      rcases Nat.lt_or_ge e.len (numDigits v) with h | h
      · exact h
      · have := (numDigits_le_iff hN).1 h; omega
    rw [length_fmtNat, show e.len - numDigits v = 0 by omega]
    simp
  have hlt : e.len < numDigits v := by
    rcases Nat.lt_or_ge e.len (numDigits v) with h | h
    · exact h
    · have := (numDigits_le_iff hN).1 h; omega
  have hval := digitsVal_take (fmtNat_all v) e.len
  rw [digitsVal_fmtNat, length_fmtNat] at hval
  have hdig : ∀ c ∈ (fmtNat v).take e.len, isDigit c = true :=
    fun c hc => fmtNat_all v c (List.mem_of_mem_take hc)
  have hlen : ((fmtNat v).take e.len).length = e.len := by
    rw [List.length_take, length_fmtNat]; omega
  have hdec : Spec.Decimal ((fmtNat v).take e.len) (v / 10 ^ (numDigits v - e.len)) :=
    (spec_decimal_iff _ _).2 ⟨hdig, hval⟩
  have hlo : 10 ^ (e.len - 1) ≤ v / 10 ^ (numDigits v - e.len) := by
    rw [Nat.le_div_iff_mul_le (Nat.pow_pos (by decide)), ← Nat.pow_add,
      show e.len - 1 + (numDigits v - e.len) = numDigits v - 1 by omega]
    exact pow_numDigits_le hvpos
  have hhi : v / 10 ^ (numDigits v - e.len) < 10 ^ e.len := by
    rw [← hval]
    have := digitsVal_lt _ hdig
    rwa [hlen] at this
  refine ⟨numDigits v - e.len, by omega, hlo, hhi, by omega, htext ▸ hdec, ?_⟩
  rw [htext]
  refine (reads_numeric_iff f ht).2 ⟨_, rfl, ⟨_, _, ?_, hdec, Or.inl ⟨rfl, rfl⟩⟩, by omega, ?_, ?_⟩
  · intro h0; rw [h0] at hlen; simp at hlen; omega
  · have : v / 10 ^ (numDigits v - e.len) ≤ v := Nat.div_le_self _ _
    omega
  · intro _ h0
    have : 0 < 10 ^ (e.len - 1) := Nat.pow_pos (by decide)
    omega

/-- A balance of 1234567890 in a nine-digit field becomes 123456789. -/
example : toStr ⟨0, 9, .numeric, false, false, .nullable⟩ (some (.int 1234567890)) = b! "123456789" := by
  decide +kernel

/-- C02, negative numbers: one shorter than the field is written with zeros before the sign, which
the reader rejects; so it is not read back as another number, but not at all. -/
theorem C02_negative_rejected (e : Field) (f : F) (v : Nat) (ht : e.typ = .numeric) (hv : 0 < v)
    (hlen : v < 10 ^ (e.len - 2)) : Rejects e f (toStr e (some (.int (-(v : Int))))) := by
  rintro w hw
  obtain ⟨i, -, ⟨ds, n, hne, hd, h⟩, -⟩ := (reads_numeric_iff f ht).1 hw
  have h2 : 2 < e.len ∨ e.len ≤ 2 := by omega
  have hl2 : 2 < e.len := by
    rcases h2 with h2 | h2
    · exact h2
    · rw [show e.len - 2 = 0 by omega] at hlen; simp at hlen; omega
  have hnd : numDigits v ≤ e.len - 2 := (numDigits_le_iff (by omega)).2 hlen
  have htext : toStr e (some (.int (-(v : Int)))) =
      List.replicate (e.len - 1 - numDigits v) 48 ++ 45 :: fmtNat v := by
    rw [toStr_some (by rintro ⟨-, h⟩; simp at h; omega)]
    simp only [valText, ht]
    obtain ⟨m, rfl⟩ : ∃ m, v = m + 1 := ⟨v - 1, by omega⟩
    have e1 : fmtInt (-((m + 1 : Nat) : Int)) = 45 :: fmtNat (m + 1) := rfl
    rw [fmtZeroStr_ascii (ascii_fmtInt _), e1, List.take_of_length_le (by simp; omega)]
    simp only [List.length_cons, length_fmtNat]
    congr 2
    omega
  obtain ⟨k, hk⟩ : ∃ k, e.len - 1 - numDigits v = k + 1 := ⟨e.len - 2 - numDigits v, by omega⟩
  rw [htext, hk, List.replicate_succ, List.cons_append] at h
  have hdig := ((spec_decimal_iff _ _).1 hd).1
  have h45 : (45 : UInt8) ∈ ds := by
    rcases h with ⟨h, -⟩ | ⟨h, -⟩ | ⟨h, -⟩
    · rw [← h]; simp
    · simp at h
    · simp at h
  have := hdig 45 h45
  exact absurd this (by decide)

example : toStr ⟨0, 9, .numeric, false, false, .nullable⟩ (some (.int (-5))) = b! "0000000-5" := by
  decide +kernel

/-! ### C03 -/

/-- C03. Alphanumeric fields survive write and read. -/
theorem C03_alphanumeric_roundtrip (e : Field) (f : F) (s : Bytes) (ht : e.typ = .alphanumeric)
    (hN : 1 ≤ e.len) (hl : s.length ≤ e.len) (hp : ∀ c ∈ s, Spec.Permitted c)
    (hb : s.getLast? ≠ some 32) :
    toStr e (some (.str s)) = s ++ List.replicate (e.len - s.length) 32 ∧
      (toStr e (some (.str s))).length = e.len ∧ Reads e f (toStr e (some (.str s))) (.str s) := by
  obtain ⟨start, len, typ, zf, om, req⟩ := e
  simp only at ht
  subst ht
  have hno : ¬ (om = true ∧ Val.str s = .int 0) := by simp
  obtain ⟨h1, h2, h3⟩ := roundtrip_alphanumeric (start := start) (len := len) (zf := zf) (om := om)
    (req := req) (s := s) f (by simpa [Spec.WidthOk] using hN) ⟨hl, hp, hb⟩ hno
  refine ⟨?_, h1, h2, h3⟩
  rw [toStr_some hno]
  simp only [valText]
  rw [fmtLeftStr_ascii (ascii_of_permitted hp), List.take_of_length_le hl]

example : toStr ⟨0, 10, .alphanumeric, false, false, .nullable⟩ (some (.str (b! "A. SMITH"))) =
    b! "A. SMITH  " := by decide +kernel

/-! ### C04 -/

/-- C04, exact length: with the text split into characters, the written field is the first `N` characters,
filled with blanks to `N` characters. -/
theorem C04_length (e : Field) (s : Bytes) (cs : List Bytes) (ht : e.typ = .alphanumeric)
    (hc : Spec.Chars s cs) :
    toStr e (some (.str s)) = (cs.take e.len).flatten ++ List.replicate (e.len - cs.length) 32 := by
  rw [toStr_some (by simp)]
  simp only [valText, ht, fmtLeftStr]
  rw [chars_takeRunes hc, ← chars_takeRunes hc, runeCount_takeRunes, chars_runeCount hc]
  congr 2
  omega

/-- C04, what holds and exactly when: the written field has `N` bytes iff the first `N` characters are
single bytes. Missing for the full property: texts with a longer character, see `C04_violated`. -/
theorem C04_width_iff_partial (e : Field) (s : Bytes) (cs : List Bytes) (ht : e.typ = .alphanumeric)
    (hc : Spec.Chars s cs) :
    (toStr e (some (.str s))).length = e.len ↔ ∀ c ∈ cs.take e.len, c.length = 1 := by
  have hpos : ∀ c ∈ cs, 1 ≤ c.length := by
    clear ht
    induction hc with
    | nil => simp
    | char c h ih =>
      intro x hx
      rcases List.mem_cons.1 hx with rfl | hx
      · rw [String.length_utf8EncodeChar]; exact c.utf8Size_pos
      · exact ih x hx
    | invalid b hb h ih =>
      intro x hx
      rcases List.mem_cons.1 hx with rfl | hx
      · simp
      · exact ih x hx
  rw [C04_length e s cs ht hc, List.length_append, List.length_replicate]
  have key : ∀ l : List Bytes, (∀ c ∈ l, 1 ≤ c.length) →
      l.length ≤ l.flatten.length ∧ (l.flatten.length = l.length ↔ ∀ c ∈ l, c.length = 1) := by
    intro l hl
    induction l with
    | nil => simp
    | cons a l ih =>
      have h1 := hl a List.mem_cons_self
      obtain ⟨h2, h3⟩ := ih fun c hc => hl c (List.mem_cons_of_mem _ hc)
      rw [List.flatten_cons, List.length_append, List.length_cons]
      refine ⟨by omega, ?_⟩
      rw [List.forall_mem_cons, ← h3]
      omega
  obtain ⟨h1, h2⟩ := key (cs.take e.len) fun c hc => hpos c (List.mem_of_mem_take hc)
  rw [← h2]
  rw [List.length_take] at h1 ⊢
  omega

/-- C04 is violated: a text with a multi-byte character among its first `N` characters is written in
more than `N` bytes. -/
theorem C04_violated (e : Field) (pre post : List Char) (c : Char) (ht : e.typ = .alphanumeric)
    (hpos : pre.length < e.len) (hc : 128 ≤ c.toNat) :
    e.len < (toStr e (some (.str ((pre ++ c :: post).map String.utf8EncodeChar).flatten))).length := by
  have hch := chars_string (pre ++ c :: post)
  have h1 := C04_width_iff_partial e _ _ ht hch
  have hge : e.len ≤ (toStr e (some (.str ((pre ++ c :: post).map String.utf8EncodeChar).flatten))).length := by
    rw [toStr_some (by simp)]
    simp only [valText, ht]
    exact fmtLeftStr_length_ge _ _
  rcases Nat.lt_or_eq_of_le hge with h | h
  · exact h
  · exfalso
    have h2 := h1.1 h.symm (String.utf8EncodeChar c) (by
      rw [List.mem_iff_getElem?]
      refine ⟨pre.length, ?_⟩
      rw [List.getElem?_take_of_lt hpos]
      simp)
    rw [String.length_utf8EncodeChar, Char.utf8Size_eq_one_iff] at h2
    have : c.toNat ≤ 127 := h2
    omega

/-- "RENÉ" in a field of 10 characters takes 11 bytes. -/
example : (toStr ⟨0, 10, .alphanumeric, false, false, .nullable⟩
    (some (.str [0x52, 0x45, 0x4E, 0xC3, 0x89]))).length = 11 := by decide +kernel

/-- Case of `C04_length`. A text that satisfies the condition of `C04_width_iff_partial`. -/
example : Spec.Chars (b! "AB") [[65], [66]] := chars_string ['A', 'B']

/-! ### C05 -/

/-- C05, dates. -/
theorem C05_date_roundtrip (e : Field) (f : F) (t : Time) (ht : e.typ = .date) (hN : e.len = 8)
    (hp : Spec.PlainTime t) (hm : Spec.Midnight t) (hz : t ≠ Spec.noTime) :
    Spec.DateText (toStr e (some (.time t))) t.month t.day t.year.toNat ∧
      Reads e f (toStr e (some (.time t))) (.time t) := by
  obtain ⟨start, len, typ, zf, om, req⟩ := e
  simp only at ht hN
  subst ht hN
  have hno : ¬ (om = true ∧ Val.time t = .int 0) := by simp
  obtain ⟨h1, h2, h3⟩ := roundtrip_date (start := start) (len := 8) (zf := zf) (om := om)
    (req := req) (t := t) f (by simp [Spec.WidthOk]) ⟨hp, hm, fun _ => hz⟩ hno
  refine ⟨?_, h2, h3⟩
  have hp' := (spec_plainTime_iff t).1 hp
  have hnz : t.isZero ≠ true := fun h => hz ((Time.isZero_iff hp'.1 hp'.2.2.2.2).1 h)
  rw [toStr_some hno]
  simp only [valText]
  rw [if_neg hnz, Time.format_date hp']
  obtain ⟨y, hy, hy9, hd, -⟩ := hp
  have hd' := (spec_dayExists_iff _ _ _).1 hd
  have hdl := daysIn_le t.month (y : Int)
  refine ⟨_, _, _, rfl, length_decDigits _ _, length_decDigits _ _, length_decDigits _ _, ?_, ?_, ?_, ?_⟩
  · exact (spec_decimal_iff _ _).2 ⟨decDigits_all _ _, digitsVal_decDigits_of_lt (by omega)⟩
  · exact (spec_decimal_iff _ _).2 ⟨decDigits_all _ _, digitsVal_decDigits_of_lt (by omega)⟩
  · exact (spec_decimal_iff _ _).2 ⟨decDigits_all _ _, digitsVal_decDigits_of_lt (by omega)⟩
  · rw [hy]; exact hd

/-- C05, timestamps. -/
theorem C05_timestamp_roundtrip (e : Field) (f : F) (t : Time) (ht : e.typ = .timestamp)
    (hN : e.len = 14) (hp : Spec.PlainTime t) (hz : t ≠ Spec.noTime) :
    (∃ a b, toStr e (some (.time t)) = a ++ b ∧ Spec.DateText a t.month t.day t.year.toNat ∧
        Spec.ClockText b t.hour t.min t.sec) ∧
      Reads e f (toStr e (some (.time t))) (.time t) := by
  obtain ⟨start, len, typ, zf, om, req⟩ := e
  simp only at ht hN
  subst ht hN
  have hno : ¬ (om = true ∧ Val.time t = .int 0) := by simp
  obtain ⟨h1, h2, h3⟩ := roundtrip_timestamp (start := start) (len := 14) (zf := zf) (om := om)
    (req := req) (t := t) f (by simp [Spec.WidthOk]) ⟨hp, fun _ => hz⟩ hno
  refine ⟨?_, h2, h3⟩
  have hp' := (spec_plainTime_iff t).1 hp
  have hnz : t.isZero ≠ true := fun h => hz ((Time.isZero_iff hp'.1 hp'.2.2.2.2).1 h)
  rw [toStr_some hno]
  simp only [valText]
  rw [if_neg hnz, Time.format_timestamp hp']
  obtain ⟨y, hy, hy9, hd, hh, hmi, hs, -⟩ := hp
  have hd' := (spec_dayExists_iff _ _ _).1 hd
  have hdl := daysIn_le t.month (y : Int)
  have dec : ∀ {k n : Nat}, n < 10 ^ k → Spec.Decimal (decDigits k n) n := fun h =>
    (spec_decimal_iff _ _).2 ⟨decDigits_all _ _, digitsVal_decDigits_of_lt h⟩
  refine ⟨decDigits 2 t.month ++ decDigits 2 t.day ++ decDigits 4 t.year.toNat,
    decDigits 2 t.hour ++ decDigits 2 t.min ++ decDigits 2 t.sec, by simp [List.append_assoc],
    ⟨_, _, _, rfl, length_decDigits _ _, length_decDigits _ _, length_decDigits _ _, dec (by omega),
      dec (by omega), dec (by omega), ?_⟩,
    ⟨_, _, _, rfl, length_decDigits _ _, length_decDigits _ _, length_decDigits _ _, dec (by omega),
      dec (by omega), dec (by omega), hh, hmi, hs⟩⟩
  rw [hy]; exact hd

/-- C05, no date: zeros, and back. -/
theorem C05_zero_roundtrip (e : Field) (f : F) (ht : e.typ = .date ∨ e.typ = .timestamp)
    (hr : e.req ≠ .required) :
    toStr e (some (.time Spec.noTime)) = List.replicate e.len 48 ∧
      Reads e f (toStr e (some (.time Spec.noTime))) (.time Spec.noTime) := by
  have h1 : toStr e (some (.time Spec.noTime)) = List.replicate e.len 48 := by
    rw [toStr_some (by simp)]
    rcases ht with ht | ht <;> simp only [valText, ht] <;> exact if_pos rfl
  have h2 : allByte 48 (List.replicate e.len 48) = true := (allByte_iff _ _).2 (by simp)
  refine ⟨h1, ?_, ?_⟩
  · rcases ht with ht | ht <;> simp [isValidType, requiredCheck, ht, hr]
  · rw [h1]
    rcases ht with ht | ht <;> simp only [parseValue, ht, timeFromString, h2, if_true] <;> rfl

/-- Cases of `C05_date_roundtrip` and `C05_timestamp_roundtrip`. 29 February 2020 as a date, and 31 December 1999 23:59:58 as a timestamp. -/
example : toStr ⟨0, 8, .date, false, false, .required⟩ (some (.time ⟨2020, 2, 29, 0, 0, 0, 0, .utc⟩)) =
    b! "02292020" ∧
    toStr ⟨0, 14, .timestamp, false, false, .required⟩
      (some (.time ⟨1999, 12, 31, 23, 59, 58, 0, .utc⟩)) = b! "12311999235958" := by
  constructor <;> decide +kernel

/-- Cases of `C05_date_roundtrip` and `C07_packedDate_roundtrip`. -/
example : Spec.PlainTime ⟨2020, 2, 29, 0, 0, 0, 0, .utc⟩ :=
  ⟨2020, rfl, by decide, ⟨1, rfl, 29, by decide, by decide, by decide⟩, by decide, by decide, by decide,
    rfl, rfl⟩

/-! ### C06 -/

theorem timeFromString_ok_iff {layout : List Std} {s : Bytes} {t : Time} :
    timeFromString layout s = .ok t ↔
      (s = List.replicate s.length 48 ∧ t = Time.zero) ∨
      (s ≠ List.replicate s.length 48 ∧ Time.parse layout s = some t) := by
  unfold timeFromString
  by_cases h : allByte 48 s = true
  · have := (allByte_iff _ _).1 h
    rw [if_pos h]
    constructor
    · intro h'; left; exact ⟨this, by simpa using h'.symm⟩
    · rintro (⟨-, rfl⟩ | ⟨h', -⟩)
      · rfl
      · exact absurd this h'
  · have hn : s ≠ List.replicate s.length 48 := fun h' => h ((allByte_iff _ _).2 h')
    rw [if_neg h]
    cases hp : Time.parse layout s with
    | none => simp [hn]
    | some u => simp [hn]

/-- A filler is not the text of a date or time. -/
theorem not_filler_of_date {a b c r : Bytes} (ha : a.length = 2) (hd : ∀ x ∈ a, isDigit x = true)
    (h1 : 1 ≤ digitsVal a) (h2 : digitsVal a ≤ 12) :
    validFilledString (a ++ b ++ c ++ r) = false := by
  rw [Bool.eq_false_iff]
  have key : ∀ x, allByte x (a ++ b ++ c ++ r) = true → a = List.replicate 2 x := by
    intro x h
    rw [← ha]
    apply List.eq_replicate_of_mem
    intro y hy
    unfold allByte at h
    rw [List.all_eq_true] at h
    simpa using h y (by simp [hy])
  intro h
  simp only [validFilledString, Bool.or_eq_true] at h
  rcases h with (h | h) | h <;> have e := key _ h <;> subst e
  · exact absurd h1 (by decide)
  · exact absurd h2 (by decide)
  · exact absurd (hd 32 (by simp)) (by decide)

/-- C06. A date field is read exactly when it names an existing day, or is zero-filled and not
required; and the value is that day. -/
theorem C06_date_accepted_iff (e : Field) (f : F) (s : Bytes) (t : Time) (ht : e.typ = .date)
    (hN : e.len = 8) (hl : s.length = 8) :
    Reads e f s (.time t) ↔
      (e.req ≠ .required ∧ s = List.replicate 8 48 ∧ t = Spec.noTime) ∨
      ∃ m d y : Nat, Spec.DateText s m d y ∧ t = ⟨y, m, d, 0, 0, 0, 0, .utc⟩ := by
  have hv : isValidType e f s = none ↔ (e.req = .required → validFilledString s = false) := by
    simp only [isValidType, requiredCheck, ht, hl, hN, decide_true, Bool.and_true]
    by_cases hr : e.req = .required
    · cases hf : validFilledString s <;> simp [hr]
    · simp [hr]
  unfold Reads
  simp only [parseValue, ht]
  have hmap : (timeFromString dateFormat s).map Val.time = .ok (.time t) ↔
      timeFromString dateFormat s = .ok t := by
    cases timeFromString dateFormat s <;> simp [Except.map]
  rw [hmap, hv, timeFromString_ok_iff, hl, Time.parse_date]
  constructor
  · rintro ⟨hf, ⟨h1, h2⟩ | ⟨h1, a, b, c, hs, ha, hb, hc, hx, h3, h4, h5, h6, h7⟩⟩
    · refine Or.inl ⟨fun hr => ?_, h1, h2⟩
      have h3 := hf hr
      rw [h1] at h3
      exact absurd h3 (by decide)
    · right
      refine ⟨_, _, _, ⟨a, b, c, hs, ha, hb, hc, (spec_decimal_iff _ _).2 ⟨?_, rfl⟩,
        (spec_decimal_iff _ _).2 ⟨?_, rfl⟩, (spec_decimal_iff _ _).2 ⟨?_, rfl⟩,
        (spec_dayExists_iff _ _ _).2 ⟨h3, h4, h5, h6⟩⟩, h7⟩ <;>
      · intro x hm
        exact hx x (by simp [hs, hm])
  · rintro (⟨h0, h1, h2⟩ | ⟨m, d, y, ⟨a, b, c, hs, ha, hb, hc, da, db, dc, hd⟩, ht⟩)
    · exact ⟨fun hr => absurd hr h0, Or.inl ⟨h1, h2⟩⟩
    · obtain ⟨xa, va⟩ := (spec_decimal_iff _ _).1 da
      obtain ⟨xb, vb⟩ := (spec_decimal_iff _ _).1 db
      obtain ⟨xc, vc⟩ := (spec_decimal_iff _ _).1 dc
      obtain ⟨h3, h4, h5, h6⟩ := (spec_dayExists_iff _ _ _).1 hd
      refine ⟨fun _ => ?_, Or.inr ⟨?_, a, b, c, hs, ha, hb, hc, ?_, by omega, by omega, by omega, ?_, ?_⟩⟩
      · have := not_filler_of_date (b := b) (c := c) (r := []) ha xa (by omega) (by omega)
        rwa [List.append_nil, ← hs] at this
      · intro h0
        have ha0 : a = List.replicate 2 48 := by
          have e1 := congrArg (List.take 2) (hs.symm.trans h0)
          rw [List.append_assoc, List.take_append_of_le_length (by omega), List.take_of_length_le (by omega)] at e1
          simpa using e1
        rw [ha0] at va
        have : digitsVal (List.replicate 2 48) = 0 := digitsVal_replicate_zero 2
        omega
      · intro x hm
        rw [hs] at hm
        simp only [List.mem_append] at hm
        rcases hm with (hm | hm) | hm
        · exact xa x hm
        · exact xb x hm
        · exact xc x hm
      · rw [va, vb, vc]; exact h6
      · rw [ht, va, vb, vc]

/-- C06, timestamps. -/
theorem C06_timestamp_accepted_iff (e : Field) (f : F) (s : Bytes) (t : Time) (ht : e.typ = .timestamp)
    (hN : e.len = 14) (hl : s.length = 14) :
    Reads e f s (.time t) ↔
      (e.req ≠ .required ∧ s = List.replicate 14 48 ∧ t = Spec.noTime) ∨
      ∃ (a b : Bytes) (m d y h mi se : Nat), s = a ++ b ∧ Spec.DateText a m d y ∧
        Spec.ClockText b h mi se ∧ t = ⟨y, m, d, h, mi, se, 0, .utc⟩ := by
  have hv : isValidType e f s = none ↔ (e.req = .required → validFilledString s = false) := by
    simp only [isValidType, requiredCheck, ht, hl, hN, decide_true, Bool.and_true]
    by_cases hr : e.req = .required
    · cases hf : validFilledString s <;> simp [hr]
    · simp [hr]
  unfold Reads
  simp only [parseValue, ht]
  have hmap : (timeFromString timestampFormat s).map Val.time = .ok (.time t) ↔
      timeFromString timestampFormat s = .ok t := by
    cases timeFromString timestampFormat s <;> simp [Except.map]
  rw [hmap, hv, timeFromString_ok_iff, hl, Time.parse_timestamp]
  constructor
  · rintro ⟨hf, ⟨h1, h2⟩ | ⟨h1, a, b, c, d, e', g, hs, ha, hb, hc, hd, he', hg, hx, h3, h4, h5, h6, h7, h8, h9, h10⟩⟩
    · refine Or.inl ⟨fun hr => ?_, h1, h2⟩
      have h3 := hf hr
      rw [h1] at h3
      exact absurd h3 (by decide)
    · right
      have dec : ∀ u : Bytes, (∀ x ∈ u, x ∈ s) → Spec.Decimal u (digitsVal u) := fun u hu =>
        (spec_decimal_iff _ _).2 ⟨fun x hm => hx x (hu x hm), rfl⟩
      refine ⟨a ++ b ++ c, d ++ e' ++ g, _, _, _, _, _, _, by simp [hs, List.append_assoc],
        ⟨a, b, c, rfl, ha, hb, hc, dec a ?_, dec b ?_, dec c ?_, (spec_dayExists_iff _ _ _).2 ⟨h3, h4, h5, h6⟩⟩,
        ⟨d, e', g, rfl, hd, he', hg, dec d ?_, dec e' ?_, dec g ?_, h7, h8, h9⟩, h10⟩ <;>
      · intro x hm
        simp [hs, hm]
  · rintro (⟨h0, h1, h2⟩ | ⟨_, _, m, d, y, hh, mi, se, hs, ⟨a, b, c, rfl, ha, hb, hc, da, db, dc, hd⟩,
      ⟨a', b', c', rfl, ha', hb', hc', da', db', dc', g1, g2, g3⟩, ht⟩)
    · exact ⟨fun hr => absurd hr h0, Or.inl ⟨h1, h2⟩⟩
    · obtain ⟨xa, va⟩ := (spec_decimal_iff _ _).1 da
      obtain ⟨xb, vb⟩ := (spec_decimal_iff _ _).1 db
      obtain ⟨xc, vc⟩ := (spec_decimal_iff _ _).1 dc
      obtain ⟨xa', va'⟩ := (spec_decimal_iff _ _).1 da'
      obtain ⟨xb', vb'⟩ := (spec_decimal_iff _ _).1 db'
      obtain ⟨xc', vc'⟩ := (spec_decimal_iff _ _).1 dc'
      obtain ⟨h3, h4, h5, h6⟩ := (spec_dayExists_iff _ _ _).1 hd
      refine ⟨fun _ => ?_, Or.inr ⟨?_, a, b, c, a', b', c', by simp [hs, List.append_assoc], ha, hb, hc, ha',
        hb', hc', ?_, by omega, by omega, by omega, ?_, by omega, by omega, by omega, ?_⟩⟩
      · have := not_filler_of_date (b := b) (c := c) (r := a' ++ b' ++ c') ha xa (by omega) (by omega)
        rwa [← hs] at this
      · intro h0
        have ha0 : a = List.replicate 2 48 := by
          have e1 := congrArg (List.take 2) (hs.symm.trans h0)
          rw [List.append_assoc, List.append_assoc, List.take_append_of_le_length (by omega),
            List.take_of_length_le (by omega)] at e1
          simpa using e1
        rw [ha0] at va
        have : digitsVal (List.replicate 2 48) = 0 := digitsVal_replicate_zero 2
        omega
      · intro x hm
        rw [hs] at hm
        simp only [List.mem_append] at hm
        rcases hm with ((hm | hm) | hm) | ((hm | hm) | hm)
        · exact xa x hm
        · exact xb x hm
        · exact xc x hm
        · exact xa' x hm
        · exact xb' x hm
        · exact xc' x hm
      · rw [va, vb, vc]; exact h6
      · rw [ht, va, vb, vc, va', vb', vc']

/-- Case of `C06_date_accepted_iff`. -/
example : Reads ⟨0, 8, .date, false, false, .nullable⟩ .DateBirth (b! "02292020")
    (.time ⟨2020, 2, 29, 0, 0, 0, 0, .utc⟩) := ⟨by decide +kernel, by rfl⟩

example : parseValue ⟨0, 8, .date, false, false, .nullable⟩ (b! "02292019") = .error .timeFormat := by rfl

/-! ### C07 -/

/-- C07, packed dates. -/
theorem C07_packedDate_roundtrip (e : Field) (f : F) (t : Time) (ht : e.typ = .packedDate)
    (hp : Spec.PlainTime t) (hm : Spec.Midnight t) :
    (∃ mid, toStr e (some (.time t)) = 0x00 :: mid ++ [0x73] ∧ mid.length = 3 ∧
        Spec.BigEndian mid (t.month * 1000000 + t.day * 10000 + t.year.toNat)) ∧
      Reads e f (toStr e (some (.time t))) (.time t) := by
  have hp' := (spec_plainTime_iff t).1 hp
  have h1 : toStr e (some (.time t)) = packedTimeString t dateFormat 5 := by
    rw [toStr_some (by simp)]
    simp only [valText, ht]
  have hv := format_date_val hp'
  refine ⟨⟨_, h1.trans (packedTimeString_date hp'), by simp, ?_⟩, ?_, ?_⟩
  · rw [spec_bigEndian_iff, beVal_beBytes, Nat.mod_eq_of_lt (by omega), Time.format_date hp']
    obtain ⟨y, hy, hy9, hd, -⟩ := hp
    have hd' := (spec_dayExists_iff _ _ _).1 hd
    have hdl := daysIn_le t.month (y : Int)
    simp only [digitsVal_append, length_decDigits]
    rw [digitsVal_decDigits_of_lt (by omega), digitsVal_decDigits_of_lt (by omega),
      digitsVal_decDigits_of_lt (by omega)]
    omega
  · simp [isValidType, requiredCheck, ht]
  · rw [h1]
    simp only [parseValue, ht]
    rw [timeFromPacked_date hp' hm]
    rfl

/-- C07, packed timestamps. -/
theorem C07_packedTimestamp_roundtrip (e : Field) (f : F) (t : Time) (ht : e.typ = .packedTimestamp)
    (hp : Spec.PlainTime t) :
    (∃ mid, toStr e (some (.time t)) = 0x00 :: mid ++ [0x73] ∧ mid.length = 6 ∧
        Spec.BigEndian mid ((t.month * 1000000 + t.day * 10000 + t.year.toNat) * 1000000 +
          t.hour * 10000 + t.min * 100 + t.sec)) ∧
      Reads e f (toStr e (some (.time t))) (.time t) := by
  have hp' := (spec_plainTime_iff t).1 hp
  have h1 : toStr e (some (.time t)) = packedTimeString t timestampFormat 8 := by
    rw [toStr_some (by simp)]
    simp only [valText, ht]
  have hv := format_timestamp_val hp'
  refine ⟨⟨_, h1.trans (packedTimeString_timestamp hp'), by simp, ?_⟩, ?_, ?_⟩
  · rw [spec_bigEndian_iff, beVal_beBytes, Nat.mod_eq_of_lt (by omega), Time.format_timestamp hp']
    obtain ⟨y, hy, hy9, hd, hh, hmi, hs, -⟩ := hp
    have hd' := (spec_dayExists_iff _ _ _).1 hd
    have hdl := daysIn_le t.month (y : Int)
    simp only [digitsVal_append, length_decDigits]
    rw [digitsVal_decDigits_of_lt (by omega), digitsVal_decDigits_of_lt (by omega),
      digitsVal_decDigits_of_lt (by omega), digitsVal_decDigits_of_lt (by omega),
      digitsVal_decDigits_of_lt (by omega), digitsVal_decDigits_of_lt (by omega)]
    omega
  · simp [isValidType, requiredCheck, ht]
  · rw [h1]
    simp only [parseValue, ht]
    rw [timeFromPacked_timestamp hp']
    rfl

/-- Case of `C07_packedDate_roundtrip`. 20 August 2019 packed: 8202019 = 0x7D2723. -/
example : toStr ⟨0, 5, .packedDate, false, false, .required⟩ (some (.time ⟨2019, 8, 20, 0, 0, 0, 0, .utc⟩)) =
    [0x00, 0x7D, 0x27, 0x23, 0x73] := by decide +kernel

/-! ### C08 -/

/-- C08. Packed numbers: `N` big-endian bytes; a value in range is read back. -/
theorem C08_packedNumber_roundtrip (e : Field) (f : F) (v : Int) (ht : e.typ = .packedNumber)
    (hN : e.len ≤ 7) (hw : Written e (.int v)) (h0 : 0 ≤ v) (h1 : v < 256 ^ e.len) :
    (toStr e (some (.int v))).length = e.len ∧ Spec.BigEndian (toStr e (some (.int v))) v.toNat ∧
      Reads e f (toStr e (some (.int v))) (.int v) := by
  obtain ⟨n, rfl⟩ := Int.eq_ofNat_of_zero_le h0
  have h1' : n < 256 ^ e.len := by exact_mod_cast h1
  have e1 : toStr e (some (.int n)) = beBytes e.len n := by
    rw [toStr_some (fun ⟨a, b⟩ => hw a b)]
    simp only [valText, ht]
    exact packedNumberString_nonneg h0
  rw [e1]
  refine ⟨length_beBytes _ _, ?_, ?_, ?_⟩
  · rw [spec_bigEndian_iff, beVal_beBytes, Nat.mod_eq_of_lt h1']; rfl
  · simp [isValidType, requiredCheck, ht]
  · simp only [parseValue, ht]
    rw [packedNumberFromString_of_le (by rw [length_beBytes]; exact hN), beVal_beBytes,
      Nat.mod_eq_of_lt h1']
    rfl

/-- C08, values out of range: reduced modulo 256^N, negative ones to 0. -/
theorem C08_packedNumber_overflow (e : Field) (f : F) (v : Int) (ht : e.typ = .packedNumber)
    (hN : e.len ≤ 7) (hw : Written e (.int v)) :
    (toStr e (some (.int v))).length = e.len ∧
      Reads e f (toStr e (some (.int v))) (.int (if 0 ≤ v then v % 256 ^ e.len else 0)) := by
  have e1 : toStr e (some (.int v)) = beBytes e.len v.toNat := by
    rw [toStr_some (fun ⟨a, b⟩ => hw a b)]
    simp only [valText, ht]
    rcases Int.lt_or_le v 0 with h | h
    · have hz := packedNumberString_nonneg (i := 0) (n := e.len) (by omega)
      rw [show v.toNat = (0 : Int).toNat by omega, ← hz]
      unfold packedNumberString
      rw [if_neg (by omega), if_neg (by omega)]
    · exact packedNumberString_nonneg h
  rw [e1]
  refine ⟨length_beBytes _ _, ?_, ?_⟩
  · simp [isValidType, requiredCheck, ht]
  · simp only [parseValue, ht]
    rw [packedNumberFromString_of_le (by rw [length_beBytes]; exact hN), beVal_beBytes]
    simp only [Except.map, Except.ok.injEq, Val.int.injEq]
    split
    · next h =>
      obtain ⟨n, rfl⟩ := Int.eq_ofNat_of_zero_le h
      simp
    · next h => rw [show v.toNat = 0 by omega]; simp

example : Reads ⟨0, 4, .packedNumber, false, false, .nullable⟩ .CreditLimit
    (toStr ⟨0, 4, .packedNumber, false, false, .nullable⟩ (some (.int 4294967301))) (.int 5) :=
  (C08_packedNumber_overflow ⟨0, 4, .packedNumber, false, false, .nullable⟩ .CreditLimit 4294967301 rfl
    (by decide) (by intro h; simp at h)).2

/-- Case of `C08_packedNumber_roundtrip`. 8202019 in five bytes. -/
example : Written ⟨0, 5, .packedNumber, false, false, .required⟩ (.int 8202019) ∧ (8202019 : Int) < 256 ^ 5 ∧
    toStr ⟨0, 5, .packedNumber, false, false, .required⟩ (some (.int 8202019)) = [0x00, 0x00, 0x7D, 0x27, 0x23] :=
  ⟨by intro h; exact absurd h (by decide), by decide, by decide +kernel⟩

/-! ### C09 -/

/-- C09, numeric fields. -/
theorem C09_numeric_accepted_iff (e : Field) (f : F) (s : Bytes) (v : Val) (ht : e.typ = .numeric) :
    Reads e f s v ↔
      ∃ i, v = .int i ∧ Spec.SignedDecimal s i ∧ -(2 ^ 63 : Int) ≤ i ∧ i < 2 ^ 63 ∧
        (e.req = .required → i ≠ 0) := reads_numeric_iff f ht

/-- C09, alphanumeric fields: the text without its trailing blanks. -/
theorem C09_alphanumeric_accepted_iff (e : Field) (f : F) (s : Bytes) (v : Val)
    (ht : e.typ = .alphanumeric) (hs : s ≠ []) :
    Reads e f s v ↔
      (∀ c ∈ s, Spec.Permitted c) ∧
      ∃ t k, v = .str t ∧ s = t ++ List.replicate k 32 ∧ t.getLast? ≠ some 32 := by
  rw [Reads, reads_alphanumeric_iff f ht hs]
  constructor
  · rintro ⟨h1, h2⟩
    exact ⟨h1, trimRight s, _, h2, trimRight_spec s, noTrailingBlank_trimRight s⟩
  · rintro ⟨h1, t, k, rfl, hk, hb⟩
    refine ⟨h1, ?_⟩
    rw [hk, trimRight_append_blanks, trimRight_eq_self hb]

/-- Case of `C09_numeric_accepted_iff`. -/
example : Reads ⟨0, 6, .numeric, false, false, .required⟩ .CreditLimit (b! "-00012") (.int (-12)) :=
  ⟨by decide +kernel, by rfl⟩

example : Rejects ⟨0, 6, .numeric, false, false, .required⟩ .CreditLimit (b! "00A012") := by
  rintro v ⟨-, h⟩
  have : parseValue ⟨0, 6, .numeric, false, false, .required⟩ (b! "00A012") =
    .error (.number .syntax) := by rfl
  rw [this] at h
  simp at h

example : Reads ⟨0, 6, .alphanumeric, false, false, .required⟩ .Surname (b! "O'NEIL") (.str (b! "O'NEIL")) :=
  ⟨by decide +kernel, by rfl⟩

end Metro2
