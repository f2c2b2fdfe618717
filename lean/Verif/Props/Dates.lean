import Verif.Lemmas.Json
import Verif.Lemmas.Check

/-! C59–C61: dates in JSON. -/

namespace Metro2

/-- The environments of the examples: numbers unchanged, no zone abbreviation known. -/
def plainEnv : JsonEnv := ⟨some, fun _ _ => none⟩

theorem existing_iff (t : Time) :
    Spec.ExistingTime t ↔ (1 ≤ t.month ∧ t.month ≤ 12 ∧ 1 ≤ t.day ∧ t.day ≤ daysIn t.month t.year) ∧ t.hour < 24 ∧ t.min < 60 ∧
      t.sec < 60 ∧ 0 ≤ t.year ∧ t.year ≤ 9999 := by
  constructor
  · rintro ⟨y, hy, h9, hd, h1, h2, h3⟩
    rw [hy]
    exact ⟨(spec_dayExists_iff _ _ _).1 hd, h1, h2, h3, by omega, by omega⟩
  · rintro ⟨hd, h1, h2, h3, h4, h5⟩
    obtain ⟨y, hy⟩ := Int.eq_ofNat_of_zero_le h4
    rw [hy] at hd
    exact ⟨y, hy, by omega, (spec_dayExists_iff _ _ _).2 hd, h1, h2, h3⟩

/-! ### C59: what is written is read -/

/-- C59, full statement: every time that JSON writes is read back as the same time. -/
def C59_statement : Prop :=
  ∀ (env : JsonEnv) (old t : Time), Spec.ExistingTime t → t.nsec < 1000000000 →
    decodeVal env (.time old) (encodeVal (.time t)) = some (.time t)

/-- C59 for whole seconds in UTC, in every local time zone. -/
theorem C59_utc_partial (env : JsonEnv) (old t : Time) (h : Spec.PlainTime t) :
    decodeVal env (.time old) (encodeVal (.time t)) = some (.time t) := by
  have hp := (spec_plainTime_iff t).1 h
  simp only [decodeVal, encodeVal]
  by_cases hz : t.isZero = true
  · rw [if_pos hz, (Time.isZero_iff hp.1 hp.2.2.2.2).1 hz]
    rfl
  · rw [if_neg hz, decodeTime_plain env (isoText_plain (isoText_rfc3339 h)) (rfc3339_ne_nil t),
      parseDate_iso env.zone h (isoText_rfc3339 h)]
    rfl

example : Spec.PlainTime ⟨2020, 2, 29, 23, 59, 59, 0, .utc⟩ :=
  (spec_plainTime_iff _).2 (by unfold Time.Plain; decide)

theorem isoZoneText_rfc3339 {t : Time} {o : Int} (h : Spec.ExistingTime t) (hl : t.loc = .zone o)
    (h0 : o ≠ 0) (h24 : o.natAbs < 86400) : Spec.IsoZoneText (rfc3339 t) (Spec.jsonTime t) := by
  obtain ⟨⟨h1, h2, h3, h4⟩, h5, h6, h7, hy0, hy1⟩ := (existing_iff t).1 h
  have hd := daysIn_le t.month t.year
  obtain ⟨y, hy⟩ := Int.eq_ofNat_of_zero_le hy0
  have hsign : o.tdiv 60 < 0 ↔ o ≤ -60 := by
    rcases Int.lt_or_le o 0 with ho | ho
    · obtain ⟨n, hn⟩ : ∃ n : Nat, o = -(n : Int) := ⟨o.natAbs, by omega⟩
      rw [hn, Int.neg_tdiv, Int.tdiv_eq_ediv_of_nonneg (Int.natCast_nonneg n)]
      omega
    · have := Int.tdiv_nonneg ho (show (0 : Int) ≤ 60 by decide)
      omega
  refine ⟨decDigits 4 y, decDigits 2 t.month, decDigits 2 t.day, decDigits 2 t.hour, decDigits 2 t.min, decDigits 2 t.sec,
    decDigits 2 (o.natAbs / 60 / 60), decDigits 2 (o.natAbs / 60 % 60), if o.tdiv 60 < 0 then 45 else 43, o.natAbs / 60 / 60, o.natAbs / 60 % 60,
    ?_, length_decDigits _ _, length_decDigits _ _, length_decDigits _ _, length_decDigits _ _, length_decDigits _ _,
    length_decDigits _ _, length_decDigits _ _, length_decDigits _ _,
    ⟨y, hy, spec_decimal_decDigits (by omega)⟩, spec_decimal_decDigits (by omega),
    spec_decimal_decDigits (by omega), spec_decimal_decDigits (by omega),
    spec_decimal_decDigits (by omega),
    spec_decimal_decDigits (by omega), spec_decimal_decDigits (by omega), spec_decimal_decDigits (by omega), by omega, by omega, ?_⟩
  · unfold rfc3339
    rw [hy, hl, appendInt_ofNat (by decide) (by omega), appendInt_ofNat (by decide) (by omega),
      appendInt_ofNat (by decide) (by omega), appendInt_ofNat (by decide) (by omega),
      appendInt_ofNat (by decide) (by omega), appendInt_ofNat (by decide) (by omega)]
    unfold rfc3339Zone
    simp only
    rw [if_neg h0, appendInt_ofNat (by decide) (by omega), appendInt_ofNat (by decide) (by omega)]
    simp only [List.append_assoc, List.cons_append, List.nil_append]
  · simp only [Spec.jsonTime, hl, Spec.minuteZone, if_neg h0]
    by_cases ho : o ≤ -60
    · right
      refine ⟨if_pos (hsign.2 ho), ?_⟩
      rw [if_neg (by omega)]
      congr 1
      omega
    · left
      refine ⟨if_neg (fun h => ho (hsign.1 h)), ?_⟩
      split
      · congr 1
        omega
      · congr 1
        omega

theorem isoZoneText_plain {s : Bytes} {t : Time} (h : Spec.IsoZoneText s t) : ∀ c ∈ s, plainByte c = true := by
  obtain ⟨y, mo, d, hh, mi, se, zh, zm, sign, za, zb, rfl, l1, l2, l3, l4, l5, l6, l7, l8, ⟨n, hy, e1⟩, e2, e3, e4, e5, e6, e7, e8,
    hza, hzb, hz⟩ := h
  rw [spec_decimal_iff] at e1 e2 e3 e4 e5 e6 e7 e8
  intro c hc
  simp only [List.mem_append, List.mem_singleton] at hc
  rcases hc with ((((((((((((((h | h) | h) | h) | h) | h) | h) | h) | h) | h) | h) | h) | h) | h) | h)
  · exact plainByte_digit (e1.1 c h)
  · subst h; decide
  · exact plainByte_digit (e2.1 c h)
  · subst h; decide
  · exact plainByte_digit (e3.1 c h)
  · subst h; decide
  · exact plainByte_digit (e4.1 c h)
  · subst h; decide
  · exact plainByte_digit (e5.1 c h)
  · subst h; decide
  · exact plainByte_digit (e6.1 c h)
  · subst h; rcases hz with ⟨h, _⟩ | ⟨h, _⟩ <;> subst h <;> decide
  · exact plainByte_digit (e7.1 c h)
  · subst h; decide
  · exact plainByte_digit (e8.1 c h)

theorem jsonTime_existing {t : Time} (h : Spec.ExistingTime t) : Spec.ExistingTime (Spec.jsonTime t) := h

/-- C59, exactly: every existing time that is not the zero time is read back without its fraction of a second and with an offset in whole minutes, in
every local time zone. -/
theorem C59_exact (env : JsonEnv) (old t : Time) (h : Spec.ExistingTime t) (h24 : t.loc.offset.natAbs < 86400) (hz : ¬ t.isZero) :
    decodeVal env (.time old) (encodeVal (.time t)) = some (.time (Spec.jsonTime t)) := by
  have utc : ∀ t : Time, Spec.ExistingTime t → ¬ t.isZero → Spec.minuteZone t.loc = .utc → rfc3339 t = rfc3339 (Spec.jsonTime t) →
      decodeVal env (.time old) (encodeVal (.time t)) = some (.time (Spec.jsonTime t)) := by
    intro t h hz hm he
    have hp : Spec.PlainTime (Spec.jsonTime t) := by
      rw [spec_plainTime_iff]
      obtain ⟨⟨h1, h2, h3, h4⟩, h5, h6, h7, hy0, hy1⟩ := (existing_iff t).1 h
      exact ⟨⟨h1, h2, h3, h4, h5, h6, h7, by simp [Spec.jsonTime]⟩, hy0, hy1, rfl, hm⟩
    simp only [decodeVal, encodeVal]
    rw [if_neg hz, he, decodeTime_plain env (isoText_plain (isoText_rfc3339 hp)) (rfc3339_ne_nil _),
      parseDate_iso env.zone hp (isoText_rfc3339 hp)]
    rfl
  cases hl : t.loc with
  | utc => exact utc t h hz (by rw [hl]; rfl) (by simp [rfc3339, Spec.jsonTime, hl, Spec.minuteZone])
  | zone o =>
    by_cases h0 : o = 0
    · exact utc t h hz (by rw [hl, h0]; rfl) (by simp [rfc3339, Spec.jsonTime, hl, h0, Spec.minuteZone, rfc3339Zone])
    · rw [hl] at h24
      have ht := isoZoneText_rfc3339 h hl h0 h24
      simp only [decodeVal, encodeVal]
      rw [if_neg hz, decodeTime_plain env (isoZoneText_plain ht) (rfc3339_ne_nil t),
        parseDate_isoZone env.zone (jsonTime_existing h) rfl ht]
      rfl

example : let t : Time := ⟨1900, 7, 1, 12, 30, 15, 123456789, .zone (-4523)⟩
    Spec.ExistingTime t ∧ t.loc.offset.natAbs < 86400 ∧ ¬ t.isZero ∧ Spec.jsonTime t = ⟨1900, 7, 1, 12, 30, 15, 0, .zone (-4500)⟩ :=
  ⟨(existing_iff _).2 (by decide), by decide, by decide, by decide⟩

/-- C59, the zero time: every time at that instant, in whatever zone, is read back as the zero time in UTC, whatever was there before. -/
theorem C59_zero (env : JsonEnv) (old t : Time) (hz : t.isZero) :
    decodeVal env (.time old) (encodeVal (.time t)) = some (.time Time.zero) := by
  simp only [decodeVal, encodeVal]
  rw [if_pos hz]
  rfl

example : (⟨1, 1, 1, 1, 0, 0, 0, .zone 3600⟩ : Time).isZero ∧ (⟨1, 1, 1, 1, 0, 0, 0, .zone 3600⟩ : Time) ≠ Time.zero := by decide

/-- C59, which times survive: exactly those with whole seconds whose zone is UTC or a number of whole minutes, not zero, away from it. -/
theorem C59_iff (env : JsonEnv) (old t : Time) (h : Spec.ExistingTime t) (h24 : t.loc.offset.natAbs < 86400) (hz : ¬ t.isZero) :
    decodeVal env (.time old) (encodeVal (.time t)) = some (.time t) ↔
      t.nsec = 0 ∧ (t.loc = .utc ∨ ∃ m : Int, m ≠ 0 ∧ t.loc = .zone (60 * m)) := by
  rw [C59_exact env old t h h24 hz]
  obtain ⟨y, mo, d, hh, mi, se, ns, l⟩ := t
  simp only [Spec.jsonTime, Option.some.injEq, Val.time.injEq, Time.mk.injEq, true_and]
  constructor
  · rintro ⟨hn, hl⟩
    refine ⟨hn.symm, ?_⟩
    cases l with
    | utc => exact Or.inl rfl
    | zone o =>
      right
      simp only [Spec.minuteZone] at hl
      split at hl
      · cases hl
      · rename_i h0
        split at hl <;> (have := Loc.zone.inj hl)
        · exact ⟨o / 60, by omega, by congr 1; omega⟩
        · exact ⟨-(-o / 60), by omega, by congr 1; omega⟩
  · rintro ⟨rfl, rfl | ⟨m, hm, rfl⟩⟩
    · exact ⟨rfl, rfl⟩
    · refine ⟨rfl, ?_⟩
      simp only [Spec.minuteZone]
      rw [if_neg (by omega)]
      split <;> (congr 1; omega)

example : let t : Time := ⟨2020, 2, 29, 23, 59, 59, 0, .zone (60 * -570)⟩
    Spec.ExistingTime t ∧ t.loc.offset.natAbs < 86400 ∧ ¬ t.isZero ∧ t.nsec = 0 ∧ ∃ m : Int, m ≠ 0 ∧ t.loc = .zone (60 * m) :=
  ⟨(existing_iff _).2 (by decide), by decide, by decide, rfl, -570, by decide, rfl⟩

/-- C59, the instant: it is kept to the second exactly if the offset is a number of whole minutes; otherwise it moves by the seconds of the offset. -/
theorem C59_instant (t : Time) : (Spec.jsonTime t).absSec = t.absSec + t.loc.offset.tmod 60 := by
  have key : (Spec.minuteZone t.loc).offset = t.loc.offset - t.loc.offset.tmod 60 := by
    cases t.loc with
    | utc => rfl
    | zone o =>
      simp only [Spec.minuteZone]
      rcases Int.lt_or_le o 0 with ho | ho
      · obtain ⟨n, rfl⟩ : ∃ n : Nat, o = -(n : Int) := ⟨o.natAbs, by omega⟩
        rw [if_neg (by omega), if_neg (by omega)]
        simp only [Loc.offset]
        rw [Int.neg_tmod, Int.tmod_eq_emod_of_nonneg (Int.natCast_nonneg n)]
        omega
      · rw [Int.tmod_eq_emod_of_nonneg (show 0 ≤ Loc.offset (.zone o) from ho)]
        split
        · simp only [Loc.offset]
          omega
        · rw [if_pos (by omega)]
          simp only [Loc.offset]
          omega
  simp only [Time.absSec, Spec.jsonTime, key]
  omega

example : (Spec.jsonTime ⟨1900, 1, 1, 0, 0, 0, 0, .zone 561⟩).absSec = (⟨1900, 1, 1, 0, 0, 0, 0, .zone 561⟩ : Time).absSec + 21 := by decide

/-- C59 for whole seconds in a zone that is whole minutes away from UTC, unless the instant is the zero time. Missing for the
full statement: fractions of a second, zones with seconds and a zone other than UTC with offset zero, for which it fails
(`C59_violated`). -/
theorem C59_zone_partial (env : JsonEnv) (old t : Time) (o : Int) (h : Spec.ExistingTime t) (hn : t.nsec = 0) (hl : t.loc = .zone o)
    (h60 : o % 60 = 0) (h0 : o ≠ 0) (h24 : o.natAbs < 86400) (hz : ¬ t.isZero) :
    decodeVal env (.time old) (encodeVal (.time t)) = some (.time t) :=
  (C59_iff env old t h (by rw [hl]; exact h24) hz).2 ⟨hn, Or.inr ⟨o / 60, by omega, by rw [hl]; congr 1; omega⟩⟩

example : let t : Time := ⟨2020, 2, 29, 23, 59, 59, 0, .zone (-34200)⟩
    Spec.ExistingTime t ∧ ¬ t.isZero ∧ rfc3339 t = b! "2020-02-29T23:59:59-09:30" :=
  ⟨(existing_iff _).2 (by decide), by decide, by decide⟩

/-- C59 fails: a fraction of a second is lost, and a zone half a minute from UTC moves the instant. -/
theorem C59_violated : ¬ C59_statement := by
  intro h
  have := h plainEnv Time.zero ⟨2020, 1, 1, 0, 0, 0, 500000000, .utc⟩ ((existing_iff _).2 (by decide)) (by decide)
  exact absurd this (by decide +kernel)

/-- The instant itself changes for a zone with seconds. -/
theorem C59_instant_violated :
    ∃ t t' : Time, Spec.ExistingTime t ∧ t.nsec = 0 ∧ decodeVal plainEnv (.time Time.zero) (encodeVal (.time t)) = some (.time t') ∧
      t'.absSec ≠ t.absSec :=
  ⟨⟨1900, 1, 1, 0, 0, 0, 0, .zone 561⟩, ⟨1900, 1, 1, 0, 0, 0, 0, .zone 540⟩, (existing_iff _).2 (by decide), rfl,
    by decide +kernel, by decide⟩

/-! ### C60: numeric dates -/

/-- C60: two digits, two digits, four digits, separated by dashes or slashes, are read as month, day, year if there is such a day,
otherwise as day, month, year, otherwise refused. Missing for the full statement: one order for all texts (`C60_order_violated`). -/
theorem C60_number_partial (loc : LocalZone) (sep : UInt8) (hsep : sep = 45 ∨ sep = 47) (s : Bytes) (a b y : Nat)
    (h : Spec.NumberText sep s a b y) :
    (Spec.DayExists a b y → parseDate loc s = some (Spec.dayOf a b y)) ∧
    (¬ Spec.DayExists a b y → Spec.DayExists b a y → parseDate loc s = some (Spec.dayOf b a y)) ∧
    (¬ Spec.DayExists a b y → ¬ Spec.DayExists b a y → parseDate loc s = none) := by
  rw [parseDate_number loc hsep h]
  simp only [spec_dayExists_iff]
  refine ⟨fun h1 => if_pos h1, fun h1 h2 => ?_, fun h1 h2 => ?_⟩
  · rw [if_neg h1, if_pos h2]
  · rw [if_neg h1, if_neg h2]

theorem numberText_b (sa sb sy : Bytes) (sep : UInt8) (h : sa.length = 2 ∧ sb.length = 2 ∧ sy.length = 4 ∧
    (sa ++ sb ++ sy).all isDigit = true) :
    Spec.NumberText sep (sa ++ [sep] ++ sb ++ [sep] ++ sy) (digitsVal sa) (digitsVal sb) (digitsVal sy) := by
  obtain ⟨h1, h2, h3, h4⟩ := h
  simp only [List.all_append, Bool.and_eq_true, List.all_eq_true] at h4
  exact ⟨sa, sb, sy, rfl, h1, h2, h3, (spec_decimal_iff _ _).2 ⟨h4.1.1, rfl⟩, (spec_decimal_iff _ _).2 ⟨h4.1.2, rfl⟩,
    (spec_decimal_iff _ _).2 ⟨h4.2, rfl⟩⟩

example : Spec.NumberText 45 (b! "12-01-2020") 12 1 2020 ∧ Spec.DayExists 12 1 2020 ∧
    Spec.NumberText 47 (b! "13/01/2020") 13 1 2020 ∧ ¬ Spec.DayExists 13 1 2020 ∧ Spec.DayExists 1 13 2020 ∧
    Spec.NumberText 47 (b! "31/02/2020") 31 2 2020 ∧ ¬ Spec.DayExists 31 2 2020 ∧ ¬ Spec.DayExists 2 31 2020 :=
  ⟨numberText_b (b! "12") (b! "01") (b! "2020") 45 (by decide), (spec_dayExists_iff _ _ _).2 (by decide),
    numberText_b (b! "13") (b! "01") (b! "2020") 47 (by decide), fun h => absurd ((spec_dayExists_iff _ _ _).1 h) (by decide),
    (spec_dayExists_iff _ _ _).2 (by decide), numberText_b (b! "31") (b! "02") (b! "2020") 47 (by decide),
    fun h => absurd ((spec_dayExists_iff _ _ _).1 h) (by decide), fun h => absurd ((spec_dayExists_iff _ _ _).1 h) (by decide)⟩

/-- C60, the order of day and month: there is no order that holds for all texts of the form. The 12th and the 13th of January, written the
same way, are read as December 1 and as January 13. -/
theorem C60_order_violated :
    ¬ (∃ monthFirst : Bool, ∀ (loc : LocalZone) (s : Bytes) (a b y : Nat) (t : Time), Spec.NumberText 45 s a b y →
      parseDate loc s = some t → t = if monthFirst then Spec.dayOf a b y else Spec.dayOf b a y) := by
  rintro ⟨m, h⟩
  have h1 := h plainEnv.zone (b! "12-01-2020") 12 1 2020 _ (numberText_b (b! "12") (b! "01") (b! "2020") 45 (by decide))
    ((C60_number_partial plainEnv.zone 45 (Or.inl rfl) _ 12 1 2020 (numberText_b (b! "12") (b! "01") (b! "2020") 45 (by decide))).1
      ((spec_dayExists_iff _ _ _).2 (by decide)))
  have h2 := h plainEnv.zone (b! "13-01-2020") 13 1 2020 _ (numberText_b (b! "13") (b! "01") (b! "2020") 45 (by decide))
    ((C60_number_partial plainEnv.zone 45 (Or.inl rfl) _ 13 1 2020 (numberText_b (b! "13") (b! "01") (b! "2020") 45 (by decide))).2.1
      (fun h => absurd ((spec_dayExists_iff _ _ _).1 h) (by decide)) ((spec_dayExists_iff _ _ _).2 (by decide)))
  cases m
  · revert h1; decide
  · revert h2; decide

/-- C60, the form of the Metro 2 files themselves: digits alone are no date in JSON. -/
theorem C60_digits (loc : LocalZone) (s : Bytes) (n : Nat) (h : Spec.Decimal s n) (hl : s.length = 8 ∨ s.length = 14) :
    parseDate loc s = none :=
  parseDate_digits loc ((spec_decimal_iff _ _).1 h).1 hl

example : Spec.Decimal (b! "01312020") 1312020 ∧ (b! "01312020").length = 8 :=
  ⟨(spec_decimal_iff _ _).2 (by decide), by decide⟩

/-- C60, clock times: twelve hours with AM and PM are read as hours of the day, twelve AM as midnight; hours beyond twelve, minutes beyond 59
and days that do not exist are refused, here without another order of day and month. -/
theorem C60_clock (loc : LocalZone) (s : Bytes) (a b y h m : Nat) (pm : Bool) (ht : Spec.TwelveHourText s a b y h m pm) :
    (Spec.DayExists a b y ∧ h ≤ 12 ∧ m ≤ 59 →
      parseDate loc s = some { Spec.dayOf a b y with hour := Spec.dayHour h pm, min := m }) ∧
    (¬ (Spec.DayExists a b y ∧ h ≤ 12 ∧ m ≤ 59) → parseDate loc s = none) := by
  rw [parseDate_clock loc ht]
  simp only [spec_dayExists_iff]
  exact ⟨fun q => if_pos q, fun q => if_neg q⟩

example : Spec.TwelveHourText (b! "02/29/2020 12:05 AM") 2 29 2020 12 5 false ∧ Spec.DayExists 2 29 2020 ∧
    Spec.dayHour 12 false = 0 ∧ Spec.dayHour 12 true = 12 ∧ Spec.dayHour 3 true = 15 :=
  ⟨⟨b! "02", b! "29", b! "2020", b! "12", b! "05", by decide, rfl, rfl, rfl, rfl, rfl, (spec_decimal_iff _ _).2 (by decide),
    (spec_decimal_iff _ _).2 (by decide), (spec_decimal_iff _ _).2 (by decide), (spec_decimal_iff _ _).2 (by decide),
    (spec_decimal_iff _ _).2 (by decide)⟩, (spec_dayExists_iff _ _ _).2 (by decide), rfl, rfl, rfl⟩

/-- C60, afternoon: a text with "p.m." that is accepted is read as the morning. -/
theorem C60_afternoon_violated (loc : LocalZone) :
    parseDate loc (b! "January 2, 2006, 3:04 p.m.") = some ⟨2006, 1, 2, 3, 4, 0, 0, .utc⟩ ∧
    parseDate loc (b! "January 2, 2006 3:04 PM") = some ⟨2006, 1, 2, 15, 4, 0, 0, .utc⟩ := by
  constructor <;> rfl

/-! ### C61: what is read exists -/

/-- C61: whatever a date text in JSON says, the time read is an existing second with a year of at most four digits; on a machine whose
zone abbreviations are resolved to such times. -/
theorem C61_exists (env : JsonEnv) (hz : ∀ z t t', Spec.ExistingTime t → t.nsec < 1000000000 → env.zone z t = some t' →
    Spec.ExistingTime t' ∧ t'.nsec < 1000000000) (j : Json) (t : Time) (h : decodeTime env j = some t) :
    Spec.ExistingTime t ∧ t.nsec < 1000000000 := by
  have hiff : ∀ t : Time, t.Dated ↔ Spec.ExistingTime t ∧ t.nsec < 1000000000 := by
    intro t
    rw [existing_iff]
    unfold Time.Dated Time.Valid
    tauto
  have hz' : ∀ z (t t' : Time), t.Dated → env.zone z t = some t' → t'.Dated := by
    intro z t t' ht h
    have := (hiff t).1 ht
    exact (hiff t').2 (hz z t t' this.1 this.2 h)
  cases j with
  | str s =>
    simp only [decodeTime] at h
    split at h
    · cases h
      exact (hiff _).1 (by unfold Time.Dated; decide)
    · unfold parseDate at h
      simp only at h
      split at h
      · cases h
      · exact (hiff _).1 (parseFirst_dated hz' h)
  | _ => cases h

example : decodeTime plainEnv (.str (b! "Mon, 2 Jan 15:04:05 MST")) = some ⟨0, 1, 2, 15, 4, 5, 0, .zone 0⟩ := by decide +kernel

end Metro2
