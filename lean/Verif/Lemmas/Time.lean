import Verif.Lemmas.Bytes
import Verif.Model.Converter

/-! Lemmas about `time.Parse`, `Time.Format` and the calendar. -/

namespace Metro2

/-- A civil time in UTC with whole seconds and a four-digit year. -/
def Time.Plain (t : Time) : Prop :=
  t.Valid ∧ 0 ≤ t.year ∧ t.year ≤ 9999 ∧ t.nsec = 0 ∧ t.loc = .utc

instance (t : Time) : Decidable t.Plain := by unfold Time.Plain; infer_instance

/-- Midnight. -/
def Time.Midnight (t : Time) : Prop := t.hour = 0 ∧ t.min = 0 ∧ t.sec = 0

instance (t : Time) : Decidable t.Midnight := by unfold Time.Midnight; infer_instance

theorem daysIn_le (m : Nat) (y : Int) : daysIn m y ≤ 31 := by
  unfold daysIn
  repeat' (first | omega | split)

theorem daysIn_ge (m : Nat) (y : Int) : 28 ≤ daysIn m y := by
  unfold daysIn
  repeat' (first | omega | split)

/-- Day of the year, counted from 0, is at most 365. -/
theorem dayOfYear_le {m d : Nat} {y : Int} (hm : 1 ≤ m ∧ m ≤ 12) (hd : d ≤ daysIn m y) :
    daysBeforeMonth m y + d ≤ 366 := by
  obtain ⟨h1, h2⟩ := hm
  rcases (by omega : m = 1 ∨ m = 2 ∨ m = 3 ∨ m = 4 ∨ m = 5 ∨ m = 6 ∨ m = 7 ∨ m = 8 ∨ m = 9 ∨ m = 10 ∨
    m = 11 ∨ m = 12) with h | h | h | h | h | h | h | h | h | h | h | h <;> subst h <;>
  simp [daysBeforeMonth, daysIn, List.range, List.range.loop] at hd ⊢ <;>
  (first | omega | (split at hd <;> omega) | (split <;> omega))

theorem daysBeforeMonth_eq_zero {m : Nat} {y : Int} (h : daysBeforeMonth m y = 0) : m ≤ 1 := by
  by_contra hm
  obtain ⟨k, hk⟩ : ∃ k, m - 1 = k + 1 := ⟨m - 2, by omega⟩
  unfold daysBeforeMonth at h
  rw [hk, List.range_succ] at h
  have := daysIn_ge (k + 1) y
  simp at h
  omega

theorem Time.isZero_iff {t : Time} (hv : t.Valid) (hl : t.loc = .utc) :
    t.isZero = true ↔ t = Time.zero := by
  obtain ⟨h1, h2, h3, h4, h5, h6, h7, h8⟩ := hv
  constructor
  · intro h
    unfold Time.isZero at h
    simp only [Bool.and_eq_true, decide_eq_true_eq] at h
    obtain ⟨ha, hn⟩ := h
    unfold Time.absSec at ha
    rw [hl] at ha
    simp only [Loc.offset] at ha
    have hy := dayOfYear_le ⟨h1, h2⟩ h4
    unfold daysBeforeYear at ha
    have hyear : t.year = 1 := by
      have e1 : (t.year - 1) / 4 ≤ -1 ∨ 1 ≤ t.year := by omega
      have e2 : (t.year - 1) / 400 ≤ -1 ∨ 1 ≤ t.year := by omega
      have e3 : t.year - 1 - 99 ≤ 100 * ((t.year - 1) / 100) := by omega
      have e4 : t.year ≤ 1 ∨ 0 ≤ (t.year - 1) / 4 := by omega
      have e5 : t.year ≤ 1 ∨ 0 ≤ (t.year - 1) / 400 := by omega
      have e6 : 100 * ((t.year - 1) / 100) ≤ t.year - 1 := by omega
      generalize (t.year - 1) / 4 = a at *
      generalize (t.year - 1) / 100 = b at *
      generalize (t.year - 1) / 400 = c at *
      omega
    rw [hyear] at ha
    simp at ha
    have hm0 : daysBeforeMonth t.month 1 = 0 := by
      omega
    have hm := daysBeforeMonth_eq_zero hm0
    obtain ⟨year, month, day, hour, min, sec, nsec, loc⟩ := t
    simp only at *
    unfold Time.zero
    congr <;> omega
  · rintro rfl
    decide

theorem Time.reflectZero_eq {t : Time} (hl : t.loc = .utc) :
    t.reflectZero = t.isZero := by
  simp [Time.reflectZero, hl]

/-! ### Format -/

theorem appendInt_ofNat {n w : Nat} (hw : 0 < w) (h : n < 10 ^ w) :
    appendInt (n : Int) w = decDigits w n := by
  show padLeft w 48 (fmtNat n) = _
  exact padLeft_fmtNat hw h

theorem Time.format_date {t : Time} (h : t.Plain) :
    t.format dateFormat = decDigits 2 t.month ++ decDigits 2 t.day ++ decDigits 4 t.year.toNat := by
  obtain ⟨⟨h1, h2, h3, h4, h5, h6, h7, h8⟩, hy0, hy1, hn, hl⟩ := h
  have hd := daysIn_le t.month t.year
  obtain ⟨y, hy⟩ := Int.eq_ofNat_of_zero_le hy0
  simp only [Time.format, dateFormat, List.map_cons, List.map_nil, formatStd, List.flatten_cons,
    List.flatten_nil, List.append_nil]
  rw [hy, appendInt_ofNat (by decide) (by omega), appendInt_ofNat (by decide) (by omega),
    appendInt_ofNat (by decide) (by omega)]
  simp

theorem Time.format_timestamp {t : Time} (h : t.Plain) :
    t.format timestampFormat = decDigits 2 t.month ++ decDigits 2 t.day ++ decDigits 4 t.year.toNat ++
      decDigits 2 t.hour ++ decDigits 2 t.min ++ decDigits 2 t.sec := by
  obtain ⟨⟨h1, h2, h3, h4, h5, h6, h7, h8⟩, hy0, hy1, hn, hl⟩ := h
  have hd := daysIn_le t.month t.year
  obtain ⟨y, hy⟩ := Int.eq_ofNat_of_zero_le hy0
  simp only [Time.format, timestampFormat, List.map_cons, List.map_nil, formatStd, List.flatten_cons,
    List.flatten_nil, List.append_nil]
  rw [hy, appendInt_ofNat (by decide) (by omega), appendInt_ofNat (by decide) (by omega),
    appendInt_ofNat (by decide) (by omega), appendInt_ofNat (by decide) (by omega),
    appendInt_ofNat (by decide) (by omega), appendInt_ofNat (by decide) (by omega)]
  simp

/-! ### Parse -/

/-- `getnum` on two digits. -/
theorem getnum_two (fixed : Bool) {a : Bytes} (hl : a.length = 2) (h : ∀ c ∈ a, isDigit c = true)
    (rest : Bytes) : getnum fixed (a ++ rest) = some (digitsVal a, rest) := by
  match a with
  | [c, d] =>
    have hc : isDigit c = true := h c (by simp)
    have hd : isDigit d = true := h d (by simp)
    simp [getnum, hc, hd, digitsVal]

/-- `getnum true` succeeds only on two digits. -/
theorem getnum_true {s : Bytes} {n : Nat} {rest : Bytes} (h : getnum true s = some (n, rest)) :
    ∃ a, s = a ++ rest ∧ a.length = 2 ∧ (∀ c ∈ a, isDigit c = true) ∧ n = digitsVal a := by
  match s with
  | [] => simp [getnum] at h
  | [c] => simp [getnum] at h
  | c :: d :: r =>
    simp only [getnum] at h
    split at h
    · simp at h
    · next hc =>
      split at h
      · simp at h
      · next hd =>
        simp only [Option.some.injEq, Prod.mk.injEq] at h
        refine ⟨[c, d], by simp [h.2], rfl, ?_, by simp [← h.1, digitsVal]⟩
        simp at hc hd
        simp [hc, hd]

/-- `getnum false` succeeds on two digits, or on one digit followed by no digit. -/
theorem getnum_false {s : Bytes} {n : Nat} {rest : Bytes} (h : getnum false s = some (n, rest)) :
    (∃ a, s = a ++ rest ∧ a.length = 2 ∧ (∀ c ∈ a, isDigit c = true) ∧ n = digitsVal a) ∨
    (∃ c, s = c :: rest ∧ isDigit c = true ∧ (∀ d ∈ rest.head?, isDigit d = false)) := by
  match s with
  | [] => simp [getnum] at h
  | [c] =>
    simp [getnum] at h
    right
    exact ⟨c, by simp [h.2], h.1, by simp [h.2]⟩
  | c :: d :: r =>
    simp only [getnum] at h
    split at h
    · simp at h
    · next hc =>
      simp at hc
      split at h
      · next hd =>
        simp at hd
        simp at h
        right
        exact ⟨c, by simp [h.2], hc, by simp [← h.2, hd]⟩
      · next hd =>
        simp at hd
        simp only [Option.some.injEq, Prod.mk.injEq] at h
        left
        exact ⟨[c, d], by simp [h.2], rfl, by simp [hc, hd], by simp [← h.1, digitsVal]⟩

theorem parseStd_month {t t' : Time} {s r : Bytes} :
    parseStd t s .zeroMonth = some (t', r) ↔
      ∃ a, s = a ++ r ∧ a.length = 2 ∧ (∀ c ∈ a, isDigit c = true) ∧
        1 ≤ digitsVal a ∧ digitsVal a ≤ 12 ∧ t' = { t with month := digitsVal a } := by
  constructor
  · intro h
    simp only [parseStd] at h
    cases hg : getnum true s with
    | none => simp [hg] at h
    | some p =>
      obtain ⟨n, r'⟩ := p
      obtain ⟨a, h1, h2, h3, rfl⟩ := getnum_true hg
      simp [hg] at h
      obtain ⟨h4, h5, rfl⟩ := h
      exact ⟨a, h1, h2, h3, by omega, by omega, h5.symm⟩
  · rintro ⟨a, rfl, h2, h3, h4, h5, rfl⟩
    simp [parseStd, getnum_two true h2 h3]
    omega

theorem parseStd_day {t t' : Time} {s r : Bytes} :
    parseStd t s .zeroDay = some (t', r) ↔
      ∃ a, s = a ++ r ∧ a.length = 2 ∧ (∀ c ∈ a, isDigit c = true) ∧
        t' = { t with day := digitsVal a } := by
  constructor
  · intro h
    simp only [parseStd] at h
    cases hg : getnum true s with
    | none => simp [hg] at h
    | some p =>
      obtain ⟨n, r'⟩ := p
      obtain ⟨a, h1, h2, h3, rfl⟩ := getnum_true hg
      simp [hg] at h
      obtain ⟨h5, rfl⟩ := h
      exact ⟨a, h1, h2, h3, h5.symm⟩
  · rintro ⟨a, rfl, h2, h3, rfl⟩
    simp [parseStd, getnum_two true h2 h3]

theorem parseStd_minute {t t' : Time} {s r : Bytes} :
    parseStd t s .zeroMinute = some (t', r) ↔
      ∃ a, s = a ++ r ∧ a.length = 2 ∧ (∀ c ∈ a, isDigit c = true) ∧ digitsVal a < 60 ∧
        t' = { t with min := digitsVal a } := by
  constructor
  · intro h
    simp only [parseStd] at h
    cases hg : getnum true s with
    | none => simp [hg] at h
    | some p =>
      obtain ⟨n, r'⟩ := p
      obtain ⟨a, h1, h2, h3, rfl⟩ := getnum_true hg
      simp [hg] at h
      obtain ⟨h4, h5, rfl⟩ := h
      exact ⟨a, h1, h2, h3, by omega, h5.symm⟩
  · rintro ⟨a, rfl, h2, h3, h4, rfl⟩
    simp [parseStd, getnum_two true h2 h3]
    omega

theorem parseStd_second {t t' : Time} {s r : Bytes} :
    parseStd t s .zeroSecond = some (t', r) ↔
      ∃ a, s = a ++ r ∧ a.length = 2 ∧ (∀ c ∈ a, isDigit c = true) ∧ digitsVal a < 60 ∧
        t' = { t with sec := digitsVal a } := by
  constructor
  · intro h
    simp only [parseStd] at h
    cases hg : getnum true s with
    | none => simp [hg] at h
    | some p =>
      obtain ⟨n, r'⟩ := p
      obtain ⟨a, h1, h2, h3, rfl⟩ := getnum_true hg
      simp [hg] at h
      obtain ⟨h4, h5, rfl⟩ := h
      exact ⟨a, h1, h2, h3, by omega, h5.symm⟩
  · rintro ⟨a, rfl, h2, h3, h4, rfl⟩
    simp [parseStd, getnum_two true h2 h3]
    omega

theorem parseStd_year {t t' : Time} {s r : Bytes} :
    parseStd t s .longYear = some (t', r) ↔
      ∃ a, s = a ++ r ∧ a.length = 4 ∧ (∀ c ∈ a, isDigit c = true) ∧
        t' = { t with year := digitsVal a } := by
  constructor
  · intro h
    simp only [parseStd] at h
    split at h
    · simp at h
    · next hc =>
      simp only [not_or, Bool.not_eq_false, List.all_eq_true, Nat.not_lt] at hc
      simp at h
      obtain ⟨h5, rfl⟩ := h
      exact ⟨s.take 4, by simp, by simp; omega, hc.2, h5.symm⟩
  · rintro ⟨a, rfl, h2, h3, rfl⟩
    simp only [parseStd]
    rw [if_neg]
    · simp [← h2]
    · simp only [not_or, Bool.not_eq_false, List.all_eq_true, Nat.not_lt]
      refine ⟨by simp; omega, ?_⟩
      rw [← h2]
      simpa using h3

theorem parseStd_hour_two {t : Time} {a r : Bytes} (h2 : a.length = 2)
    (h3 : ∀ c ∈ a, isDigit c = true) (h4 : digitsVal a < 24) :
    parseStd t (a ++ r) .hour = some ({ t with hour := digitsVal a }, r) := by
  simp [parseStd, getnum_two false h2 h3]
  omega

theorem parseStd_hour {t t' : Time} {s r : Bytes} (h : parseStd t s .hour = some (t', r)) :
    (∃ a, s = a ++ r ∧ a.length = 2 ∧ (∀ c ∈ a, isDigit c = true) ∧ digitsVal a < 24 ∧
        t' = { t with hour := digitsVal a }) ∨ (∀ d ∈ r.head?, isDigit d = false) := by
  simp only [parseStd] at h
  cases hg : getnum false s with
  | none => simp [hg] at h
  | some p =>
    obtain ⟨n, r'⟩ := p
    simp [hg] at h
    obtain ⟨h4, h5, rfl⟩ := h
    rcases getnum_false hg with ⟨a, h1, h2, h3, rfl⟩ | ⟨c, h1, h2, h3⟩
    · exact .inl ⟨a, h1, h2, h3, by omega, h5.symm⟩
    · exact .inr h3

/-- `time.Parse("01022006", s)` succeeds exactly on eight digits naming an existing day. -/
theorem Time.parse_date {s : Bytes} {t : Time} :
    Time.parse dateFormat s = some t ↔
      ∃ a b c, s = a ++ b ++ c ∧ a.length = 2 ∧ b.length = 2 ∧ c.length = 4 ∧
        (∀ x ∈ s, isDigit x = true) ∧ 1 ≤ digitsVal a ∧ digitsVal a ≤ 12 ∧
        1 ≤ digitsVal b ∧ digitsVal b ≤ daysIn (digitsVal a) (digitsVal c) ∧
        t = ⟨digitsVal c, digitsVal a, digitsVal b, 0, 0, 0, 0, .utc⟩ := by
  constructor
  · intro h
    simp only [Time.parse, dateFormat, parseStds, Option.bind_eq_bind, Option.bind_eq_some_iff] at h
    obtain ⟨⟨t1, r1⟩, ⟨⟨t2, r2⟩, hm, ⟨t3, r3⟩, hd, ⟨t4, r4⟩, hy, h0⟩, h⟩ := h
    obtain ⟨a, ha, ha2, ha3, ha4, ha5, rfl⟩ := parseStd_month.1 hm
    obtain ⟨b, hb, hb2, hb3, rfl⟩ := parseStd_day.1 hd
    obtain ⟨c, hc, hc2, hc3, rfl⟩ := parseStd_year.1 hy
    clear hm hd hy
    simp only at hb hc
    simp only [Option.some.injEq, Prod.mk.injEq] at h0
    obtain ⟨rfl, rfl⟩ := h0
    simp only at h
    split at h
    · simp at h
    · next hr =>
      simp only [ne_eq, Decidable.not_not] at hr
      split at h
      · simp at h
      · next hv =>
        simp only [Option.some.injEq] at h
        simp only [not_or, Nat.not_lt] at hv
        refine ⟨a, b, c, ?_, ha2, hb2, hc2, ?_, ha4, ha5, hv.1, hv.2, h.symm⟩
        · rw [ha, hb, hc, hr]; simp
        · intro x hx
          rw [ha, hb, hc, hr] at hx
          simp only [List.append_nil, List.mem_append] at hx
          rcases hx with hx | hx | hx
          · exact ha3 x hx
          · exact hb3 x hx
          · exact hc3 x hx
  · rintro ⟨a, b, c, rfl, ha, hb, hc, hx, h1, h2, h3, h4, rfl⟩
    have hm := parseStd_month (t := Time.zero) (t' := ⟨1, digitsVal a, 1, 0, 0, 0, 0, .utc⟩)
      (s := a ++ (b ++ c)) (r := b ++ c)
    have hm := hm.2 ⟨a, rfl, ha, fun x h => hx x (by simp [h]), h1, h2, rfl⟩
    have hd := (parseStd_day (t := ⟨1, digitsVal a, 1, 0, 0, 0, 0, .utc⟩) (s := b ++ c) (r := c)).2
      ⟨b, rfl, hb, fun x h => hx x (by simp [h]), rfl⟩
    have hy := (parseStd_year (t := ⟨1, digitsVal a, digitsVal b, 0, 0, 0, 0, .utc⟩)
      (s := c) (r := [])).2 ⟨c, by simp, hc, fun x h => hx x (by simp [h]), rfl⟩
    rw [List.append_assoc]
    simp only [Time.parse, dateFormat, parseStds, Option.bind_eq_bind, hm, hd, hy,
      Option.bind_some]
    rw [if_neg (by simp), if_neg (by simp; omega)]

/-- `time.Parse("01022006150405", s)` succeeds exactly on fourteen digits naming an existing
second. -/
theorem Time.parse_timestamp {s : Bytes} {t : Time} :
    Time.parse timestampFormat s = some t ↔
      ∃ a b c d e f, s = a ++ b ++ c ++ d ++ e ++ f ∧ a.length = 2 ∧ b.length = 2 ∧ c.length = 4 ∧
        d.length = 2 ∧ e.length = 2 ∧ f.length = 2 ∧
        (∀ x ∈ s, isDigit x = true) ∧ 1 ≤ digitsVal a ∧ digitsVal a ≤ 12 ∧
        1 ≤ digitsVal b ∧ digitsVal b ≤ daysIn (digitsVal a) (digitsVal c) ∧
        digitsVal d < 24 ∧ digitsVal e < 60 ∧ digitsVal f < 60 ∧
        t = ⟨digitsVal c, digitsVal a, digitsVal b, digitsVal d, digitsVal e, digitsVal f, 0, .utc⟩ := by
  constructor
  · intro h
    simp only [Time.parse, timestampFormat, parseStds, Option.bind_eq_bind, Option.bind_eq_some_iff] at h
    obtain ⟨⟨t1, r1⟩, ⟨⟨t2, r2⟩, hm, ⟨t3, r3⟩, hd, ⟨t4, r4⟩, hy, ⟨t5, r5⟩, hh, ⟨t6, r6⟩, hmi,
      ⟨t7, r7⟩, hs, h0⟩, h⟩ := h
    obtain ⟨a, ha, ha2, ha3, ha4, ha5, rfl⟩ := parseStd_month.1 hm
    obtain ⟨b, hb, hb2, hb3, rfl⟩ := parseStd_day.1 hd
    obtain ⟨c, hc, hc2, hc3, rfl⟩ := parseStd_year.1 hy
    obtain ⟨e, he, he2, he3, he4, rfl⟩ := parseStd_minute.1 hmi
    obtain ⟨f, hf, hf2, hf3, hf4, rfl⟩ := parseStd_second.1 hs
    rcases parseStd_hour hh with ⟨d, hd', hd2, hd3, hd4, rfl⟩ | hbad
    · clear hm hd hy hmi hs hh
      simp only at hb hc hd' he hf
      simp only [Option.some.injEq, Prod.mk.injEq] at h0
      obtain ⟨rfl, rfl⟩ := h0
      simp only at h
      split at h
      · simp at h
      · next hr =>
        simp only [ne_eq, Decidable.not_not] at hr
        split at h
        · simp at h
        · next hv =>
          simp only [Option.some.injEq] at h
          simp only [not_or, Nat.not_lt] at hv
          have hs' : s = a ++ b ++ c ++ d ++ e ++ f := by
            rw [ha, hb, hc, hd', he, hf, hr]; simp
          refine ⟨a, b, c, d, e, f, hs', ha2, hb2, hc2, hd2, he2, hf2, ?_, ha4, ha5, hv.1, hv.2,
            hd4, he4, hf4, h.symm⟩
          intro x hx
          rw [hs'] at hx
          simp only [List.mem_append] at hx
          rcases hx with ((((hx | hx) | hx) | hx) | hx) | hx
          · exact ha3 x hx
          · exact hb3 x hx
          · exact hc3 x hx
          · exact hd3 x hx
          · exact he3 x hx
          · exact hf3 x hx
    · exfalso
      simp only at he
      rw [he] at hbad
      match e, he2 with
      | [x, y], _ =>
        have h1 := hbad x (by simp)
        have h2 := he3 x (by simp)
        rw [h1] at h2
        exact absurd h2 (by decide)
  · rintro ⟨a, b, c, d, e, f, rfl, ha, hb, hc, hd, he, hf, hx, h1, h2, h3, h4, h5, h6, h7, rfl⟩
    have pm := (parseStd_month (t := Time.zero)
      (t' := ⟨1, digitsVal a, 1, 0, 0, 0, 0, .utc⟩) (s := a ++ (b ++ (c ++ (d ++ (e ++ f)))))
      (r := b ++ (c ++ (d ++ (e ++ f))))).2 ⟨a, rfl, ha, fun x h => hx x (by simp [h]), h1, h2, rfl⟩
    have pd := (parseStd_day (t := ⟨1, digitsVal a, 1, 0, 0, 0, 0, .utc⟩)
      (s := b ++ (c ++ (d ++ (e ++ f)))) (r := c ++ (d ++ (e ++ f)))).2
      ⟨b, rfl, hb, fun x h => hx x (by simp [h]), rfl⟩
    have py := (parseStd_year (t := ⟨1, digitsVal a, digitsVal b, 0, 0, 0, 0, .utc⟩)
      (s := c ++ (d ++ (e ++ f))) (r := d ++ (e ++ f))).2
      ⟨c, by simp, hc, fun x h => hx x (by simp [h]), rfl⟩
    have ph := parseStd_hour_two (r := e ++ f) (t := ⟨digitsVal c, digitsVal a, digitsVal b, 0, 0, 0, 0, .utc⟩) hd
      (fun x h => hx x (by simp [h])) h5
    have pmi := (parseStd_minute (t := ⟨digitsVal c, digitsVal a, digitsVal b, digitsVal d, 0, 0, 0, .utc⟩) (s := e ++ f) (r := f)).2
      ⟨e, rfl, he, fun x h => hx x (by simp [h]), h6, rfl⟩
    have ps := (parseStd_second (t := ⟨digitsVal c, digitsVal a, digitsVal b, digitsVal d, digitsVal e, 0, 0, .utc⟩) (s := f) (r := [])).2
      ⟨f, by simp, hf, fun x h => hx x (by simp [h]), h7, rfl⟩
    rw [show a ++ b ++ c ++ d ++ e ++ f = a ++ (b ++ (c ++ (d ++ (e ++ f)))) by simp]
    simp only [Time.parse, timestampFormat, parseStds, Option.bind_eq_bind, pm, pd, py, ph, pmi, ps,
      Option.bind_some]
    rw [if_neg (by simp), if_neg (by simp; omega)]

theorem digitsVal_decDigits_of_lt {k n : Nat} (h : n < 10 ^ k) : digitsVal (decDigits k n) = n := by
  rw [digitsVal_decDigits, Nat.mod_eq_of_lt h]

theorem Time.format_date_digits {t : Time} (h : t.Plain) :
    ∀ c ∈ t.format dateFormat, isDigit c = true := by
  rw [Time.format_date h]
  intro c hc
  simp only [List.mem_append] at hc
  rcases hc with (hc | hc) | hc <;> exact decDigits_all _ _ c hc

theorem Time.format_timestamp_digits {t : Time} (h : t.Plain) :
    ∀ c ∈ t.format timestampFormat, isDigit c = true := by
  rw [Time.format_timestamp h]
  intro c hc
  simp only [List.mem_append] at hc
  rcases hc with ((((hc | hc) | hc) | hc) | hc) | hc <;> exact decDigits_all _ _ c hc

theorem Time.format_date_length {t : Time} (h : t.Plain) : (t.format dateFormat).length = 8 := by
  rw [Time.format_date h]; simp

theorem Time.format_timestamp_length {t : Time} (h : t.Plain) :
    (t.format timestampFormat).length = 14 := by
  rw [Time.format_timestamp h]; simp

theorem Time.parse_format_date {t : Time} (h : t.Plain) (hm : t.Midnight) :
    Time.parse dateFormat (t.format dateFormat) = some t := by
  rw [Time.parse_date]
  have hall := Time.format_date_digits h
  rw [Time.format_date h] at hall ⊢
  obtain ⟨⟨h1, h2, h3, h4, h5, h6, h7, h8⟩, hy0, hy1, hn, hl⟩ := h
  have hd := daysIn_le t.month t.year
  have hy : ((t.year.toNat : Nat) : Int) = t.year := Int.toNat_of_nonneg hy0
  refine ⟨_, _, _, rfl, length_decDigits _ _, length_decDigits _ _, length_decDigits _ _, hall, ?_⟩
  rw [digitsVal_decDigits_of_lt (by omega), digitsVal_decDigits_of_lt (by omega),
    digitsVal_decDigits_of_lt (by omega), hy]
  refine ⟨h1, h2, h3, h4, ?_⟩
  obtain ⟨m1, m2, m3⟩ := hm
  obtain ⟨year, month, day, hour, min, sec, nsec, loc⟩ := t
  simp only at *
  subst m1 m2 m3 hn hl
  rfl

theorem Time.parse_format_timestamp {t : Time} (h : t.Plain) :
    Time.parse timestampFormat (t.format timestampFormat) = some t := by
  rw [Time.parse_timestamp]
  have hall := Time.format_timestamp_digits h
  rw [Time.format_timestamp h] at hall ⊢
  obtain ⟨⟨h1, h2, h3, h4, h5, h6, h7, h8⟩, hy0, hy1, hn, hl⟩ := h
  have hd := daysIn_le t.month t.year
  have hy : ((t.year.toNat : Nat) : Int) = t.year := Int.toNat_of_nonneg hy0
  refine ⟨_, _, _, _, _, _, rfl, length_decDigits _ _, length_decDigits _ _, length_decDigits _ _,
    length_decDigits _ _, length_decDigits _ _, length_decDigits _ _, hall, ?_⟩
  rw [digitsVal_decDigits_of_lt (by omega), digitsVal_decDigits_of_lt (by omega),
    digitsVal_decDigits_of_lt (by omega), digitsVal_decDigits_of_lt (by omega),
    digitsVal_decDigits_of_lt (by omega), digitsVal_decDigits_of_lt (by omega), hy]
  refine ⟨h1, h2, h3, h4, h5, h6, h7, ?_⟩
  obtain ⟨year, month, day, hour, min, sec, nsec, loc⟩ := t
  simp only at *
  subst hn hl
  rfl

/-- A parsed time is plain. -/
theorem Time.parse_date_plain {s : Bytes} {t : Time} (h : Time.parse dateFormat s = some t) :
    t.Plain ∧ t.Midnight ∧ t.format dateFormat = s := by
  obtain ⟨a, b, c, hs, ha, hb, hc, hx, h1, h2, h3, h4, rfl⟩ := Time.parse_date.1 h
  have hda : ∀ x ∈ a, isDigit x = true := fun x hm => hx x (by simp [hs, hm])
  have hdb : ∀ x ∈ b, isDigit x = true := fun x hm => hx x (by simp [hs, hm])
  have hdc : ∀ x ∈ c, isDigit x = true := fun x hm => hx x (by simp [hs, hm])
  have hcl := digitsVal_lt c hdc
  rw [hc] at hcl
  have hp : Time.Plain ⟨digitsVal c, digitsVal a, digitsVal b, 0, 0, 0, 0, .utc⟩ := by
    refine ⟨⟨h1, h2, h3, h4, ?_, ?_, ?_, ?_⟩, ?_, ?_, rfl, rfl⟩ <;> simp <;> omega
  refine ⟨hp, ⟨rfl, rfl, rfl⟩, ?_⟩
  rw [Time.format_date hp]
  simp only [Int.toNat_natCast]
  have ea := decDigits_digitsVal a hda
  have eb := decDigits_digitsVal b hdb
  have ec := decDigits_digitsVal c hdc
  rw [ha] at ea; rw [hb] at eb; rw [hc] at ec
  rw [ea, eb, ec, hs]

theorem Time.parse_timestamp_plain {s : Bytes} {t : Time}
    (h : Time.parse timestampFormat s = some t) :
    t.Plain ∧ t.format timestampFormat = s := by
  obtain ⟨a, b, c, d, e, f, hs, ha, hb, hc, hd, he, hf, hx, h1, h2, h3, h4, h5, h6, h7, rfl⟩ :=
    Time.parse_timestamp.1 h
  have hda : ∀ x ∈ a, isDigit x = true := fun x hm => hx x (by simp [hs, hm])
  have hdb : ∀ x ∈ b, isDigit x = true := fun x hm => hx x (by simp [hs, hm])
  have hdc : ∀ x ∈ c, isDigit x = true := fun x hm => hx x (by simp [hs, hm])
  have hdd : ∀ x ∈ d, isDigit x = true := fun x hm => hx x (by simp [hs, hm])
  have hde : ∀ x ∈ e, isDigit x = true := fun x hm => hx x (by simp [hs, hm])
  have hdf : ∀ x ∈ f, isDigit x = true := fun x hm => hx x (by simp [hs, hm])
  have hcl := digitsVal_lt c hdc
  rw [hc] at hcl
  have hp : Time.Plain ⟨digitsVal c, digitsVal a, digitsVal b, digitsVal d, digitsVal e, digitsVal f,
      0, .utc⟩ := by
    refine ⟨⟨h1, h2, h3, h4, h5, h6, h7, ?_⟩, ?_, ?_, rfl, rfl⟩ <;> simp <;> omega
  refine ⟨hp, ?_⟩
  rw [Time.format_timestamp hp]
  simp only [Int.toNat_natCast]
  have ea := decDigits_digitsVal a hda
  have eb := decDigits_digitsVal b hdb
  have ec := decDigits_digitsVal c hdc
  have ed := decDigits_digitsVal d hdd
  have ee := decDigits_digitsVal e hde
  have ef := decDigits_digitsVal f hdf
  rw [ha] at ea; rw [hb] at eb; rw [hc] at ec; rw [hd] at ed; rw [he] at ee; rw [hf] at ef
  rw [ea, eb, ec, ed, ee, ef, hs]

end Metro2
