import Verif.Lemmas.MonthText

/-! C60 for dates with the name of a month. -/

namespace Metro2

/-- C60, names of months: two digits, the short or long name of a month in whatever letters, and four digits are read as that day of the
month, in every local time zone, and refused if there is no such day. -/
theorem C60_month (loc : LocalZone) (s : Bytes) (d m y : Nat) (h : Spec.MonthText s d m y) :
    (Spec.DayExists m d y → parseDate loc s = some (Spec.dayOf m d y)) ∧
    (¬ Spec.DayExists m d y → parseDate loc s = none) := by
  have hm : 1 ≤ m ∧ m ≤ 12 := by
    obtain ⟨_, _, _, _, _, _, _, _, k, _, rfl, hk, _⟩ := h
    have := (List.getElem?_eq_some_iff.1 hk).1
    rw [show Spec.monthNames.length = 12 from rfl] at this
    omega
  rw [parseDate_month loc h, spec_dayExists_iff]
  refine ⟨fun h1 => if_pos h1.2.2, fun h1 => if_neg fun h2 => h1 ⟨hm.1, hm.2, h2⟩⟩

theorem monthText_b (sd w sy : Bytes) (k : Nat) (names : List UInt8 × List UInt8) (h : sd.length = 2 ∧ sy.length = 4 ∧
    (sd ++ sy).all isDigit = true ∧ Spec.monthNames[k]? = some names ∧ (Spec.lower w = names.1 ∨ Spec.lower w = names.2)) :
    Spec.MonthText (sd ++ [32] ++ w ++ [32] ++ sy) (digitsVal sd) (k + 1) (digitsVal sy) := by
  obtain ⟨h1, h2, h3, h4, h5⟩ := h
  simp only [List.all_append, Bool.and_eq_true, List.all_eq_true] at h3
  exact ⟨sd, w, sy, rfl, h1, h2, (spec_decimal_iff _ _).2 ⟨h3.1, rfl⟩, (spec_decimal_iff _ _).2 ⟨h3.2, rfl⟩, k, names, rfl, h4, h5⟩

/-- Case of `C60_month`: short and long names in mixed letters, a day that exists and one that does not. -/
example : Spec.MonthText (b! "29 fEB 2020") 29 2 2020 ∧ Spec.DayExists 2 29 2020 ∧
    Spec.MonthText (b! "31 FEBRUARY 2020") 31 2 2020 ∧ ¬ Spec.DayExists 2 31 2020 :=
  ⟨monthText_b (b! "29") (b! "fEB") (b! "2020") 1 (b! "feb", b! "february") (by decide), (spec_dayExists_iff _ _ _).2 (by decide),
    monthText_b (b! "31") (b! "FEBRUARY") (b! "2020") 1 (b! "feb", b! "february") (by decide),
    fun h => absurd ((spec_dayExists_iff _ _ _).1 h) (by decide)⟩

end Metro2
