import Verif.Lemmas.TimeText

/-! C118: which texts the client takes for times. -/

namespace Metro2

/-- The full statement of C118: the client takes exactly the texts of RFC 3339 for times, and reads them as the times that they name. -/
def C118_statement : Prop := ∀ (zone : LocalZone) (s : List UInt8) (t : Time), decodeClientTime zone (.str s) = some t ↔ Spec.RfcText s t

/-- C118: the texts that the client takes for times, and the times that it reads. -/
theorem C118_exact (zone : LocalZone) (s : List UInt8) (t : Time) : decodeClientTime zone (.str s) = some t ↔ Spec.LooseText s t :=
  decodeClientTime_iff zone s t

theorem decimal_b {s : Bytes} {n : Nat} (h : s.all isDigit = true ∧ digitsVal s = n) : Spec.Decimal s n :=
  (spec_decimal_iff _ _).2 ⟨fun c hc => List.all_eq_true.1 h.1 c hc, h.2⟩

/-- Half past three in the night of a leap day, with one digit for the hour, a comma, more digits than nanoseconds, and a zone that does not exist. -/
def Samples.looseTime : Time := ⟨2024, 2, 29, 3, 30, 5, 123456789, .zone 90000⟩

def Samples.looseBytes : Bytes := b! "2024-02-29T3:30:05,1234567891+24:60"

theorem Samples.loose_text : Spec.LooseText Samples.looseBytes Samples.looseTime :=
  ⟨(existing_iff _).2 (by decide), b! "2024", b! "02", b! "29", b! "3", b! "30", b! "05", b! ",1234567891", b! "+24:60", by decide, rfl, rfl, rfl, .inl rfl, rfl, rfl,
    ⟨2024, rfl, decimal_b (by decide)⟩, decimal_b (by decide), decimal_b (by decide), decimal_b (by decide), decimal_b (by decide), decimal_b (by decide),
    .inr ⟨44, b! "1234567891", 1234567891, by decide, .inr rfl, by decide, decimal_b (by decide), by decide⟩,
    .inr ⟨43, b! "24", b! "60", 24, 60, by decide, rfl, rfl, decimal_b (by decide), decimal_b (by decide), by decide, by decide, .inl ⟨rfl, by decide⟩⟩⟩

/-- Case of `C118_exact`. -/
example (zone : LocalZone) : decodeClientTime zone (.str (b! "2024-02-29T3:30:05,1234567891+24:60")) = some ⟨2024, 2, 29, 3, 30, 5, 123456789, .zone 90000⟩ :=
  (C118_exact zone _ _).2 Samples.loose_text

/-- C118: texts of RFC 3339 are read as the times that they name, of more digits of a second than nine only the first nine. Missing for the full statement: no other texts
are taken for times (`C118_violated`); which are is `C118_exact`. -/
theorem C118_read_partial (zone : LocalZone) (s : List UInt8) (t : Time) (h : Spec.RfcText s t) : decodeClientTime zone (.str s) = some t := by
  obtain ⟨he, y, mo, d, hh, mi, se, fr, z, rfl, l1, l2, l3, l4, l5, l6, e1, e2, e3, e4, e5, e6, hf, hz⟩ := h
  refine (C118_exact zone _ _).2 ⟨he, y, mo, d, hh, mi, se, fr, z, rfl, l1, l2, l3, .inr l4, l5, l6, e1, e2, e3, e4, e5, e6, ?_, ?_⟩
  · rcases hf with h | ⟨d, n, rfl, h1, h2, h3⟩
    · exact .inl h
    · exact .inr ⟨46, d, n, rfl, .inl rfl, h1, h2, h3⟩
  · rcases hz with h | ⟨sign, zh, zm, a, b, rfl, k1, k2, k3, k4, k5, k6, k7⟩
    · exact .inl h
    · exact .inr ⟨sign, zh, zm, a, b, rfl, k1, k2, k3, k4, by omega, by omega, k7⟩

/-- Case of `C118_read_partial`. -/
example : Spec.RfcText (b! "2024-02-29T23:30:05.5-05:00") ⟨2024, 2, 29, 23, 30, 5, 500000000, .zone (-18000)⟩ :=
  ⟨(existing_iff _).2 (by decide), b! "2024", b! "02", b! "29", b! "23", b! "30", b! "05", b! ".5", b! "-05:00", by decide, rfl, rfl, rfl, rfl, rfl, rfl,
    ⟨2024, rfl, decimal_b (by decide)⟩, decimal_b (by decide), decimal_b (by decide), decimal_b (by decide), decimal_b (by decide), decimal_b (by decide),
    .inr ⟨b! "5", 5, by decide, by decide, decimal_b (by decide), by decide⟩,
    .inr ⟨45, b! "05", b! "00", 5, 0, by decide, rfl, rfl, decimal_b (by decide), decimal_b (by decide), by decide, by decide, .inr ⟨rfl, by decide⟩⟩⟩

/-- The place of a byte in the text of RFC 3339 that has a colon behind the hour. -/
theorem rfcText_colon {s : Bytes} {t : Time} (h : Spec.RfcText s t) : s[13]? = some 58 := by
  obtain ⟨-, y, mo, d, hh, mi, se, fr, z, rfl, l1, l2, l3, l4, -⟩ := h
  match y, mo, d, hh, l1, l2, l3, l4 with
  | [_, _, _, _], [_, _], [_, _], [_, _], _, _, _, _ => rfl

/-- C118, the full statement fails: a text with one digit for the hour is no text of RFC 3339, but taken for a time. -/
theorem C118_violated : ¬ C118_statement := by
  intro h
  have h1 := (h (fun _ _ => none) Samples.looseBytes Samples.looseTime).1 ((C118_exact _ _ _).2 Samples.loose_text)
  have h2 := rfcText_colon h1
  revert h2
  decide

end Metro2
