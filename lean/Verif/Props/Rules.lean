import Verif.Lemmas.Rules
import Verif.Props.Validate

/-! Properties C55 to C58: the rules behind validation. -/

namespace Metro2

open Samples

/-! ### C55 -/

/-- C55, character data records: valid exactly if the mandatory fields are present and each coded field holds a declared code. -/
theorem C55_character (fs : Fields) (g : Segs) (ht : fs.Typed baseSegmentStruct) :
    (Record.base .character fs g).validate = none ↔ Spec.BaseRules Spec.historyCodes fs := by
  have h : (Enc.character.paymentHistoryCodes.all Spec.historyCodes.contains &&
    Spec.historyCodes.all Enc.character.paymentHistoryCodes.contains) = true := by decide +kernel
  rw [Bool.and_eq_true, List.all_eq_true, List.all_eq_true] at h
  exact baseRules_iff (fun c => ⟨fun hc => List.contains_iff_mem.1 (h.1 c hc), fun hc => List.contains_iff_mem.1 (h.2 c hc)⟩) ht

/-- C55, packed data records, the part that holds: the same rules without the declared payment history code 'Z'. The full property has the same
code list for both formats, see `C55_violated`. -/
theorem C55_packed_partial (fs : Fields) (g : Segs) (ht : fs.Typed baseSegmentStruct) :
    (Record.base .packed fs g).validate = none ↔
      Spec.BaseRules (Spec.historyCodes.filter (· ≠ 'Z'.toNat.toUInt8)) fs := by
  have h : (Enc.packed.paymentHistoryCodes.all (Spec.historyCodes.filter (· ≠ 'Z'.toNat.toUInt8)).contains &&
    (Spec.historyCodes.filter (· ≠ 'Z'.toNat.toUInt8)).all Enc.packed.paymentHistoryCodes.contains) = true := by decide +kernel
  rw [Bool.and_eq_true, List.all_eq_true, List.all_eq_true] at h
  exact baseRules_iff (fun c => ⟨fun hc => List.contains_iff_mem.1 (h.1 c hc), fun hc => List.contains_iff_mem.1 (h.2 c hc)⟩) ht

/-- C55, segments. -/
theorem C55_segment (s : Seg) (ht : s.fields.Typed s.kind.struct) :
    s.validate = none ↔ Spec.AllPresent (Spec.mandatorySegment s.kind) s.fields ∧ Spec.SegmentCodes s.kind s.fields :=
  segRules_iff ht

/-- C55, headers: only the presence of the mandatory fields matters. -/
theorem C55_header (enc : Enc) (fs : Fields) (ht : fs.Typed headerRecordStruct) :
    (Record.header enc fs).validate = none ↔ Spec.AllPresent Spec.taggedHeader fs :=
  plainRules_iff (by cases enc <;> decide +kernel) ht

/-- C55, trailers: likewise. -/
theorem C55_trailer (enc : Enc) (fs : Fields) (ht : fs.Typed trailerRecordStruct) :
    (Record.trailer enc fs).validate = none ↔ Spec.AllPresent Spec.mandatoryTrailer fs :=
  plainRules_iff (by cases enc <;> decide +kernel) ht

theorem zRecord_typed : (zRecord .character).fields.Typed baseSegmentStruct := by
  have h : typedB baseSegmentStruct (zRecord .character).fields = true := by decide +kernel
  exact typed_of_typedB h

/-- C55 is violated in packed form: a record that keeps all rules is rejected for the declared code 'Z'. -/
theorem C55_violated : ∃ fs : Fields, fs.Typed baseSegmentStruct ∧ Spec.BaseRules Spec.historyCodes fs ∧
    (Record.base .packed fs {}).validate = some (.invalidValue .PaymentHistoryProfile) :=
  ⟨(zRecord .character).fields, zRecord_typed, (C55_character _ {} zRecord_typed).1 C31_violated.1, C31_violated.2.1⟩

/-- Case of `C55_packed_partial`. -/
example : (base 430 426).Typed baseSegmentStruct ∧ Spec.BaseRules Spec.historyCodes (base 430 426) := by
  have h : typedB baseSegmentStruct (base 430 426) = true := by decide +kernel
  have ht := typed_of_typedB h
  exact ⟨ht, (C55_character _ {} ht).1 (by decide +kernel)⟩

/-- The rules are broken by single wrong codes. -/
example : ∀ p ∈ [(F.AccountType, Val.str (b! "0B")), (.AccountStatus, .str (b! "12")), (.PaymentRating, .str []),
    (.SpecialComment, .str (b! "ZZ")), (.TermsDuration, .str (b! "1 Y")), (.PortfolioType, .str (b! "c"))],
    ¬ Spec.BaseRules Spec.historyCodes (base 430 426 [p]) := by
  intro p hp h
  have ht : (base 430 426 [p]).Typed baseSegmentStruct := by
    have : ∀ p ∈ [(F.AccountType, Val.str (b! "0B")), (.AccountStatus, .str (b! "12")), (.PaymentRating, .str []),
      (.SpecialComment, .str (b! "ZZ")), (.TermsDuration, .str (b! "1 Y")), (.PortfolioType, .str (b! "c"))],
      typedB baseSegmentStruct (base 430 426 [p]) = true := by decide +kernel
    exact typed_of_typedB (this p hp)
  have hv := (C55_character _ {} ht).2 h
  have : ∀ p ∈ [(F.AccountType, Val.str (b! "0B")), (.AccountStatus, .str (b! "12")), (.PaymentRating, .str []),
      (.SpecialComment, .str (b! "ZZ")), (.TermsDuration, .str (b! "1 Y")), (.PortfolioType, .str (b! "c"))],
      (Record.base .character (base 430 426 [p]) {}).validate ≠ none := by decide +kernel
  exact this p hp hv

/-- Case of `C55_segment`. -/
example : ∀ s ∈ [j1, j2, k1, k2, k3, k4, l1, n1], s.validate = none ∧ typedB s.kind.struct s.fields = true := by decide +kernel

/-- Cases of `C55_header` and `C55_trailer`. -/
example : (header 0 426).Typed headerRecordStruct ∧ (Record.header .character (header 0 426)).validate = none ∧
    (trailer 366).Typed trailerRecordStruct ∧ (Record.trailer .packed (trailer 366)).validate = none ∧
    (Record.trailer .packed ((trailer 366).set .TotalBaseRecords (.int 0))).validate ≠ none :=
  ⟨typed_of_typedB (by decide +kernel), by decide +kernel, typed_of_typedB (by decide +kernel), by decide +kernel, by decide +kernel⟩

/-! ### C56 -/

/-- C56, the part that holds: a valid record has all fields whose struct tag says `required`, and so has a valid segment, except
for the first name in J2. The full property has no exception, see `C56_violated`. -/
theorem C56_required_partial :
    (∀ enc fs, fs.Typed headerRecordStruct → (Record.header enc fs).validate = none → Spec.AllPresent Spec.taggedHeader fs) ∧
    (∀ enc fs g, fs.Typed baseSegmentStruct → (Record.base enc fs g).validate = none → Spec.AllPresent Spec.taggedBase fs) ∧
    (∀ enc fs, fs.Typed trailerRecordStruct → (Record.trailer enc fs).validate = none → Spec.AllPresent Spec.taggedTrailer fs) ∧
    ∀ s : Seg, s.fields.Typed s.kind.struct → s.validate = none →
      ∀ f ∈ Spec.taggedSegment s.kind, (s.kind = .j2 → f ≠ .FirstName) → ∀ v, (f, v) ∈ s.fields → Spec.Present v := by
  refine ⟨fun enc fs ht h => (C55_header enc fs ht).1 h, ?_, ?_, ?_⟩
  · intro enc fs g ht h f hf
    have : Spec.AllPresent Spec.mandatoryBase fs := by
      cases enc
      · exact ((C55_character fs g ht).1 h).mandatory
      · exact ((C55_packed_partial fs g ht).1 h).mandatory
    exact this f (List.mem_cons_of_mem _ (List.mem_cons_of_mem _ hf))
  · intro enc fs ht h f hf
    exact (C55_trailer enc fs ht).1 h f (List.mem_cons_of_mem _ hf)
  · intro s ht h f hf hx v hv
    refine ((C55_segment s ht).1 h).1 f ?_ v hv
    rw [Spec.mandatorySegment, List.mem_filter]
    exact ⟨hf, decide_eq_true fun h' => hx h'.1 h'.2⟩

/-- C56 is violated: a J2 segment without first name is valid and is stored in a data record, although the struct tag of
`FirstName` says `required`. The same person in a J1 segment is rejected. -/
theorem C56_violated : F.FirstName ∈ Spec.taggedSegment .j2 ∧ (F.FirstName, Val.str []) ∈ j2.fields ∧
    j2.validate = none ∧ (Segs.add {} j2).2 = none ∧
    Seg.validate ⟨.j1, j1.fields.set .FirstName (.str [])⟩ = some (.required .FirstName) := by
  decide +kernel

/-! ### C57 -/

/-- Fields of data records with documented value lists (/repo/pkg/lib/base_segment.go:369-381, 477-499) that J1 and J2 segments check. -/
def Spec.sharedCodes : List F := [.GenerationCode, .AddressIndicator, .ResidenceCode]

/-- C57 is violated completely for data records: these fields have no influence on validation, in either format. -/
theorem C57_ignored (enc : Enc) (fs : Fields) (g : Segs) (f : F) (hf : f ∈ Spec.sharedCodes) (v : Val) :
    (Record.base enc (fs.set f v) g).validate = (Record.base enc fs g).validate := by
  simp only [Spec.sharedCodes, List.mem_cons, List.not_mem_nil, or_false] at hf
  refine validateLoop_set (missing_of_not_required ?_) fun h => ?_
  · rcases hf with rfl | rfl | rfl <;> cases enc <;> decide +kernel
  · rcases hf with rfl | rfl | rfl <;> unfold baseCustom <;> split <;> first
      | rfl
      | simp only [Fields.int_set_other, Fields.str_set_other, Fields.time_set_other, ne_eq, reduceCtorEq, not_false_eq_true]

/-- C57 is violated by a concrete code: generation code "Q" is accepted in a data record and rejected in both segments. -/
theorem C57_violated : b! "Q" ∉ Spec.nameSuffixes ∧
    (∀ enc, (Record.base enc (base 430 426 [(.GenerationCode, .str (b! "Q"))]) {}).validate = none) ∧
    ∀ s ∈ [j1, j2], Seg.validate ⟨s.kind, s.fields.set .GenerationCode (.str (b! "Q"))⟩ = some (.invalidValue .GenerationCode) := by
  refine ⟨by decide, fun enc => by cases enc <;> decide +kernel, by decide +kernel⟩

/-- C57, the part that holds: valid J1 and J2 segments have only documented codes in these fields. -/
theorem C57_segments_partial (s : Seg) (ht : s.fields.Typed s.kind.struct) (hv : s.validate = none) (hk : s.kind = .j1 ∨ s.kind = .j2) :
    Spec.OneOf s.fields .GenerationCode ([] :: Spec.nameSuffixes) ∧
    (s.kind = .j2 → Spec.OneOf s.fields .AddressIndicator ([] :: b! " " :: Spec.addressCodes) ∧
      Spec.OneOf s.fields .ResidenceCode ([] :: b! " " :: Spec.residences)) := by
  have h := ((C55_segment s ht).1 hv).2
  obtain ⟨k, fs⟩ := s
  simp only at hk h ⊢
  rcases hk with rfl | rfl
  · exact ⟨h.1, fun h => by cases h⟩
  · exact ⟨h.1, fun _ => h.2.2⟩

/-- Case of `C56_required_partial`. -/
example : j1.validate = none ∧ j2.validate = none ∧ typedB j2SegmentStruct j2.fields = true := by decide +kernel

/-! ### C58 -/

/-- The payment history values listed in /repo/pkg/lib/base_segment.go:208-222, "No other values are acceptable". -/
def Spec.documentedHistory : List UInt8 := b! "0123456BDEGHJKL"

/-- "A 'B' may not be embedded within other values" (/repo/pkg/lib/base_segment.go:215): after a 'B' come only 'B's. -/
def Spec.TrailingB (s : List UInt8) : Prop :=
  ∀ a b, s = a ++ 'B'.toNat.toUInt8 :: b → ∀ c ∈ b, c = 'B'.toNat.toUInt8

/-- C58, the part that holds: the profile of a valid data record has 24 values, all of them documented or 'Z' or blank. The full property excludes
'Z' and blank and embedded 'B's, see `C58_violated`. -/
theorem C58_values_partial (enc : Enc) (fs : Fields) (g : Segs) (ht : fs.Typed baseSegmentStruct)
    (hv : (Record.base enc fs g).validate = none) (s : List UInt8) (hs : (.PaymentHistoryProfile, .str s) ∈ fs) :
    s.length = 24 ∧ ∀ c ∈ s, c ∈ Spec.documentedHistory ∨ (c = 'Z'.toNat.toUInt8 ∧ enc = .character) ∨ c = ' '.toNat.toUInt8 := by
  cases enc with
  | character =>
    obtain ⟨h1, h2⟩ := ((C55_character fs g ht).1 hv).history s hs
    refine ⟨h1, fun c hc => ?_⟩
    have : ∀ c ∈ Spec.historyCodes, c ∈ Spec.documentedHistory ∨ (c = 'Z'.toNat.toUInt8) ∨ c = ' '.toNat.toUInt8 := by decide +kernel
    rcases this c (h2 c hc) with h | h | h
    · exact .inl h
    · exact .inr (.inl ⟨h, rfl⟩)
    · exact .inr (.inr h)
  | packed =>
    obtain ⟨h1, h2⟩ := ((C55_packed_partial fs g ht).1 hv).history s hs
    refine ⟨h1, fun c hc => ?_⟩
    have : ∀ c ∈ Spec.historyCodes.filter (· ≠ 'Z'.toNat.toUInt8), c ∈ Spec.documentedHistory ∨ c = ' '.toNat.toUInt8 := by
      decide +kernel
    rcases this c (h2 c hc) with h | h
    · exact .inl h
    · exact .inr (.inr h)

/-- C58 is violated: profiles with a blank, and with an embedded 'B', are valid in both formats. -/
theorem C58_violated : ' '.toNat.toUInt8 ∉ Spec.documentedHistory ∧ ¬ Spec.TrailingB (b! "0B0000000000000000000000") ∧
    ∀ enc, ∀ s ∈ [b! "0 0000000000000000000000", b! "0B0000000000000000000000"],
      (Record.base enc (base 430 426 [(.PaymentHistoryProfile, .str s)]) {}).validate = none := by
  refine ⟨by decide, ?_, fun enc => by cases enc <;> decide +kernel⟩
  intro h
  have := h (b! "0") (b! "0000000000000000000000") (by decide) 48 (by decide)
  revert this
  decide

/-- Cases of `C57_ignored` and `C58_values_partial`. -/
example : F.AddressIndicator ∈ Spec.sharedCodes ∧ (base 430 426).Typed baseSegmentStruct ∧
    (Record.base .packed (base 430 426) {}).validate = none ∧
    (F.PaymentHistoryProfile, Val.str (b! "BBBBBBBBBBBBBBBBBBBBBBBB")) ∈ base 430 426 :=
  ⟨by decide +kernel, typed_of_typedB (by decide +kernel), by decide +kernel, by decide +kernel⟩

end Metro2
