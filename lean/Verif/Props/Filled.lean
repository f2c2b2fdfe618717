import Verif.Lemmas.Filled
import Verif.Props.Records

/-!
Property C87: the fields of what is written are filled as the reporting standards of /repo/docs/file-structure.md say.
-/

namespace Metro2

open Samples Spec

/-! ### Lemmas about whole records -/

/-- The layout of a record and the text of its fields. -/
theorem record_parts (r : Record) (hr : WellTyped r) :
    ∃ decl L rest, Layout (tableOf r) decl L ∧ (valuesOf r).Typed decl ∧
      r.string = fieldsString (tableOf r) (valuesOf r) ++ rest ∧ (bdwText (tableOf r) (valuesOf r)).length = writeShift r := by
  cases r with
  | header enc fs =>
    have e1 : tableOf (.header enc fs) = enc.headerFormat := by cases enc <;> rfl
    rw [e1]
    exact ⟨_, _, _, layout_header enc, hr, rfl, (blocked_header enc).bdwText_len hr⟩
  | base enc fs g =>
    have e1 : tableOf (.base enc fs g) = enc.baseFormat := by cases enc <;> rfl
    rw [e1]
    exact ⟨_, _, _, layout_base enc, hr, List.append_assoc _ _ _, (blocked_base enc).bdwText_len hr⟩
  | trailer enc fs =>
    have e1 : tableOf (.trailer enc fs) = enc.trailerFormat := by cases enc <;> rfl
    rw [e1]
    exact ⟨_, _, _, layout_trailer enc, hr, rfl, bdwText_nil (trailer_noBdwRow enc) _⟩

/-- What stands in the place of a field of a record. -/
theorem record_place (r : Record) (hr : WellTyped r) (hs : SizedAll (tableOf r) (valuesOf r)) {f : F} {v : Val} {e : Field}
    (hf : f ≠ .BlockDescriptorWord) (he : (f, e) ∈ tableOf r) (hv : (f, v) ∈ valuesOf r) :
    placeOf (writeShift r) e r.string = toStr e (some v) ∧
      ∃ k, WidthOk e = true ∧ v.hasKind k = true ∧ KindOk e k = true ∧ e.omitted = false := by
  obtain ⟨decl, L, rest, h1, h2, h3, h4⟩ := record_parts r hr
  obtain ⟨h5, h6⟩ := h1.get_some h2 he hf hv
  rw [h3, ← h4, h1.place h2 hs he hf, h5]
  exact ⟨rfl, h6⟩

/-- What stands in the place of a field of a segment. -/
theorem segment_place (k : SegKind) (s : Seg) (hs : SegSized k s) {f : F} {v : Val} {e : Field}
    (he : (f, e) ∈ k.format) (hv : (f, v) ∈ s.fields) :
    placeOf 0 e s.string = toStr e (some v) ∧
      ∃ k, WidthOk e = true ∧ v.hasKind k = true ∧ KindOk e k = true ∧ e.omitted = false := by
  have hf : f ≠ .BlockDescriptorWord := by
    rintro rfl
    have := seg_noBdwRow k
    rw [bdwRows, List.filter_eq_nil_iff] at this
    exact this _ he (by simp)
  obtain ⟨h5, h6⟩ := (layout_segment k).get_some hs.typed he hf hv
  have h7 := (layout_segment k).place hs.typed hs.sized he hf []
  rw [bdwText_nil (seg_noBdwRow k), List.append_nil, h5] at h7
  rw [Seg.string, hs.kind]
  exact ⟨h7, h6⟩

/-! ### C87 -/

/-- C87. Every field of a written segment is filled as the standards say: texts from the left and then blanks, numbers with leading
zeros, dates as MMDDYYYY. -/
theorem C87_segment (k : SegKind) (s : Seg) (hs : SegSized k s) (f : F) (v : Val) (e : Field) (he : (f, e) ∈ k.format)
    (hv : (f, v) ∈ s.fields) : Filled e v (placeOf 0 e s.string) := by
  obtain ⟨h1, k', h2, h3, h4, h5⟩ := segment_place k s hs he hv
  rw [h1]
  exact text_filled h2 h3 h4 (hs.sized _ hv _ he) h5

/-- C87. The same for the fields of a written header, data record or trailer of either format, counted from behind the block
descriptor where one is written. -/
theorem C87_record (r : Record) (hr : WellTyped r) (hs : SizedAll (tableOf r) (valuesOf r)) (f : F) (v : Val) (e : Field)
    (hf : f ≠ .BlockDescriptorWord) (he : (f, e) ∈ tableOf r) (hv : (f, v) ∈ valuesOf r) :
    Filled e v (placeOf (writeShift r) e r.string) := by
  obtain ⟨h1, k, h2, h3, h4, h5⟩ := record_place r hr hs hf he hv
  rw [h1]
  exact text_filled h2 h3 h4 (hs _ hv _ he) h5

/-- C87. The block descriptor, if it is not 0, is filled in the same way in the first four bytes. -/
theorem C87_block (r : Record) (hr : WellTyped r) (e : Field) (he : (.BlockDescriptorWord, e) ∈ tableOf r)
    (hb : bdw (valuesOf r) ≠ 0) : e.start = 0 ∧ e.len = 4 ∧ Filled e (.int (bdw (valuesOf r))) (placeOf 0 e r.string) := by
  have key : ∀ enc (fmt : Format) decl (fs : Fields) rest, Blocked enc fmt decl → fs.Typed decl → Layout fmt decl enc.recordLength →
      (.BlockDescriptorWord, e) ∈ fmt → bdw fs ≠ 0 →
      e.start = 0 ∧ e.len = 4 ∧ Filled e (.int (bdw fs)) (placeOf 0 e (fieldsString fmt fs ++ rest)) := by
    intro enc fmt decl fs rest h1 h2 h3 h4 h5
    have he' : e = bdwField enc := by
      have := lookup_of_mem h3.names h4
      rw [h1.bdw, Option.some.injEq] at this
      exact this.symm
    subst he'
    have hl := bdwText_length enc h5
    have e0 : (bdwField enc).start = 0 ∧ (bdwField enc).len = 4 := by cases enc <;> exact ⟨rfl, rfl⟩
    refine ⟨e0.1, e0.2, ?_⟩
    rw [placeOf, e0.1, e0.2, h3.text, h1.bdwText h2, Nat.add_zero, List.drop_zero, List.append_assoc]
    have : fs.int .BlockDescriptorWord = bdw fs := rfl
    rw [this, List.take_append_of_le_length (by omega), List.take_of_length_le (by omega)]
    rw [toStr_some (by simp [h5])]
    cases enc with
    | character =>
      have := text_filled (e := { bdwField .character with omitted := false }) (v := .int (bdw fs)) (k := .int) rfl rfl rfl trivial rfl
      rw [toStr_some (by simp)] at this
      exact this
    | packed =>
      have := text_filled (e := { bdwField .packed with omitted := false }) (v := .int (bdw fs)) (k := .int) rfl rfl rfl trivial rfl
      rw [toStr_some (by simp)] at this
      exact this
  cases r with
  | header enc fs =>
    have e1 : tableOf (.header enc fs) = enc.headerFormat := by cases enc <;> rfl
    rw [e1] at he
    exact key enc _ _ fs _ (blocked_header enc) hr (layout_header enc) he hb
  | base enc fs g =>
    have e1 : tableOf (.base enc fs g) = enc.baseFormat := by cases enc <;> rfl
    rw [e1] at he
    rw [Record.string, padTo, List.append_assoc]
    exact key enc _ _ fs _ (blocked_base enc) hr (layout_base enc) he hb
  | trailer enc fs =>
    have e1 : tableOf (.trailer enc fs) = enc.trailerFormat := by cases enc <;> rfl
    rw [e1] at he
    have := trailer_noBdwRow enc
    rw [bdwRows, List.filter_eq_nil_iff] at this
    exact absurd (this _ he) (by simp)

/-- C87. Behind the fields and the appended segments there are only blanks. -/
theorem C87_rest (r : Record) (hr : WellTyped r) (hs : SizedAll (tableOf r) (valuesOf r)) (hg : SegsSized (segsOf r)) :
    ∃ body n, r.string = body ++ List.replicate n ' '.toNat.toUInt8 ∧
      body.length = bodyLength r := by
  cases r with
  | header enc fs =>
    have e1 : tableOf (.header enc fs) = enc.headerFormat := by cases enc <;> rfl
    rw [e1] at hs
    refine ⟨_, _, rfl, ?_⟩
    exact header_length hr ((layout_header enc).widthAll_of_sized hr hs)
  | base enc fs g =>
    have e1 : tableOf (.base enc fs g) = enc.baseFormat := by cases enc <;> rfl
    rw [e1] at hs
    refine ⟨_, _, rfl, ?_⟩
    simp only [segsOf] at hg
    rw [List.length_append, base_length hr ((layout_base enc).widthAll_of_sized hr hs), hg.string_length]
    rfl
  | trailer enc fs =>
    have e1 : tableOf (.trailer enc fs) = enc.trailerFormat := by cases enc <;> rfl
    rw [e1] at hs
    refine ⟨_, _, rfl, ?_⟩
    exact trailer_length ((layout_trailer enc).widthAll_of_sized hr hs)

/-- C87. A field of a segment that is not available is filled with blanks if it is descriptive, with zeros otherwise. -/
theorem C87_unset_segment (k : SegKind) (s : Seg) (hs : SegSized k s) (f : F) (v : Val) (e : Field) (he : (f, e) ∈ k.format)
    (hv : (f, v) ∈ s.fields) (hu : Unset v) : placeOf 0 e s.string = fillOf e := by
  obtain ⟨h1, k', h2, h3, h4, h5⟩ := segment_place k s hs he hv
  rw [h1]
  have : ∀ k : SegKind, ∀ p ∈ k.format, packedTime p.2 = false := by
    intro k
    cases k <;> decide +kernel
  exact text_unset h2 h3 h4 hu h5 (this k _ he)

/-- C87. The same for records, except for packed dates and times: missing are these, see `C87_unset_packed`. -/
theorem C87_unset_record_partial (r : Record) (hr : WellTyped r) (hs : SizedAll (tableOf r) (valuesOf r)) (f : F) (v : Val)
    (e : Field) (hf : f ≠ .BlockDescriptorWord) (he : (f, e) ∈ tableOf r) (hv : (f, v) ∈ valuesOf r) (hu : Unset v)
    (hp : e.typ ≠ .packedDate ∧ e.typ ≠ .packedTimestamp) : placeOf (writeShift r) e r.string = fillOf e := by
  obtain ⟨h1, k, h2, h3, h4, h5⟩ := record_place r hr hs hf he hv
  rw [h1]
  exact text_unset h2 h3 h4 hu h5 (by simp [packedTime, hp.1, hp.2])

/-- C87 is violated for packed dates and times: one that is not available is never filled with zeros, but always with the packed form of
January 1 of the year 1. -/
theorem C87_unset_packed (r : Record) (hr : WellTyped r) (hs : SizedAll (tableOf r) (valuesOf r)) (f : F)
    (e : Field) (hf : f ≠ .BlockDescriptorWord) (he : (f, e) ∈ tableOf r) (hv : (f, .time noTime) ∈ valuesOf r)
    (hp : e.typ = .packedDate ∨ e.typ = .packedTimestamp) :
    placeOf (writeShift r) e r.string = (if e.typ = .packedDate then [0x00, 0x0F, 0x69, 0x51, 0x73]
      else [0x00, 0x00, 0xEB, 0x28, 0xC0, 0x36, 0x40, 0x73]) ∧ placeOf (writeShift r) e r.string ≠ fillOf e := by
  obtain ⟨h1, k, h2, h3, h4, h5⟩ := record_place r hr hs hf he hv
  rw [h1]
  rcases hp with hp | hp
  · rw [(text_unset_packed h5).1 hp, if_pos hp]
    have : e.len = 5 := by simpa [WidthOk, hp] using h2
    refine ⟨rfl, ?_⟩
    simp only [fillOf, hp, this]
    decide
  · rw [(text_unset_packed h5).2 hp, if_neg (by simp [hp])]
    have : e.len = 8 := by simpa [WidthOk, hp] using h2
    refine ⟨rfl, ?_⟩
    simp only [fillOf, hp, this]
    decide

/-- A data record whose surname begins with a blank and is in small letters. -/
def looseName : Fields := base 0 426 [(.Surname, .str (b! " smith"))]

/-- C87 is violated for texts: a data record with a text that is not left-justified and not in upper case is valid, and it is written, and read
again, as it is. -/
theorem C87_letters_violated : ∃ fs e s, (.Surname, e) ∈ baseSegmentCharacterFormat ∧ fs.get .Surname = some (.str s) ∧
    (Record.base .character fs {}).validate = none ∧ s <+: placeOf 0 e (Record.base .character fs {}).string ∧
    ¬ LeftJustified s ∧ ¬ Uppercase s ∧
    (newBase .character).parse (Record.base .character fs {}).string false = (.base .character fs {}, .ok 426) := by
  refine ⟨looseName, ⟨231, 25, .alphanumeric, false, false, .required⟩, b! " smith", by decide +kernel, by decide +kernel,
    by decide +kernel, ?_, ?_, ?_, by decide +kernel⟩
  · exact List.isPrefixOf_iff_prefix.1 (by decide +kernel)
  · simp only [LeftJustified]
    decide
  · intro h
    exact h 115 (by decide) (by decide)

/-! ### Non-vacuity -/

/-- Cases of `C87_segment` and `C87_unset_segment`. -/
example : SegSized .j1 j1 ∧ (.MiddleName, .str []) ∈ j1.fields ∧ Unset (.str []) ∧ (.TelephoneNumber, .int 0) ∈ j1.fields ∧
    Unset (.int 0) :=
  ⟨⟨rfl, typed_of_typedB (by decide +kernel), sizedAll_of_B (by decide +kernel)⟩, by decide +kernel, rfl, by decide +kernel, rfl⟩

/-- Cases of `C87_record`, `C87_block`, `C87_unset_packed` and `C87_unset_record_partial`. -/
example : let r := Record.base .packed (base 370 366) segs
    WellTyped r ∧ SizedAll (tableOf r) (valuesOf r) ∧ writeShift r = 4 ∧ bdw (valuesOf r) ≠ 0 ∧
    (.DateClosed, .time noTime) ∈ valuesOf r ∧ (.DateClosed, ⟨154, 5, .packedDate, true, false, .applicable⟩) ∈ tableOf r ∧
    (.CreditLimit, .int 0) ∈ valuesOf r :=
  ⟨typed_of_typedB (by decide +kernel), sizedAll_of_B (by decide +kernel), by decide +kernel, by decide +kernel, by decide +kernel,
    by decide +kernel, by decide +kernel⟩

/-- The highest credit of the sample, 250000, in nine digits. -/
example : placeOf 0 ⟨92, 9, .numeric, true, false, .nullable⟩ (Record.base .character (base 0 426) {}).string = b! "000250000" := by
  decide +kernel

/-- Case of `C87_rest`. -/
example : SegsSized segs ∧ (Record.base .character (base 1300 1296) segs).string.length = 1296 := by
  have key : ∀ k s, (decide (s.kind = k) && typedB k.struct s.fields && sizedAllB s.fields) = true → SegSized k s := by
    intro k s h
    simp only [Bool.and_eq_true, decide_eq_true_eq] at h
    exact ⟨h.1.1, typed_of_typedB h.1.2, sizedAll_of_B h.2⟩
  have many : ∀ (k : SegKind) (l : List Seg), l.all (fun s => decide (s.kind = k) && typedB k.struct s.fields && sizedAllB s.fields) = true →
      ∀ s ∈ l, SegSized k s := fun k l h s hs => key k s (List.all_eq_true.1 h s hs)
  have one : ∀ (k : SegKind) (o : Option Seg),
      o.toList.all (fun s => decide (s.kind = k) && typedB k.struct s.fields && sizedAllB s.fields) = true →
      ∀ s, o = some s → SegSized k s := fun k o h s hs => many k _ h s (by simp [hs])
  exact ⟨⟨many _ _ (by decide +kernel), many _ _ (by decide +kernel), one _ _ (by decide +kernel), one _ _ (by decide +kernel),
    one _ _ (by decide +kernel), one _ _ (by decide +kernel), one _ _ (by decide +kernel), one _ _ (by decide +kernel)⟩, by decide +kernel⟩

end Metro2
