import Verif.Lemmas.RecordParse

/-! No panic in `Parse` of segments and records, and what a successful parse says about the fields. -/

namespace Metro2

/-- The result is not a panic. -/
def NoPanic {α : Type} (x : Except Err α) : Prop := x ≠ .error .panic

theorem Layout.safe {fmt : Format} {decl : List (F × FieldDecl)} {L : Nat} (h : Layout fmt decl L)
    {fs : Fields} (ht : fs.Typed decl) (pol : BdwPolicy) (rec : Bytes) (off : Nat) :
    (parseLoop fmt pol true rec off fs).1.Typed decl ∧ (parseLoop fmt pol true rec off fs).2 ≠ some .panic := by
  have := parseLoop_safe (fmt := fmt) (pol := pol) (rec := rec) (off := off) (fs := fs) (decl := decl)
    (bounds := true) (fun d hd => by
      obtain ⟨e, he, h1, h2, -⟩ := h.hasRow _ hd
      exact ⟨e, lookup_of_mem h.names he, h1, h2, by simp⟩) ht
  exact ⟨this.1, fun hc => by simpa [Err.bad] using this.2 _ hc⟩

theorem trailer_packed_safe {fs : Fields} (ht : fs.Typed trailerRecordStruct) (pol : BdwPolicy) {rec : Bytes}
    (hl : 366 ≤ rec.length) :
    (parseLoop trailerRecordPackedFormat pol false rec 0 fs).1.Typed trailerRecordStruct ∧
    (parseLoop trailerRecordPackedFormat pol false rec 0 fs).2 ≠ some .panic := by
  have hrows : ∀ r ∈ trailerRecordPackedFormat, r.2.start + r.2.len ≤ 366 := by decide +kernel
  have := parseLoop_safe (fmt := trailerRecordPackedFormat) (pol := pol) (rec := rec) (off := 0) (fs := fs)
    (decl := trailerRecordStruct) (bounds := false) (fun d hd => by
      obtain ⟨e, he, h1, h2, -⟩ := layout_trailerPacked.hasRow _ hd
      refine ⟨e, lookup_of_mem layout_trailerPacked.names he, h1, h2, fun _ => ⟨trailer_noBdw _ hd, ?_⟩⟩
      have := hrows _ he
      simp only at this; omega) ht
  exact ⟨this.1, fun hc => by simpa [Err.bad] using this.2 _ hc⟩

theorem seg_parse_safe {s : Seg} (ht : s.fields.Typed s.kind.struct) (rec : Bytes) (isVar : Bool) :
    (s.parse rec isVar).1.kind = s.kind ∧ (s.parse rec isVar).1.fields.Typed s.kind.struct ∧
    NoPanic (s.parse rec isVar).2 := by
  unfold Seg.parse
  split
  · exact ⟨rfl, ht, by simp [NoPanic]⟩
  · have := (layout_segment s.kind).safe ht (if isVar then .accept else .skip) rec 0
    generalize parseLoop s.kind.format (if isVar then .accept else .skip) true rec 0 s.fields = r at this
    obtain ⟨fs, o⟩ := r
    cases o with
    | none => exact ⟨rfl, this.1, by simp [NoPanic]⟩
    | some err => exact ⟨rfl, this.1, by simpa [NoPanic] using this.2⟩

theorem validateLoop_ne_panic {fmt : Format} {custom : F → Option Err} (hc : ∀ f, custom f ≠ some .panic)
    (fs : Fields) : validateLoop fmt custom fs ≠ some .panic := by
  induction fs with
  | nil => simp [validateLoop]
  | cons p fs ih =>
    rw [validateLoop]
    split
    · simp
    · have := hc p.1
      split
      · next err he => rw [he] at this; exact this
      · exact ih

theorem check_ne_panic (b : Bool) (f : F) : check b f ≠ some .panic := by
  unfold check; split <;> simp

theorem isPhoneNumber_ne_panic (i : Int) : isPhoneNumber i ≠ some .panic := by
  unfold isPhoneNumber
  split <;> simp

theorem segCustom_ne_panic (k : SegKind) (fs : Fields) (f : F) : segCustom k fs f ≠ some .panic := by
  unfold segCustom
  split <;> first | exact check_ne_panic _ _ | exact isPhoneNumber_ne_panic _ | simp

theorem seg_validate_ne_panic (s : Seg) : s.validate ≠ some .panic :=
  validateLoop_ne_panic (segCustom_ne_panic _ _) _

/-- Success of a segment parse. -/
theorem seg_parse_ok {s t : Seg} {rec : Bytes} {isVar : Bool} {n : Nat}
    (h : s.parse rec isVar = (t, .ok n)) : n = s.kind.length ∧ s.kind.length ≤ rec.length ∧ t.kind = s.kind ∧
      parseLoop s.kind.format (if isVar then .accept else .skip) true rec 0 s.fields = (t.fields, none) := by
  unfold Seg.parse at h
  split at h
  · simp at h
  · next hl =>
    generalize hr : parseLoop s.kind.format (if isVar then .accept else .skip) true rec 0 s.fields = r at h
    obtain ⟨fs, o⟩ := r
    cases o with
    | none =>
      simp only [Prod.mk.injEq, Except.ok.injEq] at h
      obtain ⟨rfl, rfl⟩ := h
      exact ⟨rfl, by omega, rfl, rfl⟩
    | some err => simp at h

/-- Enough fuel: `readSegs` neither panics nor runs out of fuel. -/
theorem readSegs_safe (isVar : Bool) : ∀ (fuel : Nat) (g : Segs) (off : Nat) (rec : Bytes),
    rec.length < fuel → NoPanic (readSegs isVar fuel g off rec).2 := by
  intro fuel
  induction fuel with
  | zero => intro g off rec h; omega
  | succ n ih =>
    intro g off rec hlen
    rw [readSegs_succ]
    split
    · split
      · simp [NoPanic]
      · next k hk =>
        have hs := seg_parse_safe (s := Seg.new k) (Seg.new_typed k) rec isVar
        split
        · next s err he => rw [he] at hs; simpa [NoPanic] using hs.2.2
        · next s m he =>
          obtain ⟨rfl, h2, -⟩ := seg_parse_ok he
          have := k.length_gt
          simp only [Seg.new_kind] at h2
          have hv := seg_validate_ne_panic s
          split
          · next g' err ha =>
            simp only [Segs.add] at ha
            split at ha
            · next hv' => cases ha; rw [hv'] at hv; simpa [NoPanic] using hv
            · cases ha
          · apply ih
            rw [List.length_drop, Seg.new_kind]; omega
    · simp [NoPanic]

/-- The fuel does not matter once it suffices. -/
theorem readSegs_fuel (isVar : Bool) : ∀ (fuel fuel' : Nat) (g : Segs) (off : Nat) (rec : Bytes),
    rec.length < fuel → rec.length < fuel' → readSegs isVar fuel g off rec = readSegs isVar fuel' g off rec := by
  intro fuel
  induction fuel with
  | zero => intro fuel' g off rec h; omega
  | succ n ih =>
    intro fuel' g off rec h1 h2
    cases fuel' with
    | zero => omega
    | succ m =>
      rw [readSegs_succ, readSegs_succ]
      split
      · split
        · rfl
        · next k hk =>
          split
          · rfl
          · next s l he =>
            obtain ⟨rfl, h3, -⟩ := seg_parse_ok he
            have := k.length_gt
            simp only [Seg.new_kind] at h3
            split
            · rfl
            · apply ih <;> rw [List.length_drop, Seg.new_kind] <;> omega
      · rfl

theorem readApplicableSegments_safe (g : Segs) (rec : Bytes) (isVar : Bool) :
    NoPanic (readApplicableSegments g rec isVar).2 :=
  readSegs_safe isVar _ _ _ _ (by omega)

theorem parseBaseCharacter_safe {fs : Fields} {g : Segs} (ht : fs.Typed baseSegmentStruct) (rec : Bytes)
    (isVar : Bool) :
    (parseBaseCharacter fs g rec isVar).1.1.Typed baseSegmentStruct ∧
    NoPanic (parseBaseCharacter fs g rec isVar).2 := by
  rw [parseBaseCharacter_eq]
  split
  · exact ⟨ht, by simp [NoPanic]⟩
  · have h := layout_baseCharacter.safe ht (if isVar then .accept else .skip) rec 0
    generalize parseLoop baseSegmentCharacterFormat (if isVar then .accept else .skip) true rec 0 fs = r at h
    obtain ⟨fs', o⟩ := r
    cases o with
    | some err => exact ⟨h.1, by simpa [NoPanic] using h.2⟩
    | none =>
      simp only
      try generalize (if fs'.int .BlockDescriptorWord > 0 then 426 + 4 else 426) = off
      split
      · exact ⟨h.1, by simp [NoPanic]⟩
      · generalize List.drop _ rec = rec'
        have h2 := readApplicableSegments_safe { g with j1 := [], j2 := [] } rec' isVar
        generalize readApplicableSegments { g with j1 := [], j2 := [] } rec' isVar = q at h2
        obtain ⟨g', x⟩ := q
        cases x with
        | error err => exact ⟨h.1, by simpa [NoPanic] using h2⟩
        | ok n =>
          simp only
          split
          · exact ⟨h.1, by simp [NoPanic]⟩
          · split <;> exact ⟨h.1, by simp [NoPanic]⟩

theorem parseBasePacked_safe {fs : Fields} {g : Segs} (ht : fs.Typed baseSegmentStruct) (rec : Bytes)
    (isVar : Bool) :
    (parseBasePacked fs g rec isVar).1.1.Typed baseSegmentStruct ∧
    NoPanic (parseBasePacked fs g rec isVar).2 := by
  rw [parseBasePacked_eq]
  split
  · exact ⟨ht, by simp [NoPanic]⟩
  · have h := layout_basePacked.safe ht (if isVar then .accept else .fail) rec 0
    generalize parseLoop baseSegmentPackedFormat (if isVar then .accept else .fail) true rec 0 fs = r at h
    obtain ⟨fs', o⟩ := r
    cases o with
    | some err => exact ⟨h.1, by simpa [NoPanic] using h.2⟩
    | none =>
      simp only
      try generalize (if fs'.int .BlockDescriptorWord > 0 then 426 + 4 else 426) = off
      split
      · exact ⟨h.1, by simp [NoPanic]⟩
      · generalize List.drop _ rec = rec'
        have h2 := readApplicableSegments_safe { g with j1 := [], j2 := [] } rec' isVar
        generalize readApplicableSegments { g with j1 := [], j2 := [] } rec' isVar = q at h2
        obtain ⟨g', x⟩ := q
        cases x with
        | error err => exact ⟨h.1, by simpa [NoPanic] using h2⟩
        | ok n =>
          simp only
          split <;> exact ⟨h.1, by simp [NoPanic]⟩

theorem parseHeader_safe {enc : Enc} {fs : Fields} (ht : fs.Typed headerRecordStruct) (rec : Bytes)
    (isVar : Bool) :
    (parseHeader enc fs rec isVar).1.Typed headerRecordStruct ∧ NoPanic (parseHeader enc fs rec isVar).2 := by
  unfold parseHeader
  split
  · exact ⟨ht, by simp [NoPanic]⟩
  · have h := (layout_header enc).safe ht (headerPolicy enc rec isVar) rec 0
    generalize parseLoop enc.headerFormat (headerPolicy enc rec isVar) true rec 0 fs = r at h
    obtain ⟨fs', o⟩ := r
    cases o with
    | some err => exact ⟨h.1, by simpa [NoPanic] using h.2⟩
    | none => exact ⟨h.1, by simp [NoPanic]⟩

theorem parseTrailer_safe {enc : Enc} {fs : Fields} (ht : fs.Typed trailerRecordStruct) (rec : Bytes)
    (isVar : Bool) :
    (parseTrailer enc fs rec isVar).1.Typed trailerRecordStruct ∧ NoPanic (parseTrailer enc fs rec isVar).2 := by
  unfold parseTrailer
  split
  · exact ⟨ht, by simp [NoPanic]⟩
  · next hl =>
    have h : (trailerLoop enc fs rec isVar).1.Typed trailerRecordStruct ∧
        (trailerLoop enc fs rec isVar).2 ≠ some .panic := by
      cases enc with
      | character => exact layout_trailerCharacter.safe ht _ rec 0
      | packed => exact trailer_packed_safe ht _ (by simpa [Enc.recordLength] using hl)
    generalize trailerLoop enc fs rec isVar = r at h
    obtain ⟨fs', o⟩ := r
    cases o with
    | some err => exact ⟨h.1, by simpa [NoPanic] using h.2⟩
    | none => exact ⟨h.1, by simp [NoPanic]⟩

end Metro2
