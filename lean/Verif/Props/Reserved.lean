import Verif.Lemmas.Reserved

/-!
Property C101: the reserved places of the layouts. They are written as blanks, and what stands in them does not matter for reading.
-/

namespace Metro2

open Samples Spec

/-! ### Lemmas -/

/-- The reserved places are rows of the layout table that are not fields and are filled with blanks. -/
def reservedRows (fmt : Format) (decl : List (F × FieldDecl)) (ps : List (Nat × Nat)) : Bool :=
  ps.all fun p => fmt.any fun q => q.2.start == p.1 && q.2.len == p.2 && isReserved q.1 && !q.2.zeroFill && !(decl.map (·.1)).contains q.1

theorem reservedRows_mem {fmt : Format} {decl : List (F × FieldDecl)} {ps : List (Nat × Nat)} (h : reservedRows fmt decl ps = true)
    {p : Nat × Nat} (hp : p ∈ ps) :
    ∃ f e, (f, e) ∈ fmt ∧ e.start = p.1 ∧ e.len = p.2 ∧ f ≠ .BlockDescriptorWord ∧ e.zeroFill = false ∧ f ∉ decl.map (·.1) := by
  have := List.all_eq_true.1 h p hp
  obtain ⟨⟨f, e⟩, h1, h2⟩ := List.any_eq_true.1 this
  simp only [Bool.and_eq_true, beq_iff_eq, Bool.not_eq_true', List.contains_eq_mem, decide_eq_false_iff_not] at h2
  refine ⟨f, e, h1, h2.1.1.1.1, h2.1.1.1.2, ?_, h2.1.2, h2.2⟩
  rintro rfl
  exact absurd h2.1.1.2 (by decide)

/-- The struct of a record. -/
def structOf : Record → List (F × FieldDecl)
  | .header _ _ => headerRecordStruct
  | .base _ _ _ => baseSegmentStruct
  | .trailer _ _ => trailerRecordStruct

theorem structOf_typed {r : Record} (hr : WellTyped r) : (valuesOf r).Typed (structOf r) := by
  cases r <;> exact hr

theorem reserved_record (r : Record) : reservedRows (tableOf r) (structOf r) (reservedPlaces r) = true := by
  cases r with
  | header enc _ => cases enc <;> simp only [tableOf, structOf, reservedPlaces] <;> decide +kernel
  | base enc _ _ => cases enc <;> simp only [tableOf, structOf, reservedPlaces] <;> decide +kernel
  | trailer enc _ => cases enc <;> simp only [tableOf, structOf, reservedPlaces] <;> decide +kernel

theorem reserved_segment (k : SegKind) : reservedRows k.format k.struct (segmentReserved k) = true := by
  cases k <;> decide +kernel

theorem aside_record (r : Record) :
    ((reservedPlaces r).all fun p => decide (16 ≤ p.1) && asideB (tableOf r) ((structOf r).map (·.1)) p) = true := by
  cases r with
  | header enc _ => cases enc <;> simp only [tableOf, structOf, reservedPlaces] <;> decide +kernel
  | base enc _ _ => cases enc <;> simp only [tableOf, structOf, reservedPlaces] <;> decide +kernel
  | trailer enc _ => cases enc <;> simp only [tableOf, structOf, reservedPlaces] <;> decide +kernel

theorem aside_segment (k : SegKind) : ((segmentReserved k).all fun p => asideB k.format (k.struct.map (·.1)) p) = true := by
  cases k <;> decide +kernel

/-! ### Writing -/

/-- C101 (records): every reserved place of a record that is written is filled with blanks. -/
theorem C101_written_record (r : Record) (hr : WellTyped r) (hs : SizedAll (tableOf r) (valuesOf r)) (p : Nat × Nat)
    (hp : p ∈ reservedPlaces r) :
    (r.string.drop (writeShift r + p.1)).take p.2 = List.replicate p.2 ' '.toNat.toUInt8 := by
  obtain ⟨decl, L, rest, h1, h2, h3, h4⟩ := record_parts r hr
  obtain ⟨f, e, he, e1, e2, hb, hz, hn⟩ := reservedRows_mem (reserved_record r) hp
  have := h1.place h2 hs he hb rest
  rw [Fields.get_none (by rw [(structOf_typed hr).names]; exact hn), ← h3, h4, placeOf, e1, e2] at this
  rw [this]
  simp only [toStr, fillString, hz, e2]
  rfl

/-- C101 (segments): every reserved place of a segment that is written is filled with blanks. -/
theorem C101_written_segment (k : SegKind) (s : Seg) (hs : SegSized k s) (p : Nat × Nat) (hp : p ∈ segmentReserved k) :
    (s.string.drop p.1).take p.2 = List.replicate p.2 ' '.toNat.toUInt8 := by
  obtain ⟨f, e, he, e1, e2, hb, hz, hn⟩ := reservedRows_mem (reserved_segment k) hp
  have := (layout_segment k).place hs.typed hs.sized he hb []
  rw [bdwText_nil (seg_noBdwRow k), List.append_nil, Fields.get_none (by rw [hs.typed.names]; exact hn), placeOf, e1, e2] at this
  rw [Seg.string, hs.kind]
  simp only [List.length_nil, Nat.zero_add] at this
  rw [this]
  simp only [toStr, fillString, hz, e2]
  rfl

/-! ### Reading -/

/-- C101 (segments): what stands in a reserved place of a segment does not matter for reading it: the values, the error and the number of
bytes are the same. -/
theorem C101_ignored_segment (k : SegKind) (s : Seg) (hk : s.kind = k) (ht : s.fields.Typed k.struct) (p : Nat × Nat)
    (hp : p ∈ segmentReserved k) (rec rec' : Bytes) (h : SameOutside p.1 p.2 rec rec') (isVar : Bool) :
    s.parse rec isVar = s.parse rec' isVar := by
  subst hk
  have ha := aside_of_B (List.all_eq_true.1 (aside_segment s.kind) p hp)
  unfold Seg.parse
  rw [h.1, loop_outside (p := p) (rec' := rec') (by simpa using h) _ (fun q hq => ?_) (by rw [ht.names]; exact ha)]
  have : q.1 ∈ s.kind.struct.map (·.1) := by
    rw [← ht.names]
    exact List.mem_map_of_mem hq
  obtain ⟨d, hd, e⟩ := List.mem_map.1 this
  rw [← e]
  exact seg_noBdw _ d hd

/-- C101 (records): what stands in a reserved place of a record does not matter for reading it: the values, the appended segments, the error
and the number of bytes are the same. -/
theorem C101_ignored_record (r : Record) (hr : WellTyped r) (isVar : Bool) (p : Nat × Nat) (hp : p ∈ reservedPlaces r)
    (rec rec' : Bytes) (h : SameOutside (readShift isVar r + p.1) p.2 rec rec') :
    r.parse rec isVar = r.parse rec' isVar := by
  have h0 := List.all_eq_true.1 (aside_record r) p hp
  simp only [Bool.and_eq_true, decide_eq_true_eq] at h0
  obtain ⟨h16, ha⟩ := h0
  have h4 : 4 ≤ p.1 := by omega
  have ha := aside_of_B ha
  rw [← (structOf_typed hr).names] at ha
  cases r with
  | header enc fs =>
    have hv : headerPolicy enc rec isVar = headerPolicy enc rec' isVar := by
      cases enc with
      | character => rfl
      | packed =>
        have : isVariableLength rec = isVariableLength rec' := by
          unfold isVariableLength
          rw [h.1, slot_outside h (by omega)]
        unfold headerPolicy
        rw [this]
    have e1 : tableOf (.header enc fs) = enc.headerFormat := by cases enc <;> rfl
    rw [e1] at ha
    simp only [Record.parse, parseHeader]
    rw [hv, h.1, loop_outside_bdw (rec' := rec') (blocked_header enc) h h4 hr ha]
    intro hf
    cases enc with
    | character =>
      cases isVar <;> rfl
    | packed =>
      have : headerPolicy .packed rec' isVar = .accept := by
        unfold headerPolicy at hf ⊢
        by_cases hv : isVariableLength rec' = true
        · exact if_pos hv
        · exact absurd (if_neg hv) hf
      rw [this]
      rfl
  | base enc fs g =>
    cases enc with
    | character =>
      simp only [Record.parse, parseBaseCharacter_eq]
      rw [h.1, loop_outside_bdw (fmt := baseSegmentCharacterFormat) (rec' := rec') (blocked_base .character) h h4 hr ha
        (fun _ => by cases isVar <;> rfl)]
      have hd : ∀ n, rec.drop (if (n : Int) > 0 then 426 + 4 else 426) = rec'.drop (if (n : Int) > 0 then 426 + 4 else 426) := by
        intro n
        refine drop_outside h ?_
        have hp := List.mem_singleton.1 hp
        subst hp
        have : readShift isVar (.base .character fs g) ≤ 4 := by
          cases isVar
          · exact Nat.zero_le 4
          · exact Nat.le_refl 4
        split <;> omega
      simp only [hd]
    | packed =>
      simp only [Record.parse, parseBasePacked_eq]
      rw [h.1, loop_outside_bdw (fmt := baseSegmentPackedFormat) (rec' := rec') (blocked_base .packed) h h4 hr ha
        (fun hf => by cases isVar <;> first | rfl | exact absurd rfl hf)]
      have hd : rec.drop (366 + 4) = rec'.drop (366 + 4) := by
        refine drop_outside h ?_
        have hp := List.mem_singleton.1 hp
        subst hp
        exact (by decide : 4 + 165 + 17 ≤ 366 + 4)
      simp only [hd]
  | trailer enc fs =>
    simp only [Record.parse, parseTrailer, trailerLoop]
    have hb : ∀ q ∈ fs, q.1 ≠ .BlockDescriptorWord := by
      intro q hq
      have : q.1 ∈ trailerRecordStruct.map (·.1) := by
        rw [← Fields.Typed.names hr]
        exact List.mem_map_of_mem hq
      obtain ⟨d, hd, e⟩ := List.mem_map.1 this
      rw [← e]
      exact trailer_noBdw d hd
    have key : ∀ pol bounds, parseLoop enc.trailerFormat pol bounds rec 0 fs = parseLoop enc.trailerFormat pol bounds rec' 0 fs :=
      fun pol bounds => loop_outside (p := p) (by simpa [readShift] using h) _ hb (by cases enc <;> exact ha)
    rw [h.1]
    cases enc <;> simp only [key]

/-! ### The places -/

/-- The bytes of a layout that belong to a field. -/
def taken (fmt : Format) (names : List F) (i : Nat) : Bool :=
  fmt.any fun q => q.1 != .BlockDescriptorWord && names.contains q.1 && decide (q.2.start ≤ i) && decide (i < q.2.start + q.2.len)

theorem taken_iff {fmt : Format} {names : List F} {i : Nat} : taken fmt names i = true ↔
    ∃ f e, f ≠ F.BlockDescriptorWord ∧ (f, e) ∈ fmt ∧ f ∈ names ∧ e.start ≤ i ∧ i < e.start + e.len := by
  simp only [taken, List.any_eq_true, Bool.and_eq_true, bne_iff_ne, List.contains_eq_mem, decide_eq_true_eq]
  constructor
  · rintro ⟨⟨f, e⟩, h1, ⟨⟨h2, h3⟩, h4⟩, h5⟩
    exact ⟨f, e, h2, h1, h3, h4, h5⟩
  · rintro ⟨f, e, h2, h1, h3, h4, h5⟩
    exact ⟨(f, e), h1, ⟨⟨h2, h3⟩, h4⟩, h5⟩

/-- The bytes of a layout that belong to a reserved place. -/
def kept (ps : List (Nat × Nat)) (i : Nat) : Bool := ps.any fun p => decide (p.1 ≤ i) && decide (i < p.1 + p.2)

theorem kept_iff {ps : List (Nat × Nat)} {i : Nat} : kept ps i = true ↔ ∃ p ∈ ps, p.1 ≤ i ∧ i < p.1 + p.2 := by
  simp only [kept, List.any_eq_true, Bool.and_eq_true, decide_eq_true_eq]

theorem kept_record (r : Record) : ∀ i < recordLength r.enc,
    kept (reservedPlaces r) i = !taken (tableOf r) ((structOf r).map (·.1)) i := by
  cases r with
  | header enc _ => cases enc <;> simp only [tableOf, structOf, reservedPlaces, Record.enc] <;> decide +kernel
  | base enc _ _ => cases enc <;> simp only [tableOf, structOf, reservedPlaces, Record.enc] <;> decide +kernel
  | trailer enc _ => cases enc <;> simp only [tableOf, structOf, reservedPlaces, Record.enc] <;> decide +kernel

theorem kept_segment (k : SegKind) : ∀ i < k.length, kept (segmentReserved k) i = !taken k.format (k.struct.map (·.1)) i := by
  cases k <;> decide +kernel

/-- C101 (records): the reserved places are all the bytes of a record that belong to no field. -/
theorem C101_all_record (r : Record) (hr : WellTyped r) (i : Nat) (hi : i < recordLength (r.enc)) :
    (∃ p ∈ reservedPlaces r, p.1 ≤ i ∧ i < p.1 + p.2) ↔
      ¬ ∃ f e v, f ≠ F.BlockDescriptorWord ∧ (f, e) ∈ tableOf r ∧ (f, v) ∈ valuesOf r ∧ e.start ≤ i ∧ i < e.start + e.len := by
  rw [← kept_iff, kept_record r i hi, Bool.not_eq_true', ← Bool.not_eq_true, taken_iff, ← (structOf_typed hr).names]
  simp only [List.mem_map]
  constructor
  · rintro h ⟨f, e, v, h1, h2, h3, h4⟩
    exact h ⟨f, e, h1, h2, ⟨_, h3, rfl⟩, h4⟩
  · rintro h ⟨f, e, h1, h2, ⟨⟨f', v⟩, h3, rfl⟩, h4⟩
    exact h ⟨_, e, v, h1, h2, h3, h4⟩

/-- C101 (segments): the reserved places are all the bytes of a segment that belong to no field. -/
theorem C101_all_segment (k : SegKind) (s : Seg) (ht : s.fields.Typed k.struct) (i : Nat) (hi : i < k.length) :
    (∃ p ∈ segmentReserved k, p.1 ≤ i ∧ i < p.1 + p.2) ↔
      ¬ ∃ f e v, (f, e) ∈ k.format ∧ (f, v) ∈ s.fields ∧ e.start ≤ i ∧ i < e.start + e.len := by
  rw [← kept_iff, kept_segment k i hi, Bool.not_eq_true', ← Bool.not_eq_true, taken_iff, ← ht.names]
  simp only [List.mem_map]
  constructor
  · rintro h ⟨f, e, v, h2, h3, h4⟩
    refine h ⟨f, e, ?_, h2, ⟨_, h3, rfl⟩, h4⟩
    rintro rfl
    have : F.BlockDescriptorWord ∈ k.struct.map (·.1) := by
      rw [← ht.names]
      exact List.mem_map_of_mem h3
    obtain ⟨d, hd, e⟩ := List.mem_map.1 this
    exact seg_noBdw _ d hd e
  · rintro h ⟨f, e, h1, h2, ⟨⟨f', v⟩, h3, rfl⟩, h4⟩
    exact h ⟨_, e, v, h2, h3, h4⟩

/-! ### Non-vacuity -/

/-- Cases of `C101_written_segment` and `C101_ignored_segment`. -/
example : SegSized .j1 j1 ∧ (99, 1) ∈ segmentReserved .j1 ∧ j1.string[99]? = some 32 :=
  ⟨⟨rfl, typed_of_typedB (by decide +kernel), sizedAll_of_B (by decide +kernel)⟩, by decide +kernel, by decide +kernel⟩

/-- Cases of `C101_written_record` and `C101_all_record`. -/
example : let r := Record.base .packed (base 370 366) segs
    WellTyped r ∧ SizedAll (tableOf r) (valuesOf r) ∧ writeShift r = 4 ∧ (165, 17) ∈ reservedPlaces r :=
  ⟨typed_of_typedB (by decide +kernel), sizedAll_of_B (by decide +kernel), by decide +kernel, by decide +kernel⟩

/-- Case of `C101_ignored_record`. A data record in whose reserved place something stands is read like the one with blanks there, and written with blanks. -/
example : let t := (Record.base .character (base 0 426) {}).string
    let t' := t.take 214 ++ List.replicate 17 88 ++ t.drop 231
    SameOutside 214 17 t t' ∧ t ≠ t' ∧ ((newBase .character).parse t' false).1.string = t := by
  refine ⟨⟨by decide +kernel, fun p hp => ?_⟩, by decide +kernel, by decide +kernel⟩
  have hl : (Record.base .character (base 0 426) {}).string.length = 426 := by decide +kernel
  generalize (Record.base .character (base 0 426) {}).string = t at hl
  rcases hp with hp | hp
  · rw [List.append_assoc, List.getElem?_append_left (by rw [List.length_take]; omega), List.getElem?_take, if_pos hp]
  · rw [List.getElem?_append_right (by simp; omega), List.getElem?_drop]
    congr 1
    simp
    omega

end Metro2
