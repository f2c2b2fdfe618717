import Verif.Lemmas.SegText

/-! Writing and reading whole records. -/

namespace Metro2

theorem recordLength_eq (enc : Enc) : Spec.recordLength enc = enc.recordLength := by cases enc <;> rfl
theorem wordMax_eq (enc : Enc) : Spec.wordMax enc = wordMax enc := by cases enc <;> rfl

theorem padSize_eq (v : Int) : Spec.padSize v = clampedBlockSize v := by
  unfold Spec.padSize clampedBlockSize
  split <;> split <;> omega

theorem newHeader_typed (enc : Enc) : (newHeader enc).fields.Typed headerRecordStruct := by
  refine (zeroFields_typed _).set ?_
  have : ∀ p ∈ headerRecordStruct, p.1 = .RecordIdentifier → p.2.kind = .str := by decide +kernel
  intro d hd
  rw [this _ hd rfl]; rfl

theorem newTrailer_typed (enc : Enc) : (newTrailer enc).fields.Typed trailerRecordStruct := by
  refine (zeroFields_typed _).set ?_
  have : ∀ p ∈ trailerRecordStruct, p.1 = .RecordIdentifier → p.2.kind = .str := by decide +kernel
  intro d hd
  rw [this _ hd rfl]; rfl

theorem newHeader_bdw (enc : Enc) : (newHeader enc).fields.int .BlockDescriptorWord = 0 := by
  cases enc <;> decide +kernel
theorem newBase_bdw : (zeroFields baseSegmentStruct).int .BlockDescriptorWord = 0 := by decide +kernel

theorem trailer_noBdwRow (enc : Enc) : bdwRows enc.trailerFormat = [] := by cases enc <;> decide +kernel
theorem trailer_noBdw : ∀ p ∈ trailerRecordStruct, p.1 ≠ .BlockDescriptorWord := by decide +kernel

theorem padTo_append (n : Nat) (s rest : Bytes) :
    padTo n s ++ rest = s ++ (List.replicate (n - s.length) 32 ++ rest) := by
  unfold padTo; rw [List.append_assoc]

/-- No segment begins in the padding or after it. -/
theorem noSegment_pad {n : Nat} {rest : Bytes} (h : n = 0 → Spec.NoSegment rest) :
    Spec.NoSegment (List.replicate n 32 ++ rest) := by
  cases n with
  | zero => simpa using h rfl
  | succ n =>
    intro k hk
    rw [segmentIdent_eq, List.replicate_succ, List.cons_append] at hk
    obtain ⟨t, ht⟩ := hk
    cases k <;> simp [SegKind.ident] at ht

/-! ### Headers -/

theorem header_length {enc : Enc} {fs : Fields} (ht : fs.Typed headerRecordStruct)
    (hw : WidthAll enc.headerFormat fs) :
    (fieldsString enc.headerFormat fs).length = Spec.fixedLength enc fs := by
  rw [(layout_header enc).fieldsString_length (blocked_header enc) ht hw, Spec.fixedLength, recordLength_eq,
    Nat.add_comm]
  rfl

theorem header_fixed_parse {fs old : Fields} (ht : fs.Typed headerRecordStruct)
    (ho : old.Typed headerRecordStruct) (hf : Spec.FitsAll headerRecordCharacterFormat fs)
    (h0 : fs.int .BlockDescriptorWord = 0) (h1 : old.int .BlockDescriptorWord = 0) (rest : Bytes) :
    parseHeader .character old ((Record.header .character fs).string ++ rest) false =
      (fs, .ok (fs.int .RecordDescriptorWord)) := by
  have hw := (layout_header .character).widthAll_of_fits ht hf
  have hl := header_length ht hw
  unfold parseHeader
  rw [Record.string, padTo_append, if_neg (by
    rw [List.length_append, hl, Spec.fixedLength, recordLength_eq]; omega)]
  have := (layout_header .character).parse_skip (blocked_header .character) ht ho hf h0 h1 true
    (List.replicate (headerBlockSize fs - (fieldsString Enc.character.headerFormat fs).length) 32 ++ rest)
  simp only [headerPolicy, Bool.false_eq_true, if_false, this, h0]
  rfl

/-- Which policy the packed header uses depends on the identifier. -/
theorem isVariableLength_text {fs : Fields} (ht : fs.Typed headerRecordStruct)
    (hf : Spec.FitsAll headerRecordPackedFormat fs) (h0 : fs.int .BlockDescriptorWord ≠ 0)
    {id : Bytes} (hi : (.RecordIdentifier, .str id) ∈ fs) (hu : toUpper id = b! "HEADER") (rest : Bytes) :
    isVariableLength (fieldsString headerRecordPackedFormat fs ++ rest) = true := by
  have L := layout_headerPacked
  have hw := L.widthAll_of_fits ht hf
  have hrow : (F.RecordIdentifier, (⟨4, 6, .alphanumeric, false, false, .required⟩ : Field)) ∈
      headerRecordPackedFormat := by decide +kernel
  have hm := L.mem_main hrow (by simp)
  have h3 := ((rowsText_contig L.main.2.1 (L.widths hw)).2 _ hm).2.2 rest
  rw [Fields.get_of_mem (by rw [ht.names]; exact L.structNames) hi] at h3
  have hid : id.length = 6 := by
    have := congrArg List.length hu
    rw [toUpper, List.length_map] at this
    rw [this]; decide
  have hperm : Spec.FitsText 6 id := hf _ hi (by simp) _ hrow
  have htext : toStr (⟨4, 6, .alphanumeric, false, false, .required⟩ : Field) (some (.str id)) = id := by
    rw [toStr_some (by simp)]
    simp only [valText]
    rw [fmtLeftStr_ascii (ascii_of_permitted hperm.2.1), ← hid]
    simp
  have h4 := bdwText_length .packed h0
  have hlen := L.mainText_length hw
  have hb := (blocked_header .packed).bdwText ht
  rw [show Enc.packed.headerFormat = headerRecordPackedFormat from rfl] at hb
  rw [L.text, hb]
  unfold isVariableLength
  simp only [Bool.and_eq_true, decide_eq_true_eq]
  refine ⟨by simp only [List.length_append]; omega, ?_⟩
  have : ((toStr (bdwField .packed) (some (.int (fs.int .BlockDescriptorWord))) ++
      mainText headerRecordPackedFormat fs ++ rest).drop 8).take 6 = id := by
    rw [show 8 = 4 + 4 from rfl, ← List.drop_drop]
    have e1 : (toStr (bdwField .packed) (some (.int (fs.int .BlockDescriptorWord))) ++
        mainText headerRecordPackedFormat fs ++ rest).drop 4 = mainText headerRecordPackedFormat fs ++ rest := by
      rw [List.append_assoc, ← h4, List.drop_left]
    rw [e1]
    simp only [Nat.sub_zero] at h3
    rw [mainText, h3, htext]
  rw [this, hu]

theorem header_variable_parse {enc : Enc} {fs old : Fields} (ht : fs.Typed headerRecordStruct)
    (ho : old.Typed headerRecordStruct) (hf : Spec.FitsAll enc.headerFormat fs)
    (h0 : 0 < fs.int .BlockDescriptorWord) (h1 : fs.int .BlockDescriptorWord ≤ wordMax enc)
    (hi : enc = .packed → ∃ id, (.RecordIdentifier, .str id) ∈ fs ∧ toUpper id = b! "HEADER") (isVar : Bool)
    (hv : enc = .character → isVar = true) (rest : Bytes) :
    parseHeader enc old ((Record.header enc fs).string ++ rest) isVar =
      (fs, .ok (fs.int .BlockDescriptorWord)) := by
  have hw := (layout_header enc).widthAll_of_fits ht hf
  have hl := header_length ht hw
  unfold parseHeader
  rw [Record.string, padTo_append, if_neg (by
    rw [List.length_append, hl, Spec.fixedLength, recordLength_eq]; omega)]
  have := (layout_header enc).parse_accept (blocked_header enc) ht ho hf h0 h1 true
    (List.replicate (headerBlockSize fs - (fieldsString enc.headerFormat fs).length) 32 ++ rest)
  cases enc with
  | character =>
    simp only [headerPolicy, hv rfl, if_true, this, h0]
  | packed =>
    obtain ⟨id, hi1, hi2⟩ := hi rfl
    have hvar := isVariableLength_text ht hf (by omega) hi1 hi2
      (List.replicate (headerBlockSize fs - (fieldsString Enc.packed.headerFormat fs).length) 32 ++ rest)
    simp only [show Enc.packed.headerFormat = headerRecordPackedFormat from rfl] at hvar this ⊢
    simp only [headerPolicy, hvar, if_true, this, h0]

/-! ### Trailers -/

theorem trailer_length {enc : Enc} {fs : Fields} (hw : WidthAll enc.trailerFormat fs) :
    (fieldsString enc.trailerFormat fs).length = Spec.recordLength enc := by
  rw [(layout_trailer enc).fieldsString_length_plain (trailer_noBdwRow enc) hw, recordLength_eq]

theorem trailer_parse {enc : Enc} {fs old : Fields} (ht : fs.Typed trailerRecordStruct)
    (ho : old.Typed trailerRecordStruct) (hf : Spec.FitsAll enc.trailerFormat fs) (isVar : Bool) (rest : Bytes) :
    parseTrailer enc old ((Record.trailer enc fs).string ++ rest) isVar =
      (fs, .ok (fs.int .RecordDescriptorWord)) := by
  have hw := (layout_trailer enc).widthAll_of_fits ht hf
  have hl := trailer_length hw
  unfold parseTrailer
  rw [Record.string, padTo_append, if_neg (by rw [List.length_append, hl, recordLength_eq]; omega)]
  cases enc <;>
    simp only [trailerLoop, (layout_trailer _).parse_plain (trailer_noBdwRow _) trailer_noBdw ht ho hf]

/-! ### Data records -/

/-- With the slice expression evaluated. -/
theorem parseBaseCharacter_eq (fs : Fields) (g : Segs) (rec : Bytes) (isVar : Bool) :
    parseBaseCharacter fs g rec isVar =
  if rec.length < 426 then ((fs, g), .error .segmentLength)
  else
    match parseLoop baseSegmentCharacterFormat (if isVar then .accept else .skip) true rec 0 fs with
    | (fs', some err) => ((fs', g), .error err)
    | (fs', none) =>
      let bdw := fs'.int .BlockDescriptorWord
      let rdw := fs'.int .RecordDescriptorWord
      let off : Nat := if bdw > 0 then 426 + 4 else 426
      let g0 : Segs := { g with j1 := [], j2 := [] }
      if rec.length < off then ((fs', g0), .error .segmentLength)
      else
        match readApplicableSegments g0 (rec.drop off) isVar with
        | (g', .error err) => ((fs', g'), .error err)
        | (g', .ok read) =>
          if bdw > 0 ∧ (read : Int) + off > bdw then ((fs', g'), .error .failedParsing)
          else if bdw = 0 ∧ (read : Int) + off > rdw then ((fs', g'), .error .failedParsing)
          else ((fs', g'), .ok (if bdw > 0 then bdw else rdw)) := by
  unfold parseBaseCharacter
  generalize parseLoop baseSegmentCharacterFormat (if isVar then .accept else .skip) true rec 0 fs = r
  obtain ⟨fs', o⟩ := r
  cases o with
  | some err => rfl
  | none =>
    simp only
    generalize (if fs'.int .BlockDescriptorWord > 0 then 426 + 4 else 426) = off
    split
    · rfl
    · by_cases h : rec.length < off
      · rw [if_pos h, if_pos h]
      · rw [if_neg h, if_neg h, sliceFrom_of_le (by omega) (by omega), Int.toNat_natCast]
        rfl

/-- With the slice expression evaluated. -/
theorem parseBasePacked_eq (fs : Fields) (g : Segs) (rec : Bytes) (isVar : Bool) :
    parseBasePacked fs g rec isVar =
  if rec.length < 366 then ((fs, g), .error .segmentLength)
  else
    match parseLoop baseSegmentPackedFormat (if isVar then .accept else .fail) true rec 0 fs with
    | (fs', some err) => ((fs', g), .error err)
    | (fs', none) =>
      let bdw := fs'.int .BlockDescriptorWord
      let off : Nat := 366 + 4
      let g0 : Segs := { g with j1 := [], j2 := [] }
      if rec.length < off then ((fs', g0), .error .segmentLength)
      else
        match readApplicableSegments g0 (rec.drop off) isVar with
        | (g', .error err) => ((fs', g'), .error err)
        | (g', .ok read) =>
          if (read : Int) + off > bdw then ((fs', g'), .error .failedParsing)
          else ((fs', g'), .ok bdw) := by
  unfold parseBasePacked
  generalize parseLoop baseSegmentPackedFormat (if isVar then .accept else .fail) true rec 0 fs = r
  obtain ⟨fs', o⟩ := r
  cases o with
  | some err => rfl
  | none =>
    simp only
    generalize 366 + 4 = off
    split
    · rfl
    · by_cases h : rec.length < off
      · rw [if_pos h, if_pos h]
      · rw [if_neg h, if_neg h, sliceFrom_of_le (by omega) (by omega), Int.toNat_natCast]
        rfl

theorem base_length {enc : Enc} {fs : Fields} (ht : fs.Typed baseSegmentStruct)
    (hw : WidthAll enc.baseFormat fs) :
    (fieldsString enc.baseFormat fs).length = Spec.fixedLength enc fs := by
  rw [(layout_base enc).fieldsString_length (blocked_base enc) ht hw, Spec.fixedLength, recordLength_eq,
    Nat.add_comm]
  rfl

theorem base_fixed_parse {fs old : Fields} {g : Segs} (ht : fs.Typed baseSegmentStruct)
    (ho : old.Typed baseSegmentStruct) (hf : Spec.FitsAll baseSegmentCharacterFormat fs) (hg : Spec.SegsOk g)
    (h0 : fs.int .BlockDescriptorWord = 0) (h1 : old.int .BlockDescriptorWord = 0)
    (hc : ((426 + Spec.segsLength g : Nat) : Int) ≤ fs.int .RecordDescriptorWord) (rest : Bytes)
    (hr : ((426 + Spec.segsLength g : Nat) : Int) = fs.int .RecordDescriptorWord → Spec.NoSegment rest)
    (hmax : fs.int .RecordDescriptorWord ≤ 65535) :
    parseBaseCharacter old {} ((Record.base .character fs g).string ++ rest) false =
      ((fs, g), .ok (fs.int .RecordDescriptorWord)) := by
  have hw := (layout_base .character).widthAll_of_fits ht hf
  have hl := base_length ht hw
  have hsl := hg.string_length
  simp only [Spec.fixedLength, Spec.bdw, h0, if_true, Spec.recordLength, Nat.add_zero] at hl
  rw [Record.string, padTo_append]
  set pad := List.replicate (baseBlockSize .character fs -
    (fieldsString Enc.character.baseFormat fs ++ g.string).length) (32 : UInt8) ++ rest with hpad
  have hns : Spec.NoSegment pad := by
    apply noSegment_pad
    intro hz
    apply hr
    rw [List.length_append, hl, hsl] at hz
    have : baseBlockSize .character fs = (fs.int .RecordDescriptorWord).toNat := by
      simp only [baseBlockSize, clampedBlockSize]
      rw [if_neg (by omega)]
    omega
  rw [parseBaseCharacter_eq]
  rw [List.append_assoc, if_neg (by rw [List.length_append]; omega)]
  have := (layout_base .character).parse_skip (blocked_base .character) ht ho hf h0 h1 true (g.string ++ pad)
  simp only [show Enc.character.baseFormat = baseSegmentCharacterFormat from rfl] at this hl ⊢
  simp only [Bool.false_eq_true, if_false, this, h0, lt_self_iff_false]
  rw [if_neg (by rw [List.length_append]; omega)]
  have hd : (fieldsString baseSegmentCharacterFormat fs ++ (g.string ++ pad)).drop 426 = g.string ++ pad := by
    rw [← hl, List.drop_left]
  rw [hd, readApplicableSegments_string hg hns]
  simp only [false_and, if_false, true_and]
  rw [if_neg (by push_cast at hc ⊢; omega)]

theorem base_variable_parse {fs old : Fields} {g : Segs} (ht : fs.Typed baseSegmentStruct)
    (ho : old.Typed baseSegmentStruct) (hf : Spec.FitsAll baseSegmentCharacterFormat fs) (hg : Spec.SegsOk g)
    (h1 : fs.int .BlockDescriptorWord ≤ 9999)
    (hc : ((430 + Spec.segsLength g : Nat) : Int) ≤ fs.int .BlockDescriptorWord) (rest : Bytes)
    (hr : fs.int .RecordDescriptorWord ≤ (430 + Spec.segsLength g : Nat) → Spec.NoSegment rest) :
    parseBaseCharacter old {} ((Record.base .character fs g).string ++ rest) true =
      ((fs, g), .ok (fs.int .BlockDescriptorWord)) := by
  have hw := (layout_base .character).widthAll_of_fits ht hf
  have hl := base_length ht hw
  have hsl := hg.string_length
  have h0 : 0 < fs.int .BlockDescriptorWord := by omega
  simp only [Spec.fixedLength, Spec.bdw, h0.ne', if_false, Spec.recordLength] at hl
  rw [Record.string, padTo_append]
  set pad := List.replicate (baseBlockSize .character fs -
    (fieldsString Enc.character.baseFormat fs ++ g.string).length) (32 : UInt8) ++ rest with hpad
  have hns : Spec.NoSegment pad := by
    apply noSegment_pad
    intro hz
    apply hr
    have hrd : fs.int .RecordDescriptorWord < 10 ^ 4 := by
      obtain ⟨b, r, fr, hfs, -, hir, -⟩ := (blocked_base .character).shape ht
      have hm : (F.RecordDescriptorWord, Val.int r) ∈ fs := by rw [hfs]; simp
      rw [hir]
      exact fitsNumber_lt (n := 4) (hf _ hm (by simp) _ (lookup_mem (blocked_base .character).rdw)).1
    rw [List.length_append, hl, hsl] at hz
    simp only [baseBlockSize, clampedBlockSize] at hz
    split at hz
    · omega
    · omega
  rw [parseBaseCharacter_eq]
  rw [List.append_assoc, if_neg (by rw [List.length_append]; omega)]
  have := (layout_base .character).parse_accept (blocked_base .character) ht ho hf h0 h1 true (g.string ++ pad)
  simp only [show Enc.character.baseFormat = baseSegmentCharacterFormat from rfl] at this hl ⊢
  simp only [if_true, this, h0]
  rw [if_neg (by rw [List.length_append]; omega)]
  have hd : (fieldsString baseSegmentCharacterFormat fs ++ (g.string ++ pad)).drop (426 + 4) = g.string ++ pad := by
    rw [← hl, List.drop_left]
  rw [hd, readApplicableSegments_string hg hns]
  simp only [true_and]
  rw [if_neg (by push_cast at hc ⊢; omega), if_neg (by omega)]

theorem base_packed_parse {fs old : Fields} {g : Segs} (ht : fs.Typed baseSegmentStruct)
    (ho : old.Typed baseSegmentStruct) (hf : Spec.FitsAll baseSegmentPackedFormat fs) (hg : Spec.SegsOk g)
    (h1 : fs.int .BlockDescriptorWord ≤ 65535)
    (hc : ((370 + Spec.segsLength g : Nat) : Int) ≤ fs.int .BlockDescriptorWord) (rest : Bytes)
    (hr : fs.int .RecordDescriptorWord + 4 ≤ (370 + Spec.segsLength g : Nat) ∨
      65535 < fs.int .RecordDescriptorWord + 4 → Spec.NoSegment rest) :
    parseBasePacked old {} ((Record.base .packed fs g).string ++ rest) true =
      ((fs, g), .ok (fs.int .BlockDescriptorWord)) := by
  have hw := (layout_base .packed).widthAll_of_fits ht hf
  have hl := base_length ht hw
  have hsl := hg.string_length
  have h0 : 0 < fs.int .BlockDescriptorWord := by omega
  simp only [Spec.fixedLength, Spec.bdw, h0.ne', if_false, Spec.recordLength] at hl
  rw [Record.string, padTo_append]
  set pad := List.replicate (baseBlockSize .packed fs -
    (fieldsString Enc.packed.baseFormat fs ++ g.string).length) (32 : UInt8) ++ rest with hpad
  have hns : Spec.NoSegment pad := by
    apply noSegment_pad
    intro hz
    apply hr
    rw [List.length_append, hl, hsl] at hz
    simp only [baseBlockSize, clampedBlockSize, gt_iff_lt, h0, if_true] at hz
    split at hz
    · omega
    · omega
  rw [parseBasePacked_eq]
  rw [List.append_assoc, if_neg (by rw [List.length_append]; omega)]
  have := (layout_base .packed).parse_accept (blocked_base .packed) ht ho hf h0 h1 true (g.string ++ pad)
  simp only [show Enc.packed.baseFormat = baseSegmentPackedFormat from rfl] at this hl ⊢
  simp only [if_true, this]
  rw [if_neg (by rw [List.length_append]; omega)]
  have hd : (fieldsString baseSegmentPackedFormat fs ++ (g.string ++ pad)).drop (366 + 4) = g.string ++ pad := by
    rw [← hl, List.drop_left]
  rw [hd, readApplicableSegments_string hg hns]
  simp only
  rw [if_neg (by push_cast at hc ⊢; omega)]

end Metro2
