import Verif.Lemmas.RecordParse
import Verif.Lemmas.Check
import Verif.Props.Samples

/-!
Properties C12 and C14 to C19: lengths and round trips of single records and segments.
-/

namespace Metro2

open Samples

/-! ### C12 -/

/-- C12. A segment of any type has its documented length. -/
theorem C12_segment_length (k : SegKind) (s : Seg) (h : Spec.SegSized k s) :
    s.string.length = Spec.segmentLength k := by
  rw [segmentLength_eq]
  exact seg_string_length h.kind ((layout_segment k).widthAll_of_sized h.typed h.sized)

/-- C12. Length of a header with any descriptor words. -/
theorem C12_header_length (enc : Enc) (fs : Fields) (ht : fs.Typed headerRecordStruct)
    (hs : Spec.SizedAll enc.headerFormat fs) :
    (Record.header enc fs).string.length = max (Spec.fixedLength enc fs)
      (Spec.padSize (if Spec.bdw fs = 0 then Spec.rdw fs else Spec.bdw fs)) := by
  rw [Record.string, padTo_length, header_length ht ((layout_header enc).widthAll_of_sized ht hs), padSize_eq]
  rfl

/-- C12. Length of a data record with any descriptor words and any appended segments. The padding size of a character
record is its record descriptor; that of a packed record with block descriptor is 4 more. -/
theorem C12_base_length (enc : Enc) (fs : Fields) (g : Segs) (ht : fs.Typed baseSegmentStruct)
    (hs : Spec.SizedAll enc.baseFormat fs) (hg : Spec.SegsSized g) :
    (Record.base enc fs g).string.length = max (Spec.fixedLength enc fs + Spec.segsLength g)
      (Spec.padSize (if enc = .packed ∧ 0 < Spec.bdw fs then Spec.rdw fs + 4 else Spec.rdw fs)) := by
  rw [Record.string, padTo_length, List.length_append,
    base_length ht ((layout_base enc).widthAll_of_sized ht hs), hg.string_length, padSize_eq]
  cases enc
  · simp only [baseBlockSize, reduceCtorEq, false_and, if_false]; rfl
  · simp only [baseBlockSize, true_and]; rfl

/-- C12. Length of a trailer with any descriptor word. -/
theorem C12_trailer_length (enc : Enc) (fs : Fields) (ht : fs.Typed trailerRecordStruct)
    (hs : Spec.SizedAll enc.trailerFormat fs) :
    (Record.trailer enc fs).string.length = max (Spec.recordLength enc) (Spec.padSize (Spec.rdw fs)) := by
  rw [Record.string, padTo_length, trailer_length ((layout_trailer enc).widthAll_of_sized ht hs), padSize_eq]
  rfl

/-- C12. Whatever a record holds, `String` appends at most 65535 blanks to the text of its
fields and segments. -/
theorem C12_padding_bounded (r : Record) :
    ∃ n ≤ 65535, r.string = (match r with
      | .header enc fs => fieldsString enc.headerFormat fs
      | .base enc fs g => fieldsString enc.baseFormat fs ++ g.string
      | .trailer enc fs => fieldsString enc.trailerFormat fs) ++ List.replicate n 32 := by
  have hc : ∀ v, clampedBlockSize v ≤ 65535 := by intro v; unfold clampedBlockSize; split <;> omega
  have hp : ∀ (v : Int) (s : Bytes), ∃ n ≤ 65535, padTo (clampedBlockSize v) s = s ++ List.replicate n 32 :=
    fun v s => ⟨_, le_trans (Nat.sub_le _ _) (hc v), rfl⟩
  cases r with
  | header enc fs => exact hp _ _
  | base enc fs g => cases enc <;> exact hp _ _
  | trailer enc fs => exact hp _ _

/-- Case of `C12_base_length`. Non-vacuity: oversized and negative descriptors and numbers are allowed. -/
example : Spec.SizedAll baseSegmentCharacterFormat (base (-7) (2 ^ 62) [(.CreditLimit, .int (-5))]) := by
  exact sizedAll_of_B (by decide +kernel)

/-! ### C14 -/

/-- C14. Each segment type: written in its documented length, and read back the same from these bytes followed by
anything. -/
theorem C14_segment_roundtrip (s : Seg) (ht : s.fields.Typed s.kind.struct)
    (hf : Spec.FitsAll s.kind.format s.fields) (isVar : Bool) (rest : Bytes) :
    s.string.length = Spec.segmentLength s.kind ∧
    (Seg.new s.kind).parse (s.string ++ rest) isVar = (s, .ok (Spec.segmentLength s.kind)) := by
  rw [segmentLength_eq]
  exact ⟨seg_string_length rfl ((layout_segment _).widthAll_of_fits ht hf),
    seg_parse_string (Seg.new_kind _) (Seg.new_typed _) ht hf isVar rest⟩

example : ∀ s ∈ segs.list, s.fields.Typed s.kind.struct ∧ Spec.FitsAll s.kind.format s.fields :=
  fun s hs => ⟨((segsOk_of_B (g := segs) (by decide +kernel)).mem s hs).typed,
    ((segsOk_of_B (g := segs) (by decide +kernel)).mem s hs).fits⟩

/-! ### C15 -/

/-- C15. Fixed-blocked character headers. -/
theorem C15_header_fixed (fs : Fields) (ht : fs.Typed headerRecordStruct)
    (hf : Spec.FitsAll headerRecordCharacterFormat fs) (h0 : Spec.bdw fs = 0) (rest : Bytes) :
    (newHeader .character).parse ((Record.header .character fs).string ++ rest) false =
      (.header .character fs, .ok (Spec.rdw fs)) := by
  have h := header_fixed_parse ht (newHeader_typed .character) hf h0 (newHeader_bdw .character) rest
  simp only [newHeader, Record.fields] at h
  rw [newHeader, Record.parse, h]
  rfl

example : (header 0 426).Typed headerRecordStruct ∧
    Spec.FitsAll headerRecordCharacterFormat (header 0 426) ∧ Spec.bdw (header 0 426) = 0 :=
  ⟨typed_of_typedB (by decide +kernel), fitsAll_of_fitsAllB layout_headerCharacter.names (by decide +kernel),
    by decide +kernel⟩

/-- C15. Variable-blocked headers in both encodings. The packed reader recognises a block descriptor by the
identifier "HEADER" behind it. -/
theorem C15_header_variable (enc : Enc) (fs : Fields) (ht : fs.Typed headerRecordStruct)
    (hf : Spec.FitsAll enc.headerFormat fs) (h0 : 0 < Spec.bdw fs) (h1 : Spec.bdw fs ≤ Spec.wordMax enc)
    (hi : (.RecordIdentifier, .str "HEADER".toUTF8.data.toList) ∈ fs) (rest : Bytes) :
    (newHeader enc).parse ((Record.header enc fs).string ++ rest) true =
      (.header enc fs, .ok (Spec.bdw fs)) := by
  rw [wordMax_eq] at h1
  have h := header_variable_parse ht (newHeader_typed enc) hf h0 h1 (fun _ => ⟨_, hi, by decide +kernel⟩) true (fun _ => rfl) rest
  simp only [newHeader, Record.fields] at h
  rw [newHeader, Record.parse, h]
  rfl

example : (header 370 366).Typed headerRecordStruct ∧
    Spec.FitsAll headerRecordPackedFormat (header 370 366) ∧ 0 < Spec.bdw (header 370 366) ∧
    (.RecordIdentifier, .str "HEADER".toUTF8.data.toList) ∈ header 370 366 :=
  ⟨typed_of_typedB (by decide +kernel), fitsAll_of_fitsAllB layout_headerPacked.names (by decide +kernel),
    by decide +kernel, by decide +kernel⟩

example : (header 430 426).Typed headerRecordStruct ∧
    Spec.FitsAll headerRecordCharacterFormat (header 430 426) ∧ 0 < Spec.bdw (header 430 426) :=
  ⟨typed_of_typedB (by decide +kernel), fitsAll_of_fitsAllB layout_headerCharacter.names (by decide +kernel),
    by decide +kernel⟩

/-! ### C16 -/

/-- C16. Fixed-blocked character data records with appended segments; the declared record length covers the
content. If there is no padding, what follows must not look like a further segment. -/
theorem C16_base_fixed (fs : Fields) (g : Segs) (ht : fs.Typed baseSegmentStruct)
    (hf : Spec.FitsAll baseSegmentCharacterFormat fs) (hg : Spec.SegsOk g) (h0 : Spec.bdw fs = 0)
    (hc : (Spec.fixedLength .character fs + Spec.segsLength g : Nat) ≤ Spec.rdw fs) (rest : Bytes)
    (hr : (Spec.fixedLength .character fs + Spec.segsLength g : Nat) = Spec.rdw fs → Spec.NoSegment rest) :
    (newBase .character).parse ((Record.base .character fs g).string ++ rest) false =
      (.base .character fs g, .ok (Spec.rdw fs)) := by
  have hmax : fs.int .RecordDescriptorWord ≤ 65535 := by
    obtain ⟨b, r, fr, hfs, -, hir, -⟩ := (blocked_base .character).shape ht
    have hm : (F.RecordDescriptorWord, Val.int r) ∈ fs := by rw [hfs]; simp
    rw [hir]
    have h : r < 10 ^ 4 := fitsNumber_lt (n := 4) (hf _ hm (by simp) _ (lookup_mem (blocked_base .character).rdw)).1
    omega
  simp only [Spec.fixedLength, h0, Spec.recordLength, if_true, Nat.add_zero] at hc hr
  rw [newBase, Record.parse,
    base_fixed_parse ht (zeroFields_typed _) hf hg h0 newBase_bdw hc rest hr hmax]
  rfl

example : (base 0 1200).Typed baseSegmentStruct ∧ Spec.FitsAll baseSegmentCharacterFormat (base 0 1200) ∧
    Spec.SegsOk segs ∧ (Spec.fixedLength .character (base 0 1200) + Spec.segsLength segs : Nat) ≤
      Spec.rdw (base 0 1200) :=
  ⟨typed_of_typedB (by decide +kernel), fitsAll_of_fitsAllB layout_baseCharacter.names (by decide +kernel),
    segsOk_of_B (by decide +kernel), by decide +kernel⟩

/-- C16. Variable-blocked character data records with appended segments; the block length covers the
content. If there is no padding, what follows must not look like a further segment. -/
theorem C16_base_variable (fs : Fields) (g : Segs) (ht : fs.Typed baseSegmentStruct)
    (hf : Spec.FitsAll baseSegmentCharacterFormat fs) (hg : Spec.SegsOk g)
    (h0 : 0 < Spec.bdw fs) (h1 : Spec.bdw fs ≤ Spec.wordMax .character)
    (hc : (Spec.fixedLength .character fs + Spec.segsLength g : Nat) ≤ Spec.bdw fs) (rest : Bytes)
    (hr : Spec.rdw fs ≤ (Spec.fixedLength .character fs + Spec.segsLength g : Nat) → Spec.NoSegment rest) :
    (newBase .character).parse ((Record.base .character fs g).string ++ rest) true =
      (.base .character fs g, .ok (Spec.bdw fs)) := by
  simp only [Spec.fixedLength, h0.ne', Spec.recordLength, if_false] at hc hr
  rw [newBase, Record.parse, base_variable_parse ht (zeroFields_typed _) hf hg h1 hc rest hr]
  rfl

/-- Case of `C19_character_length`. -/
example : (base 1168 1164).Typed baseSegmentStruct ∧
    Spec.FitsAll baseSegmentCharacterFormat (base 1168 1164) ∧
    Spec.SegsOk segs ∧ (Spec.fixedLength .character (base 1168 1164) + Spec.segsLength segs : Nat) =
      Spec.bdw (base 1168 1164) ∧ Spec.NoSegment [] :=
  ⟨typed_of_typedB (by decide +kernel), fitsAll_of_fitsAllB layout_baseCharacter.names (by decide +kernel),
    segsOk_of_B (by decide +kernel), by decide +kernel, by intro k; cases k <;> decide +kernel⟩

/-! ### C17 -/

/-- C17. Packed data records with appended segments; the block length covers the content. -/
theorem C17_base_packed (fs : Fields) (g : Segs) (ht : fs.Typed baseSegmentStruct)
    (hf : Spec.FitsAll baseSegmentPackedFormat fs) (hg : Spec.SegsOk g)
    (h0 : 0 < Spec.bdw fs) (h1 : Spec.bdw fs ≤ Spec.wordMax .packed)
    (hc : (Spec.fixedLength .packed fs + Spec.segsLength g : Nat) ≤ Spec.bdw fs) (rest : Bytes)
    (hr : Spec.rdw fs + 4 ≤ (Spec.fixedLength .packed fs + Spec.segsLength g : Nat) ∨
      65535 < Spec.rdw fs + 4 → Spec.NoSegment rest) :
    (newBase .packed).parse ((Record.base .packed fs g).string ++ rest) true =
      (.base .packed fs g, .ok (Spec.bdw fs)) := by
  simp only [Spec.fixedLength, h0.ne', Spec.recordLength, if_false] at hc hr
  rw [newBase, Record.parse, base_packed_parse ht (zeroFields_typed _) hf hg h1 hc rest hr]
  rfl

/-- Case of `C19_block_length_partial`. -/
example : (base 1200 1196).Typed baseSegmentStruct ∧
    Spec.FitsAll baseSegmentPackedFormat (base 1200 1196) ∧ Spec.SegsOk segs ∧
    (Spec.fixedLength .packed (base 1200 1196) + Spec.segsLength segs : Nat) < Spec.bdw (base 1200 1196) :=
  ⟨typed_of_typedB (by decide +kernel), fitsAll_of_fitsAllB layout_basePacked.names (by decide +kernel),
    segsOk_of_B (by decide +kernel), by decide +kernel⟩

/-! ### C18 -/

/-- C18. Trailers in both encodings. -/
theorem C18_trailer (enc : Enc) (fs : Fields) (ht : fs.Typed trailerRecordStruct)
    (hf : Spec.FitsAll enc.trailerFormat fs) (isVar : Bool) (rest : Bytes) :
    (newTrailer enc).parse ((Record.trailer enc fs).string ++ rest) isVar =
      (.trailer enc fs, .ok (Spec.rdw fs)) := by
  have h := trailer_parse ht (newTrailer_typed enc) hf isVar rest
  simp only [newTrailer, Record.fields] at h
  rw [newTrailer, Record.parse, h]
  rfl

example : (trailer 426).Typed trailerRecordStruct ∧
    Spec.FitsAll trailerRecordCharacterFormat (trailer 426) ∧ Spec.FitsAll trailerRecordPackedFormat (trailer 366) :=
  ⟨typed_of_typedB (by decide +kernel), fitsAll_of_fitsAllB layout_trailerCharacter.names (by decide +kernel),
    fitsAll_of_fitsAllB layout_trailerPacked.names (by decide +kernel)⟩

/-! ### C19 -/

/-- C19, the part that holds: a packed data record with consistent descriptors is as long as its block descriptor
says. The full property (both encodings) fails, see `C19_violated`. -/
theorem C19_block_length_partial (fs : Fields) (g : Segs) (ht : fs.Typed baseSegmentStruct)
    (hs : Spec.SizedAll baseSegmentPackedFormat fs) (hg : Spec.SegsSized g)
    (h1 : Spec.bdw fs ≤ 65535) (hrd : Spec.rdw fs = Spec.bdw fs - 4)
    (hc : (Spec.fixedLength .packed fs + Spec.segsLength g : Nat) ≤ Spec.bdw fs) :
    ((Record.base .packed fs g).string.length : Int) = Spec.bdw fs := by
  have hpos : 0 < Spec.bdw fs := by
    have := Spec.segsLength g
    simp only [Spec.fixedLength, Spec.recordLength] at hc; omega
  rw [C12_base_length .packed fs g ht hs hg, hrd]
  simp only [true_and, hpos, if_true, Int.sub_add_cancel, Spec.padSize]
  rw [if_pos ⟨by omega, h1⟩]
  omega

/-- C19, character records: the record is as long as its block descriptor says exactly when no padding
is needed; otherwise it is short, by 4 bytes or by the missing padding if that is less. -/
theorem C19_character_length (fs : Fields) (g : Segs) (ht : fs.Typed baseSegmentStruct)
    (hs : Spec.SizedAll baseSegmentCharacterFormat fs) (hg : Spec.SegsSized g)
    (h1 : Spec.bdw fs ≤ 65535) (hrd : Spec.rdw fs = Spec.bdw fs - 4)
    (hc : (Spec.fixedLength .character fs + Spec.segsLength g : Nat) ≤ Spec.bdw fs) :
    ((Record.base .character fs g).string.length : Int) =
      Spec.bdw fs - min 4 (Spec.bdw fs - (Spec.fixedLength .character fs + Spec.segsLength g : Nat)) := by
  have hpos : 430 ≤ Spec.bdw fs := by
    by_cases h : Spec.bdw fs = 0
    · simp only [Spec.fixedLength, Spec.recordLength] at hc; omega
    · simp only [Spec.fixedLength, Spec.recordLength, h, if_false] at hc; omega
  rw [C12_base_length .character fs g ht hs hg, hrd]
  simp only [reduceCtorEq, false_and, if_false, Spec.padSize]
  rw [if_pos ⟨by omega, by omega⟩]
  omega

/-- C19 is violated by a character record with block descriptor 500: it is written in 496 bytes. -/
theorem C19_violated : ∃ fs : Fields, fs.Typed baseSegmentStruct ∧
    Spec.FitsAll baseSegmentCharacterFormat fs ∧ Spec.bdw fs = 500 ∧ Spec.rdw fs = 496 ∧
    (Record.base .character fs {}).string.length = 496 :=
  ⟨base 500 496, typed_of_typedB (by decide +kernel),
    fitsAll_of_fitsAllB layout_baseCharacter.names (by decide +kernel), by decide +kernel, by decide +kernel,
    by decide +kernel⟩

/-- Cases of `C12_segment_length`, `C12_header_length` and `C12_trailer_length`. -/
example : Spec.SegSized .j2 j2 ∧ (header 500 (-1)).Typed headerRecordStruct ∧ Spec.SizedAll headerRecordPackedFormat (header 500 (-1)) ∧
    (trailer 70000).Typed trailerRecordStruct ∧ Spec.SizedAll trailerRecordCharacterFormat (trailer 70000) ∧
    (Record.header .packed (header 500 (-1))).string.length = 500 ∧ (Record.trailer .character (trailer 70000)).string.length = 426 :=
  ⟨⟨rfl, typed_of_typedB (by decide +kernel), sizedAll_of_B (by decide +kernel)⟩, typed_of_typedB (by decide +kernel), sizedAll_of_B (by decide +kernel),
    typed_of_typedB (by decide +kernel), sizedAll_of_B (by decide +kernel), by decide +kernel, by decide +kernel⟩

end Metro2
