import Verif.Lemmas.RecordInv
import Verif.Lemmas.Check
import Verif.Props.Samples

/-!
Properties C13 and C20 to C22: parsing never panics; what was read can be written and read again;
the size that `Parse` reports.
-/

namespace Metro2

open Samples

/-! ### C13 -/

/-- C13, segments: on any bytes, flag and prior contents. -/
theorem C13_segment (s : Seg) (ht : s.fields.Typed s.kind.struct) (rec : Bytes) (isVar : Bool) :
    (s.parse rec isVar).2 ≠ .error .panic ∧ (s.parse rec isVar).1.fields.Typed s.kind.struct :=
  ⟨(seg_parse_safe ht rec isVar).2.2, (seg_parse_safe ht rec isVar).2.1⟩

example (k : SegKind) : (Seg.new k).fields.Typed (Seg.new k).kind.struct := Seg.new_typed k

/-- C13, records: on any bytes, flag and prior contents, and the contents stay well typed, so that the theorem
applies again. -/
theorem C13_record (r : Record) (ht : Spec.WellTyped r) (rec : Bytes) (isVar : Bool) :
    (r.parse rec isVar).2 ≠ .error .panic ∧ Spec.WellTyped (r.parse rec isVar).1 := by
  cases r with
  | header enc fs => exact ⟨(parseHeader_safe ht rec isVar).2, (parseHeader_safe ht rec isVar).1⟩
  | trailer enc fs => exact ⟨(parseTrailer_safe ht rec isVar).2, (parseTrailer_safe ht rec isVar).1⟩
  | base enc fs g =>
    cases enc
    · exact ⟨(parseBaseCharacter_safe ht rec isVar).2, (parseBaseCharacter_safe ht rec isVar).1⟩
    · exact ⟨(parseBasePacked_safe ht rec isVar).2, (parseBasePacked_safe ht rec isVar).1⟩

theorem new_wellTyped {r : Record} (h : Spec.New r) : Spec.WellTyped r := by
  cases h with
  | header enc => exact newHeader_typed enc
  | base enc => exact zeroFields_typed _
  | trailer enc => exact newTrailer_typed enc

example : Spec.WellTyped (newBase .packed) := new_wellTyped (.base _)

theorem parseBases_no_panic (enc : Enc) (isVar : Bool) (rec : Bytes) : ∀ (fuel : Nat) (off : Int)
    (acc bs : List Record) (off' : Int) (e : Option Err),
    parseBases enc isVar rec fuel off acc = some (bs, off', e) → e ≠ some .panic := by
  intro fuel
  induction fuel with
  | zero => intro off acc bs off' e h; simp [parseBases] at h
  | succ n ih =>
    intro off acc bs off' e h
    rw [parseBases] at h
    split at h
    · cases h; simp
    · rw [sliceFrom_of_le (by omega) (by omega)] at h
      simp only at h
      have hs := (C13_record (newBase enc) (new_wellTyped (.base enc)) (rec.drop off.toNat) isVar).1
      split at h
      · next he => rw [he] at hs; simp at hs
      · cases h; simp
      · exact ih _ _ _ _ _ h

/-- C13, whole files: `Parse` of a file with a header and trailer of any well-typed record types. -/
theorem C13_file (f : File) (hh : Spec.WellTyped f.header) (ht : Spec.WellTyped f.trailer) (fuel : Nat) (buf : Bytes)
    (isVar : Bool) (f' : File) : f.parse fuel buf isVar ≠ some (f', some .panic) := by
  intro h
  unfold File.parse at h
  generalize (deleteFunc isNewline buf).1 = rec at h
  simp only at h
  have hs := C13_record f.header hh rec isVar
  generalize hp : f.header.parse rec isVar = q at h hs
  obtain ⟨h1, x⟩ := q
  cases x with
  | error err => simp at h; simp_all
  | ok n =>
    simp only at h
    generalize hb : parseBases f.format isVar rec fuel n [] = b at h
    match b with
    | none => simp at h
    | some (bs, off, some err) =>
      have := parseBases_no_panic _ _ _ _ _ _ _ _ _ hb
      simp_all
    | some (bs, off, none) =>
      simp only at h
      split at h
      · simp at h
      · rw [sliceFrom_of_le (by omega) (by omega)] at h
        simp only at h
        have hs2 := C13_record f.trailer ht (rec.drop off.toNat) isVar
        generalize hp2 : f.trailer.parse (rec.drop off.toNat) isVar = q at h hs2
        obtain ⟨t1, x⟩ := q
        cases x with
        | error err => simp at h; simp_all
        | ok n => simp only at h; split at h <;> simp at h

example (enc : Enc) : Spec.WellTyped (newFile enc).header ∧ Spec.WellTyped (newFile enc).trailer :=
  ⟨new_wellTyped (.header _), new_wellTyped (.trailer _)⟩

/-- C13, format detection: the packed check needs 8 bytes. -/
theorem C13_isPacked (buf : Bytes) (h : 8 ≤ buf.length) : isPacked buf ≠ .error .panic := by
  unfold isPacked
  rw [List.getElem?_eq_getElem (by omega), List.getElem?_eq_getElem (by omega),
    List.getElem?_eq_getElem (by omega), List.getElem?_eq_getElem (by omega)]
  simp only
  split <;> simp

/-! ### C20 -/

/-- C20, segments. -/
theorem C20_segment (k : SegKind) (rec : Bytes) (isVar : Bool) (s : Seg) (n : Nat)
    (h : (Seg.new k).parse rec isVar = (s, .ok n)) (hr : Spec.Regular k.format s.fields) :
    (Seg.new k).parse s.string isVar = (s, .ok n) := by
  obtain ⟨h1, -, h3, h4, h5, -⟩ := seg_parse_read h
  have hf := (layout_segment k).fits_of_accepted h4 h5 hr
  subst h3
  have := seg_parse_string (s := s) (old := Seg.new s.kind) rfl (Seg.new_typed _) h4 hf isVar []
  rw [List.append_nil] at this
  rw [this, h1]

theorem reread_header {enc : Enc} {rec : Bytes} {isVar : Bool} {fs : Fields} {n : Int}
    (h : parseHeader enc (newHeader enc).fields rec isVar = (fs, .ok n)) (hr : Spec.Regular enc.headerFormat fs)
    (hb : isVar = true ∨ enc = .packed → 0 < Spec.bdw fs) :
    parseHeader enc (newHeader enc).fields (Record.header enc fs).string isVar = (fs, .ok n) := by
  obtain ⟨h1, h2, h3, h4, h5⟩ := parseHeader_inv (newHeader_typed enc) h
  have hf := (layout_header enc).fits_of_accepted h1 h2 hr
  rw [← List.append_nil (Record.header enc fs).string]
  by_cases hc : enc = .character ∧ isVar = false
  · obtain ⟨rfl, rfl⟩ := hc
    simp only [headerPolicy, Bool.false_eq_true, if_false, reduceCtorEq] at h3
    have h0 : fs.int .BlockDescriptorWord = 0 := by rw [h3.2.2]; exact newHeader_bdw _
    rw [header_fixed_parse h1 (newHeader_typed _) hf h0 (newHeader_bdw _) [], h5, h0]
    rfl
  · have hv : isVar = true ∨ enc = .packed := by
      cases enc <;> cases isVar <;> simp_all
    have hpos : 0 < fs.int .BlockDescriptorWord := hb hv
    have hle : fs.int .BlockDescriptorWord ≤ wordMax enc := by
      split at h3
      · exact h3
      · exact absurd ⟨h3.1, h3.2.1⟩ hc
    rw [header_variable_parse h1 (newHeader_typed _) hf hpos hle h4 isVar
      (by intro he; rcases hv with h | h; · exact h
          · rw [he] at h; cases h) [], h5, if_pos hpos]

theorem reread_base_character {rec : Bytes} {isVar : Bool} {fs : Fields} {g : Segs} {n : Int}
    (h : parseBaseCharacter (zeroFields baseSegmentStruct) {} rec isVar = ((fs, g), .ok n))
    (hr : Spec.Regular baseSegmentCharacterFormat fs) (hg : ∀ s, Spec.Holds g s → Spec.Regular s.kind.format s.fields)
    (hb : isVar = true → 0 < Spec.bdw fs) :
    parseBaseCharacter (zeroFields baseSegmentStruct) {} (Record.base .character fs g).string isVar =
      ((fs, g), .ok n) := by
  obtain ⟨h1, h2, h3, h4, h5, h6⟩ := parseBaseCharacter_inv (zeroFields_typed _) h
  have hf := layout_baseCharacter.fits_of_accepted h1 h2 hr
  have hso : Spec.SegsOk g := h3.ok fun k s hs hh => hs.ok (by have := hg s hh; rwa [hs.kind] at this)
  obtain ⟨b, r, fr, hfs, hib, hir, -⟩ := (blocked_base .character).shape h1
  rw [← List.append_nil (Record.base .character fs g).string]
  have hns : Spec.NoSegment [] := by intro k; cases k <;> decide
  cases isVar with
  | false =>
    simp only [Bool.false_eq_true, if_false] at h4
    have h0 : fs.int .BlockDescriptorWord = 0 := by rw [h4]; exact newBase_bdw
    obtain ⟨rfl, h7⟩ := h6 h0
    have hmax : fs.int .RecordDescriptorWord ≤ 65535 := by
      rw [hir]
      have h : r < 10 ^ 4 := fitsNumber_lt (n := 4) (hf (.RecordDescriptorWord, .int r) (by rw [hfs]; simp) (by simp) _
        (lookup_mem (blocked_base .character).rdw)).1
      omega
    exact base_fixed_parse h1 (zeroFields_typed _) hf hso h0 newBase_bdw h7 [] (fun _ => hns) hmax
  | true =>
    simp only [if_true] at h4
    have hpos : fs.int .BlockDescriptorWord > 0 := hb rfl
    obtain ⟨rfl, h7⟩ := h5 hpos
    exact base_variable_parse h1 (zeroFields_typed _) hf hso h4 h7 [] (fun _ => hns)

theorem reread_base_packed {rec : Bytes} {isVar : Bool} {fs : Fields} {g : Segs} {n : Int}
    (h : parseBasePacked (zeroFields baseSegmentStruct) {} rec isVar = ((fs, g), .ok n))
    (hr : Spec.Regular baseSegmentPackedFormat fs) (hg : ∀ s, Spec.Holds g s → Spec.Regular s.kind.format s.fields) :
    parseBasePacked (zeroFields baseSegmentStruct) {} (Record.base .packed fs g).string isVar =
      ((fs, g), .ok n) := by
  obtain ⟨h1, h2, h3, rfl, h5, rfl, h7⟩ := parseBasePacked_inv (zeroFields_typed _) h
  have hf := layout_basePacked.fits_of_accepted h1 h2 hr
  have hso : Spec.SegsOk g := h3.ok fun k s hs hh => hs.ok (by have := hg s hh; rwa [hs.kind] at this)
  rw [← List.append_nil (Record.base .packed fs g).string]
  have hns : Spec.NoSegment [] := by intro k; cases k <;> decide
  exact base_packed_parse h1 (zeroFields_typed _) hf hso h5 h7 [] (fun _ => hns)

/-- C20, records of all six types: a record accepted by `Parse`, in which every negative number fills its field,
with no required character date that reads as the zero time and (if read with a block descriptor) a positive block
descriptor, is
written as text that reads as the same record and reports the same size. -/
theorem C20_record (r0 : Record) (h0 : Spec.New r0) (rec : Bytes) (isVar : Bool) (r : Record) (n : Int)
    (h : r0.parse rec isVar = (r, .ok n)) (hr : Spec.RegularRecord r)
    (hb : isVar = true ∨ r.enc = .packed → Spec.HasBdw r → 0 < Spec.bdw (Spec.valuesOf r)) :
    r0.parse r.string isVar = (r, .ok n) := by
  cases h0 with
  | header enc =>
    simp only [newHeader, Record.parse, Prod.mk.injEq] at h
    obtain ⟨rfl, h⟩ := h
    have hp : parseHeader enc (newHeader enc).fields rec isVar =
        ((parseHeader enc (newHeader enc).fields rec isVar).1, .ok n) := Prod.ext rfl h
    have := reread_header hp (by cases enc <;> exact hr) (fun hv => hb hv trivial)
    simp only [newHeader, Record.fields] at this ⊢
    rw [Record.parse, this]
  | trailer enc =>
    simp only [newTrailer, Record.parse, Prod.mk.injEq] at h
    obtain ⟨rfl, h⟩ := h
    have hp : parseTrailer enc (newTrailer enc).fields rec isVar =
        ((parseTrailer enc (newTrailer enc).fields rec isVar).1, .ok n) := Prod.ext rfl h
    obtain ⟨h1, h2, h3⟩ := parseTrailer_inv (newTrailer_typed enc) hp
    have hf := (layout_trailer enc).fits_of_accepted h1 h2 (by cases enc <;> exact hr)
    have := trailer_parse h1 (newTrailer_typed enc) hf isVar []
    rw [List.append_nil] at this
    simp only [newTrailer, Record.fields] at this h3 ⊢
    rw [Record.parse, this, h3]
  | base enc =>
    cases enc with
    | character =>
      simp only [newBase, Record.parse, Prod.mk.injEq] at h
      obtain ⟨rfl, h⟩ := h
      have := reread_base_character (Prod.ext rfl h) hr.1 hr.2 (fun hv => hb (.inl hv) trivial)
      rw [newBase, Record.parse, this]
    | packed =>
      simp only [newBase, Record.parse, Prod.mk.injEq] at h
      obtain ⟨rfl, h⟩ := h
      have := reread_base_packed (Prod.ext rfl h) hr.1 hr.2
      rw [newBase, Record.parse, this]

/-- The character data record of the examples with other bytes at a position. -/
def spliced (bdw : Int) (pos : Nat) (new : String) : Bytes :=
  let s := (Record.base .character (base bdw 426) {}).string
  s.take pos ++ new.toUTF8.data.toList ++ s.drop (pos + new.toUTF8.data.toList.length)

/-- Case of `C21_reread_partial`. Non-vacuity: non-canonical input, a credit limit with a plus sign and a date of last payment of zeros, is accepted
and regular. -/
example : ∃ fs n, (newBase .character).parse (spliced 0 83 "+00000005") false =
      (.base .character fs {}, .ok n) ∧ fs.int .CreditLimit = 5 ∧
    Spec.RegularRecord (.base .character fs {}) := by
  refine ⟨base 0 426 [(.CreditLimit, .int 5)], 426, by decide +kernel, by decide +kernel, ?_, ?_⟩
  · exact regular_of_B layout_baseCharacter.names (by decide +kernel)
  · intro s hs; simp [Spec.Holds] at hs

/-! ### C21 -/

/-- C21, the part that holds: regular records can be read again. The full property (every accepted record) fails in
the three ways shown below, one for each hypothesis. -/
theorem C21_reread_partial (r0 : Record) (h0 : Spec.New r0) (rec : Bytes) (isVar : Bool) (r : Record) (n : Int)
    (h : r0.parse rec isVar = (r, .ok n)) (hr : Spec.RegularRecord r)
    (hb : isVar = true ∨ r.enc = .packed → Spec.HasBdw r → 0 < Spec.bdw (Spec.valuesOf r)) :
    ∃ r' n', r0.parse r.string isVar = (r', .ok n') :=
  ⟨r, n, C20_record r0 h0 rec isVar r n h hr hb⟩

/-- C21 is violated by a negative number with leading zeros: "-00000005" is read as -5 and written as "0000000-5", which is
rejected. -/
theorem C21_violated_sign : ∃ rec r n e, (newBase .character).parse rec false = (r, .ok n) ∧
    (Spec.valuesOf r).int .CreditLimit = -5 ∧ ((newBase .character).parse r.string false).2 = .error e :=
  ⟨spliced 0 83 "-00000005", .base .character (base 0 426 [(.CreditLimit, .int (-5))]) {}, 426,
    .number .syntax, by decide +kernel, by decide +kernel, by decide +kernel⟩

/-- C21 is violated by January 1 of year 1 in a required date: it is accepted, but written as
zeros, which a required field must not have. -/
theorem C21_violated_date : ∃ rec r n e, (newBase .character).parse rec false = (r, .ok n) ∧
    (Spec.valuesOf r).time .DateOpened = Spec.noTime ∧ ((newBase .character).parse r.string false).2 = .error e :=
  ⟨spliced 0 75 "01010001", .base .character (base 0 426 [(.DateOpened, .time Spec.noTime)]) {}, 426,
    .required .DateOpened, by decide +kernel, by decide +kernel, by decide +kernel⟩

/-- C21 is violated by a block descriptor "0000": it is accepted, but not written, so that all fields are
shifted when the record is read again. -/
theorem C21_violated_bdw : ∃ rec r n e, (newBase .character).parse rec true = (r, .ok n) ∧
    Spec.bdw (Spec.valuesOf r) = 0 ∧ ((newBase .character).parse r.string true).2 = .error e :=
  ⟨b! "0000" ++ spliced 0 0 "0426", .base .character (base 0 426) {}, 426, .timeFormat,
    by decide +kernel, by decide +kernel, by decide +kernel⟩

/-! ### C22 -/

/-- C22, the part that holds: the size reported for a data record covers its fixed part (with the block descriptor
if there is one) and all segments read, for packed records, for fixed-blocked character records, and for
variable-blocked character records with a positive block descriptor. The full property fails without the
last condition, see `C22_violated`. -/
theorem C22_reported_partial (enc : Enc) (rec : Bytes) (isVar : Bool) (fs : Fields) (g : Segs) (n : Int)
    (h : (newBase enc).parse rec isVar = (.base enc fs g, .ok n))
    (hb : enc = .character → isVar = true → 0 < Spec.bdw fs) :
    0 < n ∧ (Spec.fixedLength enc fs + Spec.segsLength g : Nat) ≤ n := by
  unfold Spec.fixedLength
  cases enc with
  | character =>
    obtain ⟨-, -, -, h4, h5, h6⟩ := parseBaseCharacter_inv (zeroFields_typed _) (newBase_parse_character.1 h)
    cases isVar with
    | false =>
      simp only [Bool.false_eq_true, if_false] at h4
      rw [newBase_bdw] at h4
      have := (h6 h4).2
      rw [if_pos (show Spec.bdw fs = 0 from h4), Spec.recordLength]
      constructor <;> omega
    | true =>
      have hpos := hb rfl rfl
      have := (h5 hpos).2
      rw [if_neg (by omega), Spec.recordLength]
      constructor <;> omega
  | packed =>
    obtain ⟨-, -, -, -, -, h5, h6⟩ := parseBasePacked_inv (zeroFields_typed _) (newBase_parse_packed.1 h)
    have : n = Spec.bdw fs := h5
    rw [if_neg (by omega), Spec.recordLength]
    constructor <;> omega

/-- Non-vacuity: a record with two segments. -/
example : (newBase .character).parse
    (Record.base .character (base 564 560) { j1 := [j1], k1 := some k1 }).string true =
      (.base .character (base 564 560) { j1 := [j1], k1 := some k1 }, .ok 564) := by decide +kernel

/-- C22 is violated by a variable-blocked character record with negative descriptors: the reported
size is negative. -/
theorem C22_violated : ∃ rec fs g, (newBase .character).parse rec true = (.base .character fs g, .ok (-500)) :=
  ⟨b! "-001" ++ spliced 0 0 "-500", base (-1) (-500), {}, by decide +kernel⟩

/-- Cases of `C13_isPacked` and `C20_segment`: eight arbitrary bytes; a J1 segment. -/
example : isPacked [0, 1, 255, 123, 13, 10, 0, 9] = .ok false ∧ ((Seg.new .j1).parse j1.string false).2 = .ok 100 ∧
    Spec.Regular SegKind.j1.format j1.fields :=
  ⟨by decide +kernel, by decide +kernel, regular_of_B (layout_segment .j1).names (by decide +kernel)⟩

end Metro2
