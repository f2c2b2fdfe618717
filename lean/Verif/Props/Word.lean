import Verif.Lemmas.Word
import Verif.Lemmas.Check
import Verif.Props.Samples
import Verif.Spec.Reread

/-! Property C109: arithmetic on 64-bit words. -/

namespace Metro2

open Samples

/-- C109, totals: a file with less than 2^59 data records and segments gets the same totals from counters of 64 bits as from unbounded ones. -/
theorem C109_totals (f : File) (h : Spec.pieces f < 2 ^ 59) : f.generatorTrailer64 = f.generatorTrailer :=
  generatorTrailer64_eq f (by rw [piecesOf_eq]; omega)

/-- Case of `C109_totals`: two data records with eleven segments; 2^63 is not a number that the counters hold. -/
example :
    let f : File := ⟨.character, newHeader .character, [.base .character (base 0 426) segs, .base .character (base 0 426) { j1 := [j1] }], newTrailer .character⟩
    f.generatorTrailer64 = f.generatorTrailer ∧ Spec.pieces f = 12 ∧ wrap (9223372036854775807 + 1) = -9223372036854775808 := by
  intro f
  have h : Spec.pieces f = 12 := by decide +kernel
  exact ⟨C109_totals f (by rw [h]; omega), h, by decide +kernel⟩

/-- C109, reading a record: positions of 64 bits give the same fields, segments, size and error as unbounded ones, for every text below 2^62 bytes. -/
theorem C109_record (r : Record) (hr : ∃ decl, (decl = headerRecordStruct ∨ decl = baseSegmentStruct ∨ decl = trailerRecordStruct) ∧
    (Spec.valuesOf r).Typed decl) (rec : Bytes) (h : rec.length < 2 ^ 62) (isVar : Bool) : r.parse64 rec isVar = r.parse rec isVar := by
  refine record64_eq r ?_ rec (by omega) isVar
  obtain ⟨decl, hd, ht⟩ := hr
  have : r.fieldsOf.length = decl.length := by
    have := typed_length ht
    cases r <;> exact this
  rw [this]
  rcases hd with rfl | rfl | rfl <;> decide +kernel

/-- Case of `C109_record`: a data record that is read into one with the greatest number. -/
example (rec : Bytes) (h : rec.length < 2 ^ 62) :
    (Record.base .packed (base 9223372036854775807 9223372036854775807) segs).parse64 rec false =
      (Record.base .packed (base 9223372036854775807 9223372036854775807) segs).parse rec false :=
  C109_record _ ⟨baseSegmentStruct, .inr (.inl rfl), typed_of_typedB (by decide +kernel)⟩ rec h false

/-- C109, reading a file: positions of 64 bits give the same file and the same error as unbounded ones, for every text below 2^62 bytes, whatever sizes the
records of the text name and whatever numbers are left in the file that is read into. Where a sum wraps around, the unbounded sum leads to the same error. -/
theorem C109_parse (f : File) (hf : Spec.WordFile f) (fuel : Nat) (buf : Bytes) (h : buf.length < 2 ^ 62) (isVar : Bool) :
    f.parse64 fuel buf isVar = f.parse fuel buf isVar :=
  file64_eq hf fuel buf isVar (by omega)

/-- Case of `C109_parse`: a text is read into a file whose header holds the greatest number as its block size. -/
example (fuel : Nat) (buf : Bytes) (h : buf.length < 2 ^ 62) :
    let f : File := ⟨.character, .header .character (header 9223372036854775807 426), [], newTrailer .character⟩
    f.parse64 fuel buf false = f.parse fuel buf false := by
  intro f
  refine C109_parse f ⟨⟨_, rfl, typed_of_typedB (by decide +kernel), ?_⟩, ⟨_, rfl, typed_of_typedB (by decide +kernel), wordFields_of_B (by decide +kernel)⟩⟩ fuel buf h false
  exact wordFields_of_B (by decide +kernel)

/-- C109, writing: the size to which a data record is padded is the same, whatever number the record holds. -/
theorem C109_block (enc : Enc) (fs : Fields) (h : Spec.WordFields fs) : baseBlockSize64 enc fs = baseBlockSize enc fs := block64_eq enc fs h

/-- Case of `C109_block`: the sum wraps around, and both sizes are 0. -/
example : baseBlockSize64 .packed (base 1 9223372036854775807) = baseBlockSize .packed (base 1 9223372036854775807) ∧
    wrap (9223372036854775807 + 4) = -9223372036854775805 ∧ baseBlockSize .packed (base 1 9223372036854775807) = 0 :=
  ⟨C109_block .packed _ (wordFields_of_B (by decide +kernel)), by decide +kernel, by decide +kernel⟩

/-- C109, writing with several goroutines: the pages are the same, and cutting them does not panic, for less than 2^62 data records. -/
theorem C109_pages (bases : List Record) (h : bases.length < 2 ^ 62) (goroutines : Int) (fuel : Nat) :
    pagesFrom64 bases (pageSize bases.length goroutines) fuel 0 = (pagesFrom bases (pageSize bases.length goroutines) fuel 0).map some :=
  pages64_eq bases _ (pageSize_le _ _) (by omega) fuel 0 (by omega)

/-- Case of `C109_pages`: five data records and two goroutines, in pages of `pageSize`. -/
example (fuel : Nat) : let bases := List.replicate 5 (newBase .packed)
    pagesFrom64 bases (pageSize bases.length 2) fuel 0 = (pagesFrom bases (pageSize bases.length 2) fuel 0).map some :=
  C109_pages (List.replicate 5 (newBase .packed)) (by simp) 2 fuel

/-- C109, numbers: what is read into a record of words are words, also if the text is refused. -/
theorem C109_words (r : Record) (hr : Spec.WordFields (Spec.valuesOf r)) (rec : Bytes) (isVar : Bool) :
    Spec.WordFields (Spec.valuesOf (r.parse rec isVar).1) ∧ ∀ n, (r.parse rec isVar).2 = .ok n → Spec.IsWord n := by
  cases r with
  | header enc fs =>
    refine ⟨?_, header_words hr rec isVar⟩
    show Spec.WordFields (parseHeader enc fs rec isVar).1
    unfold parseHeader
    have hl := parseLoop_words (fmt := enc.headerFormat) (pol := headerPolicy enc rec isVar) (bounds := true) (rec := rec) fs 0 hr
    split
    · exact hr
    · revert hl
      generalize parseLoop enc.headerFormat (headerPolicy enc rec isVar) true rec 0 fs = q
      obtain ⟨fs', x⟩ := q
      cases x <;> exact fun hl => hl
  | trailer enc fs =>
    refine ⟨?_, trailer_words hr rec isVar⟩
    show Spec.WordFields (parseTrailer enc fs rec isVar).1
    unfold parseTrailer
    have hl : Spec.WordFields (trailerLoop enc fs rec isVar).1 := by
      unfold trailerLoop
      cases enc
      · exact parseLoop_words fs 0 hr
      · exact parseLoop_words fs 0 hr
    split
    · exact hr
    · revert hl
      generalize trailerLoop enc fs rec isVar = q
      obtain ⟨fs', x⟩ := q
      cases x <;> exact fun hl => hl
  | base enc fs g =>
    refine ⟨?_, base_words hr g rec isVar⟩
    cases enc with
    | character =>
      show Spec.WordFields (parseBaseCharacter fs g rec isVar).1.1
      unfold parseBaseCharacter
      have hl := parseLoop_words (fmt := baseSegmentCharacterFormat) (pol := if isVar then .accept else .skip) (bounds := true) (rec := rec) fs 0 hr
      split
      · exact hr
      · revert hl
        generalize parseLoop baseSegmentCharacterFormat (if isVar then .accept else .skip) true rec 0 fs = q
        obtain ⟨fs', x⟩ := q
        cases x with
        | some err => exact fun hl => hl
        | none =>
          intro hl
          simp only
          generalize (if fs'.int .BlockDescriptorWord > 0 then 426 + 4 else 426) = off
          split
          · exact hl
          · split
            · exact hl
            · split
              · exact hl
              · split
                · exact hl
                · split <;> exact hl
    | packed =>
      show Spec.WordFields (parseBasePacked fs g rec isVar).1.1
      unfold parseBasePacked
      have hl := parseLoop_words (fmt := baseSegmentPackedFormat) (pol := if isVar then .accept else .fail) (bounds := true) (rec := rec) fs 0 hr
      split
      · exact hr
      · revert hl
        generalize parseLoop baseSegmentPackedFormat (if isVar then .accept else .fail) true rec 0 fs = q
        obtain ⟨fs', x⟩ := q
        cases x with
        | some err => exact fun hl => hl
        | none =>
          intro hl
          simp only
          split
          · exact hl
          · split
            · exact hl
            · split
              · exact hl
              · split <;> exact hl


/-- Case of `C109_words`: the data record of the samples, with any text read into it. -/
example (rec : Bytes) (isVar : Bool) : Spec.WordFields (Spec.valuesOf ((Record.base .character (base 0 426) segs).parse rec isVar).1) :=
  (C109_words (.base .character (base 0 426) segs) (wordFields_of_B (by decide +kernel)) rec isVar).1

end Metro2
