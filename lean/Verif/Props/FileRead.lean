import Verif.Lemmas.FileRead
import Verif.Props.Validate

/-! Property C43: `File.Parse` reads back what `String` wrote. -/

namespace Metro2

open Samples

theorem stripNewlines_withoutBreaks (s : Bytes) : stripNewlines s = Spec.withoutBreaks s := by
  unfold stripNewlines Spec.withoutBreaks
  congr 1
  funext c
  by_cases h1 : c = 13
  · subst h1; decide
  · by_cases h2 : c = 10
    · subst h2; decide
    · have h1' : ¬ c = '\r'.toNat.toUInt8 := h1
      have h2' : ¬ c = '\n'.toNat.toUInt8 := h2
      simp [isNewline, h1, h2, h1', h2']

/-- C43, character files, fixed or variable blocked, with any number of data records, any appended segments and both newline
settings. -/
theorem C43_character (isVar : Bool) (f : File) (h : Spec.GoodFile .character isVar f) (nl : Bool) (fuel : Nat)
    (hfuel : f.bases.length < fuel) :
    (newFile .character).parse fuel (f.string nl) isVar = some (f, none) := by
  have := parse_text h (by simp) [] (f.string nl)
    (by rw [stripNewlines_withoutBreaks, C38_delete f (goodFile_noBreaks h), List.append_nil]) fuel hfuel
  simpa using this

/-- C43, packed files whose records contain no CR or LF byte, and in which no size word looks like the identifier of a
segment. Missing for the full property: the last condition, see `C43_violated`. -/
theorem C43_packed_partial (f : File) (h : Spec.GoodFile .packed true f)
    (hb : ∀ t ∈ Spec.recordTexts f, Spec.NoBreaks t) (hi : Spec.NoIdentSizes f) (nl : Bool) (fuel : Nat)
    (hfuel : f.bases.length < fuel) :
    (newFile .packed).parse fuel (f.string nl) true = some (f, none) := by
  have := parse_text h (fun _ => hi) [] (f.string nl)
    (by rw [stripNewlines_withoutBreaks, C38_delete f hb, List.append_nil]) fuel hfuel
  simpa using this

/-- C43 / C44. Data after the trailer is reported: the records are those of the file, but an error is returned. -/
theorem C43_extra_rejected (enc : Enc) (isVar : Bool) (f : File) (h : Spec.GoodFile enc isVar f)
    (hb : enc = .packed → (∀ t ∈ Spec.recordTexts f, Spec.NoBreaks t) ∧ Spec.NoIdentSizes f) (nl : Bool)
    (extra : Bytes) (he : Spec.withoutBreaks extra ≠ []) (fuel : Nat) (hfuel : f.bases.length < fuel) :
    (newFile enc).parse fuel (f.string nl ++ extra) isVar = some (f, some .failedParsing) := by
  have hnb : ∀ t ∈ Spec.recordTexts f, Spec.NoBreaks t := by
    cases enc with
    | character => exact goodFile_noBreaks h
    | packed => exact (hb rfl).1
  have := parse_text h (fun he => (hb he).2) (Spec.withoutBreaks extra) (f.string nl ++ extra)
    (by rw [stripNewlines_withoutBreaks, withoutBreaks_append, C38_delete f hnb]) fuel hfuel
  rw [this, if_neg he]

/-! ### Samples -/

theorem goodHeader_of_B {enc : Enc} {isVar : Bool} {fs : Fields}
    (h1 : typedB headerRecordStruct fs = true) (h2 : fitsAllB enc.headerFormat fs = true)
    (h3 : (.RecordIdentifier, .str "HEADER".toUTF8.data.toList) ∈ fs) (h4 : enc = .packed → isVar = true)
    (h5 : (if isVar then decide (0 < Spec.bdw fs) && decide (Spec.bdw fs ≤ Spec.wordMax enc)
      else decide (Spec.bdw fs = 0)) = true)
    (h6 : decide ((Spec.fixedLength enc fs : Nat) ≤ Spec.sizeWord isVar fs) = true) :
    Spec.GoodHeader enc isVar fs := by
  refine ⟨typed_of_typedB h1, fitsAll_of_fitsAllB (layout_header enc).names h2, h3, h4, ?_, of_decide_eq_true h6⟩
  cases isVar with
  | true => simpa using h5
  | false => simpa using h5

theorem goodTrailer_of_B {enc : Enc} {fs : Fields}
    (h1 : typedB trailerRecordStruct fs = true) (h2 : fitsAllB enc.trailerFormat fs = true)
    (h3 : (.RecordIdentifier, .str "TRAILER".toUTF8.data.toList) ∈ fs)
    (h6 : decide ((Spec.recordLength enc : Nat) ≤ Spec.rdw fs) = true) : Spec.GoodTrailer enc fs :=
  ⟨typed_of_typedB h1, fitsAll_of_fitsAllB (layout_trailer enc).names h2, h3, of_decide_eq_true h6⟩

/-- A file with given records. -/
def Samples.fileOf (enc : Enc) (hfs : Fields) (bs : List (Fields × Segs)) (tfs : Fields) : File :=
  ⟨enc, .header enc hfs, bs.map fun p => .base enc p.1 p.2, .trailer enc tfs⟩

theorem goodFile_of {enc : Enc} {isVar : Bool} {hfs tfs : Fields} {bs : List (Fields × Segs)}
    (h1 : Spec.GoodHeader enc isVar hfs) (h2 : ∀ p ∈ bs, Spec.GoodData enc isVar p.1 p.2)
    (h3 : Spec.GoodTrailer enc tfs) : Spec.GoodFile enc isVar (fileOf enc hfs bs tfs) := by
  refine ⟨rfl, ⟨_, rfl, h1⟩, ?_, ⟨_, rfl, h3⟩⟩
  intro r hr
  obtain ⟨p, hp, rfl⟩ := List.mem_map.1 hr
  exact ⟨_, _, rfl, h2 p hp⟩

/-- A fixed-blocked character file with two data records, one with segments of all types and padding. -/
def Samples.fixedFile : File :=
  fileOf .character (header 0 426) [(base 0 426, {}), (base 0 1200, segs)] (trailer 426)

theorem fixedFile_good : Spec.GoodFile .character false fixedFile := by
  refine goodFile_of (goodHeader_of_B (by decide +kernel) (by decide +kernel) (by decide +kernel) (by decide)
    (by decide +kernel) (by decide +kernel)) ?_ (goodTrailer_of_B (by decide +kernel) (by decide +kernel)
    (by decide +kernel) (by decide +kernel))
  intro p hp
  simp only [List.mem_cons, List.not_mem_nil, or_false] at hp
  rcases hp with rfl | rfl <;>
    exact ⟨goodBase_of_B (by decide +kernel) (by decide +kernel) (by decide +kernel) (by decide) (by decide +kernel)
      (by decide +kernel), by decide +kernel⟩

/-- A variable-blocked character file. -/
def Samples.variableFile : File :=
  fileOf .character (header 430 426) [(base 430 426, {}), (base 1168 1164, segs)] (trailer 426)

theorem variableFile_good : Spec.GoodFile .character true variableFile := by
  refine goodFile_of (goodHeader_of_B (by decide +kernel) (by decide +kernel) (by decide +kernel) (by decide)
    (by decide +kernel) (by decide +kernel)) ?_ (goodTrailer_of_B (by decide +kernel) (by decide +kernel)
    (by decide +kernel) (by decide +kernel))
  intro p hp
  simp only [List.mem_cons, List.not_mem_nil, or_false] at hp
  rcases hp with rfl | rfl <;>
    exact ⟨goodBase_of_B (by decide +kernel) (by decide +kernel) (by decide +kernel) (by decide) (by decide +kernel)
      (by decide +kernel), by decide +kernel⟩

/-- A packed file. -/
def Samples.packedFile : File :=
  fileOf .packed (header 370 366) [(base 370 366, {}), (base 1200 1196, segs)] (trailer 366)

theorem packedFile_good : Spec.GoodFile .packed true packedFile := by
  refine goodFile_of (goodHeader_of_B (by decide +kernel) (by decide +kernel) (by decide +kernel) (by decide)
    (by decide +kernel) (by decide +kernel)) ?_ (goodTrailer_of_B (by decide +kernel) (by decide +kernel)
    (by decide +kernel) (by decide +kernel))
  intro p hp
  simp only [List.mem_cons, List.not_mem_nil, or_false] at hp
  rcases hp with rfl | rfl <;>
    exact ⟨goodBase_of_B (by decide +kernel) (by decide +kernel) (by decide +kernel) (by decide) (by decide +kernel)
      (by decide +kernel), by decide +kernel⟩

instance (s : Bytes) : Decidable (Spec.NoBreaks s) := by unfold Spec.NoBreaks; infer_instance

theorem packedFile_noBreaks : ∀ t ∈ Spec.recordTexts packedFile, Spec.NoBreaks t := by decide +kernel

theorem noIdentSizes_of_B {f : File} (h1 : ∀ r ∈ f.bases, ∀ k ∈ SegKind.all, Spec.bdw r.fields ≠ Spec.identNumber k)
    (h2 : ∀ k ∈ SegKind.all, Spec.rdw f.trailer.fields ≠ Spec.identNumber k) : Spec.NoIdentSizes f := by
  have hm : ∀ k, k ∈ SegKind.all := by intro k; cases k <;> decide
  exact ⟨fun r hr k => h1 r hr k (hm k), fun k => h2 k (hm k)⟩

theorem packedFile_noIdentSizes : Spec.NoIdentSizes packedFile :=
  noIdentSizes_of_B (by decide +kernel) (by decide +kernel)

/-- Case of `C43_character`. -/
example : Spec.GoodFile .character false fixedFile ∧ Spec.GoodFile .character true variableFile ∧
    fixedFile.bases.length = 2 ∧ variableFile.bases.length = 2 :=
  ⟨fixedFile_good, variableFile_good, rfl, rfl⟩

/-- Case of `C43_packed_partial`. -/
example : Spec.GoodFile .packed true packedFile ∧ (∀ t ∈ Spec.recordTexts packedFile, Spec.NoBreaks t) ∧
    Spec.NoIdentSizes packedFile ∧ packedFile.bases.length = 2 :=
  ⟨packedFile_good, packedFile_noBreaks, packedFile_noIdentSizes, rfl⟩

/-! ### A size word that looks like the identifier of a segment -/

/-- A name segment whose fourth byte is zero is rejected. -/
theorem j1_zero_rejected {rec : Bytes} {isVar : Bool} (h : rec[3]? = some 0) :
    ∀ s n, (Seg.new .j1).parse rec isVar ≠ (s, .ok n) := by
  intro s n hp
  unfold Seg.parse at hp
  by_cases hl : rec.length < (Seg.new .j1).kind.length
  · rw [if_pos hl] at hp; simp at hp
  · rw [if_neg hl] at hp
    have hs := parseLoop_inv (fmt := (Seg.new .j1).kind.format) (pol := if isVar then .accept else .skip)
      (bounds := true) (rec := rec) (off := 0) (old := (Seg.new .j1).fields)
      (new := (parseLoop (Seg.new .j1).kind.format (if isVar then .accept else .skip) true rec 0
        (Seg.new .j1).fields).1) (by decide +kernel)
    generalize hq : parseLoop (Seg.new .j1).kind.format (if isVar then .accept else .skip) true rec 0
        (Seg.new .j1).fields = q at hp hs
    obtain ⟨new, err⟩ := q
    cases err with
    | some e => simp at hp
    | none =>
      have hty := ((layout_segment .j1).safe (Seg.new_typed .j1) (if isVar then .accept else .skip) rec 0).1
      have hq' : parseLoop SegKind.j1.format (if isVar then .accept else .skip) true rec 0
        (Seg.new .j1).fields = (new, none) := hq
      rw [hq'] at hty
      simp only at hty
      have hm : F.Surname ∈ new.map Prod.fst := by rw [hty.names]; decide +kernel
      obtain ⟨⟨f, v⟩, hm, rfl⟩ := List.mem_map.1 hm
      obtain ⟨-, e, l1, hlen, hv, -⟩ := hs rfl _ hm
      have l2 : (Seg.new .j1).kind.format.lookup .Surname = some ⟨3, 25, .alphanumeric, false, false, .required⟩ := by
        decide +kernel
      simp only at l1 hlen hv
      rw [l2] at l1
      cases l1
      simp only [isValidType] at hv
      split at hv
      · simp at hv
      · have := isAlphanumeric_eq_none.1 hv 0 (by
          apply List.mem_of_getElem? (i := 0)
          rw [List.getElem?_take_of_lt (by decide), List.getElem?_drop]
          exact h)
        exact absurd this.1 (by decide)

/-- A packed data record without padding is rejected if what follows begins with the bytes of the size 18993. -/
theorem base_ident_rejected {fs : Fields}
    (hw : (Record.base .packed fs {}).string.length = 370) (rest : Bytes) (hr : rest.take 4 = [74, 49, 0, 0]) :
    ∃ b err, (newBase .packed).parse ((Record.base .packed fs {}).string ++ rest) true = (b, .error err) := by
  have hd : ((Record.base .packed fs {}).string ++ rest).drop 370 = rest := by rw [← hw, List.drop_left]
  have hr2 : rest.take 2 = [74, 49] := by
    have := congrArg (List.take 2) hr
    rwa [List.take_take] at this
  have hr3 : rest[3]? = some 0 := by
    have : (rest.take 4)[3]? = some 0 := by rw [hr]; rfl
    rwa [List.getElem?_take_of_lt (by decide)] at this
  have hl : 2 < rest.length := by
    by_contra hn
    rw [List.getElem?_eq_none (by omega)] at hr3
    simp at hr3
  have hseg : ∃ err, readApplicableSegments {} rest true = (({} : Segs), .error err) := by
    unfold readApplicableSegments
    rw [readSegs_succ, if_pos hl, hr2]
    have hk : segKindOfIdent [74, 49] = some .j1 := by decide +kernel
    rw [hk]
    simp only
    have hne := j1_zero_rejected (rec := rest) (isVar := true) hr3
    generalize (Seg.new .j1).parse rest true = q at hne
    obtain ⟨s, x⟩ := q
    cases x with
    | error err => exact ⟨err, rfl⟩
    | ok n => exact absurd rfl (hne s n)
  obtain ⟨err, hseg⟩ := hseg
  show ∃ b err, (match parseBasePacked (zeroFields baseSegmentStruct) {} _ true with
      | ((fs, g), r) => (Record.base .packed fs g, r)) = (b, .error err)
  rw [parseBasePacked_eq]
  generalize hT : (Record.base .packed fs {}).string ++ rest = T at hd
  by_cases h1 : T.length < 366
  · rw [if_pos h1]; exact ⟨_, _, rfl⟩
  · rw [if_neg h1]
    generalize parseLoop baseSegmentPackedFormat _ true T 0 _ = q
    obtain ⟨fs', e⟩ := q
    cases e with
    | some e => exact ⟨_, _, rfl⟩
    | none =>
      simp only
      by_cases h2 : T.length < 366 + 4
      · rw [if_pos h2]; exact ⟨_, _, rfl⟩
      · rw [if_neg h2, show 366 + 4 = 370 from rfl, hd]
        simp only [hseg]
        exact ⟨_, _, rfl⟩

theorem parseBases_rejected {enc : Enc} {isVar : Bool} {pre rest : Bytes} {b : Record} {err : Err}
    (hrej : (newBase enc).parse rest isVar = (b, .error err)) {fuel : Nat} {bs : List Record} {off : Int}
    {e : Option Err} (h : parseBases enc isVar (pre ++ rest) fuel ((pre.length : Nat) : Int) [] = some (bs, off, e)) :
    bs = [] := by
  cases fuel with
  | zero => simp [parseBases] at h
  | succ n =>
    rw [parseBases_succ, Int.toNat_natCast, List.drop_left, hrej] at h
    split at h
    · simp only [Option.some.injEq, Prod.mk.injEq] at h; exact h.1.symm
    · cases err <;> simp only [Option.some.injEq, Prod.mk.injEq] at h <;> exact h.1.symm

/-- A packed file whose second data record has size 18993, the bytes of "J1". -/
def Samples.identFile : File :=
  fileOf .packed (header 370 366) [(base 370 366, {}), (base 18993 18989, {})] (trailer 366)

theorem identFile_good : Spec.GoodFile .packed true identFile := by
  refine goodFile_of (goodHeader_of_B (by decide +kernel) (by decide +kernel) (by decide +kernel) (by decide)
    (by decide +kernel) (by decide +kernel)) ?_ (goodTrailer_of_B (by decide +kernel) (by decide +kernel)
    (by decide +kernel) (by decide +kernel))
  intro p hp
  simp only [List.mem_cons, List.not_mem_nil, or_false] at hp
  rcases hp with rfl | rfl <;>
    exact ⟨goodBase_of_B (by decide +kernel) (by decide +kernel) (by decide +kernel) (by decide) (by decide +kernel)
      (by decide +kernel), by decide +kernel⟩

theorem noBreaks_padTo {n : Nat} {s : Bytes} (h : Spec.NoBreaks s) : Spec.NoBreaks (padTo n s) := by
  intro c hc
  rcases List.mem_append.1 hc with hc | hc
  · exact h c hc
  · rw [List.eq_of_mem_replicate hc]; decide

theorem identFile_noBreaks : ∀ t ∈ Spec.recordTexts identFile, Spec.NoBreaks t := by
  have h1 : Spec.NoBreaks (fieldsString Enc.packed.headerFormat (header 370 366)) := by decide +kernel
  have h2 : Spec.NoBreaks (fieldsString Enc.packed.baseFormat (base 370 366) ++ ({} : Segs).string) := by
    decide +kernel
  have h3 : Spec.NoBreaks (fieldsString Enc.packed.baseFormat (base 18993 18989) ++ ({} : Segs).string) := by
    decide +kernel
  have h4 : Spec.NoBreaks (fieldsString Enc.packed.trailerFormat (trailer 366)) := by decide +kernel
  intro t ht
  simp only [Spec.recordTexts, identFile, fileOf, List.map_cons, List.map_nil, List.cons_append, List.nil_append,
    List.mem_cons, List.not_mem_nil, or_false] at ht
  rcases ht with rfl | rfl | rfl | rfl
  · exact noBreaks_padTo h1
  · exact noBreaks_padTo h2
  · exact noBreaks_padTo h3
  · exact noBreaks_padTo h4

/-- C43 fails for packed data: the text of a well-formed packed file without CR and LF bytes is not read back,
whatever the bound on the number of data records. -/
theorem C43_violated : ∃ f, Spec.GoodFile .packed true f ∧ (∀ t ∈ Spec.recordTexts f, Spec.NoBreaks t) ∧
    ∀ fuel err, (newFile .packed).parse fuel (f.string false) true ≠ some (f, err) := by
  refine ⟨identFile, identFile_good, identFile_noBreaks, ?_⟩
  have hf := identFile_good
  obtain ⟨-, ⟨hfs, e1, hh⟩, hb, ⟨tfs, e2, ht⟩⟩ := hf
  cases e1
  cases e2
  obtain ⟨fs1, g1, e3, hg1⟩ := hb (.base .packed (base 370 366) {}) (by simp [identFile, fileOf])
  obtain ⟨fs2, g2, e4, hg2⟩ := hb (.base .packed (base 18993 18989) {}) (by simp [identFile, fileOf])
  cases e3
  cases e4
  have hlen : (Record.base .packed (base 370 366) {}).string.length = 370 := by decide +kernel
  have hw : firstWord .packed (Spec.sizeWord true (base 18993 18989)) = [74, 49, 0, 0] := by decide +kernel
  have hfst := base_first hg2.base (Record.trailer .packed (trailer 366)).string
  rw [hw] at hfst
  obtain ⟨b, err, hrej⟩ := base_ident_rejected hlen _ hfst
  have htext : stripNewlines (identFile.string false) = (Record.header .packed (header 370 366)).string ++
      ((Record.base .packed (base 370 366) {}).string ++ ((Record.base .packed (base 18993 18989) {}).string ++
        (Record.trailer .packed (trailer 366)).string)) := by
    rw [stripNewlines_withoutBreaks, C38_delete _ identFile_noBreaks]
    simp only [identFile, fileOf, File.string, newLine, Bool.false_eq_true, if_false, List.append_nil,
      List.append_assoc, List.map_cons, List.map_nil, List.flatten_cons, List.flatten_nil]
  have hhl := header_text_length hh
  intro fuel e hp
  have hbs : identFile.bases ≠ [] := by simp [identFile, fileOf]
  apply hbs
  unfold File.parse at hp
  rw [deleteFunc_newline, htext] at hp
  simp only [newFile] at hp
  rw [header_reread hh] at hp
  simp only at hp
  generalize hq : parseBases .packed true _ fuel _ [] = q at hp
  cases q with
  | none => simp at hp
  | some q =>
    obtain ⟨bs, off, e'⟩ := q
    rw [← hhl] at hq
    have := parseBases_rejected hrej hq
    subst this
    cases e' with
    | some e' =>
      simp only [Option.some.injEq, Prod.mk.injEq] at hp
      rw [← hp.1]
    | none =>
      simp only at hp
      repeat' split at hp
      all_goals
        simp only [Option.some.injEq, Prod.mk.injEq] at hp
        rw [← hp.1]

end Metro2
