import Verif.Spec.Reuse
import Verif.Lemmas.Reuse
import Verif.Props.FileRead

/-! Property C62: what was in a record or file before `Parse` does not matter. -/

namespace Metro2

open Samples

/-- C62, in full. Refuted by `C62_record_violated` and `C62_file_violated`. -/
def C62_statement : Prop :=
  (∀ r r' : Record, Spec.SameType r r' → Spec.WellTyped r → Spec.WellTyped r' → ∀ rec isVar,
    Spec.SameRead (r.parse rec isVar) (r'.parse rec isVar)) ∧
  ∀ g : File, Spec.Reachable g → ∀ fuel buf isVar,
    Spec.SameParse (g.parse fuel buf isVar) ((newFile g.format).parse fuel buf isVar)

/-- C62, segments: full property. -/
theorem C62_segment (k : SegKind) (a b : Fields) (ha : a.Typed k.struct) (hb : b.Typed k.struct) (rec : Bytes)
    (isVar : Bool) : Spec.SameRead ((⟨k, a⟩ : Seg).parse rec isVar) ((⟨k, b⟩ : Seg).parse rec isVar) :=
  segment_forget ha hb rec

/-- C62, records. Missing for the full property: the block descriptor is not reset by the fixed-length character read, and
K, L and N segments are not removed from a data record; see `C62_record_violated`. -/
theorem C62_record_partial (r r' : Record) (h : Spec.SameType r r') (hr : Spec.WellTyped r) (hr' : Spec.WellTyped r')
    (rec : Bytes) (isVar : Bool)
    (hb : Spec.KeepsBdw isVar r → Spec.bdw (Spec.valuesOf r) = Spec.bdw (Spec.valuesOf r'))
    (hs : Spec.SingleSegs (Spec.singles r) (Spec.singles r')) :
    Spec.SameRead (r.parse rec isVar) (r'.parse rec isVar) := by
  cases r with
  | header e fs =>
    cases r' with
    | header e' fs' =>
      cases (h : e = e')
      obtain ⟨h1, h2⟩ := header_forget (isVar := isVar) hr hr' (fun he hv => hb ⟨he, hv⟩) rec
      refine ⟨h1, fun n hn => ?_⟩
      simp only [Record.parse] at hn ⊢
      rw [h2 n hn]
    | _ => exact h.elim
  | base e fs g =>
    cases r' with
    | base e' fs' g' =>
      cases (h : e = e')
      obtain ⟨h1, h2, h3, h4, h5, h6⟩ := hs
      simp only [Spec.singles] at h1 h2 h3 h4 h5 h6
      exact base_forget hr hr' (fun he hv => hb ⟨he, hv⟩) (by rw [h1, h2, h3, h4, h5, h6]) rec
    | _ => exact h.elim
  | trailer e fs =>
    cases r' with
    | trailer e' fs' =>
      cases (h : e = e')
      obtain ⟨h1, h2⟩ := trailer_forget (enc := e) (isVar := isVar) hr hr' rec
      refine ⟨h1, fun n hn => ?_⟩
      simp only [Record.parse] at hn ⊢
      rw [h2 n hn]
    | _ => exact h.elim

/-- C62, files: `Parse` into any used file is `Parse` into a new one. Missing for the full property: fixed-length character
data and a header with a block descriptor, see `C62_file_violated`. -/
theorem C62_file_partial (g : File) (hg : Spec.Reachable g) (fuel : Nat) (buf : Bytes) (isVar : Bool)
    (h : g.format = .character → isVar = false → Spec.bdw (Spec.valuesOf g.header) = 0) :
    Spec.SameParse (g.parse fuel buf isVar) ((newFile g.format).parse fuel buf isVar) := by
  obtain ⟨hu, ht⟩ := C32_reachable hg
  obtain ⟨fmt, hd, bs, tr⟩ := g
  obtain ⟨⟨hfs, h1⟩, -, ⟨tfs, h2⟩⟩ := hu
  simp only at h1 h2
  subst h1 h2
  obtain ⟨th, -, tt⟩ := ht
  simp only at h ⊢
  have hh := C62_record_partial (.header fmt hfs) (newHeader fmt) rfl th (newHeader_typed fmt)
    (deleteFunc isNewline buf).1 isVar
    (by
      rintro ⟨he, hv⟩
      rw [h he hv]
      exact (newHeader_bdw fmt).symm) ⟨rfl, rfl, rfl, rfl, rfl, rfl⟩
  have htt : ∀ tail, _ := fun tail => C62_record_partial (.trailer fmt tfs) (newTrailer fmt) rfl tt (newTrailer_typed fmt)
    tail isVar (fun hk => hk.elim) ⟨rfl, rfl, rfl, rfl, rfl, rfl⟩
  unfold File.parse
  simp only [newFile]
  generalize hx : (Record.header fmt hfs).parse (deleteFunc isNewline buf).1 isVar = x at hh ⊢
  generalize hy : (newHeader fmt).parse (deleteFunc isNewline buf).1 isVar = y at hh ⊢
  obtain ⟨x1, x2⟩ := x
  obtain ⟨y1, y2⟩ := y
  obtain ⟨e1, e2⟩ := hh
  simp only at e1 e2
  subst e1
  cases x2 with
  | error e => simp [Spec.SameParse]
  | ok head =>
    have := e2 head rfl
    subst this
    simp only
    cases parseBases fmt isVar (deleteFunc isNewline buf).1 fuel head [] with
    | none => simp [Spec.SameParse]
    | some q =>
      obtain ⟨bs', off, e⟩ := q
      cases e with
      | some e => simp [Spec.SameParse]
      | none =>
        simp only
        split
        · simp [Spec.SameParse]
        · cases sliceFrom (deleteFunc isNewline buf).1 off with
          | none => simp [Spec.SameParse]
          | some tail =>
            simp only
            have hh := htt tail
            generalize hx' : (Record.trailer fmt tfs).parse tail isVar = x at hh ⊢
            generalize hy' : (newTrailer fmt).parse tail isVar = y at hh ⊢
            obtain ⟨x1, x2⟩ := x
            obtain ⟨y1, y2⟩ := y
            obtain ⟨e1, e2⟩ := hh
            simp only at e1 e2
            subst e1
            cases x2 with
            | error e => simp [Spec.SameParse]
            | ok n =>
              have := e2 n rfl
              subst this
              exact ⟨rfl, fun _ => Iff.rfl⟩

/-- C62 fails for data records: the K1 segment read before is still there after another record, which has none, was read. -/
theorem C62_record_violated : ∃ (r r' : Record) (rec : Bytes), Spec.SameType r r' ∧ Spec.WellTyped r ∧ Spec.WellTyped r' ∧
    (r.parse rec false).2 = (r'.parse rec false).2 ∧
    (Spec.singles (r.parse rec false).1).k1 = some k1 ∧ (Spec.singles (r'.parse rec false).1).k1 = none := by
  refine ⟨.base .character (base 0 1200) segs, newBase .character, (Record.base .character (base 0 426) {}).string,
    rfl, ?_, zeroFields_typed _, ?_⟩
  · have h : typedB baseSegmentStruct (base 0 1200) = true := by decide +kernel
    exact typed_of_typedB h
  · decide +kernel

/-- The sample variable-blocked file arises from reading its own text. -/
theorem variableFile_reachable : Spec.Reachable variableFile :=
  .step (op := .parse (variableFile.string false) true) (.new .character) trivial
    (.parse (C43_character true variableFile variableFile_good false 3 (by decide)))

/-- C62 fails for files: a file that was used for a variable-blocked text rejects a good fixed-length text that a new file
reads. The old block descriptor of the header is taken for its length. -/
theorem C62_file_violated : ∃ (g : File) (buf : Bytes), Spec.Reachable g ∧
    (newFile g.format).parse 3 buf false = some (fixedFile, none) ∧ ∃ f e, g.parse 3 buf false = some (f, some e) := by
  refine ⟨variableFile, fixedFile.string false, variableFile_reachable,
    C43_character false fixedFile fixedFile_good false 3 (by decide), ?_⟩
  have h : (match variableFile.parse 3 (fixedFile.string false) false with
    | some (_, some _) => true
    | _ => false) = true := by decide +kernel
  generalize variableFile.parse 3 (fixedFile.string false) false = x at h
  match x, h with
  | some (f, some e), _ => exact ⟨f, e, rfl⟩

/-- C62 in full is false. -/
theorem C62_violated : ¬ C62_statement := by
  rintro ⟨-, h⟩
  obtain ⟨g, buf, hg, h1, f, e, h2⟩ := C62_file_violated
  have := (h g hg 3 buf false).1
  rw [h1, h2] at this
  cases this

/-- C43 for a file that was used before, with any records and segments in it: nothing of its old content is left. -/
theorem C43_used (isVar : Bool) (f g : File) (hg : Spec.Reachable g) (hc : g.format = .character)
    (h0 : isVar = false → Spec.bdw (Spec.valuesOf g.header) = 0) (h : Spec.GoodFile .character isVar f) (nl : Bool)
    (fuel : Nat) (hfuel : f.bases.length < fuel) : g.parse fuel (f.string nl) isVar = some (f, none) := by
  refine ((C62_file_partial g hg fuel (f.string nl) isVar (fun _ => h0)).2 f).2 ?_
  rw [hc]
  exact C43_character isVar f h nl fuel hfuel

/-- The hypotheses of `C43_used` are met by a file with two data records. -/
example : variableFile.parse 3 (variableFile.string false) true = some (variableFile, none) :=
  C43_used true variableFile variableFile variableFile_reachable rfl (by simp) variableFile_good false 3 (by decide)

/-- The hypotheses of `C62_record_partial` and `C62_file_partial` are met by used records and files. -/
example : Spec.SameRead ((Record.header .character (header 0 426)).parse (Record.header .character (header 0 430)).string false)
    ((newHeader .character).parse (Record.header .character (header 0 430)).string false) :=
  C62_record_partial (.header .character (header 0 426)) (newHeader .character) rfl (typed_of_typedB (show typedB headerRecordStruct (header 0 426) = true by decide +kernel))
    (newHeader_typed .character) _ _ (fun _ => by decide +kernel) ⟨rfl, rfl, rfl, rfl, rfl, rfl⟩

/-- A used file is read again: the old records are gone. -/
example : variableFile.parse 3 (variableFile.string true) true = some (variableFile, none) :=
  ((C62_file_partial variableFile variableFile_reachable 3 (variableFile.string true) true (by simp)).2 _).2
    (C43_character true variableFile variableFile_good true 3 (by decide))

/-- A segment that held other values. -/
example : Spec.SameRead (j1.parse j1'.string false) ((Seg.new .j1).parse j1'.string false) :=
  C62_segment .j1 j1.fields (Seg.new .j1).fields
    (typed_of_typedB (show typedB SegKind.j1.struct j1.fields = true by decide +kernel))
    (typed_of_typedB (show typedB SegKind.j1.struct (Seg.new .j1).fields = true by decide +kernel)) _ _

end Metro2
