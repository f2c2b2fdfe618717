import Verif.Lemmas.Schema
import Verif.Props.Server
import Verif.Props.Rules

/-! Properties C63 and C64: the service and its published description, /repo/api/openapi.yaml. -/

namespace Metro2

open Samples

/-! ### C63 -/

/-- C63 in full: the JSON document of a valid file conforms to the published schema. Violated, see `C63_violated`. -/
def C63_statement : Prop :=
  ∀ f : File, Spec.CarriedFile f → f.validate = none → Spec.Conforms Spec.fileSchema f.toJson

theorem segsConform_iff {g : Segs} (hg : Spec.CarriedSegs g) :
    SegsConform Spec.segRows g ↔ ∀ s ∈ Spec.allSegs g, Spec.SegMet Spec.segRows s := by
  have key : ∀ {k : SegKind} {s : Seg}, s.kind = k ∧ Spec.JsonFields k.struct s.fields →
      (Spec.Conforms (Spec.objectOf (Spec.segRows k)) (segDoc s) ↔ Spec.SegMet Spec.segRows s) := by
    rintro k s ⟨rfl, hf⟩
    exact conforms_rows (tagsOk_seg s.kind) (fit_seg s.kind) hf
  have hmem : ∀ s, s ∈ Spec.allSegs g ↔ s ∈ g.j1 ∨ s ∈ g.j2 ∨ g.k1 = some s ∨ g.k2 = some s ∨ g.k3 = some s ∨ g.k4 = some s ∨
      g.l1 = some s ∨ g.n1 = some s := by
    intro s
    simp only [Spec.allSegs, List.mem_append, Option.mem_toList, Option.mem_def, or_assoc]
  constructor
  · rintro ⟨h1, h2, h3, h4, h5, h6, h7, h8⟩ s hs
    rcases (hmem s).1 hs with h | h | h | h | h | h | h | h
    · exact (key (hg.j1 s h)).1 (h1 s h)
    · exact (key (hg.j2 s h)).1 (h2 s h)
    · exact (key (hg.k1 s h)).1 (h3 s h)
    · exact (key (hg.k2 s h)).1 (h4 s h)
    · exact (key (hg.k3 s h)).1 (h5 s h)
    · exact (key (hg.k4 s h)).1 (h6 s h)
    · exact (key (hg.l1 s h)).1 (h7 s h)
    · exact (key (hg.n1 s h)).1 (h8 s h)
  · intro h
    simp only [hmem] at h
    exact ⟨fun s hs => (key (hg.j1 s hs)).2 (h s (by simp [hs])), fun s hs => (key (hg.j2 s hs)).2 (h s (by simp [hs])),
      fun s hs => (key (hg.k1 s hs)).2 (h s (by simp [hs])), fun s hs => (key (hg.k2 s hs)).2 (h s (by simp [hs])),
      fun s hs => (key (hg.k3 s hs)).2 (h s (by simp [hs])), fun s hs => (key (hg.k4 s hs)).2 (h s (by simp [hs])),
      fun s hs => (key (hg.l1 s hs)).2 (h s (by simp [hs])), fun s hs => (key (hg.n1 s hs)).2 (h s (by simp [hs]))⟩

/-- C63, the part that holds, exactly: the document of a file (valid or not) conforms to the published schema if and only if the file has a data record and every
documented value, where it is written, is one that the schema describes: numbers in range, texts and codes in the lists of values, dates
not empty, and the highest credit not 0. The full property asks this of every valid file. -/
theorem C63_exact_partial (f : File) (hf : Spec.CarriedFile f) :
    Spec.Conforms Spec.fileSchema f.toJson ↔
      Spec.FileMet Spec.headerRecordRows Spec.baseSegmentRows Spec.trailerRecordRows Spec.segRows f := by
  obtain ⟨⟨eh, fh, hh, jh⟩, hb, ⟨et, ft, ht, jt⟩⟩ := hf
  unfold Spec.fileSchema
  rw [conforms_file, hh, ht]
  have e1 : Spec.Conforms (Spec.objectOf Spec.headerRecordRows) (Record.header eh fh).toJson ↔ Spec.RowsMet Spec.headerRecordRows fh :=
    conforms_rows tagsOk_header fit_header jh
  have e2 : Spec.Conforms (Spec.objectOf Spec.trailerRecordRows) (Record.trailer et ft).toJson ↔ Spec.RowsMet Spec.trailerRecordRows ft :=
    conforms_rows tagsOk_trailer fit_trailer jt
  have e3 : ∀ enc fs g, Record.base enc fs g ∈ f.bases →
      (Spec.Conforms (Spec.recordSchema Spec.baseSegmentRows Spec.segRows) (Record.base enc fs g).toJson ↔
        Spec.RowsMet Spec.baseSegmentRows fs ∧ ∀ s ∈ Spec.allSegs g, Spec.SegMet Spec.segRows s) := by
    intro enc fs g hm
    obtain ⟨enc', fs', g', heq, j1, j2⟩ := hb _ hm
    cases heq
    show Spec.Conforms _ (encodeBase fs g) ↔ _
    rw [conforms_record, segsConform_iff j2, conforms_rows tagsOk_base fit_base j1]
  rw [e1, e2]
  constructor
  · rintro ⟨h1, ⟨h2, h3⟩, h4⟩
    refine ⟨?_, ?_, ?_, h2⟩
    · intro enc fs h; rw [hh] at h; cases h; exact h1
    · intro enc fs g hm; exact (e3 enc fs g hm).1 (h3 _ hm)
    · intro enc fs h; rw [ht] at h; cases h; exact h4
  · rintro ⟨h1, h2, h3, h4⟩
    refine ⟨h1 _ _ hh, ⟨h4, ?_⟩, h3 _ _ ht⟩
    intro r hr
    obtain ⟨enc, fs, g, rfl, -, -⟩ := hb _ hr
    exact (e3 enc fs g hr).2 (h2 enc fs g hr)

theorem absent_not_required {decl : List (F × FieldDecl)} {rows : List Spec.Row}
    (h : rows.all (fun r => !r.required || decl.any (fun p => p.1 = r.field)) = true) :
    ∀ r ∈ rows, (∀ p ∈ decl, p.1 ≠ r.field) → r.required = false := by
  intro r hr habs
  have := List.all_eq_true.1 h r hr
  simp only [Bool.or_eq_true, Bool.not_eq_true', List.any_eq_true, decide_eq_true_eq] at this
  rcases this with h | ⟨p, hp, e⟩
  · exact h
  · exact absurd e (habs p hp)

/-- C63, the types: the document of every file with a data record, valid or not, has all required members (the highest credit excepted), and every documented
member has the documented JSON type. The full property also asks for the lists of values, the date format and the size of numbers. -/
theorem C63_types_partial (f : File) (hf : Spec.CarriedFile f) (hne : f.bases ≠ []) :
    Spec.Conforms Spec.looseFileSchema f.toJson := by
  obtain ⟨⟨eh, fh, hh, jh⟩, hb, ⟨et, ft, ht, jt⟩⟩ := hf
  unfold Spec.looseFileSchema
  rw [conforms_file, hh, ht]
  refine ⟨conforms_looseRows tagsOk_header fit_header (absent_not_required (by decide +kernel)) jh, ⟨hne, ?_⟩,
    conforms_looseRows tagsOk_trailer fit_trailer (absent_not_required (by decide +kernel)) jt⟩
  intro r hr
  obtain ⟨enc, fs, g, rfl, j1, j2⟩ := hb _ hr
  show Spec.Conforms _ (encodeBase fs g)
  rw [conforms_record]
  have key : ∀ {k : SegKind} {s : Seg}, s.kind = k ∧ Spec.JsonFields k.struct s.fields →
      Spec.Conforms (Spec.objectOf ((Spec.segRows k).map Spec.looseRow)) (segDoc s) := by
    rintro k s ⟨rfl, hf⟩
    exact conforms_looseRows (tagsOk_seg s.kind) (fit_seg s.kind)
      (absent_not_required (by cases s.kind <;> decide +kernel)) hf
  exact ⟨conforms_looseRows tagsOk_base fit_base (absent_not_required (by decide +kernel)) j1,
    fun s hs => key (j2.j1 s hs), fun s hs => key (j2.j2 s hs), fun s hs => key (j2.k1 s hs), fun s hs => key (j2.k2 s hs),
    fun s hs => key (j2.k3 s hs), fun s hs => key (j2.k4 s hs), fun s hs => key (j2.l1 s hs), fun s hs => key (j2.n1 s hs)⟩

theorem valid_bases {f : File} (hv : f.validate = none) : ∀ r ∈ f.bases, r.validate = none := by
  rw [← firstInvalid_none]
  unfold File.validate at hv
  split at hv
  · cases hv
  · split at hv
    · cases hv
    · split at hv
      · cases hv
      · next h => exact h

/-- The document of a valid file never conforms: the schema lists single letters for the payment history profile, which has 24, and `data`
is `null` if there is no data record. -/
theorem C63_never (f : File) (hf : Spec.CarriedFile f) (hv : f.validate = none) : ¬ Spec.Conforms Spec.fileSchema f.toJson := by
  rw [C63_exact_partial f hf]
  rintro ⟨-, hb, -, hne⟩
  obtain ⟨r, hr⟩ := List.exists_mem_of_ne_nil _ hne
  obtain ⟨enc, fs, g, rfl, hj, -⟩ := hf.bases r hr
  have hv' := valid_bases hv _ hr
  have hrow := (hb enc fs g hr).1 ⟨.PaymentHistoryProfile, b! "paymentHistoryProfile", .text [b! "0", b! "1", b! "2", b! "3", b! "4",
    b! "5", b! "6", b! "B", b! "D", b! "E", b! "G", b! "H", b! "J", b! "K", b! "L"], true, false⟩ (by simp [Spec.baseSegmentRows])
  obtain ⟨v, hg, hk⟩ := hj.1.get tagsOk_base.1 (f := .PaymentHistoryProfile) (d := ⟨.str, b! "paymentHistoryProfile", false⟩)
    (by decide +kernel)
  cases v with
  | int => simp [Val.hasKind] at hk
  | time => simp [Val.hasKind] at hk
  | str s =>
    have hlen := (C58_values_partial enc fs g hj.1 hv' s (Fields.mem_of_get hg)).1
    unfold Spec.RowMet at hrow
    rw [show fs.lookup F.PaymentHistoryProfile = some (.str s) from hg] at hrow
    have := hrow.2 (by simp)
    simp only [Spec.Meets] at this
    rcases this with h | h
    · cases h
    · have : ∀ x ∈ [b! "0", b! "1", b! "2", b! "3", b! "4", b! "5", b! "6", b! "B", b! "D", b! "E", b! "G", b! "H", b! "J", b! "K",
        b! "L"], x.length = 1 := by decide
      have := this s h
      omega

/-- The trailer generated for one data record with all kinds of segments. -/
def Samples.publishedTrailer (enc : Enc) : Fields :=
  match (⟨enc, .header enc (header 600 596), [.base enc (base 600 596) segs], .trailer enc (trailer 596)⟩ : File).generatorTrailer with
  | .ok t => t.fields
  | .error _ => []

/-- A valid file with it. -/
def Samples.publishedFile (enc : Enc) : File :=
  ⟨enc, .header enc (header 600 596), [.base enc (base 600 596) segs], .trailer enc (publishedTrailer enc)⟩

theorem carriedSegs_of {g : Segs} (h : Spec.JsonSegs g) : Spec.CarriedSegs g :=
  ⟨fun s hs => ⟨(h.j1 s hs).kind, (h.j1 s hs).fields⟩, fun s hs => ⟨(h.j2 s hs).kind, (h.j2 s hs).fields⟩,
    fun s hs => ⟨(h.k1 s hs).kind, (h.k1 s hs).fields⟩, fun s hs => ⟨(h.k2 s hs).kind, (h.k2 s hs).fields⟩,
    fun s hs => ⟨(h.k3 s hs).kind, (h.k3 s hs).fields⟩, fun s hs => ⟨(h.k4 s hs).kind, (h.k4 s hs).fields⟩,
    fun s hs => ⟨(h.l1 s hs).kind, (h.l1 s hs).fields⟩, fun s hs => ⟨(h.n1 s hs).kind, (h.n1 s hs).fields⟩⟩

/-- A file of records whose values are checked. -/
theorem carriedFile_of {enc : Enc} {fh fb ft : Fields} {g : Segs} {tr : Record} (hh : jsonFieldsB headerRecordStruct fh = true)
    (hb : jsonFieldsB baseSegmentStruct fb = true) (hg : Spec.CarriedSegs g) (htr : tr = .trailer enc ft)
    (ht : jsonFieldsB trailerRecordStruct ft = true) : Spec.CarriedFile ⟨enc, .header enc fh, [.base enc fb g], tr⟩ := by
  refine ⟨⟨enc, fh, rfl, jsonFields_of hh⟩, ?_, ⟨enc, ft, htr, jsonFields_of ht⟩⟩
  intro r hr
  simp only [List.mem_cons, List.not_mem_nil, or_false] at hr
  exact ⟨enc, fb, g, hr, jsonFields_of hb, hg⟩

theorem Samples.publishedFile_carried : Spec.CarriedFile (publishedFile .character) :=
  carriedFile_of (ft := publishedTrailer .character) (by decide +kernel) (by decide +kernel) (carriedSegs_of segs_json) rfl
    (by decide +kernel)

theorem Samples.publishedFile_valid : (publishedFile .character).validate = none := by decide +kernel

/-- C63 is violated. -/
theorem C63_violated : ¬ C63_statement := fun h =>
  C63_never _ publishedFile_carried publishedFile_valid (h _ publishedFile_carried publishedFile_valid)

/-- Case of `C63_never`. -/
example : Spec.CarriedFile (publishedFile .character) ∧ (publishedFile .character).validate = none :=
  ⟨publishedFile_carried, publishedFile_valid⟩

example : Spec.Conforms Spec.looseFileSchema (publishedFile .character).toJson :=
  C63_types_partial _ publishedFile_carried (by decide +kernel)

/-- Decidable form of `Spec.RowMet`. -/
def rowMetB (fs : Fields) (r : Spec.Row) : Bool :=
  match fs.lookup r.field with
  | none => !r.required
  | some v =>
    if r.omitted && emptyVal v then !r.required
    else match r.schema, v with
      | .text values, .str s => values.isEmpty || values.contains s
      | .date, .time t => t != Spec.noTime
      | .whole bits values, .int i => decide (-(2 ^ (bits - 1)) ≤ i) && decide (i < 2 ^ (bits - 1)) && (values.isEmpty || values.contains i)
      | _, _ => false

theorem rowMet_of {fs : Fields} {r : Spec.Row} (h : rowMetB fs r = true) : Spec.RowMet fs r := by
  unfold rowMetB at h
  unfold Spec.RowMet
  cases hl : fs.lookup r.field with
  | none => rw [hl] at h; simpa using h
  | some v =>
    rw [hl] at h
    simp only at h ⊢
    by_cases he : r.omitted = true ∧ Spec.Blank v
    · rw [if_pos (by rw [Bool.and_eq_true, blank_iff]; exact he)] at h
      exact ⟨fun _ => by simpa using h, fun hc => absurd he hc⟩
    · rw [if_neg (by rw [Bool.and_eq_true, blank_iff]; exact he)] at h
      refine ⟨fun hc => absurd hc he, fun _ => ?_⟩
      split at h
      · next values s => rw [‹r.schema = _›]; simpa [Spec.Meets] using h
      · next t => rw [‹r.schema = _›]; simpa [Spec.Meets] using h
      · next bits values i => rw [‹r.schema = _›]; simpa [Spec.Meets, and_assoc] using h
      · cases h

/-- A data record that the schema describes; it is not valid. -/
def Samples.publishedBase : Fields := base 600 596 [(.PaymentHistoryProfile, .str (b! "B")), (.GenerationCode, .str (b! "J")),
  (.AddressIndicator, .str (b! "C")), (.ResidenceCode, .str (b! "O")), (.DateFirstDelinquency, day 2002 8 20),
  (.DateClosed, day 2002 8 20)]

/-- C63_exact_partial: a file that conforms. -/
example : Spec.Conforms Spec.fileSchema (⟨.character, .header .character (header 600 596), [.base .character publishedBase {}],
    .trailer .character (trailer 596)⟩ : File).toJson := by
  rw [C63_exact_partial _ (carriedFile_of (ft := trailer 596) (by decide +kernel) (by decide +kernel)
    ⟨by simp, by simp, by simp, by simp, by simp, by simp, by simp, by simp⟩ rfl (by decide +kernel))]
  have h1 : Spec.headerRecordRows.all (rowMetB (header 600 596)) = true := by decide +kernel
  have h2 : Spec.baseSegmentRows.all (rowMetB publishedBase) = true := by decide +kernel
  have h3 : Spec.trailerRecordRows.all (rowMetB (trailer 596)) = true := by decide +kernel
  refine ⟨?_, ?_, ?_, by simp⟩
  · intro enc fs h; cases h; exact fun r hr => rowMet_of (List.all_eq_true.1 h1 r hr)
  · intro enc fs g h
    simp only [List.mem_cons, List.not_mem_nil, or_false] at h
    cases h
    exact ⟨fun r hr => rowMet_of (List.all_eq_true.1 h2 r hr), by simp [Spec.allSegs]⟩
  · intro enc fs h; cases h; exact fun r hr => rowMet_of (List.all_eq_true.1 h3 r hr)

/-! ### C64 -/

/-- C64 in full: every documented operation answers with a documented status, and with 200 if the request carries a valid file and asks for a
documented format. Violated, see `C64_violated`. -/
def C64_statement : Prop :=
  ∀ env r op, Spec.JsonBranch env → op ∈ Spec.operations → Spec.Asks r op →
    Spec.status env r ∈ op.statuses ∧
    (∀ f, Spec.CarriesFile env r f → f.validate = none → f.bases ≠ [] → Spec.formatParam r = [] ∨ Spec.formatParam r ∈ op.formats →
      Spec.status env r = 200)

/-- C64, the part that holds: /health, /validator and /convert answer only with documented statuses, /print does so for the formats that the code knows;
a valid file is answered with 200 if no format or `json` is asked for, and also for the undocumented `metro`. The full property has the documented
formats, among them `metro2`. -/
theorem C64_documented_partial (env : ServerEnv) (r : Request) (op : Spec.Operation) (hj : Spec.JsonBranch env)
    (hop : op ∈ Spec.operations) (ha : Spec.Asks r op) :
    (op.path = b! "/print" → ¬ ((∃ f, Spec.CarriesFile env r f) ∧ ¬ Spec.WantsMetro r ∧ ¬ Spec.WantsJson r) →
      Spec.status env r ∈ op.statuses) ∧
    (op.path ≠ b! "/print" → Spec.status env r ∈ op.statuses) ∧
    (∀ f, Spec.CarriesFile env r f → f.validate = none → f.bases ≠ [] → Spec.WantsJson r ∨ Spec.WantsMetro r →
      Spec.status env r = 200) := by
  obtain ⟨hm, hp⟩ := ha
  simp only [Spec.operations, List.mem_cons, List.not_mem_nil, or_false] at hop
  rcases hop with rfl | rfl | rfl | rfl
  · have h := ((C50_routes env r).1 ⟨hp, hm⟩).1
    exact ⟨fun hc => absurd hc (by decide), fun _ => by rw [h]; decide, fun _ _ _ _ _ => h⟩
  · have hpost : Spec.Post r "/print" := ⟨hm.trans (by decide +kernel), hp.trans (by decide +kernel)⟩
    obtain ⟨c1, c2, c3⟩ := C50_print env r hpost
    refine ⟨fun _ hn => ?_, fun hc => absurd rfl hc, fun f hf _ _ hw => c3.2 ⟨⟨f, hf⟩, hw.symm⟩⟩
    by_cases hf : ∃ f, Spec.CarriesFile env r f
    · have : Spec.WantsMetro r ∨ Spec.WantsJson r := by
        by_contra hc
        rw [not_or] at hc
        exact hn ⟨hf, hc⟩
      rw [c3.2 ⟨hf, this⟩]; decide
    · rw [c1.2 (fun f h => hf ⟨f, h⟩)]; decide
  · have hpost : Spec.Post r "/validator" := ⟨hm.trans (by decide +kernel), hp.trans (by decide +kernel)⟩
    obtain ⟨c1, c2, c3, -⟩ := C50_validator env r hpost
    refine ⟨fun hc => absurd hc (by decide), fun _ => ?_, fun f hf hv _ _ => c3.2 ⟨f, hf, hv⟩⟩
    by_cases hf : ∃ f, Spec.CarriesFile env r f
    · obtain ⟨f, hf⟩ := hf
      by_cases hv : f.validate = none
      · rw [c3.2 ⟨f, hf, hv⟩]; decide
      · rw [c2.2 ⟨f, hf, hv⟩]; decide
    · rw [c1.2 (fun f h => hf ⟨f, h⟩)]; decide
  · have hpost : Spec.Post r "/convert" := ⟨hm.trans (by decide +kernel), hp.trans (by decide +kernel)⟩
    obtain ⟨c1, c2, c3⟩ := C50_convert env hj r hpost
    refine ⟨fun hc => absurd hc (by decide), fun _ => ?_, fun f hf hv hb hw => c3.2 ⟨f, hf, fun h => hb h.2, hw.symm⟩⟩
    by_cases hf : ∃ f, Spec.CarriesFile env r f
    · obtain ⟨f, hf⟩ := hf
      by_cases hg : Spec.Says r "generate" "true" ∧ f.bases = []
      · rw [c2.2 ⟨f, hf, .inl hg⟩]; decide
      · by_cases hw : Spec.WantsMetro r ∨ Spec.WantsJson r
        · rw [c3.2 ⟨f, hf, hg, hw⟩]; decide
        · rw [not_or] at hw
          rw [c2.2 ⟨f, hf, .inr hw⟩]; decide
    · rw [c1.2 (fun f h => hf ⟨f, h⟩)]; decide

/-- The documented format `metro2` is refused with 501 by /print and /convert, whatever file the request carries. -/
theorem C64_metro2_refused (env : ServerEnv) (r : Request) (hj : Spec.JsonBranch env) (hp : Spec.Post r "/print" ∨ Spec.Post r "/convert")
    (f : File) (hf : Spec.CarriesFile env r f) (hm : Spec.formatParam r = b! "metro2") : Spec.status env r = 501 := by
  have h1 : ¬ Spec.WantsMetro r := by unfold Spec.WantsMetro; rw [hm]; decide +kernel
  have h2 : ¬ Spec.WantsJson r := by unfold Spec.WantsJson; rw [hm]; decide +kernel
  rcases hp with hp | hp
  · exact (C50_print env r hp).2.1.2 ⟨⟨f, hf⟩, h1, h2⟩
  · exact (C50_convert env hj r hp).2.1.2 ⟨f, hf, .inr ⟨h1, h2⟩⟩

/-- C64 is violated: 501 is no documented status of /print. -/
theorem C64_violated : ¬ C64_statement := by
  intro h
  have h1 := (h sampleEnv (sampleRequest "/print".toUTF8.data.toList (fixedFile.string true) (b! "format") (b! "metro2"))
    Spec.printOperation sampleEnv_json (by simp [Spec.operations]) ⟨rfl, by decide +kernel⟩).1
  rw [C64_metro2_refused sampleEnv _ sampleEnv_json (.inl (sample_post "/print" _ _ _)) _ (carries_sample _ _ _)
    (by decide +kernel)] at h1
  revert h1
  decide

/-- Case of `C64_documented_partial`. The request of `C64_metro2_refused` exists. -/
example : Spec.status sampleEnv (sampleRequest (b! "/convert") (fixedFile.string true) (b! "format") (b! "metro2")) = 501 :=
  C64_metro2_refused _ _ sampleEnv_json (.inr (sample_post "/convert" _ _ _)) _ (carries_sample _ _ _) (by decide +kernel)

end Metro2
