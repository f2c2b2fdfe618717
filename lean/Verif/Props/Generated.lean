import Verif.Lemmas.Generated
import Verif.Props.Own

/-! C92: files with a generated trailer are written, read again and checked. -/

namespace Metro2

open Samples

/-- The number of people that the fields of a trailer can count. -/
def Spec.room : Enc → Nat
  | .character => 10 ^ 9
  | .packed => 256 ^ 5

theorem body_bases {enc : Enc} {isVar : Bool} {f : File} (h : Spec.GoodBody enc isVar f) : ∀ r ∈ f.bases, Spec.IsBase f.format r := by
  intro r hr
  obtain ⟨fs, g, rfl, -⟩ := h.bases r hr
  rw [h.format]
  exact ⟨fs, g, rfl⟩

/-- C92. A well-formed header and at least one well-formed data record, as many as can be counted: a trailer is generated, accepted, and the
file is well-formed with it. -/
theorem C92_good (enc : Enc) (isVar : Bool) (f : File) (h : Spec.GoodBody enc isVar f) (hne : f.bases ≠ [])
    (hc : Spec.crowd f.bases < Spec.room enc) :
    ∃ t, f.generatorTrailer = .ok t ∧ f.setRecord t = ({ f with trailer := t }, none) ∧ Spec.GoodFile enc isVar { f with trailer := t } := by
  have hb := body_bases h
  have hf := h.format
  obtain ⟨fs, h1, h2, -, -⟩ := generated_good hb hne (by rw [hf]; cases enc <;> exact hc)
  obtain ⟨t, h3, h4⟩ := generated_accepted hb hne
  rw [h1] at h3
  cases h3
  refine ⟨_, h1, h4, h.format, h.header, h.bases, ⟨fs, ?_, ?_⟩⟩
  · rw [hf]
  · rw [hf] at h2
    exact h2

/-- Whether the file is valid with that trailer. -/
theorem generated_verdict {f : File} (hb : ∀ r ∈ f.bases, Spec.IsBase f.format r) (hne : f.bases ≠ []) {t : Record}
    (ht : f.generatorTrailer = .ok t) :
    ({ f with trailer := t } : File).validate = none ↔ f.header.validate = none ∧ ∀ r ∈ f.bases, r.validate = none := by
  obtain ⟨fs, h1, hv, h5⟩ := generated_trailer_valid hb hne
  rw [h1] at ht
  cases ht
  rw [C27_validate (f := { f with trailer := .trailer f.format fs }) hb]
  exact ⟨fun hh => ⟨hh.1, hh.2.2.1⟩, fun hh => ⟨hh.1, hv, hh.2, h5⟩⟩

/-- C92 for character files: the file with the generated trailer is read from its text, and is valid exactly if header and data records are.
Missing for the full property: packed files, see `C92_packed_iff`. -/
theorem C92_read_partial (isVar : Bool) (f : File) (h : Spec.GoodBody .character isVar f) (hne : f.bases ≠ [])
    (hc : Spec.crowd f.bases < 10 ^ 9) (t : Record) (ht : f.generatorTrailer = .ok t) (nl : Bool)
    (hj : ¬ Spec.EarlyBrace (({ f with trailer := t } : File).string nl)) (json : Bytes → Except Err File) (p : Plan) (hp : p.Progress) :
    ∃ g, newFileFromReader json p (({ f with trailer := t } : File).string nl) false = .ok g ∧ g = { f with trailer := t } ∧
      (g.validate = none ↔ f.header.validate = none ∧ ∀ r ∈ f.bases, r.validate = none) := by
  obtain ⟨t', h1, -, h3⟩ := C92_good .character isVar f h hne hc
  rw [h1] at ht
  cases ht
  exact ⟨_, C41_read isVar _ h3 nl hj json p hp, rfl, generated_verdict (body_bases h) hne h1⟩

/-- C92 for packed files, exactly: the file with the generated trailer is read from its text if and only if header and data records contain no
CR and no LF byte, and no byte of a total is one. -/
theorem C92_packed_iff (f : File) (h : Spec.GoodBody .packed true f) (hne : f.bases ≠ [])
    (hc : Spec.crowd f.bases < 256 ^ 5) (t : Record) (ht : f.generatorTrailer = .ok t) (nl : Bool)
    (hj : ¬ Spec.EarlyBrace (({ f with trailer := t } : File).string nl)) (json : Bytes → Except Err File) (p : Plan) (hp : p.Progress) :
    newFileFromReader json p (({ f with trailer := t } : File).string nl) false = .ok { f with trailer := t } ↔
      Spec.NoBreaks f.header.string ∧ (∀ r ∈ f.bases, Spec.NoBreaks r.string) ∧ ∀ k ∈ Spec.totals, Spec.NoBreakBytes (Spec.total k f.bases) := by
  have hb := body_bases h
  have hf := h.format
  obtain ⟨t', h1, -, h3⟩ := C92_good .packed true f h hne hc
  obtain ⟨fs, g1, g2, g3, g4⟩ := generated_good hb hne (by rw [hf]; exact hc)
  rw [h1] at ht
  cases ht
  rw [h1] at g1
  cases g1
  rw [C42_iff _ h3 nl hj json p hp]
  have hr : (Record.trailer f.format fs).string = (Record.trailer .packed fs).string := by rw [hf]
  rw [hf] at g2
  have g4 : fs.get .RecordDescriptorWord = some (.int 366) := by rw [g4, hf]; rfl
  have key := trailer_noBreaks g2 g3 g4
  simp only [Spec.recordTexts, List.mem_append, List.mem_cons, List.not_mem_nil, or_false, List.mem_map]
  constructor
  · intro hh
    refine ⟨hh _ (.inl (.inl rfl)), fun r hr => hh _ (.inl (.inr ⟨r, hr, rfl⟩)), ?_⟩
    exact key.1 (hr ▸ hh _ (.inr rfl))
  · rintro ⟨k1, k2, k3⟩ s ((rfl | ⟨r, hr', rfl⟩) | rfl)
    · exact k1
    · exact k2 r hr'
    · rw [hr]
      exact key.2 k3

/-- C92 fails by the mere number of data records: with 8, 10, 11 or 13 of them a packed file with a generated trailer is not read as it was
written, whatever it contains. (A total or the block count has a byte 10 or 13.) -/
theorem C92_numbers (f : File) (h : Spec.GoodBody .packed true f) (hn : f.bases.length ∈ [8, 10, 11, 13])
    (hc : Spec.crowd f.bases < 256 ^ 5) (t : Record) (ht : f.generatorTrailer = .ok t) (nl : Bool)
    (hj : ¬ Spec.EarlyBrace (({ f with trailer := t } : File).string nl)) (json : Bytes → Except Err File) (p : Plan) (hp : p.Progress) :
    newFileFromReader json p (({ f with trailer := t } : File).string nl) false ≠ .ok { f with trailer := t } := by
  intro hh
  have hne : f.bases ≠ [] := by
    intro h0
    rw [h0] at hn
    simp at hn
  have := ((C92_packed_iff f h hne hc t ht nl hj json p hp).1 hh).2.2
  have h1 := this .TotalBaseRecords (by decide +kernel) 0 (by decide)
  have h2 := this .BlockCount (by decide +kernel) 0 (by decide)
  have hb := total_baseRecords (body_bases h)
  rw [hb.1] at h1
  rw [hb.2] at h2
  simp only [List.mem_cons, List.not_mem_nil, or_false] at hn
  rcases hn with hn | hn | hn | hn <;> rw [hn] at h1 h2 <;> omega

/-- C92, in the service: a character file is sent to `/convert` with `generate=true`, and what is answered is sent to `/validator`. The second
answer is 200 if header and data records are valid, and 501 if not, whatever the trailer was. -/
theorem C92_service_partial (jenv : JsonEnv) (visits : Nat → List (Bytes × Json) → List (Bytes × Json)) (errText : Err → Bytes) (plan : Plan)
    (hp : plan.Progress) (r r' : Request) (isVar : Bool) (f : File) (h : Spec.GoodBody .character isVar f) (hne : f.bases ≠ [])
    (hc : Spec.crowd f.bases < 10 ^ 9) (hr : Spec.Post r "/convert") (hcf : Spec.CarriesFile (serverEnv jenv visits errText plan) r f)
    (hg : Spec.Says r "generate" "true") (hty : r.form "type".toUTF8.data.toList = []) (hw : Spec.WantsMetro r)
    (hj : ¬ Spec.EarlyBrace (Spec.body (serverEnv jenv visits errText plan) r))
    (hr' : Spec.Post r' "/validator") (hc' : Spec.Carries r' (Spec.body (serverEnv jenv visits errText plan) r) false) :
    Spec.status (serverEnv jenv visits errText plan) r = 200 ∧
    (Spec.status (serverEnv jenv visits errText plan) r' = 200 ↔ f.header.validate = none ∧ ∀ r ∈ f.bases, r.validate = none) ∧
    (Spec.status (serverEnv jenv visits errText plan) r' = 501 ↔ ¬ (f.header.validate = none ∧ ∀ r ∈ f.bases, r.validate = none)) := by
  have hE : Spec.JsonBranch (serverEnv jenv visits errText plan) := serverEnv_json jenv visits errText plan
  obtain ⟨t, h1, -, -⟩ := C92_good .character isVar f h hne hc
  have hne' : ¬ (Spec.Says r "generate" "true" ∧ f.bases = []) := fun hh => hne hh.2
  have hb := (C50_convert_body _ hE r hr f { f with trailer := t } { f with trailer := t } hcf hne' (.inl ⟨hg, t, h1, rfl⟩)
    (.inr (.inr ⟨by rw [hty]; decide +kernel, by rw [hty]; decide +kernel, rfl⟩))).2 hw (getIsNewLine r) ((sameLines_iff r _).2 rfl)
  rw [hb] at hj hc'
  obtain ⟨g, k1, rfl, k3⟩ := C92_read_partial isVar f h hne hc t h1 (getIsNewLine r) hj (serverEnv jenv visits errText plan).json plan hp
  have hcg : Spec.CarriesFile (serverEnv jenv visits errText plan) r' { f with trailer := t } := ⟨_, _, hc', k1⟩
  have huniq : ∀ g, Spec.CarriesFile (serverEnv jenv visits errText plan) r' g → g = { f with trailer := t } := by
    rintro g ⟨data, broken, hd, hh⟩
    obtain ⟨rfl, rfl⟩ := carries_same hc' hd
    exact (Except.ok.inj (hh.symm.trans k1))
  obtain ⟨-, v2, v3, -⟩ := C50_validator (serverEnv jenv visits errText plan) r' hr'
  refine ⟨(C50_convert _ hE r hr).2.2.2 ⟨f, hcf, hne', .inl hw⟩, ?_, ?_⟩
  · rw [v3, ← k3]
    exact ⟨fun ⟨g, hg, hv⟩ => huniq g hg ▸ hv, fun hv => ⟨_, hcg, hv⟩⟩
  · rw [v2, ← k3]
    exact ⟨fun ⟨g, hg, hv⟩ => huniq g hg ▸ hv, fun hv => ⟨_, hcg, hv⟩⟩

/-! ### Examples -/

theorem goodBody_of {enc : Enc} {isVar : Bool} {f : File} (h : Spec.GoodFile enc isVar f) : Spec.GoodBody enc isVar f :=
  ⟨h.format, h.header, h.bases⟩

namespace Samples

/-- A packed file with `n` data records and a trailer without totals. -/
def manyFile (n : Nat) : File :=
  ⟨.packed, .header .packed (header 370 366), List.replicate n (.base .packed (base 370 366) {}), newTrailer .packed⟩

/-- The same with the generated trailer. -/
def manyClosed (n : Nat) : File :=
  match (manyFile n).generatorTrailer with
  | .ok t => { manyFile n with trailer := t }
  | .error _ => manyFile n

end Samples

instance (n : Nat) : Decidable (Spec.NoBreakBytes n) := by unfold Spec.NoBreakBytes; infer_instance

theorem manyFile_body (n : Nat) : Spec.GoodBody .packed true (manyFile n) := by
  refine ⟨rfl, packedFile_good.header, fun r hr => ?_⟩
  have : r = .base .packed (base 370 366) {} := List.eq_of_mem_replicate hr
  subst this
  exact packedFile_good.bases _ List.mem_cons_self

/-- Non-vacuity of `C92_good`, `C92_packed_iff` and `C92_numbers`: files with nine and with eight data records. -/
theorem manyClosed_read (nl : Bool) (json : Bytes → Except Err File) (p : Plan) (hp : p.Progress) :
    newFileFromReader json p ((manyClosed 9).string nl) false = .ok (manyClosed 9) ∧
    newFileFromReader json p ((manyClosed 8).string nl) false ≠ .ok (manyClosed 8) := by
  obtain ⟨t9, h9, -, -⟩ := C92_good .packed true (manyFile 9) (manyFile_body 9) (by decide) (by decide +kernel)
  obtain ⟨t8, h8, -, -⟩ := C92_good .packed true (manyFile 8) (manyFile_body 8) (by decide) (by decide +kernel)
  have e9 : manyClosed 9 = { manyFile 9 with trailer := t9 } := by unfold manyClosed; rw [h9]
  have e8 : manyClosed 8 = { manyFile 8 with trailer := t8 } := by unfold manyClosed; rw [h8]
  have hj9 : ¬ Spec.EarlyBrace ((manyClosed 9).string nl) := by cases nl <;> decide +kernel
  have hj8 : ¬ Spec.EarlyBrace ((manyClosed 8).string nl) := by cases nl <;> decide +kernel
  rw [e9] at hj9 ⊢
  rw [e8] at hj8 ⊢
  refine ⟨(C92_packed_iff (manyFile 9) (manyFile_body 9) (by decide) (by decide +kernel) t9 h9 nl hj9 json p hp).2
    ⟨by decide +kernel, by decide +kernel, by decide +kernel⟩,
    C92_numbers (manyFile 8) (manyFile_body 8) (by decide) (by decide +kernel) t8 h8 nl hj8 json p hp⟩

/-- C92 is violated: a packed file with eight data records, all valid. The generated trailer is accepted and makes the file valid, but the text of
the file is refused. -/
theorem C92_violated : ∃ f t, Spec.GoodBody .packed true f ∧ f.bases.length = 8 ∧ f.generatorTrailer = .ok t ∧
    f.setRecord t = ({ f with trailer := t }, none) ∧ ({ f with trailer := t } : File).validate = none ∧
    ∀ (nl : Bool) (json : Bytes → Except Err File) (p : Plan), p.Progress →
      ∃ e, newFileFromReader json p (({ f with trailer := t } : File).string nl) false = .error e := by
  obtain ⟨t, h1, h2, -⟩ := C92_good .packed true (manyFile 8) (manyFile_body 8) (by decide) (by decide +kernel)
  have e8 : manyClosed 8 = { manyFile 8 with trailer := t } := by unfold manyClosed; rw [h1]
  refine ⟨manyFile 8, t, manyFile_body 8, rfl, h1, h2,
    (generated_verdict (body_bases (manyFile_body 8)) (by decide) h1).2 ⟨by decide +kernel, by decide +kernel⟩, fun nl json p hp => ?_⟩
  rw [← e8, newFile_raw json p (by cases nl <;> decide +kernel) (by cases nl <;> decide +kernel), readFile_delivery hp atOnce_progress]
  cases nl
  · exact ⟨_, (by decide +kernel : readFile atOnce ((manyClosed 8).string false) = .error .invalidSegment)⟩
  · exact ⟨_, (by decide +kernel : readFile atOnce ((manyClosed 8).string true) = .error .invalidSegment)⟩

namespace Samples

/-- A request that asks for a generated trailer and Metro 2. -/
def closing (text : Bytes) : Request :=
  ⟨b! "POST", b! "/convert", b! "application/octet-stream", text, false, none, fun _ => [],
    fun k => if k = b! "generate" then b! "true" else if k = b! "format" then b! "metro" else []⟩

/-- A file with one data record and wrong totals. -/
def openFile : File := fileOf .character (header 0 426) [(base 0 426, {})] (trailer 426)

end Samples

/-- Non-vacuity of `C92_read_partial` and `C92_service_partial`: what was refused by the validator is accepted after it went through the conversion. -/
example : Spec.status textEnv (sampleRequest (b! "/validator") (openFile.string true) [] []) = 501 ∧
    Spec.status textEnv (sampleRequest (b! "/validator") (Spec.body textEnv (closing (openFile.string true))) [] []) = 200 := by
  have hgood : Spec.GoodFile .character false openFile := by
    refine (C90_fixed openFile (by decide +kernel) (by decide +kernel) true (by decide +kernel) (fun _ => .error .io) atOnce atOnce_progress).1
      (read_of_atOnce (by decide +kernel) (by decide +kernel) (by decide +kernel) _ atOnce_progress)
  have hread : newFileFromReader textEnv.json textEnv.plan (openFile.string true) false = .ok openFile :=
    C41_read false _ hgood true (by decide +kernel) _ _ slow_progress
  have hE : Spec.JsonBranch textEnv := serverEnv_json isoEnv backwards (fun _ => []) slow
  have hc : Spec.Carries (closing (openFile.string true)) (openFile.string true) false := by
    refine .body fun h => ?_
    have := (multipart_iff _).1 h
    exact absurd this (by rw [show (closing (openFile.string true)).contentType = b! "application/octet-stream" from rfl]; decide +kernel)
  have hs : Spec.Says (closing (openFile.string true)) "generate" "true" := by
    rw [says_iff _ _ _ (by decide +kernel)]
    decide +kernel
  obtain ⟨t, h1, -, -⟩ := C92_good .character false openFile (goodBody_of hgood) (by decide) (by decide +kernel)
  have hbody := (C50_convert_body textEnv hE (closing (openFile.string true)) ⟨rfl, rfl⟩ openFile { openFile with trailer := t }
    { openFile with trailer := t } ⟨_, _, hc, hread⟩ (by simp [openFile, fileOf]) (.inl ⟨hs, t, h1, rfl⟩)
    (.inr (.inr ⟨by decide +kernel, by decide +kernel, rfl⟩))).2 rfl true (by rw [sameLines_iff]; decide +kernel)
  have hj : ¬ Spec.EarlyBrace (Spec.body textEnv (closing (openFile.string true))) := by
    rw [hbody]
    have : ∀ t, openFile.generatorTrailer = .ok t → ¬ Spec.EarlyBrace (({ openFile with trailer := t } : File).string true) := by
      intro t ht
      have e : openFile.generatorTrailer.toOption.map (fun t => decide (Spec.EarlyBrace (({ openFile with trailer := t } : File).string true))) =
        some false := by decide +kernel
      rw [ht] at e
      simpa [Except.toOption] using e
    exact this t h1
  refine ⟨(C50_validator textEnv _ (sample_post "/validator" _ _ _)).2.1.2 ⟨openFile, ⟨_, _, sample_carries _ _ _ _, hread⟩, by decide +kernel⟩, ?_⟩
  exact (C92_service_partial isoEnv backwards (fun _ => []) slow slow_progress (closing (openFile.string true)) _ false openFile (goodBody_of hgood)
    (by decide) (by decide +kernel) ⟨rfl, rfl⟩ ⟨_, _, hc, hread⟩ hs rfl rfl hj (sample_post "/validator" _ _ _) (sample_carries _ _ _ _)).2.1.2
    ⟨by decide +kernel, by decide +kernel⟩

/-- Cases of `C92_packed_iff` and `C92_numbers`. -/
example : Spec.GoodBody .packed true (manyFile 9) ∧ Spec.GoodBody .packed true (manyFile 8) ∧ (manyFile 8).bases.length = 8 ∧
    Spec.crowd (manyFile 9).bases < 256 ^ 5 :=
  ⟨manyFile_body 9, manyFile_body 8, rfl, by decide +kernel⟩

end Metro2
