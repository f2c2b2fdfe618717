import Verif.Lemmas.Own
import Verif.Props.Again

/-!
C90: exactly which files come back from their own text. C91: what becomes of packed files in the character format.
-/

namespace Metro2

open Samples

/-- C90. A file whose records have the length that they announce, and whose trailer has its name: it is read from its own text exactly if it is
well-formed and its records contain no CR and no LF byte. -/
theorem C90_iff (f : File) (hm : Spec.Measured f) (ht : (.RecordIdentifier, .str "TRAILER".toUTF8.data.toList) ∈ Spec.valuesOf f.trailer)
    (nl : Bool) (hj : ¬ Spec.EarlyBrace (f.string nl)) (json : Bytes → Except Err File) (p : Plan) (hp : p.Progress) :
    newFileFromReader json p (f.string nl) false = .ok f ↔
      Spec.GoodFile f.format (Spec.isBlocked f) f ∧ ∀ t ∈ Spec.recordTexts f, Spec.NoBreaks t := by
  constructor
  · intro h
    have hw := wasRead_of_ok hp hj h
    have hr := ((C89_iff json json p p hp hp _ f hj h hm nl hj).1 h).1
    exact ⟨hw.good hm hr ht, fun t h => (hw.texts hm t h).noBreaks⟩
  · rintro ⟨hg, hb⟩
    exact raw_read hg nl (fun _ => hb) hj json hp

/-- C90. Without a block descriptor in the header nothing has to be supposed about lengths: the well-formed fixed-blocked character files. -/
theorem C90_fixed (f : File) (hb : Spec.bdw (Spec.valuesOf f.header) = 0)
    (ht : (.RecordIdentifier, .str "TRAILER".toUTF8.data.toList) ∈ Spec.valuesOf f.trailer)
    (nl : Bool) (hj : ¬ Spec.EarlyBrace (f.string nl)) (json : Bytes → Except Err File) (p : Plan) (hp : p.Progress) :
    newFileFromReader json p (f.string nl) false = .ok f ↔ Spec.GoodFile .character false f := by
  constructor
  · intro h
    have hv : Spec.isBlocked f = false := by simp [Spec.isBlocked, hb]
    have hw := wasRead_of_ok hp hj h
    rw [hv] at hw
    have hg := ((C90_iff f hw.measured ht nl hj json p hp).1 h).1
    rw [hv] at hg
    have hc : f.format = .character := by
      obtain ⟨fs, -, hh⟩ := hg.header
      cases he : f.format with
      | character => rfl
      | packed => exact absurd (hh.packed he) (by simp)
    rwa [hc] at hg
  · intro hg
    exact C41_read false f hg nl hj json p hp

/-- C90. Whatever Metro 2 text it is read from: every record of a file that was read announces a length that its format allows. -/
theorem C90_announced (data : Bytes) (hj : ¬ Spec.EarlyBrace data) (json : Bytes → Except Err File) (p : Plan) (hp : p.Progress) (f : File)
    (h : newFileFromReader json p data false = .ok f) : ∀ r ∈ Spec.allRecords f,
      (Spec.recordLength f.format : Int) ≤ Spec.announced r ∧ Spec.announced r ≤ Spec.wordMax f.format := by
  intro r hr
  have := (wasRead_of_ok hp hj h).announced_ge r hr
  rw [wordMax_eq, show Spec.recordLength f.format = f.format.recordLength by cases f.format <;> rfl]
  exact this

/-! ### Packed files in the character format -/

theorem good_uniform {enc : Enc} {isVar : Bool} {f : File} (h : Spec.GoodFile enc isVar f) : Spec.Uniform f := by
  obtain ⟨h0, ⟨hfs, h1, hh⟩, hbs, ⟨tfs, h2, htr⟩⟩ := h
  refine ⟨⟨hfs, by rw [h0]; exact h1⟩, ?_, ⟨tfs, by rw [h0]; exact h2⟩⟩
  intro r hr
  obtain ⟨fs, g, rfl, -⟩ := hbs r hr
  rw [h0]
  exact ⟨fs, g, rfl⟩

theorem toCharacter {f : File} (h : Spec.GoodFile .packed true f) : f.setType "character".toUTF8.data.toList =
    (⟨.character, Spec.inFormat .character f.header, f.bases.map (Spec.inFormat .character), Spec.inFormat .character f.trailer⟩, none) := by
  have hset := C33_setType (good_uniform h) .character
  rwa [show Enc.character.name = "character".toUTF8.data.toList from by decide +kernel] at hset

theorem announced_inFormat (enc : Enc) (r : Record) : Spec.announced (Spec.inFormat enc r) = Spec.announced r := by
  cases r <;> rfl

/-- C91. A packed file with a record that announces less than 426 bytes, as every record without much padding does: it can be turned into the
character format, but no text whatsoever is read as the result. -/
theorem C91_never (f : File) (h : Spec.GoodFile .packed true f) (r : Record) (hr : r ∈ Spec.allRecords f)
    (hs : Spec.announced r < 426) : (f.setType "character".toUTF8.data.toList).2 = none ∧
    ∀ data, ¬ Spec.EarlyBrace data → ∀ json p, p.Progress →
      newFileFromReader json p data false ≠ .ok (f.setType "character".toUTF8.data.toList).1 := by
  rw [toCharacter h]
  refine ⟨rfl, fun data hj json p hp hh => ?_⟩
  have := (C90_announced data hj json p hp _ hh (Spec.inFormat .character r) ?_).1
  · rw [announced_inFormat] at this
    have e : Spec.recordLength .character = 426 := rfl
    simp only [e] at this
    omega
  · simp only [Spec.allRecords, List.mem_cons, List.mem_append, List.not_mem_nil, or_false] at hr ⊢
    rcases hr with rfl | hr | rfl
    · exact .inl rfl
    · exact .inr (.inl (List.mem_map_of_mem hr))
    · exact .inr (.inr rfl)

/-- C91. If the converted records have the lengths that they announce: the converted file comes back exactly if it is well-formed in the
character format. -/
theorem C91_iff (f : File) (h : Spec.GoodFile .packed true f) (hm : Spec.Measured (f.setType "character".toUTF8.data.toList).1) (nl : Bool)
    (hj : ¬ Spec.EarlyBrace ((f.setType "character".toUTF8.data.toList).1.string nl)) (json : Bytes → Except Err File) (p : Plan)
    (hp : p.Progress) :
    newFileFromReader json p ((f.setType "character".toUTF8.data.toList).1.string nl) false = .ok (f.setType "character".toUTF8.data.toList).1 ↔
      Spec.GoodFile .character true (f.setType "character".toUTF8.data.toList).1 := by
  rw [toCharacter h] at hm hj ⊢
  obtain ⟨tfs, h2, htr⟩ := h.trailer
  obtain ⟨fs, h1, hh⟩ := h.header
  have hv : Spec.isBlocked ⟨.character, Spec.inFormat .character f.header, f.bases.map (Spec.inFormat .character),
      Spec.inFormat .character f.trailer⟩ = true := by
    have hb := hh.bdw
    simp only [if_true] at hb
    simp only [Spec.isBlocked, h1, Spec.inFormat]
    have : Spec.bdw (Spec.valuesOf (.header .character fs)) = Spec.bdw fs := rfl
    rw [this]
    simp only [decide_eq_true_eq]
    omega
  rw [C90_iff _ hm (by simp only [h2]; exact htr.ident) nl hj json p hp, hv]
  exact ⟨fun hh => hh.1, fun hg => ⟨hg, goodFile_noBreaks hg⟩⟩

/-- C91, what holds: a packed file whose records are well-formed in the character format too can be taken to it and read. Missing for the full
property: the files that are not, see `C91_violated`. -/
theorem C91_converted_partial (f : File) (h : Spec.GoodFile .packed true f)
    (hc : Spec.GoodFile .character true (f.setType "character".toUTF8.data.toList).1) (nl : Bool)
    (hj : ¬ Spec.EarlyBrace ((f.setType "character".toUTF8.data.toList).1.string nl)) (json : Bytes → Except Err File) (p : Plan)
    (hp : p.Progress) :
    newFileFromReader json p ((f.setType "character".toUTF8.data.toList).1.string nl) false =
      .ok (f.setType "character".toUTF8.data.toList).1 :=
  (C91_iff f h (goodFile_measured hc) nl hj json p hp).2 hc

/-- Nothing is found in a text that begins with too small a number. -/
theorem readFile_small {p : Plan} (hp : p.Progress) {v : Int} (h0 : 0 ≤ v) (h1 : v < 426) (Y : Bytes) :
    readFile p (firstWord .character v ++ Y) = .error .invalidSegment := by
  have hsmall : scanSize (firstWord .character v) = none := by
    unfold scanSize
    have : parseIntBits 32 (firstWord .character v) = .ok v := by
      rw [parseIntBits_ok_iff]
      refine ⟨⟨decDigits 4 v.toNat, v.toNat, ?_, ?_, .inl ⟨?_, by omega⟩⟩, by omega, by omega⟩
      · intro h
        have := length_decDigits 4 v.toNat
        rw [h] at this
        simp at this
      · rw [spec_decimal_iff]
        exact ⟨decDigits_all 4 _, digitsVal_decDigits_of_lt (by omega)⟩
      · simp [firstWord]
    rw [this]
    simp only
    rw [if_pos h1]
  have hnb : Spec.withoutBreaks (firstWord .character v) = firstWord .character v := by
    apply withoutBreaks_of_noBreaks
    intro c hc
    have := decDigits_all 4 v.toNat c (by simpa [firstWord] using hc)
    constructor <;> rintro rfl <;> revert this <;> decide
  rw [readFile_lines hp (ps := [])]
  · rfl
  · refine .nil fun a b hab hpc => ?_
    obtain ⟨q1, q2, -⟩ := hpc
    have hal : 4 ≤ a.length := by
      have : (Spec.withoutBreaks a).length ≤ a.length := List.length_filter_le _ _
      omega
    have ha : a = firstWord .character v ++ a.drop 4 := by
      have e := congrArg (List.take 4) hab
      rw [List.take_append_of_le_length (by rw [firstWord_length]), List.take_of_length_le (by rw [firstWord_length]),
        List.take_append_of_le_length hal] at e
      rw [e, List.take_append_drop]
    rw [ha, withoutBreaks_append, hnb, List.take_append_of_le_length (by rw [firstWord_length]),
      List.take_of_length_le (by rw [firstWord_length]), ← scanSize_iff (firstWord_length _ _), hsmall] at q2
    cases q2

/-- C91. If it is the header that announces less than 426 bytes, the text written in the character format is refused. -/
theorem C91_refused (f : File) (h : Spec.GoodFile .packed true f) (hs : Spec.announced f.header < 426) (nl : Bool)
    (json : Bytes → Except Err File) (hr : Spec.RejectsRaw json) (p : Plan) (hp : p.Progress) :
    ∃ e, newFileFromReader json p ((f.setType "character".toUTF8.data.toList).1.string nl) false = .error e := by
  rw [toCharacter h]
  obtain ⟨fs, h1, hh⟩ := h.header
  have hb := hh.bdw
  simp only [if_true] at hb
  rw [h1, sizeWord_announced (r := .header .packed fs) (enc := .packed) rfl hh.bdw] at hs
  have hs : Spec.bdw fs < 426 := hs
  rw [File.string_eq]
  simp only [Spec.recordTexts, List.cons_append, List.nil_append]
  rw [joinRecords_cons, h1, Spec.inFormat, Record.string, padTo, (layout_header .character).text,
    (blocked_header .character).bdwText hh.typed]
  have e : toStr (bdwField .character) (some (.int (fs.int .BlockDescriptorWord))) = firstWord .character (Spec.bdw fs) :=
    by
    have hi : fs.int .BlockDescriptorWord = Spec.bdw fs := rfl
    exact toStr_bdw hb.1 (by simp only [wordMax]; omega)
  rw [e]
  simp only [List.append_assoc]
  generalize hY : (mainText _ _ ++ _ : Bytes) = Y
  by_cases hj : Spec.EarlyBrace (firstWord .character (Spec.bdw fs) ++ Y)
  · rw [newFile_json json p hj]
    obtain ⟨a, b, c, d, e1, -, -⟩ := firstWord_cases .character (Spec.bdw fs)
    have hd := decDigits_all 4 (Spec.bdw fs).toNat a (by
      have : firstWord .character (Spec.bdw fs) = decDigits 4 (Spec.bdw fs).toNat := rfl
      rw [← this, e1]
      simp)
    rw [e1]
    rw [isDigit_iff] at hd
    exact hr.1 _ _ hd.1 hd.2
  · rw [newFile_raw json p ?_ hj, readFile_small hp (by omega) hs]
    · exact ⟨_, rfl⟩
    · intro hn
      have := congrArg List.length (List.append_eq_nil_iff.1 hn).1
      rw [firstWord_length] at this
      simp at this

theorem carries_same {r : Request} {d d' : Bytes} {b b' : Bool} (h : Spec.Carries r d b) (h' : Spec.Carries r d' b') : d = d' ∧ b = b' := by
  cases h with
  | part h1 h2 =>
    cases h' with
    | part h3 h4 =>
      rw [h2] at h4
      exact ⟨by cases h4; rfl, by cases h4; rfl⟩
    | body h3 => exact absurd h1 h3
  | body h1 =>
    cases h' with
    | part h3 h4 => exact absurd h3 h1
    | body h3 => exact ⟨rfl, rfl⟩

/-- The three paths that take a file. -/
def Spec.TakesFile (r : Request) : Prop := Spec.Post r "/print" ∨ Spec.Post r "/validator" ∨ Spec.Post r "/convert"

/-- C91, in the service: such a file is sent to `/convert` and asked for in the character format, and the answer has the status 200. What is
answered is refused with the status 400 on every path. -/
theorem C91_service (jenv : JsonEnv) (visits : Nat → List (Bytes × Json) → List (Bytes × Json)) (errText : Err → Bytes) (plan : Plan) (hp : plan.Progress) (r r' : Request) (f : File)
    (h : Spec.GoodFile .packed true f) (hs : Spec.announced f.header < 426)
    (hr : Spec.Post r "/convert") (hc : Spec.CarriesFile (serverEnv jenv visits errText plan) r f)
    (hg : ¬ Spec.Says r "generate" "true") (ht : r.form "type".toUTF8.data.toList = "character".toUTF8.data.toList) (hw : Spec.WantsMetro r)
    (hr' : Spec.TakesFile r') (hc' : Spec.Carries r' (Spec.body (serverEnv jenv visits errText plan) r) false) :
    Spec.status (serverEnv jenv visits errText plan) r = 200 ∧ Spec.status (serverEnv jenv visits errText plan) r' = 400 := by
  have hE : Spec.JsonBranch (serverEnv jenv visits errText plan) := serverEnv_json jenv visits errText plan
  have hne : ¬ (Spec.Says r "generate" "true" ∧ f.bases = []) := fun hh => hg hh.1
  have hb := (C50_convert_body _ hE r hr f f (Spec.fileIn .character f) hc hne (.inr ⟨hg, rfl⟩) (.inl ⟨ht, rfl⟩)).2 hw
    (getIsNewLine r) ((sameLines_iff r _).2 rfl)
  refine ⟨(C50_convert _ hE r hr).2.2.2 ⟨f, hc, hne, .inl hw⟩, ?_⟩
  rw [hb] at hc'
  have hno : ∀ g, ¬ Spec.CarriesFile (serverEnv jenv visits errText plan) r' g := by
    rintro g ⟨data, broken, hd, hh⟩
    obtain ⟨rfl, rfl⟩ := carries_same hc' hd
    obtain ⟨e, he⟩ := C91_refused f h hs (getIsNewLine r) _ (C67_rejects_raw jenv visits) plan hp
    rw [toCharacter h] at he
    exact absurd (he.symm.trans hh) (by simp)
  rcases hr' with hr' | hr' | hr'
  · exact (C50_print _ r' hr').1.2 hno
  · exact (C50_validator _ r' hr').1.2 hno
  · exact (C50_convert _ hE r' hr').1.2 hno

/-! ### Examples -/

/-- Case of `C90_announced`. Non-vacuity: both sides of `C90_iff` and of `C90_fixed` hold for the sample files, ... -/
example (json : Bytes → Except Err File) (p : Plan) (hp : p.Progress) :
    newFileFromReader json p (packedFile.string true) false = .ok packedFile ∧
    Spec.GoodFile .character false (creditFile 0 5) :=
  ⟨(C90_iff packedFile (goodFile_measured packedFile_good) (by decide +kernel) true (packedFile_noBrace true) json p hp).2
    ⟨packedFile_good, packedFile_noBreaks⟩,
   (C90_fixed (creditFile 0 5) (by decide +kernel) (by decide +kernel) true (by decide +kernel) json p hp).1
    (read_of_atOnce (by decide +kernel) (by decide +kernel) (by decide +kernel) json hp)⟩

/-- ... and neither for a file with a negative number. -/
example : ¬ Spec.GoodFile .character false (creditFile 0 (-5)) := by
  intro h
  have := (C90_fixed (creditFile 0 (-5)) (by decide +kernel) (by decide +kernel) true (by decide +kernel) (fun _ => .error .io) atOnce
    atOnce_progress).2 h
  rw [newFile_raw _ _ (by decide +kernel) (by decide +kernel),
    show readFile atOnce ((creditFile 0 (-5)).string true) = .error (.numeric .TotalStatusCodeDF) by decide +kernel] at this
  cases this

/-- C91, the full statement, that a well-formed packed file can be taken to the character format and read again, is violated. -/
theorem C91_violated : ∃ f, Spec.GoodFile .packed true f ∧ (∀ t ∈ Spec.recordTexts f, Spec.NoBreaks t) ∧
    (f.setType "character".toUTF8.data.toList).2 = none ∧
    ∀ nl json p, Spec.RejectsRaw json → p.Progress →
      ∃ e, newFileFromReader json p ((f.setType "character".toUTF8.data.toList).1.string nl) false = .error e :=
  ⟨packedFile, packedFile_good, packedFile_noBreaks, by rw [toCharacter packedFile_good],
    fun nl json p hr hp => C91_refused packedFile packedFile_good (by decide +kernel) nl json hr p hp⟩

/-- The same with `C91_never`: the trailer announces less than 426 bytes. -/
example (data : Bytes) (hj : ¬ Spec.EarlyBrace data) (json : Bytes → Except Err File) (p : Plan) (hp : p.Progress) :
    newFileFromReader json p data false ≠ .ok (packedFile.setType "character".toUTF8.data.toList).1 :=
  (C91_never packedFile packedFile_good packedFile.trailer (by simp [Spec.allRecords]) (by decide +kernel)).2 data hj json p hp

/-- Case of `C91_iff`. A packed file that comes back from the character format: one that came from there. -/
example (nl : Bool) (json : Bytes → Except Err File) (p : Plan) (hp : p.Progress) :
    newFileFromReader json p (((variableFile.setType "packed".toUTF8.data.toList).1.setType "character".toUTF8.data.toList).1.string nl) false =
      .ok variableFile := by
  have hs : variableFile.setType "packed".toUTF8.data.toList = (Spec.fileIn .packed variableFile, none) := by
    have := C33_setType (good_uniform variableFile_good) .packed
    rwa [show Enc.packed.name = "packed".toUTF8.data.toList from by decide +kernel] at this
  have hg : Spec.GoodFile .packed true (Spec.fileIn .packed variableFile) :=
    goodFile_convert variableFile_good (fun r hr => noNegative_of (by revert r hr; decide +kernel)) (by decide +kernel)
  have hb : (Spec.fileIn .packed variableFile).setType "character".toUTF8.data.toList = (variableFile, none) := by
    rw [toCharacter hg]
    decide +kernel
  rw [hs]
  have := C91_converted_partial _ hg (by rw [hb]; exact variableFile_good) nl (by rw [hb]; cases nl <;> decide +kernel) json p hp
  rwa [hb] at this ⊢

/-- In the service, with every path. -/
def Samples.unpacking : Request :=
  ⟨b! "POST", b! "/convert", b! "application/octet-stream", packedFile.string true, false, none, fun _ => [],
    fun k => if k = b! "type" then b! "character" else if k = b! "format" then b! "metro" else []⟩

/-- Case of `C91_refused`. -/
example : Spec.status textEnv unpacking = 200 ∧ ∀ path ∈ ["/print", "/validator", "/convert"],
    Spec.status textEnv (sampleRequest path.toUTF8.data.toList (Spec.body textEnv unpacking) [] []) = 400 := by
  have hc : Spec.Carries unpacking (packedFile.string true) false := by
    refine .body fun h => ?_
    have := (multipart_iff _).1 h
    exact absurd this (by rw [show unpacking.contentType = b! "application/octet-stream" from rfl]; decide +kernel)
  have key : ∀ r', Spec.TakesFile r' → Spec.Carries r' (Spec.body textEnv unpacking) false →
      Spec.status textEnv unpacking = 200 ∧ Spec.status textEnv r' = 400 := fun r' h1 h2 =>
    C91_service isoEnv backwards (fun _ => []) slow slow_progress unpacking r' packedFile packedFile_good (by decide +kernel) ⟨rfl, rfl⟩
      ⟨_, _, hc, raw_read packedFile_good true (fun _ => packedFile_noBreaks) (packedFile_noBrace true) _ slow_progress⟩
      (by rw [says_iff _ _ _ (by decide +kernel)]; decide +kernel) rfl rfl h1 h2
  refine ⟨(key (sampleRequest "/print".toUTF8.data.toList (Spec.body textEnv unpacking) [] []) (.inl (sample_post "/print" _ _ _))
    (sample_carries _ _ _ _)).1, fun path hpath => ?_⟩
  refine (key _ ?_ (sample_carries _ _ _ _)).2
  simp only [List.mem_cons, List.not_mem_nil, or_false] at hpath
  rcases hpath with rfl | rfl | rfl
  · exact .inl (sample_post _ _ _ _)
  · exact .inr (.inl (sample_post _ _ _ _))
  · exact .inr (.inr (sample_post _ _ _ _))

end Metro2
