import Verif.Lemmas.Chain

/-!
Property C88: a Metro 2 text that is turned into JSON and back.
-/

namespace Metro2

open Samples

/-- What is read from the text of a good file. -/
theorem raw_read {enc : Enc} {isVar : Bool} {f : File} (h : Spec.GoodFile enc isVar f) (nl : Bool)
    (hb : enc = .packed → ∀ t ∈ Spec.recordTexts f, Spec.NoBreaks t) (hj : ¬ Spec.EarlyBrace (f.string nl)) (json : Bytes → Except Err File)
    {p : Plan} (hp : p.Progress) : newFileFromReader json p (f.string nl) false = .ok f := by
  cases enc with
  | character => exact C41_read isVar f h nl hj json p hp
  | packed =>
    have hv : isVar = true := by
      obtain ⟨fs, -, hg⟩ := h.header
      exact hg.packed rfl
    subst hv
    exact C42_read_partial f h (hb rfl) nl hj json p hp

/-- The answer to a request for a file as it is. -/
theorem asIs_body {env : ServerEnv} (hj : Spec.JsonBranch env) {r : Request} (hr : Spec.AsIs r) {f : File} (hf : Spec.CarriesFile env r f) :
    (Spec.WantsJson r → Spec.status env r = 200 ∧ (Spec.body env r = env.encode f.toJson ∨ Spec.body env r = env.indent f.toJson)) ∧
    (Spec.WantsMetro r → ∀ nl, Spec.SameLines r nl → Spec.status env r = 200 ∧ Spec.body env r = f.string nl) := by
  rcases hr with hr | ⟨hr, h1, h2, h3⟩
  · obtain ⟨-, -, hs⟩ := C50_print env r hr
    obtain ⟨b1, b2⟩ := C50_print_body env r hr f hf
    exact ⟨fun hw => ⟨hs.2 ⟨⟨f, hf⟩, .inr hw⟩, .inl (b1 hw)⟩, fun hw nl hn => ⟨hs.2 ⟨⟨f, hf⟩, .inl hw⟩, b2 hw nl hn⟩⟩
  · obtain ⟨-, -, hs⟩ := C50_convert env hj r hr
    have hne : ¬ (Spec.Says r "generate" "true" ∧ f.bases = []) := fun h => h1 h.1
    obtain ⟨b1, b2⟩ := C50_convert_body env hj r hr f f f hf hne (.inr ⟨h1, rfl⟩) (.inr (.inr ⟨h2, h3, rfl⟩))
    exact ⟨fun hw => ⟨hs.2 ⟨f, hf, hne, .inr hw⟩, .inr (b1 hw)⟩, fun hw nl hn => ⟨hs.2 ⟨f, hf, hne, .inl hw⟩, b2 hw nl hn⟩⟩

/-- C88. A Metro 2 text is sent to the service, the JSON that is answered is sent again, and Metro 2 is asked for: both requests succeed, and
the last answer is the first text, byte for byte, exactly if the descriptors of the header tell the format. -/
theorem C88_service (jenv : JsonEnv) (he : Spec.JsonEnvOk jenv) (visits : Nat → List (Bytes × Json) → List (Bytes × Json))
    (hv : Spec.MapOrders visits) (errText : Err → Bytes) (plan : Plan) (hp : plan.Progress)
    (enc : Enc) (isVar : Bool) (f : File) (h : Spec.GoodFile enc isVar f) (nl : Bool)
    (hb : enc = .packed → ∀ t ∈ Spec.recordTexts f, Spec.NoBreaks t) (hj : ¬ Spec.EarlyBrace (f.string nl))
    (r r' : Request) (hr : Spec.AsIs r) (hc : Spec.Carries r (f.string nl) false) (hw : Spec.WantsJson r)
    (hr' : Spec.AsIs r') (hc' : Spec.Carries r' (Spec.body (serverEnv jenv visits errText plan) r) false) (hw' : Spec.WantsMetro r')
    (hn : Spec.SameLines r' nl) :
    Spec.status (serverEnv jenv visits errText plan) r = 200 ∧ Spec.status (serverEnv jenv visits errText plan) r' = 200 ∧
    (Spec.body (serverEnv jenv visits errText plan) r' = f.string nl ↔ Spec.Detectable enc f) := by
  have hE := serverEnv_json jenv visits errText plan
  have hf : Spec.CarriesFile (serverEnv jenv visits errText plan) r f := ⟨_, _, hc, raw_read h nl hb hj _ hp⟩
  obtain ⟨s1, b1⟩ := (asIs_body hE hr hf).1 hw
  have hm : Spec.body (serverEnv jenv visits errText plan) r ∈ [encodeText f.toJson, indentText "\t".toUTF8.data.toList 0 f.toJson,
      indentText "  ".toUTF8.data.toList 0 f.toJson] := by
    rcases b1 with b1 | b1
    · rw [b1]; exact .head _
    · rw [b1]; exact .tail _ (.head _)
  have hk : Spec.CarriesFile (serverEnv jenv visits errText plan) r' _ := ⟨_, _, hc', json_read he hv (goodFile_json h) plan hm⟩
  obtain ⟨s2, b2⟩ := (asIs_body hE hr' hk).2 hw' nl hn
  rw [b2]
  exact ⟨s1, s2, chain_text h nl⟩

/-- What a command that keeps the file gives out. -/
theorem gives_output {env : ServerEnv} (hj : Spec.JsonBranch env) {c : Command} {f : File} (hf : Spec.CommandReads env c f) {text : Bytes}
    (h : Spec.Gives env c text) : Spec.OutputOf env c.format c.newline f text := by
  have reads : ∀ {f'}, Spec.CommandReads env c f' → f = f' := by
    rintro f' ⟨d', b', h3, h4⟩
    obtain ⟨d, b, h1, h2⟩ := hf
    rw [h1] at h3
    cases h3
    rw [h2] at h4
    exact Except.ok.inj h4
  rcases h with h | ⟨h1, h2, h3, h⟩
  · obtain ⟨f', hf', ho⟩ := ((C54_print env c).1 text).1 h
    exact reads hf' ▸ ho
  · obtain ⟨-, -, f', g, k, hf', -, hg, hk, ho⟩ := (C54_convert env hj c c.output text).1 h
    cases reads hf'
    rcases hg with ⟨hg, -⟩ | ⟨-, rfl⟩
    · rw [h1] at hg; cases hg
    · rcases hk with ⟨hk, -⟩ | ⟨hk, -⟩ | ⟨-, -, rfl⟩
      · exact absurd hk h2
      · exact absurd hk h3
      · exact ho

/-- C88 for the command. -/
theorem C88_command (jenv : JsonEnv) (he : Spec.JsonEnvOk jenv) (visits : Nat → List (Bytes × Json) → List (Bytes × Json))
    (hv : Spec.MapOrders visits) (errText : Err → Bytes) (plan : Plan) (hp : plan.Progress)
    (enc : Enc) (isVar : Bool) (f : File) (h : Spec.GoodFile enc isVar f) (nl : Bool)
    (hb : enc = .packed → ∀ t ∈ Spec.recordTexts f, Spec.NoBreaks t) (hj : ¬ Spec.EarlyBrace (f.string nl))
    (c c' : Command) (text text' : Bytes) (hi : c.input = some (f.string nl, false)) (hw : Spec.JsonOutput c)
    (hg : Spec.Gives (commandEnv jenv visits errText plan) c text) (hi' : c'.input = some (text, false))
    (hw' : c'.format = "metro".toUTF8.data.toList) (hn : c'.newline = nl)
    (hg' : Spec.Gives (commandEnv jenv visits errText plan) c' text') :
    text' = f.string nl ↔ Spec.Detectable enc f := by
  have hE : Spec.JsonBranch (commandEnv jenv visits errText plan) := ⟨jenv, visits, firstJson, rfl⟩
  have hf : Spec.CommandReads (commandEnv jenv visits errText plan) c f := ⟨_, _, hi, raw_read h nl hb hj _ hp⟩
  have ht : text = indentText [32, 32] 0 f.toJson := by
    rcases gives_output hE hf hg with ⟨-, ho⟩ | ⟨ho, -⟩
    · exact ho
    · rcases hw with hw | hw <;> rw [hw] at ho <;> exact absurd ho (by decide +kernel)
  have hm : text ∈ [encodeText f.toJson, indentText "\t".toUTF8.data.toList 0 f.toJson, indentText "  ".toUTF8.data.toList 0 f.toJson] :=
    ht ▸ .tail _ (.tail _ (.head _))
  have hk : Spec.CommandReads (commandEnv jenv visits errText plan) c' _ := ⟨_, _, hi', json_read he hv (goodFile_json h) plan hm⟩
  rcases gives_output hE hk hg' with ⟨ho, -⟩ | ⟨-, ho⟩
  · rw [hw'] at ho
    rcases ho with ho | ho <;> exact absurd ho (by decide +kernel)
  · rw [ho, hn]
    exact chain_text h nl

/-- C88 for files without block descriptors, where nothing has to be told: missing are the files with block descriptors whose header does
not tell the format. -/
theorem C88_fixed_partial (jenv : JsonEnv) (he : Spec.JsonEnvOk jenv) (visits : Nat → List (Bytes × Json) → List (Bytes × Json))
    (hv : Spec.MapOrders visits) (errText : Err → Bytes) (plan : Plan) (hp : plan.Progress)
    (enc : Enc) (f : File) (h : Spec.GoodFile enc false f) (nl : Bool) (hj : ¬ Spec.EarlyBrace (f.string nl))
    (r r' : Request) (hr : Spec.AsIs r) (hc : Spec.Carries r (f.string nl) false) (hw : Spec.WantsJson r)
    (hr' : Spec.AsIs r') (hc' : Spec.Carries r' (Spec.body (serverEnv jenv visits errText plan) r) false) (hw' : Spec.WantsMetro r')
    (hn : Spec.SameLines r' nl) : Spec.body (serverEnv jenv visits errText plan) r' = f.string nl := by
  obtain ⟨fs, hh, hg⟩ := h.header
  have henc : enc = .character := by
    cases enc with
    | character => rfl
    | packed => exact absurd (hg.packed rfl) (by decide)
  subst henc
  refine ((C88_service jenv he visits hv errText plan hp .character false f h nl (fun h => nomatch h) hj r r' hr hc hw hr' hc' hw' hn).2.2).2 ?_
  refine .inr ?_
  have : Spec.headerBdw f = Spec.bdw fs := by rw [Spec.headerBdw, hh]; rfl
  rw [this, show Spec.bdw fs = 0 from hg.bdw]

/-! ### Examples -/

/-- A character file with block descriptors whose header is longer than usual. -/
def longHeaderFile : File := fileOf .character (header 600 596) [(base 430 426, {})] (trailer 426)

/-- A packed file whose header has the record length of a character file. -/
def paddedHeaderFile : File := fileOf .packed (header 430 426) [(base 370 366, {})] (trailer 366)

theorem longHeaderFile_good : Spec.GoodFile .character true longHeaderFile := by
  refine goodFile_of (goodHeader_of_B (by decide +kernel) (by decide +kernel) (by decide +kernel) (by decide)
    (by decide +kernel) (by decide +kernel)) ?_ (goodTrailer_of_B (by decide +kernel) (by decide +kernel)
    (by decide +kernel) (by decide +kernel))
  intro p hp
  simp only [List.mem_cons, List.not_mem_nil, or_false] at hp
  subst hp
  exact ⟨goodBase_of_B (by decide +kernel) (by decide +kernel) (by decide +kernel) (by decide) (by decide +kernel)
    (by decide +kernel), by decide +kernel⟩

theorem paddedHeaderFile_good : Spec.GoodFile .packed true paddedHeaderFile := by
  refine goodFile_of (goodHeader_of_B (by decide +kernel) (by decide +kernel) (by decide +kernel) (by decide)
    (by decide +kernel) (by decide +kernel)) ?_ (goodTrailer_of_B (by decide +kernel) (by decide +kernel)
    (by decide +kernel) (by decide +kernel))
  intro p hp
  simp only [List.mem_cons, List.not_mem_nil, or_false] at hp
  subst hp
  exact ⟨goodBase_of_B (by decide +kernel) (by decide +kernel) (by decide +kernel) (by decide) (by decide +kernel)
    (by decide +kernel), by decide +kernel⟩

/-- The two requests: to `/convert` with a text, for JSON; to `/print` with the answer, for Metro 2. -/
def firstRequest (text : Bytes) : Request := sampleRequest (b! "/convert") text [] []
def secondRequest (text : Bytes) : Request := sampleRequest (b! "/print") (Spec.body textEnv (firstRequest text)) (b! "format") (b! "metro")

theorem sample_carries (path body key value : Bytes) : Spec.Carries (sampleRequest path body key value) body false := by
  refine .body fun h => ?_
  have := (multipart_iff _).1 h
  exact absurd this (by rw [show (sampleRequest path body key value).contentType = b! "application/octet-stream" from rfl]; decide +kernel)

/-- What comes back from the two requests. -/
theorem two_requests {enc : Enc} {isVar : Bool} {f : File} (h : Spec.GoodFile enc isVar f)
    (hb : enc = .packed → ∀ t ∈ Spec.recordTexts f, Spec.NoBreaks t) (hj : ¬ Spec.EarlyBrace (f.string true)) :
    Spec.body textEnv (secondRequest (f.string true)) = f.string true ↔ Spec.Detectable enc f := by
  refine (C88_service isoEnv isoEnv_ok backwards backwards_ok (fun _ => []) slow slow_progress enc isVar f h true hb hj
    (firstRequest (f.string true)) (secondRequest (f.string true)) (.inr ⟨sample_post "/convert" _ _ _, ?_, ?_, ?_⟩) (sample_carries _ _ _ _)
    (.inr rfl) (.inl (sample_post "/print" _ _ _)) (sample_carries _ _ _ _) ?_ ?_).2.2
  · rw [says_iff _ _ _ (by decide +kernel)]
    show ¬ equalFold ([] : Bytes) "true".toUTF8.data.toList = true
    decide +kernel
  · show ([] : Bytes) ≠ _
    decide +kernel
  · show ([] : Bytes) ≠ _
    decide +kernel
  · refine (if_neg ?_).trans ?_
    · show ¬ b! "application/octet-stream" = "application/json".toUTF8.data.toList
      decide +kernel
    · show (if "format".toUTF8.data.toList = b! "format" then b! "metro" else []) = "metro".toUTF8.data.toList
      decide +kernel
  · rw [sameLines_iff]
    show true = !equalFold (if b! "newline" = b! "format" then b! "metro" else []) (b! "false")
    decide +kernel

/-- Case of `C88_service`. Files of all three kinds come back byte for byte. -/
example : Spec.body textEnv (secondRequest (fixedFile.string true)) = fixedFile.string true ∧
    Spec.body textEnv (secondRequest (variableFile.string true)) = variableFile.string true ∧
    Spec.body textEnv (secondRequest (packedFile.string true)) = packedFile.string true :=
  ⟨(two_requests fixedFile_good (fun h => nomatch h) (fixedFile_noBrace true)).2 (.inl (by decide +kernel)),
   (two_requests variableFile_good (fun h => nomatch h) (by decide +kernel)).2 (.inl (by decide +kernel)),
   (two_requests packedFile_good (fun _ => packedFile_noBreaks) (packedFile_noBrace true)).2 ⟨by decide +kernel, by decide +kernel⟩⟩

/-- C88 is violated, in both directions: there are a character file and a packed file that are read from their texts, but whose texts come back
changed from JSON. -/
theorem C88_violated : ∃ f k, Spec.GoodFile .character true f ∧ Spec.GoodFile .packed true k ∧
    (∀ json p, p.Progress → newFileFromReader json p (f.string true) false = .ok f ∧ newFileFromReader json p (k.string true) false = .ok k) ∧
    Spec.body textEnv (secondRequest (f.string true)) ≠ f.string true ∧
    Spec.body textEnv (secondRequest (k.string true)) ≠ k.string true := by
  have b1 : ¬ Spec.EarlyBrace (longHeaderFile.string true) := by decide +kernel
  have b2 : ¬ Spec.EarlyBrace (paddedHeaderFile.string true) := by decide +kernel
  have n2 : ∀ t ∈ Spec.recordTexts paddedHeaderFile, Spec.NoBreaks t := by decide +kernel
  refine ⟨longHeaderFile, paddedHeaderFile, longHeaderFile_good, paddedHeaderFile_good,
    fun json p hp => ⟨raw_read longHeaderFile_good true (fun h => nomatch h) b1 json hp, raw_read paddedHeaderFile_good true (fun _ => n2) b2 json hp⟩,
    fun h => ?_, fun h => ?_⟩
  · rcases (two_requests longHeaderFile_good (fun h => nomatch h) b1).1 h with h | h <;> revert h <;> decide +kernel
  · exact absurd ((two_requests paddedHeaderFile_good (fun _ => n2) b2).1 h).1 (by decide +kernel)

/-- The command, twice. -/
example : ∃ c c' text text', c.input = some (packedFile.string false, false) ∧ Spec.JsonOutput c ∧
    Spec.Gives (commandEnv isoEnv backwards (fun _ => []) slow) c text ∧ c'.input = some (text, false) ∧
    Spec.Gives (commandEnv isoEnv backwards (fun _ => []) slow) c' text' ∧ text' = packedFile.string false := by
  let E := commandEnv isoEnv backwards (fun _ => []) slow
  have hr : Spec.CommandReads E ⟨some (packedFile.string false, false), [], [], false, false, [], true⟩ packedFile :=
    ⟨_, _, rfl, raw_read packedFile_good false (fun _ => packedFile_noBreaks) (packedFile_noBrace false) _ slow_progress⟩
  have hg : Spec.Gives E ⟨some (packedFile.string false, false), [], [], false, false, [], true⟩ (indentText [32, 32] 0 packedFile.toJson) :=
    .inl (((C54_print E _).1 _).2 ⟨_, hr, .inl ⟨.inr rfl, rfl⟩⟩)
  have hj := goodFile_json packedFile_good
  have hd : Spec.Detectable .packed packedFile := ⟨by decide +kernel, by decide +kernel⟩
  have hr' : Spec.CommandReads E ⟨some (indentText [32, 32] 0 packedFile.toJson, false), b! "metro", [], false, false, [], true⟩ packedFile :=
    ⟨_, _, rfl, C65_read isoEnv isoEnv_ok backwards backwards_ok .packed _ hj hd slow _ (.tail _ (.tail _ (.head _)))⟩
  have hg' : Spec.Gives E ⟨some (indentText [32, 32] 0 packedFile.toJson, false), b! "metro", [], false, false, [], true⟩
      (packedFile.string false) :=
    .inl (((C54_print E _).1 _).2 ⟨_, hr', .inr ⟨by decide +kernel, rfl⟩⟩)
  exact ⟨_, _, _, _, rfl, .inr rfl, hg, rfl, hg',
    (C88_command isoEnv isoEnv_ok backwards backwards_ok (fun _ => []) slow slow_progress .packed true packedFile packedFile_good false
      (fun _ => packedFile_noBreaks) (packedFile_noBrace false) _ _ _ _ rfl (.inr rfl) hg rfl (by decide +kernel) rfl hg').2 hd⟩

end Metro2
