import Verif.Spec.ClientCall
import Verif.Props.Server

/-! C80 and C81: the calls of the generated client, answered by the service. -/

namespace Metro2

open Samples

/-! ### The request as it arrives -/

theorem execute_eq (env : ServerEnv) (boundary : Bytes) (c : ClientCall) :
    c.execute env boundary = c.outcome (Spec.status env (prepareRequest boundary c).received) (Spec.body env (prepareRequest boundary c).received) := rfl

/-- The request of a call with a file. -/
theorem received_file (boundary : Bytes) (c : ClientCall) {u : Upload} (hu : c.file = some u) :
    (prepareRequest boundary c).received = ⟨c.method, c.path, b! "multipart/form-data; boundary=" ++ boundary, [], false,
      (if u.content ≠ [] ∧ u.name ≠ [] then some (u.content, false) else none), firstValue c.query, firstValue (c.query ++ c.form)⟩ := by
  unfold prepareRequest PreparedRequest.received
  simp only [hu, Option.isSome_some, Bool.or_true, if_true]
  congr 1
  by_cases h : u.content ≠ [] ∧ u.name ≠ []
  · rw [if_pos h, if_pos h]
  · rw [if_neg h, if_neg h]

theorem multipart_content (boundary : Bytes) : (b! "multipart/").isPrefixOf (lowerText (b! "multipart/form-data; boundary=" ++ boundary)) = true := rfl

theorem multipart_not_json (boundary : Bytes) : b! "multipart/form-data; boundary=" ++ boundary ≠ b! "application/json" := by
  intro h
  have := congrArg List.head? h
  exact absurd this (show ¬ some (109 : UInt8) = some 97 by decide)

theorem input_file (env : ServerEnv) (boundary : Bytes) (c : ClientCall) {u : Upload} (hu : c.file = some u) (ha : Spec.Arrives u) :
    parseInputFromRequest env (prepareRequest boundary c).received = newFileFromReader env.json env.plan u.content false := by
  rw [received_file boundary c hu]
  unfold parseInputFromRequest
  simp only
  rw [if_pos (multipart_content boundary), if_pos ⟨ha.2, ha.1⟩]

theorem input_lost (env : ServerEnv) (boundary : Bytes) (c : ClientCall) {u : Upload} (hu : c.file = some u) (ha : ¬ Spec.Arrives u) :
    parseInputFromRequest env (prepareRequest boundary c).received = .error .io := by
  rw [received_file boundary c hu]
  unfold parseInputFromRequest
  simp only
  rw [if_pos (multipart_content boundary), if_neg fun h => ha ⟨h.2, h.1⟩]

theorem format_file (boundary : Bytes) (c : ClientCall) {u : Upload} (hu : c.file = some u) {format format2 : Option Bytes}
    (hq : firstValue (c.query ++ c.form) (b! "format") = Spec.askedFormat format format2) :
    Spec.formatParam (prepareRequest boundary c).received = Spec.askedFormat format format2 := by
  rw [received_file boundary c hu]
  show (if b! "multipart/form-data; boundary=" ++ boundary = b! "application/json" then _ else firstValue (c.query ++ c.form) (b! "format")) = _
  rw [if_neg (multipart_not_json boundary), hq]

/-! ### Parameters -/

theorem convert_form (a : ConvertArgs) :
    firstValue ((convertCall a).query ++ (convertCall a).form) (b! "format") = Spec.askedFormat a.format a.format2 ∧
    firstValue ((convertCall a).query ++ (convertCall a).form) (b! "type") = Spec.askedType a.newType ∧
    firstValue ((convertCall a).query ++ (convertCall a).form) (b! "generate") = firstValue (boolParam (b! "generate") a.generate) (b! "generate") ∧
    firstValue ((convertCall a).query ++ (convertCall a).form) (b! "newline") = firstValue (boolParam (b! "newline") a.newline) (b! "newline") := by
  obtain ⟨format, format2, newType, generate, newline, file⟩ := a
  cases format <;> cases format2 <;> cases newType <;> cases generate <;> cases newline <;> exact ⟨rfl, rfl, rfl, rfl⟩

theorem print_form (a : PrintArgs) :
    firstValue ((printCall a).query ++ (printCall a).form) (b! "format") = Spec.askedFormat a.format a.format2 ∧
    firstValue ((printCall a).query ++ (printCall a).form) (b! "newline") = [] := by
  obtain ⟨format, format2, file⟩ := a
  cases format <;> cases format2 <;> exact ⟨rfl, rfl⟩

theorem bool_true (key : Bytes) (o : Option Bool) : equalFold (firstValue (boolParam key o) key) (b! "true") = true ↔ o = some true := by
  have h : ∀ v : Bytes, firstValue [(key, v)] key = v := by
    intro v
    simp [firstValue, List.lookup]
  cases o with
  | none => exact ⟨fun h => absurd h (show ¬ equalFold [] _ = true by decide), fun h => by cases h⟩
  | some b => cases b <;> simp only [boolParam, h] <;> decide

theorem bool_false (key : Bytes) (o : Option Bool) : equalFold (firstValue (boolParam key o) key) (b! "false") = true ↔ o = some false := by
  have h : ∀ v : Bytes, firstValue [(key, v)] key = v := by
    intro v
    simp [firstValue, List.lookup]
  cases o with
  | none => exact ⟨fun h => absurd h (show ¬ equalFold [] _ = true by decide), fun h => by cases h⟩
  | some b => cases b <;> simp only [boolParam, h] <;> decide

/-! ### C80 -/

theorem post_convert (boundary : Bytes) (a : ConvertArgs) {u : Upload} (hu : a.file = some u) :
    Spec.Post (prepareRequest boundary (convertCall a)).received "/convert" := by
  rw [received_file boundary (convertCall a) hu]
  exact ⟨show b! "POST" = _ by decide +kernel, show b! "/convert" = _ by decide +kernel⟩

theorem post_print (boundary : Bytes) (a : PrintArgs) {u : Upload} (hu : a.file = some u) :
    Spec.Post (prepareRequest boundary (printCall a)).received "/print" := by
  rw [received_file boundary (printCall a) hu]
  exact ⟨show b! "POST" = _ by decide +kernel, show b! "/print" = _ by decide +kernel⟩

theorem post_validator (boundary : Bytes) {u : Upload} :
    Spec.Post (prepareRequest boundary (validatorCall (some u))).received "/validator" := by
  rw [received_file boundary (validatorCall (some u)) rfl]
  exact ⟨show b! "POST" = _ by decide +kernel, show b! "/validator" = _ by decide +kernel⟩

/-- C80, `Convert`: an error of reading is a 400; a trailer asked for but impossible, or an unknown format, is a 501; else the value is the file, with its
generated trailer if one is asked for, in the type and in the format asked for. -/
theorem C80_convert (env : ServerEnv) (hj : Spec.JsonBranch env) (boundary : List UInt8) (a : ConvertArgs) (u : Upload) (hu : a.file = some u)
    (ha : Spec.Arrives u) :
    (∀ e, newFileFromReader env.json env.plan u.content false = .error e →
      (convertCall a).execute env boundary = .failure 400 (env.errText e ++ [10]) (some (env.errText e ++ [10]))) ∧
    ∀ f, newFileFromReader env.json env.plan u.content false = .ok f →
      (a.generate = some true ∧ f.bases = [] → ∃ text, (convertCall a).execute env boundary = .failure 501 text (some text)) ∧
      (¬ (a.generate = some true ∧ f.bases = []) →
        (¬ Spec.KnownFormat (Spec.askedFormat a.format a.format2) → ∃ text, (convertCall a).execute env boundary = .failure 501 text (some text)) ∧
        ∀ g k text, Spec.WithTrailer (a.generate = some true) f g → Spec.InType (Spec.askedType a.newType) g k →
          Spec.OutputOf env (Spec.askedFormat a.format a.format2) (a.newline != some false) k text →
            (convertCall a).execute env boundary = .value text) := by
  have hp := post_convert boundary a hu
  have hin := input_file env boundary (convertCall a) hu ha
  obtain ⟨q1, q2, q3, q4⟩ := convert_form a
  have hfmt := format_file boundary (convertCall a) hu q1
  have hform : (prepareRequest boundary (convertCall a)).received.form = firstValue ((convertCall a).query ++ (convertCall a).form) := by
    rw [received_file boundary (convertCall a) hu]
  have hgen : Spec.Says (prepareRequest boundary (convertCall a)).received "generate" "true" ↔ a.generate = some true := by
    rw [says_iff _ _ _ (by decide +kernel)]
    show equalFold ((prepareRequest boundary (convertCall a)).received.form (b! "generate")) (b! "true") = true ↔ _
    rw [hform, q3]
    exact bool_true _ _
  have hline : Spec.SameLines (prepareRequest boundary (convertCall a)).received (a.newline != some false) := by
    unfold Spec.SameLines
    rw [says_iff _ _ _ (by decide +kernel)]
    show _ ↔ equalFold ((prepareRequest boundary (convertCall a)).received.form (b! "newline")) (b! "false") = true
    rw [hform, q4, bool_false]
    simp
  have htype : (prepareRequest boundary (convertCall a)).received.form "type".toUTF8.data.toList = Spec.askedType a.newType := by
    rw [hform]
    exact q2
  generalize hr : (prepareRequest boundary (convertCall a)).received = r at *
  have hex : (convertCall a).execute env boundary = (convertCall a).outcome (Spec.status env r) (Spec.body env r) := by
    rw [execute_eq, hr]
  constructor
  · intro e he
    rw [hex]
    unfold Spec.status Spec.body
    rw [serve_convert hp, serveConvert_eq, hin, he]
    rfl
  · intro f hf
    rw [hf, ← carriesFile_iff] at hin
    obtain ⟨-, h501, h200⟩ := C50_convert env hj r hp
    have failed : Spec.status env r = 501 → ∃ text, (convertCall a).execute env boundary = .failure 501 text (some text) := by
      intro h
      rw [hex, h]
      exact ⟨_, rfl⟩
    constructor
    · rintro ⟨h1, h2⟩
      exact failed (h501.2 ⟨f, hin, Or.inl ⟨hgen.2 h1, h2⟩⟩)
    · intro hne
      have hne' : ¬ (Spec.Says r "generate" "true" ∧ f.bases = []) := fun h => hne ⟨hgen.1 h.1, h.2⟩
      constructor
      · intro hk
        refine failed (h501.2 ⟨f, hin, Or.inr ⟨?_, ?_⟩⟩)
        · intro h
          exact hk (Or.inr (Or.inl (hfmt ▸ h)))
        · rintro (h | h)
          · exact hk (Or.inl (hfmt ▸ h))
          · exact hk (Or.inr (Or.inr (hfmt ▸ h)))
      · intro g k text hg hk ho
        have hg' : Spec.WithTrailer (Spec.Says r "generate" "true") f g := by
          rcases hg with ⟨h1, h2⟩ | ⟨h1, h2⟩
          · exact Or.inl ⟨hgen.2 h1, h2⟩
          · exact Or.inr ⟨fun h => h1 (hgen.1 h), h2⟩
        obtain ⟨hb1, hb2⟩ := C50_convert_body env hj r hp f g k hin hne' hg' (htype ▸ hk)
        rw [hex]
        rcases ho with ⟨h1, rfl⟩ | ⟨h1, rfl⟩
        · have hw : Spec.WantsJson r := by
            unfold Spec.WantsJson
            rw [hfmt]
            exact h1
          rw [h200.2 ⟨f, hin, hne', Or.inr hw⟩, hb1 hw]
          rfl
        · have hw : Spec.WantsMetro r := by
            unfold Spec.WantsMetro
            rw [hfmt]
            exact h1
          rw [h200.2 ⟨f, hin, hne', Or.inl hw⟩, hb2 hw _ hline]
          rfl

/-- C80, `Print`: as `Convert`, without conversion; JSON is written without indentation, and records in lines. -/
theorem C80_print (env : ServerEnv) (boundary : List UInt8) (a : PrintArgs) (u : Upload) (hu : a.file = some u) (ha : Spec.Arrives u) :
    (∀ e, newFileFromReader env.json env.plan u.content false = .error e →
      (printCall a).execute env boundary = .failure 400 (env.errText e ++ [10]) (some (env.errText e ++ [10]))) ∧
    ∀ f, newFileFromReader env.json env.plan u.content false = .ok f →
      (¬ Spec.KnownFormat (Spec.askedFormat a.format a.format2) → ∃ text, (printCall a).execute env boundary = .failure 501 text none) ∧
      (Spec.askedFormat a.format a.format2 = "metro".toUTF8.data.toList → (printCall a).execute env boundary = .value (f.string true)) ∧
      (Spec.askedFormat a.format a.format2 = "json".toUTF8.data.toList ∨ Spec.askedFormat a.format a.format2 = [] →
        (printCall a).execute env boundary = .value (env.encode f.toJson)) := by
  have hp := post_print boundary a hu
  have hin := input_file env boundary (printCall a) hu ha
  obtain ⟨q1, q2⟩ := print_form a
  have hfmt := format_file boundary (printCall a) hu q1
  have hline : Spec.SameLines (prepareRequest boundary (printCall a)).received true := by
    unfold Spec.SameLines
    rw [says_iff _ _ _ (by decide +kernel)]
    show _ ↔ equalFold ((prepareRequest boundary (printCall a)).received.form (b! "newline")) (b! "false") = true
    rw [received_file boundary (printCall a) hu]
    simp only [q2]
    decide
  generalize hr : (prepareRequest boundary (printCall a)).received = r at *
  have hex : (printCall a).execute env boundary = (printCall a).outcome (Spec.status env r) (Spec.body env r) := by
    rw [execute_eq, hr]
  constructor
  · intro e he
    rw [hex]
    unfold Spec.status Spec.body
    rw [serve_print hp]
    unfold servePrint
    rw [hin, he]
    rfl
  · intro f hf
    rw [hf, ← carriesFile_iff] at hin
    obtain ⟨-, h501, h200⟩ := C50_print env r hp
    obtain ⟨hb1, hb2⟩ := C50_print_body env r hp f hin
    refine ⟨fun hk => ?_, fun h => ?_, fun h => ?_⟩
    · rw [hex, h501.2 ⟨⟨f, hin⟩, ?_, ?_⟩]
      · exact ⟨_, rfl⟩
      · intro h
        exact hk (Or.inr (Or.inl (hfmt ▸ h)))
      · rintro (h | h)
        · exact hk (Or.inl (hfmt ▸ h))
        · exact hk (Or.inr (Or.inr (hfmt ▸ h)))
    · have hw : Spec.WantsMetro r := by
        unfold Spec.WantsMetro
        rw [hfmt]
        exact h
      rw [hex, h200.2 ⟨⟨f, hin⟩, Or.inl hw⟩, hb2 hw _ hline]
      rfl
    · have hw : Spec.WantsJson r := by
        unfold Spec.WantsJson
        rw [hfmt]
        exact h
      rw [hex, h200.2 ⟨⟨f, hin⟩, Or.inr hw⟩, hb1 hw]
      rfl

/-- C80, `Validator`: the error of reading is a 400, the error of `Validate` a 501, else the file is valid. -/
theorem C80_validator (env : ServerEnv) (boundary : List UInt8) (u : Upload) (ha : Spec.Arrives u) :
    (∀ e, newFileFromReader env.json env.plan u.content false = .error e →
      (validatorCall (some u)).execute env boundary = .failure 400 (env.errText e ++ [10]) (some (env.errText e ++ [10]))) ∧
    ∀ f, newFileFromReader env.json env.plan u.content false = .ok f →
      (∀ e, f.validate = some e →
        (validatorCall (some u)).execute env boundary = .failure 501 (env.errText e ++ [10]) (some (env.errText e ++ [10]))) ∧
      (f.validate = none → (validatorCall (some u)).execute env boundary =
        .value (env.encode (.obj [(b! "status", .str (b! "valid file"))]))) := by
  have hp := post_validator boundary (u := u)
  have hin := input_file env boundary (validatorCall (some u)) rfl ha
  have hex := execute_eq env boundary (validatorCall (some u))
  rw [hex]
  unfold Spec.status Spec.body
  rw [serve_validator hp]
  unfold serveValidator
  rw [hin]
  constructor
  · intro e he
    rw [he]
    rfl
  · intro f hf
    rw [hf]
    constructor
    · intro e he
      simp only [he]
      rfl
    · intro he
      simp only [he]
      rfl

/-- C80, `Health`. -/
theorem C80_health (env : ServerEnv) (boundary : List UInt8) :
    healthCall.execute env boundary = .value (env.encode (.obj [(b! "status", .str (b! "alive"))])) := rfl

/-- C80, without a file, or with an empty one, or one without a name: always a 400. -/
theorem C80_no_file (env : ServerEnv) (boundary : List UInt8) (o : Option Upload) (ho : ∀ u, o = some u → ¬ Spec.Arrives u) :
    (∀ a : ConvertArgs, a.file = o → ∃ text, (convertCall a).execute env boundary = .failure 400 text (some text)) ∧
    (∀ a : PrintArgs, a.file = o → ∃ text, (printCall a).execute env boundary = .failure 400 text (some text)) ∧
    (∃ text, (validatorCall o).execute env boundary = .failure 400 text (some text)) := by
  cases o with
  | none =>
    refine ⟨?_, ?_, ?_⟩
    · rintro ⟨format, format2, newType, generate, newline, file⟩ h
      cases h
      exact ⟨_, rfl⟩
    · rintro ⟨format, format2, file⟩ h
      cases h
      exact ⟨_, rfl⟩
    · exact ⟨_, rfl⟩
  | some u =>
    have hn := ho u rfl
    refine ⟨fun a hu => ?_, fun a hu => ?_, ?_⟩
    · have hin := input_lost env boundary (convertCall a) hu hn
      rw [execute_eq]
      unfold Spec.status Spec.body
      rw [serve_convert (post_convert boundary a hu), serveConvert_eq, hin]
      exact ⟨_, rfl⟩
    · have hin := input_lost env boundary (printCall a) hu hn
      rw [execute_eq]
      unfold Spec.status Spec.body
      rw [serve_print (post_print boundary a hu)]
      unfold servePrint
      rw [hin]
      exact ⟨_, rfl⟩
    · have hin := input_lost env boundary (validatorCall (some u)) rfl hn
      rw [execute_eq]
      unfold Spec.status Spec.body
      rw [serve_validator (post_validator boundary)]
      unfold serveValidator
      rw [hin]
      exact ⟨_, rfl⟩

/-- An upload of a file. -/
def Samples.upload (broken : Bool) : Upload := ⟨b! "file.txt", fixedFile.string true, broken⟩

theorem Samples.upload_arrives (broken : Bool) : Spec.Arrives (upload broken) :=
  ⟨by simp [upload], fun h => absurd (congrArg List.length h) (show (fixedFile.string true).length ≠ 0 by decide +kernel)⟩

theorem Samples.upload_read (broken : Bool) :
    newFileFromReader sampleEnv.json sampleEnv.plan (upload broken).content false = .ok fixedFile :=
  C41_read false _ fixedFile_good true (fixedFile_noBrace true) _ _ slow_progress

/-- Arguments of a conversion to the packed format, with a trailer, without line breaks. -/
def Samples.toPacked : ConvertArgs := ⟨none, some (b! "metro"), some (b! "packed"), some true, some false, some (upload false)⟩

/-- `Convert` to the packed format. -/
example (g : File) (hg : Spec.WithTrailer True fixedFile g) (boundary : Bytes) :
    (convertCall toPacked).execute sampleEnv boundary = .value ((Spec.fileIn .packed g).string false) := by
  refine (((C80_convert sampleEnv sampleEnv_json boundary _ _ rfl (upload_arrives false)).2 _ (upload_read false)).2 ?_).2 g _ _ ?_
    (Or.inr (Or.inl ⟨by decide +kernel, rfl⟩)) (Or.inr ⟨by decide +kernel, rfl⟩)
  · rintro ⟨-, h⟩
    exact absurd h (by decide)
  · simpa [toPacked] using hg

/-- `Print` in an unknown format. -/
example (boundary : Bytes) : ∃ text, (printCall { format := some (b! "xml"), format2 := some (b! "metro"), file := some (upload false) }).execute
    sampleEnv boundary = .failure 501 text none := by
  refine ((C80_print sampleEnv boundary _ _ rfl (upload_arrives false)).2 _ (upload_read false)).1 ?_
  rintro (h | h | h) <;> exact absurd h (by decide +kernel)

/-! ### C81: a file that cannot be read -/

/-- The full statement of C81: if the file given to a call cannot be read to its end, the call is an error. -/
def C81_statement : Prop :=
  ∀ env boundary (a : ConvertArgs) u, Spec.JsonBranch env → a.file = some u → u.broken = true →
    ∃ status text model, (convertCall a).execute env boundary = .failure status text model

/-- C81 is violated: what could be read is converted, and the call succeeds. -/
theorem C81_violated : ¬ C81_statement := by
  intro h
  obtain ⟨s, t, m, h1⟩ := h sampleEnv [] { format := some (b! "metro"), file := some (upload true) } _ sampleEnv_json rfl rfl
  have h2 := (((C80_convert sampleEnv sampleEnv_json [] { format := some (b! "metro"), file := some (upload true) } _ rfl (upload_arrives true)).2 _
    (upload_read true)).2 (fun h => by cases h.1)).2 fixedFile fixedFile (fixedFile.string true) (Or.inr ⟨by simp, rfl⟩)
    (Or.inr (Or.inr ⟨by decide +kernel, by decide +kernel, rfl⟩)) (Or.inr ⟨by decide +kernel, rfl⟩)
  rw [h1] at h2
  cases h2

/-- C81: the mark is never looked at: what is left of the file counts. -/
theorem C81_ignored (env : ServerEnv) (boundary : List UInt8) (a : ConvertArgs) (p : PrintArgs) (name content : List UInt8) (broken : Bool) :
    (convertCall { a with file := some ⟨name, content, broken⟩ }).execute env boundary =
      (convertCall { a with file := some ⟨name, content, false⟩ }).execute env boundary ∧
    (printCall { p with file := some ⟨name, content, broken⟩ }).execute env boundary =
      (printCall { p with file := some ⟨name, content, false⟩ }).execute env boundary ∧
    (validatorCall (some ⟨name, content, broken⟩)).execute env boundary = (validatorCall (some ⟨name, content, false⟩)).execute env boundary :=
  ⟨rfl, rfl, rfl⟩

/-- C81 in part: the call is an error if what could be read is no file. Missing: files of which a readable beginning is left (see `C81_violated`). -/
theorem C81_reported_partial (env : ServerEnv) (hj : Spec.JsonBranch env) (boundary : List UInt8) (a : ConvertArgs) (u : Upload)
    (hu : a.file = some u) (hn : ∀ f, newFileFromReader env.json env.plan u.content false ≠ .ok f) :
    ∃ status text model, (convertCall a).execute env boundary = .failure status text model := by
  by_cases ha : Spec.Arrives u
  · cases h : newFileFromReader env.json env.plan u.content false with
    | ok f => exact absurd h (hn f)
    | error e => exact ⟨_, _, _, (C80_convert env hj boundary a u hu ha).1 e h⟩
  · obtain ⟨text, h⟩ := (C80_no_file env boundary a.file (fun v hv => by rw [hu] at hv; cases hv; exact ha)).1 a rfl
    exact ⟨_, _, _, h⟩

/-- Cases of `C80_validator`, `C80_health` and `C81_ignored`. -/
example (boundary : Bytes) : (∃ text, (validatorCall (some (upload true))).execute sampleEnv boundary = .failure 501 text (some text)) ∧
    healthCall.execute sampleEnv boundary = .value (sampleEnv.encode (.obj [(b! "status", .str (b! "alive"))])) ∧
    (validatorCall (some (upload true))).execute sampleEnv boundary = (validatorCall (some (upload false))).execute sampleEnv boundary := by
  refine ⟨?_, C80_health _ _, (C81_ignored sampleEnv boundary {} {} _ _ true).2.2⟩
  cases hv : fixedFile.validate with
  | none => exact absurd hv (by decide +kernel)
  | some e => exact ⟨_, ((C80_validator sampleEnv boundary _ (upload_arrives true)).2 _ (upload_read true)).1 e hv⟩

/-- Case of `C81_reported_partial`: nothing is left of the file. -/
example (boundary : Bytes) : ∃ status text model, (convertCall { file := some ⟨b! "a", [], true⟩ }).execute sampleEnv boundary = .failure status text model :=
  C81_reported_partial sampleEnv sampleEnv_json boundary _ _ rfl (fun f h => by cases h)

end Metro2
