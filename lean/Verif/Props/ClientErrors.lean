import Verif.Spec.ClientErrors
import Verif.Props.Answers
import Verif.Props.ClientCall

/-! C119: what the errors of the client tell. -/

namespace Metro2

open Samples

/-- The service answers with one of five codes. -/
theorem answer_codes (env : ServerEnv) (t : Texts) (r : Request) :
    (Spec.answered env t r).1 ∈ [200, 400, 404, 405, 501] := by
  unfold Spec.answered answer
  have herr : ∀ text code, ((httpError {} text code).finish).1 = code := fun _ _ => rfl
  have hout : ∀ code text, ((outputError env {} code text).finish).1 = code := fun _ _ => rfl
  have hok : ∀ text, ((outputSuccess env {} text).finish).1 = 200 := fun _ => rfl
  have hempty : (({} : Writer).finish).1 = 200 := rfl
  have hbuf : ∀ f format nl, ((outputBufferToWriter env {} f format nl).finish).1 = 200 := by
    intro f format nl
    unfold outputBufferToWriter
    simp only
    split
    · rfl
    · split <;> rfl
  have hno : ((({} : Writer).writeHeader statusMethodNotAllowed).finish).1 = 405 := rfl
  split
  · split
    · unfold serveHealth; rw [hok]; decide
    · rw [hno]; decide
  split
  · split
    · unfold answerPrint
      split
      · rw [herr]; decide
      · split
        · rw [hout]; decide
        · split
          · rw [hout]; decide
          · rw [hbuf]; decide
    · rw [hno]; decide
  split
  · split
    · unfold answerValidator
      split
      · rw [herr]; decide
      · split
        · rw [hok]; decide
        · split
          · rw [herr]; decide
          · rw [hempty]; decide
    · rw [hno]; decide
  split
  · split
    · unfold answerConvert
      split
      · rw [herr]; decide
      · split
        · split
          · rw [herr]; decide
          · rw [hempty]; decide
        · split
          · rw [hout]; decide
          · simp only
            split
            · rw [hout]; decide
            · exact List.mem_cons_self
    · rw [hno]; decide
  · rw [herr]; decide

theorem told_eq (env : ServerEnv) (t : Texts) (boundary : Bytes) (c : ClientCall) :
    c.told env t boundary = c.result (Spec.answered env t (prepareRequest boundary c).received).1
      (Spec.answered env t (prepareRequest boundary c).received).2.2 := rfl

/-- C119. A call gives the body of a success. The text of the error of any other is the status line, with the body apart, and once more as model if the code is
one of those that the call has a model for. -/
theorem C119_told (env : ServerEnv) (t : Texts) (boundary : List UInt8) (c : ClientCall) :
    ∃ code headers body, Spec.answered env t (prepareRequest boundary c).received = (code, headers, body) ∧
      ((code = 200 ∧ c.told env t boundary = .ok body) ∨
        ∃ line, (code, line) ∈ Spec.refusals ∧
          c.told env t boundary = .error ⟨body, line.toUTF8.data.toList, if code ∈ c.models then some body else none⟩) := by
  have hcode := answer_codes env t (prepareRequest boundary c).received
  rw [told_eq]
  generalize Spec.answered env t (prepareRequest boundary c).received = a at hcode
  obtain ⟨code, headers, body⟩ := a
  refine ⟨code, headers, body, rfl, ?_⟩
  simp only [List.mem_cons, List.not_mem_nil, or_false] at hcode
  simp only
  have line : ∀ (s : String), (code, s) ∈ Spec.refusals → 300 ≤ code → responseStatus code = s.toUTF8.data.toList →
      formatErrorMessage (responseStatus code) = s.toUTF8.data.toList →
      c.result code body = .error ⟨body, s.toUTF8.data.toList, if code ∈ c.models then some body else none⟩ := by
    intro s _ h h1 h2
    unfold ClientCall.result
    rw [if_pos h]
    by_cases hm : code ∈ c.models
    · rw [if_pos hm, if_pos hm, h2]
    · rw [if_neg hm, if_neg hm, h1]
  rcases hcode with rfl | rfl | rfl | rfl | rfl
  · exact .inl ⟨rfl, rfl⟩
  · exact .inr ⟨"400 Bad Request", by decide +kernel, line _ (by decide +kernel) (by decide) (by decide +kernel) (by decide +kernel)⟩
  · exact .inr ⟨"404 Not Found", by decide +kernel, line _ (by decide +kernel) (by decide) (by decide +kernel) (by decide +kernel)⟩
  · exact .inr ⟨"405 Method Not Allowed", by decide +kernel, line _ (by decide +kernel) (by decide) (by decide +kernel) (by decide +kernel)⟩
  · exact .inr ⟨"501 Not Implemented", by decide +kernel, line _ (by decide +kernel) (by decide) (by decide +kernel) (by decide +kernel)⟩

/-- C119, in full: the error of a call whose file is not read tells the reason. -/
def C119_statement : Prop :=
  ∀ (env : ServerEnv) (t : Texts) (jenv : JsonEnv) (visits : Nat → List (List UInt8 × Json) → List (List UInt8 × Json)) (first : List UInt8 → Option Json),
    Spec.JsonTexts env t jenv visits first → ∀ (boundary : List UInt8) (c : ClientCall) (u : Upload), Spec.Sends c u → Spec.Arrives u → Spec.Unread env u →
      ∃ e reason, c.told env t boundary = .error e ∧ Spec.Reason t.lib jenv first env.plan u.content false reason ∧ reason <:+: e.error

theorem sends_posts {c : ClientCall} {u : Upload} (h : Spec.Sends c u) (boundary : Bytes) :
    c.file = some u ∧ 400 ∈ c.models ∧ Spec.PostsFile (prepareRequest boundary c).received := by
  cases h with
  | convert hu => exact ⟨hu, List.mem_cons_self, .inr (.inr (post_convert boundary _ hu))⟩
  | print hu => exact ⟨hu, List.mem_cons_self, .inl (post_print boundary _ hu)⟩
  | validator => exact ⟨rfl, List.mem_cons_self, .inr (.inl (post_validator boundary))⟩

/-- C119, the part that holds: if the file is not read, the reason is in the body and in the model of the error; its text is always the same. Missing for the full
property: the reason in the text of the error. -/
theorem C119_refused_partial (env : ServerEnv) (t : Texts) (jenv : JsonEnv) (visits : Nat → List (List UInt8 × Json) → List (List UInt8 × Json))
    (first : List UInt8 → Option Json) (h : Spec.JsonTexts env t jenv visits first) (boundary : List UInt8) (c : ClientCall) (u : Upload)
    (hs : Spec.Sends c u) (ha : Spec.Arrives u) (hn : Spec.Unread env u) :
    ∃ reason, Spec.Reason t.lib jenv first env.plan u.content false reason ∧
      c.told env t boundary = .error ⟨"parsing file as multipart: ".toUTF8.data.toList ++ reason ++ "\n".toUTF8.data.toList,
        "400 Bad Request".toUTF8.data.toList,
        some ("parsing file as multipart: ".toUTF8.data.toList ++ reason ++ "\n".toUTF8.data.toList)⟩ := by
  obtain ⟨hu, h400, hp⟩ := sends_posts hs boundary
  have hm : Spec.Multipart (prepareRequest boundary c).received := by
    rw [multipart_iff, received_file boundary c hu]
    rfl
  have hf : (prepareRequest boundary c).received.fileField = some (u.content, false) := by
    rw [received_file boundary c hu]
    exact if_pos ⟨ha.2, ha.1⟩
  have hc : Spec.Carries (prepareRequest boundary c).received u.content false := .part hm hf
  have hno : ∀ f, ¬ Spec.CarriesFile env (prepareRequest boundary c).received f := by
    rintro f ⟨data, broken, hc', hf'⟩
    obtain ⟨rfl, rfl⟩ := carries_same hc' hc
    exact hn f hf'
  obtain ⟨reason, h1, h2, -⟩ := C104_refused env t jenv visits first h _ hp _ _ hc hno
  refine ⟨reason, h1, ?_⟩
  rw [told_eq, h2 hm]
  have : formatErrorMessage (responseStatus 400) = "400 Bad Request".toUTF8.data.toList := by decide +kernel
  unfold ClientCall.result
  rw [if_pos (show 400 ≥ 300 by decide), if_pos h400, this]

/-- A file that is not read. -/
def wrongUpload : Upload := ⟨b! "metro.json", wrongTrailer, false⟩

theorem wrongUpload_unread : Spec.Unread textEnv wrongUpload := by
  intro f h
  have h := wrongTrailer_refused.symm.trans h
  cases h

/-- C119, the negation: `Validator` with a file that is not read says only that the request was bad. -/
theorem C119_violated : ¬ C119_statement := by
  intro hall
  obtain ⟨e, reason, h1, h2, h3⟩ := hall textEnv texts isoEnv backwards firstJson texts_json (b! "b") _ wrongUpload .validator
    ⟨by decide, by decide +kernel⟩ wrongUpload_unread
  obtain ⟨reason', h4, h5⟩ := C119_refused_partial textEnv texts isoEnv backwards firstJson texts_json (b! "b") _ wrongUpload .validator
    ⟨by decide, by decide +kernel⟩ wrongUpload_unread
  rw [h5] at h1
  cases h1
  have hr : Spec.Reason texts.lib isoEnv firstJson textEnv.plan wrongUpload.content false "reading file: Unable to parse input json file".toUTF8.data.toList :=
    .document (.inr ⟨rfl, by decide +kernel⟩) ((earlyBrace_iff _).1 (by decide +kernel)) wrongTrailer_json wrongTrailer_head wrongTrailer_numbers
  rw [C104_one_reason _ _ _ _ _ _ _ _ h2 hr] at h3
  have h6 : "reading file: Unable to parse input json file".toUTF8.data.toList.length ≤ "400 Bad Request".toUTF8.data.toList.length := h3.length_le
  exact absurd h6 (by decide +kernel)

/-! ### Cases -/

/-- Case of `C119_refused_partial`: `Print` with a file that is not read. -/
example : ∃ reason, Spec.Reason libTexts isoEnv firstJson slow wrongTrailer false reason ∧
    (printCall { file := some wrongUpload }).told textEnv texts (b! "b") = .error ⟨b! "parsing file as multipart: " ++ reason ++ b! "\n", b! "400 Bad Request",
      some (b! "parsing file as multipart: " ++ reason ++ b! "\n")⟩ :=
  C119_refused_partial textEnv texts isoEnv backwards firstJson texts_json (b! "b") _ wrongUpload (.print rfl) ⟨by decide, by decide +kernel⟩ wrongUpload_unread

/-- Case of `C119_told`: `Print` in an unknown format; the call has no model for 501. -/
example : (printCall { file := some ⟨b! "metro.json", b! "{}", false⟩, format := some (b! "xml") }).told textEnv texts (b! "b") =
    .error ⟨textEnv.encode (.obj [(b! "error", .str (b! "invalid format: xml"))]), b! "501 Not Implemented", none⟩ := by
  decide +kernel

end Metro2
