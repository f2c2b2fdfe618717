import Verif.Lemmas.Server
import Verif.Props.Reading
import Verif.Props.Totals

/-! C50 and C51: the answers of the HTTP service. -/

namespace Metro2

open Samples

/-! ### Requests -/

theorem says_iff (r : Request) (key word : String) (hw : ∀ c ∈ word.toUTF8.data.toList, 97 ≤ c ∧ c ≤ 122) :
    Spec.Says r key word ↔ equalFold (r.form key.toUTF8.data.toList) word.toUTF8.data.toList = true :=
  (spells_fold _ hw _).symm

theorem multipart_iff (r : Request) :
    Spec.Multipart r ↔ (b! "multipart/").isPrefixOf (lowerText r.contentType) = true :=
  (spells_lower _ (by decide) _).symm

theorem carriesFile_iff (env : ServerEnv) (r : Request) (f : File) :
    Spec.CarriesFile env r f ↔ parseInputFromRequest env r = .ok f := by
  unfold parseInputFromRequest
  by_cases hm : Spec.Multipart r
  · rw [if_pos ((multipart_iff r).1 hm)]
    constructor
    · rintro ⟨data, broken, hc, h⟩
      cases hc with
      | part _ hf => rw [hf]; exact h
      | body hn => exact absurd hm hn
    · intro h
      split at h
      · cases h
      · next data broken hf => exact ⟨data, broken, .part hm hf, h⟩
  · rw [if_neg (fun h => hm ((multipart_iff r).2 h))]
    constructor
    · rintro ⟨data, broken, hc, h⟩
      cases hc with
      | part h1 _ => exact absurd h1 hm
      | body _ => exact h
    · intro h; exact ⟨_, _, .body hm, h⟩

theorem not_carries {env : ServerEnv} {r : Request} {e : Err} (h : parseInputFromRequest env r = .error e) (f : File) :
    ¬ Spec.CarriesFile env r f := by
  rw [carriesFile_iff, h]
  simp

theorem getFormat_metro {r : Request} (h : Spec.WantsMetro r) : getFormat r = some messageMetroFormat := by
  have h : (if r.contentType = b! "application/json" then r.query (b! "format") else r.form (b! "format")) = messageMetroFormat := h
  unfold getFormat
  simp only
  rw [h]
  rfl

theorem getFormat_json {r : Request} (h : Spec.WantsJson r) : getFormat r = some messageJsonFormat := by
  have h : (if r.contentType = b! "application/json" then r.query (b! "format") else r.form (b! "format")) = messageJsonFormat ∨
    (if r.contentType = b! "application/json" then r.query (b! "format") else r.form (b! "format")) = [] := h
  unfold getFormat
  simp only
  rcases h with h | h <;> rw [h] <;> rfl

theorem getFormat_unknown {r : Request} (h1 : ¬ Spec.WantsMetro r) (h2 : ¬ Spec.WantsJson r) : getFormat r = none := by
  have h1 : ¬ (if r.contentType = b! "application/json" then r.query (b! "format") else r.form (b! "format")) = messageMetroFormat := h1
  have h2 : ¬ ((if r.contentType = b! "application/json" then r.query (b! "format") else r.form (b! "format")) = messageJsonFormat ∨
    (if r.contentType = b! "application/json" then r.query (b! "format") else r.form (b! "format")) = []) := h2
  unfold getFormat
  simp only
  rw [if_neg (fun h => h2 (Or.inr h)), if_pos ⟨h1, fun h => h2 (Or.inl h)⟩]

theorem not_metro_and_json {r : Request} (h1 : Spec.WantsMetro r) (h2 : Spec.WantsJson r) : False := by
  have := getFormat_metro h1
  rw [getFormat_json h2] at this
  exact absurd this (by decide)

theorem sameLines_iff (r : Request) (nl : Bool) : Spec.SameLines r nl ↔ nl = getIsNewLine r := by
  unfold Spec.SameLines getIsNewLine
  rw [says_iff r "newline" "false" (by decide +kernel)]
  show (nl = false ↔ equalFold (r.form (b! "newline")) (b! "false") = true) ↔ _
  cases equalFold (r.form (b! "newline")) (b! "false") <;> cases nl <;> simp

/-! ### Responses -/

theorem serve_validator {env : ServerEnv} {r : Request} (h : Spec.Post r "/validator") (w : Writer) :
    serve env r w = serveValidator env r w := by
  obtain ⟨h1, h2⟩ := h
  rw [serve, h1, h2]
  rfl

theorem serve_print {env : ServerEnv} {r : Request} (h : Spec.Post r "/print") (w : Writer) :
    serve env r w = servePrint env r w := by
  obtain ⟨h1, h2⟩ := h
  rw [serve, h1, h2]
  rfl

theorem serve_convert {env : ServerEnv} {r : Request} (h : Spec.Post r "/convert") (w : Writer) :
    serve env r w = serveConvert env r w := by
  obtain ⟨h1, h2⟩ := h
  rw [serve, h1, h2]
  rfl

theorem finish_httpError (text : Bytes) (code : Nat) : (httpError {} text code).finish = (code,
    [(b! "X-Content-Type-Options", b! "nosniff"), (b! "Content-Type", b! "text/plain; charset=utf-8")], text ++ [10]) := rfl

theorem finish_outputError (env : ServerEnv) (text : Bytes) (code : Nat) : (outputError env {} code text).finish =
    (code, [], env.encode (.obj [(b! "error", .str text)])) := rfl

theorem finish_outputSuccess (env : ServerEnv) (text : Bytes) : (outputSuccess env {} text).finish =
    (200, [], env.encode (.obj [(b! "status", .str text)])) := rfl

theorem finish_output (env : ServerEnv) (f : File) (format : Bytes) (nl : Bool) :
    (outputBufferToWriter env {} f format nl).finish.1 = 200 ∧ (outputBufferToWriter env {} f format nl).finish.2.1 = [] := by
  unfold outputBufferToWriter
  simp only
  split
  · exact ⟨rfl, rfl⟩
  · split <;> exact ⟨rfl, rfl⟩

theorem carries_uniform {env : ServerEnv} (hj : Spec.JsonBranch env) {r : Request} (f : File) (hf : Spec.CarriesFile env r f) :
    Spec.Uniform f := by
  obtain ⟨data, broken, -, hf⟩ := hf
  obtain ⟨jenv, visits, first, hj⟩ := hj
  rw [hj] at hf
  exact (C53_reader jenv visits first _ data broken f hf).1

/-- `convert` up to the output. -/
def prepared (r : Request) (f : File) : Except Err File :=
  if equalFold (r.form (b! "generate")) (b! "true") then generateTrailer f else .ok f

theorem serveConvert_eq (env : ServerEnv) (r : Request) (w : Writer) : serveConvert env r w =
    match parseInputFromRequest env r with
    | .error e => httpError w (env.errText e) statusBadRequest
    | .ok f =>
      match prepared r f with
      | .error e => httpError w (env.errText e) statusNotImplemented
      | .ok f =>
        match getFormat r with
        | none => outputError env w statusNotImplemented (formatErrorText r)
        | some format =>
          match messageToBuf env format (changeType f (r.form (b! "type"))) (getIsNewLine r) with
          | none => outputError env w statusNotImplemented (formatErrorText r)
          | some output =>
            (((((w.set contentTypeKey (b! "application/octet-stream")).set (b! "Content-Disposition")
              (b! "attachment; filename=converted_file")).set (b! "Content-Transfer-Encoding") (b! "binary")).set (b! "Expires")
              (b! "0")).writeHeader statusOK).write output := rfl

theorem generate_cases {f : File} (hu : Spec.Uniform f) (b : Bool) :
    (b = true ∧ f.bases = [] ∧ ∃ e, (if b then generateTrailer f else .ok f) = .error e) ∨
    (¬ (b = true ∧ f.bases = []) ∧ ∃ g, Spec.WithTrailer (b = true) f g ∧ Spec.Uniform g ∧
      (if b then generateTrailer f else .ok f) = .ok g) := by
  cases b with
  | true =>
    rw [if_pos rfl]
    unfold generateTrailer
    by_cases hb : f.bases = []
    · obtain ⟨t, h1, h2⟩ := C36_empty_refused hb
      left
      refine ⟨rfl, hb, .required .TotalBaseRecords, ?_⟩
      rw [h1]
      simp only
      rw [h2]
    · right
      obtain ⟨t, h1, h2⟩ := generated_accepted hu.bases hb
      refine ⟨fun h => hb h.2, { f with trailer := t }, Or.inl ⟨rfl, t, h1, rfl⟩, ?_, ?_⟩
      · have ht : ∃ fs, t = .trailer f.format fs := by
          obtain ⟨fs, h, -⟩ := C34_generated hu.bases
          rw [h1] at h
          cases h
          exact ⟨fs, rfl⟩
        exact ⟨hu.header, hu.bases, ht⟩
      · rw [h1]
        simp only
        rw [h2]
  | false =>
    right
    exact ⟨fun h => Bool.noConfusion h.1, f, Or.inr ⟨Bool.noConfusion, rfl⟩, hu, rfl⟩

theorem prepared_cases {f : File} (hu : Spec.Uniform f) (r : Request) :
    (Spec.Says r "generate" "true" ∧ f.bases = [] ∧ ∃ e, prepared r f = .error e) ∨
    (¬ (Spec.Says r "generate" "true" ∧ f.bases = []) ∧ ∃ g, Spec.WithTrailer (Spec.Says r "generate" "true") f g ∧
      Spec.Uniform g ∧ prepared r f = .ok g) := by
  rw [says_iff r "generate" "true" (by decide +kernel)]
  exact generate_cases hu _

theorem changeType_spec {f : File} (hu : Spec.Uniform f) (ty : Bytes) : Spec.InType ty f (changeType f ty) := by
  have key : ∀ ty : Bytes, (ty = b! "character" ∧ changeType f ty = Spec.fileIn .character f) ∨
      (ty = b! "packed" ∧ changeType f ty = Spec.fileIn .packed f) ∨
      (ty ≠ b! "character" ∧ ty ≠ b! "packed" ∧ changeType f ty = f) := by
    intro ty
    unfold changeType
    by_cases h1 : ty = Enc.character.name
    · left
      rw [if_pos (Or.inl h1), h1, C33_setType hu]
      exact ⟨rfl, rfl⟩
    · by_cases h2 : ty = Enc.packed.name
      · right; left
        rw [if_pos (Or.inr h2), h2, C33_setType hu]
        exact ⟨rfl, rfl⟩
      · right; right
        rw [if_neg (by rintro (h | h); exacts [h1 h, h2 h])]
        exact ⟨h1, h2, rfl⟩
  exact key _

theorem withTrailer_unique {wanted : Prop} {f g g' : File} (h : Spec.WithTrailer wanted f g) (h' : Spec.WithTrailer wanted f g') : g = g' := by
  rcases h with ⟨h1, t, h2, rfl⟩ | ⟨h1, rfl⟩ <;> rcases h' with ⟨h3, t', h4, rfl⟩ | ⟨h3, rfl⟩
  · rw [h2] at h4; cases h4; rfl
  · exact absurd h1 h3
  · exact absurd h3 h1
  · rfl

theorem inType_unique {ty : Bytes} {f g g' : File} (h : Spec.InType ty f g) (h' : Spec.InType ty f g') : g = g' := by
  have hne : "character".toUTF8.data.toList ≠ "packed".toUTF8.data.toList := by decide +kernel
  rcases h with ⟨a, rfl⟩ | ⟨a, rfl⟩ | ⟨a, b, rfl⟩ <;> rcases h' with ⟨c, rfl⟩ | ⟨c, rfl⟩ | ⟨c, d, rfl⟩ <;>
    first | rfl | contradiction | (rw [a] at c; exact absurd c hne) | (rw [a] at c; exact absurd c.symm hne)

/-! ### C50 -/

/-- C50, /validator: 400 exactly if the request carries no file, 501 exactly if it carries one that is not valid, 200 exactly if
it carries a valid one. -/
theorem C50_validator (env : ServerEnv) (r : Request) (h : Spec.Post r "/validator") :
    (Spec.status env r = 400 ↔ ∀ f, ¬ Spec.CarriesFile env r f) ∧
    (Spec.status env r = 501 ↔ ∃ f, Spec.CarriesFile env r f ∧ f.validate ≠ none) ∧
    (Spec.status env r = 200 ↔ ∃ f, Spec.CarriesFile env r f ∧ f.validate = none) ∧
    (Spec.status env r = 200 → Spec.body env r = env.encode (.obj [(b! "status", .str (b! "valid file"))])) := by
  unfold Spec.status Spec.body
  rw [serve_validator h]
  unfold serveValidator
  simp only [carriesFile_iff]
  cases parseInputFromRequest env r with
  | error e =>
    simp only [finish_httpError]
    simp [statusBadRequest]
  | ok f =>
    simp only [Except.ok.injEq]
    cases hv : f.validate with
    | some e => simp only [finish_httpError]; simp [hv, statusNotImplemented]
    | none => simp only [finish_outputSuccess]; simp [hv]

/-- C50, /print: 400 exactly if the request carries no file, 501 exactly if it carries one but asks for an unknown format, 200 exactly if it carries one and asks for
a known format. -/
theorem C50_print (env : ServerEnv) (r : Request) (h : Spec.Post r "/print") :
    (Spec.status env r = 400 ↔ ∀ f, ¬ Spec.CarriesFile env r f) ∧
    (Spec.status env r = 501 ↔ (∃ f, Spec.CarriesFile env r f) ∧ ¬ Spec.WantsMetro r ∧ ¬ Spec.WantsJson r) ∧
    (Spec.status env r = 200 ↔ (∃ f, Spec.CarriesFile env r f) ∧ (Spec.WantsMetro r ∨ Spec.WantsJson r)) := by
  unfold Spec.status
  rw [serve_print h]
  unfold servePrint
  simp only [carriesFile_iff]
  cases parseInputFromRequest env r with
  | error e =>
    simp only [finish_httpError]
    simp [statusBadRequest]
  | ok f =>
    simp only [Except.ok.injEq]
    by_cases h1 : Spec.WantsMetro r
    · rw [getFormat_metro h1]
      simp [h1, messageToBuf, outputBufferToWriter, messageJsonFormat, messageMetroFormat, Writer.finish, Writer.set, Writer.writeHeader, Writer.write, statusOK]
    · by_cases h2 : Spec.WantsJson r
      · rw [getFormat_json h2]
        simp [h1, h2, messageToBuf, outputBufferToWriter, Writer.finish, Writer.set, Writer.writeHeader, Writer.write, statusOK]
      · rw [getFormat_unknown h1 h2]
        simp only [finish_outputError]
        simp [h1, h2, statusNotImplemented]

/-- C50, /print: the body of a 200 is the file in the format asked for. -/
theorem C50_print_body (env : ServerEnv) (r : Request) (h : Spec.Post r "/print") (f : File) (hf : Spec.CarriesFile env r f) :
    (Spec.WantsJson r → Spec.body env r = env.encode f.toJson) ∧
    (Spec.WantsMetro r → ∀ nl, Spec.SameLines r nl → Spec.body env r = f.string nl) := by
  rw [carriesFile_iff] at hf
  unfold Spec.body
  rw [serve_print h]
  unfold servePrint
  rw [hf]
  constructor
  · intro h1
    rw [getFormat_json h1]
    simp [messageToBuf, outputBufferToWriter, Writer.finish, Writer.set, Writer.writeHeader, Writer.write]
  · intro h1 nl hn
    rw [getFormat_metro h1, (sameLines_iff r nl).1 hn]
    simp [messageToBuf, outputBufferToWriter, messageJsonFormat, messageMetroFormat, Writer.finish, Writer.set, Writer.writeHeader, Writer.write]

/-- C50, /convert: 400 exactly if the request carries no file; 501 exactly if it carries one, but asks for an unknown format or for a trailer of a file
without data records; else 200. -/
theorem C50_convert (env : ServerEnv) (hj : Spec.JsonBranch env) (r : Request) (h : Spec.Post r "/convert") :
    (Spec.status env r = 400 ↔ ∀ f, ¬ Spec.CarriesFile env r f) ∧
    (Spec.status env r = 501 ↔ ∃ f, Spec.CarriesFile env r f ∧
      ((Spec.Says r "generate" "true" ∧ f.bases = []) ∨ (¬ Spec.WantsMetro r ∧ ¬ Spec.WantsJson r))) ∧
    (Spec.status env r = 200 ↔ ∃ f, Spec.CarriesFile env r f ∧
      ¬ (Spec.Says r "generate" "true" ∧ f.bases = []) ∧ (Spec.WantsMetro r ∨ Spec.WantsJson r)) := by
  have hu : ∀ f, Spec.CarriesFile env r f → Spec.Uniform f := carries_uniform hj
  unfold Spec.status
  rw [serve_convert h, serveConvert_eq]
  simp only [carriesFile_iff] at hu ⊢
  cases hp : parseInputFromRequest env r with
  | error e =>
    simp only [finish_httpError]
    simp [statusBadRequest]
  | ok f =>
    simp only [Except.ok.injEq]
    rcases prepared_cases (hu f hp) r with ⟨h1, h2, e, h3⟩ | ⟨h1, g, -, -, h3⟩
    · rw [h3]
      simp only [finish_httpError]
      simp [h1, h2, statusNotImplemented]
    · rw [h3]
      simp only
      by_cases h4 : Spec.WantsMetro r
      · rw [getFormat_metro h4]
        simp [h1, h4, messageToBuf, messageJsonFormat, messageMetroFormat, Writer.finish, Writer.set, Writer.writeHeader, Writer.write, statusOK]
      · by_cases h5 : Spec.WantsJson r
        · rw [getFormat_json h5]
          simp [h1, h4, h5, messageToBuf, Writer.finish, Writer.set, Writer.writeHeader, Writer.write, statusOK]
        · rw [getFormat_unknown h4 h5]
          simp only [finish_outputError]
          simp [h1, h4, h5, statusNotImplemented]

/-- C50, /convert: the body of a 200 is the file, with its generated trailer if one is asked for, in the type and in the format asked for. -/
theorem C50_convert_body (env : ServerEnv) (hj : Spec.JsonBranch env) (r : Request) (h : Spec.Post r "/convert") (f g k : File)
    (hf : Spec.CarriesFile env r f) (hne : ¬ (Spec.Says r "generate" "true" ∧ f.bases = [])) (hg : Spec.WithTrailer (Spec.Says r "generate" "true") f g)
    (hk : Spec.InType (r.form "type".toUTF8.data.toList) g k) :
    (Spec.WantsJson r → Spec.body env r = env.indent k.toJson) ∧
    (Spec.WantsMetro r → ∀ nl, Spec.SameLines r nl → Spec.body env r = k.string nl) := by
  have hu : Spec.Uniform f := carries_uniform hj f hf
  rw [carriesFile_iff] at hf
  unfold Spec.body
  rw [serve_convert h, serveConvert_eq, hf]
  simp only
  rcases prepared_cases hu r with ⟨h1, h2, -⟩ | ⟨-, g', h1, h2, h3⟩
  · exact absurd ⟨h1, h2⟩ hne
  · cases withTrailer_unique hg h1
    rw [h3]
    have hk' : changeType g (r.form (b! "type")) = k := inType_unique (changeType_spec h2 _) hk
    simp only
    constructor
    · intro h1
      rw [getFormat_json h1]
      simp [hk', messageToBuf, Writer.finish, Writer.set, Writer.writeHeader, Writer.write]
    · intro h1 nl hn
      rw [getFormat_metro h1, (sameLines_iff r nl).1 hn]
      simp [hk', messageToBuf, messageJsonFormat, messageMetroFormat, Writer.finish, Writer.set, Writer.writeHeader, Writer.write]

/-- C50, the routes: /health answers `GET` with 200, and other requests than `GET /health` and `POST` to the three paths with 404 (unknown
path) or 405 (known path). -/
theorem C50_routes (env : ServerEnv) (r : Request) :
    (r.path = b! "/health" ∧ r.method = b! "GET" → Spec.status env r = 200 ∧
      Spec.body env r = env.encode (.obj [(b! "status", .str (b! "alive"))])) ∧
    (r.path ∉ [b! "/health", b! "/print", b! "/validator", b! "/convert"] → Spec.status env r = 404) ∧
    (r.path = b! "/health" ∧ r.method ≠ b! "GET" ∨ r.path ∈ [b! "/print", b! "/validator", b! "/convert"] ∧ r.method ≠ b! "POST" →
      Spec.status env r = 405 ∧ Spec.body env r = []) := by
  unfold Spec.status Spec.body
  refine ⟨?_, ?_, ?_⟩
  · rintro ⟨h1, h2⟩
    rw [serve, if_pos h1, if_pos h2]
    exact ⟨rfl, rfl⟩
  · intro h
    simp only [List.mem_cons, List.not_mem_nil, or_false, not_or] at h
    rw [serve, if_neg h.1, if_neg h.2.1, if_neg h.2.2.1, if_neg h.2.2.2]
    rfl
  · rintro (⟨h1, h2⟩ | ⟨h1, h2⟩)
    · rw [serve, if_pos h1, if_neg h2]
      exact ⟨rfl, rfl⟩
    · simp only [List.mem_cons, List.not_mem_nil, or_false] at h1
      rcases h1 with h1 | h1 | h1
      · rw [serve, if_neg (by rw [h1]; decide), if_pos h1, if_neg h2]
        exact ⟨rfl, rfl⟩
      · rw [serve, if_neg (by rw [h1]; decide), if_neg (by rw [h1]; decide), if_pos h1, if_neg h2]
        exact ⟨rfl, rfl⟩
      · rw [serve, if_neg (by rw [h1]; decide), if_neg (by rw [h1]; decide), if_neg (by rw [h1]; decide), if_pos h1, if_neg h2]
        exact ⟨rfl, rfl⟩

/-! ### C51 -/

/-- The handler declares that the body is JSON, but the client is not told. -/
def JsonTypeLost (env : ServerEnv) (r : Request) : Prop :=
  Spec.declared env r = [(b! "Content-Type", b! "application/json; charset=utf-8")] ∧ Spec.headers env r = []

theorem lost_outputError (env : ServerEnv) (code : Nat) (text : Bytes) :
    (outputError env {} code text).header = [(contentTypeKey, jsonType)] ∧ (outputError env {} code text).finish.2.1 = [] := ⟨rfl, rfl⟩

theorem lost_outputSuccess (env : ServerEnv) (text : Bytes) :
    (outputSuccess env {} text).header = [(contentTypeKey, jsonType)] ∧ (outputSuccess env {} text).finish.2.1 = [] := ⟨rfl, rfl⟩

theorem kept_httpError (text : Bytes) (code : Nat) : (httpError {} text code).finish.2.1 = (httpError {} text code).header := rfl

/-- C51 fails: whatever the request, the declared content type is lost in every answer of /health, in the 200 of /validator, in the 200 and 501 of /print, and in
the 501 of /convert for an unknown format. -/
theorem C51_lost (env : ServerEnv) (r : Request) :
    (r.path = b! "/health" ∧ r.method = b! "GET" → JsonTypeLost env r) ∧
    (Spec.Post r "/validator" → Spec.status env r = 200 → JsonTypeLost env r) ∧
    (Spec.Post r "/print" → Spec.status env r = 501 → JsonTypeLost env r) ∧
    (Spec.Post r "/print" → Spec.status env r = 200 → Spec.WantsJson r → JsonTypeLost env r) ∧
    (Spec.Post r "/print" → Spec.status env r = 200 → Spec.WantsMetro r → Spec.headers env r = [] ∧
      Spec.declared env r = [(b! "Content-Type", b! "application/octet-stream; charset=utf-8")]) ∧
    (Spec.JsonBranch env → Spec.Post r "/convert" → (∀ f, Spec.CarriesFile env r f → Spec.Says r "generate" "true" → f.bases ≠ []) →
      Spec.status env r = 501 → JsonTypeLost env r) := by
  unfold JsonTypeLost Spec.status Spec.headers Spec.declared
  refine ⟨?_, ?_, ?_, ?_, ?_, ?_⟩
  · rintro ⟨h1, h2⟩
    rw [serve, if_pos h1, if_pos h2]
    exact ⟨rfl, rfl⟩
  · intro h hs
    rw [serve_validator h] at hs ⊢
    unfold serveValidator at hs ⊢
    split at hs
    · rw [finish_httpError] at hs; cases hs
    · split at hs
      · rw [finish_httpError] at hs; cases hs
      · exact lost_outputSuccess env _
  · intro h hs
    rw [serve_print h] at hs ⊢
    unfold servePrint at hs ⊢
    split at hs
    · rw [finish_httpError] at hs; cases hs
    · split at hs
      · exact lost_outputError env _ _
      · split at hs
        · exact lost_outputError env _ _
        · rw [(finish_output env _ _ _).1] at hs; cases hs
  · intro h hs hw
    rw [serve_print h] at hs ⊢
    unfold servePrint at hs ⊢
    split at hs
    · rw [finish_httpError] at hs; cases hs
    · rw [getFormat_json hw]
      exact ⟨rfl, rfl⟩
  · intro h hs hw
    rw [serve_print h] at hs ⊢
    unfold servePrint at hs ⊢
    split at hs
    · rw [finish_httpError] at hs; cases hs
    · rw [getFormat_metro hw]
      exact ⟨rfl, rfl⟩
  · intro hj h hb hs
    have hu : ∀ f, Spec.CarriesFile env r f → Spec.Uniform f := carries_uniform hj
    simp only [carriesFile_iff] at hu hb
    rw [serve_convert h, serveConvert_eq] at hs ⊢
    cases hp : parseInputFromRequest env r with
    | error e => rw [hp] at hs; simp only [finish_httpError] at hs; cases hs
    | ok f =>
      rw [hp] at hs
      rcases prepared_cases (hu f hp) r with ⟨h1, h2, -⟩ | ⟨h1, g, -, -, h3⟩
      · exact absurd h2 (hb f hp h1)
      · simp only [h3] at hs ⊢
        split at hs
        · exact lost_outputError env _ _
        · split at hs
          · exact lost_outputError env _ _
          · cases hs

/-- C51, the part that holds: an error that is reported by `http.Error` (400 and 404), a rejected file of /validator (501), and the result of /convert (200) carry
all headers that were set. Missing: all other answers; see `C51_lost`. -/
theorem C51_delivered_partial (env : ServerEnv) (r : Request)
    (h : Spec.status env r = 400 ∨ Spec.status env r = 404 ∨ (Spec.Post r "/validator" ∧ Spec.status env r = 501) ∨
      (Spec.Post r "/convert" ∧ Spec.status env r = 200)) :
    Spec.headers env r = Spec.declared env r ∧ Spec.headers env r ≠ [] := by
  have hpath : ∀ {a b : String}, Spec.Post r a → r.path = b.toUTF8.data.toList → a.toUTF8.data.toList = b.toUTF8.data.toList :=
    fun h1 h2 => h1.2.symm.trans h2
  unfold Spec.status at h
  unfold Spec.headers Spec.declared
  by_cases hv : Spec.Post r "/validator"
  · rw [serve_validator hv] at h ⊢
    unfold serveValidator at h ⊢
    split at h
    · exact ⟨rfl, by simp [finish_httpError]⟩
    · split at h
      · exact ⟨rfl, by simp [finish_httpError]⟩
      · rcases h with h | h | ⟨-, h⟩ | ⟨h, -⟩
        · cases h
        · cases h
        · cases h
        · exact absurd (hpath h hv.2) (by decide +kernel)
  · by_cases hp : Spec.Post r "/print"
    · rw [serve_print hp] at h ⊢
      unfold servePrint at h ⊢
      have hne : ∀ c, c ≠ 400 ∧ c ≠ 404 → ∀ P : Prop, (c = 400 ∨ c = 404 ∨ (Spec.Post r "/validator" ∧ c = 501) ∨
          (Spec.Post r "/convert" ∧ c = 200)) → P := by
        rintro c ⟨h1, h2⟩ P (h | h | ⟨h, -⟩ | ⟨h, -⟩)
        · exact absurd h h1
        · exact absurd h h2
        · exact absurd h hv
        · exact absurd (hpath h hp.2) (by decide +kernel)
      split at h
      · exact ⟨rfl, by simp [finish_httpError]⟩
      · split at h
        · exact hne 501 (by decide) _ h
        · split at h
          · exact hne 501 (by decide) _ h
          · rw [(finish_output env _ _ _).1] at h
            exact hne 200 (by decide) _ h
    · by_cases hc : Spec.Post r "/convert"
      · rw [serve_convert hc, serveConvert_eq] at h ⊢
        have hne : ∀ P : Prop, (501 = 400 ∨ 501 = 404 ∨ (Spec.Post r "/validator" ∧ 501 = 501) ∨
            (Spec.Post r "/convert" ∧ 501 = 200)) → P := by
          rintro P (h | h | ⟨h, -⟩ | ⟨-, h⟩)
          · cases h
          · cases h
          · exact absurd h hv
          · cases h
        split at h
        · exact ⟨rfl, by simp [finish_httpError]⟩
        · split at h
          · exact hne _ h
          · split at h
            · exact hne _ h
            · split at h
              · exact hne _ h
              · exact ⟨rfl, by simp [Writer.finish, Writer.set, Writer.writeHeader, Writer.write]⟩
      · have hlow : ∀ c, c ≠ 400 ∧ c ≠ 404 → ∀ P : Prop, (c = 400 ∨ c = 404 ∨ (Spec.Post r "/validator" ∧ c = 501) ∨
            (Spec.Post r "/convert" ∧ c = 200)) → P := by
          rintro c ⟨h1, h2⟩ P (h | h | ⟨h, -⟩ | ⟨h, -⟩)
          · exact absurd h h1
          · exact absurd h h2
          · exact absurd h hv
          · exact absurd h hc
        unfold serve at h ⊢
        split at h
        · split at h
          · exact hlow 200 (by decide) _ h
          · exact hlow 405 (by decide) _ h
        · next n1 =>
          split at h
          · next h1 =>
            split at h
            · next h2 => exact absurd ⟨h2, h1⟩ hp
            · exact hlow 405 (by decide) _ h
          · next n2 =>
            split at h
            · next h1 =>
              split at h
              · next h2 => exact absurd ⟨h2, h1⟩ hv
              · exact hlow 405 (by decide) _ h
            · next n3 =>
              split at h
              · next h1 =>
                split at h
                · next h2 => exact absurd ⟨h2, h1⟩ hc
                · exact hlow 405 (by decide) _ h
              · next n4 =>
                rw [if_neg n1, if_neg n2, if_neg n3, if_neg n4]
                exact ⟨rfl, by simp [finish_httpError]⟩

/-- C51 fails. -/
theorem C51_violated : ∃ env r, Spec.status env r = 200 ∧ (b! "Content-Type", b! "application/json; charset=utf-8") ∈ Spec.declared env r ∧
    Spec.headers env r = [] :=
  ⟨⟨fun _ => [], fun _ => [], fun _ => [], fun _ => .error .io, slow⟩,
    ⟨b! "GET", b! "/health", [], [], false, none, fun _ => [], fun _ => []⟩, rfl, by decide +kernel, rfl⟩

/-! ### Examples -/

/-- A service. -/
def sampleEnv : ServerEnv where
  encode _ := b! "json"
  indent _ := b! "indented json"
  errText _ := b! "error"
  json := readJson isoEnv backwards fun _ => none
  plan := slow

/-- A request with one form parameter. -/
def sampleRequest (path body key value : Bytes) : Request :=
  ⟨b! "POST", path, b! "application/octet-stream", body, false, none, fun _ => [], fun k => if k = key then value else []⟩

theorem sampleEnv_json : Spec.JsonBranch sampleEnv := ⟨isoEnv, backwards, fun _ => none, rfl⟩

theorem carries_sample (path key value : Bytes) :
    Spec.CarriesFile sampleEnv (sampleRequest path (fixedFile.string true) key value) fixedFile := by
  rw [carriesFile_iff]
  have : parseInputFromRequest sampleEnv (sampleRequest path (fixedFile.string true) key value) =
      newFileFromReader (readJson isoEnv backwards fun _ => none) slow (fixedFile.string true) false := by
    unfold parseInputFromRequest
    exact if_neg (show ¬ (b! "multipart/").isPrefixOf (lowerText (b! "application/octet-stream")) = true by decide)
  rw [this]
  exact C41_read false _ fixedFile_good true (fixedFile_noBrace true) _ _ slow_progress

theorem no_file (path key value : Bytes) (f : File) : ¬ Spec.CarriesFile sampleEnv (sampleRequest path [] key value) f := by
  rw [carriesFile_iff]
  have : parseInputFromRequest sampleEnv (sampleRequest path [] key value) = .error .io := by
    unfold parseInputFromRequest
    exact if_neg (show ¬ (b! "multipart/").isPrefixOf (lowerText (b! "application/octet-stream")) = true by decide)
  rw [this]
  simp

theorem sample_post (path : String) (body key value : Bytes) : Spec.Post (sampleRequest path.toUTF8.data.toList body key value) path :=
  ⟨show b! "POST" = "POST".toUTF8.data.toList by decide +kernel, rfl⟩

/-- No file, and a file that is read. -/
example : Spec.status sampleEnv (sampleRequest (b! "/validator") [] [] []) = 400 ∧
    Spec.status sampleEnv (sampleRequest (b! "/validator") (fixedFile.string true) [] []) ≠ 400 := by
  constructor
  · exact (C50_validator _ _ (sample_post "/validator" _ _ _)).1.2 (no_file _ _ _)
  · intro h
    exact (C50_validator _ _ (sample_post "/validator" _ _ _)).1.1 h _ (carries_sample _ _ _)

/-- The Metro 2 text, with line breaks. -/
example : Spec.status sampleEnv (sampleRequest (b! "/print") (fixedFile.string true) (b! "format") (b! "metro")) = 200 ∧
    Spec.body sampleEnv (sampleRequest (b! "/print") (fixedFile.string true) (b! "format") (b! "metro")) = fixedFile.string true := by
  have hw : Spec.WantsMetro (sampleRequest (b! "/print") (fixedFile.string true) (b! "format") (b! "metro")) := by
    show (_ : Bytes) = _; decide +kernel
  refine ⟨(C50_print _ _ (sample_post "/print" _ _ _)).2.2.2 ⟨⟨_, carries_sample _ _ _⟩, Or.inl hw⟩,
    (C50_print_body _ _ (sample_post "/print" _ _ _) _ (carries_sample _ _ _)).2 hw true ?_⟩
  rw [sameLines_iff]
  decide +kernel

/-- A file that is read, in a format that does not exist. -/
example : Spec.status sampleEnv (sampleRequest (b! "/print") (fixedFile.string true) (b! "format") (b! "xml")) = 501 := by
  refine ((C50_print _ _ (sample_post "/print" _ _ _)).2.1).2 ⟨⟨_, carries_sample _ _ _⟩, ?_, ?_⟩
  · show ¬ (_ : Bytes) = _; decide +kernel
  · show ¬ ((_ : Bytes) = _ ∨ (_ : Bytes) = _); decide +kernel

/-- Case of `C50_convert_body`. A trailer is generated; the spelling of the parameter does not matter. -/
example : Spec.status sampleEnv (sampleRequest (b! "/convert") (fixedFile.string true) (b! "generate") (b! "True")) = 200 ∧
    Spec.Says (sampleRequest (b! "/convert") (fixedFile.string true) (b! "generate") (b! "True")) "generate" "true" := by
  constructor
  · refine (C50_convert _ sampleEnv_json _ (sample_post "/convert" _ _ _)).2.2.2 ⟨_, carries_sample _ _ _, ?_, Or.inr (Or.inr ?_)⟩
    · rintro ⟨-, h⟩; exact absurd h (by decide)
    · decide +kernel
  · rw [says_iff _ _ _ (by decide +kernel)]
    decide +kernel

/-- Cases of `C50_routes`, `C51_lost` and `C51_delivered_partial`. -/
example (r : Request) : Spec.status sampleEnv { r with path := b! "/status" } = 404 ∧
    Spec.headers sampleEnv { r with path := b! "/status" } = Spec.declared sampleEnv { r with path := b! "/status" } ∧
    Spec.status sampleEnv { r with path := b! "/health", method := b! "POST" } = 405 ∧
    JsonTypeLost sampleEnv { r with path := b! "/health", method := b! "GET" } := by
  have h : Spec.status sampleEnv { r with path := b! "/status" } = 404 := (C50_routes _ _).2.1 (show b! "/status" ∉ _ by decide +kernel)
  refine ⟨h, (C51_delivered_partial _ _ (.inr (.inl h))).1, ((C50_routes _ _).2.2 (.inl ⟨rfl, show b! "POST" ≠ _ by decide +kernel⟩)).1,
    (C51_lost _ _).1 ⟨rfl, rfl⟩⟩

end Metro2
