import Verif.Spec.Answers
import Verif.Props.JsonState
import Verif.Props.FileMessages
import Verif.Props.Program
import Verif.Lemmas.JsonDoc

/-! What the reader, the service and the program tell about an input that they do not take (C104). -/

namespace Metro2

/-! ### JSON documents -/

theorem folded_headerInfo : FoldedOk headerInfoStruct := by decide +kernel

theorem decodeStruct_bad {env : JsonEnv} {decl : List (F × FieldDecl)} (hd : FoldedOk decl) {fs : Fields} (ht : fs.Typed decl)
    (kvs : List (Bytes × Json)) : decodeStruct env decl fs (.obj kvs) = none ↔ ∃ kv ∈ kvs, Spec.BadMember env decl kv := by
  rw [← membersState_verdict hd kvs ht]
  have h := fun gs => structState_ok env decl fs gs (.obj kvs)
  have h2 : structState env decl fs (.obj kvs) = membersState env decl fs false kvs := rfl
  rw [h2] at h
  cases hs : membersState env decl fs false kvs with
  | mk gs b =>
    cases b with
    | true =>
      refine ⟨fun _ => rfl, fun _ => ?_⟩
      cases hq : decodeStruct env decl fs (.obj kvs) with
      | none => rfl
      | some q =>
        have h3 := (h q).2 hq
        rw [hs] at h3
        cases h3
    | false =>
      rw [(h gs).1 hs]
      exact ⟨fun h => (nomatch h), fun h => nomatch h⟩

theorem decodeStruct_keeps {env : JsonEnv} {decl : List (F × FieldDecl)} (hd : FoldedOk decl) {fs gs : Fields} (ht : fs.Typed decl) {j : Json}
    (h : decodeStruct env decl fs j = some gs) : gs.Typed decl := by
  have h2 := (structState_ok env decl fs gs j).2 h
  have h3 := structState_typed (env := env) hd ht j
  rwa [h2] at h3

/-- What the pointer of `dummyFile` may hold. -/
def HeadTyped (h : Option Fields) : Prop := ∀ fs, h = some fs → fs.Typed headerInfoStruct

theorem spells_header (k : Bytes) :
    (k = b! "header" ∨ foldKey k = foldKey (b! "header")) ↔ Spec.Spells Spec.foldOthers "header".toUTF8.data.toList k := by
  rw [spells_iff (by decide +kernel)]
  constructor
  · rintro (rfl | h)
    · rfl
    · exact h
  · exact .inr

theorem headValue_bad {env : JsonEnv} {start : Fields} (hstart : start.Typed headerInfoStruct) (v : Json) (x : Option (Option Fields))
    (hx : x = match v with | .null => some none | j => (decodeStruct env headerInfoStruct start j).map some) :
    (x = none ↔ Spec.BadHeadValue env v) ∧ ∀ h', x = some h' → HeadTyped h' := by
  have keep : ∀ h', (decodeStruct env headerInfoStruct start v).map some = some h' → HeadTyped h' := by
    intro h' e
    obtain ⟨gs, e1, e2⟩ := Option.map_eq_some_iff.1 e
    intro fs efs
    rw [← e2] at efs
    cases efs
    exact decodeStruct_keeps folded_headerInfo hstart e1
  rw [hx]
  cases v with
  | null => exact ⟨⟨fun h => (nomatch h), fun h => False.elim h⟩, fun h' e fs efs => by cases e; cases efs⟩
  | obj kvs =>
    refine ⟨?_, keep⟩
    simp only [Option.map_eq_none_iff]
    exact decodeStruct_bad folded_headerInfo hstart kvs
  | bool b => exact ⟨⟨fun _ => trivial, fun _ => rfl⟩, keep⟩
  | num l => exact ⟨⟨fun _ => trivial, fun _ => rfl⟩, keep⟩
  | str s => exact ⟨⟨fun _ => trivial, fun _ => rfl⟩, keep⟩
  | arr xs => exact ⟨⟨fun _ => trivial, fun _ => rfl⟩, keep⟩

theorem decodeDummyMember_bad {env : JsonEnv} {h : Option Fields} (ht : HeadTyped h) (kv : Bytes × Json) :
    (decodeDummyMember env h kv = none ↔ Spec.Spells Spec.foldOthers "header".toUTF8.data.toList kv.1 ∧ Spec.BadHeadValue env kv.2) ∧
    ∀ h', decodeDummyMember env h kv = some h' → HeadTyped h' := by
  obtain ⟨k, v⟩ := kv
  by_cases hk : k = b! "header" ∨ foldKey k = foldKey (b! "header")
  · have hs := (spells_header k).1 hk
    simp only [hs, true_and]
    cases h with
    | none =>
      refine headValue_bad (zeroFields_typed headerInfoStruct) v _ ?_
      rw [decodeDummyMember, if_pos hk]
      cases v <;> rfl
    | some fs =>
      refine headValue_bad (ht fs rfl) v _ ?_
      rw [decodeDummyMember, if_pos hk]
      cases v <;> rfl
  · have e0 : decodeDummyMember env h (k, v) = some h := by
      unfold decodeDummyMember
      exact if_neg hk
    rw [e0]
    refine ⟨⟨fun h => (nomatch h), fun h => absurd ((spells_header k).2 h.1) hk⟩, ?_⟩
    intro h' e
    cases e
    exact ht

theorem decodeDummy_members {env : JsonEnv} (kvs : List (Bytes × Json)) : ∀ {h : Option Fields}, HeadTyped h →
    (kvs.foldlM (decodeDummyMember env) h = none ↔
      ∃ kv ∈ kvs, Spec.Spells Spec.foldOthers "header".toUTF8.data.toList kv.1 ∧ Spec.BadHeadValue env kv.2) := by
  induction kvs with
  | nil => intro h _; simp
  | cons kv kvs ih =>
    intro h ht
    obtain ⟨h1, h2⟩ := decodeDummyMember_bad (env := env) ht kv
    rw [List.foldlM_cons]
    cases hq : decodeDummyMember env h kv with
    | none => exact ⟨fun _ => ⟨kv, List.mem_cons_self, h1.1 hq⟩, fun _ => rfl⟩
    | some h' =>
      have hno : ¬ (Spec.Spells Spec.foldOthers "header".toUTF8.data.toList kv.1 ∧ Spec.BadHeadValue env kv.2) := by
        intro hb
        rw [h1.2 hb] at hq
        cases hq
      show kvs.foldlM (decodeDummyMember env) h' = none ↔ _
      rw [ih (h2 h' hq)]
      constructor
      · rintro ⟨x, hx, h⟩; exact ⟨x, List.mem_cons_of_mem _ hx, h⟩
      · rintro ⟨x, hx, hb⟩
        rcases List.mem_cons.1 hx with rfl | hx
        · exact absurd hb hno
        · exact ⟨x, hx, hb⟩

/-- The first decoding fails exactly for documents whose header does not tell the format. -/
theorem decodeDummy_none (env : JsonEnv) (j : Json) : decodeDummy env j = none ↔ Spec.BadHead env j := by
  cases j with
  | null => exact ⟨fun h => (nomatch h), fun h => False.elim h⟩
  | obj kvs => exact decodeDummy_members kvs (fun fs e => nomatch e)
  | bool b => exact ⟨fun _ => trivial, fun _ => rfl⟩
  | num l => exact ⟨fun _ => trivial, fun _ => rfl⟩
  | str s => exact ⟨fun _ => trivial, fun _ => rfl⟩
  | arr xs => exact ⟨fun _ => trivial, fun _ => rfl⟩

mutual
theorem numbersOk_reJson {env : JsonEnv} : ∀ (j : Json) {w : Json}, reJson env j = some w → Spec.NumbersOk env j
  | .null, _, _ => .null
  | .bool b, _, _ => .bool b
  | .num lit, w, h => .num (by intro e; simp [reJson, e] at h)
  | .str s, _, _ => .str s
  | .arr xs, w, h => by
    rw [reJson] at h
    obtain ⟨ys, h1, -⟩ := Option.map_eq_some_iff.1 h
    exact .arr (numbersOk_reList xs h1)
  | .obj kvs, w, h => by
    rw [reJson] at h
    obtain ⟨ys, h1, -⟩ := Option.map_eq_some_iff.1 h
    exact .obj (numbersOk_reObj kvs h1)
theorem numbersOk_reList {env : JsonEnv} : ∀ (xs : List Json) {ys : List Json}, reList env xs = some ys → ∀ x ∈ xs, Spec.NumbersOk env x
  | [], _, _ => fun x hx => nomatch hx
  | x :: xs, ys, h => by
    rw [reList] at h
    split at h
    · cases h
    · next y hy =>
      obtain ⟨zs, h1, -⟩ := Option.map_eq_some_iff.1 h
      intro z hz
      rcases List.mem_cons.1 hz with e | hz
      · rw [e]; exact numbersOk_reJson x hy
      · exact numbersOk_reList xs h1 z hz
theorem numbersOk_reObj {env : JsonEnv} : ∀ (kvs : List (Bytes × Json)) {acc ys : List (Bytes × Json)}, reObj env kvs acc = some ys →
    ∀ kv ∈ kvs, Spec.NumbersOk env kv.2
  | [], _, _, _ => fun x hx => nomatch hx
  | (k, v) :: kvs, acc, ys, h => by
    rw [reObj] at h
    split at h
    · cases h
    · next y hy =>
      intro z hz
      rcases List.mem_cons.1 hz with e | hz
      · rw [e]; exact numbersOk_reJson v hy
      · exact numbersOk_reObj kvs h z hz
end

/-- The second decoding fails at its first step exactly for documents with a number out of range. -/
theorem decodeMap_none {env : JsonEnv} {j : Json} (hb : ¬ Spec.BadHead env j) : decodeMap env j = none ↔ ¬ Spec.NumbersOk env j := by
  cases j with
  | null => exact ⟨fun h => (nomatch h), fun h => absurd .null h⟩
  | obj kvs =>
    constructor
    · intro h hn
      obtain ⟨w, hw⟩ := reJson_numbersOk hn
      rw [reJson, show reObj env kvs [] = none from h] at hw
      cases hw
    · intro hn
      cases hq : reObj env kvs [] with
      | none => exact hq
      | some ys => exact absurd (.obj (numbersOk_reObj kvs hq)) hn
  | bool b => exact absurd trivial hb
  | num l => exact absurd trivial hb
  | str s => exact absurd trivial hb
  | arr xs => exact absurd trivial hb

/-! ### Readers -/

theorem earlyBrace_iff (data : Bytes) : ((data.take 1024).any (· == 123) = true) ↔ Spec.EarlyBrace data := by
  rw [List.any_eq_true]
  constructor
  · rintro ⟨c, hc, h⟩
    have : c = '{'.toNat.toUInt8 := by simpa using h
    unfold Spec.EarlyBrace
    rw [← this]
    exact hc
  · intro h
    exact ⟨_, h, by decide⟩

theorem begun_iff (data : Bytes) (broken : Bool) : ¬ (data.length < 1024 ∧ (broken = true ∨ data = [])) ↔ Spec.Begun data broken := by
  unfold Spec.Begun
  cases broken <;> cases data <;> simp

theorem openInput_ok (env : ServerEnv) (t : Texts) (data : Bytes) (broken : Bool) (f : File) :
    openInput env t data broken = .ok f ↔ newFileFromReader env.json env.plan data broken = .ok f := by
  unfold openInput
  cases newFileFromReader env.json env.plan data broken <;> simp

/-- The text is the reason. -/
theorem readerErrorText_reason {env : ServerEnv} {t : Texts} {jenv : JsonEnv} {visits : Nat → List (Bytes × Json) → List (Bytes × Json)}
    {first : Bytes → Option Json} (h : Spec.JsonTexts env t jenv visits first) (data : Bytes) (broken : Bool) :
    Spec.Reason t.lib jenv first env.plan data broken (readerErrorText t env.plan data broken) := by
  unfold readerErrorText
  by_cases hb : data.length < 1024 ∧ (broken = true ∨ data = [])
  · rw [if_pos hb]
    cases broken with
    | true => exact .cut hb.1 rfl
    | false => exact .nothing (hb.2.resolve_left (by decide)) rfl
  · rw [if_neg hb]
    have hb := (begun_iff data broken).1 hb
    by_cases hj : (data.take 1024).any (· == 123) = true
    · rw [if_pos hj, h.2]
      have hj := (earlyBrace_iff data).1 hj
      unfold jsonErrorText
      cases hf : first data with
      | none => exact .noDocument hb hj hf
      | some j =>
        simp only
        cases hd : decodeDummy jenv j with
        | none => exact .badHead hb hj hf ((decodeDummy_none jenv j).1 hd)
        | some q =>
          have hbad : ¬ Spec.BadHead jenv j := fun h => by rw [(decodeDummy_none jenv j).2 h] at hd; cases hd
          simp only
          cases hm : decodeMap jenv j with
          | none => exact .badNumber hb hj hf hbad ((decodeMap_none hbad).1 hm)
          | some kvs =>
            refine .document hb hj hf hbad ?_
            by_cases hn : Spec.NumbersOk jenv j
            · exact hn
            · rw [(decodeMap_none hbad).2 hn] at hm; cases hm
    · rw [if_neg hj]
      have hj := fun h => hj ((earlyBrace_iff data).2 h)
      cases hm : readFileText env.plan data with
      | some m => exact .text hb hj hm (C100_ends _ _ _ hm)
      | none => exact .library hb hj hm

theorem not_begun_nil : ¬ Spec.Begun [] false := by
  rintro (h | h)
  · cases h
  · exact h.2 rfl

theorem not_begun_cut {data : Bytes} (h : data.length < 1024) : ¬ Spec.Begun data true := by
  rintro (h' | h')
  · omega
  · cases h'.1

/-- C104. There is only one reason. -/
theorem C104_one_reason (lib : LibTexts) (env : JsonEnv) (first : Bytes → Option Json) (p : Plan) (data : Bytes) (broken : Bool) (m m' : Bytes)
    (h : Spec.Reason lib env first p data broken m) (h' : Spec.Reason lib env first p data broken m') : m = m' := by
  have hn : data = [] → broken = false → ¬ Spec.Begun data broken := by rintro rfl rfl; exact not_begun_nil
  have hc : data.length < 1024 → broken = true → ¬ Spec.Begun data broken := by rintro h1 rfl; exact not_begun_cut h1
  cases h <;> cases h' <;> first
    | rfl
    | (exact absurd (by assumption) (hn (by assumption) (by assumption)))
    | (exact absurd (by assumption) (hc (by assumption) (by assumption)))
    | contradiction
    | simp_all

/-- C104. Exactly what the reader tells about an input that it does not take. -/
theorem C104_reader (env : ServerEnv) (t : Texts) (jenv : JsonEnv) (visits : Nat → List (Bytes × Json) → List (Bytes × Json))
    (first : Bytes → Option Json) (h : Spec.JsonTexts env t jenv visits first) (data : Bytes) (broken : Bool) :
    (∀ f, openInput env t data broken = .ok f ↔ newFileFromReader env.json env.plan data broken = .ok f) ∧
    ((∀ f, newFileFromReader env.json env.plan data broken ≠ .ok f) →
      ∀ m, openInput env t data broken = .error m ↔ Spec.Reason t.lib jenv first env.plan data broken m) := by
  refine ⟨openInput_ok env t data broken, fun hn m => ?_⟩
  have hr := readerErrorText_reason h data broken
  unfold openInput
  cases hq : newFileFromReader env.json env.plan data broken with
  | ok f => exact absurd hq (hn f)
  | error e =>
    simp only
    constructor
    · intro e; cases e; exact hr
    · intro hm; rw [C104_one_reason _ _ _ _ _ _ _ _ hm hr]

/-! ### The service -/

theorem openRequest_ok (env : ServerEnv) (t : Texts) (r : Request) (f : File) :
    openRequest env t r = .ok f ↔ parseInputFromRequest env r = .ok f := by
  unfold openRequest parseInputFromRequest
  by_cases hm : (b! "multipart/").isPrefixOf (lowerText r.contentType) = true
  · rw [if_pos hm, if_pos hm]
    cases r.fileField with
    | none => simp
    | some q =>
      obtain ⟨data, broken⟩ := q
      simp only
      rw [← openInput_ok env t]
      cases openInput env t data broken <;> simp
  · rw [if_neg hm, if_neg hm, ← openInput_ok env t]
    cases openInput env t r.body r.bodyBroken <;> simp

theorem openRequest_error {env : ServerEnv} {t : Texts} {r : Request} {e : Err} (h : parseInputFromRequest env r = .error e) :
    ∃ m, openRequest env t r = .error m := by
  cases hq : openRequest env t r with
  | error m => exact ⟨m, rfl⟩
  | ok f => rw [(openRequest_ok env t r f).1 hq] at h; cases h

/-- A file that was read is not the cause of a panic in `Validate`. -/
theorem validate_calm {f : File} (hu : Spec.Uniform f) {e : Err} (h : f.validate = some e) : e ≠ .panic := by
  have key : ∀ (r : Record), r.validate = some e → e ≠ .panic := by
    rintro r hr rfl
    obtain ⟨g, x, msg, hf, -⟩ := C70_record_partial r _ hr
    cases hf
  simp only [File.validate] at h
  cases hh : f.header.validate with
  | some x => rw [hh] at h; exact key _ (by rw [hh]; exact h)
  | none =>
    rw [hh] at h
    simp only at h
    cases ht : f.trailer.validate with
    | some x => rw [ht] at h; exact key _ (by rw [ht]; exact h)
    | none =>
      rw [ht] at h
      simp only at h
      cases hb : firstInvalid f.bases with
      | some x =>
        rw [hb] at h
        obtain ⟨r, -, hv, -⟩ := firstInvalid_text hb
        exact key r (by rw [hv]; exact h)
      | none =>
        rw [hb] at h
        simp only at h
        cases hg : Metro2.generatorTrailer f.format f.bases with
        | error x =>
          obtain ⟨info, hi, -⟩ := generatorTrailer_spec hu.bases
          rw [hg] at hi
          cases hi
        | ok info =>
          rw [hg] at h
          simp only at h
          obtain ⟨g, rfl⟩ := compareTotals_cases h
          exact fun h => nomatch h

theorem validate_told {f : File} (hu : Spec.Uniform f) {e : Err} (h : f.validate = some e) : ∃ m, f.validateText = some m := by
  obtain ⟨g, x, msg, -, h2, -⟩ := C70_file_partial f e h (validate_calm hu h)
  exact ⟨msg, h2⟩

/-- The text for a trailer of no data records. -/
theorem generateText_empty {f : File} (hb : f.bases = []) :
    generateText f = some (b! "total_base_records in " ++ (if f.format = .packed then b! "packed " else []) ++ b! "trailer record is a required field") := by
  obtain ⟨enc, h, bs, tr⟩ := f
  simp only at hb
  subst hb
  have key : ∀ enc, ∃ t, (newFile enc).generatorTrailer = .ok t ∧ t.validate = some (.required .TotalBaseRecords) ∧
      t.sort.validateText (.required .TotalBaseRecords) =
        some (b! "total_base_records in " ++ (if enc = .packed then b! "packed " else []) ++ b! "trailer record is a required field") := by
    intro enc
    cases enc
    · exact ⟨_, rfl, by decide +kernel, by decide +kernel⟩
    · exact ⟨_, rfl, by decide +kernel, by decide +kernel⟩
  obtain ⟨t, h1, h2, h3⟩ := key enc
  have h1' : (⟨enc, h, [], tr⟩ : File).generatorTrailer = .ok t := h1
  simp only [generateText, h1', File.setRecordText, h2, h3]

theorem generate_told {f : File} (hu : Spec.Uniform f) {b : Bool} {e : Err} (h : (if b then generateTrailer f else .ok f) = .error e) :
    b = true ∧ f.bases = [] := by
  rcases generate_cases hu b with ⟨h1, h2, -⟩ | ⟨-, g, -, -, h3⟩
  · exact ⟨h1, h2⟩
  · rw [h3] at h; cases h

theorem jsonTexts_branch {env : ServerEnv} {t : Texts} {jenv : JsonEnv} {visits : Nat → List (Bytes × Json) → List (Bytes × Json)}
    {first : Bytes → Option Json} (h : Spec.JsonTexts env t jenv visits first) : Spec.JsonBranch env := ⟨jenv, visits, first, h.1⟩

/-- C104. The service with its exact texts is the service of `Model/Server.lean` for some choice of the texts: all that was shown of it holds. -/
theorem C104_same (env : ServerEnv) (t : Texts) (hj : Spec.JsonBranch env) (r : Request) :
    ∃ errText, ∀ w, answer env t r w = serve { env with errText := errText } r w := by
  have hu := fun f hf => carries_uniform hj (r := r) f ((carriesFile_iff env r f).2 hf)
  have parse : ∀ x, parseInputFromRequest { env with errText := x } r = parseInputFromRequest env r := fun _ => rfl
  cases hp : parseInputFromRequest env r with
  | error e =>
    obtain ⟨m, hm⟩ := openRequest_error (t := t) hp
    refine ⟨fun _ => m, fun w => ?_⟩
    simp only [answer, serve, answerPrint, answerValidator, answerConvert, servePrint, serveValidator, serveConvert, hm, parse, hp]
    rfl
  | ok f =>
    have hm := (openRequest_ok env t r f).2 hp
    have hu := hu f hp
    by_cases hv : r.path = b! "/validator"
    · cases hval : f.validate with
      | none =>
        refine ⟨env.errText, fun w => ?_⟩
        simp only [answer, serve, answerPrint, answerValidator, answerConvert, servePrint, serveValidator, serveConvert, hm, parse, hp, hval, hv]
        rfl
      | some e =>
        obtain ⟨m, hmt⟩ := validate_told hu hval
        refine ⟨fun _ => m, fun w => ?_⟩
        simp only [answer, serve, answerPrint, answerValidator, answerConvert, servePrint, serveValidator, serveConvert, hm, parse, hp, hval, hmt, hv]
        rfl
    · cases hg : (if equalFold (r.form (b! "generate")) (b! "true") then generateTrailer f else .ok f) with
      | ok g =>
        refine ⟨env.errText, fun w => ?_⟩
        simp only [answer, serve, answerPrint, answerConvert, servePrint, serveConvert, hm, parse, hp, hg, hv, if_false]
        rfl
      | error e =>
        obtain ⟨m, hmt⟩ : ∃ m, generateText f = some m := ⟨_, generateText_empty (generate_told hu hg).2⟩
        refine ⟨fun _ => m, fun w => ?_⟩
        · simp only [answer, serve, answerPrint, answerConvert, servePrint, serveConvert, hm, parse, hp, hg, hmt, hv, if_false]
          rfl

theorem answer_print {env : ServerEnv} {t : Texts} {r : Request} (h : Spec.Post r "/print") (w : Writer) :
    answer env t r w = answerPrint env t r w := by
  obtain ⟨h1, h2⟩ := h
  rw [answer, h1, h2]
  rfl

theorem answer_validator {env : ServerEnv} {t : Texts} {r : Request} (h : Spec.Post r "/validator") (w : Writer) :
    answer env t r w = answerValidator env t r w := by
  obtain ⟨h1, h2⟩ := h
  rw [answer, h1, h2]
  rfl

theorem answer_convert {env : ServerEnv} {t : Texts} {r : Request} (h : Spec.Post r "/convert") (w : Writer) :
    answer env t r w = answerConvert env t r w := by
  obtain ⟨h1, h2⟩ := h
  rw [answer, h1, h2]
  rfl

/-- The headers of `http.Error`. -/
def errorHeaders : List (Bytes × Bytes) := [(b! "X-Content-Type-Options", b! "nosniff"), (b! "Content-Type", b! "text/plain; charset=utf-8")]

theorem answered_unread {env : ServerEnv} {t : Texts} {r : Request} (hr : Spec.PostsFile r) {m : Bytes} (h : openRequest env t r = .error m) :
    Spec.answered env t r = (400, errorHeaders, m ++ [10]) := by
  unfold Spec.answered
  rcases hr with hr | hr | hr
  · rw [answer_print hr, answerPrint, h]; rfl
  · rw [answer_validator hr, answerValidator, h]; rfl
  · rw [answer_convert hr, answerConvert, h]; rfl

/-- C104. Exactly what the service answers if the input is not taken: status 400, a plain text that begins with how the input came, then the reason. -/
theorem C104_refused (env : ServerEnv) (t : Texts) (jenv : JsonEnv) (visits : Nat → List (Bytes × Json) → List (Bytes × Json))
    (first : Bytes → Option Json) (h : Spec.JsonTexts env t jenv visits first) (r : Request) (hr : Spec.PostsFile r) (data : Bytes) (broken : Bool)
    (hc : Spec.Carries r data broken) (hn : ∀ f, ¬ Spec.CarriesFile env r f) :
    ∃ reason, Spec.Reason t.lib jenv first env.plan data broken reason ∧
      (Spec.Multipart r → Spec.answered env t r =
        (400, errorHeaders, "parsing file as multipart: ".toUTF8.data.toList ++ reason ++ "\n".toUTF8.data.toList)) ∧
      (¬ Spec.Multipart r → Spec.answered env t r =
        (400, errorHeaders, "parsing request body as reader: ".toUTF8.data.toList ++ reason ++ "\n".toUTF8.data.toList)) := by
  have hno : ∀ f, newFileFromReader env.json env.plan data broken ≠ .ok f := fun f hf => hn f ⟨data, broken, hc, hf⟩
  have hq : openInput env t data broken = .error (readerErrorText t env.plan data broken) := by
    unfold openInput
    cases hq : newFileFromReader env.json env.plan data broken with
    | error e => rfl
    | ok f => exact absurd hq (hno f)
  refine ⟨_, readerErrorText_reason h data broken, fun hm => ?_, fun hm => ?_⟩
  · cases hc with
    | part _ hf =>
      refine answered_unread hr ?_
      rw [openRequest, if_pos ((multipart_iff r).1 hm), hf]
      simp only [hq]
      rfl
    | body hn => exact absurd hm hn
  · cases hc with
    | part h1 _ => exact absurd h1 hm
    | body _ =>
      refine answered_unread hr ?_
      rw [openRequest, if_neg (fun h => hm ((multipart_iff r).2 h)), hq]
      rfl

/-- C104. The answer to a form without the part `file`. -/
theorem C104_no_part (env : ServerEnv) (t : Texts) (r : Request) (hr : Spec.PostsFile r) (hm : Spec.Multipart r) (hf : r.fileField = none) :
    Spec.answered env t r = (400, errorHeaders, "reading multipart request: ".toUTF8.data.toList ++ t.lib.formFile r ++ "\n".toUTF8.data.toList) := by
  refine answered_unread hr ?_
  rw [openRequest, if_pos ((multipart_iff r).1 hm), hf]
  rfl

/-- C104. The answer to a file that is not valid: status 501 and a text that tells the field and what is wrong with it. Missing for the full property: the misnamed
fields and totals of C70. -/
theorem C104_invalid_partial (env : ServerEnv) (t : Texts) (hj : Spec.JsonBranch env) (r : Request) (hr : Spec.Post r "/validator") (f : File)
    (hf : Spec.CarriesFile env r f) (e : Err) (he : f.validate = some e) :
    ∃ g x msg, Spec.faultOf e = some (g, x) ∧ Spec.answered env t r = (501, errorHeaders, msg ++ "\n".toUTF8.data.toList) ∧
      ((∃ r ∈ f.header :: f.trailer :: f.bases, r.validate = some e ∧ (¬ (x = .invalid ∧ Spec.Misnamed r.sort g) → Spec.Accuses msg g r.sort x)) ∨
        ((∀ r ∈ f.header :: f.trailer :: f.bases, r.validate = none) ∧ x = .invalid ∧ Spec.Accuses msg g (.trailer .character) .invalid)) := by
  have hu := carries_uniform hj f hf
  obtain ⟨g, x, msg, h1, h2, h3⟩ := C70_file_partial f e he (validate_calm hu he)
  refine ⟨g, x, msg, h1, ?_, h3⟩
  have hm := (openRequest_ok env t r f).2 ((carriesFile_iff env r f).1 hf)
  unfold Spec.answered
  rw [answer_validator hr, answerValidator, hm]
  simp only [he, h2]
  rfl

/-- C104. The answer of `/convert` if a trailer is wanted for a file without data records. -/
theorem C104_generate (env : ServerEnv) (t : Texts) (r : Request) (hr : Spec.Post r "/convert") (f : File)
    (hf : Spec.CarriesFile env r f) (hg : Spec.Says r "generate" "true") (hb : f.bases = []) :
    Spec.answered env t r = (501, errorHeaders, "total_base_records in ".toUTF8.data.toList ++
      (if f.format = .packed then "packed ".toUTF8.data.toList else []) ++ "trailer record is a required field\n".toUTF8.data.toList) := by
  have hm := (openRequest_ok env t r f).2 ((carriesFile_iff env r f).1 hf)
  have hg' := (says_iff r "generate" "true" (by decide +kernel)).1 hg
  unfold Spec.answered
  rw [answer_convert hr, answerConvert, hm]
  obtain ⟨tr, h1, h2⟩ := C36_empty_refused hb
  have hgt : generateTrailer f = .error (.required .TotalBaseRecords) := by
    unfold generateTrailer
    rw [h1]
    simp only
    rw [h2]
  have hif : (if equalFold (r.form (b! "generate")) (b! "true") then generateTrailer f else .ok f) = .error (.required .TotalBaseRecords) :=
    (if_pos hg').trans hgt
  simp only [hif, generateText_empty hb]
  rw [finish_httpError, List.append_assoc, List.append_assoc, List.append_assoc]
  rfl

/-- C104. The answer of `/print` and `/convert` if the format is not known: the format is told. -/
theorem C104_format (env : ServerEnv) (t : Texts) (hj : Spec.JsonBranch env) (r : Request) (hr : Spec.Post r "/print" ∨ Spec.Post r "/convert") (f : File)
    (hf : Spec.CarriesFile env r f) (h1 : ¬ Spec.WantsMetro r) (h2 : ¬ Spec.WantsJson r)
    (hg : Spec.Post r "/convert" → ¬ (Spec.Says r "generate" "true" ∧ f.bases = [])) :
    Spec.answered env t r = (501, [], env.encode (.obj [("error".toUTF8.data.toList,
      .str ("invalid format: ".toUTF8.data.toList ++ Spec.formatParam r))])) := by
  have hm := (openRequest_ok env t r f).2 ((carriesFile_iff env r f).1 hf)
  unfold Spec.answered
  rcases hr with hr | hr
  · rw [answer_print hr, answerPrint, hm]
    simp only [getFormat_unknown h1 h2]
    rfl
  · rw [answer_convert hr, answerConvert, hm]
    rcases prepared_cases (carries_uniform hj f hf) r with ⟨h3, h4, -⟩ | ⟨-, g, -, -, h3⟩
    · exact absurd ⟨h3, h4⟩ (hg hr)
    · unfold prepared at h3
      simp only [h3, getFormat_unknown h1 h2]
      rfl

/-- C104, JSON. All documents that are refused for another reason than the format and numbers out of range get the same answer. -/
theorem C104_vague (env : ServerEnv) (t : Texts) (jenv : JsonEnv) (visits : Nat → List (Bytes × Json) → List (Bytes × Json))
    (first : Bytes → Option Json) (h : Spec.JsonTexts env t jenv visits first) (r : Request) (hr : Spec.PostsFile r) (hm : ¬ Spec.Multipart r)
    (hc : Spec.Begun r.body r.bodyBroken) (hb : Spec.EarlyBrace r.body) (j : Json) (hj : first r.body = some j) (h1 : ¬ Spec.BadHead jenv j)
    (h2 : Spec.NumbersOk jenv j) (hn : ∀ f, ¬ Spec.CarriesFile env r f) :
    Spec.answered env t r =
      (400, errorHeaders, "parsing request body as reader: reading file: Unable to parse input json file\n".toUTF8.data.toList) := by
  obtain ⟨m, hr1, -, hr2⟩ := C104_refused env t jenv visits first h r hr _ _ (.body hm) hn
  rw [hr2 hm, C104_one_reason _ _ _ _ _ _ _ _ hr1 (.document hc hb hj h1 h2)]
  rfl

/-! ### The program -/

/-- C104. The program with its exact texts is the program of `Model/Program.lean` for some choice of the texts. -/
theorem C104_same_program (env : ServerEnv) (t : Texts) (hj : Spec.JsonBranch env) (m : Machine) (d : Disk) (i : Invocation) :
    ∃ errText, tellProgram env t m d i = runProgram { env with errText := errText } m d i := by
  have hu : ∀ data broken f, newFileFromReader env.json env.plan data broken = .ok f → Spec.Uniform f := by
    intro data broken f hf
    obtain ⟨jenv, visits, first, hj⟩ := hj
    rw [hj] at hf
    exact (C53_reader jenv visits first _ data broken f hf).1
  suffices h : ∃ errText, tellCommand env t m d i = runCommand { env with errText := errText } m d i by
    obtain ⟨x, h⟩ := h
    exact ⟨x, by unfold tellProgram runProgram; rw [h]; rfl⟩
  have text : ∀ x format f nl, commandText { env with errText := x } format f nl = commandText env format f nl := fun _ _ _ _ => rfl
  cases i with
  | web port test => exact ⟨env.errText, rfl⟩
  | validator input =>
    simp only [tellCommand, runCommand, tellValidator, leaveValidator]
    cases createReader m d (input.getD defaultInput) with
    | error e => exact ⟨env.errText, rfl⟩
    | ok q =>
      obtain ⟨data, broken⟩ := q
      simp only [openInput]
      cases hq : newFileFromReader env.json env.plan data broken with
      | error e => exact ⟨fun _ => readerErrorText t env.plan data broken, rfl⟩
      | ok f =>
        simp only
        cases hv : f.validate with
        | none => exact ⟨env.errText, rfl⟩
        | some e =>
          obtain ⟨msg, hmt⟩ := validate_told (hu _ _ _ hq) hv
          rw [hmt]
          exact ⟨fun _ => msg, rfl⟩
  | print input format newline =>
    simp only [tellCommand, runCommand, tellPrint, leavePrint]
    cases createReader m d (input.getD defaultInput) with
    | error e => exact ⟨env.errText, rfl⟩
    | ok q =>
      obtain ⟨data, broken⟩ := q
      simp only [openInput]
      cases commandFormat (format.getD defaultFormat) with
      | none => exact ⟨env.errText, rfl⟩
      | some fm =>
        simp only
        cases hq : newFileFromReader env.json env.plan data broken with
        | error e => exact ⟨fun _ => readerErrorText t env.plan data broken, rfl⟩
        | ok f => exact ⟨env.errText, rfl⟩
  | convert input format newType generate newline args =>
    cases args with
    | nil => exact ⟨env.errText, rfl⟩
    | cons output rest =>
      simp only [tellCommand, runCommand, tellConvert, leaveConvert]
      cases createReader m d (input.getD defaultInput) with
      | error e => exact ⟨env.errText, rfl⟩
      | ok q =>
        obtain ⟨data, broken⟩ := q
        simp only [openInput]
        cases commandFormat (format.getD defaultFormat) with
        | none => exact ⟨env.errText, rfl⟩
        | some fm =>
          simp only
          cases hq : newFileFromReader env.json env.plan data broken with
          | error e => exact ⟨fun _ => readerErrorText t env.plan data broken, rfl⟩
          | ok f =>
            simp only
            cases hg : (if generate.getD defaultGenerate then generateTrailer f else .ok f) with
            | ok g => exact ⟨env.errText, rfl⟩
            | error e =>
              simp only
              rw [generateText_empty (generate_told (hu _ _ _ hq) hg).2]
              exact ⟨fun _ => _, rfl⟩

theorem commandFormat_ok {format : Option Bytes}
    (h : Spec.valued "json".toUTF8.data.toList format ∈ ["json".toUTF8.data.toList, "metro".toUTF8.data.toList, []]) :
    ∃ fm, commandFormat (format.getD defaultFormat) = some fm := by
  have e : format.getD defaultFormat = Spec.valued "json".toUTF8.data.toList format := by
    cases format
    · decide +kernel
    · rfl
  rw [e]
  simp only [List.mem_cons, List.not_mem_nil, or_false] at h
  rcases h with h | h | h <;> rw [h]
  · exact ⟨b! "json", by decide +kernel⟩
  · exact ⟨b! "metro", by decide +kernel⟩
  · exact ⟨b! "json", by decide +kernel⟩

/-- C104. Exactly what the program tells if the input is not taken: the same reason as the service gives. Nothing is written. -/
theorem C104_program (env : ServerEnv) (t : Texts) (jenv : JsonEnv) (visits : Nat → List (Bytes × Json) → List (Bytes × Json))
    (first : Bytes → Option Json) (h : Spec.JsonTexts env t jenv visits first) (m : Machine) (d : Disk) (i : Invocation) (input : Option Bytes)
    (hi : Spec.takenInput i = some input) (ha : Spec.ArgumentsOk i) (path data : Bytes) (hp : Spec.InputIs m input path)
    (hd : d (m.place path) = some data) (hr : m.readable path = true) (hn : ∀ f, ¬ Spec.HasInput env m d input f) :
    ∃ reason, Spec.Reason t.lib jenv first env.plan data (m.broken path) reason ∧
      tellProgram env t m d i = ⟨0, [], "Error: ".toUTF8.data.toList ++ reason ++ "\n".toUTF8.data.toList, d⟩ := by
  refine ⟨_, readerErrorText_reason h data (m.broken path), ?_⟩
  have hno : ∀ f, newFileFromReader env.json env.plan data (m.broken path) ≠ .ok f := fun f hf => hn f ⟨path, data, hp, hd, hr, hf⟩
  have hq : openInput env t data (m.broken path) = .error (readerErrorText t env.plan data (m.broken path)) := by
    unfold openInput
    cases hq : newFileFromReader env.json env.plan data (m.broken path) with
    | error e => rfl
    | ok f => exact absurd hq (hno f)
  have hc : createReader m d (input.getD defaultInput) = .ok (data, m.broken path) := by
    rw [inputIs_iff] at hp
    subst hp
    unfold createReader
    simp only [hd, hr, if_true]
  have key : tellCommand env t m d i = ⟨[], d, some (readerErrorText t env.plan data (m.broken path))⟩ := by
    cases i with
    | web port test => cases hi
    | validator input' =>
      cases hi
      simp only [tellCommand, tellValidator, hc, hq]
    | print input' format newline =>
      cases hi
      obtain ⟨fm, hf⟩ := commandFormat_ok ha
      simp only [tellCommand, tellPrint, hc, hq, hf]
    | convert input' format newType generate newline args =>
      cases hi
      obtain ⟨fm, hf⟩ := commandFormat_ok ha.1
      cases args with
      | nil => exact absurd rfl ha.2
      | cons output rest => simp only [tellCommand, tellConvert, hc, hq, hf]
  unfold tellProgram
  rw [key]
  rfl

theorem openInput_of {env : ServerEnv} {t : Texts} {m : Machine} {d : Disk} {input : Option Bytes} {f : File} (h : Spec.HasInput env m d input f) :
    ∃ data broken, createReader m d (input.getD defaultInput) = .ok (data, broken) ∧ openInput env t data broken = .ok f ∧
      newFileFromReader env.json env.plan data broken = .ok f := by
  obtain ⟨path, data, hp, hd, hr, hf⟩ := h
  refine ⟨data, m.broken path, ?_, ?_, hf⟩
  · rw [inputIs_iff] at hp
    subst hp
    unfold createReader
    simp only [hd, hr, if_true]
  · unfold openInput
    rw [hf]

/-- C104. What the program tells about a file that is not valid. Missing for the full property: the misnamed fields and totals of C70. -/
theorem C104_invalid_program_partial (env : ServerEnv) (t : Texts) (hj : Spec.JsonBranch env) (m : Machine) (d : Disk) (input : Option Bytes) (f : File)
    (hf : Spec.HasInput env m d input f) (e : Err) (he : f.validate = some e) :
    ∃ g x msg, Spec.faultOf e = some (g, x) ∧
      tellProgram env t m d (.validator input) = ⟨0, [], "Error: ".toUTF8.data.toList ++ msg ++ "\n".toUTF8.data.toList, d⟩ ∧
      ((∃ r ∈ f.header :: f.trailer :: f.bases, r.validate = some e ∧ (¬ (x = .invalid ∧ Spec.Misnamed r.sort g) → Spec.Accuses msg g r.sort x)) ∨
        ((∀ r ∈ f.header :: f.trailer :: f.bases, r.validate = none) ∧ x = .invalid ∧ Spec.Accuses msg g (.trailer .character) .invalid)) := by
  obtain ⟨data, broken, h1, h2, h3⟩ := openInput_of (t := t) hf
  have hu : Spec.Uniform f := by
    obtain ⟨jenv, visits, first, hj⟩ := hj
    rw [hj] at h3
    exact (C53_reader jenv visits first _ data broken f h3).1
  obtain ⟨g, x, msg, g1, g2, g3⟩ := C70_file_partial f e he (validate_calm hu he)
  refine ⟨g, x, msg, g1, ?_, g3⟩
  simp only [tellProgram, tellCommand, tellValidator, h1, h2, he, g2]
  rfl

/-- C104. What the program tells if a trailer is wanted for a file without data records. -/
theorem C104_generate_program (env : ServerEnv) (t : Texts) (m : Machine) (d : Disk) (input format newType : Option Bytes) (newline : Option Bool)
    (args : List Bytes) (ha : Spec.ArgumentsOk (.convert input format newType (some true) newline args)) (f : File)
    (hf : Spec.HasInput env m d input f) (hb : f.bases = []) :
    tellProgram env t m d (.convert input format newType (some true) newline args) =
      ⟨0, [], "Error: total_base_records in ".toUTF8.data.toList ++ (if f.format = .packed then "packed ".toUTF8.data.toList else []) ++
        "trailer record is a required field\n".toUTF8.data.toList, d⟩ := by
  obtain ⟨data, broken, h1, h2, h3⟩ := openInput_of (t := t) hf
  obtain ⟨fm, hfm⟩ := commandFormat_ok ha.1
  obtain ⟨tr, g1, g2⟩ := C36_empty_refused hb
  have hgt : generateTrailer f = .error (.required .TotalBaseRecords) := by
    unfold generateTrailer
    rw [g1]
    simp only
    rw [g2]
  cases args with
  | nil => exact absurd rfl ha.2
  | cons output rest =>
    have hif : (if (some true).getD defaultGenerate then generateTrailer f else .ok f) = .error (.required .TotalBaseRecords) :=
      (if_pos rfl).trans hgt
    simp only [tellProgram, tellCommand, tellConvert, h1, h2, hfm, hif, generateText_empty hb]
    rw [List.append_assoc, List.append_assoc, List.append_assoc, List.append_assoc]
    rfl

/-- C104. What the program tells if the format is not known, once the input can be opened. -/
theorem C104_format_program (env : ServerEnv) (t : Texts) (m : Machine) (d : Disk) (input format newType : Option Bytes) (generate newline : Option Bool)
    (args : List Bytes) (path data : Bytes) (hp : Spec.InputIs m input path) (hd : d (m.place path) = some data) (hr : m.readable path = true)
    (hn : Spec.valued "json".toUTF8.data.toList format ∉ ["json".toUTF8.data.toList, "metro".toUTF8.data.toList, []]) :
    tellProgram env t m d (.print input format newline) = ⟨0, [], "Error: don't support the format\n".toUTF8.data.toList, d⟩ ∧
    (args ≠ [] → tellProgram env t m d (.convert input format newType generate newline args) =
      ⟨0, [], "Error: don't support the format\n".toUTF8.data.toList, d⟩) := by
  have hc : createReader m d (input.getD defaultInput) = .ok (data, m.broken path) := by
    rw [inputIs_iff] at hp
    subst hp
    unfold createReader
    simp only [hd, hr, if_true]
  have hf : commandFormat (format.getD defaultFormat) = none := by
    have e : format.getD defaultFormat = Spec.valued "json".toUTF8.data.toList format := by
      cases format
      · decide +kernel
      · rfl
    rw [e]
    simp only [List.mem_cons, List.not_mem_nil, or_false, not_or] at hn
    unfold commandFormat
    rw [if_pos, if_neg hn.2.2]
    exact ⟨hn.1, hn.2.1⟩
  refine ⟨?_, fun ha => ?_⟩
  · simp only [tellProgram, tellCommand, tellPrint, hc, hf]
    rfl
  · cases args with
    | nil => exact absurd rfl ha
    | cons output rest =>
      simp only [tellProgram, tellCommand, tellConvert, hc, hf]
      rfl

/-- C104. What the program tells if `convert` is not given an output, whatever else it is given. -/
theorem C104_no_output (env : ServerEnv) (t : Texts) (m : Machine) (d : Disk) (input format newType : Option Bytes) (generate newline : Option Bool) :
    tellProgram env t m d (.convert input format newType generate newline []) = ⟨0, [], "Error: requires output argument\n".toUTF8.data.toList, d⟩ :=
  rfl

/-- C104. What the program tells if there is no file at the place of the input. -/
theorem C104_no_input (env : ServerEnv) (t : Texts) (m : Machine) (d : Disk) (i : Invocation) (input : Option Bytes) (hi : Spec.takenInput i = some input)
    (ha : Spec.ArgumentsOk i) (path : Bytes) (hp : Spec.InputIs m input path) (hd : d (m.place path) = none) :
    tellProgram env t m d i = ⟨0, [], "Error: invalid input file\n".toUTF8.data.toList, d⟩ := by
  have hc : createReader m d (input.getD defaultInput) = .error (b! "invalid input file") := by
    rw [inputIs_iff] at hp
    subst hp
    unfold createReader
    simp only [hd]
  have key : tellCommand env t m d i = ⟨[], d, some (b! "invalid input file")⟩ := by
    cases i with
    | web port test => cases hi
    | validator input' =>
      cases hi
      simp only [tellCommand, tellValidator, hc]
    | print input' format newline =>
      cases hi
      simp only [tellCommand, tellPrint, hc]
    | convert input' format newType generate newline args =>
      cases hi
      cases args with
      | nil => exact absurd rfl ha.2
      | cons output rest => simp only [tellCommand, tellConvert, hc]
  unfold tellProgram
  rw [key]
  rfl

theorem readFileText_delivery {p q : Plan} (hp : p.Progress) (hq : q.Progress) (data : Bytes) : readFileText p data = readFileText q data := by
  obtain ⟨ps, hps⟩ := pieces_exist data
  rw [readFileText_lines hp hps, readFileText_lines hq hps]

/-- C104. The reason does not depend on how the input is delivered. -/
theorem C104_delivery (lib : LibTexts) (env : JsonEnv) (first : Bytes → Option Json) (p q : Plan) (hp : p.Progress) (hq : q.Progress) (data : Bytes)
    (broken : Bool) (m : Bytes) (h : Spec.Reason lib env first p data broken m) : Spec.Reason lib env first q data broken m := by
  cases h with
  | nothing h1 h2 => exact .nothing h1 h2
  | cut h1 h2 => exact .cut h1 h2
  | noDocument h1 h2 h3 => exact .noDocument h1 h2 h3
  | badHead h1 h2 h3 h4 => exact .badHead h1 h2 h3 h4
  | badNumber h1 h2 h3 h4 h5 => exact .badNumber h1 h2 h3 h4 h5
  | document h1 h2 h3 h4 h5 => exact .document h1 h2 h3 h4 h5
  | text h1 h2 h3 h4 => exact .text h1 h2 ((readFileText_delivery hq hp data).trans h3) h4
  | library h1 h2 h3 => exact .library h1 h2 ((readFileText_delivery hq hp data).trans h3)

/-- C104. The service and the program give the same reason for the same input, each with its own introduction. -/
theorem C104_agree (jenv : JsonEnv) (visits : Nat → List (Bytes × Json) → List (Bytes × Json)) (lib : LibTexts) (plan plan' : Plan) (hp : plan.Progress)
    (hp' : plan'.Progress) (m : Machine) (d : Disk) (i : Invocation) (input : Option Bytes) (hi : Spec.takenInput i = some input) (ha : Spec.ArgumentsOk i)
    (r : Request) (data : Bytes) (hr : Spec.PostsFile r) (hc : Spec.Carries r data false) (hs : Spec.Stored m d input data)
    (hn : ∀ f, ¬ Spec.CarriesFile (serverEnv jenv visits (fun _ => []) plan) r f) :
    ∃ reason words, words ∈ ["parsing file as multipart: ".toUTF8.data.toList, "parsing request body as reader: ".toUTF8.data.toList] ∧
      (Spec.answered (serverEnv jenv visits (fun _ => []) plan) ⟨lib, jsonErrorText lib jenv firstJson⟩ r).2.2 =
        words ++ reason ++ "\n".toUTF8.data.toList ∧
      (tellProgram (commandEnv jenv visits (fun _ => []) plan') ⟨lib, jsonErrorText lib jenv firstJson⟩ m d i).err =
        "Error: ".toUTF8.data.toList ++ reason ++ "\n".toUTF8.data.toList := by
  obtain ⟨reason, h1, h2, h3⟩ := C104_refused (serverEnv jenv visits (fun _ => []) plan) ⟨lib, jsonErrorText lib jenv firstJson⟩ jenv visits firstJson
    ⟨rfl, rfl⟩ r hr data false hc hn
  have hn' : ∀ f, ¬ Spec.HasInput (commandEnv jenv visits (fun _ => []) plan') m d input f :=
    fun f hf => hn f ((same_input hp hp' hc hs f).2 hf)
  obtain ⟨path, hs1, hs2, hs3, hs4⟩ := hs
  obtain ⟨reason', h1', h4⟩ := C104_program (commandEnv jenv visits (fun _ => []) plan') ⟨lib, jsonErrorText lib jenv firstJson⟩ jenv visits firstJson
    ⟨rfl, rfl⟩ m d i input hi ha path data hs1 hs2 hs3 hn'
  rw [hs4] at h1'
  obtain rfl := C104_one_reason _ _ _ _ _ _ _ _ (C104_delivery _ _ _ _ _ hp hp' _ _ _ h1) h1'
  by_cases hm : Spec.Multipart r
  · exact ⟨reason, _, List.mem_cons_self, by rw [h2 hm], by rw [h4]⟩
  · exact ⟨reason, _, List.mem_cons_of_mem _ List.mem_cons_self, by rw [h3 hm], by rw [h4]⟩

/-! ### Witnesses -/

namespace Samples

/-- Texts of the standard library. -/
def libTexts : LibTexts := ⟨fun _ => b! "http: no such file", b! "unexpected EOF", fun _ => b! "strconv", fun _ => b! "json: bad value", fun _ => b! "json: bad number"⟩

/-- The texts of the service `textEnv`. -/
def texts : Texts := ⟨libTexts, jsonErrorText libTexts isoEnv firstJson⟩

theorem texts_json : Spec.JsonTexts textEnv texts isoEnv backwards firstJson := ⟨rfl, rfl⟩

/-- A document with an error in its header, and one with an error in its trailer. -/
def wrongHeader : Bytes := b! "{\"header\":{\"cycleIdentifier\":1}}"
def wrongTrailer : Bytes := b! "{\"trailer\":5}"

end Samples

open Samples

/-- The answer to an error in the header is that to an error in the trailer: it tells neither the part of the document nor the field. -/
theorem C104_violated : Spec.answered textEnv texts (sampleRequest (b! "/validator") wrongHeader [] []) =
      Spec.answered textEnv texts (sampleRequest (b! "/validator") wrongTrailer [] []) ∧
    (Spec.answered textEnv texts (sampleRequest (b! "/validator") wrongHeader [] [])).1 = 400 := by
  decide +kernel

/-- Other refused inputs. -/
example : (Spec.answered textEnv texts (sampleRequest (b! "/validator") [] [] [])).2.2 = b! "parsing request body as reader: EOF\n" ∧
    (Spec.answered textEnv texts (sampleRequest (b! "/print") (b! "{\"header\":5}") [] [])).2.2 =
      b! "parsing request body as reader: reading header: json: bad value\n" := by
  decide +kernel

theorem wrongTrailer_json : firstJson wrongTrailer = some (.obj [(b! "trailer", .num (b! "5"))]) := rfl

theorem wrongTrailer_head : ¬ Spec.BadHead isoEnv (.obj [(b! "trailer", .num (b! "5"))]) := by
  rw [← decodeDummy_none]
  intro h
  have : decodeDummy isoEnv (.obj [(b! "trailer", .num (b! "5"))]) = some none := rfl
  rw [this] at h
  cases h

theorem wrongTrailer_refused : newFileFromReader (readJson isoEnv backwards firstJson) slow wrongTrailer false = .error .json := rfl

theorem wrongTrailer_not (path key value : Bytes) (f : File) : ¬ Spec.CarriesFile textEnv (sampleRequest path wrongTrailer key value) f := by
  rintro ⟨data, broken, hc, h⟩
  obtain ⟨rfl, rfl⟩ := carries_same hc (sample_carries path wrongTrailer key value)
  have h := wrongTrailer_refused.symm.trans h
  cases h

theorem wrongTrailer_numbers : Spec.NumbersOk isoEnv (.obj [(b! "trailer", .num (b! "5"))]) := by
  have h : decodeMap isoEnv (.obj [(b! "trailer", .num (b! "5"))]) ≠ none := by
    intro h
    have e : (decodeMap isoEnv (.obj [(b! "trailer", .num (b! "5"))])).isSome = true := rfl
    rw [h] at e
    cases e
  by_cases hn : Spec.NumbersOk isoEnv (.obj [(b! "trailer", .num (b! "5"))])
  · exact hn
  · exact absurd ((decodeMap_none wrongTrailer_head).2 hn) h

theorem sample_single (path body key value : Bytes) : ¬ Spec.Multipart (sampleRequest path body key value) := by
  intro h
  have := (multipart_iff _).1 h
  exact absurd this (by rw [show (sampleRequest path body key value).contentType = b! "application/octet-stream" from rfl]; decide +kernel)

/-- Case of `C104_vague`, `C104_refused` and `C104_reader`. -/
example : Spec.answered textEnv texts (sampleRequest (b! "/validator") wrongTrailer [] []) =
    (400, errorHeaders, "parsing request body as reader: reading file: Unable to parse input json file\n".toUTF8.data.toList) :=
  C104_vague textEnv texts isoEnv backwards firstJson texts_json _ (.inr (.inl (sample_post "/validator" _ _ _))) (sample_single _ _ _ _)
    (.inr ⟨rfl, by decide +kernel⟩) ((earlyBrace_iff _).1 (by decide +kernel)) _ wrongTrailer_json wrongTrailer_head wrongTrailer_numbers
    (wrongTrailer_not _ _ _)

/-- Case of `C104_one_reason`. -/
example : Spec.Reason libTexts isoEnv firstJson slow wrongTrailer false (b! "reading file: Unable to parse input json file") :=
  .document (.inr ⟨rfl, by decide +kernel⟩) ((earlyBrace_iff _).1 (by decide +kernel)) wrongTrailer_json wrongTrailer_head wrongTrailer_numbers

/-- Case of `C104_no_part`: a form without a part. -/
example : Spec.answered textEnv texts ⟨b! "POST", b! "/print", b! "Multipart/form-data", [], false, none, fun _ => [], fun _ => []⟩ =
    (400, errorHeaders, b! "reading multipart request: http: no such file\n") :=
  C104_no_part textEnv texts _ (.inl ⟨by decide +kernel, by decide +kernel⟩) ((multipart_iff _).2 (by decide +kernel)) rfl

/-- An empty document is a file without data records. -/
theorem empty_carried (path key value : Bytes) : Spec.CarriesFile textEnv (sampleRequest path (b! "{}") key value) (newFile .character) :=
  ⟨_, _, sample_carries _ _ _ _, show newFileFromReader (readJson isoEnv backwards firstJson) slow (b! "{}") false = .ok (newFile .character) by
    decide +kernel⟩

/-- Case of `C104_invalid_partial`. -/
example : ∃ msg, Spec.answered textEnv texts (sampleRequest (b! "/validator") (b! "{}") [] []) = (501, errorHeaders, msg ++ b! "\n") := by
  have hv : (newFile .character).validate = some (.required .RecordDescriptorWord) := by decide +kernel
  obtain ⟨g, x, msg, -, h, -⟩ := C104_invalid_partial textEnv texts (jsonTexts_branch texts_json) _ (sample_post "/validator" _ _ _) _
    (empty_carried _ _ _) _ hv
  exact ⟨msg, h⟩

/-- Case of `C104_generate`. -/
example : Spec.answered textEnv texts (sampleRequest (b! "/convert") (b! "{}") (b! "generate") (b! "TRUE")) =
    (501, errorHeaders, b! "total_base_records in trailer record is a required field\n") :=
  C104_generate textEnv texts _ (sample_post "/convert" _ _ _) _ (empty_carried _ _ _)
    ((says_iff _ _ _ (by decide +kernel)).2 (by decide +kernel)) rfl

/-- Case of `C104_format`. -/
example : Spec.answered textEnv texts (sampleRequest (b! "/print") (b! "{}") (b! "format") (b! "xml")) =
    (501, [], textEnv.encode (.obj [(b! "error", .str (b! "invalid format: xml"))])) :=
  C104_format textEnv texts (jsonTexts_branch texts_json) _ (.inl (sample_post "/print" _ _ _)) _ (empty_carried _ _ _)
    (show ¬ _ = _ by decide +kernel) (show ¬ (_ ∨ _) by decide +kernel) (fun h => absurd h.2 (show ¬ _ = _ by decide +kernel))

/-- Case of `C104_program`. -/
example : tellProgram (commandEnv isoEnv backwards (fun _ => []) slow) texts machine (fun _ => some wrongTrailer) (.print (some (b! "in")) none none) =
    ⟨0, [], "Error: reading file: Unable to parse input json file\n".toUTF8.data.toList, fun _ => some wrongTrailer⟩ := by
  obtain ⟨m, h1, h2⟩ := C104_program (commandEnv isoEnv backwards (fun _ => []) slow) texts isoEnv backwards firstJson ⟨rfl, rfl⟩ machine
    (fun _ => some wrongTrailer) (.print (some (b! "in")) none none) (some (b! "in")) rfl List.mem_cons_self (b! "in") wrongTrailer (.given (by decide)) rfl rfl
    (by
      rintro f ⟨path, data, -, hd, -, h⟩
      cases hd
      have h : newFileFromReader (readJson isoEnv backwards firstJson) slow wrongTrailer false = .ok f := h
      rw [wrongTrailer_refused] at h
      cases h)
  rw [h2, C104_one_reason _ _ _ _ _ _ _ _ h1 (.document (.inr ⟨rfl, by decide +kernel⟩) ((earlyBrace_iff _).1 (by decide +kernel)) wrongTrailer_json
    wrongTrailer_head wrongTrailer_numbers)]
  rfl

/-- Case of `C104_agree` and `C104_delivery`. -/
example : ∃ reason words, words ∈ ["parsing file as multipart: ".toUTF8.data.toList, "parsing request body as reader: ".toUTF8.data.toList] ∧
    (Spec.answered textEnv texts (sampleRequest (b! "/validator") wrongTrailer [] [])).2.2 = words ++ reason ++ "\n".toUTF8.data.toList ∧
    (tellProgram (commandEnv isoEnv backwards (fun _ => []) atOnce) texts machine (fun _ => some wrongTrailer) (.validator none)).err =
      "Error: ".toUTF8.data.toList ++ reason ++ "\n".toUTF8.data.toList :=
  C104_agree isoEnv backwards libTexts slow atOnce slow_progress atOnce_progress machine (fun _ => some wrongTrailer) (.validator none) none rfl trivial _ _
    (.inr (.inl (sample_post "/validator" _ _ _))) (sample_carries _ _ _ _)
    ⟨b! "/home/metro.json", .missing ((metroJson_iff _ _).2 (by decide +kernel)), rfl, rfl, rfl⟩ (wrongTrailer_not _ _ _)

/-- An empty document is the input. -/
theorem empty_input : Spec.HasInput (commandEnv isoEnv backwards (fun _ => []) slow) machine (fun _ => some (b! "{}")) (some (b! "in"))
    (newFile .character) :=
  ⟨b! "in", b! "{}", .given (by decide), rfl, rfl,
    show newFileFromReader (readJson isoEnv backwards firstJson) slow (b! "{}") false = .ok (newFile .character) by decide +kernel⟩

/-- Case of `C104_invalid_program_partial`. -/
example : ∃ msg, tellProgram (commandEnv isoEnv backwards (fun _ => []) slow) texts machine (fun _ => some (b! "{}")) (.validator (some (b! "in"))) =
    ⟨0, [], b! "Error: " ++ msg ++ b! "\n", fun _ => some (b! "{}")⟩ := by
  have hv : (newFile .character).validate = some (.required .RecordDescriptorWord) := by decide +kernel
  obtain ⟨g, x, msg, -, h, -⟩ := C104_invalid_program_partial (commandEnv isoEnv backwards (fun _ => []) slow) texts ⟨isoEnv, backwards, firstJson, rfl⟩ machine _ _ _
    empty_input _ hv
  exact ⟨msg, h⟩

/-- Case of `C104_generate_program`. -/
example : tellProgram (commandEnv isoEnv backwards (fun _ => []) slow) texts machine (fun _ => some (b! "{}"))
      (.convert (some (b! "in")) none none (some true) none [b! "out"]) =
    ⟨0, [], b! "Error: total_base_records in trailer record is a required field\n", fun _ => some (b! "{}")⟩ :=
  C104_generate_program _ _ _ _ _ _ _ _ _ ⟨List.mem_cons_self, by decide⟩ _ empty_input rfl

/-- Case of `C104_format_program`. -/
example : tellProgram (commandEnv isoEnv backwards (fun _ => []) slow) texts machine (fun _ => some (b! "{}")) (.print (some (b! "in")) (some (b! "xml")) none) =
    ⟨0, [], b! "Error: don't support the format\n", fun _ => some (b! "{}")⟩ :=
  (C104_format_program _ _ _ _ _ _ none none none [] (b! "in") _ (.given (by decide)) rfl rfl (by decide +kernel)).1

/-- Case of `C104_no_input`. -/
example : tellProgram (commandEnv isoEnv backwards (fun _ => []) slow) texts machine (fun _ => none) (.validator (some (b! "in"))) =
    ⟨0, [], b! "Error: invalid input file\n", fun _ => none⟩ :=
  C104_no_input _ _ _ _ _ _ rfl trivial (b! "in") (.given (by decide)) rfl

/-- Cases of `C104_same`, `C104_same_program` and `C104_no_output`. -/
example : (∃ errText, ∀ w, answer textEnv texts (sampleRequest (b! "/validator") wrongTrailer [] []) w =
      serve { textEnv with errText := errText } (sampleRequest (b! "/validator") wrongTrailer [] []) w) ∧
    (∃ errText, tellProgram (commandEnv isoEnv backwards (fun _ => []) slow) texts machine (fun _ => none) (.validator (some (b! "in"))) =
      runProgram { commandEnv isoEnv backwards (fun _ => []) slow with errText := errText } machine (fun _ => none) (.validator (some (b! "in")))) ∧
    tellProgram (commandEnv isoEnv backwards (fun _ => []) slow) texts machine (fun _ => none) (.convert none none none none none []) =
      ⟨0, [], b! "Error: requires output argument\n", fun _ => none⟩ :=
  ⟨C104_same _ _ (serverEnv_json _ _ _ _) _, C104_same_program _ _ ⟨isoEnv, backwards, firstJson, rfl⟩ _ _ _, rfl⟩

end Metro2
