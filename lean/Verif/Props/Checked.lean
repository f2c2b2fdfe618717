import Verif.Lemmas.Checked
import Verif.Props.Answers
import Verif.Props.Reading
import Verif.Props.Server

/-!
Property C123: with every step that can panic made explicit, no request and no command panics, and the answers are those of the total model.
-/

namespace Metro2

open Samples

/-! ### Writing -/

/-- C123, segments. Whatever the values of the fields are, as long as Go's types allow them: a number of any size and sign, a text of any bytes and length. -/
theorem C123_segment (odd : OddText) (s : Seg) (h : s.fields.Typed s.kind.struct) : s.checked odd = some s.string := segChecked_eq odd h

/-- C123, records. -/
theorem C123_record (odd : OddText) (r : Record) (h : Spec.AnyValues r) : r.checked odd = some r.string := recordChecked_eq odd h

/-- C123, files, with or without line feeds, for any number of goroutines, also zero or a negative one. -/
theorem C123_file (odd : OddText) (f : File) (h : Spec.AnyRecords f) (newline : Bool) (goroutines : Int) :
    f.checked odd newline goroutines = some (f.string newline) := fileChecked_eq odd h newline goroutines

/-! ### Reading -/

theorem readHeader_calm (line : Bytes) : readHeader (newFile .character) line ≠ .error .panic := by
  intro h
  unfold readHeader at h
  split at h
  · cases h
  · next hm =>
    have hl : 366 ≤ line.length := by
      simp only [Bool.not_eq_true', Bool.not_eq_false, isMetroFile] at hm
      split at hm
      · cases hm
      · omega
    split at h
    · next e he =>
      cases h
      exact C13_isPacked line (by omega) he
    · next packed _ =>
      simp only at h
      have hs := C32_step (C32_reachable (.new .character)).1 (C32_reachable (.new .character)).2
        (op := .setType (if packed then Enc.packed.name else messageMetroFormat)) trivial (.setType _)
      generalize ((newFile .character).setType (if packed then Enc.packed.name else messageMetroFormat)).1 = f1 at h hs
      have h2 := (C13_record f1.header hs.2.header line (isVariableLength line)).1
      generalize f1.header.parse line (isVariableLength line) = q at h h2
      obtain ⟨t, e | x⟩ := q
      · cases h; exact h2 rfl
      · cases h

theorem readBases_calm (p : Plan) (enc : Enc) (isVar : Bool) (s : Scanner) (acc : List Record) :
    readBases p enc isVar s acc ≠ .error .panic := by
  fun_induction readBases p enc isVar s acc with
  | case1 => intro h; cases h
  | case2 s acc t line hs b hb =>
    have := (C13_record (newBase enc) (new_wellTyped (.base enc)) line isVar).1
    rw [hb] at this
    exact absurd rfl this
  | case3 => intro h; cases h
  | case4 _ _ _ _ _ _ _ _ ih => exact ih

theorem readTrailer_calm {f : File} (ht : Spec.WellTyped f.trailer) (line : Bytes) (isVar : Bool) :
    readTrailer f line isVar ≠ .error .panic := by
  intro h
  unfold readTrailer at h
  have h2 := (C13_record f.trailer ht line isVar).1
  generalize f.trailer.parse line isVar = q at h h2
  obtain ⟨t, e | x⟩ := q
  · cases h; exact h2 rfl
  · cases h

/-- C123. `Reader.Read` panics on no text, however the reader delivers it. -/
theorem C123_read (p : Plan) (data : Bytes) : readFile p data ≠ .error .panic := by
  unfold readFile
  simp only
  generalize (newScanner data).scan p = q
  obtain ⟨s, y⟩ := q
  cases y with
  | none => intro h; cases h
  | some line =>
    simp only
    cases hr : readHeader (newFile .character) line with
    | error e =>
      intro h
      cases h
      exact readHeader_calm line hr
    | ok q =>
      obtain ⟨f, isVar⟩ := q
      have ht := (readHeader_uniform (C32_reachable (.new .character)).1 (C32_reachable (.new .character)).2 hr).2.trailer
      simp only
      have hb := readBases_calm p f.format isVar s []
      generalize readBases p f.format isVar s [] = q at hb
      rcases q with e | ⟨bs, _ | line', s'⟩
      · intro h; cases h; exact hb rfl
      · simp only
        generalize s'.scan p = q
        obtain ⟨s'', _ | line''⟩ := q
        · intro h; cases h
        · exact readTrailer_calm (f := { f with bases := bs }) ht line'' isVar
      · exact readTrailer_calm (f := { f with bases := bs }) ht line' isVar

theorem readJson_calm (env : JsonEnv) (visits : Nat → List (Bytes × Json) → List (Bytes × Json)) (first : Bytes → Option Json) (data : Bytes) :
    readJson env visits first data ≠ .error .panic := by
  intro h
  unfold readJson at h
  repeat' split at h
  all_goals cases h

/-- C123. `NewFileFromReader` panics on no text, be it JSON or not, whole or broken off. -/
theorem C123_open (env : JsonEnv) (visits : Nat → List (Bytes × Json) → List (Bytes × Json)) (first : Bytes → Option Json) (p : Plan) (data : Bytes)
    (broken : Bool) : newFileFromReader (readJson env visits first) p data broken ≠ .error .panic := by
  unfold newFileFromReader
  split
  · intro h; cases h
  · simp only
    split
    · exact readJson_calm env visits first data
    · exact C123_read p data

/-! ### What was read -/

theorem sound_list {g : Segs} (h : Spec.SoundSegs g) :
    Spec.TypedSegments (g.j1 ++ g.j2 ++ [g.k1, g.k2, g.k3, g.k4, g.l1, g.n1].filterMap id) := by
  have key : ∀ k, ∀ s ∈ g.get (Spec.segmentName k), s.fields.Typed s.kind.struct := fun k s hs => by
    obtain ⟨h1, h2, -⟩ := h k s hs
    rw [h1]; exact h2
  intro s hs
  simp only [List.mem_append, List.mem_filterMap, List.mem_cons, List.not_mem_nil, or_false, id_eq, exists_eq_right, or_assoc] at hs
  have e : ∀ {o : Option Seg}, some s = o → s ∈ o.toList := fun h => by rw [← h]; exact List.mem_singleton.2 rfl
  rcases hs with hs | hs | hs | hs | hs | hs | hs | hs
  · exact key .j1 s hs
  · exact key .j2 s hs
  · exact key .k1 s (e hs)
  · exact key .k2 s (e hs)
  · exact key .k3 s (e hs)
  · exact key .k4 s (e hs)
  · exact key .l1 s (e hs)
  · exact key .n1 s (e hs)

theorem sound_any {f : File} (hu : Spec.Uniform f) (ht : Spec.TypedFile f) (hs : Spec.SoundSegments f) : Spec.AnyRecords f := by
  refine ⟨?_, fun r hr => ?_, ?_⟩
  · obtain ⟨fs, h⟩ := hu.header
    have := ht.header
    rw [h] at this ⊢
    exact this
  · have h1 := ht.bases r hr
    cases r with
    | header enc fs => exact h1
    | trailer enc fs => exact h1
    | base enc fs g => exact ⟨h1, sound_list (hs enc fs g hr)⟩
  · obtain ⟨fs, h⟩ := hu.trailer
    have := ht.trailer
    rw [h] at this ⊢
    exact this

theorem inFormat_any {enc : Enc} {r : Record} (h : Spec.AnyValues r) : Spec.AnyValues (Spec.inFormat enc r) := by
  cases r <;> exact h

theorem changeType_any {f : File} (hu : Spec.Uniform f) (h : Spec.AnyRecords f) (ty : Bytes) : Spec.AnyRecords (changeType f ty) := by
  have key : ∀ enc, Spec.AnyRecords (Spec.fileIn enc f) := fun enc =>
    ⟨inFormat_any h.header, fun r hr => by
      obtain ⟨r', hr', rfl⟩ := List.mem_map.1 hr
      exact inFormat_any (h.bases r' hr'), inFormat_any h.trailer⟩
  rcases changeType_spec hu ty with ⟨-, e⟩ | ⟨-, e⟩ | ⟨-, -, e⟩
  · rw [e]; exact key _
  · rw [e]; exact key _
  · rw [e]; exact h

theorem validateChecked_eq {f : File} (hu : Spec.Uniform f) : f.validateChecked = some f.validate := by
  unfold File.validateChecked
  split
  · next h => exact absurd rfl (validate_calm hu h)
  · rfl

theorem orPanic_eq {α : Type} {x : Except Err α} (h : x ≠ .error .panic) : orPanic x = some x := by
  unfold orPanic
  split
  · exact absurd rfl h
  · rfl

theorem generate_calm {f : File} (hu : Spec.Uniform f) : generateTrailer f ≠ .error .panic := by
  intro h
  obtain ⟨-, hb⟩ := generate_told hu (b := true) (e := .panic) (by rw [if_pos rfl]; exact h)
  obtain ⟨t, h1, h2⟩ := C36_empty_refused hb
  unfold generateTrailer at h
  rw [h1] at h
  simp only [h2] at h
  cases h

theorem generate_any {f g : File} (hu : Spec.Uniform f) (ha : Spec.AnyRecords f) (b : Bool)
    (h : (if b then generateTrailer f else .ok f) = .ok g) : Spec.Uniform g ∧ Spec.AnyRecords g := by
  rcases generate_cases hu b with ⟨-, -, e, he⟩ | ⟨-, g', hw, hug, he⟩
  · rw [he] at h; cases h
  · rw [he] at h
    cases h
    refine ⟨hug, ?_⟩
    rcases hw with ⟨-, t, h1, rfl⟩ | ⟨-, rfl⟩
    · obtain ⟨fs, h2, h3, -⟩ := C34_generated hu.bases
      rw [h1] at h2
      cases h2
      exact ⟨ha.header, ha.bases, h3⟩
    · exact ha

/-- C123. What was read is validated, given a new trailer, converted and written without a panic. -/
theorem C123_handled (env : JsonEnv) (visits : Nat → List (Bytes × Json) → List (Bytes × Json)) (first : Bytes → Option Json) (p : Plan) (data : Bytes)
    (broken : Bool) (f : File) (h : newFileFromReader (readJson env visits first) p data broken = .ok f) :
    f.validate ≠ some .panic ∧ generateTrailer f ≠ .error .panic ∧
    ∀ odd newline goroutines, f.checked odd newline goroutines = some (f.string newline) ∧
      ∀ type, (changeType f type).checked odd newline goroutines = some ((changeType f type).string newline) := by
  obtain ⟨hu, ht, hs⟩ := C53_reader env visits first p data broken f h
  have ha := sound_any hu ht hs
  exact ⟨fun h => validate_calm hu h rfl, generate_calm hu, fun odd nl n =>
    ⟨fileChecked_eq odd ha nl n, fun ty => fileChecked_eq odd (changeType_any hu ha ty) nl n⟩⟩

/-! ### Requests and commands -/

theorem messageChecked_eq (c : CheckedEnv) (env : ServerEnv) (format : Bytes) {f : File} (h : Spec.AnyRecords f) (nl : Bool) :
    messageChecked c env format f nl = some (messageToBuf env format f nl) := by
  unfold messageChecked messageToBuf
  rw [fileChecked_eq c.odd h]
  split
  · rfl
  · split <;> rfl

theorem outputChecked_eq (c : CheckedEnv) (env : ServerEnv) (w : Writer) (format : Bytes) {f : File} (h : Spec.AnyRecords f) (nl : Bool) :
    outputChecked c env w f format nl = some (outputBufferToWriter env w f format nl) := by
  unfold outputChecked outputBufferToWriter
  rw [fileChecked_eq c.odd h]
  simp only
  split
  · rfl
  · split <;> rfl

theorem commandChecked_eq (c : CheckedEnv) (env : ServerEnv) (format : Bytes) {f : File} (h : Spec.AnyRecords f) (nl : Bool) :
    commandChecked c env format f nl = some (commandText env format f nl) := by
  unfold commandChecked commandText
  rw [fileChecked_eq c.odd h]
  split
  · rfl
  · split <;> rfl

theorem open_calm {env : ServerEnv} (hj : Spec.JsonBranch env) (data : Bytes) (broken : Bool) :
    newFileFromReader env.json env.plan data broken ≠ .error .panic ∧
    ∀ f, newFileFromReader env.json env.plan data broken = .ok f → Spec.Uniform f ∧ Spec.AnyRecords f := by
  obtain ⟨jenv, visits, first, hj⟩ := hj
  rw [hj]
  refine ⟨C123_open jenv visits first _ data broken, fun f hf => ?_⟩
  obtain ⟨hu, ht, hs⟩ := C53_reader jenv visits first _ data broken f hf
  exact ⟨hu, sound_any hu ht hs⟩

theorem input_calm {env : ServerEnv} (hj : Spec.JsonBranch env) (r : Request) : parseInputFromRequest env r ≠ .error .panic ∧
    ∀ f, parseInputFromRequest env r = .ok f → Spec.Uniform f ∧ Spec.AnyRecords f := by
  unfold parseInputFromRequest
  split
  · cases r.fileField with
    | none => exact ⟨(fun h => by cases h), fun f hf => by cases hf⟩
    | some q => exact open_calm hj _ _
  · exact open_calm hj _ _

theorem generateChecked_eq {f : File} (hu : Spec.Uniform f) (b : Bool) :
    (if b then orPanic (generateTrailer f) else some (.ok f)) = some (if b then generateTrailer f else .ok f) := by
  cases b
  · rfl
  · exact orPanic_eq (generate_calm hu)

/-- C123. No request makes a handler panic: each is answered, and as the total model says. -/
theorem C123_service (c : CheckedEnv) (env : ServerEnv) (hj : Spec.JsonBranch env) (r : Request) (w : Writer) :
    serveChecked c env r w = some (serve env r w) := by
  obtain ⟨h1, h2⟩ := input_calm hj r
  have hv : validatorChecked env r w = some (serveValidator env r w) := by
    unfold validatorChecked serveValidator
    rw [orPanic_eq h1]
    cases hp : parseInputFromRequest env r with
    | error e => rfl
    | ok f =>
      simp only [Option.bind_some, validateChecked_eq (h2 f hp).1, Option.map_some]
      cases f.validate <;> rfl
  have hp : printChecked c env r w = some (servePrint env r w) := by
    unfold printChecked servePrint
    rw [orPanic_eq h1]
    cases hp : parseInputFromRequest env r with
    | error e => rfl
    | ok f =>
      simp only [Option.bind_some]
      cases getFormat r with
      | none => rfl
      | some format =>
        simp only [messageChecked_eq c env format (h2 f hp).2, Option.bind_some]
        cases messageToBuf env format f (getIsNewLine r) with
        | none => rfl
        | some x => exact outputChecked_eq c env w format (h2 f hp).2 _
  have hc : convertChecked c env r w = some (serveConvert env r w) := by
    unfold convertChecked serveConvert
    rw [orPanic_eq h1]
    cases hp : parseInputFromRequest env r with
    | error e => rfl
    | ok f =>
      simp only [Option.bind_some, generateChecked_eq (h2 f hp).1]
      generalize hb : equalFold (r.form (b! "generate")) (b! "true") = b
      have hg := fun g => generate_any (g := g) (h2 f hp).1 (h2 f hp).2 b
      generalize (if b then generateTrailer f else .ok f) = q at hg
      cases q with
      | error e => rfl
      | ok g =>
        obtain ⟨hug, hag⟩ := hg g rfl
        cases getFormat r with
        | none => rfl
        | some format =>
          simp only [messageChecked_eq c env format (changeType_any hug hag _), Option.map_some]
          cases messageToBuf env format (changeType g (r.form (b! "type"))) (getIsNewLine r) <;> rfl
  unfold serveChecked serve
  rw [hv, hp, hc]
  split
  · split <;> rfl
  · split
    · split <;> rfl
    · split
      · split <;> rfl
      · split
        · split <;> rfl
        · rfl

/-- C123. No input and no flags make a command panic. -/
theorem C123_commands (x : CheckedEnv) (env : ServerEnv) (hj : Spec.JsonBranch env) (c : Command) :
    runValidatorChecked env c = some (runValidator env c) ∧ runPrintChecked x env c = some (runPrint env c) ∧
    runConvertChecked x env c = some (runConvert env c) := by
  unfold runValidatorChecked runValidator runPrintChecked runPrint runConvertChecked runConvert
  cases c.input with
  | none => exact ⟨rfl, rfl, rfl⟩
  | some q =>
    obtain ⟨data, broken⟩ := q
    simp only
    obtain ⟨h1, h2⟩ := open_calm hj data broken
    generalize newFileFromReader env.json env.plan data broken = q at h1 h2
    rw [orPanic_eq h1]
    cases q with
    | error e =>
      refine ⟨rfl, ?_, ?_⟩
      · cases commandFormat c.format <;> rfl
      · cases commandFormat c.format <;> rfl
    | ok f =>
      obtain ⟨hu, ha⟩ := h2 f rfl
      refine ⟨?_, ?_, ?_⟩
      · simp only [Option.bind_some, validateChecked_eq hu, Option.map_some]
        cases f.validate <;> rfl
      · cases commandFormat c.format with
        | none => rfl
        | some format => simp only [Option.bind_some, commandChecked_eq x env format ha, Option.map_some]
      · cases commandFormat c.format with
        | none => rfl
        | some format =>
          simp only [Option.bind_some, generateChecked_eq hu]
          have hg := fun g => generate_any (g := g) hu ha c.generate
          generalize (if c.generate then generateTrailer f else .ok f) = q at hg
          cases q with
          | error e => rfl
          | ok g =>
            obtain ⟨hug, hag⟩ := hg g rfl
            simp only [commandChecked_eq x env format (changeType_any hug hag _), Option.map_some]

/-! ### Cases -/

/-- A reachable file that was not read either: see C32. -/
theorem C123_reachable (f : File) (h : Spec.Reachable f) : f.validate ≠ some .panic ∧ generateTrailer f ≠ .error .panic ∧
    f.generatorTrailer ≠ .error .panic := by
  have hu := (C32_reachable h).1
  refine ⟨fun h => validate_calm hu h rfl, generate_calm hu, fun h => ?_⟩
  obtain ⟨fs, h1, -⟩ := C34_generated hu.bases
  rw [h] at h1
  cases h1

/-- A segment with an amount that is negative and too wide (it is cut). -/
def wildSegment : Seg := ⟨.k4, (Seg.new .k4).fields.set .BalloonPaymentAmount (.int (-123456789012))⟩

/-- A header with negative descriptors and a text that is too long and no UTF-8. -/
def wildHeader : Record :=
  .header .packed ((((newHeader .packed).fields.set .BlockDescriptorWord (.int (-5))).set .RecordDescriptorWord (.int (-1))).set .ReporterName
    (.str (List.replicate 60 255)))

/-- A file of the character format with this header of the other format, a trailer among the data records, and the segment at a data record. -/
def wildFile : File := ⟨.character, wildHeader, [newTrailer .packed, .base .character (newBase .character).fields { k1 := some wildSegment }, wildHeader],
  newTrailer .packed⟩

theorem wildSegment_typed : wildSegment.fields.Typed wildSegment.kind.struct := typed_of_typedB (by decide +kernel)

theorem wildHeader_any : Spec.AnyValues wildHeader := typed_of_typedB (by decide +kernel)

theorem wildFile_any : Spec.AnyRecords wildFile := by
  refine ⟨wildHeader_any, fun r hr => ?_, typed_of_typedB (by decide +kernel)⟩
  rcases List.mem_cons.1 hr with rfl | hr
  · exact typed_of_typedB (by decide +kernel)
  rcases List.mem_cons.1 hr with rfl | hr
  · refine ⟨typed_of_typedB (by decide +kernel), fun s hs => ?_⟩
    rw [List.mem_singleton.1 (show s ∈ [wildSegment] from hs)]
    exact wildSegment_typed
  · rw [List.mem_singleton.1 hr]
    exact wildHeader_any

/-- Cases of `C123_segment`, `C123_record` and `C123_file`: and minus three goroutines. -/
example (odd : OddText) : wildSegment.checked odd = some wildSegment.string ∧ wildSegment.string.length = 30 ∧
    wildHeader.checked odd = some wildHeader.string ∧ wildFile.checked odd true (-3) = some (wildFile.string true) :=
  ⟨C123_segment odd _ wildSegment_typed, by decide +kernel, C123_record odd _ wildHeader_any, C123_file odd _ wildFile_any true (-3)⟩

/-- Panics can be told: a text in a field for numbers, a struct without its fields, a page of negative size, and a trailer for a file that counts a header as a data
record. -/
example : Record.checked (fun _ _ => []) (.trailer .packed ((newTrailer .packed).fields.set .BlockCount (.str []))) = none ∧
    Record.checked (fun _ _ => []) (.header .packed []) = none ∧ pagesChecked [wildHeader] (-1) 1 0 = none ∧ repeatText [32] (-1) = none ∧
    (orPanic (generateTrailer wildFile)).isNone :=
  ⟨by decide +kernel, by decide +kernel, by decide +kernel, by decide +kernel, by decide +kernel⟩

/-- Case of `C123_read` and `C123_open`: an empty text, and 366 bytes that look like a header and hold nothing else. -/
example : readFile slow (b! "0000HEADER" ++ List.replicate 356 255) ≠ .error .panic ∧
    newFileFromReader (readJson isoEnv backwards fun _ => none) slow [] true = .error .io :=
  ⟨C123_read _ _, rfl⟩

/-- Case of `C123_handled`: a file in the other format. -/
example (odd : OddText) : (changeType fixedFile (b! "packed")).checked odd true 4 = some ((changeType fixedFile (b! "packed")).string true) :=
  ((C123_handled isoEnv backwards (fun _ => none) slow _ false _
    (C41_read false _ fixedFile_good true (fixedFile_noBrace true) _ _ slow_progress)).2.2 odd true 4).2 _

/-- Case of `C123_service`: no file at all. -/
example (c : CheckedEnv) : serveChecked c sampleEnv (sampleRequest (b! "/convert") [] (b! "generate") (b! "true")) {} =
    some (serve sampleEnv (sampleRequest (b! "/convert") [] (b! "generate") (b! "true")) {}) :=
  C123_service c _ sampleEnv_json _ _

/-- Case of `C123_commands`: a file cannot be created. -/
example (x : CheckedEnv) : runConvertChecked x sampleEnv ⟨some (fixedFile.string true, false), b! "metro", b! "packed", true, true, b! "out", false⟩ =
    some (runConvert sampleEnv ⟨some (fixedFile.string true, false), b! "metro", b! "packed", true, true, b! "out", false⟩) :=
  (C123_commands x _ sampleEnv_json _).2.2

/-- Case of `C123_reachable`: the file after a data record was added. -/
example : Spec.Reachable ((newFile .packed).addDataRecord (newBase .packed)).1 := .step (op := .addDataRecord (newBase .packed)) (.new _) (new_wellTyped (.base .packed))
  (.addDataRecord _)

end Metro2
