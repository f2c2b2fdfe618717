import Verif.Spec.Program
import Verif.Props.Command
import Verif.Props.Own

/-! C93, C94, C95, C96: runs of the program. -/

namespace Metro2

/-! ### The input -/

theorem valued_eq {α : Type} (a : α) (o : Option α) : Spec.valued a o = o.getD a := by cases o <;> rfl

theorem metroJson_iff (cwd path : Bytes) : Spec.MetroJson cwd path ↔ path = joinInput cwd := by
  constructor
  · intro h
    cases h with
    | inside h1 h2 =>
      have h2 : ¬ cwd.getLast? = some 47 := h2
      rw [joinInput, if_neg h1, if_neg h2]
      rfl
    | root =>
      rename_i dir
      rw [joinInput, if_neg (by simp), if_pos (by rw [List.getLast?_append]; rfl), List.append_assoc]
      rfl
    | unknown => rfl
  · rintro rfl
    unfold joinInput
    split
    · rename_i h
      rw [h]
      exact .unknown
    · rename_i h
      split
      · rename_i h2
        obtain ⟨dir, rfl⟩ : ∃ dir, cwd = dir ++ [47] := ⟨cwd.dropLast, (List.dropLast_append_getLast? 47 h2).symm⟩
        rw [List.append_assoc]
        exact .root
      · rename_i h2
        exact .inside h h2

theorem inputIs_iff (m : Machine) (input : Option Bytes) (path : Bytes) : Spec.InputIs m input path ↔ path = inputPath m (input.getD defaultInput) := by
  constructor
  · intro h
    cases h with
    | given h => exact (if_neg h).symm
    | empty h => exact (metroJson_iff _ _).1 h
    | missing h => exact (metroJson_iff _ _).1 h
  · rintro rfl
    cases input with
    | none => exact .missing ((metroJson_iff _ _).2 rfl)
    | some p =>
      by_cases hp : p = []
      · subst hp
        exact .empty ((metroJson_iff _ _).2 rfl)
      · rw [show inputPath m ((some p).getD defaultInput) = p from if_neg hp]
        exact .given hp

/-- What `createReader` gives, as the input of a command. -/
def inputOf (m : Machine) (d : Disk) (input : Option Bytes) : Option (Bytes × Bool) := (createReader m d (input.getD defaultInput)).toOption

theorem hasInput_iff (env : ServerEnv) (m : Machine) (d : Disk) (input : Option Bytes) (f : File) :
    Spec.HasInput env m d input f ↔ ∃ data broken, createReader m d (input.getD defaultInput) = .ok (data, broken) ∧
      newFileFromReader env.json env.plan data broken = .ok f := by
  unfold Spec.HasInput createReader
  simp only [inputIs_iff]
  constructor
  · rintro ⟨path, data, rfl, h1, h2, h3⟩
    exact ⟨data, _, by rw [h1]; exact if_pos h2, h3⟩
  · rintro ⟨data, broken, h1, h2⟩
    split at h1
    · cases h1
    · rename_i data' hd
      split at h1
      · rename_i hr
        cases h1
        exact ⟨_, data, rfl, hd, hr, h2⟩
      · cases h1

theorem hasInput_command (env : ServerEnv) (m : Machine) (d : Disk) (input : Option Bytes) {q : Bytes × Bool}
    (hq : createReader m d (input.getD defaultInput) = .ok q) (format newType : Bytes) (generate newline : Bool) (output : Bytes) (f : File) :
    Spec.HasInput env m d input f ↔ Spec.CommandReads env ⟨some q, format, newType, generate, newline, output, true⟩ f := by
  rw [hasInput_iff, hq]
  obtain ⟨data, broken⟩ := q
  unfold Spec.CommandReads
  simp

theorem no_input {env : ServerEnv} {m : Machine} {d : Disk} {input : Option Bytes} {e : Bytes}
    (h : createReader m d (input.getD defaultInput) = .error e) (f : File) : ¬ Spec.HasInput env m d input f := by
  rw [hasInput_iff, h]
  rintro ⟨_, _, h, -⟩
  cases h

/-! ### The commands -/

theorem leaveValidator_eq (env : ServerEnv) (m : Machine) (d : Disk) (input : Bytes) (q : Bytes × Bool) (hq : createReader m d input = .ok q) :
    ∃ e, leaveValidator env m d input = match runValidator env ⟨some q, [], [], false, false, [], true⟩ with
      | .stdout text => ⟨text, d, none⟩
      | _ => ⟨[], d, some e⟩ := by
  obtain ⟨data, broken⟩ := q
  unfold leaveValidator runValidator
  rw [hq]
  simp only
  cases newFileFromReader env.json env.plan data broken with
  | error e => exact ⟨_, rfl⟩
  | ok f =>
    simp only
    cases f.validate with
    | none => exact ⟨[], rfl⟩
    | some e => exact ⟨_, rfl⟩

theorem leavePrint_eq (env : ServerEnv) (m : Machine) (d : Disk) (input format : Bytes) (newline : Bool) (q : Bytes × Bool)
    (hq : createReader m d input = .ok q) :
    ∃ e, leavePrint env m d input format newline = match runPrint env ⟨some q, format, [], false, newline, [], true⟩ with
      | .stdout text => ⟨text, d, none⟩
      | _ => ⟨[], d, some e⟩ := by
  obtain ⟨data, broken⟩ := q
  unfold leavePrint runPrint
  rw [hq]
  simp only
  cases commandFormat format with
  | none => exact ⟨_, rfl⟩
  | some fm =>
    simp only
    cases newFileFromReader env.json env.plan data broken with
    | error e => exact ⟨_, rfl⟩
    | ok f => exact ⟨[], rfl⟩

theorem leaveConvert_eq (env : ServerEnv) (m : Machine) (d : Disk) (input format newType : Bytes) (generate newline : Bool) (output : Bytes)
    (rest : List Bytes) (q : Bytes × Bool) (hq : createReader m d input = .ok q) :
    ∃ e, leaveConvert env m d input format newType generate newline (output :: rest) =
      match runConvert env ⟨some q, format, newType, generate, newline, output, true⟩ with
      | .written _ text => createAndWrite m d output text
      | _ => ⟨[], d, some e⟩ := by
  obtain ⟨data, broken⟩ := q
  unfold leaveConvert runConvert
  simp only [hq]
  cases commandFormat format with
  | none => exact ⟨_, rfl⟩
  | some fm =>
    simp only
    cases newFileFromReader env.json env.plan data broken with
    | error e => exact ⟨_, rfl⟩
    | ok f =>
      simp only
      cases (if generate = true then generateTrailer f else Except.ok f) with
      | error e => exact ⟨_, rfl⟩
      | ok f => exact ⟨[], by simp⟩

/-- A run of `convert`: either there is nothing to write, and it fails without having changed anything, or there is one text to write, and it is written. -/
theorem convert_cases (env : ServerEnv) (hj : Spec.JsonBranch env) (m : Machine) (d : Disk) (input format newType : Option Bytes)
    (generate newline : Option Bool) (output : Bytes) (rest : List Bytes) :
    (∃ text, (∀ text', Spec.HasToWrite env m d input format newType generate newline text' ↔ text' = text) ∧
      runCommand env m d (.convert input format newType generate newline (output :: rest)) = createAndWrite m d output text) ∨
    (∃ e, (∀ text', ¬ Spec.HasToWrite env m d input format newType generate newline text') ∧
      runCommand env m d (.convert input format newType generate newline (output :: rest)) = ⟨[], d, some e⟩) := by
  have hgen : generate = some true ↔ generate.getD false = true := by cases generate <;> simp
  simp only [runCommand]
  cases hq : createReader m d (input.getD defaultInput) with
  | error e =>
    refine .inr ⟨e, ?_, ?_⟩
    · rintro text ⟨f, g, k, hf, -⟩
      exact no_input hq f hf
    · simp only [leaveConvert, hq]
  | ok q =>
    obtain ⟨e, he⟩ := leaveConvert_eq env m d (input.getD defaultInput) (format.getD defaultFormat) (newType.getD defaultType)
      (generate.getD defaultGenerate) (newline.getD defaultNewline) output rest q hq
    have hwr : ∀ text, Spec.HasToWrite env m d input format newType generate newline text ↔
        runConvert env ⟨some q, format.getD defaultFormat, newType.getD defaultType, generate.getD defaultGenerate, newline.getD defaultNewline,
          output, true⟩ = .written output text := by
      intro text
      rw [C54_convert env hj]
      unfold Spec.HasToWrite
      simp only [valued_eq, hasInput_command env m d input hq (format.getD defaultFormat) (newType.getD defaultType)
        (generate.getD defaultGenerate) (newline.getD defaultNewline) output, hgen, true_and]
      rfl
    rw [he]
    rcases C54_convert_total env ⟨some q, format.getD defaultFormat, newType.getD defaultType, generate.getD defaultGenerate,
      newline.getD defaultNewline, output, true⟩ with ⟨text, ht⟩ | ⟨e', ht⟩
    · refine .inl ⟨text, fun text' => ?_, by rw [ht]⟩
      rw [hwr, ht]
      simp [eq_comm]
    · refine .inr ⟨e, fun text' => ?_, by rw [ht]⟩
      rw [hwr, ht]
      simp

/-! ### C93 -/

theorem createAndWrite_other (m : Machine) (d : Disk) (path text : Bytes) (j : Nat) (hj : j ≠ m.place path) :
    (createAndWrite m d path text).disk j = d j := by
  unfold createAndWrite
  simp only
  repeat' split
  all_goals simp [Disk.put, hj]

/-- C93: a run changes no file but the output of `convert`. -/
theorem C93_untouched (env : ServerEnv) (hj : Spec.JsonBranch env) (m : Machine) (d : Disk) (i : Invocation) (j : Nat) (h : ¬ Spec.Target m i j) :
    (runProgram env m d i).disk j = d j := by
  show (runCommand env m d i).disk j = d j
  cases i with
  | validator input =>
    show (leaveValidator env m d _).disk j = d j
    unfold leaveValidator
    repeat' split
    all_goals rfl
  | print input format newline =>
    show (leavePrint env m d _ _ _).disk j = d j
    unfold leavePrint
    repeat' split
    all_goals rfl
  | web port test => rfl
  | convert input format newType generate newline args =>
    cases args with
    | nil => rfl
    | cons output rest =>
      rcases convert_cases env hj m d input format newType generate newline output rest with ⟨text, -, h2⟩ | ⟨e, -, h2⟩
      · rw [h2]
        exact createAndWrite_other m d output text j fun hp => h ⟨_, _, _, _, _, _, _, rfl, hp⟩
      · rw [h2]

/-- C93: what is in the output of `convert` after a run: the text to be written, as far as there is room, if there is one and the file can be created, and what
was there before otherwise. -/
theorem C93_output (env : ServerEnv) (hj : Spec.JsonBranch env) (m : Machine) (d : Disk) (input format newType : Option Bytes)
    (generate newline : Option Bool) (output : Bytes) (rest : List Bytes) :
    (∀ text, Spec.HasToWrite env m d input format newType generate newline text → m.creatable output = true →
      (Spec.HasRoom m output text.length →
        (runProgram env m d (.convert input format newType generate newline (output :: rest))).disk (m.place output) = some text) ∧
      (∀ n, m.room output = some n → n < text.length →
        (runProgram env m d (.convert input format newType generate newline (output :: rest))).disk (m.place output) = some (text.take n))) ∧
    (m.creatable output = false ∨ (∀ text, ¬ Spec.HasToWrite env m d input format newType generate newline text) →
      (runProgram env m d (.convert input format newType generate newline (output :: rest))).disk (m.place output) = d (m.place output)) := by
  show (∀ text, _ → _ → (_ → (runCommand _ _ _ _).disk _ = _) ∧ (∀ n, _ → _ → (runCommand _ _ _ _).disk _ = _)) ∧
    (_ → (runCommand _ _ _ _).disk _ = _)
  rcases convert_cases env hj m d input format newType generate newline output rest with ⟨text, h1, h2⟩ | ⟨e, h1, h2⟩
  · rw [h2]
    refine ⟨fun text' ht hc => ?_, fun h => ?_⟩
    · cases (h1 text').1 ht
      rw [createAndWrite, if_pos hc]
      refine ⟨fun hr => ?_, fun n hn hlt => ?_⟩
      · simp only
        split
        · simp [Disk.put]
        · rename_i n hn
          rw [if_pos (hr n hn)]
          simp [Disk.put]
      · simp only [hn]
        rw [if_neg (by omega)]
        simp [Disk.put]
    · rcases h with h | h
      · rw [createAndWrite, if_neg (by rw [h]; decide)]
      · exact absurd ((h1 text).2 rfl) (h text)
  · rw [h2]
    exact ⟨fun text ht => absurd ht (h1 text), fun _ => rfl⟩

theorem not_room {m : Machine} {path : Bytes} {n : Nat} (h : ¬ Spec.HasRoom m path n) : ∃ k, m.room path = some k ∧ k < n := by
  cases hk : m.room path with
  | none => exact absurd (fun k hk' => by rw [hk] at hk'; cases hk') h
  | some k =>
    refine ⟨k, rfl, ?_⟩
    rcases Nat.lt_or_ge k n with hlt | hge
    · exact hlt
    · exact absurd (fun k' hk' => by rw [hk] at hk'; cases hk'; exact hge) h

/-- C93: a run that fails leaves all files as they were. -/
def C93_statement : Prop := ∀ env, Spec.JsonBranch env → ∀ m d i, ¬ Spec.Succeeds env m d i → (runProgram env m d i).disk = d

/-- C93 as far as it holds: the output does not fail while being written. Missing is that case, in which what was in the file before is lost. -/
theorem C93_kept_partial (env : ServerEnv) (hj : Spec.JsonBranch env) (m : Machine) (d : Disk) (i : Invocation)
    (hr : ∀ input format newType generate newline output rest, i = .convert input format newType generate newline (output :: rest) →
      m.room output = none) (h : ¬ Spec.Succeeds env m d i) : (runProgram env m d i).disk = d := by
  funext j
  by_cases ht : Spec.Target m i j
  · obtain ⟨input, format, newType, generate, newline, output, rest, rfl, rfl⟩ := ht
    refine (C93_output env hj m d input format newType generate newline output rest).2 ?_
    cases hc : m.creatable output with
    | false => exact .inl rfl
    | true =>
      refine .inr fun text hw => h ⟨output, rest, text, rfl, hw, hc, fun k hk => ?_⟩
      rw [hr _ _ _ _ _ _ _ rfl] at hk
      cases hk
  · exact C93_untouched env hj m d i j ht

/-! ### C94 -/

theorem room_of {m : Machine} {path : Bytes} (h : m.room path = none) (n : Nat) : Spec.HasRoom m path n := fun k hk => by
  rw [h] at hk
  cases hk

/-- C94: which file is the output does not matter for what is written, even if it is the input itself. -/
theorem C94_anywhere (env : ServerEnv) (hj : Spec.JsonBranch env) (m : Machine) (d : Disk) (input format newType : Option Bytes)
    (generate newline : Option Bool) (output output' : Bytes) (rest rest' : List Bytes)
    (hc : m.creatable output = true) (hc' : m.creatable output' = true) (hr : m.room output = none) (hr' : m.room output' = none)
    (h : Spec.Succeeds env m d (.convert input format newType generate newline (output :: rest))) :
    (runProgram env m d (.convert input format newType generate newline (output :: rest))).disk (m.place output) =
      (runProgram env m d (.convert input format newType generate newline (output' :: rest'))).disk (m.place output') := by
  obtain ⟨_, _, text, -, hw, -, -⟩ := h
  rw [((C93_output env hj m d input format newType generate newline output rest).1 text hw hc).1 (room_of hr _),
    ((C93_output env hj m d input format newType generate newline output' rest').1 text hw hc').1 (room_of hr' _)]

theorem stored_input {env : ServerEnv} {m : Machine} {d : Disk} {input : Option Bytes} {data : Bytes} (h : Spec.Stored m d input data) (f : File) :
    Spec.HasInput env m d input f ↔ newFileFromReader env.json env.plan data false = .ok f := by
  obtain ⟨path, h1, h2, h3, h4⟩ := h
  constructor
  · rintro ⟨path', data', h1', h2', -, h4'⟩
    rw [inputIs_iff] at h1 h1'
    subst h1 h1'
    rw [h2] at h2'
    cases h2'
    rwa [h4] at h4'
  · intro h
    exact ⟨path, data, h1, h2, h3, by rwa [h4]⟩

/-- A run of `convert` without a new type and a new trailer. -/
theorem plain_convert {env : ServerEnv} (hE : Spec.JsonBranch env) {m : Machine} {d : Disk} {input format : Option Bytes} {newline : Option Bool}
    {output : Bytes} {rest : List Bytes} {f : File} {text : Bytes} (hf : Spec.HasInput env m d input f)
    (ho : Spec.OutputOf env (Spec.valued "json".toUTF8.data.toList format) (Spec.valued false newline) f text)
    (hc : m.creatable output = true) (hr : m.room output = none) :
    (runProgram env m d (.convert input format none none newline (output :: rest))).disk = d.put (m.place output) text := by
  have hw : Spec.HasToWrite env m d input format none none newline text :=
    ⟨f, f, f, hf, fun h => (nomatch h.1), .inr ⟨fun h => (nomatch h), rfl⟩, .inr (.inr ⟨by decide +kernel, by decide +kernel, rfl⟩), ho⟩
  funext j
  by_cases hj : j = m.place output
  · subst hj
    rw [((C93_output env hE m d input format none none newline output rest).1 text hw hc).1 (room_of hr _)]
    exact (if_pos rfl).symm
  · rw [C93_untouched env hE m d _ j]
    · exact (if_neg hj).symm
    · rintro ⟨_, _, _, _, _, _, _, h, rfl⟩
      cases h
      exact hj rfl

theorem put_same {d : Disk} {i : Nat} {text : Bytes} (h : d i = some text) : d.put i text = d := by
  funext j
  by_cases hj : j = i
  · subst hj
    exact (if_pos rfl).trans h.symm
  · exact if_neg hj

/-- C94: writing a well-formed Metro 2 file over itself changes nothing. -/
theorem C94_same (env : ServerEnv) (hE : Spec.JsonBranch env) (hp : env.plan.Progress) (m : Machine) (d : Disk) (enc : Enc) (isVar : Bool) (f : File)
    (h : Spec.GoodFile enc isVar f) (newline : Option Bool)
    (hb : enc = .packed → ∀ t ∈ Spec.recordTexts f, Spec.NoBreaks t) (hj : ¬ Spec.EarlyBrace (f.string (Spec.valued false newline)))
    (path : Bytes) (rest : List Bytes) (hpe : path ≠ []) (hpr : m.readable path = true) (hpb : m.broken path = false)
    (hd : d (m.place path) = some (f.string (Spec.valued false newline))) (hc : m.creatable path = true) (hr : m.room path = none) :
    (runProgram env m d (.convert (some path) (some "metro".toUTF8.data.toList) none none newline (path :: rest))).disk = d := by
  have hf := (stored_input (env := env) ⟨path, .given hpe, hd, hpr, hpb⟩ f).2 (raw_read h _ hb hj _ hp)
  rw [plain_convert hE hf (.inr ⟨rfl, rfl⟩) hc hr]
  exact put_same hd

/-- C94: a well-formed Metro 2 file is converted to JSON, and the result to Metro 2: the last file has the text of the first one exactly if the descriptors of the
header tell the format. The outputs may be any files, also the inputs themselves. -/
theorem C94_back (jenv : JsonEnv) (he : Spec.JsonEnvOk jenv) (visits : Nat → List (Bytes × Json) → List (Bytes × Json))
    (hv : Spec.MapOrders visits) (errText : Err → Bytes) (plan : Plan) (hp : plan.Progress) (m : Machine) (d : Disk)
    (enc : Enc) (isVar : Bool) (f : File) (h : Spec.GoodFile enc isVar f) (newline newline' : Option Bool)
    (hb : enc = .packed → ∀ t ∈ Spec.recordTexts f, Spec.NoBreaks t) (hj : ¬ Spec.EarlyBrace (f.string (Spec.valued false newline')))
    (input : Option Bytes) (path output : Bytes) (hs : Spec.Stored m d input (f.string (Spec.valued false newline')))
    (hpe : path ≠ []) (hpr : m.readable path = true) (hpb : m.broken path = false)
    (hc : m.creatable path = true ∧ m.creatable output = true) (hr : m.room path = none ∧ m.room output = none) :
    (runProgram (commandEnv jenv visits errText plan) m
      (runProgram (commandEnv jenv visits errText plan) m d (.convert input none none none newline [path])).disk
      (.convert (some path) (some "metro".toUTF8.data.toList) none none newline' [output])).disk (m.place output) =
        some (f.string (Spec.valued false newline')) ↔ Spec.Detectable enc f := by
  have hE : Spec.JsonBranch (commandEnv jenv visits errText plan) := ⟨jenv, visits, firstJson, rfl⟩
  have hf := (stored_input (env := commandEnv jenv visits errText plan) hs f).2 (raw_read h _ hb hj _ hp)
  rw [plain_convert hE hf (text := indentText [32, 32] 0 f.toJson) (.inl ⟨.inl rfl, rfl⟩) hc.1 hr.1]
  have hs' : Spec.Stored m (d.put (m.place path) (indentText [32, 32] 0 f.toJson)) (some path) (indentText [32, 32] 0 f.toJson) :=
    ⟨path, .given hpe, if_pos rfl, hpr, hpb⟩
  have hk := (stored_input (env := commandEnv jenv visits errText plan) hs' _).2
    (json_read he hv (goodFile_json h) plan (.tail _ (.tail _ (.head _))))
  rw [plain_convert hE hk (.inr ⟨rfl, rfl⟩) hc.2 hr.2]
  show (if _ = _ then _ else _) = _ ↔ _
  rw [if_pos rfl, Option.some.injEq]
  exact chain_text h _

/-! ### C95 -/

theorem commandError_iff (env : ServerEnv) (hj : Spec.JsonBranch env) (m : Machine) (d : Disk) (i : Invocation) :
    (runCommand env m d i).error = none ↔ Spec.Succeeds env m d i := by
  cases i with
  | web port test =>
    show (if test.getD defaultTest = true then none else _) = none ↔ test = some true
    cases test with
    | none => simp [defaultTest]
    | some t => cases t <;> simp
  | validator input =>
    simp only [runCommand, Spec.Succeeds]
    cases hq : createReader m d (input.getD defaultInput) with
    | error e => simp [leaveValidator, hq, no_input hq]
    | ok q =>
      obtain ⟨e, he⟩ := leaveValidator_eq env m d (input.getD defaultInput) q hq
      have h54 := C54_validator env ⟨some q, [], [], false, false, [], true⟩
      simp only [hasInput_command env m d input hq [] [] false false [], he]
      by_cases hv : ∃ f, Spec.CommandReads env ⟨some q, [], [], false, false, [], true⟩ f ∧ f.validate = none
      · rw [h54.1.2 hv]
        simp [hv]
      · obtain ⟨e', he'⟩ := h54.2.2 hv
        rw [he']
        simp [hv]
  | print input format newline =>
    simp only [runCommand, Spec.Succeeds, valued_eq]
    cases hq : createReader m d (input.getD defaultInput) with
    | error e => simp [leavePrint, hq, no_input hq]
    | ok q =>
      obtain ⟨e, he⟩ := leavePrint_eq env m d (input.getD defaultInput) (format.getD defaultFormat) (newline.getD defaultNewline) q hq
      have h54 := C54_print env ⟨some q, format.getD defaultFormat, [], false, newline.getD defaultNewline, [], true⟩
      simp only [hasInput_command env m d input hq (format.getD defaultFormat) [] false (newline.getD defaultNewline) [], he]
      by_cases hv : ∃ f text, Spec.CommandReads env ⟨some q, format.getD defaultFormat, [], false, newline.getD defaultNewline, [], true⟩ f ∧
          Spec.OutputOf env (format.getD defaultFormat) (newline.getD defaultNewline) f text
      · obtain ⟨f, text, h1, h2⟩ := hv
        rw [(h54.1 text).2 ⟨f, h1, h2⟩]
        exact ⟨fun _ => ⟨f, text, h1, h2⟩, fun _ => rfl⟩
      · obtain ⟨e', he'⟩ := h54.2.2 hv
        rw [he']
        exact ⟨fun h => (nomatch h), fun h => absurd h hv⟩
  | convert input format newType generate newline args =>
    cases args with
    | nil =>
      refine ⟨fun h => (nomatch h), ?_⟩
      rintro ⟨_, _, _, h, -⟩
      cases h
    | cons output rest =>
      rcases convert_cases env hj m d input format newType generate newline output rest with ⟨text, h1, h2⟩ | ⟨e, h1, h2⟩
      · rw [h2]
        unfold createAndWrite
        by_cases hc : m.creatable output = true
        · rw [if_pos hc]
          by_cases hr : Spec.HasRoom m output text.length
          · refine ⟨fun _ => ⟨output, rest, text, rfl, (h1 text).2 rfl, hc, hr⟩, fun _ => ?_⟩
            simp only
            split
            · rfl
            · rename_i n hn
              rw [if_pos (hr n hn)]
          · obtain ⟨k, hk, hlt⟩ := not_room hr
            simp only [hk]
            rw [if_neg (by omega)]
            refine ⟨fun h => (nomatch h), ?_⟩
            rintro ⟨_, _, text', h, h', -, h3⟩
            cases h
            cases (h1 text').1 h'
            exact absurd h3 hr
        · rw [if_neg hc]
          refine ⟨fun h => (nomatch h), ?_⟩
          rintro ⟨_, _, text', h, h', h3, -⟩
          cases h
          exact absurd h3 hc
      · rw [h2]
        refine ⟨fun h => (nomatch h), ?_⟩
        rintro ⟨_, _, text', h, h', -⟩
        exact absurd h' (h1 text')

/-- C95: the exit status tells if the run did what it was asked for. -/
def C95_statement : Prop := ∀ env, Spec.JsonBranch env → ∀ m d i, (runProgram env m d i).status = 0 ↔ Spec.Succeeds env m d i

/-- C95 as far as it holds: the standard error is empty exactly after a success, and has a line with the error otherwise. Missing is the exit status, which is
always 0. -/
theorem C95_told_partial (env : ServerEnv) (hj : Spec.JsonBranch env) (m : Machine) (d : Disk) (i : Invocation) :
    ((runProgram env m d i).err = [] ↔ Spec.Succeeds env m d i) ∧
    (¬ Spec.Succeeds env m d i → ∃ e, (runProgram env m d i).err = "Error: ".toUTF8.data.toList ++ e ++ "\n".toUTF8.data.toList) := by
  have h := commandError_iff env hj m d i
  unfold runProgram
  simp only
  cases he : (runCommand env m d i).error with
  | none =>
    rw [he] at h
    have hs := h.1 rfl
    exact ⟨⟨fun _ => hs, fun _ => rfl⟩, fun hn => absurd hs hn⟩
  | some e =>
    rw [he] at h
    have hs : ¬ Spec.Succeeds env m d i := fun hs => nomatch h.2 hs
    exact ⟨⟨fun hn => absurd hn (by simp), fun hs' => absurd hs' hs⟩, fun _ => ⟨e, rfl⟩⟩

/-! ### C96 -/

theorem reader_delivery (json : Bytes → Except Err File) (p q : Plan) (hp : p.Progress) (hq : q.Progress) (data : Bytes) (broken : Bool) :
    newFileFromReader json p data broken = newFileFromReader json q data broken := by
  simp only [newFileFromReader]
  rw [readFile_delivery hp hq data]

theorem sameFormat_metro {r : Request} {format : Option Bytes} (h : Spec.SameFormat r format) :
    Spec.valued "json".toUTF8.data.toList format = "metro".toUTF8.data.toList ↔ Spec.WantsMetro r := by
  rw [h.1]
  cases format with
  | none => exact ⟨fun h => absurd h (by decide +kernel), fun h => nomatch h⟩
  | some fm => simp [Spec.valued]

theorem sameFormat_json {r : Request} {format : Option Bytes} (h : Spec.SameFormat r format) :
    (Spec.valued "json".toUTF8.data.toList format = "json".toUTF8.data.toList ∨ Spec.valued "json".toUTF8.data.toList format = []) ↔
      Spec.WantsJson r := by
  rw [h.2]
  cases format with
  | none => simp [Spec.valued]
  | some fm => simp [Spec.valued]

/-- The service and the program have the same file. -/
theorem same_input {jenv : JsonEnv} {visits : Nat → List (Bytes × Json) → List (Bytes × Json)} {errText errText' : Err → Bytes} {plan plan' : Plan}
    (hp : plan.Progress) (hp' : plan'.Progress) {m : Machine} {d : Disk} {input : Option Bytes} {r : Request} {data : Bytes}
    (hc : Spec.Carries r data false) (hs : Spec.Stored m d input data) (f : File) :
    Spec.CarriesFile (serverEnv jenv visits errText plan) r f ↔ Spec.HasInput (commandEnv jenv visits errText' plan') m d input f := by
  rw [stored_input hs]
  constructor
  · rintro ⟨data', broken', hc', hf⟩
    obtain ⟨rfl, rfl⟩ := carries_same hc hc'
    exact (reader_delivery _ _ _ hp' hp _ _).trans hf
  · intro hf
    exact ⟨data, false, hc, (reader_delivery _ _ _ hp hp' _ _).trans hf⟩

/-- C96, `validator`: the program accepts exactly the files to which the service answers 200. -/
theorem C96_validator (jenv : JsonEnv) (visits : Nat → List (Bytes × Json) → List (Bytes × Json)) (errText errText' : Err → Bytes) (plan plan' : Plan)
    (hp : plan.Progress) (hp' : plan'.Progress) (m : Machine) (d : Disk) (input : Option Bytes) (r : Request) (data : Bytes)
    (hr : Spec.Post r "/validator") (hc : Spec.Carries r data false) (hs : Spec.Stored m d input data) :
    Spec.status (serverEnv jenv visits errText plan) r = 200 ↔
      (runProgram (commandEnv jenv visits errText' plan') m d (.validator input)).out = "the file is valid \n".toUTF8.data.toList := by
  have hE : Spec.JsonBranch (commandEnv jenv visits errText' plan') := ⟨jenv, visits, firstJson, rfl⟩
  rw [(C50_validator _ r hr).2.2.1]
  simp only [same_input (errText' := errText') hp hp' hc hs]
  show _ ↔ (leaveValidator _ m d _).out = _
  cases hq : createReader m d (input.getD defaultInput) with
  | error e =>
    simp only [leaveValidator, hq, no_input hq, false_and, exists_false, false_iff]
    decide +kernel
  | ok q =>
    obtain ⟨e, he⟩ := leaveValidator_eq (commandEnv jenv visits errText' plan') m d (input.getD defaultInput) q hq
    have h54 := C54_validator (commandEnv jenv visits errText' plan') ⟨some q, [], [], false, false, [], true⟩
    simp only [hasInput_command _ m d input hq [] [] false false [], he]
    by_cases hv : ∃ f, Spec.CommandReads (commandEnv jenv visits errText' plan') ⟨some q, [], [], false, false, [], true⟩ f ∧ f.validate = none
    · rw [h54.1.2 hv]
      exact ⟨fun _ => rfl, fun _ => hv⟩
    · obtain ⟨e', he'⟩ := h54.2.2 hv
      rw [he']
      exact ⟨fun h => absurd h hv, fun h => absurd h (by show ¬ ([] : Bytes) = _; decide +kernel)⟩

/-- C96, `convert`: if the parameters say the same, the service answers 200 exactly if the program succeeds, and the answer is what the program
writes: the same Metro 2 text, or another JSON text for the same value. Missing for the full property: the parameter `newline` has another default. -/
theorem C96_convert_partial (jenv : JsonEnv) (visits : Nat → List (Bytes × Json) → List (Bytes × Json)) (errText errText' : Err → Bytes) (plan plan' : Plan)
    (hp : plan.Progress) (hp' : plan'.Progress) (m : Machine) (d : Disk) (input format newType : Option Bytes) (generate newline : Option Bool)
    (output : Bytes) (rest : List Bytes) (r : Request) (data : Bytes)
    (hr : Spec.Post r "/convert") (hc : Spec.Carries r data false) (hs : Spec.Stored m d input data) (hf : Spec.SameFormat r format)
    (ht : r.form "type".toUTF8.data.toList = Spec.valued [] newType) (hg : Spec.Says r "generate" "true" ↔ generate = some true)
    (hn : Spec.SameLines r (Spec.valued false newline)) (hcr : m.creatable output = true) (hro : m.room output = none) :
    (Spec.status (serverEnv jenv visits errText plan) r = 200 ↔
      Spec.Succeeds (commandEnv jenv visits errText' plan') m d (.convert input format newType generate newline (output :: rest))) ∧
    (Spec.status (serverEnv jenv visits errText plan) r = 200 → ∃ text,
      (runProgram (commandEnv jenv visits errText' plan') m d (.convert input format newType generate newline (output :: rest))).disk (m.place output) =
        some text ∧ Spec.SameOutput (Spec.body (serverEnv jenv visits errText plan) r) text) := by
  have hE : Spec.JsonBranch (commandEnv jenv visits errText' plan') := ⟨jenv, visits, firstJson, rfl⟩
  have hE' := serverEnv_json jenv visits errText plan
  have key : ∀ {f : File}, Spec.CarriesFile (serverEnv jenv visits errText plan) r f → ¬ (Spec.Says r "generate" "true" ∧ f.bases = []) →
      (Spec.WantsMetro r ∨ Spec.WantsJson r) → ∃ text, Spec.HasToWrite (commandEnv jenv visits errText' plan') m d input format newType generate newline text ∧
        Spec.SameOutput (Spec.body (serverEnv jenv visits errText plan) r) text := by
    intro f hcf hne hw
    have hu := carries_uniform hE' f hcf
    obtain ⟨g, hug, hgt⟩ : ∃ g, Spec.Uniform g ∧ Spec.WithTrailer (Spec.Says r "generate" "true") f g := by
      rcases prepared_cases hu r with ⟨h1, h2, -⟩ | ⟨-, g, h1, h2, -⟩
      · exact absurd ⟨h1, h2⟩ hne
      · exact ⟨g, h2, h1⟩
    have hk := changeType_spec hug (r.form "type".toUTF8.data.toList)
    obtain ⟨b1, b2⟩ := C50_convert_body _ hE' r hr f g _ hcf hne hgt hk
    rw [ht] at hk
    have hto : ∀ text, Spec.OutputOf (commandEnv jenv visits errText' plan') (Spec.valued "json".toUTF8.data.toList format) (Spec.valued false newline)
        (changeType g (r.form "type".toUTF8.data.toList)) text →
        Spec.HasToWrite (commandEnv jenv visits errText' plan') m d input format newType generate newline text := fun text ho => by
      rw [ht] at ho
      rw [hg] at hne hgt
      exact ⟨f, g, _, (same_input hp hp' hc hs f).1 hcf, hne, hgt, hk, ho⟩
    rcases hw with hw | hw
    · exact ⟨_, hto _ (.inr ⟨(sameFormat_metro hf).2 hw, rfl⟩), .inl (b2 hw _ hn)⟩
    · refine ⟨_, hto _ (.inl ⟨(sameFormat_json hf).2 hw, rfl⟩), .inr ⟨_, ?_, (C65_written _).2.2⟩⟩
      rw [b1 hw]
      exact (C65_written _).2.1
  rw [(C50_convert _ hE' r hr).2.2]
  refine ⟨⟨?_, ?_⟩, ?_⟩
  · rintro ⟨f, h1, h2, h3⟩
    obtain ⟨text, h4, -⟩ := key h1 h2 h3
    exact ⟨output, rest, text, rfl, h4, hcr, room_of hro _⟩
  · rintro ⟨_, _, text, -, ⟨f, g, k, h1, h2, -, -, h5⟩, -⟩
    rw [← hg] at h2
    refine ⟨f, (same_input hp hp' hc hs f).2 h1, h2, ?_⟩
    rcases h5 with ⟨h5, -⟩ | ⟨h5, -⟩
    · exact .inr ((sameFormat_json hf).1 h5)
    · exact .inl ((sameFormat_metro hf).1 h5)
  · rintro ⟨f, h1, h2, h3⟩
    obtain ⟨text, h4, h5⟩ := key h1 h2 h3
    exact ⟨text, ((C93_output _ hE m d input format newType generate newline output rest).1 text h4 hcr).1 (room_of hro _), h5⟩

/-- C96, `print`. -/
theorem C96_print_partial (jenv : JsonEnv) (visits : Nat → List (Bytes × Json) → List (Bytes × Json)) (errText errText' : Err → Bytes) (plan plan' : Plan)
    (hp : plan.Progress) (hp' : plan'.Progress) (m : Machine) (d : Disk) (input format : Option Bytes) (newline : Option Bool)
    (r : Request) (data : Bytes) (hr : Spec.Post r "/print") (hc : Spec.Carries r data false) (hs : Spec.Stored m d input data)
    (hf : Spec.SameFormat r format) (hn : Spec.SameLines r (Spec.valued false newline)) :
    (Spec.status (serverEnv jenv visits errText plan) r = 200 ↔
      Spec.Succeeds (commandEnv jenv visits errText' plan') m d (.print input format newline)) ∧
    (Spec.status (serverEnv jenv visits errText plan) r = 200 → ∃ text space, Spec.Space space ∧
      Spec.body (serverEnv jenv visits errText plan) r = text ++ space ∧
      Spec.SameOutput text (runProgram (commandEnv jenv visits errText' plan') m d (.print input format newline)).out) := by
  have hE : Spec.JsonBranch (commandEnv jenv visits errText' plan') := ⟨jenv, visits, firstJson, rfl⟩
  have hout : ∀ {f : File} {text : Bytes}, Spec.HasInput (commandEnv jenv visits errText' plan') m d input f →
      Spec.OutputOf (commandEnv jenv visits errText' plan') (Spec.valued "json".toUTF8.data.toList format) (Spec.valued false newline) f text →
      (runProgram (commandEnv jenv visits errText' plan') m d (.print input format newline)).out = text := by
    intro f text h1 h2
    show (leavePrint _ m d _ _ _).out = _
    cases hq : createReader m d (input.getD defaultInput) with
    | error e => exact absurd h1 (no_input hq f)
    | ok q =>
      obtain ⟨e, he⟩ := leavePrint_eq (commandEnv jenv visits errText' plan') m d (input.getD defaultInput) (format.getD defaultFormat)
        (newline.getD defaultNewline) q hq
      rw [hasInput_command _ m d input hq (format.getD defaultFormat) [] false (newline.getD defaultNewline) []] at h1
      rw [valued_eq, valued_eq] at h2
      have h54 := ((C54_print (commandEnv jenv visits errText' plan')
        ⟨some q, format.getD defaultFormat, [], false, newline.getD defaultNewline, [], true⟩).1 text).2 ⟨f, h1, h2⟩
      rw [he, h54]
  rw [(C50_print _ r hr).2.2]
  refine ⟨⟨?_, ?_⟩, ?_⟩
  · rintro ⟨⟨f, h1⟩, h2⟩
    rcases h2 with h2 | h2
    · exact ⟨f, _, (same_input hp hp' hc hs f).1 h1, .inr ⟨(sameFormat_metro hf).2 h2, rfl⟩⟩
    · exact ⟨f, _, (same_input hp hp' hc hs f).1 h1, .inl ⟨(sameFormat_json hf).2 h2, rfl⟩⟩
  · rintro ⟨f, text, h1, h2⟩
    refine ⟨⟨f, (same_input hp hp' hc hs f).2 h1⟩, ?_⟩
    rcases h2 with ⟨h2, -⟩ | ⟨h2, -⟩
    · exact .inr ((sameFormat_json hf).1 h2)
    · exact .inl ((sameFormat_metro hf).1 h2)
  · rintro ⟨⟨f, h1⟩, h2⟩
    obtain ⟨b1, b2⟩ := C50_print_body _ r hr f h1
    have h1' := (same_input (errText' := errText') hp hp' hc hs f).1 h1
    rcases h2 with h2 | h2
    · refine ⟨_, [], space_nil, (b2 h2 _ hn).trans (List.append_nil _).symm, .inl ?_⟩
      exact (hout h1' (.inr ⟨(sameFormat_metro hf).2 h2, rfl⟩)).symm
    · obtain ⟨t, ht, hj⟩ := (C65_written f).1
      refine ⟨t, ['\n'.toNat.toUInt8], ?_, (b1 h2).trans ht, .inr ⟨_, hj, ?_⟩⟩
      · intro c hc
        simp only [List.mem_cons, List.not_mem_nil, or_false] at hc
        subst hc
        decide
      · rw [hout h1' (.inl ⟨(sameFormat_json hf).2 h2, rfl⟩)]
        exact (C65_written f).2.2

/-! ### Examples -/

namespace Samples

/-- A machine with three files, of which the last one has many names, one of them on a full device. -/
def machine : Machine where
  cwd := b! "/home"
  place := fun p => if p = b! "/home/metro.json" then 0 else if p = b! "in" then 1 else 2
  readable := fun _ => true
  broken := fun _ => false
  creatable := fun p => p ≠ b! "locked"
  room := fun p => if p = b! "full" then some 10 else none
  openText := fun p => b! "open " ++ p
  createText := fun p => b! "create " ++ p
  writeText := fun p => b! "write " ++ p
  serveText := fun a => b! "listen " ++ a

/-- The contents: a file in the working directory, another one, and a text that is no file. -/
def disk : Disk := fun i => if i = 0 then some (fixedFile.string true) else if i = 1 then some (packedFile.string false) else if i = 2 then some (b! "old") else none

/-- The program. -/
def program : ServerEnv := commandEnv isoEnv backwards (fun _ => b! "bad") slow

theorem disk_zero : disk 0 = some (fixedFile.string true) := if_pos rfl

theorem disk_one : disk 1 = some (packedFile.string false) := by rw [disk, if_neg (by decide), if_pos rfl]

theorem metro_word : b! "metro" = "metro".toUTF8.data.toList := by decide +kernel

theorem place_default : machine.place (b! "/home/metro.json") = 0 := by decide +kernel

theorem place_out : machine.place (b! "out") = 2 := by decide +kernel

theorem place_in : machine.place (b! "in") = 1 := by decide +kernel

theorem program_json : Spec.JsonBranch program := ⟨isoEnv, backwards, firstJson, rfl⟩

theorem default_input : Spec.Stored machine disk none (fixedFile.string true) :=
  ⟨b! "/home/metro.json", .missing ((metroJson_iff _ _).2 (by decide +kernel)), rfl, rfl, rfl⟩

theorem default_file : Spec.HasInput program machine disk none fixedFile :=
  (stored_input default_input fixedFile).2 (C41_read false _ fixedFile_good true (fixedFile_noBrace true) _ _ slow_progress)

theorem other_input : Spec.Stored machine disk (some (b! "in")) (packedFile.string false) :=
  ⟨b! "in", .given (by decide), rfl, rfl, rfl⟩

theorem other_file : Spec.HasInput program machine disk (some (b! "in")) packedFile :=
  (stored_input other_input packedFile).2 (raw_read packedFile_good false (fun _ => packedFile_noBreaks) (packedFile_noBrace false) _ slow_progress)

/-- The default input as Metro 2 text. -/
theorem default_text : Spec.HasToWrite program machine disk none (some (b! "metro")) none none none (fixedFile.string false) :=
  ⟨fixedFile, fixedFile, fixedFile, default_file, fun h => (nomatch h.1), .inr ⟨fun h => (nomatch h), rfl⟩,
    .inr (.inr ⟨by decide +kernel, by decide +kernel, rfl⟩), .inr ⟨by decide +kernel, rfl⟩⟩

end Samples

open Samples

/-- The default input is written to a file, and the other files stay as they were; a file that cannot be created and an unknown format leave all as it was. -/
example : (runProgram program machine disk (.convert none (some (b! "metro")) none none none [b! "out"])).disk 2 = some (fixedFile.string false) ∧
    (runProgram program machine disk (.convert none (some (b! "metro")) none none none [b! "out"])).disk 1 = some (packedFile.string false) ∧
    (runProgram program machine disk (.convert none (some (b! "metro")) none none none [b! "locked"])).disk = disk ∧
    (runProgram program machine disk (.convert none (some (b! "xml")) none none none [b! "out"])).disk = disk := by
  have h1 := ((C93_output program program_json machine disk none _ none none none (b! "out") []).1 _ default_text (by decide +kernel)).1
    (room_of (by decide +kernel) _)
  rw [place_out] at h1
  refine ⟨h1, ?_, ?_, ?_⟩
  · rw [C93_untouched program program_json]
    · exact disk_one
    · rintro ⟨_, _, _, _, _, _, _, h, h'⟩
      cases h
      exact absurd h' (by decide +kernel)
  · refine C93_kept_partial program program_json machine disk _ ?_ ?_
    · rintro _ _ _ _ _ _ _ h
      cases h
      decide +kernel
    · rintro ⟨_, _, _, h, -, h', -⟩
      cases h
      exact absurd h' (by decide +kernel)
  · refine C93_kept_partial program program_json machine disk _ ?_ ?_
    · rintro _ _ _ _ _ _ _ h
      cases h
      decide +kernel
    · rintro ⟨_, _, _, h, ⟨_, _, _, -, -, -, -, h'⟩, -⟩
      rcases h' with ⟨h' | h', -⟩ | ⟨h', -⟩ <;> exact absurd h' (by decide +kernel)

/-- C93 is violated: on a full device the old content of the output is lost, and what is there instead is a part of the text. -/
theorem C93_violated : ¬ C93_statement := by
  intro h
  have hn : ¬ Spec.Succeeds program machine disk (.convert none (some (b! "metro")) none none none [b! "full"]) := by
    rintro ⟨_, _, text, h, ⟨f, g, k, h1, -, h3, h4, h5⟩, -, h6⟩
    cases h
    have hl := h6 10 (by decide +kernel)
    have hf : f = fixedFile := by
      have := (stored_input default_input f).1 h1
      have h' := (stored_input (env := program) default_input fixedFile).1 default_file
      rw [h'] at this
      exact (Except.ok.inj this).symm
    subst hf
    have hg := withTrailer_unique h3 (.inr ⟨fun h => (nomatch h), rfl⟩)
    subst hg
    have hk := inType_unique h4 (.inr (.inr ⟨by decide +kernel, by decide +kernel, rfl⟩))
    subst hk
    rcases h5 with ⟨h5 | h5, -⟩ | ⟨-, h5⟩
    · exact absurd h5 (by decide +kernel)
    · exact absurd h5 (by decide +kernel)
    · rw [h5] at hl
      exact absurd hl (by decide +kernel)
  have h1 := congrFun (h program program_json machine disk _ hn) 2
  have h2 := ((C93_output program program_json machine disk none _ none none none (b! "full") []).1 _ default_text (by decide +kernel)).2 10
    (by decide +kernel) (by decide +kernel)
  rw [show machine.place (b! "full") = 2 by decide +kernel, h1] at h2
  exact absurd h2 (by decide +kernel)

/-- Converted onto itself, or onto another file. -/
example : (runProgram program machine disk (.convert none (some (b! "metro")) none none none [b! "/home/metro.json"])).disk 0 =
    (runProgram program machine disk (.convert none (some (b! "metro")) none none none [b! "out"])).disk 2 := by
  have h := C94_anywhere program program_json machine disk none _ none none none (b! "/home/metro.json") (b! "out") [] []
    (by decide +kernel) (by decide +kernel) (by decide +kernel) (by decide +kernel)
    ⟨_, _, _, rfl, default_text, by decide +kernel, room_of (by decide +kernel) _⟩
  rwa [place_default, place_out] at h

/-- A packed file written over itself. -/
example : (runProgram program machine disk (.convert (some (b! "in")) (some (b! "metro")) none none none [b! "in"])).disk = disk := by
  rw [metro_word]
  exact C94_same program program_json slow_progress machine disk .packed true packedFile packedFile_good none (fun _ => packedFile_noBreaks)
    (packedFile_noBrace false) (b! "in") [] (by decide) rfl rfl (by rw [place_in]; exact disk_one) (by decide +kernel) (by decide +kernel)

/-- To JSON in place, and back to Metro 2 in place. -/
example : (runProgram (commandEnv isoEnv backwards (fun _ => b! "bad") slow) machine
    (runProgram (commandEnv isoEnv backwards (fun _ => b! "bad") slow) machine disk (.convert (some (b! "in")) none none none none [b! "in"])).disk
      (.convert (some (b! "in")) (some "metro".toUTF8.data.toList) none none none [b! "in"])).disk 1 = some (packedFile.string false) := by
  have hd : Spec.Detectable .packed packedFile := ⟨by decide +kernel, by decide +kernel⟩
  have h := (C94_back isoEnv isoEnv_ok backwards backwards_ok (fun _ => b! "bad") slow slow_progress machine disk .packed true packedFile packedFile_good none none
    (fun _ => packedFile_noBreaks) (packedFile_noBrace false) (some (b! "in")) (b! "in") (b! "in") other_input (by decide) rfl rfl
    ⟨by decide +kernel, by decide +kernel⟩ ⟨by decide +kernel, by decide +kernel⟩).2 hd
  rw [place_in] at h
  exact h

/-- C95 is violated: the input does not exist, and the exit status is 0. -/
theorem C95_violated : ¬ C95_statement := by
  intro h
  obtain ⟨f, hf, -⟩ := (h program program_json machine (fun _ => none) (.validator none)).1 rfl
  obtain ⟨_, _, -, h, -⟩ := hf
  cases h

/-- A run that fails, and one that does not. -/
example : (runProgram program machine (fun _ => none) (.validator none)).err = b! "Error: invalid input file\n" ∧
    (runProgram program machine disk (.convert none (some (b! "metro")) none none none [b! "out"])).err = [] := by
  refine ⟨rfl, (C95_told_partial program program_json machine disk _).1.2 ?_⟩
  exact ⟨_, _, _, rfl, default_text, by decide +kernel, room_of (by decide +kernel) _⟩

/-- C96: without further parameters, the service and the program convert a file to the same Metro 2 text. -/
def C96_statement : Prop := ∀ jenv visits errText errText' plan plan', plan.Progress → plan'.Progress → ∀ m d input output r data,
  Spec.Post r "/convert" → Spec.Carries r data false → Spec.Stored m d input data → (∀ key, key ≠ "format".toUTF8.data.toList → r.form key = []) →
  Spec.WantsMetro r → m.creatable output = true → m.room output = none →
  Spec.status (serverEnv jenv visits errText plan) r = 200 →
    (runProgram (commandEnv jenv visits errText' plan') m d (.convert input (some "metro".toUTF8.data.toList) none none none [output])).disk
      (m.place output) = some (Spec.body (serverEnv jenv visits errText plan) r)

/-- A request for Metro 2 text. -/
def Samples.metroRequest : Request := sampleRequest (b! "/convert") (fixedFile.string true) (b! "format") (b! "metro")

theorem metroRequest_wants : Spec.WantsMetro metroRequest := by
  refine (if_neg ?_).trans ?_
  · show ¬ b! "application/octet-stream" = "application/json".toUTF8.data.toList
    decide +kernel
  · show (if "format".toUTF8.data.toList = b! "format" then b! "metro" else []) = "metro".toUTF8.data.toList
    decide +kernel

theorem metroRequest_form (key : Bytes) (h : key ≠ "format".toUTF8.data.toList) : metroRequest.form key = [] := by
  show (if key = b! "format" then b! "metro" else []) = []
  exact if_neg fun h' => h (h'.trans (by decide +kernel))

theorem metroRequest_post : Spec.Post metroRequest "/convert" := sample_post "/convert" _ _ _

theorem metroRequest_carries : Spec.Carries metroRequest (fixedFile.string true) false := sample_carries _ _ _ _

/-- The parameter `newline` of the request is the one that the service takes if none is given. -/
theorem metroRequest_lines : Spec.SameLines metroRequest true := by
  rw [sameLines_iff, getIsNewLine, metroRequest_form (b! "newline") (by decide +kernel)]
  decide +kernel

theorem metroRequest_generate : ¬ Spec.Says metroRequest "generate" "true" := by
  rw [says_iff _ _ _ (by decide +kernel), metroRequest_form _ (by decide +kernel)]
  decide +kernel

theorem metroRequest_format : Spec.SameFormat metroRequest (some (b! "metro")) := by
  refine ⟨⟨fun _ => by rw [metro_word], fun _ => metroRequest_wants⟩, fun h => absurd metroRequest_wants fun h' => not_metro_and_json h' h, fun h => ?_⟩
  rcases h with h | h | h
  · cases h
  · exact absurd h (by decide +kernel)
  · exact absurd h (by decide +kernel)

/-- The program with the flag `-n` writes what the service answers. -/
example : ∃ text, (runProgram (commandEnv isoEnv backwards (fun _ => b! "bad") slow) machine disk (.convert none (some (b! "metro")) none none (some true) [b! "out"])).disk 2 = some text ∧
    Spec.SameOutput (Spec.body (serverEnv isoEnv backwards (fun _ => []) slow) metroRequest) text := by
  obtain ⟨h1, h2⟩ := C96_convert_partial isoEnv backwards (fun _ => []) (fun _ => b! "bad") slow slow slow_progress slow_progress machine disk none
    (some (b! "metro")) none none (some true) (b! "out") [] metroRequest (fixedFile.string true) metroRequest_post metroRequest_carries default_input
    metroRequest_format (metroRequest_form _ (by decide +kernel)) ⟨fun h => absurd h metroRequest_generate, fun h => (nomatch h)⟩ metroRequest_lines
    (by decide +kernel) (by decide +kernel)
  have h3 := h2 (h1.2 ⟨_, _, fixedFile.string true, rfl, ⟨fixedFile, fixedFile, fixedFile, default_file, fun h => (nomatch h.1),
    .inr ⟨fun h => (nomatch h), rfl⟩, .inr (.inr ⟨by decide +kernel, by decide +kernel, rfl⟩), .inr ⟨by decide +kernel, rfl⟩⟩,
    by decide +kernel, room_of (by decide +kernel) _⟩)
  rw [place_out] at h3
  exact h3

/-- C96 is violated: the service separates records by line breaks, the program does not. -/
theorem C96_violated : ¬ C96_statement := by
  intro h
  have hE := serverEnv_json isoEnv backwards (fun _ => []) slow
  have hf : Spec.CarriesFile (serverEnv isoEnv backwards (fun _ => []) slow) metroRequest fixedFile :=
    ⟨_, _, metroRequest_carries, C41_read false _ fixedFile_good true (fixedFile_noBrace true) _ _ slow_progress⟩
  have hne : ¬ (Spec.Says metroRequest "generate" "true" ∧ fixedFile.bases = []) := fun h => metroRequest_generate h.1
  have hs : Spec.status (serverEnv isoEnv backwards (fun _ => []) slow) metroRequest = 200 := (C50_convert _ hE _ metroRequest_post).2.2.2 ⟨fixedFile, hf, hne, .inl metroRequest_wants⟩
  have hb : Spec.body (serverEnv isoEnv backwards (fun _ => []) slow) metroRequest = fixedFile.string true :=
    (C50_convert_body _ hE _ metroRequest_post fixedFile fixedFile fixedFile hf hne (.inr ⟨metroRequest_generate, rfl⟩)
      (.inr (.inr ⟨by rw [metroRequest_form _ (by decide +kernel)]; decide +kernel, by rw [metroRequest_form _ (by decide +kernel)]; decide +kernel, rfl⟩))).2
      metroRequest_wants true metroRequest_lines
  have h1 := h isoEnv backwards (fun _ => []) (fun _ => b! "bad") slow slow slow_progress slow_progress machine disk none (b! "out") metroRequest
    (fixedFile.string true) metroRequest_post metroRequest_carries default_input metroRequest_form metroRequest_wants (by decide +kernel) (by decide +kernel) hs
  have h2 := ((C93_output (commandEnv isoEnv backwards (fun _ => b! "bad") slow) program_json machine disk none _ none none none (b! "out") []).1 _ default_text (by decide +kernel)).1
    (room_of (by decide +kernel) _)
  rw [← metro_word] at h1
  have h3 := h2.symm.trans h1
  rw [Option.some.injEq] at h3
  exact absurd (h3.trans hb) (by decide +kernel)

/-- Case of `C96_validator`. -/
example : Spec.status (serverEnv isoEnv backwards (fun _ => []) slow) (sampleRequest (b! "/validator") (fixedFile.string true) [] []) = 200 ↔
    (runProgram (commandEnv isoEnv backwards (fun _ => b! "bad") slow) machine disk (.validator none)).out = "the file is valid \n".toUTF8.data.toList :=
  C96_validator isoEnv backwards _ _ slow slow slow_progress slow_progress machine disk none _ _ (sample_post "/validator" _ _ _)
    (sample_carries _ _ _ _) default_input

end Metro2
