import Verif.Props.Server

/-! C54: the commands. -/

namespace Metro2

theorem commandText_iff (env : ServerEnv) (format : Bytes) (f : File) (nl : Bool) (text : Bytes) :
    (∃ fm, commandFormat format = some fm ∧ text = commandText env fm f nl) ↔ Spec.OutputOf env format nl f text := by
  unfold Spec.OutputOf
  show _ ↔ ((format = messageJsonFormat ∨ format = []) ∧ _) ∨ (format = messageMetroFormat ∧ _)
  by_cases h1 : format = messageJsonFormat
  · subst h1
    have h : messageJsonFormat ≠ messageMetroFormat := by decide
    simp [commandFormat, commandText, h]
  · by_cases h2 : format = messageMetroFormat
    · subst h2
      have h : messageMetroFormat ≠ messageJsonFormat := by decide
      have h' : messageMetroFormat ≠ [] := by decide
      simp [commandFormat, commandText, h, h']
    · by_cases h3 : format = []
      · subst h3
        have h : [] ≠ messageMetroFormat := by decide
        have h' : [] ≠ messageJsonFormat := by decide
        simp [commandFormat, commandText, h, h']
      · simp [commandFormat, h1, h2, h3]

theorem commandReads_uniform {env : ServerEnv} (hj : Spec.JsonBranch env) {c : Command} {f : File} (hf : Spec.CommandReads env c f) :
    Spec.Uniform f := by
  obtain ⟨data, broken, -, hf⟩ := hf
  obtain ⟨jenv, visits, first, hj⟩ := hj
  rw [hj] at hf
  exact (C53_reader jenv visits first _ data broken f hf).1

/-- C54, `validator`: it says that the file is valid exactly if the input is a valid file; in all other cases it fails. -/
theorem C54_validator (env : ServerEnv) (c : Command) :
    (runValidator env c = .stdout (b! "the file is valid \n") ↔ ∃ f, Spec.CommandReads env c f ∧ f.validate = none) ∧
    ((∃ e, runValidator env c = .error e) ↔ ¬ ∃ f, Spec.CommandReads env c f ∧ f.validate = none) := by
  unfold runValidator Spec.CommandReads
  cases c.input with
  | none => simp
  | some q =>
    obtain ⟨data, broken⟩ := q
    simp only [Option.some.injEq, Prod.mk.injEq]
    cases hr : newFileFromReader env.json env.plan data broken with
    | error e => simp [hr]
    | ok f =>
      cases hv : f.validate with
      | none => simp [hr, hv]
      | some e => simp [hr, hv]

/-- C54, `print`: the text printed is the file in the format asked for; if the input is not a file or the format is unknown, it fails and prints nothing. -/
theorem C54_print (env : ServerEnv) (c : Command) :
    (∀ text, runPrint env c = .stdout text ↔ ∃ f, Spec.CommandReads env c f ∧ Spec.OutputOf env c.format c.newline f text) ∧
    ((∃ e, runPrint env c = .error e) ↔ ¬ ∃ f text, Spec.CommandReads env c f ∧ Spec.OutputOf env c.format c.newline f text) := by
  simp only [← commandText_iff]
  unfold runPrint Spec.CommandReads
  cases c.input with
  | none => simp
  | some q =>
    obtain ⟨data, broken⟩ := q
    simp only [Option.some.injEq, Prod.mk.injEq]
    cases commandFormat c.format with
    | none => simp
    | some fm =>
      cases hr : newFileFromReader env.json env.plan data broken with
      | error e => simp [hr]
      | ok f => simp [hr, eq_comm]

/-- C54, `convert`: a file is written exactly if the input is a file, the format is known, a trailer that is asked for can be generated, and the output can be
created; it contains the file, with its generated trailer if one is asked for, in the type and in the format asked for. -/
theorem C54_convert (env : ServerEnv) (hj : Spec.JsonBranch env) (c : Command) (path text : Bytes) :
    runConvert env c = .written path text ↔ path = c.output ∧ c.canCreate = true ∧ ∃ f g k, Spec.CommandReads env c f ∧
      ¬ (c.generate = true ∧ f.bases = []) ∧ Spec.WithTrailer (c.generate = true) f g ∧ Spec.InType c.newType g k ∧
      Spec.OutputOf env c.format c.newline k text := by
  simp only [← commandText_iff]
  have hu := fun f hf => commandReads_uniform (c := c) (f := f) hj hf
  unfold runConvert
  unfold Spec.CommandReads at hu ⊢
  cases hi : c.input with
  | none => simp
  | some q =>
    obtain ⟨data, broken⟩ := q
    simp only [hi, Option.some.injEq, Prod.mk.injEq] at hu ⊢
    cases commandFormat c.format with
    | none => simp
    | some fm =>
      simp only
      cases hr : newFileFromReader env.json env.plan data broken with
      | error e =>
        simp only [reduceCtorEq, false_iff]
        rintro ⟨-, -, f, g, k, ⟨_, _, ⟨rfl, rfl⟩, h⟩, -⟩
        rw [hr] at h
        cases h
      | ok f =>
        have huf := hu f ⟨data, broken, ⟨rfl, rfl⟩, hr⟩
        have hread : ∀ f', (∃ data' broken', (data = data' ∧ broken = broken') ∧
            newFileFromReader env.json env.plan data' broken' = .ok f') ↔ f = f' := by
          intro f'
          constructor
          · rintro ⟨_, _, ⟨rfl, rfl⟩, h⟩
            rw [hr] at h
            exact Except.ok.inj h
          · rintro rfl
            exact ⟨_, _, ⟨rfl, rfl⟩, hr⟩
        simp only [hread]
        rcases generate_cases huf c.generate with ⟨h1, h2, e, h3⟩ | ⟨h1, g, h2, h2', h3⟩
        · rw [h3]
          simp only [reduceCtorEq, false_iff]
          rintro ⟨-, -, f', g, k, rfl, h, -⟩
          exact h ⟨h1, h2⟩
        · rw [h3]
          simp only
          have hk := changeType_spec h2' c.newType
          constructor
          · intro h
            split at h
            · next hc =>
              cases h
              exact ⟨rfl, hc, f, g, _, rfl, h1, h2, hk, fm, rfl, rfl⟩
            · cases h
          · rintro ⟨rfl, hc, f', g', k, rfl, -, hg, hk', fm', h4, rfl⟩
            cases h4
            cases withTrailer_unique h2 hg
            rw [if_pos hc, inType_unique hk hk']

/-- C54, `convert`: in all other cases it fails, and no file is written. -/
theorem C54_convert_total (env : ServerEnv) (c : Command) :
    (∃ text, runConvert env c = .written c.output text) ∨ ∃ e, runConvert env c = .error e := by
  unfold runConvert
  repeat' split
  all_goals first | exact Or.inr ⟨_, rfl⟩ | exact Or.inl ⟨_, rfl⟩

/-- A file converted to the packed format and written as Metro 2 text. -/
example : runConvert sampleEnv ⟨some (Samples.fixedFile.string true, false), b! "metro", b! "packed", false, false, b! "out", true⟩ =
    .written (b! "out") ((Spec.fileIn .packed Samples.fixedFile).string false) := by
  rw [C54_convert _ sampleEnv_json]
  refine ⟨rfl, rfl, Samples.fixedFile, _, _, ⟨_, _, rfl, ?_⟩, by simp, Or.inr ⟨by simp, rfl⟩, Or.inr (Or.inl ⟨?_, rfl⟩), Or.inr ⟨?_, rfl⟩⟩
  · exact C41_read false _ fixedFile_good true (fixedFile_noBrace true) _ _ slow_progress
  · decide +kernel
  · decide +kernel

/-- Cases of `C54_validator` and `C54_print`. An input that cannot be opened. -/
example : (∃ e, runValidator sampleEnv ⟨none, [], [], false, false, [], false⟩ = .error e) ∧
    ∃ e, runPrint sampleEnv ⟨none, b! "xml", [], false, false, [], false⟩ = .error e := ⟨⟨_, rfl⟩, ⟨_, rfl⟩⟩

end Metro2
