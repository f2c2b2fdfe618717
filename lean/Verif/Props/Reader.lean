import Verif.Props.Stream
import Verif.Props.FileRead
import Verif.Props.Files
import Verif.Lemmas.Convert

/-! C41, C42, C44–C46, C52: files through the streaming reader. -/

namespace Metro2

open Samples

/-! ### Lemmas -/

theorem fileText_ne_nil {enc : Enc} {isVar : Bool} {f : File} (h : Spec.GoodFile enc isVar f) (nl : Bool) :
    f.string nl ≠ [] := by
  obtain ⟨fs, h1, hh⟩ := h.header
  obtain ⟨X, hX, -⟩ := header_shape hh
  rw [File.string_eq, show Spec.recordTexts f = f.header.string :: (f.bases.map Record.string ++ [f.trailer.string]) from rfl,
    joinRecords_cons, h1, hX]
  simp

theorem newFile_raw (json : Bytes → Except Err File) (p : Plan) {data : Bytes} (hne : data ≠ [])
    (hj : ¬ Spec.EarlyBrace data) : newFileFromReader json p data false = readFile p data := by
  unfold newFileFromReader
  rw [if_neg (by simp [hne])]
  have : (data.take 1024).any (· == 123) = false := by
    rw [List.any_eq_false]
    intro c hc h
    rw [beq_iff_eq] at h
    subst h
    exact hj hc
  simp only [this]
  rfl

theorem newFile_json (json : Bytes → Except Err File) (p : Plan) {data : Bytes}
    (hj : Spec.EarlyBrace data) : newFileFromReader json p data false = json data := by
  unfold newFileFromReader
  have hne : data ≠ [] := by rintro rfl; simp [Spec.EarlyBrace] at hj
  rw [if_neg (by simp [hne])]
  have : (data.take 1024).any (· == 123) = true := by
    rw [List.any_eq_true]
    exact ⟨_, hj, by decide⟩
  simp only [this, if_true]

/-! ### C41, C42 -/

/-- C41. -/
theorem C41_read (isVar : Bool) (f : File) (h : Spec.GoodFile .character isVar f) (nl : Bool)
    (hj : ¬ Spec.EarlyBrace (f.string nl)) (json : Bytes → Except Err File) (p : Plan) (hp : p.Progress) :
    newFileFromReader json p (f.string nl) false = .ok f := by
  rw [newFile_raw json p (fileText_ne_nil h nl) hj]
  have := readFile_text h (goodFile_noBreaks h) nl [] hp
  rwa [List.append_nil] at this

/-- C42. Exactly which packed files survive: those whose records contain no CR and no LF byte. -/
theorem C42_iff (f : File) (h : Spec.GoodFile .packed true f) (nl : Bool)
    (hj : ¬ Spec.EarlyBrace (f.string nl)) (json : Bytes → Except Err File) (p : Plan) (hp : p.Progress) :
    newFileFromReader json p (f.string nl) false = .ok f ↔ ∀ t ∈ Spec.recordTexts f, Spec.NoBreaks t := by
  rw [newFile_raw json p (fileText_ne_nil h nl) hj]
  constructor
  · intro hr
    obtain ⟨ps, hps⟩ := pieces_exist (f.string nl)
    rw [readFile_lines hp hps] at hr
    exact noBreaks_of_readLines (recordsOf_noBreaks ps) h hr
  · intro hb
    have := readFile_text h hb nl [] hp
    rwa [List.append_nil] at this

/-- C42 for the files without CR and LF bytes in their records. Missing for the full property: this condition, see
`C42_violated`. -/
theorem C42_read_partial (f : File) (h : Spec.GoodFile .packed true f) (hb : ∀ t ∈ Spec.recordTexts f, Spec.NoBreaks t)
    (nl : Bool) (hj : ¬ Spec.EarlyBrace (f.string nl)) (json : Bytes → Except Err File) (p : Plan) (hp : p.Progress) :
    newFileFromReader json p (f.string nl) false = .ok f :=
  (C42_iff f h nl hj json p hp).2 hb

instance (s : Bytes) : Decidable (Spec.EarlyBrace s) := by unfold Spec.EarlyBrace; infer_instance

theorem fixedFile_noBrace (nl : Bool) : ¬ Spec.EarlyBrace (fixedFile.string nl) := by cases nl <;> decide +kernel

theorem packedFile_noBrace (nl : Bool) : ¬ Spec.EarlyBrace (packedFile.string nl) := by cases nl <;> decide +kernel

/-- Case of `C46_fixed_unreadable`. -/
example : Spec.GoodFile .character false fixedFile ∧ ¬ Spec.EarlyBrace (fixedFile.string true) ∧ slow.Progress :=
  ⟨fixedFile_good, fixedFile_noBrace true, slow_progress⟩

/-- Case of `C42_iff`. -/
example : Spec.GoodFile .packed true packedFile ∧ (∀ t ∈ Spec.recordTexts packedFile, Spec.NoBreaks t) ∧
    ¬ Spec.EarlyBrace (packedFile.string true) :=
  ⟨packedFile_good, packedFile_noBreaks, packedFile_noBrace true⟩

/-- A packed file with an amount past due of ten. -/
def Samples.tenFile : File :=
  fileOf .packed (header 370 366) [(base 370 366 [(.AmountPastDue, .int 10)], {})] (trailer 366)

theorem tenFile_good : Spec.GoodFile .packed true tenFile := by
  refine goodFile_of (goodHeader_of_B (by decide +kernel) (by decide +kernel) (by decide +kernel) (by decide)
    (by decide +kernel) (by decide +kernel)) ?_ (goodTrailer_of_B (by decide +kernel) (by decide +kernel)
    (by decide +kernel) (by decide +kernel))
  intro p hp
  simp only [List.mem_cons, List.not_mem_nil, or_false] at hp
  rcases hp with rfl
  exact ⟨goodBase_of_B (by decide +kernel) (by decide +kernel) (by decide +kernel) (by decide) (by decide +kernel)
      (by decide +kernel), by decide +kernel⟩

/-- C42 fails for an amount of ten. -/
theorem C42_violated : ∃ f, Spec.GoodFile .packed true f ∧ ∀ nl, ¬ Spec.EarlyBrace (f.string nl) ∧
    ∀ json p, p.Progress → newFileFromReader json p (f.string nl) false ≠ .ok f := by
  refine ⟨tenFile, tenFile_good, fun nl => ?_⟩
  have hj : ¬ Spec.EarlyBrace (tenFile.string nl) := by cases nl <;> decide +kernel
  refine ⟨hj, fun json p hp h => ?_⟩
  have := (C42_iff tenFile tenFile_good nl hj json p hp).1 h
  exact absurd this (by decide +kernel)

/-! ### C44 -/

/-- C44. Everything after the trailer of a well-formed file is ignored. -/
theorem C44_extra_ignored (enc : Enc) (isVar : Bool) (f : File) (h : Spec.GoodFile enc isVar f)
    (hb : ∀ t ∈ Spec.recordTexts f, Spec.NoBreaks t) (nl : Bool) (extra : Bytes)
    (hj : ¬ Spec.EarlyBrace (f.string nl ++ extra)) (json : Bytes → Except Err File) (p : Plan) (hp : p.Progress) :
    newFileFromReader json p (f.string nl ++ extra) false = .ok f := by
  rw [newFile_raw json p (by simp [fileText_ne_nil h nl]) hj]
  exact readFile_text h hb nl extra hp

/-- C44, what holds: the records of the result are the first ones of the input, in order and without gap. Missing for the
full property: `rest` need not be empty, see `C44_violated`. -/
theorem C44_records_partial (raw : Bytes) (ps : List Bytes) (h : Spec.Pieces raw ps) (hj : ¬ Spec.EarlyBrace raw)
    (json : Bytes → Except Err File) (p : Plan) (hp : p.Progress) (f : File)
    (hr : newFileFromReader json p raw false = .ok f) :
    ∃ first us last rest isVar, Spec.recordsOf ps = first :: (us ++ last :: rest) ∧
      (∃ n, (newHeader f.format).parse first isVar = (f.header, .ok n)) ∧
      List.Forall₂ (fun u b => ∃ n, (newBase f.format).parse u isVar = (b, .ok n)) us f.bases ∧
      ∃ n, (newTrailer f.format).parse last isVar = (f.trailer, .ok n) := by
  have hne : raw ≠ [] := by
    rintro rfl
    simp [newFileFromReader] at hr
  rw [newFile_raw json p hne hj, readFile_lines hp h] at hr
  generalize Spec.recordsOf ps = ls at hr
  cases ls with
  | nil => cases hr
  | cons l ls =>
    rw [readLines] at hr
    split at hr
    · cases hr
    · next f1 isVar h1 =>
      obtain ⟨enc, hd, n, rfl, hh⟩ := readHeader_inv h1
      split at hr
      · cases hr
      · next bs line h2 =>
        obtain ⟨us, rest, new, rfl, rfl, h3⟩ := lineBases_split h2
        unfold readTrailer at hr
        split at hr
        · cases hr
        · next t m ht =>
          simp only [newFile] at hr ht h3
          cases hr
          exact ⟨l, us, line, rest, isVar, rfl, ⟨n, hh⟩, h3, m, ht⟩
      · cases hr

/-- C44 fails: of two files in a row the second one is dropped, with all its records. -/
theorem C44_violated : ∃ raw ps f, Spec.Pieces raw ps ∧
    (∀ json p, p.Progress → newFileFromReader json p raw false = .ok f) ∧
    Spec.recordsOf ps = Spec.recordTexts f ++ Spec.recordTexts f := by
  have hts := goodFile_texts fixedFile_good (goodFile_noBreaks fixedFile_good)
  obtain ⟨qs, h1, h2⟩ := pieces_join true fixedFile.header.string
    (fixedFile.bases.map Record.string ++ [fixedFile.trailer.string]) hts no_piece_nil
  obtain ⟨ps, h3, h4⟩ := pieces_join true fixedFile.header.string
    (fixedFile.bases.map Record.string ++ [fixedFile.trailer.string]) hts h1
  refine ⟨_, ps, fixedFile, h3, fun json p hp => ?_, ?_⟩
  · have hs : Spec.joinRecords true (fixedFile.header.string :: (fixedFile.bases.map Record.string ++
        [fixedFile.trailer.string])) = fixedFile.string true := by rw [File.string_eq]; rfl
    rw [hs, List.append_nil]
    exact C44_extra_ignored .character false fixedFile fixedFile_good (goodFile_noBreaks fixedFile_good) true _
      (by decide +kernel) json p hp
  · rw [h4, h2]
    simp [Spec.recordTexts, Spec.recordsOf]

/-- Cases of `C44_extra_ignored` and `C45_raw_partial`. -/
example : Spec.GoodFile .character false fixedFile ∧ (∀ t ∈ Spec.recordTexts fixedFile, Spec.NoBreaks t) ∧
    ¬ Spec.EarlyBrace (fixedFile.string true ++ b! "anything") :=
  ⟨fixedFile_good, goodFile_noBreaks fixedFile_good, by decide +kernel⟩

/-- Case of `C44_records_partial`. -/
example : ∃ ps, Spec.Pieces (fixedFile.string true) ps ∧
    newFileFromReader (fun _ => .error .io) slow (fixedFile.string true) false = .ok fixedFile := by
  obtain ⟨ps, h⟩ := pieces_exist (fixedFile.string true)
  exact ⟨ps, h, C41_read false _ fixedFile_good true (fixedFile_noBrace true) _ _ slow_progress⟩

/-! ### C45 -/

/-- C45, what holds: without a brace in the first 1024 bytes a file is decoded as Metro 2, never as JSON. Missing for the full property:
this condition, see `C45_violated`. -/
theorem C45_raw_partial (enc : Enc) (isVar : Bool) (f : File) (h : Spec.GoodFile enc isVar f)
    (hb : ∀ t ∈ Spec.recordTexts f, Spec.NoBreaks t) (nl : Bool) (hj : ¬ Spec.EarlyBrace (f.string nl))
    (json : Bytes → Except Err File) (p : Plan) (hp : p.Progress) :
    newFileFromReader json p (f.string nl) false = .ok f := by
  have := C44_extra_ignored enc isVar f h hb nl [] (by rwa [List.append_nil]) json p hp
  rwa [List.append_nil] at this

/-- C45. With a brace in the first 1024 bytes every well-formed file is rejected (a packed file unless the bytes of
its first size word, 31613, are "{}"). -/
theorem C45_brace_rejected (enc : Enc) (isVar : Bool) (f : File) (h : Spec.GoodFile enc isVar f)
    (hs : enc = .packed → Spec.bdw f.header.fields ≠ 31613) (nl : Bool) (hj : Spec.EarlyBrace (f.string nl))
    (json : Bytes → Except Err File) (hr : Spec.RejectsRaw json) (p : Plan) :
    ∃ e, newFileFromReader json p (f.string nl) false = .error e := by
  rw [newFile_json json p hj]
  obtain ⟨fs, h1, hh⟩ := h.header
  obtain ⟨X, hX, -⟩ := header_shape hh
  rw [File.string_eq, show Spec.recordTexts f = f.header.string :: (f.bases.map Record.string ++ [f.trailer.string]) from rfl,
    joinRecords_cons, h1, hX]
  rw [h1] at hs
  cases enc with
  | character =>
    have key : ∀ v Y, ∃ e, json (firstWord .character v ++ Y) = .error e := by
      intro v Y
      obtain ⟨a, b, c, d, e1, -, -⟩ := firstWord_cases .character v
      rw [e1]
      have := (isDigit_iff a).1 (decDigits_all 4 v.toNat a (by rw [show decDigits 4 v.toNat = [a, b, c, d] from e1]; simp))
      exact hr.1 a _ (by rw [UInt8.le_iff_toNat_le]; exact this.1) (by rw [UInt8.le_iff_toNat_le]; exact this.2)
    cases isVar
    · simp only [Bool.false_eq_true, if_false, List.nil_append, List.append_assoc]
      rw [header_rdwText hh (by have := hh.size; simp only [Spec.sizeWord] at this; simp only [Bool.false_eq_true, if_false] at this; omega)]
      exact key _ _
    · simp only [if_true, List.append_assoc]; exact key _ _
  | packed =>
    have hv := hh.packed rfl
    subst hv
    have hb := hh.bdw
    rw [if_pos rfl] at hb
    rw [wordMax_eq] at hb
    simp only [wordMax] at hb
    rw [if_pos rfl]
    obtain ⟨a, b, c, d, e1, -, e3⟩ := firstWord_cases .packed (Spec.bdw fs)
    obtain ⟨rfl, rfl⟩ := e3 rfl
    rw [e1]
    apply hr.2
    rintro ⟨rfl, rfl⟩
    apply hs rfl
    have e4 : beBytes 2 (Spec.bdw fs).toNat = [123, 125] := by
      have := congrArg (List.take 2) e1
      rw [firstWord, List.take_left' (by simp)] at this
      exact this
    have := congrArg beVal e4
    rw [beVal_beBytes, Nat.mod_eq_of_lt (by omega)] at this
    have h5 : beVal [123, 125] = 31613 := by decide
    show Spec.bdw fs = 31613
    omega

/-- A character file in which a name contains a brace. -/
def Samples.braceFile : File :=
  fileOf .character (header 0 426) [(base 0 426 [(.MiddleName, .str (b! "{"))], {})] (trailer 426)

theorem braceFile_good : Spec.GoodFile .character false braceFile := by
  refine goodFile_of (goodHeader_of_B (by decide +kernel) (by decide +kernel) (by decide +kernel) (by decide)
    (by decide +kernel) (by decide +kernel)) ?_ (goodTrailer_of_B (by decide +kernel) (by decide +kernel)
    (by decide +kernel) (by decide +kernel))
  intro p hp
  simp only [List.mem_cons, List.not_mem_nil, or_false] at hp
  rcases hp with rfl
  exact ⟨goodBase_of_B (by decide +kernel) (by decide +kernel) (by decide +kernel) (by decide) (by decide +kernel)
      (by decide +kernel), by decide +kernel⟩

/-- C45 fails for a file in which a name contains a brace. -/
theorem C45_violated : ∃ f, Spec.GoodFile .character false f ∧
    ∀ nl json p, Spec.RejectsRaw json → ∃ e, newFileFromReader json p (f.string nl) false = .error e :=
  ⟨braceFile, braceFile_good, fun nl json p hr => C45_brace_rejected .character false braceFile braceFile_good
    (by simp) nl (by cases nl <;> decide +kernel) json hr p⟩

/-- Case of `C45_brace_rejected`. -/
example : Spec.RejectsRaw (fun _ => .error .io : Bytes → Except Err File) :=
  ⟨fun _ _ _ _ => ⟨_, rfl⟩, fun _ _ _ _ => ⟨_, rfl⟩⟩

/-! ### C46 -/

/-- C46 fails for every fixed-blocked file: it can be converted, but the result is always rejected. -/
theorem C46_fixed_unreadable (f : File) (h : Spec.GoodFile .character false f) :
    (f.setType "packed".toUTF8.data.toList).2 = none ∧
    ∀ nl json p, Spec.RejectsRaw json → p.Progress → ∃ e,
      newFileFromReader json p ((f.setType "packed".toUTF8.data.toList).1.string nl) false = .error e := by
  have hu : Spec.Uniform f := by
    obtain ⟨h0, ⟨hfs, h1, hh⟩, hbs, ⟨tfs, h2, htr⟩⟩ := h
    refine ⟨⟨hfs, by rw [h0]; exact h1⟩, ?_, ⟨tfs, by rw [h0]; exact h2⟩⟩
    intro r hr
    obtain ⟨fs, g, rfl, -⟩ := hbs r hr
    rw [h0]
    exact ⟨fs, g, rfl⟩
  have hset := C33_setType hu .packed
  rw [show Enc.packed.name = "packed".toUTF8.data.toList from by decide +kernel] at hset
  rw [hset]
  refine ⟨rfl, fun nl json p hr hp => ?_⟩
  obtain ⟨fs, h1, hh⟩ := h.header
  have hb := hh.bdw
  simp only [Bool.false_eq_true, if_false] at hb
  have hsz := hh.size
  simp only [Spec.sizeWord, Bool.false_eq_true, if_false] at hsz
  have hfl : 426 ≤ Spec.fixedLength .character fs := by unfold Spec.fixedLength; exact Nat.le_add_right _ _
  have hmax : Spec.rdw fs ≤ wordMax .character := by
    obtain ⟨b, r, fr, hfs, -, hrd, -⟩ := (blocked_header .character).shape hh.typed
    have hm : (F.RecordDescriptorWord, Val.int r) ∈ fs := by rw [hfs]; simp
    have he : (F.RecordDescriptorWord, rdwField .character) ∈ Enc.character.headerFormat :=
      lookup_mem (blocked_header .character).rdw
    rw [show Spec.rdw fs = r from hrd]
    exact rdw_bounds hh.fits hm he
  simp only [wordMax] at hmax
  obtain ⟨X, hX⟩ := packedHeader_shape hh.typed hh.ident hb (by omega) (by simp only [wordMax]; omega)
  rw [File.string_eq]
  simp only [Spec.recordTexts, List.cons_append, List.nil_append]
  rw [joinRecords_cons, h1, Spec.inFormat, hX]
  obtain ⟨a, b, c, d, e1, -, e3⟩ := firstWord_cases .packed (Spec.rdw fs)
  obtain ⟨rfl, rfl⟩ := e3 rfl
  rw [e1]
  simp only [List.append_assoc]
  generalize hY : (X ++ _ : Bytes) = Y
  by_cases hj : Spec.EarlyBrace ([a, b, 0, 0] ++ (b! "HEADER" ++ Y))
  · rw [newFile_json json p hj]
    apply hr.2
    rintro ⟨rfl, rfl⟩
    have e4 : beBytes 2 (Spec.rdw fs).toNat = [123, 125] := by
      have := congrArg (List.take 2) e1
      rw [firstWord, List.take_left' (by simp)] at this
      exact this
    have := congrArg beVal e4
    rw [beVal_beBytes, Nat.mod_eq_of_lt (by omega)] at this
    have h5 : beVal [123, 125] = 31613 := by decide
    omega
  · rw [newFile_raw json p (by simp) hj]
    exact readFile_noBdw hp a b Y

/-- C46 for variable-blocked files without negative numbers whose data records have descriptors that agree and whose packed
form contains no CR or LF byte: the result of the conversion is read back. Missing for the full property: these
conditions and the fixed-blocked files. -/
theorem C46_variable_partial (f : File) (h : Spec.GoodFile .character true f)
    (hneg : ∀ r ∈ f.header :: f.trailer :: f.bases, Spec.NoNegative r.fields)
    (hd : ∀ r ∈ f.bases, Spec.bdw r.fields = Spec.rdw r.fields + 4)
    (hb : ∀ t ∈ Spec.recordTexts (f.setType "packed".toUTF8.data.toList).1, Spec.NoBreaks t) (nl : Bool)
    (hj : ¬ Spec.EarlyBrace ((f.setType "packed".toUTF8.data.toList).1.string nl))
    (json : Bytes → Except Err File) (p : Plan) (hp : p.Progress) :
    newFileFromReader json p ((f.setType "packed".toUTF8.data.toList).1.string nl) false =
      .ok (f.setType "packed".toUTF8.data.toList).1 := by
  have hu : Spec.Uniform f := by
    obtain ⟨h0, ⟨hfs, h1, hh⟩, hbs, ⟨tfs, h2, htr⟩⟩ := h
    refine ⟨⟨hfs, by rw [h0]; exact h1⟩, ?_, ⟨tfs, by rw [h0]; exact h2⟩⟩
    intro r hr
    obtain ⟨fs, g, rfl, -⟩ := hbs r hr
    rw [h0]
    exact ⟨fs, g, rfl⟩
  have hset := C33_setType hu .packed
  rw [show Enc.packed.name = "packed".toUTF8.data.toList from by decide +kernel] at hset
  have hg := goodFile_convert h hneg hd
  rw [hset] at hb hj ⊢
  exact C42_read_partial _ hg hb nl hj json p hp

/-- A character file that can be read, but not after conversion. -/
theorem C46_violated : ∃ f, Spec.GoodFile .character false f ∧ ∀ nl json p, Spec.RejectsRaw json → p.Progress →
    newFileFromReader json p (f.string nl) false = .ok f ∧
    ∃ e, newFileFromReader json p ((f.setType "packed".toUTF8.data.toList).1.string nl) false = .error e :=
  ⟨fixedFile, fixedFile_good, fun nl json p hr hp => ⟨C41_read false _ fixedFile_good nl (fixedFile_noBrace nl) json p hp,
    (C46_fixed_unreadable fixedFile fixedFile_good).2 nl json p hr hp⟩⟩

theorem noNegative_of {fs : Fields} (h : fs.all (fun p => match p.2 with | .int i => decide (0 ≤ i) | _ => true) = true) :
    Spec.NoNegative fs := by
  intro p hp i hi
  have := List.all_eq_true.1 h p hp
  rw [hi] at this
  simpa using this

/-- Case of `C46_variable_partial`. -/
example : Spec.GoodFile .character true variableFile ∧
    (∀ r ∈ variableFile.header :: variableFile.trailer :: variableFile.bases, Spec.NoNegative r.fields) ∧
    (∀ r ∈ variableFile.bases, Spec.bdw r.fields = Spec.rdw r.fields + 4) ∧
    (∀ t ∈ Spec.recordTexts (variableFile.setType "packed".toUTF8.data.toList).1, Spec.NoBreaks t) ∧
    ¬ Spec.EarlyBrace ((variableFile.setType "packed".toUTF8.data.toList).1.string true) :=
  ⟨variableFile_good, fun r hr => noNegative_of (by revert r hr; decide +kernel), by decide +kernel, by decide +kernel,
    by decide +kernel⟩

/-! ### C52 -/

/-- C52, what holds: a failure within the first 1024 bytes is reported. Missing for the full property: later failures, see
`C52_violated`. -/
theorem C52_early_partial (json : Bytes → Except Err File) (p : Plan) (data : Bytes) (h : data.length < 1024) :
    newFileFromReader json p data true = .error .io := by
  unfold newFileFromReader
  rw [if_pos ⟨h, .inl rfl⟩]

/-- C52 fails: a failure after the trailer of a file was delivered is not reported, whatever else was still to come. -/
theorem C52_violated (enc : Enc) (isVar : Bool) (f : File) (h : Spec.GoodFile enc isVar f)
    (hb : ∀ t ∈ Spec.recordTexts f, Spec.NoBreaks t) (nl : Bool) (extra : Bytes)
    (hl : 1024 ≤ (f.string nl ++ extra).length)
    (hj : ¬ Spec.EarlyBrace (f.string nl ++ extra)) (json : Bytes → Except Err File) (p : Plan) (hp : p.Progress) :
    newFileFromReader json p (f.string nl ++ extra) true = .ok f := by
  rw [← C44_extra_ignored enc isVar f h hb nl extra hj json p hp]
  have h1 : ∀ q : Prop, ¬ ((f.string nl ++ extra).length < 1024 ∧ q) := fun q hq => by omega
  unfold newFileFromReader
  rw [if_neg (h1 _), if_neg (h1 _)]

example : Spec.GoodFile .character false fixedFile ∧ (∀ t ∈ Spec.recordTexts fixedFile, Spec.NoBreaks t) ∧
    1024 ≤ (fixedFile.string true ++ []).length ∧ ¬ Spec.EarlyBrace (fixedFile.string true ++ []) :=
  ⟨fixedFile_good, goodFile_noBreaks fixedFile_good, by decide +kernel, by decide +kernel⟩

/-- Case of `C52_early_partial`. -/
example : (braceFile.string true).take 900 ≠ [] ∧
    newFileFromReader (fun _ => .error .io) slow ((braceFile.string true).take 900) true = .error .io :=
  ⟨by decide +kernel, C52_early_partial _ _ _ (by decide +kernel)⟩

end Metro2
