import Verif.Lemmas.Again
import Verif.Props.Chain

/-!
Property C89: what was read is written as a text that is read in the same way.
-/

namespace Metro2

open Samples

/-- What the reader gives for Metro 2 text. -/
theorem raw_of_ok {json : Bytes → Except Err File} {p : Plan} {data : Bytes} {f : File} (hj : ¬ Spec.EarlyBrace data)
    (h : newFileFromReader json p data false = .ok f) : readFile p data = .ok f := by
  rw [← newFile_raw json p ?_ hj]
  · exact h
  · rintro rfl
    simp [newFileFromReader] at h

theorem wasRead_of_ok {json : Bytes → Except Err File} {p : Plan} (hp : p.Progress) {data : Bytes} {f : File} (hj : ¬ Spec.EarlyBrace data)
    (h : newFileFromReader json p data false = .ok f) : FileWasRead f.format (Spec.isBlocked f) f := by
  have hr := raw_of_ok hj h
  obtain ⟨ps, hps⟩ := pieces_exist data
  rw [readFile_lines hp hps] at hr
  obtain ⟨enc, isVar, hf⟩ := fileWasRead (recordsOf_texts hps) hr
  rw [hf.blocked, hf.format]
  exact hf

theorem FileWasRead.text_ne_nil {enc : Enc} {isVar : Bool} {f : File} (h : FileWasRead enc isVar f) (hm : Spec.Measured f) (nl : Bool) :
    f.string nl ≠ [] := by
  have := (h.texts hm f.header.string (by simp [Spec.recordTexts])).four
  rw [File.string_eq, show Spec.recordTexts f = f.header.string :: (f.bases.map Record.string ++ [f.trailer.string]) from rfl,
    joinRecords_cons]
  intro hn
  rw [(List.append_eq_nil_iff.1 hn).1] at this
  exact absurd this (by decide)

/-- C89. A file was read from a Metro 2 text, and every record is written in the length that it announces. The text written for the file,
however it is delivered, is read as the same file exactly if every record is regular and the trailer's text cannot be read as a data record. -/
theorem C89_iff (json json' : Bytes → Except Err File) (p p' : Plan) (hp : p.Progress) (hp' : p'.Progress) (data : Bytes) (f : File)
    (hj : ¬ Spec.EarlyBrace data) (h : newFileFromReader json p data false = .ok f) (hm : Spec.Measured f) (nl : Bool)
    (hj' : ¬ Spec.EarlyBrace (f.string nl)) :
    newFileFromReader json' p' (f.string nl) false = .ok f ↔
      Spec.RegularFile f ∧ ¬ Spec.ReadsAsData f.format (Spec.isBlocked f) f.trailer.string := by
  have hw := wasRead_of_ok hp hj h
  rw [newFile_raw json' p' (hw.text_ne_nil hm nl) hj', hw.readFile hm nl hp']
  exact hw.again hm

/-- C89. If the trailer has its name, regular records are all that is needed. -/
theorem C89_named (json json' : Bytes → Except Err File) (p p' : Plan) (hp : p.Progress) (hp' : p'.Progress) (data : Bytes) (f : File)
    (hj : ¬ Spec.EarlyBrace data) (h : newFileFromReader json p data false = .ok f) (hm : Spec.Measured f)
    (ht : (.RecordIdentifier, .str "TRAILER".toUTF8.data.toList) ∈ Spec.valuesOf f.trailer) (nl : Bool)
    (hj' : ¬ Spec.EarlyBrace (f.string nl)) :
    newFileFromReader json' p' (f.string nl) false = .ok f ↔ Spec.RegularFile f := by
  rw [C89_iff json json' p p' hp hp' data f hj h hm nl hj']
  refine ⟨And.left, fun hr => ⟨hr, ?_⟩⟩
  obtain ⟨line, fs, n, h1, h2, h3⟩ := (wasRead_of_ok hp hj h).trailer
  have hreg := hr _ (show f.trailer ∈ Spec.allRecords f by simp [Spec.allRecords])
  rw [h2] at hreg ht ⊢
  obtain ⟨t1, t2, t3, -⟩ := trailer_line h1 h3
  have hg : Spec.GoodTrailer f.format fs := ⟨t1, (layout_trailer _).fits_of_accepted t1 t2 (by revert hreg; cases f.format <;> exact id), ht,
    by rw [show Spec.recordLength f.format = f.format.recordLength by cases f.format <;> rfl]; exact t3⟩
  rintro ⟨r, k, hk⟩
  obtain ⟨b, err, hb, -⟩ := base_of_trailer hg (Spec.isBlocked f) []
  rw [List.append_nil, hk] at hb
  cases hb

/-- C89. Files with fixed-length records: nothing has to be supposed about lengths. -/
theorem C89_fixed (json json' : Bytes → Except Err File) (p p' : Plan) (hp : p.Progress) (hp' : p'.Progress) (data : Bytes) (f : File)
    (hj : ¬ Spec.EarlyBrace data) (h : newFileFromReader json p data false = .ok f) (hb : Spec.bdw (Spec.valuesOf f.header) = 0) (nl : Bool)
    (hj' : ¬ Spec.EarlyBrace (f.string nl)) :
    newFileFromReader json' p' (f.string nl) false = .ok f ↔
      Spec.RegularFile f ∧ ¬ Spec.ReadsAsData f.format false f.trailer.string := by
  have hv : Spec.isBlocked f = false := by simp [Spec.isBlocked, hb]
  have hw := wasRead_of_ok hp hj h
  rw [hv] at hw
  have hi := C89_iff json json' p p' hp hp' data f hj h hw.measured nl hj'
  rwa [hv] at hi

/-- C89, the part that holds. -/
theorem C89_reread_partial (json json' : Bytes → Except Err File) (p p' : Plan) (hp : p.Progress) (hp' : p'.Progress) (data : Bytes) (f : File)
    (hj : ¬ Spec.EarlyBrace data) (h : newFileFromReader json p data false = .ok f) (hm : Spec.Measured f) (hr : Spec.RegularFile f)
    (ht : ¬ Spec.ReadsAsData f.format (Spec.isBlocked f) f.trailer.string) (nl : Bool) (hj' : ¬ Spec.EarlyBrace (f.string nl)) :
    newFileFromReader json' p' (f.string nl) false = .ok f :=
  (C89_iff json json' p p' hp hp' data f hj h hm nl hj').2 ⟨hr, ht⟩

/-- C89, in the service: a text is sent and Metro 2 is asked for, and what is answered is sent again with the same wish. Under the same
conditions the second answer is the first one. -/
theorem C89_service_partial (env : ServerEnv) (he : Spec.JsonBranch env) (hp : env.plan.Progress) (r r' : Request) (data : Bytes) (f : File)
    (hr : Spec.AsIs r) (hc : Spec.Carries r data false) (hj : ¬ Spec.EarlyBrace data)
    (h : newFileFromReader env.json env.plan data false = .ok f) (hm : Spec.Measured f) (hreg : Spec.RegularFile f)
    (ht : ¬ Spec.ReadsAsData f.format (Spec.isBlocked f) f.trailer.string) (hw : Spec.WantsMetro r) (nl : Bool) (hn : Spec.SameLines r nl)
    (hj' : ¬ Spec.EarlyBrace (f.string nl))
    (hr' : Spec.AsIs r') (hc' : Spec.Carries r' (Spec.body env r) false) (hw' : Spec.WantsMetro r') (hn' : Spec.SameLines r' nl) :
    Spec.status env r = 200 ∧ Spec.status env r' = 200 ∧ Spec.body env r' = Spec.body env r := by
  obtain ⟨s1, b1⟩ := (asIs_body he hr ⟨data, false, hc, h⟩).2 hw nl hn
  rw [b1] at hc' ⊢
  have := C89_reread_partial env.json env.json env.plan env.plan hp hp data f hj h hm hreg ht nl hj'
  obtain ⟨s2, b2⟩ := (asIs_body he hr' ⟨_, false, hc', this⟩).2 hw' nl hn'
  exact ⟨s1, s2, b2⟩

/-! ### Examples -/

instance (f : File) : Decidable (Spec.Measured f) := by unfold Spec.Measured; infer_instance

namespace Samples

/-- The input is delivered in pieces of up to 4096 bytes. -/
def atOnce : Plan := ⟨fun _ => 4096, fun _ => false⟩

/-- A text with another text in the place of a part of it. -/
def patched (s : Bytes) (pos : Nat) (new : Bytes) : Bytes := s.take pos ++ new ++ s.drop (pos + new.length)

end Samples

theorem atOnce_progress : atOnce.Progress := fun _ => ⟨0, by decide, by simp [atOnce]⟩

/-- What is read does not depend on the delivery. -/
theorem readFile_delivery {p q : Plan} (hp : p.Progress) (hq : q.Progress) (data : Bytes) : readFile p data = readFile q data := by
  obtain ⟨ps, hps⟩ := pieces_exist data
  rw [readFile_lines hp hps, readFile_lines hq hps]

theorem read_of_atOnce {data : Bytes} {f : File} (hj : ¬ Spec.EarlyBrace data) (hne : data ≠ []) (h : readFile atOnce data = .ok f)
    (json : Bytes → Except Err File) {p : Plan} (hp : p.Progress) : newFileFromReader json p data false = .ok f := by
  rw [newFile_raw json p hne hj, readFile_delivery hp atOnce_progress]
  exact h

namespace Samples

/-- A file with one data record, with this credit limit. -/
def creditFile (bdw : Int) (limit : Int) : File :=
  fileOf .character (header bdw 426) [(base bdw 426 [(.CreditLimit, .int limit)], {})] (trailer 426)

/-- Texts of such files: the limit is given with a sign. -/
def signedText (sign : String) : Bytes := patched ((creditFile 0 0).string true) (426 + 1 + 83) (sign ++ "00000005").toUTF8.data.toList

/-- The header announces 428 bytes and has them; two of the 430 bytes that belong to a header with a block descriptor are missing. -/
def shortText : Bytes :=
  Spec.joinRecords true [(Record.header .character (header 428 424)).string.take 428, (Record.base .character (base 430 426) {}).string,
    (Record.trailer .character (trailer 426)).string]

def shortFile : File := fileOf .character (header 428 424) [(base 430 426, {})] (trailer 426)

end Samples

theorem creditFile_regular : Spec.RegularFile (creditFile 0 5) := by
  intro r hr
  simp only [creditFile, fileOf, Spec.allRecords, List.map_cons, List.map_nil, List.cons_append, List.nil_append, List.mem_cons,
    List.not_mem_nil, or_false] at hr
  rcases hr with rfl | rfl | rfl
  · exact regular_of_B (layout_header .character).names (by decide +kernel)
  · exact ⟨regular_of_B layout_baseCharacter.names (by decide +kernel), fun s hs => by simp [Spec.Holds] at hs⟩
  · exact regular_of_B (layout_trailer .character).names (by decide +kernel)

theorem creditFile_trailer : ¬ Spec.ReadsAsData .character false (creditFile 0 5).trailer.string := by
  rintro ⟨r, n, hn⟩
  have : ((newBase .character).parse (creditFile 0 5).trailer.string false).2 = .ok n := by
    rw [hn]
  rw [show ((newBase .character).parse (creditFile 0 5).trailer.string false).2 = .error (.numeric .ProcessingIndicator) by decide +kernel] at this
  cases this

/-- Non-vacuity: a credit limit written with a plus sign. The text that is written differs from the text that was read, and is read as the same file. -/
example (json json' : Bytes → Except Err File) (p p' : Plan) (hp : p.Progress) (hp' : p'.Progress) :
    newFileFromReader json p (signedText "+") false = .ok (creditFile 0 5) ∧ (creditFile 0 5).string true ≠ signedText "+" ∧
    newFileFromReader json' p' ((creditFile 0 5).string true) false = .ok (creditFile 0 5) := by
  have h := read_of_atOnce (data := signedText "+") (f := creditFile 0 5) (by decide +kernel) (by decide +kernel) (by decide +kernel) json hp
  refine ⟨h, by decide +kernel, (C89_named json json' p p' hp hp' _ _ (by decide +kernel) h (by decide +kernel) (by decide +kernel) true
    (by decide +kernel)).2 creditFile_regular⟩

/-- Cases of `C89_reread_partial` and `C89_iff`. -/
example (json json' : Bytes → Except Err File) (p p' : Plan) (hp : p.Progress) (hp' : p'.Progress) :
    newFileFromReader json' p' ((creditFile 0 5).string true) false = .ok (creditFile 0 5) :=
  C89_reread_partial json json' p p' hp hp' (signedText "+") _ (by decide +kernel)
    (read_of_atOnce (by decide +kernel) (by decide +kernel) (by decide +kernel) json hp) (by decide +kernel) creditFile_regular creditFile_trailer
    true (by decide +kernel)

/-- The same with `C89_fixed`, where nothing is supposed about lengths. -/
example (json : Bytes → Except Err File) (p : Plan) (hp : p.Progress) :
    newFileFromReader json p ((creditFile 0 5).string true) false = .ok (creditFile 0 5) := by
  have h := read_of_atOnce (data := signedText "+") (f := creditFile 0 5) (by decide +kernel) (by decide +kernel) (by decide +kernel) json hp
  refine (C89_fixed json json p p hp hp _ _ (by decide +kernel) h (by decide +kernel) true (by decide +kernel)).2 ⟨creditFile_regular, creditFile_trailer⟩

/-- In the service, with the printed text sent again. -/
def Samples.printed (text : Bytes) : Request := sampleRequest (b! "/print") text (b! "format") (b! "metro")

example : Spec.body textEnv (printed (Spec.body textEnv (printed (signedText "+")))) = Spec.body textEnv (printed (signedText "+")) ∧
    Spec.body textEnv (printed (signedText "+")) ≠ signedText "+" := by
  have hE : Spec.JsonBranch textEnv := serverEnv_json isoEnv backwards (fun _ => []) slow
  have h := read_of_atOnce (data := signedText "+") (f := creditFile 0 5) (by decide +kernel) (by decide +kernel) (by decide +kernel)
    textEnv.json slow_progress
  have wants : ∀ text, Spec.WantsMetro (printed text) := fun _ => rfl
  have same : ∀ text, Spec.SameLines (printed text) true := by
    intro text
    rw [sameLines_iff]
    show true = !equalFold (if b! "newline" = b! "format" then b! "metro" else []) (b! "false")
    decide +kernel
  refine ⟨(C89_service_partial textEnv hE slow_progress (printed (signedText "+")) (printed (Spec.body textEnv (printed (signedText "+"))))
    (signedText "+") (creditFile 0 5) (.inl (sample_post "/print" _ _ _)) (sample_carries _ _ _ _) (by decide +kernel) h (by decide +kernel)
    creditFile_regular creditFile_trailer (wants _) true (same _) (by decide +kernel) (.inl (sample_post "/print" _ _ _)) (sample_carries _ _ _ _) (wants _)
    (same _)).2.2, ?_⟩
  rw [((asIs_body hE (r := printed (signedText "+")) (.inl (sample_post "/print" _ _ _)) ⟨_, _, sample_carries _ _ _ _, h⟩).2 (wants _) true (same _)).2]
  decide +kernel

/-- C89 is violated in two ways. A credit limit written as `-00000005` is read as -5, and what is written for it, `0000000-5`, is refused. A header
that announces 428 bytes is written with 430, and the file is refused. -/
theorem C89_violated : ∃ data data' f f', ¬ Spec.EarlyBrace data ∧ ¬ Spec.EarlyBrace data' ∧
    ∀ (json : Bytes → Except Err File) (p : Plan), p.Progress →
      newFileFromReader json p data false = .ok f ∧ newFileFromReader json p data' false = .ok f' ∧
      Spec.Measured f ∧ ¬ Spec.Measured f' ∧
      (∀ f2, newFileFromReader json p (f.string true) false ≠ .ok f2) ∧ ∀ f2, newFileFromReader json p (f'.string true) false ≠ .ok f2 := by
  have e1 : ¬ Spec.EarlyBrace (signedText "-") := by decide +kernel
  have e2 : ¬ Spec.EarlyBrace shortText := by decide +kernel
  have r1 : readFile atOnce (signedText "-") = .ok (creditFile 0 (-5)) := by decide +kernel
  have r2 : readFile atOnce shortText = .ok shortFile := by decide +kernel
  refine ⟨signedText "-", shortText, creditFile 0 (-5), shortFile, e1, e2, fun json p hp => ⟨read_of_atOnce e1 (by decide +kernel) r1 json hp,
    read_of_atOnce e2 (by decide +kernel) r2 json hp, by decide +kernel, by decide +kernel, ?_, ?_⟩⟩
  · intro f2
    rw [newFile_raw json p (by decide +kernel) (by decide +kernel), readFile_delivery hp atOnce_progress,
      show readFile atOnce ((creditFile 0 (-5)).string true) = .error (.numeric .TotalStatusCodeDF) by decide +kernel]
    simp
  · intro f2
    rw [newFile_raw json p (by decide +kernel) (by decide +kernel), readFile_delivery hp atOnce_progress,
      show readFile atOnce (shortFile.string true) = .error .invalidSegment by decide +kernel]
    simp

end Metro2
