import Verif.Lemmas.FileMessages
import Verif.Props.Damage

/-!
C100: which part of a file the error text of a failed reading is about.
-/

namespace Metro2

open Samples

/-- The header part of `Read`: what it leaves in the file. -/
theorem readHeader_left {line : Bytes} {f : File} {isVar : Bool} (h : readHeader (newFile .character) line = .ok (f, isVar)) :
    ∃ enc hd n, f = ⟨enc, hd, [], newTrailer enc⟩ ∧ (newHeader enc).parse line isVar = (hd, .ok n) := by
  unfold readHeader at h
  split at h
  · cases h
  · split at h
    · cases h
    · next packed _ =>
      have hset : (newFile .character).setType (if packed then Enc.packed.name else messageMetroFormat) =
          (newFile (if packed then .packed else .character), if packed then none else some .invalidFile) := by
        cases packed <;> decide +kernel
      rw [hset] at h
      simp only at h
      generalize (if packed then Enc.packed else Enc.character) = enc at h
      generalize hq : (newFile enc).header.parse line (isVariableLength line) = q at h
      obtain ⟨hd, x⟩ := q
      cases x with
      | error e => cases h
      | ok n =>
        cases h
        exact ⟨enc, hd, n, rfl, hq⟩

/-- The text of the header part. -/
theorem readHeaderText_eq (line : Bytes) : (isMetroFile line = false ∧ readHeaderText (newFile .character) line = some errInvalidMetroFile) ∨
    (∃ e, isPacked line = .error e ∧ readHeaderText (newFile .character) line = none) ∨
    ∃ enc, readHeaderText (newFile .character) line = (newHeader enc).parseText line (isVariableLength line) ∧
      ∀ e, readHeader (newFile .character) line = .error e → ∃ r', (newHeader enc).parse line (isVariableLength line) = (r', .error e) := by
  unfold readHeaderText readHeader
  cases isMetroFile line with
  | false => exact .inl ⟨rfl, rfl⟩
  | true =>
    refine .inr ?_
    cases isPacked line with
    | error e => exact .inl ⟨e, rfl, rfl⟩
    | ok packed =>
      have hset : ((newFile .character).setType (if packed then Enc.packed.name else messageMetroFormat)).1 =
          newFile (if packed then .packed else .character) := by
        cases packed <;> decide +kernel
      refine .inr ⟨if packed then .packed else .character, ?_, ?_⟩
      · simp only [Bool.not_true, Bool.false_eq_true, if_false, hset]
        rfl
      · intro e h
        simp only [Bool.not_true, Bool.false_eq_true, if_false, hset] at h
        change (match (newHeader (if packed then Enc.packed else Enc.character)).parse line (isVariableLength line) with
          | (_, .error e) => _
          | (h, .ok _) => _) = _ at h
        generalize hq : (newHeader (if packed then Enc.packed else Enc.character)).parse line (isVariableLength line) = q at h ⊢
        obtain ⟨r', x⟩ := q
        cases x with
        | error e' => cases h; exact ⟨r', rfl⟩
        | ok n => cases h

theorem newHeader_about {enc : Enc} {rec : Bytes} {isVar : Bool} {m : Bytes} (h : (newHeader enc).parseText rec isVar = some m) :
    Spec.About m (.header enc) ∨ Spec.Nameless m :=
  record_parseText_about (r := newHeader enc) (fun _ _ _ e => by cases e) h

theorem newTrailer_about {enc : Enc} {rec : Bytes} {isVar : Bool} {m : Bytes} (h : (newTrailer enc).parseText rec isVar = some m) :
    Spec.About m (.trailer enc) ∨ Spec.Nameless m :=
  record_parseText_about (r := newTrailer enc) (fun _ _ _ e => by cases e) h

/-- C100. Whatever is wrong with a file, the error text of the reader is about its header or its trailer, or names no record. -/
theorem C100_ends (p : Plan) (data m : Bytes) (h : readFileText p data = some m) : Spec.AboutEnds m := by
  unfold readFileText at h
  simp only at h
  split at h
  · obtain rfl := Option.some.inj h
    exact .inr (.inl (by decide +kernel))
  · split at h
    · next line _ _ _ _ =>
      rcases readHeaderText_eq line with ⟨-, e⟩ | ⟨-, -, e⟩ | ⟨enc, e, -⟩
      · rw [e] at h
        obtain rfl := Option.some.inj h
        exact .inl (by decide +kernel)
      · rw [e] at h
        cases h
      · rw [e] at h
        rcases newHeader_about h with h | h
        · exact .inr (.inr ⟨enc, .inl h⟩)
        · exact .inl h
    · next f isVar hr =>
      obtain ⟨enc, hd, n, rfl, -⟩ := readHeader_left hr
      have trail : ∀ line, (newTrailer enc).parseText line isVar = some m → Spec.AboutEnds m := by
        intro line h
        rcases newTrailer_about h with h | h
        · exact .inr (.inr ⟨enc, .inr h⟩)
        · exact .inl h
      split at h
      · cases h
      · exact trail _ h
      · split at h
        · obtain rfl := Option.some.inj h
          exact .inr (.inl (by decide +kernel))
        · exact trail _ h

/-- C100. So it never is about a data record or one of its segments, whichever field is wrong. -/
theorem C100_never_data (p : Plan) (data m : Bytes) (h : readFileText p data = some m) (n : Sort14)
    (hn : (∃ enc, n = .base enc) ∨ ∃ k, n = .seg k) : ¬ Spec.About m n := by
  intro ha
  rcases C100_ends p data m h with h | h | ⟨enc, h | h⟩
  · exact nameless_not_about (.inl h) n ha
  · exact nameless_not_about (.inr h) n ha
  · have := about_unique h ha
    rcases hn with ⟨e, rfl⟩ | ⟨k, rfl⟩ <;> cases this
  · have := about_unique h ha
    rcases hn with ⟨e, rfl⟩ | ⟨k, rfl⟩ <;> cases this

/-- The loop over the data records gives no error but a panic. -/
theorem readBases_error {p : Plan} {enc : Enc} {isVar : Bool} {s : Scanner} {acc : List Record} {e : Err}
    (h : readBases p enc isVar s acc = .error e) : e = .panic := by
  fun_induction readBases p enc isVar s acc with
  | case1 => cases h
  | case2 => cases h; rfl
  | case3 => cases h
  | case4 _ _ _ _ _ _ _ _ ih => exact ih h

/-- C100. A file that is read gives no error text, and a text is given only for a file that is not read. If the error is about a field, the text
is given, and accuses this field of the header or of the trailer. -/
theorem C100_error (p : Plan) (data : Bytes) :
    (∀ m, readFileText p data = some m → ∃ e, readFile p data = .error e) ∧
    ∀ e f x, readFile p data = .error e → Spec.faultOf e = some (f, x) →
      ∃ m enc, readFileText p data = some m ∧ (Spec.Accuses m f (.header enc) x ∨ Spec.Accuses m f (.trailer enc) x) := by
  unfold readFileText readFile
  simp only
  generalize (newScanner data).scan p = q
  obtain ⟨s, y⟩ := q
  cases y with
  | none => exact ⟨fun m _ => ⟨_, rfl⟩, fun e f x he hf => by cases he; cases hf⟩
  | some line =>
    simp only
    generalize hr : readHeader (newFile .character) line = q
    cases q with
    | error e =>
      have he := hr
      refine ⟨fun m _ => ⟨_, rfl⟩, fun e' f x he' hf => ?_⟩
      cases he'
      rcases readHeaderText_eq line with ⟨e1, -⟩ | ⟨e1, e2, -⟩ | ⟨enc, e1, e2⟩
      · unfold readHeader at he
        rw [e1] at he
        cases he
        cases hf
      · unfold readHeader at he
        rw [e2] at he
        have hp : e1 = .panic := by
          unfold isPacked at e2
          repeat' split at e2
          all_goals first | (cases e2; done) | (cases e2; rfl)
        split at he
        · cases he; cases hf
        · cases he
          subst hp
          cases hf
      · obtain ⟨r', hr⟩ := e2 _ he
        obtain ⟨-, m, hm, ha⟩ := C71_record (newHeader enc) r' _ _ _ (fun _ _ _ e => by cases e) hr f x hf
        exact ⟨m, enc, by rw [e1, hm], .inl ha⟩
    | ok q =>
      obtain ⟨f, isVar⟩ := q
      obtain ⟨enc, hd, n, rfl, -⟩ := readHeader_left hr
      have trail : ∀ (line : Bytes) (bs : List Record),
          (∀ m, (newTrailer enc).parseText line isVar = some m → ∃ e, readTrailer ⟨enc, hd, bs, newTrailer enc⟩ line isVar = .error e) ∧
          ∀ e f x, readTrailer ⟨enc, hd, bs, newTrailer enc⟩ line isVar = .error e → Spec.faultOf e = some (f, x) →
            ∃ m enc', (newTrailer enc).parseText line isVar = some m ∧
              (Spec.Accuses m f (.header enc') x ∨ Spec.Accuses m f (.trailer enc') x) := by
        intro line bs
        unfold readTrailer
        generalize hq : (newTrailer enc).parse line isVar = q
        obtain ⟨t, y⟩ := q
        cases y with
        | ok n =>
          refine ⟨fun m hm => ?_, fun e f x he => ?_⟩
          · unfold Record.parseText at hm
            rw [hq] at hm
            cases hm
          · cases he
        | error e =>
          refine ⟨fun m hm => ⟨_, rfl⟩, fun e f x he hf => ?_⟩
          cases he
          obtain ⟨-, m, hm, ha⟩ := C71_record (newTrailer enc) t _ _ _ (fun _ _ _ e => by cases e) hq f x hf
          exact ⟨m, enc, hm, .inr ha⟩
      simp only
      generalize hb : readBases p enc isVar s [] = q
      match q, hb with
      | .error e, hb =>
        refine ⟨fun m hm => (nomatch hm), fun e' f x he hf => ?_⟩
        cases he
        rw [readBases_error hb] at hf
        cases hf
      | .ok (bs, some line, _), _ => exact trail line bs
      | .ok (bs, none, s), _ =>
        simp only
        generalize s.scan p = q
        obtain ⟨u, y⟩ := q
        cases y with
        | none => exact ⟨fun m _ => ⟨_, rfl⟩, fun e f x he hf => by cases he; cases hf⟩
        | some line => exact trail line bs

/-- C100. If a data record of a well-formed file is damaged so that it can be read neither as a data record nor as a trailer, the trailer is blamed: the text
is the one that reading the damaged record as a trailer gives. The first four bytes of the record are taken to be undamaged. -/
theorem C100_data (enc : Enc) (isVar : Bool) (f : File) (h : Spec.GoodFile enc isVar f)
    (hb : enc = .packed → ∀ t ∈ Spec.recordTexts f, Spec.NoBreaks t) (before after : List Record) (r : Record)
    (hf : f.bases = before ++ r :: after) (t : Bytes) (hd : Spec.Damaged r.string t) (nl : Bool)
    (hn : ¬ Spec.ReadsAsData enc isVar t) (p : Plan) (hp : p.Progress) :
    readFileText p (Spec.textWith nl f (before.map Record.string ++ t :: after.map Record.string)) = (newTrailer enc).parseText t isVar ∧
    ∀ m, readFileText p (Spec.textWith nl f (before.map Record.string ++ t :: after.map Record.string)) = some m →
      Spec.About m (.trailer enc) ∨ Spec.Nameless m := by
  have ht := good_texts h hb
  have hmem : ∀ b ∈ f.bases, RecordText b.string := fun b hm => ht _ (by
    simp only [Spec.recordTexts, List.mem_cons, List.mem_append, List.mem_map]
    exact .inl (.inr ⟨b, hm, rfl⟩))
  rw [hf] at hmem
  have h1 : RecordText f.header.string := ht _ (by simp [Spec.recordTexts])
  have h2 : RecordText f.trailer.string := ht _ (by simp [Spec.recordTexts])
  have g1 : ∀ b ∈ before, ∃ fs g, b = .base enc fs g ∧ Spec.GoodData enc isVar fs g :=
    fun b hm => h.bases b (by rw [hf]; simp [hm])
  have key : readFileText p (Spec.textWith nl f (before.map Record.string ++ t :: after.map Record.string)) = (newTrailer enc).parseText t isVar := by
    unfold Spec.textWith
    rw [readFileText_joined hp]
    · obtain ⟨hfs, e, hh⟩ := h.header
      rw [readLinesText, e, readHeader_text hh]
      simp only [newFile]
      rw [List.append_assoc, lineBases_good _ before [] g1, List.nil_append, List.cons_append, lineBases_fail hn]
    · intro u hu
      simp only [List.mem_cons, List.mem_append, List.mem_map, List.not_mem_nil, or_false] at hu
      rcases hu with rfl | (⟨b, hm, rfl⟩ | rfl | ⟨b, hm, rfl⟩) | rfl
      · exact h1
      · exact hmem b (by simp [hm])
      · exact hd.recordText (hmem r (by simp))
      · exact hmem b (by simp [hm])
      · exact h2
  exact ⟨key, fun m hm => newTrailer_about (key ▸ hm)⟩

/-- C100, what holds: if the header is damaged behind its name, the text is about the header or names no record. -/
theorem C100_header_partial (enc : Enc) (isVar : Bool) (f : File) (h : Spec.GoodFile enc isVar f)
    (hb : enc = .packed → ∀ t ∈ Spec.recordTexts f, Spec.NoBreaks t) (t : Bytes) (hd : Spec.Damaged f.header.string t)
    (hn : t.take 14 = f.header.string.take 14) (nl : Bool) (p : Plan) (hp : p.Progress) (m : Bytes)
    (hm : readFileText p (Spec.joinRecords nl (t :: (f.bases.map Record.string ++ [f.trailer.string]))) = some m) :
    (newHeader enc).parseText t isVar = some m ∧ (Spec.About m (.header enc) ∨ Spec.Nameless m) := by
  have ht := good_texts h hb
  have h1 : RecordText t := hd.recordText (ht _ (by simp [Spec.recordTexts]))
  rw [readFileText_joined hp] at hm
  · obtain ⟨k1, k2, k3⟩ := damaged_checks h hd hn
    have hq : readHeaderText (newFile .character) t = (newHeader enc).parseText t isVar := by
      unfold readHeaderText
      rw [k1, k2, k3]
      simp only [Bool.not_true, Bool.false_eq_true, if_false, setType_new]
      rfl
    rw [readLinesText, damaged_readHeader h hd hn, hq] at hm
    generalize hq : (newHeader enc).parse t isVar = q at hm
    obtain ⟨t', x⟩ := q
    cases x with
    | error e => exact ⟨hm, newHeader_about hm⟩
    | ok n =>
      obtain ⟨tfs, e', htr⟩ := h.trailer
      have htrail := C18_trailer enc tfs htr.typed htr.fits isVar []
      rw [List.append_nil] at htrail
      simp only [newFile] at hm
      rw [e', lineBases_text (isVar := isVar) htr [] f.bases [] h.bases] at hm
      simp only [Record.parseText, htrail] at hm
      cases hm
  · intro u hu
    simp only [List.mem_cons] at hu
    rcases hu with rfl | hu
    · exact h1
    · exact ht _ (List.mem_cons_of_mem _ hu)

/-- C100, what holds: if the trailer is damaged, the text is about the trailer or names no record, or says that the trailer is missing.
Missing for the full property: damage to a data record, for which `C100_data` says what happens; see `C100_violated`. -/
theorem C100_trailer_partial (enc : Enc) (isVar : Bool) (f : File) (h : Spec.GoodFile enc isVar f)
    (hb : enc = .packed → ∀ t ∈ Spec.recordTexts f, Spec.NoBreaks t) (t : Bytes) (hd : Spec.Damaged f.trailer.string t) (nl : Bool)
    (p : Plan) (hp : p.Progress) (m : Bytes)
    (hm : readFileText p (Spec.joinRecords nl (f.header.string :: (f.bases.map Record.string ++ [t]))) = some m) :
    (¬ Spec.ReadsAsData enc isVar t ∧ (newTrailer enc).parseText t isVar = some m ∧ (Spec.About m (.trailer enc) ∨ Spec.Nameless m)) ∨
      (Spec.ReadsAsData enc isVar t ∧ m = b! "has an invalid segment (trailer)") := by
  have ht := good_texts h hb
  have h1 : RecordText f.header.string := ht _ (by simp [Spec.recordTexts])
  have h2 : RecordText t := hd.recordText (ht _ (by simp [Spec.recordTexts]))
  rw [readFileText_joined hp] at hm
  · obtain ⟨hfs, e, hh⟩ := h.header
    rw [readLinesText, e, readHeader_text hh] at hm
    simp only [newFile] at hm
    rw [lineBases_good [t] f.bases [] h.bases, List.nil_append] at hm
    by_cases hn : Spec.ReadsAsData enc isVar t
    · obtain ⟨r', n, hr'⟩ := id hn
      rw [lineBases, hr'] at hm
      simp only [lineBases] at hm
      obtain rfl := Option.some.inj hm
      exact .inr ⟨hn, by decide +kernel⟩
    · rw [lineBases_fail hn] at hm
      exact .inl ⟨hn, hm, newTrailer_about hm⟩
  · intro u hu
    simp only [List.mem_cons, List.mem_append, List.not_mem_nil, or_false] at hu
    rcases hu with rfl | hu | rfl
    · exact h1
    · exact ht _ (by simp only [Spec.recordTexts, List.mem_cons, List.mem_append]; exact .inl (.inr hu))
    · exact h2

/-- C100. The same for `Parse` of a file: its text is about the header or the trailer, or names no record. -/
theorem C100_parse (f : File) (henc : ∃ enc hfs tfs, f.header = .header enc hfs ∧ f.trailer = .trailer enc tfs) (fuel : Nat) (buf : Bytes)
    (isVar : Bool) (m : Bytes) (h : f.parseText fuel buf isVar = some m) : Spec.AboutEnds m := by
  obtain ⟨enc, hfs, tfs, e1, e2⟩ := henc
  have hh : ∀ rec, f.header.parseText rec isVar = some m → Spec.AboutEnds m := by
    intro rec h
    rw [e1] at h
    rcases record_parseText_about (fun _ _ _ e => by cases e) h with h | h
    · exact .inr (.inr ⟨enc, .inl h⟩)
    · exact .inl h
  have ht : ∀ rec, f.trailer.parseText rec isVar = some m → Spec.AboutEnds m := by
    intro rec h
    rw [e2] at h
    rcases record_parseText_about (fun _ _ _ e => by cases e) h with h | h
    · exact .inr (.inr ⟨enc, .inr h⟩)
    · exact .inl h
  unfold File.parseText at h
  simp only at h
  generalize (deleteFunc isNewline buf).1 = record at h
  split at h
  · exact hh _ h
  · split at h
    · cases h
    · obtain rfl := Option.some.inj h
      exact .inl (by decide +kernel)
    · cases h
    · split at h
      · obtain rfl := Option.some.inj h
        exact .inr (.inr ⟨.character, .inr (.inl (by decide +kernel))⟩)
      · split at h
        · cases h
        · split at h
          · exact ht _ h
          · split at h
            · obtain rfl := Option.some.inj h
              exact .inl (by decide +kernel)
            · cases h

/-- C100. `Parse` of a file gives a text only if it fails. -/
theorem C100_parse_error (f : File) (fuel : Nat) (buf : Bytes) (isVar : Bool) (m : Bytes) (h : f.parseText fuel buf isVar = some m) :
    ∃ f' e, f.parse fuel buf isVar = some (f', some e) := by
  unfold File.parseText at h
  unfold File.parse
  simp only at h ⊢
  generalize (deleteFunc isNewline buf).1 = record at h ⊢
  generalize f.header.parse record isVar = q at h ⊢
  obtain ⟨hd, y⟩ := q
  cases y with
  | error e => exact ⟨_, _, rfl⟩
  | ok n =>
    simp only at h ⊢
    generalize parseBases f.format isVar record fuel n [] = q at h ⊢
    match q, h with
    | none, h => cases h
    | some (_, _, some err), h => exact ⟨_, _, rfl⟩
    | some (bs, off, none), h =>
      simp only at h ⊢
      split at h
      · next hc => rw [if_pos hc]; exact ⟨_, _, rfl⟩
      · next hc =>
        rw [if_neg hc]
        generalize sliceFrom record off = q at h ⊢
        cases q with
        | none => exact ⟨_, _, rfl⟩
        | some tail =>
          simp only at h ⊢
          generalize ht : f.trailer.parse tail isVar = q at h ⊢
          obtain ⟨t, y⟩ := q
          cases y with
          | error e => exact ⟨_, _, rfl⟩
          | ok k =>
            simp only at h ⊢
            split at h
            · next hc => rw [if_pos hc]; exact ⟨_, _, rfl⟩
            · cases h

/-- C100. A valid record that a file refuses is named in the text, by the name it gives itself; a name that `GetRecord` does not know and a format
that `NewFile` does not know are repeated in the text. -/
theorem C100_refused (f f' : File) (r : Record) (hv : r.validate = none) (e : Err) (name : Bytes) :
    (f.setRecord r = (f', some e) → f.setRecordText r = some (b! "is an invalid record (" ++ r.name ++ b! ")")) ∧
    (f.addDataRecord r = (f', some e) → f.addDataRecordText r = some (b! "is an invalid record (" ++ r.name ++ b! ")")) ∧
    (f.getRecord name = .error e → f.getRecordText name = some (b! "is an invalid record (" ++ name ++ b! ")")) ∧
    (newFileOf name = .error e → newFileText name = some (b! "has an invalid segment (" ++ name ++ b! ")")) := by
  refine ⟨fun h => ?_, fun h => ?_, fun h => ?_, fun h => ?_⟩
  · simp only [File.setRecordText, hv, h]; rfl
  · simp only [File.addDataRecordText, hv, h]; rfl
  · simp only [File.getRecordText, h]; rfl
  · simp only [newFileText, h]; rfl

/-- C100. A record that is not valid is refused with the text about its first fault, as far as it names the type rightly (C70). -/
theorem C100_refused_invalid (f : File) (r : Record) (e : Err) (hv : r.validate = some e) :
    f.setRecordText r = f.addDataRecordText r ∧ ∃ g x msg, Spec.faultOf e = some (g, x) ∧ f.setRecordText r = some msg ∧
      (¬ (x = .invalid ∧ Spec.Misnamed r.sort g) → Spec.Accuses msg g r.sort x) := by
  obtain ⟨g, x, msg, h1, h2, h3⟩ := C70_record_partial r e hv
  simp only [File.setRecordText, File.addDataRecordText, hv]
  exact ⟨trivial, g, x, msg, h1, h2, h3⟩

/-! ### Witnesses -/

/-- The text of the first record with letters in place of the credit limit. -/
def Samples.noLimit : Bytes := firstRecord.string.take 83 ++ b! "XXXXXXXXX" ++ firstRecord.string.drop 92

/-- The trailer with letters in place of the number of data records. -/
def Samples.noCount : Bytes := fixedFile.trailer.string.take 11 ++ b! "XXXXXXXXX" ++ fixedFile.trailer.string.drop 20

/-- The header with a tab in a name. -/
def Samples.tabHeader : Bytes := fixedFile.header.string.take 90 ++ [9] ++ fixedFile.header.string.drop 91

/-- Cases of `C100_ends`, `C100_never_data`, `C100_error`, `C100_header_partial` and `C100_trailer_partial`. -/
example : Spec.Damaged fixedFile.header.string tabHeader ∧ tabHeader.take 14 = fixedFile.header.string.take 14 ∧
    readFileText atOnce (Spec.joinRecords true (tabHeader :: (fixedFile.bases.map Record.string ++ [fixedFile.trailer.string]))) =
      some (b! "reporter_name in header record has not alphanumeric characters") ∧
    Spec.Damaged fixedFile.trailer.string noCount ∧
    readFileText atOnce (Spec.joinRecords true (fixedFile.header.string :: (fixedFile.bases.map Record.string ++ [noCount]))) =
      some (b! "total_base_records in trailer record is a required field") :=
  ⟨⟨by decide +kernel, by decide +kernel, by decide +kernel⟩, by decide +kernel, by decide +kernel,
    ⟨by decide +kernel, by decide +kernel, by decide +kernel⟩, by decide +kernel⟩

/-- Cases of `C100_parse_error` and `C100_parse`. -/
example : (newFile .character).parseText 9 (Spec.textWith false fixedFile [firstRecord.string, secondRecord.string] ++ b! "x") false =
    some (b! "is failed parsing raw data") := by decide +kernel

/-- Cases of `C100_refused`. -/
example : firstRecord.validate = none ∧ (fixedFile.setRecord firstRecord).2 = some .invalidRecord ∧
    fixedFile.setRecordText firstRecord = some (b! "is an invalid record (base)") ∧
    fixedFile.getRecordText (b! "base") = some (b! "is an invalid record (base)") ∧
    newFileText (b! "metro") = some (b! "has an invalid segment (metro)") := by decide +kernel

/-- Case of `C100_refused_invalid`. -/
example : (Record.base .character ((base 0 426).set .PortfolioType (.str (b! "X"))) {}).validate = some (.invalidValue .PortfolioType) := by
  decide +kernel

/-- C100 is violated: letters in the credit limit of the first data record, of which `Parse` of that record gives the right text, are reported as
a fault in a count of the trailer, which is without fault. -/
theorem C100_violated : Spec.GoodFile .character false fixedFile ∧ fixedFile.bases = [firstRecord, secondRecord] ∧
    Spec.Damaged firstRecord.string noLimit ∧
    (newBase .character).parseText noLimit false = some (b! "credit_limit in base segment has not numeric characters") ∧
    ∀ (p : Plan), p.Progress → readFileText p (Spec.textWith true fixedFile [noLimit, secondRecord.string]) =
      some (b! "total_status_code_df in trailer record has not numeric characters") := by
  have hd : Spec.Damaged firstRecord.string noLimit := ⟨by decide +kernel, by decide +kernel, by decide +kernel⟩
  have hn : ¬ Spec.ReadsAsData .character false noLimit := by
    rintro ⟨r, n, h⟩
    have : ((newBase .character).parse noLimit false).2 = .ok n := by rw [h]
    rw [show ((newBase .character).parse noLimit false).2 = .error (.numeric .CreditLimit) by decide +kernel] at this
    cases this
  refine ⟨fixedFile_good, rfl, hd, by decide +kernel, fun p hp => ?_⟩
  have := (C100_data .character false fixedFile fixedFile_good (fun h => nomatch h) [] [secondRecord] firstRecord rfl noLimit hd true hn p hp).1
  simp only [List.map_nil, List.map_cons, List.nil_append] at this
  rw [this]
  decide +kernel

/-- Case of `C100_data`: a data record with a letter in the place of its processing indicator. -/
example : Spec.Damaged firstRecord.string (firstRecord.string.take 4 ++ b! "X" ++ firstRecord.string.drop 5) ∧
    ¬ Spec.ReadsAsData .character false (firstRecord.string.take 4 ++ b! "X" ++ firstRecord.string.drop 5) := by
  refine ⟨⟨by decide +kernel, by decide +kernel, by decide +kernel⟩, ?_⟩
  rintro ⟨r, n, hn⟩
  have h : ((newBase .character).parse (firstRecord.string.take 4 ++ b! "X" ++ firstRecord.string.drop 5) false).2.toOption = none := by
    decide +kernel
  rw [hn] at h
  cases h

end Metro2
