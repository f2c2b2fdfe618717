import Verif.Lemmas.Damage
import Verif.Props.Again

/-!
C99: what becomes of a well-formed file in whose text one record is damaged.
-/

namespace Metro2

open Samples

/-- The texts of a well-formed file are records. -/
theorem good_texts {enc : Enc} {isVar : Bool} {f : File} (h : Spec.GoodFile enc isVar f)
    (hb : enc = .packed → ∀ t ∈ Spec.recordTexts f, Spec.NoBreaks t) : ∀ t ∈ Spec.recordTexts f, RecordText t := by
  refine goodFile_texts h ?_
  cases enc with
  | character => exact goodFile_noBreaks h
  | packed => exact hb rfl

/-- The texts of a file are not empty. -/
theorem joined_ne_nil (nl : Bool) {t : Bytes} (ts : List Bytes) (h : RecordText t) : Spec.joinRecords nl (t :: ts) ≠ [] := by
  rw [joinRecords_cons]
  intro e
  have := h.four
  rw [(List.append_eq_nil_iff.1 e).1] at this
  simp at this

/-- Reading a well-formed file with other lines in place of its data records. -/
theorem read_textWith {enc : Enc} {isVar : Bool} {f : File} (h : Spec.GoodFile enc isVar f)
    (hb : enc = .packed → ∀ t ∈ Spec.recordTexts f, Spec.NoBreaks t) (nl : Bool) (lines : List Bytes) (hl : ∀ t ∈ lines, RecordText t)
    (hj : ¬ Spec.EarlyBrace (Spec.textWith nl f lines)) (json : Bytes → Except Err File) {p : Plan} (hp : p.Progress) :
    newFileFromReader json p (Spec.textWith nl f lines) false =
      match lineBases enc isVar (lines ++ [f.trailer.string]) [] with
      | .error e => .error e
      | .ok (bs, some line) => readTrailer ⟨enc, f.header, bs, newTrailer enc⟩ line isVar
      | .ok (_, none) => .error .invalidSegment := by
  have ht := good_texts h hb
  have h1 : RecordText f.header.string := ht _ (by simp [Spec.recordTexts])
  have h2 : RecordText f.trailer.string := ht _ (by simp [Spec.recordTexts])
  unfold Spec.textWith at hj ⊢
  rw [newFile_raw json p (joined_ne_nil _ _ h1) hj, readFile_joined hp]
  · obtain ⟨hfs, e, hh⟩ := h.header
    rw [readLines, e, readHeader_text hh]
    rfl
  · intro u hu
    simp only [List.mem_cons, List.mem_append, List.not_mem_nil, or_false] at hu
    rcases hu with rfl | hu | rfl
    · exact h1
    · exact hl _ hu
    · exact h2

/-- C99. One data record of a well-formed file is damaged, its first four bytes excepted. If the damaged text can still be read as a data record, the
file is read with this record in its place. If it cannot, but can be read as a trailer, the file ends there without an error: the record and all
records after it are missing. Otherwise the file is refused. -/
theorem C99_record (enc : Enc) (isVar : Bool) (f : File) (h : Spec.GoodFile enc isVar f)
    (hb : enc = .packed → ∀ t ∈ Spec.recordTexts f, Spec.NoBreaks t) (before after : List Record) (r : Record)
    (hf : f.bases = before ++ r :: after) (t : Bytes) (hd : Spec.Damaged r.string t) (nl : Bool)
    (hj : ¬ Spec.EarlyBrace (Spec.textWith nl f (before.map Record.string ++ t :: after.map Record.string)))
    (json : Bytes → Except Err File) (p : Plan) (hp : p.Progress) :
    (∀ r' n, (newBase enc).parse t isVar = (r', .ok n) →
      newFileFromReader json p (Spec.textWith nl f (before.map Record.string ++ t :: after.map Record.string)) false =
        .ok { f with bases := before ++ r' :: after }) ∧
    (¬ Spec.ReadsAsData enc isVar t → ∀ t' n, (newTrailer enc).parse t isVar = (t', .ok n) →
      newFileFromReader json p (Spec.textWith nl f (before.map Record.string ++ t :: after.map Record.string)) false =
        .ok { f with bases := before, trailer := t' }) ∧
    (¬ Spec.ReadsAsData enc isVar t → ¬ Spec.ReadsAsTrailer enc isVar t → ∃ e,
      newFileFromReader json p (Spec.textWith nl f (before.map Record.string ++ t :: after.map Record.string)) false = .error e) := by
  have ht := good_texts h hb
  have hmem : ∀ b ∈ f.bases, RecordText b.string := fun b hm => ht _ (by
    simp only [Spec.recordTexts, List.mem_cons, List.mem_append, List.mem_map]
    exact .inl (.inr ⟨b, hm, rfl⟩))
  rw [hf] at hmem
  have hl : ∀ u ∈ before.map Record.string ++ t :: after.map Record.string, RecordText u := by
    intro u hu
    simp only [List.mem_append, List.mem_map, List.mem_cons] at hu
    rcases hu with ⟨b, hm, rfl⟩ | rfl | ⟨b, hm, rfl⟩
    · exact hmem b (by simp [hm])
    · exact hd.recordText (hmem r (by simp))
    · exact hmem b (by simp [hm])
  rw [read_textWith h hb nl _ hl hj json hp]
  have hgood : ∀ bs : List Record, (∀ b ∈ bs, b ∈ f.bases) → ∀ b ∈ bs, ∃ fs g, b = .base enc fs g ∧ Spec.GoodData enc isVar fs g :=
    fun bs hs b hm => h.bases b (hs b hm)
  have g1 := hgood before (by rw [hf]; intro b hm; simp [hm])
  have g2 := hgood after (by rw [hf]; intro b hm; simp [hm])
  rw [List.append_assoc, lineBases_good _ before [] g1, List.nil_append, List.cons_append]
  have hfmt := h.format
  refine ⟨fun r' n hr => ?_, fun hn t' n hr => ?_, fun hn hn' => ?_⟩
  · obtain ⟨tfs, e, htr⟩ := h.trailer
    rw [lineBases, hr, e]
    simp only
    rw [lineBases_text (isVar := isVar) htr [] after _ g2]
    simp only [readTrailer]
    have := C18_trailer enc tfs htr.typed htr.fits isVar []
    rw [List.append_nil] at this
    rw [this]
    simp only [List.append_assoc, List.cons_append, List.nil_append]
    rw [← hfmt]
  · rw [lineBases_fail hn]
    simp only [readTrailer, hr]
    rw [← hfmt]
  · rw [lineBases_fail hn]
    simp only [readTrailer]
    generalize hq : (newTrailer enc).parse t isVar = q
    obtain ⟨t', x⟩ := q
    cases x with
    | error e => exact ⟨e, rfl⟩
    | ok n => exact absurd ⟨t', n, hq⟩ hn'

/-- C99. What no trailer has is found in every valid data record, in the packed format in every well-formed one. -/
theorem C99_telltale (enc : Enc) (isVar : Bool) (fs : Fields) (g : Segs) (h : Spec.GoodData enc isVar fs g)
    (hv : enc = .character → (Record.base enc fs g).validate = none) : Spec.Telltale enc isVar (Record.base enc fs g).string :=
  telltale_of_good h hv

/-- C99, what holds: as long as the damage leaves this one byte as it was, the file is refused, or read with all its records and everything else
in it unchanged. Missing for the full property: damage to that byte, or to the first four bytes; see `C99_violated`. -/
theorem C99_kept_partial (enc : Enc) (isVar : Bool) (f : File) (h : Spec.GoodFile enc isVar f)
    (hb : enc = .packed → ∀ t ∈ Spec.recordTexts f, Spec.NoBreaks t) (before after : List Record) (r : Record)
    (hf : f.bases = before ++ r :: after) (t : Bytes) (hd : Spec.Damaged r.string t) (ht : Spec.Telltale enc isVar t) (nl : Bool)
    (hj : ¬ Spec.EarlyBrace (Spec.textWith nl f (before.map Record.string ++ t :: after.map Record.string)))
    (json : Bytes → Except Err File) (p : Plan) (hp : p.Progress) (f' : File)
    (hr : newFileFromReader json p (Spec.textWith nl f (before.map Record.string ++ t :: after.map Record.string)) false = .ok f') :
    ∃ r', f' = { f with bases := before ++ r' :: after } := by
  obtain ⟨h1, -, h3⟩ := C99_record enc isVar f h hb before after r hf t hd nl hj json p hp
  by_cases hn : Spec.ReadsAsData enc isVar t
  · obtain ⟨r', n, hr'⟩ := hn
    have := h1 r' n hr'
    rw [hr] at this
    cases this
    exact ⟨r', rfl⟩
  · obtain ⟨e, he⟩ := h3 hn (telltale_not_trailer ht)
    rw [hr] at he
    cases he

/-- C99. Damage to the trailer, its first four bytes excepted, never reaches the other records: the file is refused, or read with another trailer. -/
theorem C99_trailer (enc : Enc) (isVar : Bool) (f : File) (h : Spec.GoodFile enc isVar f)
    (hb : enc = .packed → ∀ t ∈ Spec.recordTexts f, Spec.NoBreaks t) (t : Bytes) (hd : Spec.Damaged f.trailer.string t) (nl : Bool)
    (hj : ¬ Spec.EarlyBrace (Spec.joinRecords nl (f.header.string :: (f.bases.map Record.string ++ [t]))))
    (json : Bytes → Except Err File) (p : Plan) (hp : p.Progress) (f' : File) :
    newFileFromReader json p (Spec.joinRecords nl (f.header.string :: (f.bases.map Record.string ++ [t]))) false = .ok f' ↔
      ¬ Spec.ReadsAsData enc isVar t ∧ ∃ t' n, (newTrailer enc).parse t isVar = (t', .ok n) ∧ f' = { f with trailer := t' } := by
  have ht := good_texts h hb
  have h1 : RecordText f.header.string := ht _ (by simp [Spec.recordTexts])
  have h2 : RecordText t := hd.recordText (ht _ (by simp [Spec.recordTexts]))
  rw [newFile_raw json p (joined_ne_nil _ _ h1) hj, readFile_joined hp]
  · obtain ⟨hfs, e, hh⟩ := h.header
    have hfmt := h.format
    rw [readLines, e, readHeader_text hh]
    simp only [newFile]
    rw [lineBases_good [t] f.bases [] h.bases, List.nil_append]
    by_cases hn : Spec.ReadsAsData enc isVar t
    · obtain ⟨r', n, hr'⟩ := id hn
      rw [lineBases, hr']
      simp [lineBases, hn]
    · rw [lineBases_fail hn]
      simp only [readTrailer, hn, not_false_iff, true_and]
      generalize hq : (newTrailer enc).parse t isVar = q
      obtain ⟨t', x⟩ := q
      cases x with
      | error e => simp
      | ok n =>
        simp only [Except.ok.injEq, Prod.mk.injEq]
        constructor
        · rintro rfl
          exact ⟨t', n, ⟨rfl, rfl⟩, by rw [← e, ← hfmt]⟩
        · rintro ⟨t2, n2, ⟨rfl, -⟩, rfl⟩
          rw [← e, ← hfmt]
  · intro u hu
    simp only [List.mem_cons, List.mem_append, List.not_mem_nil, or_false] at hu
    rcases hu with rfl | hu | rfl
    · exact h1
    · exact ht _ (by simp only [Spec.recordTexts, List.mem_cons, List.mem_append]; exact .inl (.inr hu))
    · exact h2

/-- A header whose first 14 bytes are kept is taken for a header of the same format and blocking. -/
theorem damaged_checks {enc : Enc} {isVar : Bool} {f : File} (h : Spec.GoodFile enc isVar f) {t : Bytes} (hd : Spec.Damaged f.header.string t)
    (hn : t.take 14 = f.header.string.take 14) :
    isMetroFile t = true ∧ isPacked t = .ok (enc == .packed) ∧ isVariableLength t = isVar := by
  obtain ⟨hfs, e, hh⟩ := h.header
  obtain ⟨c1, c2, c3⟩ := header_checks hh
  rw [← e] at c1 c2 c3
  have hbyte : ∀ i, i < 14 → t[i]? = f.header.string[i]? := by
    intro i hi
    have := congrArg (·[i]?) hn
    simpa [List.getElem?_take, hi] using this
  have hslice : ∀ a, a ≤ 8 → (t.drop a).take 6 = (f.header.string.drop a).take 6 := by
    intro a ha
    have := congrArg (fun s => (s.drop a).take 6) hn
    simp only [List.drop_take, List.take_take] at this
    rwa [Nat.min_eq_left (by omega)] at this
  refine ⟨?_, ?_, ?_⟩
  · rw [← c1]
    unfold isMetroFile
    rw [hd.length, hslice 4 (by decide), hslice 8 (by decide)]
  · rw [← c2]
    unfold isPacked
    rw [hbyte 2 (by decide), hbyte 3 (by decide), hbyte 6 (by decide), hbyte 7 (by decide)]
  · rw [← c3]
    unfold isVariableLength
    rw [hd.length, hslice 8 (by decide)]

/-- The header part of `Read` on it. -/
theorem damaged_readHeader {enc : Enc} {isVar : Bool} {f : File} (h : Spec.GoodFile enc isVar f) {t : Bytes} (hd : Spec.Damaged f.header.string t)
    (hn : t.take 14 = f.header.string.take 14) :
    readHeader (newFile .character) t = match (newHeader enc).parse t isVar with
      | (_, .error e) => .error e
      | (h, .ok _) => .ok ({ newFile enc with header := h }, isVar) := by
  obtain ⟨k1, k2, k3⟩ := damaged_checks h hd hn
  unfold readHeader
  rw [k1, k2, k3]
  simp only [Bool.not_true, Bool.false_eq_true, if_false, setType_new]
  rfl

/-- C99. Damage to the header behind its name never reaches the other records: the file is refused, or read with another header. -/
theorem C99_header (enc : Enc) (isVar : Bool) (f : File) (h : Spec.GoodFile enc isVar f)
    (hb : enc = .packed → ∀ t ∈ Spec.recordTexts f, Spec.NoBreaks t) (t : Bytes) (hd : Spec.Damaged f.header.string t)
    (hn : t.take 14 = f.header.string.take 14) (nl : Bool)
    (hj : ¬ Spec.EarlyBrace (Spec.joinRecords nl (t :: (f.bases.map Record.string ++ [f.trailer.string]))))
    (json : Bytes → Except Err File) (p : Plan) (hp : p.Progress) (f' : File) :
    newFileFromReader json p (Spec.joinRecords nl (t :: (f.bases.map Record.string ++ [f.trailer.string]))) false = .ok f' ↔
      ∃ t' n, (newHeader enc).parse t isVar = (t', .ok n) ∧ f' = { f with header := t' } := by
  have ht := good_texts h hb
  have h1 : RecordText t := hd.recordText (ht _ (by simp [Spec.recordTexts]))
  rw [newFile_raw json p (joined_ne_nil _ _ h1) hj, readFile_joined hp]
  · obtain ⟨hfs, e, hh⟩ := h.header
    have hfmt := h.format
    obtain ⟨tfs, e', htr⟩ := h.trailer
    have htrail := C18_trailer enc tfs htr.typed htr.fits isVar []
    rw [List.append_nil] at htrail
    rw [readLines, damaged_readHeader h hd hn]
    generalize hq : (newHeader enc).parse t isVar = q
    obtain ⟨t', x⟩ := q
    cases x with
    | error e =>
      simp only [reduceCtorEq, false_iff]
      rintro ⟨t2, n2, h2, -⟩
      simp at h2
    | ok n =>
      simp only [newFile]
      rw [e', lineBases_text (isVar := isVar) htr [] f.bases [] h.bases]
      simp only [readTrailer, htrail, List.nil_append, Except.ok.injEq, Prod.mk.injEq]
      constructor
      · rintro rfl
        exact ⟨t', n, ⟨rfl, rfl⟩, by rw [← e', ← hfmt]⟩
      · rintro ⟨t2, n2, ⟨rfl, -⟩, rfl⟩
        rw [← e', ← hfmt]
  · intro u hu
    simp only [List.mem_cons] at hu
    rcases hu with rfl | hu
    · exact h1
    · exact ht _ (List.mem_cons_of_mem _ hu)

/-! ### Witnesses -/

/-- The first data record of `fixedFile`. -/
def Samples.firstRecord : Record := .base .character (base 0 426) {}

/-- The second one. -/
def Samples.secondRecord : Record := .base .character (base 0 1200) segs

/-- The text of the first record with the letter of the portfolio type kept and the credit limit overwritten. -/
def Samples.smudged : Bytes := firstRecord.string.take 83 ++ b! "000000777" ++ firstRecord.string.drop 92

/-- The length of the first record and the digit 2 everywhere else. -/
def Samples.wiped : Bytes := b! "0426" ++ List.replicate 422 50

/-- Cases of `C99_record` and `C99_kept_partial`. -/
example : fixedFile.bases = [] ++ firstRecord :: [secondRecord] ∧ Spec.Damaged firstRecord.string smudged ∧
    smudged ≠ firstRecord.string ∧ Spec.Telltale .character false smudged ∧
    ¬ Spec.EarlyBrace (Spec.textWith true fixedFile ([smudged, secondRecord.string])) ∧
    newFileFromReader (fun _ => .error .io) slow (Spec.textWith true fixedFile ([smudged, secondRecord.string])) false =
      .ok { fixedFile with bases := [.base .character ((base 0 426).set .CreditLimit (.int 777)) {}, secondRecord] } := by
  refine ⟨rfl, ⟨by decide +kernel, by decide +kernel, by decide +kernel⟩, by decide +kernel, ⟨77, by decide +kernel⟩, by decide +kernel, ?_⟩
  exact read_of_atOnce (by decide +kernel) (by decide +kernel) (by decide +kernel) _ slow_progress

/-- Case of `C99_telltale`. -/
example : (Record.base .character (base 0 426) {}).validate = none := by decide +kernel

/-- A file with three data records, the second padded to 500 bytes. -/
def Samples.threeFile : File := fileOf .character (header 0 426) [(base 0 426, {}), (base 0 500, {}), (base 0 1200, segs)] (trailer 426)

/-- Its text with the first digit of the length of the first data record changed from 0 to 9: it now swallows the second. -/
def Samples.oneDigit : Bytes :=
  (threeFile.string false).take 427 ++ b! "9" ++ (threeFile.string false).drop 428

/-- The trailer of `fixedFile` with the number of data records overwritten. -/
def Samples.otherTrailer : Bytes := fixedFile.trailer.string.take 11 ++ b! "000000777" ++ fixedFile.trailer.string.drop 20

/-- The header of `fixedFile` with a blank in place of a letter in a name. -/
def Samples.otherHeader : Bytes := fixedFile.header.string.take 90 ++ b! " " ++ fixedFile.header.string.drop 91

/-- Case of `C99_trailer`. -/
example : Spec.Damaged fixedFile.trailer.string otherTrailer ∧ otherTrailer ≠ fixedFile.trailer.string ∧
    ¬ Spec.EarlyBrace (Spec.joinRecords true (fixedFile.header.string :: (fixedFile.bases.map Record.string ++ [otherTrailer]))) ∧
    ∃ t' n, (newTrailer .character).parse otherTrailer false = (t', .ok n) :=
  ⟨⟨by decide +kernel, by decide +kernel, by decide +kernel⟩, by decide +kernel, by decide +kernel,
    ((newTrailer .character).parse otherTrailer false).1, 426, by decide +kernel⟩

example : Spec.Damaged fixedFile.header.string otherHeader ∧ otherHeader ≠ fixedFile.header.string ∧
    otherHeader.take 14 = fixedFile.header.string.take 14 ∧
    ¬ Spec.EarlyBrace (Spec.joinRecords true (otherHeader :: (fixedFile.bases.map Record.string ++ [fixedFile.trailer.string]))) ∧
    ∃ t' n, (newHeader .character).parse otherHeader false = (t', .ok n) :=
  ⟨⟨by decide +kernel, by decide +kernel, by decide +kernel⟩, by decide +kernel, by decide +kernel, by decide +kernel,
    ((newHeader .character).parse otherHeader false).1, 426, by decide +kernel⟩

/-- C99 is violated in two ways. A data record of which nothing but the length is left, all other bytes being the digit 2, is taken for the trailer, and
the rest of the file is lost without an error. And a single digit that is changed in the length of a record makes the next record disappear. -/
theorem C99_violated :
    (Spec.GoodFile .character false fixedFile ∧ Spec.Damaged firstRecord.string wiped ∧ fixedFile.bases = [firstRecord, secondRecord] ∧
      ∃ t', ∀ (json : Bytes → Except Err File) (p : Plan), p.Progress →
        newFileFromReader json p (Spec.textWith true fixedFile [wiped, secondRecord.string]) false =
          .ok { fixedFile with bases := [], trailer := t' }) ∧
    ∃ f', f'.bases.length = 2 ∧ threeFile.bases.length = 3 ∧ ∀ (json : Bytes → Except Err File) (p : Plan), p.Progress →
      newFileFromReader json p (threeFile.string false) false = .ok threeFile ∧
      newFileFromReader json p oneDigit false = .ok f' := by
  refine ⟨⟨fixedFile_good, ⟨by decide +kernel, by decide +kernel, by decide +kernel⟩, rfl, ((newTrailer .character).parse wiped false).1,
    fun json p hp => read_of_atOnce (by decide +kernel) (by decide +kernel) (by decide +kernel) json hp⟩,
    fileOf .character (header 0 426) [(base 0 926, {}), (base 0 1200, segs)] (trailer 426), rfl, rfl, fun json p hp => ⟨?_, ?_⟩⟩
  · exact read_of_atOnce (by decide +kernel) (by decide +kernel) (by decide +kernel) json hp
  · exact read_of_atOnce (by decide +kernel) (by decide +kernel) (by decide +kernel) json hp

end Metro2
