import Verif.Lemmas.MessageParse
import Verif.Props.Samples
import Verif.Spec.Records

/-!
Properties C70 to C72: what the texts of the errors say.
-/

namespace Metro2

open Samples Spec

/-- The error of a result. -/
def errorIn {α : Type} : Except Err α → Option Err
  | .error e => some e
  | .ok _ => none

/-! ### C70: Validate -/

/-- C70, false as it stands: every error of `Validate` of a record names the type of the record and the field at fault. -/
def C70_record_full : Prop :=
  ∀ (r : Record) (err : Err), r.validate = some err →
    ∃ f x msg, faultOf err = some (f, x) ∧ r.sort.validateText err = some msg ∧ Accuses msg f r.sort x

/-- C70, false as it stands: the same for segments. -/
def C70_segment_full : Prop :=
  ∀ (s : Seg) (err : Err), s.validate = some err →
    ∃ f x msg, faultOf err = some (f, x) ∧ (Sort14.seg s.kind).validateText err = some msg ∧ Accuses msg f (.seg s.kind) x

/-- C70. For a packed data record without social security number and date of birth the text speaks of a "base segment", which is the other format. -/
theorem C70_record_violated : ¬ C70_record_full := by
  intro h
  obtain ⟨f, x, msg, hf, hm, hs⟩ := h (.base .packed (base 500 496 [(.SocialSecurityNumber, .int 0), (.DateBirth, .time Time.zero)]) {})
    (.invalidValue .SocialSecurityNumber) (by decide +kernel)
  obtain ⟨rfl, rfl⟩ := Prod.mk.inj (Option.some.inj hf)
  have h2 : Accuses msg .SocialSecurityNumber (.base .character) .invalid := by
    obtain rfl := Option.some.inj hm
    exact ⟨b! "social security number", by decide +kernel, by decide +kernel⟩
  cases (says_unique hs h2).2.1

/-- C70. For a J1 segment without social security number and date of birth the text speaks of a "base segment". -/
theorem C70_segment_violated : ¬ C70_segment_full := by
  intro h
  obtain ⟨f, x, msg, hf, hm, hs⟩ := h ⟨.j1, j1'.fields.set .DateBirth (.time Time.zero)⟩
    (.invalidValue .SocialSecurityNumber) (by decide +kernel)
  obtain ⟨rfl, rfl⟩ := Prod.mk.inj (Option.some.inj hf)
  have h2 : Accuses msg .SocialSecurityNumber (.base .character) .invalid := by
    obtain rfl := Option.some.inj hm
    exact ⟨b! "social security number", by decide +kernel, by decide +kernel⟩
  cases (says_unique hs h2).2.1

/-- C70. Missing for `C70_record_full`: the rule about social security number and date of birth in packed data records, whose text names the character format. -/
theorem C70_record_partial (r : Record) (err : Err) (h : r.validate = some err) :
    ∃ f x msg, faultOf err = some (f, x) ∧ r.sort.validateText err = some msg ∧
      (¬ (x = .invalid ∧ Misnamed r.sort f) → Accuses msg f r.sort x) := by
  obtain ⟨f, x, msg, hf, hm, hs⟩ := record_validate_text h
  refine ⟨f, x, msg, hf, hm, fun hn => ?_⟩
  rwa [if_neg hn] at hs

/-- Case of `C70_record_partial`: a data record with a wrong portfolio type. -/
example : (Record.base .packed ((base 500 496).set .PortfolioType (.str (b! "X"))) {}).validate = some (.invalidValue .PortfolioType) ∧
    ¬ (Fault.invalid = .invalid ∧ Misnamed (.base .packed) .PortfolioType) ∧
    (Sort14.base .packed).validateText (.invalidValue .PortfolioType) = some (b! "portfolio type in packed base segment has an invalid value") := by
  decide +kernel

/-- C70. Missing for `C70_segment_full`: the rule about social security number and date of birth in J1 and J2 segments. -/
theorem C70_segment_partial (s : Seg) (err : Err) (h : s.validate = some err) :
    ∃ f x msg, faultOf err = some (f, x) ∧ (Sort14.seg s.kind).validateText err = some msg ∧
      (¬ (x = .invalid ∧ Misnamed (.seg s.kind) f) → Accuses msg f (.seg s.kind) x) := by
  obtain ⟨f, x, msg, hf, hm, hs⟩ := seg_validate_text h
  refine ⟨f, x, msg, hf, hm, fun hn => ?_⟩
  rwa [if_neg hn] at hs

/-- Case of `C70_segment_partial`: a K2 segment without a name where one is needed. -/
example : (⟨.k2, k2.fields.set .PurchasedIndicator (.int 7)⟩ : Seg).validate = some (.invalidValue .PurchasedIndicator) ∧
    ¬ (Fault.invalid = .invalid ∧ Misnamed (.seg .k2) .PurchasedIndicator) ∧
    (Sort14.seg .k2).validateText (.invalidValue .PurchasedIndicator) = some (b! "purchased indicator in k2 segment has an invalid value") := by
  decide +kernel

/-- C70. What the misnamed texts say: they accuse the field of the same name of a data record in character format. -/
theorem C70_misnamed (n : Sort14) (f : F) (h : Misnamed n f) :
    ∃ msg, n.validateText (.invalidValue f) = some msg ∧ Accuses msg f (.base .character) .invalid := by
  have hs : (customNames n f).isSome = true := by
    obtain ⟨rfl | rfl | rfl, rfl | rfl⟩ := h <;> rfl
  obtain ⟨g, x, msg, hf, hm, hsay⟩ := validateText_invalid hs
  obtain ⟨rfl, rfl⟩ := Prod.mk.inj (Option.some.inj hf)
  rw [if_pos ⟨rfl, h⟩] at hsay
  exact ⟨msg, hm, hsay⟩

/-- Case of `C70_misnamed`. -/
example : Misnamed (.seg .j2) .DateBirth ∧
    (Sort14.seg .j2).validateText (.invalidValue .DateBirth) = some (b! "date birth in base segment has an invalid value") := by
  decide +kernel

/-- C70, false as it stands: every error of `Validate` of a file names a field at fault and the type of a record of the file. -/
def C70_file_full : Prop :=
  ∀ (f : File) (err : Err), f.validate = some err → err ≠ .panic →
    ∃ g x msg, faultOf err = some (g, x) ∧ f.validateText = some msg ∧
      ∃ r ∈ f.header :: f.trailer :: f.bases, Accuses msg g r.sort x

/-- A packed file whose trailer has a wrong total. -/
def wrongTotals : File :=
  ⟨.packed, .header .packed (header 0 426), [.base .packed (base 500 496) {}],
    .trailer .packed ((trailer 426).set .TotalBaseRecords (.int 5))⟩

/-- C70. For a wrong total of a packed file the text speaks of a "trailer record", which is the other format. -/
theorem C70_file_violated : ¬ C70_file_full := by
  intro h
  obtain ⟨f, x, msg, hf, hm, r, hr, hs⟩ := h wrongTotals (.invalidValue .TotalBaseRecords) (by decide +kernel) (by simp)
  obtain ⟨rfl, rfl⟩ := Prod.mk.inj (Option.some.inj hf)
  have hm' : wrongTotals.validateText = some (b! "total_base_records in trailer record has an invalid value") := by decide +kernel
  rw [hm'] at hm
  obtain rfl := Option.some.inj hm
  have h2 : Accuses (b! "total_base_records in trailer record has an invalid value") .TotalBaseRecords (.trailer .character) .invalid :=
    ⟨b! "total_base_records", by decide +kernel, by decide +kernel⟩
  have hsort := (says_unique hs h2).2.1
  simp only [wrongTotals, List.mem_cons, List.not_mem_nil, or_false] at hr
  rcases hr with rfl | rfl | rfl <;> cases hsort

/-- C70. Missing for `C70_file_full`: the misnamed fields of packed data records, and the wrong totals of packed files, which are called
totals of a trailer in character format. -/
theorem C70_file_partial (f : File) (err : Err) (h : f.validate = some err) (hp : err ≠ .panic) :
    ∃ g x msg, faultOf err = some (g, x) ∧ f.validateText = some msg ∧
      ((∃ r ∈ f.header :: f.trailer :: f.bases, r.validate = some err ∧ (¬ (x = .invalid ∧ Misnamed r.sort g) → Accuses msg g r.sort x)) ∨
        ((∀ r ∈ f.header :: f.trailer :: f.bases, r.validate = none) ∧ x = .invalid ∧ Accuses msg g (.trailer .character) .invalid)) := by
  simp only [File.validate] at h
  cases hh : f.header.validate with
  | some e =>
    rw [hh] at h
    obtain rfl := Option.some.inj h
    obtain ⟨g, x, msg, hf, hm, hs⟩ := C70_record_partial _ _ hh
    exact ⟨g, x, msg, hf, by simp only [File.validateText, hh]; exact hm, Or.inl ⟨_, by simp, hh, hs⟩⟩
  | none =>
    rw [hh] at h
    simp only at h
    cases ht : f.trailer.validate with
    | some e =>
      rw [ht] at h
      obtain rfl := Option.some.inj h
      obtain ⟨g, x, msg, hf, hm, hs⟩ := C70_record_partial _ _ ht
      exact ⟨g, x, msg, hf, by simp only [File.validateText, hh, ht]; exact hm, Or.inl ⟨_, by simp, ht, hs⟩⟩
    | none =>
      rw [ht] at h
      simp only at h
      cases hb : firstInvalid f.bases with
      | some e =>
        rw [hb] at h
        obtain rfl := Option.some.inj h
        obtain ⟨r, hr, hv, htx⟩ := firstInvalid_text hb
        obtain ⟨g, x, msg, hf, hm, hs⟩ := C70_record_partial _ _ hv
        exact ⟨g, x, msg, hf, by simp only [File.validateText, hh, ht, hb, htx]; exact hm, Or.inl ⟨r, by simp [hr], hv, hs⟩⟩
      | none =>
        rw [hb] at h
        simp only at h
        have hall : ∀ r ∈ f.bases, r.validate = none := by
          generalize f.bases = rs at hb
          induction rs with
          | nil => simp
          | cons r rs ih =>
            simp only [firstInvalid] at hb
            cases hr : r.validate with
            | some e => rw [hr] at hb; cases hb
            | none =>
              rw [hr] at hb
              intro q hq
              rcases List.mem_cons.1 hq with rfl | hq
              · exact hr
              · exact ih hb q hq
        cases hg : Metro2.generatorTrailer f.format f.bases with
        | error e =>
          rw [hg] at h
          obtain rfl := Option.some.inj h
          exact absurd (generatorTrailer_panic hg) hp
        | ok info =>
          rw [hg] at h
          simp only at h
          obtain ⟨g, rfl⟩ := compareTotals_cases h
          refine ⟨g, .invalid, _, rfl, by simp only [File.validateText, hh, ht, hb, hg, h]; rfl, Or.inr ⟨?_, rfl, says_invalid g (.trailer .character)⟩⟩
          intro r hr
          simp only [List.mem_cons] at hr
          rcases hr with rfl | rfl | hr
          · exact hh
          · exact ht
          · exact hall r hr

/-- Case of `C70_file_partial`. -/
example : wrongTotals.validate = some (.invalidValue .TotalBaseRecords) ∧ Err.invalidValue .TotalBaseRecords ≠ .panic := by
  decide +kernel

/-! ### AddApplicableSegment -/

/-- C70. A header or a trailer refuses a segment with a text that names the segment; the name of the record is right except for the packed trailer,
which calls itself a packed header. -/
theorem C70_refused_segment (r : Record) (s : Seg) (h : ∀ enc fs g, r ≠ .base enc fs g) :
    (r.addSegment s).2 = some .applicableSegment ∧
      r.addSegmentText s = some (ownName (match r.sort with | .trailer .packed => .header .packed | n => n) ++
        b! " has not applicable segment (" ++ lower s.kind.ident ++ b! ")") := by
  have hk : s.kind.name = lower s.kind.ident := by cases s.kind <;> decide
  cases r with
  | base enc fs g => exact absurd rfl (h enc fs g)
  | header enc fs => cases enc <;> simp [Record.addSegment, Record.addSegmentText, Record.sort, errApplicableSegment, ownName, hk]
  | trailer enc fs => cases enc <;> simp [Record.addSegment, Record.addSegmentText, Record.sort, errApplicableSegment, ownName, hk]

/-- Case of `C70_refused_segment`. -/
example : (∀ enc fs g, newTrailer .packed ≠ .base enc fs g) ∧
    (newTrailer .packed).addSegmentText j1 = some (b! "packed header record has not applicable segment (j1)") :=
  ⟨fun _ _ _ => Record.noConfusion, by decide +kernel⟩

/-! ### C71: Parse -/

/-- C71. An error of `Parse` of a segment that is about a field names a field of the segment and the type of the segment. -/
theorem C71_segment (s s' : Seg) (rec : Bytes) (isVar : Bool) (err : Err) (h : s.parse rec isVar = (s', .error err))
    (f : F) (x : Fault) (hf : faultOf err = some (f, x)) :
    f ∈ s.fields.map Prod.fst ∧ ∃ msg, s.parseText rec isVar = some msg ∧ Accuses msg f (.seg s.kind) x := by
  obtain ⟨hm, msg, ht, hs⟩ := seg_parse_error h hf
  exact ⟨hm, msg, by simp only [Seg.parseText, h]; exact ht, hs⟩

/-- Case of `C71_segment`: a K1 segment with a control character in the name of the creditor. -/
example : errorIn ((Seg.new .k1).parse (b! "K1\tabc                          01") false).2 = some (.nonAlphanumeric .OriginalCreditorName) ∧
    (Seg.new .k1).parseText (b! "K1\tabc                          01") false =
      some (b! "original_creditor_name in k1 segment has not alphanumeric characters") := by
  decide +kernel

/-- C71. The same for headers and trailers. -/
theorem C71_record (r r' : Record) (rec : Bytes) (isVar : Bool) (err : Err) (hr : ∀ enc fs g, r ≠ .base enc fs g)
    (h : r.parse rec isVar = (r', .error err)) (f : F) (x : Fault) (hf : faultOf err = some (f, x)) :
    f ∈ r.fields.map Prod.fst ∧ ∃ msg, r.parseText rec isVar = some msg ∧ Accuses msg f r.sort x := by
  cases r with
  | base enc fs g => exact absurd rfl (hr enc fs g)
  | header enc fs =>
    have hp : parseHeader enc fs rec isVar = ((parseHeader enc fs rec isVar).1, .error err) := by
      simp only [Record.parse] at h
      exact Prod.ext rfl (Prod.mk.inj h).2
    obtain ⟨hm, msg, ht, hs⟩ := header_parse_error hp hf
    exact ⟨hm, msg, by simp only [Record.parseText, h]; exact ht, hs⟩
  | trailer enc fs =>
    have hp : parseTrailer enc fs rec isVar = ((parseTrailer enc fs rec isVar).1, .error err) := by
      simp only [Record.parse] at h
      exact Prod.ext rfl (Prod.mk.inj h).2
    obtain ⟨hm, msg, ht, hs⟩ := trailer_parse_error hp hf
    exact ⟨hm, msg, by simp only [Record.parseText, h]; exact ht, hs⟩

/-- Case of `C71_record`: a header without its length. -/
example : (∀ enc fs g, newHeader .character ≠ .base enc fs g) ∧
    errorIn ((newHeader .character).parse (List.replicate 426 48) false).2 = some (.required .RecordDescriptorWord) ∧
    (newHeader .character).parseText (List.replicate 426 48) false =
      some (b! "record_descriptor_word in header record is a required field") :=
  ⟨fun _ _ _ => Record.noConfusion, by decide +kernel⟩

/-- C71, missing for the full claim: the misnamed fields of J1 and J2 segments. An error of `Parse` of a data record that is about a field names a field of the record and its type, or
it is the error of a segment that begins somewhere in the text, and then it names the type of this segment. -/
theorem C71_data_partial (enc : Enc) (fs : Fields) (g : Segs) (r' : Record) (rec : Bytes) (isVar : Bool) (err : Err)
    (h : (Record.base enc fs g).parse rec isVar = (r', .error err)) (f : F) (x : Fault) (hf : faultOf err = some (f, x)) :
    ∃ msg, (Record.base enc fs g).parseText rec isVar = some msg ∧
      ((f ∈ fs.map Prod.fst ∧ Accuses msg f (.base enc) x) ∨
        ∃ i k, i ≤ rec.length ∧ (rec.drop i).take 2 = k.ident ∧
          ((∃ s, (Seg.new k).parse (rec.drop i) isVar = (s, .error err)) ∨
            ∃ s n, (Seg.new k).parse (rec.drop i) isVar = (s, .ok n) ∧ s.validate = some err) ∧
          (¬ (x = .invalid ∧ Misnamed (.seg k) f) → Accuses msg f (.seg k) x)) := by
  rcases base_parse_error h hf with ⟨hm, msg, ht, hs⟩ | ⟨i, k, hi, hid, msg, ht, hs⟩
  · exact ⟨msg, ht, Or.inl ⟨hm, hs⟩⟩
  · refine ⟨msg, ht, Or.inr ⟨i, k, hi, hid, ?_⟩⟩
    rcases hs with ⟨hp, hs⟩ | ⟨hp, hs⟩
    · exact ⟨Or.inl hp, fun _ => hs⟩
    · refine ⟨Or.inr hp, fun hn => ?_⟩
      rwa [if_neg hn] at hs

/-- A data record with a J1 segment that has neither social security number nor date of birth. -/
def badJ1 : Bytes :=
  (Record.base .character (base 0 526) { j1 := [⟨.j1, j1'.fields.set .DateBirth (.time Time.zero)⟩] }).string

/-- Case of `C71_data_partial`, which also shows that the exception is needed: the segment J1 is at fault, the text says "base segment". -/
example : errorIn ((newBase .character).parse badJ1 false).2 = some (.invalidValue .SocialSecurityNumber) ∧
    (newBase .character).parseText badJ1 false = some (b! "social security number in base segment has an invalid value") ∧
    (badJ1.drop 426).take 2 = SegKind.j1.ident := by
  decide +kernel

/-- C71. A text that is too short for a segment is refused with the name of the segment. -/
theorem C71_short_segment (s : Seg) (rec : Bytes) (isVar : Bool) (h : rec.length < segmentLength s.kind) :
    s.parseText rec isVar = some (ownName (.seg s.kind) ++ b! " has an invalid length") := by
  have e : s.kind.length = segmentLength s.kind := by cases s.kind <;> rfl
  rw [Seg.parseText, Seg.parse, if_pos (by rw [e]; exact h)]
  simp only [Sort14.parseText, errSegmentLength, text_eq]

/-- C71. A text that is too short for a record is refused with the name of the record. -/
theorem C71_short_record (r : Record) (rec : Bytes) (isVar : Bool) (h : rec.length < recordLength r.enc) :
    r.parseText rec isVar = some (ownName r.sort ++ b! " has an invalid length") := by
  have e : ∀ enc : Enc, enc.recordLength = recordLength enc := fun enc => by cases enc <;> rfl
  cases r with
  | header enc fs =>
    have h' : rec.length < enc.recordLength := by rw [e]; exact h
    simp only [Record.parseText, Record.parse, parseHeader, if_pos h', Record.sort, Sort14.parseText, errSegmentLength, text_eq]
  | trailer enc fs =>
    have h' : rec.length < enc.recordLength := by rw [e]; exact h
    simp only [Record.parseText, Record.parse, parseTrailer, if_pos h', Record.sort, Sort14.parseText, errSegmentLength, text_eq]
  | base enc fs g =>
    have h' : rec.length < enc.recordLength := by rw [e]; exact h
    cases enc with
    | character =>
      have h2 : rec.length < 426 := h
      simp only [Record.parseText, Record.parse, parseBaseCharacter, if_pos h2, baseParseText, if_pos h', Record.sort, Sort14.parseText,
        errSegmentLength, text_eq]
    | packed =>
      have h2 : rec.length < 366 := h
      simp only [Record.parseText, Record.parse, parseBasePacked, if_pos h2, baseParseText, if_pos h', Record.sort, Sort14.parseText,
        errSegmentLength, text_eq]

/-- Cases of `C71_short_segment` and `C71_short_record`. -/
example : (b! "K1 abc").length < segmentLength (Seg.new .k1).kind ∧
    (Seg.new .k1).parseText (b! "K1 abc") false = some (b! "k1 segment has an invalid length") ∧
    (b! "0366").length < recordLength (newBase .packed).enc ∧
    (newBase .packed).parseText (b! "0366") true = some (b! "packed base segment has an invalid length") := by
  decide +kernel

/-! ### C72: the wording -/

/-- C72. The two passes of `toSnakeCase` put an underscore before every capital letter that begins a word, and nowhere else. -/
theorem C72_snake (s : Bytes) : toSnakeCase s = snake s := toSnakeCase_eq s

example : toSnakeCase (b! "TotalECOACodeZ") = b! "total_ecoa_code_z" := by decide +kernel

/-- C72. A name made of words is written as these words in small letters with underscores between them. -/
theorem C72_camel (ws : List Bytes) (h : ∀ w ∈ ws, CamelWord w) :
    toSnakeCase ws.flatten = [95].intercalate (ws.map lower) := by
  rw [toSnakeCase_eq, snake_camel ws h]

/-- Case of `C72_camel`. -/
example : (∀ w ∈ [b! "First", b! "Line", b! "Address2"], CamelWord w) ∧
    [95].intercalate ([b! "First", b! "Line", b! "Address2"].map lower) = b! "first_line_address2" := by
  refine ⟨?_, by decide +kernel⟩
  intro w hw
  simp only [List.mem_cons, List.not_mem_nil, or_false] at hw
  rcases hw with rfl | rfl | rfl <;> exact ⟨_, _, rfl, by decide, by decide, by decide⟩

/-- C72. A text determines the field, the type and the fault it speaks of. -/
theorem C72_distinct (msg : Bytes) (f g : F) (n m : Sort14) (x y : Fault) (h1 : Accuses msg f n x) (h2 : Accuses msg g m y) :
    f = g ∧ n = m ∧ x = y := says_unique h1 h2

/-- Case of `C72_distinct`. -/
example : Accuses (b! "zip_code in j2 segment is a required field") .ZipCode (.seg .j2) .missing :=
  ⟨b! "zip_code", by decide +kernel, by decide +kernel⟩

/-- C72. The texts of two errors of `Parse` about a field are the same only if the errors and the types are. -/
theorem C72_texts (n m : Sort14) (e e' : Err) (msg : Bytes) (h1 : n.parseText e = some msg) (h2 : m.parseText e' = some msg)
    (he : (faultOf e).isSome) (he' : (faultOf e').isSome) : n = m ∧ e = e' := by
  have key : ∀ {n : Sort14} {e : Err}, n.parseText e = some msg → (faultOf e).isSome → ∃ f x, faultOf e = some (f, x) ∧ Accuses msg f n x ∧
      e = (match x with
        | .missing => .required f | .numeric => .numeric f | .alphanumeric => .nonAlphanumeric f | .upper => .upperAlpha f
        | .invalid => .invalidValue f | .phone => .phone) := by
    intro n e h he
    have go : ∀ {f x}, faultOf e = some (f, x) →
        (e = .required f ∨ e = .numeric f ∨ e = .nonAlphanumeric f ∨ e = .upperAlpha f ∨ e = .invalidValue f) → Accuses msg f n x := by
      intro f x hf hd
      obtain ⟨a, ha, ha'⟩ := parseText_says (n := n) hf hd
      rw [h] at ha
      exact Option.some.inj ha ▸ ha'
    cases e <;> first
      | cases h; done
      | cases he; done
      | exact ⟨_, _, rfl, go rfl (by simp), rfl⟩
  obtain ⟨f, x, -, ha, hx⟩ := key h1 he
  obtain ⟨g, y, -, hb, hy⟩ := key h2 he'
  obtain ⟨rfl, rfl, rfl⟩ := says_unique ha hb
  exact ⟨rfl, by rw [hx, hy]⟩

/-- Case of `C72_texts`. -/
example : (Sort14.trailer .packed).parseText (.numeric .BlockCount) = some (b! "block_count in packed trailer record has not numeric characters") ∧
    (faultOf (.numeric .BlockCount)).isSome := by decide +kernel

end Metro2
