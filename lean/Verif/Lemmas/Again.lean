import Verif.Lemmas.PackedText
import Verif.Lemmas.Exact
import Verif.Props.Exact
import Verif.Spec.Again

/-! Files that were read, and what is read of their text. -/

namespace Metro2

variable {fmt : Format} {decl : List (F × FieldDecl)} {L : Nat}

/-! ### Texts of values that were read -/

theorem plain_fmtZeroStr (n : Nat) (i : Int) : Plain (fmtZeroStr n (fmtInt i)) := by
  rw [fmtZeroStr_ascii (ascii_fmtInt i)]
  refine Plain.append (Plain.replicate _ (by decide)) (fun c hc => ?_)
  have hc := List.mem_of_mem_take hc
  cases i with
  | ofNat m => exact Plain.digits (fmtNat_all m) c hc
  | negSucc m =>
    rcases List.mem_cons.1 hc with rfl | hc
    · decide
    · exact Plain.digits (fmtNat_all _) c hc

theorem plain_of_read {e : Field} {f : F} {data : Bytes} {v : Val} (hc : charRow e = true) (hw : Spec.WidthOk e = true)
    (hd : data.length = e.len) (hv : isValidType e f data = none) (hp : parseValue e data = .ok v) :
    Plain (toStr e (some v)) := by
  by_cases h1 : e.typ = .numeric
  · obtain ⟨i, rfl, -⟩ := (reads_numeric_iff f h1).1 ⟨hv, hp⟩
    unfold toStr
    simp only
    split
    · intro c hc; simp at hc
    · simp only [valText, h1]
      exact plain_fmtZeroStr _ _
  · by_cases h2 : (e.typ = .date ∨ e.typ = .timestamp) ∧ v = .time Spec.noTime
    · obtain ⟨h2, rfl⟩ := h2
      have hz : valText e (.time Spec.noTime) = List.replicate e.len 48 := by
        rcases h2 with ht | ht <;>
          (simp only [valText, ht]; rw [if_pos (show Spec.noTime.isZero = true from by decide)])
      rw [toStr_some (by simp), hz]
      exact Plain.replicate _ (by decide)
    · exact plain_toStr hc hw (fits_of_parse hw hd hv hp (fun h => absurd h h1) (fun _ h hv => h2 ⟨h, hv⟩))

theorem noBreaks_of_read {e : Field} {f : F} {data : Bytes} {v : Val} (hw : Spec.WidthOk e = true)
    (hd : data.length = e.len) (hv : isValidType e f data = none) (hp : parseValue e data = .ok v)
    (hn : Spec.NoBreaks data) : Spec.NoBreaks (toStr e (some v)) := by
  by_cases hc : charRow e = true
  · exact (plain_of_read hc hw hd hv hp).noBreaks
  · refine noBreaks_toStr hw (fits_of_parse hw hd hv hp ?_ ?_) hn hd hp
    · intro h; simp [charRow, h] at hc
    · rintro - (h | h) <;> simp [charRow, h] at hc

theorem Layout.plain_of_accepted (h : Layout fmt decl L) (hc : ∀ p ∈ fmt, charRow p.2 = true) {fs : Fields}
    (ht : fs.Typed decl) (ha : Accepted fmt fs) : Plain (mainText fmt fs) := by
  apply Plain.flatten
  intro s hs
  obtain ⟨⟨f, e⟩, hp, rfl⟩ := List.mem_map.1 hs
  obtain ⟨h1, h2, -⟩ := h.main.2.2 _ hp
  simp only at h1 h2 ⊢
  cases hg : fs.get f with
  | none => exact plain_fill e
  | some v =>
    have hm := Fields.mem_of_get hg
    obtain ⟨d, hd, -⟩ := ht.mem hm
    obtain ⟨e', data, g1, g2, g3, g4⟩ := ha _ hm h2
    simp only [lookup_of_mem h.names h1, Option.some.injEq] at g1
    subst g1
    exact plain_of_read (hc _ h1) (h.row hd h1).1 g2 g3 g4

theorem Layout.noBreaks_of_slots (h : Layout fmt decl L) {fs : Fields} (ht : fs.Typed decl)
    {rec : Bytes} {off : Nat} (hn : Spec.NoBreaks rec) (hs : SlotsOk fmt rec off (noBdw fs)) :
    Spec.NoBreaks (mainText fmt fs) := by
  intro c hc
  obtain ⟨s, hsm, hcs⟩ := List.mem_flatten.1 hc
  obtain ⟨⟨f, e⟩, hp, rfl⟩ := List.mem_map.1 hsm
  obtain ⟨h1, h2, -⟩ := h.main.2.2 _ hp
  simp only at h1 h2 hcs
  cases hg : fs.get f with
  | none => rw [hg] at hcs; exact (plain_fill e).noBreaks c hcs
  | some v =>
    rw [hg] at hcs
    have hm := Fields.mem_of_get hg
    obtain ⟨d, hd, -⟩ := ht.mem hm
    obtain ⟨-, e', he', hlen, hv, hpv⟩ := hs _ (mem_noBdw h2 hm)
    simp only [lookup_of_mem h.names h1, Option.some.injEq] at he'
    subst he'
    exact noBreaks_of_read (h.row hd h1).1 (by rw [List.length_take, List.length_drop]; omega) hv hpv
      (NoBreaks.slot hn _ _) c hcs

theorem plain_segs_of_read {g : Segs} (h : SegsAll SegRead g) : Plain g.string := by
  rw [Segs.string]
  apply Plain.flatten
  intro s hs
  obtain ⟨t, ht, rfl⟩ := List.mem_map.1 hs
  have : SegRead t.kind t := h.mem_list (fun _ _ hs => hs.kind) t ht
  rw [seg_text_main]
  exact (layout_segment t.kind).plain_of_accepted (charRows_segment t.kind) this.typed this.accepted

/-! ### Size words -/

theorem word_character {line : Bytes} (hl : RecordText line) {i : Int} (h : parseInt (line.take 4) = .ok i) :
    i = line.length ∧ 426 ≤ i := by
  have h1 := (parseInt_ok_iff.1 h).1
  rcases hl.announces with ⟨h2, h3⟩ | ⟨h2, -⟩
  · have : i = line.length := by
      have h4 : parseInt (line.take 4) = .ok (line.length : Int) := by
        refine parseInt_ok_iff.2 ⟨h2, ?_⟩
        have := announces_le (by rw [List.length_take]; have := hl.four; omega) hl.announces
        omega
      rw [h] at h4
      cases h4; rfl
    omega
  · exact absurd h1 (h2 _)

theorem word_packed {line : Bytes} (hl : RecordText line) : 366 ≤ beVal (line.take 2) := by
  have h4 := hl.four
  rcases hl.announces with ⟨⟨ds, n, hne, hd, hs⟩, -⟩ | ⟨-, h2, h3⟩
  · match line, h4 with
    | a :: b :: rest, _ =>
      have ha : 43 ≤ a.toNat := by
        rw [spec_decimal_iff] at hd
        rcases hs with ⟨hs, -⟩ | ⟨hs, -⟩ | ⟨hs, -⟩
        · have : a ∈ ds := by rw [← hs]; simp
          have := ((isDigit_iff a).1 (hd.1 a this)).1
          omega
        · simp only [List.take_succ_cons, List.cons.injEq] at hs
          rw [hs.1]; decide
        · simp only [List.take_succ_cons, List.cons.injEq] at hs
          rw [hs.1]; decide
      show 366 ≤ beVal [a, b]
      simp only [beVal, List.foldl]
      omega
  · rw [List.take_take, spec_bigEndian_iff] at h2
    have : min 2 4 = 2 := rfl
    rw [this] at h2
    omega

/-- The size word that a record begins with. -/
theorem word_ge {enc : Enc} {line : Bytes} (hl : RecordText line) {e : Field}
    (he : e.typ = if enc = .character then .numeric else .descriptor) {i : Int}
    (h : parseValue e (line.take 4) = .ok (.int i)) :
    (enc.recordLength : Int) ≤ i ∧ i ≤ wordMax enc ∧ (enc = .character → i = line.length) := by
  have h4 := hl.four
  cases enc with
  | character =>
    simp only [if_true] at he
    simp only [parseValue, he] at h
    split at h
    · next v hv =>
      cases h
      obtain ⟨h1, h2⟩ := word_character hl hv
      have h3 := signedDecimal_lt (parseInt_ok_iff.1 hv).1
      rw [List.length_take, Nat.min_eq_left h4] at h3
      refine ⟨h2, ?_, fun _ => h1⟩
      simp only [wordMax]; omega
    · cases h
  | packed =>
    simp only [reduceCtorEq, if_false] at he
    simp only [parseValue, he] at h
    split at h
    · cases h
    · cases h
      rw [List.take_take]
      have h5 := word_packed hl
      have : min 2 4 = 2 := rfl
      rw [this]
      have h6 := beVal_lt (line.take 2)
      have h7 : (line.take 2).length = 2 := by rw [List.length_take]; omega
      rw [h7] at h6
      refine ⟨by simp only [Enc.recordLength]; omega, by simp only [wordMax]; omega, fun h => by cases h⟩

theorem bdwField_typ (enc : Enc) : (bdwField enc).typ = if enc = .character then .numeric else .descriptor := by
  cases enc <;> rfl

theorem rdwField_typ (enc : Enc) : (rdwField enc).typ = if enc = .character then .numeric else .descriptor := by
  cases enc <;> rfl

/-- The text of a record begins with its size word. -/
theorem Layout.first_of_width {enc : Enc} (h : Layout fmt decl L) (hB : Blocked enc fmt decl) {fs : Fields}
    (ht : fs.Typed decl) (hw : WidthAll fmt fs) {isVar : Bool}
    (hb : if isVar then 0 < Spec.bdw fs ∧ Spec.bdw fs ≤ wordMax enc else Spec.bdw fs = 0)
    (hs : 0 ≤ Spec.sizeWord isVar fs) (hm : Spec.sizeWord isVar fs ≤ wordMax enc) (rest : Bytes) :
    (fieldsString fmt fs ++ rest).take 4 = firstWord enc (Spec.sizeWord isVar fs) := by
  cases isVar with
  | true =>
    simp only [if_true] at hb
    rw [h.text, hB.bdwText ht]
    show (toStr (bdwField enc) (some (.int (Spec.bdw fs))) ++ _ ++ rest).take 4 = _
    rw [toStr_bdw hb.1 hb.2, List.append_assoc,
      List.take_append_of_le_length (by rw [firstWord_length]),
      List.take_of_length_le (by rw [firstWord_length])]
    rfl
  | false =>
    simp only [Bool.false_eq_true, if_false] at hb
    rw [h.rdw_first hB ht hw hb]
    exact toStr_rdw hs hm

theorem rdw_of_slots {enc : Enc} (hB : Blocked enc fmt decl) {fs : Fields} (ht : fs.Typed decl) {line : Bytes}
    (hs : SlotsOk fmt line 0 (noBdw fs)) : parseValue (rdwField enc) (line.take 4) = .ok (.int (Spec.rdw fs)) := by
  obtain ⟨b, r, fr, hfs, -, hr, -⟩ := hB.shape ht
  have hm : (F.RecordDescriptorWord, Val.int r) ∈ fs := by rw [hfs]; simp
  obtain ⟨-, e, h1, -, -, h4⟩ := hs _ (mem_noBdw (by simp) hm)
  simp only [hB.rdw, Option.some.injEq] at h1
  subst h1
  have e1 : (rdwField enc).start = 0 := by cases enc <;> rfl
  have e2 : (rdwField enc).len = 4 := by cases enc <;> rfl
  rw [e1, e2] at h4
  rw [show Spec.rdw fs = r from hr]
  exact h4

theorem basePacked_bdw_read {fs fs' : Fields} {g g' : Segs} {rec : Bytes} {isVar : Bool} {n : Int}
    (ht : fs.Typed baseSegmentStruct) (h : parseBasePacked fs g rec isVar = ((fs', g'), .ok n)) :
    parseValue (bdwField .packed) (rec.take 4) = .ok (.int (Spec.bdw fs')) := by
  rw [parseBasePacked_eq] at h
  split at h
  · simp at h
  · generalize hr : parseLoop baseSegmentPackedFormat (if isVar then .accept else .fail) true rec 0 fs = r at h
    obtain ⟨fs2, o⟩ := r
    cases o with
    | some err => simp at h
    | none =>
      obtain ⟨h1, -, i, h3, h4, -⟩ := parseLoop_inv_bdw (blocked_base .packed) ht hr
      have h6 : fs2 = fs' := by
        simp only at h
        split at h
        · simp at h
        · generalize readApplicableSegments _ (List.drop _ rec) isVar = q at h
          obtain ⟨g2, x⟩ := q
          cases x with
          | error err => simp at h
          | ok m =>
            simp only at h
            split at h
            · simp at h
            · simp only [Prod.mk.injEq] at h
              exact h.1.1
      subst h6
      have hv : isVar = true := by cases isVar <;> simp_all
      subst hv
      simp only [if_true] at h4
      rw [h3, Spec.bdw, h4]

/-! ### Records that were read from a line -/

/-- What is known of the fields of a header or data record that was read from a line. -/
structure LineRead (enc : Enc) (fmt : Format) (decl : List (F × FieldDecl)) (isVar : Bool) (line : Bytes)
    (fs : Fields) : Prop where
  typed : fs.Typed decl
  accepted : Accepted fmt fs
  packed : enc = .packed → isVar = true
  bdw : if isVar then 0 < Spec.bdw fs ∧ Spec.bdw fs ≤ wordMax enc else Spec.bdw fs = 0
  low : (enc.recordLength : Int) ≤ Spec.sizeWord isVar fs
  high : Spec.sizeWord isVar fs ≤ wordMax enc
  main : Spec.NoBreaks (mainText fmt fs)
  len : enc = .character → Spec.sizeWord isVar fs = line.length

theorem lineRead_of {enc : Enc} (h : Layout fmt decl L) (hB : Blocked enc fmt decl) {isVar : Bool} {line : Bytes}
    {fs : Fields} {off : Nat} (hl : RecordText line) (ht : fs.Typed decl) (ha : Accepted fmt fs)
    (hp : enc = .packed → isVar = true) (hs : SlotsOk fmt line off (noBdw fs)) (h0 : isVar = false → off = 0 ∧ Spec.bdw fs = 0)
    (hv : isVar = true → parseValue (bdwField enc) (line.take 4) = .ok (.int (Spec.bdw fs))) :
    LineRead enc fmt decl isVar line fs := by
  have hw : (enc.recordLength : Int) ≤ Spec.sizeWord isVar fs ∧ Spec.sizeWord isVar fs ≤ wordMax enc ∧
      (enc = .character → Spec.sizeWord isVar fs = line.length) := by
    cases isVar with
    | true => exact word_ge hl (bdwField_typ enc) (hv rfl)
    | false =>
      obtain ⟨rfl, -⟩ := h0 rfl
      exact word_ge hl (rdwField_typ enc) (rdw_of_slots hB ht hs)
  refine ⟨ht, ha, hp, ?_, hw.1, hw.2.1, h.noBreaks_of_slots ht hl.noBreaks hs, hw.2.2⟩
  cases isVar with
  | true =>
    have := recordLength_pos enc
    have e : Spec.recordLength enc = enc.recordLength := by cases enc <;> rfl
    have h1 := hw.1
    have h2 := hw.2.1
    simp only [Spec.sizeWord, if_true] at h1 h2 ⊢
    exact ⟨by omega, h2⟩
  | false => simpa using (h0 rfl).2

theorem header_line {enc : Enc} {isVar : Bool} {line : Bytes} {fs : Fields} {n : Int} (hl : RecordText line)
    (hv : isVar = isVariableLength line) (h : parseHeader enc (newHeader enc).fields line isVar = (fs, .ok n)) :
    LineRead enc enc.headerFormat headerRecordStruct isVar line fs := by
  obtain ⟨h1, h2, h3, -, -⟩ := parseHeader_inv (newHeader_typed enc) h
  obtain ⟨-, hs⟩ := header_slots (newHeader_typed enc) h
  refine lineRead_of (layout_header enc) (blocked_header enc) hl h1 h2 ?_ hs ?_ ?_
  · intro he
    rw [hv]
    exact (header_bdw_read (newHeader_typed enc) (.inr he) h).2 he
  · rintro rfl
    cases enc with
    | character =>
      refine ⟨rfl, ?_⟩
      simp only [headerPolicy, Bool.false_eq_true, if_false, reduceCtorEq] at h3
      rw [Spec.bdw, h3.2.2]
      exact newHeader_bdw _
    | packed =>
      have := (header_bdw_read (newHeader_typed .packed) (.inr rfl) h).2 rfl
      rw [← hv] at this
      cases this
  · intro hv'
    exact (header_bdw_read (newHeader_typed enc) (.inl hv') h).1

theorem base_line {enc : Enc} {isVar : Bool} {line : Bytes} {fs : Fields} {g : Segs} {n : Int} (hl : RecordText line)
    (h : (newBase enc).parse line isVar = (.base enc fs g, .ok n)) :
    LineRead enc enc.baseFormat baseSegmentStruct isVar line fs ∧ SegsAll SegRead g ∧
      (enc = .character → isVar = false → (426 + Spec.segsLength g : Nat) ≤ Spec.rdw fs) := by
  cases enc with
  | character =>
    rw [newBase_parse_character] at h
    obtain ⟨h1, h2, h3, h4, -, h6⟩ := parseBaseCharacter_inv (zeroFields_typed _) h
    obtain ⟨-, hs⟩ := baseCharacter_slots (zeroFields_typed _) h
    have h0 : isVar = false → Spec.bdw fs = 0 := by
      rintro rfl
      simp only [Bool.false_eq_true, if_false] at h4
      rw [Spec.bdw, h4]; exact newBase_bdw
    refine ⟨lineRead_of (layout_base .character) (blocked_base .character) hl h1 h2 (fun h => by cases h) hs ?_ ?_, h3, ?_⟩
    · rintro rfl; exact ⟨rfl, h0 rfl⟩
    · rintro rfl; exact baseCharacter_bdw_read (zeroFields_typed _) h
    · rintro - rfl
      obtain ⟨rfl, h7⟩ := h6 (h0 rfl)
      exact h7
  | packed =>
    rw [newBase_parse_packed] at h
    obtain ⟨h1, h2, h3, rfl, -, -, -⟩ := parseBasePacked_inv (zeroFields_typed _) h
    obtain ⟨-, hs⟩ := basePacked_slots (zeroFields_typed _) h
    exact ⟨lineRead_of (layout_base .packed) (blocked_base .packed) hl h1 h2 (fun _ => rfl) hs (fun h => by cases h)
      (fun _ => basePacked_bdw_read (zeroFields_typed _) h), h3, fun h => by cases h⟩

theorem noBreaks_word {enc : Enc} {isVar : Bool} {line : Bytes} {fs : Fields} (hB : Blocked enc fmt decl)
    (hl : RecordText line) (h : LineRead enc fmt decl isVar line fs)
    (hv : isVar = true → parseValue (bdwField enc) (line.take 4) = .ok (.int (Spec.bdw fs))) :
    Spec.NoBreaks (bdwText fmt fs) := by
  have hb := h.bdw
  cases enc with
  | character => exact (plain_bdwText (isVar := isVar) hB h.typed (by rw [wordMax_eq]; exact hb)).noBreaks
  | packed =>
    have := h.packed rfl
    subst this
    exact noBreaks_bdwText (isVar := true) hB h.typed rfl (by rw [wordMax_eq]; exact hb) hl.noBreaks hl.four (hv rfl)

theorem announced_of {enc : Enc} {isVar : Bool} {line : Bytes} {fs : Fields} (h : LineRead enc fmt decl isVar line fs) :
    (if Spec.bdw fs = 0 then Spec.rdw fs else Spec.bdw fs) = Spec.sizeWord isVar fs := by
  have hb := h.bdw
  cases isVar with
  | true => simp only [if_true] at hb; rw [if_neg (by omega)]; rfl
  | false => simp only [Bool.false_eq_true, if_false] at hb; rw [if_pos hb]; rfl

/-- The text of a header that was read, if it has the length that it announces. -/
theorem header_text {enc : Enc} {isVar : Bool} {line : Bytes} {fs : Fields} {n : Int} (hl : RecordText line)
    (hv : isVar = isVariableLength line) (h : parseHeader enc (newHeader enc).fields line isVar = (fs, .ok n))
    (hm : ((Record.header enc fs).string.length : Int) = Spec.announced (.header enc fs)) :
    RecordText (Record.header enc fs).string := by
  have hr := header_line hl hv h
  have e : Spec.announced (.header enc fs) = Spec.sizeWord isVar fs := announced_of hr
  rw [e] at hm
  refine recordText_of (enc := enc) ?_ ?_ hm hr.low hr.high
  · rw [Record.string, (layout_header enc).text]
    refine NoBreaks.padTo (NoBreaks.append (noBreaks_word (blocked_header enc) hl hr ?_) hr.main)
    intro hv'
    exact (header_bdw_read (newHeader_typed enc) (.inl hv') h).1
  · rw [Record.string, padTo]
    exact (layout_header enc).first_of_width (blocked_header enc) hr.typed
      ((layout_header enc).widthAll_of_accepted hr.typed hr.accepted) hr.bdw (by have := hr.low; omega) hr.high _

theorem base_text {enc : Enc} {isVar : Bool} {line : Bytes} {fs : Fields} {g : Segs} {n : Int} (hl : RecordText line)
    (h : (newBase enc).parse line isVar = (.base enc fs g, .ok n))
    (hm : ((Record.base enc fs g).string.length : Int) = Spec.announced (.base enc fs g)) :
    RecordText (Record.base enc fs g).string := by
  obtain ⟨hr, hg, -⟩ := base_line hl h
  have e : Spec.announced (.base enc fs g) = Spec.sizeWord isVar fs := announced_of hr
  rw [e] at hm
  refine recordText_of (enc := enc) ?_ ?_ hm hr.low hr.high
  · rw [Record.string, (layout_base enc).text]
    refine NoBreaks.padTo (NoBreaks.append (NoBreaks.append (noBreaks_word (blocked_base enc) hl hr ?_) hr.main)
      (plain_segs_of_read hg).noBreaks)
    rintro rfl
    cases enc with
    | character => rw [newBase_parse_character] at h; exact baseCharacter_bdw_read (zeroFields_typed _) h
    | packed => rw [newBase_parse_packed] at h; exact basePacked_bdw_read (zeroFields_typed _) h
  · rw [Record.string, padTo, List.append_assoc]
    exact (layout_base enc).first_of_width (blocked_base enc) hr.typed
      ((layout_base enc).widthAll_of_accepted hr.typed hr.accepted) hr.bdw (by have := hr.low; omega) hr.high _

theorem trailer_line {enc : Enc} {isVar : Bool} {line : Bytes} {fs : Fields} {n : Int} (hl : RecordText line)
    (h : parseTrailer enc (newTrailer enc).fields line isVar = (fs, .ok n)) :
    fs.Typed trailerRecordStruct ∧ Accepted enc.trailerFormat fs ∧ (enc.recordLength : Int) ≤ Spec.rdw fs ∧
      Spec.rdw fs ≤ wordMax enc ∧ Spec.NoBreaks (mainText enc.trailerFormat fs) := by
  obtain ⟨h1, h2, -⟩ := parseTrailer_inv (newTrailer_typed enc) h
  obtain ⟨-, hs⟩ := trailer_slots (newTrailer_typed enc) h
  obtain ⟨-, e, g1, -, -, g4⟩ := hs _ (mem_noBdw (by simp) (trailer_rdw_mem h1))
  simp only [lookup_of_mem (layout_trailer enc).names (trailer_rows enc).1, Option.some.injEq] at g1
  subst g1
  have e1 : (rdwField enc).start = 0 := by cases enc <;> rfl
  have e2 : (rdwField enc).len = 4 := by cases enc <;> rfl
  rw [e1, e2] at g4
  obtain ⟨h3, h4, -⟩ := word_ge hl (rdwField_typ enc) g4
  exact ⟨h1, h2, h3, h4, (layout_trailer enc).noBreaks_of_slots h1 hl.noBreaks hs⟩

theorem trailer_bdw {fs : Fields} (ht : fs.Typed trailerRecordStruct) : Spec.bdw fs = 0 := by
  have : fs.get .BlockDescriptorWord = none := by
    cases hg : fs.get .BlockDescriptorWord with
    | none => rfl
    | some v =>
      obtain ⟨d, hd⟩ := mem_decl_of_typed ht (Fields.mem_of_get hg)
      exact absurd rfl (trailer_noBdw _ hd)
  simp [Spec.bdw, Fields.int, this]

theorem trailer_measured {enc : Enc} {isVar : Bool} {line : Bytes} {fs : Fields} {n : Int} (hl : RecordText line)
    (h : parseTrailer enc (newTrailer enc).fields line isVar = (fs, .ok n)) :
    ((Record.trailer enc fs).string.length : Int) = Spec.rdw fs := by
  obtain ⟨h1, h2, h3, h4, -⟩ := trailer_line hl h
  rw [Record.string, padTo_length, trailer_length ((layout_trailer enc).widthAll_of_accepted h1 h2)]
  have h5 := wordMax_le enc
  have h6 := recordLength_pos enc
  have e : Spec.recordLength enc = enc.recordLength := by cases enc <;> rfl
  show ((max _ (clampedBlockSize (Spec.rdw fs)) : Nat) : Int) = _
  rw [← padSize_eq]
  unfold Spec.padSize
  rw [if_pos (by omega)]
  omega

theorem trailer_text {enc : Enc} {isVar : Bool} {line : Bytes} {fs : Fields} {n : Int} (hl : RecordText line)
    (h : parseTrailer enc (newTrailer enc).fields line isVar = (fs, .ok n)) :
    RecordText (Record.trailer enc fs).string := by
  obtain ⟨h1, h2, h3, h4, h5⟩ := trailer_line hl h
  refine recordText_of (enc := enc) ?_ ?_ (trailer_measured hl h) h3 h4
  · rw [Record.string, (layout_trailer enc).text_plain (trailer_noBdwRow _)]
    exact NoBreaks.padTo h5
  · rw [Record.string, padTo, (layout_trailer enc).text_plain (trailer_noBdwRow _)]
    have := (layout_trailer enc).slot_of_width h1 ((layout_trailer enc).widthAll_of_accepted h1 h2) []
      (List.replicate (clampedBlockSize (fs.int .RecordDescriptorWord) - (mainText enc.trailerFormat fs).length) 32)
      (trailer_rdw_mem h1) (by simp) (trailer_rows enc).1
    have e1 : (rdwField enc).start = 0 := by cases enc <;> rfl
    have e2 : (rdwField enc).len = 4 := by cases enc <;> rfl
    rw [e1, e2] at this
    simp only [List.length_nil, Nat.add_zero, List.drop_zero, List.nil_append] at this
    rw [this]
    exact toStr_rdw (by omega) h4

/-! ### Files that were read -/

theorem header_ident_of {enc : Enc} {isVar : Bool} {line : Bytes} {fs : Fields} {n : Int}
    (hm : isMetroFile line = true) (hv : isVar = isVariableLength line)
    (h : parseHeader enc (newHeader enc).fields line isVar = (fs, .ok n)) :
    (.RecordIdentifier, .str "HEADER".toUTF8.data.toList) ∈ fs := by
  obtain ⟨h1, hs⟩ := header_slots (newHeader_typed enc) h
  have hlen : 366 ≤ line.length := by
    unfold isMetroFile at hm
    split at hm
    · cases hm
    · omega
  unfold isMetroFile at hm
  rw [if_neg (by omega), Bool.or_eq_true, decide_eq_true_eq, decide_eq_true_eq] at hm
  have hp : enc = .packed → isVar = true := by
    intro he
    rw [hv]
    exact (header_bdw_read (newHeader_typed enc) (.inr he) h).2 he
  have hat : (line.drop (4 + Spec.readShift isVar (.header enc (newHeader enc).fields))).take 6 = b! "HEADER" := by
    cases isVar with
    | true =>
      have e : Spec.readShift true (.header enc (newHeader enc).fields) = 4 := by cases enc <;> rfl
      rw [e]
      rcases hm with hm | hm
      · exfalso
        have h8 : (line.drop 4)[4]? = some 69 := by
          have := congrArg (fun l : Bytes => l[4]?) hm
          simp only [List.getElem?_take] at this
          rw [if_pos (by decide)] at this
          rw [this]; decide +kernel
        rw [List.getElem?_drop] at h8
        unfold isVariableLength at hv
        have hv' := hv.symm
        rw [Bool.and_eq_true, decide_eq_true_eq, decide_eq_true_eq] at hv'
        have := congrArg (fun l : Bytes => l[0]?) hv'.2
        simp only [toUpper, List.getElem?_map, List.getElem?_take, List.getElem?_drop] at this
        rw [if_pos (by decide), h8] at this
        revert this
        decide +kernel
      · exact hm
    | false =>
      have hc : enc = .character := by cases enc; · rfl
                                       · exact absurd (hp rfl) (by simp)
      subst hc
      rcases hm with hm | hm
      · exact hm
      · exfalso
        unfold isVariableLength at hv
        rw [hm] at hv
        have : decide (15 < line.length) = true := by simp; omega
        rw [this] at hv
        exact absurd hv (by decide +kernel)
  have hmem : F.RecordIdentifier ∈ fs.map Prod.fst := by
    rw [h1.names]; decide +kernel
  obtain ⟨⟨f, v⟩, hf, hf'⟩ := List.mem_map.1 hmem
  simp only at hf'
  subst hf'
  obtain ⟨-, e, g1, -, -, g4⟩ := hs _ (mem_noBdw (by simp) hf)
  simp only [lookup_of_mem (layout_header enc).names (header_rows enc), Option.some.injEq] at g1
  subst g1
  simp only at g4
  rw [hat] at g4
  have hid : parseValue (⟨4, 6, .alphanumeric, false, false, .required⟩ : Field) (b! "HEADER") =
      .ok (.str "HEADER".toUTF8.data.toList) := by
    simp only [parseValue]
    rw [show trimRight (b! "HEADER") = "HEADER".toUTF8.data.toList by decide +kernel]
  rw [hid] at g4
  cases g4
  exact hf

/-- What is known of a file that was read. -/
structure FileWasRead (enc : Enc) (isVar : Bool) (f : File) : Prop where
  format : f.format = enc
  header : ∃ line fs n, RecordText line ∧ isMetroFile line = true ∧ isVar = isVariableLength line ∧
    f.header = .header enc fs ∧ parseHeader enc (newHeader enc).fields line isVar = (fs, .ok n)
  bases : ∀ r ∈ f.bases, ∃ line fs g n, RecordText line ∧ r = .base enc fs g ∧
    (newBase enc).parse line isVar = (.base enc fs g, .ok n)
  trailer : ∃ line fs n, RecordText line ∧ f.trailer = .trailer enc fs ∧
    parseTrailer enc (newTrailer enc).fields line isVar = (fs, .ok n)

theorem readHeader_inv' {line : Bytes} {f : File} {isVar : Bool}
    (h : readHeader (newFile .character) line = .ok (f, isVar)) :
    ∃ enc fs n, f = { newFile enc with header := .header enc fs } ∧ isMetroFile line = true ∧
      isVar = isVariableLength line ∧ parseHeader enc (newHeader enc).fields line isVar = (fs, .ok n) := by
  unfold readHeader at h
  split at h
  · cases h
  · next hmf =>
    split at h
    · cases h
    · next packed hp =>
      have hset : ((newFile .character).setType (if packed = true then Enc.packed.name else messageMetroFormat)).1 =
          newFile (if packed then .packed else .character) := by
        cases packed
        · exact setType_new .character
        · exact setType_new .packed
      simp only [hset] at h
      split at h
      · cases h
      · next hd n hh =>
        cases h
        generalize (if packed then Enc.packed else Enc.character) = enc at hh ⊢
        have : (newFile enc).header = .header enc (newHeader enc).fields := rfl
        rw [this, Record.parse] at hh
        simp only [Prod.mk.injEq] at hh
        obtain ⟨rfl, hh⟩ := hh
        exact ⟨enc, _, n, rfl, by simpa using hmf, rfl, Prod.ext rfl hh⟩

theorem newHeader_parse_ok {enc : Enc} {line : Bytes} {isVar : Bool} {fs : Fields} {x : Except Err Int}
    (h : parseHeader enc (newHeader enc).fields line isVar = (fs, x)) :
    (newHeader enc).parse line isVar = (.header enc fs, x) := by
  have : newHeader enc = .header enc (newHeader enc).fields := rfl
  rw [this, Record.parse]
  simp only [h]

theorem newTrailer_parse_ok {enc : Enc} {line : Bytes} {isVar : Bool} {fs : Fields} {x : Except Err Int}
    (h : parseTrailer enc (newTrailer enc).fields line isVar = (fs, x)) :
    (newTrailer enc).parse line isVar = (.trailer enc fs, x) := by
  have : newTrailer enc = .trailer enc (newTrailer enc).fields := rfl
  rw [this, Record.parse]
  simp only [h]

theorem newBase_parse_shape {enc : Enc} {line : Bytes} {isVar : Bool} {r : Record} {x : Except Err Int}
    (h : (newBase enc).parse line isVar = (r, x)) : ∃ fs g, r = .base enc fs g := by
  cases enc <;> simp only [newBase, Record.parse, Prod.mk.injEq] at h <;> exact ⟨_, _, h.1.symm⟩

theorem fileWasRead {ls : List Bytes} {f : File} (hl : ∀ l ∈ ls, RecordText l) (h : readLines ls = .ok f) :
    ∃ enc isVar, FileWasRead enc isVar f := by
  cases ls with
  | nil => cases h
  | cons l ls =>
    rw [readLines] at h
    split at h
    · cases h
    · next f1 isVar h1 =>
      obtain ⟨enc, fs, n, rfl, h2, h3, h4⟩ := readHeader_inv' h1
      split at h
      · cases h
      · next bs line h5 =>
        obtain ⟨h6, h7⟩ := lineBases_mem h5
        unfold readTrailer at h
        split at h
        · cases h
        · next t m ht =>
          simp only [newFile] at h ht h6
          cases h
          have hl' := fun l' hl' => hl l' (List.mem_cons_of_mem _ hl')
          refine ⟨enc, isVar, rfl, ⟨l, fs, n, hl l List.mem_cons_self, h2, h3, rfl, h4⟩, ?_, ?_⟩
          · intro r hr
            rcases h6 r hr with hr' | ⟨line', hr', k, hk⟩
            · simp at hr'
            · obtain ⟨fs', g, rfl⟩ := newBase_parse_shape hk
              exact ⟨line', fs', g, k, hl' _ hr', rfl, hk⟩
          · have : newTrailer enc = .trailer enc (newTrailer enc).fields := rfl
            rw [this, Record.parse] at ht
            simp only [Prod.mk.injEq] at ht
            obtain ⟨rfl, ht⟩ := ht
            exact ⟨line, _, m, hl' _ (h7 _ rfl), rfl, Prod.ext rfl ht⟩
      · cases h

theorem recordsOf_texts {raw : Bytes} {ps : List Bytes} (h : Spec.Pieces raw ps) :
    ∀ l ∈ Spec.recordsOf ps, RecordText l := by
  intro l hl
  unfold Spec.recordsOf at hl
  obtain ⟨a, ha, rfl⟩ := List.mem_map.1 hl
  obtain ⟨h1, h2, -⟩ := pieces_mem h a ((List.takeWhile_sublist _).subset ha)
  exact ⟨noBreaks_withoutBreaks a, h1, h2⟩

/-- The texts of the records of a measured file that was read. -/
theorem FileWasRead.texts {enc : Enc} {isVar : Bool} {f : File} (h : FileWasRead enc isVar f) (hm : Spec.Measured f) :
    ∀ t ∈ Spec.recordTexts f, RecordText t := by
  intro t ht
  simp only [Spec.recordTexts, List.mem_append, List.mem_singleton, List.mem_map] at ht
  rcases ht with (rfl | ⟨r, hr, rfl⟩) | rfl
  · obtain ⟨line, fs, n, h1, h2, h3, h4, h5⟩ := h.header
    have := hm _ (show f.header ∈ Spec.allRecords f by simp [Spec.allRecords])
    rw [h4] at this ⊢
    exact header_text h1 h3 h5 this
  · obtain ⟨line, fs, g, n, h1, rfl, h3⟩ := h.bases r hr
    exact base_text h1 h3 (hm _ (by simp [Spec.allRecords, hr]))
  · obtain ⟨line, fs, n, h1, h2, h3⟩ := h.trailer
    rw [h2]
    exact trailer_text h1 h3

theorem FileWasRead.blocked {enc : Enc} {isVar : Bool} {f : File} (h : FileWasRead enc isVar f) :
    Spec.isBlocked f = isVar := by
  obtain ⟨line, fs, n, h1, h2, h3, h4, h5⟩ := h.header
  have hb := (header_line h1 h3 h5).bdw
  unfold Spec.isBlocked
  rw [h4]
  show decide (Spec.bdw fs ≠ 0) = isVar
  cases isVar with
  | true => simp only [if_true] at hb; simp; omega
  | false => simp only [Bool.false_eq_true, if_false] at hb; simp [hb]

theorem FileWasRead.goodHeader {enc : Enc} {isVar : Bool} {f : File} (h : FileWasRead enc isVar f) (hm : Spec.Measured f)
    (hr : Spec.RegularFile f) : ∃ fs, f.header = .header enc fs ∧ Spec.GoodHeader enc isVar fs := by
  obtain ⟨line, fs, n, h1, h2, h3, h4, h5⟩ := h.header
  have hl := header_line h1 h3 h5
  have hreg : Spec.RegularRecord (.header enc fs) := h4 ▸ hr _ (by simp [Spec.allRecords])
  have hmes : ((Record.header enc fs).string.length : Int) = Spec.announced (.header enc fs) :=
    h4 ▸ hm _ (by simp [Spec.allRecords])
  refine ⟨fs, h4, hl.typed, (layout_header enc).fits_of_accepted hl.typed hl.accepted (by cases enc <;> exact hreg),
    header_ident_of h2 h3 h5, hl.packed, by rw [wordMax_eq]; exact hl.bdw, ?_⟩
  rw [show Spec.announced (.header enc fs) = Spec.sizeWord isVar fs from announced_of hl] at hmes
  rw [← hmes, Record.string, padTo_length,
    header_length hl.typed ((layout_header enc).widthAll_of_accepted hl.typed hl.accepted)]
  omega

theorem lineBases_again {enc : Enc} {isVar : Bool} {t : Bytes} (more : List Bytes)
    (ht : ¬ Spec.ReadsAsData enc isVar t) : ∀ (bs acc : List Record),
    (∀ r ∈ bs, ∃ n, (newBase enc).parse r.string isVar = (r, .ok n)) →
    lineBases enc isVar (bs.map Record.string ++ t :: more) acc = .ok (acc ++ bs, some t) := by
  intro bs
  induction bs with
  | nil =>
    intro acc _
    simp only [List.map_nil, List.nil_append, List.append_nil, lineBases]
    have hnp := (C13_record (newBase enc) (by cases enc <;> exact zeroFields_typed _) t isVar).1
    generalize hq : (newBase enc).parse t isVar = q at hnp
    obtain ⟨b, x⟩ := q
    cases x with
    | ok n => exact absurd ⟨b, n, hq⟩ ht
    | error e => cases e <;> first | rfl | exact absurd rfl hnp
  | cons b bs ih =>
    intro acc hbs
    obtain ⟨n, hn⟩ := hbs b List.mem_cons_self
    simp only [List.map_cons, List.cons_append, lineBases]
    rw [hn]
    simp only
    rw [ih _ fun r hr => hbs r (List.mem_cons_of_mem _ hr)]
    simp

/-- What is read of the records' texts. -/
theorem FileWasRead.again {enc : Enc} {isVar : Bool} {f : File} (h : FileWasRead enc isVar f) (hm : Spec.Measured f) :
    readLines (Spec.recordTexts f) = .ok f ↔
      Spec.RegularFile f ∧ ¬ Spec.ReadsAsData enc isVar f.trailer.string := by
  have hbpos : ∀ r ∈ Spec.allRecords f, isVar = true ∨ r.enc = .packed → Spec.HasBdw r → 0 < Spec.bdw (Spec.valuesOf r) := by
    intro r hr hv hb
    simp only [Spec.allRecords, List.mem_cons, List.mem_append, List.not_mem_nil, or_false] at hr
    have key : ∀ {fmt decl line fs}, LineRead enc fmt decl isVar line fs → (isVar = true ∨ enc = .packed) → 0 < Spec.bdw fs := by
      intro fmt decl line fs hl hv
      have hb := hl.bdw
      have : isVar = true := by rcases hv with h | h; · exact h
                                · exact hl.packed h
      rw [if_pos this] at hb
      exact hb.1
    rcases hr with rfl | hr | rfl
    · obtain ⟨line, fs, n, h1, h2, h3, h4, h5⟩ := h.header
      rw [h4] at hv ⊢
      exact key (header_line h1 h3 h5) hv
    · obtain ⟨line, fs, g, n, h1, rfl, h3⟩ := h.bases r hr
      exact key (base_line h1 h3).1 hv
    · obtain ⟨line, fs, n, h1, h2, h3⟩ := h.trailer
      rw [h2] at hb
      exact absurd hb id
  have htr : Spec.recordTexts f = f.header.string :: (f.bases.map Record.string ++ [f.trailer.string]) := rfl
  constructor
  · intro hread
    rw [htr, readLines] at hread
    split at hread
    · cases hread
    · next f1 isVar' h1 =>
      obtain ⟨enc', fs, n, rfl, h2, h3, h4⟩ := readHeader_inv' h1
      split at hread
      · cases hread
      · next bs line h5 =>
        unfold readTrailer at hread
        split at hread
        · cases hread
        · next t m ht =>
          simp only [newFile] at hread ht h5
          obtain ⟨us, rest, new, h6, h7, h8⟩ := lineBases_split h5
          rw [List.nil_append] at h7
          obtain rfl := h7.symm
          have hf := Except.ok.inj hread
          have e1 : enc' = enc := by rw [← h.format, ← hf]
          subst e1
          have e2 : f.header = .header enc' fs := by rw [← hf]
          have e3 : f.bases = new := by rw [← hf]
          have e4 : f.trailer = t := by rw [← hf]
          rw [e3] at h6
          have hlen : us.length = new.length := h8.length_eq
          have hus : us = new.map Record.string ∧ line = f.trailer.string ∧ rest = [] := by
            have := List.append_inj h6 (by rw [List.length_map]; exact hlen.symm)
            refine ⟨this.1.symm, ?_⟩
            have := this.2
            simp only [List.cons.injEq] at this
            exact ⟨this.1.symm, this.2.symm⟩
          obtain ⟨rfl, rfl, rfl⟩ := hus
          have e5 : isVar' = isVar := by
            obtain ⟨line0, fs0, n0, g1, g2, g3, g4, g5⟩ := h.header
            have hb := (header_line g1 g3 g5).bdw
            rw [e2] at g4
            cases g4
            have ht0 := h.texts hm _ (show f.header.string ∈ Spec.recordTexts f by simp [Spec.recordTexts])
            have hb' := (header_line ht0 h3 h4).bdw
            cases isVar <;> cases isVar' <;> simp_all
          subst e5
          refine ⟨?_, ?_⟩
          · intro r hr
            have hpos := hbpos r hr
            simp only [Spec.allRecords, List.mem_cons, List.mem_append, List.not_mem_nil, or_false] at hr
            rcases hr with rfl | hr | rfl
            · obtain ⟨line0, fs0, n0, g1, g2, g3, g4, g5⟩ := h.header
              rw [e2] at g4 hpos ⊢
              cases g4
              refine (C21_iff (newHeader enc') (.header enc') line0 isVar' (.header enc' fs) n0 ?_ hpos).1
                ⟨.header enc' fs, n, ?_⟩
              · exact newHeader_parse_ok g5
              · rw [e2] at h4
                exact newHeader_parse_ok h4
            · obtain ⟨line0, fs0, g, n0, g1, g2, g3⟩ := h.bases r hr
              rw [e3] at hr
              rw [List.forall₂_map_left_iff, List.forall₂_same] at h8
              obtain ⟨k, hk⟩ := h8 r hr
              refine (C21_iff (newBase enc') (.base enc') line0 isVar' r n0 (g2 ▸ g3) hpos).1 ⟨r, k, hk⟩
            · obtain ⟨line0, fs0, n0, g1, g2, g3⟩ := h.trailer
              rw [g2] at hpos ⊢
              refine (C21_iff (newTrailer enc') (.trailer enc') line0 isVar' (.trailer enc' fs0) n0 ?_ hpos).1
                ⟨t, m, ?_⟩
              · exact newTrailer_parse_ok g3
              · rw [g2] at ht
                exact ht
          · rintro ⟨r, k, hk⟩
            -- the loop stopped at the trailer's text
            have : ∀ (us : List Bytes) (acc bs : List Record) (line : Bytes), List.Forall₂ (fun u b => ∃ n, (newBase enc').parse u isVar' = (b, .ok n)) us bs →
                lineBases enc' isVar' (us ++ [f.trailer.string]) acc ≠ .ok (acc ++ bs, some line) := by
              intro us
              induction us with
              | nil =>
                intro acc bs line _ hh
                simp only [List.nil_append, lineBases] at hh
                rw [hk] at hh
                simp at hh
              | cons u us ih =>
                intro acc bs line hfa hh
                cases hfa with
                | @cons _ b _ bs' hb hfa =>
                  obtain ⟨n, hn⟩ := hb
                  simp only [List.cons_append, lineBases] at hh
                  rw [hn] at hh
                  simp only at hh
                  refine ih (acc ++ [b]) bs' line hfa ?_
                  rw [hh]
                  simp
            rw [e3] at h5
            exact this _ [] new _ h8 (by rw [List.nil_append]; exact h5)
      · cases hread
  · rintro ⟨hr, hd⟩
    obtain ⟨hfs, e1, hgood⟩ := h.goodHeader hm hr
    obtain ⟨line, tfs, n, g1, g2, g3⟩ := h.trailer
    have hread : ∀ r ∈ f.bases, ∃ n, (newBase enc).parse r.string isVar = (r, .ok n) := by
      intro r hrm
      obtain ⟨line0, fs0, g, n0, k1, k2, k3⟩ := h.bases r hrm
      exact ⟨n0, C20_record (newBase enc) (.base enc) line0 isVar r n0 (k2 ▸ k3) (hr r (by simp [Spec.allRecords, hrm]))
        (hbpos r (by simp [Spec.allRecords, hrm]))⟩
    have htrail : (newTrailer enc).parse f.trailer.string isVar = (f.trailer, .ok n) := by
      refine C20_record (newTrailer enc) (.trailer enc) line isVar f.trailer n ?_ (hr _ (by simp [Spec.allRecords]))
        (hbpos _ (by simp [Spec.allRecords]))
      rw [g2]
      exact newTrailer_parse_ok g3
    rw [htr, readLines]
    rw [e1, readHeader_text hgood]
    simp only [newFile]
    rw [lineBases_again [] hd f.bases [] hread]
    simp only [List.nil_append, readTrailer]
    rw [htrail]
    simp only
    obtain ⟨format, header, bases, trailer⟩ := f
    have := h.format
    simp only at this e1
    rw [this, e1]

theorem pieces_of_nil {raw : Bytes} {ps : List Bytes} (h : Spec.Pieces raw ps) (hr : raw = []) : ps = [] := by
  cases h with
  | nil _ => rfl
  | @cons a b ps ha hb =>
    obtain ⟨rfl, rfl⟩ := List.append_eq_nil_iff.1 hr
    have := (pieces_mem (.cons ha hb) [] List.mem_cons_self).1
    simp [Spec.withoutBreaks] at this

/-- Reading the text of a measured file that was read. -/
theorem FileWasRead.readFile {enc : Enc} {isVar : Bool} {f : File} (h : FileWasRead enc isVar f) (hm : Spec.Measured f)
    (nl : Bool) {p : Plan} (hp : p.Progress) : readFile p (f.string nl) = readLines (Spec.recordTexts f) := by
  obtain ⟨es, he⟩ := pieces_exist []
  have hts := h.texts hm
  obtain ⟨ps, h1, h2⟩ := pieces_join nl f.header.string (f.bases.map Record.string ++ [f.trailer.string]) hts he
  rw [File.string_eq]
  rw [show Spec.recordTexts f = f.header.string :: (f.bases.map Record.string ++ [f.trailer.string]) from rfl]
  rw [List.append_nil] at h1
  rw [readFile_lines hp (ps := ps) h1, h2]
  have : es = [] := pieces_of_nil he rfl
  subst this
  rw [show Spec.recordsOf [] = [] from rfl, List.append_nil]

theorem segs_read_length {g : Segs} (hg : SegsAll SegRead g) : g.string.length = Spec.segsLength g := by
  have hp : SegsPlaced g := .mk (fun s hs => (hg.j1 s hs).kind) (fun s hs => (hg.j2 s hs).kind)
    (fun s hs => (hg.k1 s hs).kind) (fun s hs => (hg.k2 s hs).kind) (fun s hs => (hg.k3 s hs).kind)
    (fun s hs => (hg.k4 s hs).kind) (fun s hs => (hg.l1 s hs).kind) (fun s hs => (hg.n1 s hs).kind)
  rw [← segsLength_eq hp, Segs.string, flatten_length_sum]
  intro s hs
  have : SegRead s.kind s := hg.mem_list (fun _ _ hs => hs.kind) s hs
  exact seg_string_length rfl ((layout_segment s.kind).widthAll_of_accepted this.typed this.accepted)

/-- Fixed-blocked files that were read are measured. -/
theorem FileWasRead.measured {f : File} {enc : Enc} (h : FileWasRead enc false f) : Spec.Measured f := by
  have hc : enc = .character := by
    obtain ⟨line, fs, n, h1, h2, h3, h4, h5⟩ := h.header
    cases enc
    · rfl
    · exact absurd ((header_line h1 h3 h5).packed rfl) (by simp)
  subst hc
  intro r hr
  simp only [Spec.allRecords, List.mem_cons, List.mem_append, List.not_mem_nil, or_false] at hr
  rcases hr with rfl | hr | rfl
  · obtain ⟨line, fs, n, h1, h2, h3, h4, h5⟩ := h.header
    have hl := header_line h1 h3 h5
    have hb := hl.bdw
    simp only [Bool.false_eq_true, if_false] at hb
    have e : Spec.announced (.header .character fs) = Spec.rdw fs := if_pos hb
    have hlow := hl.low
    have hhigh := hl.high
    simp only [Spec.sizeWord, Bool.false_eq_true, if_false, Enc.recordLength, wordMax] at hlow hhigh
    rw [h4, e, Record.string, padTo_length,
      header_length hl.typed ((layout_header .character).widthAll_of_accepted hl.typed hl.accepted),
      Spec.fixedLength, if_pos hb, Spec.recordLength, headerBlockSize, if_pos (show fs.int .BlockDescriptorWord = 0 from hb)]
    show ((max _ (clampedBlockSize (Spec.rdw fs)) : Nat) : Int) = _
    rw [← padSize_eq]
    unfold Spec.padSize
    rw [if_pos (by omega)]
    omega
  · obtain ⟨line, fs, g, n, h1, rfl, h3⟩ := h.bases r hr
    obtain ⟨hl, hg, hc⟩ := base_line h1 h3
    have hc := hc rfl rfl
    have hb := hl.bdw
    simp only [Bool.false_eq_true, if_false] at hb
    have e : Spec.announced (.base .character fs g) = Spec.rdw fs := if_pos hb
    have hlow := hl.low
    have hhigh := hl.high
    simp only [Spec.sizeWord, Bool.false_eq_true, if_false, Enc.recordLength, wordMax] at hlow hhigh
    have hseg := segs_read_length hg
    rw [e, Record.string, padTo_length, List.length_append,
      base_length hl.typed ((layout_base .character).widthAll_of_accepted hl.typed hl.accepted), hseg,
      Spec.fixedLength, if_pos hb, Spec.recordLength]
    show ((max _ (clampedBlockSize (Spec.rdw fs)) : Nat) : Int) = _
    rw [← padSize_eq]
    unfold Spec.padSize
    rw [if_pos (by omega)]
    omega
  · obtain ⟨line, fs, n, h1, h2, h3⟩ := h.trailer
    rw [h2, trailer_measured h1 h3]
    exact (if_pos (trailer_bdw (trailer_line h1 h3).1)).symm

end Metro2
