import Verif.Spec.Agree
import Verif.Lemmas.Again
import Verif.Lemmas.Order

/-! What a record reads of a text in which other records follow it. -/

namespace Metro2

open Spec

/-! ### Segments -/

theorem segmented_parts {b : Bytes} {l : List (SegKind × Bytes)} (h : Segmented b l) :
    ∃ u, b = bytesOf l ++ u ∧ Shaped l ∧ (NoSegment u ∨ u.length ≤ 2) := by
  induction h with
  | @done b hb => exact ⟨b, by simp [bytesOf], (by intro p hp; cases hp), hb⟩
  | @step k p rest l h1 h2 _ ih =>
    obtain ⟨u, rfl, hs, hu⟩ := ih
    refine ⟨u, by simp [bytesOf], ?_, hu⟩
    intro q hq
    rcases List.mem_cons.1 hq with rfl | hq
    · exact ⟨h1, h2⟩
    · exact hs q hq

theorem shaped_sum {l : List (SegKind × Bytes)} (h : Shaped l) : (l.map fun p => p.1.length).sum = (bytesOf l).length := by
  induction l with
  | nil => rfl
  | cons p l ih =>
    have h2 := (h p List.mem_cons_self).2
    rw [segmentLength_eq] at h2
    have hb : (bytesOf (p :: l)).length = p.2.length + (bytesOf l).length := by simp [bytesOf]
    rw [List.map_cons, List.sum_cons, ih fun q hq => h q (List.mem_cons_of_mem _ hq), hb]
    omega

theorem noSegment_append {u v : Bytes} (h : NoSegment (u ++ v)) : NoSegment u :=
  fun k hk => h k (hk.trans (List.prefix_append _ _))

theorem noSegment_long {u : Bytes} (v : Bytes) (hu : 2 ≤ u.length) (h : NoSegment u) : NoSegment (u ++ v) := by
  intro k hk
  have hl : (segmentIdent k).length = 2 := by cases k <;> rfl
  exact h k (List.prefix_of_prefix_length_le hk (List.prefix_append _ _) (by omega))

/-- The segments that are read of a record together with what follows it: those of the record, unless it runs over. -/
theorem readApplicable_append {isVar : Bool} {a R : Bytes} (hR : 2 < R.length) {g : Segs} {m : Nat} :
    (readApplicableSegments {} (a ++ R) isVar = (g, .ok m) ∧ m ≤ a.length) ↔
      readApplicableSegments {} a isVar = (g, .ok m) ∧ ¬ RunsOver a R := by
  constructor
  · rintro ⟨h, hm⟩
    obtain ⟨l, h1, -, h3⟩ := readSegs_pieces _ _ _ _ _ _ h
    obtain ⟨w, hw, hs, hu⟩ := segmented_parts h1
    have hv : ∀ p ∈ l, ∃ s, (Seg.new p.1).parse p.2 isVar = (s, .ok p.1.length) ∧ s.validate = none := by
      intro p hp
      obtain ⟨s, a, -, b⟩ := h3 p hp
      exact ⟨s, a, b⟩
    unfold readApplicableSegments at h ⊢
    rw [hw, readSegs_of_pieces (.done hu) l _ _ _ (by rw [List.length_append]; have := shaped_length_le hs; omega) hs hv,
      shaped_sum hs] at h
    simp only [Prod.mk.injEq, Except.ok.injEq, Nat.zero_add] at h
    obtain ⟨hg, rfl⟩ := h
    obtain ⟨u, rfl⟩ : bytesOf l <+: a :=
      List.prefix_of_prefix_length_le (by rw [hw]; exact List.prefix_append _ _) (List.prefix_append a R) hm
    rw [List.append_assoc, List.append_cancel_left_eq] at hw
    subst hw
    have hno : NoSegment (u ++ R) := by
      rcases hu with hu | hu
      · exact hu
      · rw [List.length_append] at hu; omega
    refine ⟨?_, ?_⟩
    · rw [readSegs_of_pieces (.done (.inl (noSegment_append hno))) l _ _ _
        (by rw [List.length_append]; have := shaped_length_le hs; omega) hs hv, shaped_sum hs, hg, Nat.zero_add]
    · rintro ⟨l', u', k, hs', e, hu', hk⟩
      have h4 := shaped_segmented (.done (.inr hu')) hs'
      rw [← e] at h4
      have := segmented_unique h4 (shaped_segmented (.done (.inl (noSegment_append hno))) hs)
      subst this
      rw [List.append_cancel_left_eq] at e
      subst e
      exact hno k hk
  · rintro ⟨h, hno⟩
    obtain ⟨l, h1, -, h3⟩ := readSegs_pieces _ _ _ _ _ _ h
    obtain ⟨u, rfl, hs, hu⟩ := segmented_parts h1
    have hv : ∀ p ∈ l, ∃ s, (Seg.new p.1).parse p.2 isVar = (s, .ok p.1.length) ∧ s.validate = none := by
      intro p hp
      obtain ⟨s, a, -, b⟩ := h3 p hp
      exact ⟨s, a, b⟩
    unfold readApplicableSegments at h ⊢
    rw [readSegs_of_pieces (.done hu) l _ _ _ (by rw [List.length_append]; have := shaped_length_le hs; omega) hs hv,
      shaped_sum hs] at h
    simp only [Prod.mk.injEq, Except.ok.injEq, Nat.zero_add] at h
    obtain ⟨hg, rfl⟩ := h
    have hno' : NoSegment (u ++ R) := by
      by_cases h2 : 2 < u.length
      · exact noSegment_long R (by omega) (hu.resolve_right (by omega))
      · intro k hk
        exact hno ⟨l, u, k, hs, rfl, by omega, hk⟩
    refine ⟨?_, by rw [List.length_append]; omega⟩
    rw [List.append_assoc, readSegs_of_pieces (.done (.inl hno')) l _ _ _
      (by rw [List.length_append]; have := shaped_length_le hs; omega) hs hv, shaped_sum hs, hg, Nat.zero_add]

/-! ### The sizes that records report -/

/-- The length word of a record that the stream is divided by is the one that the records of the file are read with. -/
def PlainWord (enc : Enc) (line : Bytes) : Prop := enc = .packed → ∀ v, ¬ SignedDecimal (line.take 4) v

theorem word_size {enc : Enc} {line : Bytes} (hl : RecordText line) (hw : PlainWord enc line) {e : Field}
    (he : e.typ = if enc = .character then .numeric else .descriptor) {i : Int}
    (h : parseValue e (line.take 4) = .ok (.int i)) : i = line.length := by
  cases enc with
  | character => exact (word_ge hl he h).2.2 rfl
  | packed =>
    simp only [reduceCtorEq, if_false] at he
    simp only [parseValue, he] at h
    split at h
    · cases h
    · cases h
      rcases hl.announces with ⟨h2, -⟩ | ⟨-, h2, -⟩
      · exact absurd h2 (hw rfl _)
      · rw [spec_bigEndian_iff] at h2
        rw [h2]

/-- What is known of a successful read of a data record: where its segments are read, and that they lie within it. -/
theorem parseBase_room {enc : Enc} {rec : Bytes} {isVar : Bool} {fs : Fields} {g : Segs} {n : Int}
    (h : (newBase enc).parse rec isVar = (.base enc fs g, .ok n)) (hb : 0 ≤ Spec.bdw fs) :
    segmentsStart enc fs ≤ rec.length ∧ ∃ m, readApplicableSegments {} (rec.drop (segmentsStart enc fs)) isVar = (g, .ok m) ∧
      (m : Int) + segmentsStart enc fs ≤ n := by
  cases enc with
  | character =>
    have h := newBase_parse_character.1 h
    rw [parseBaseCharacter_eq] at h
    split at h
    · simp at h
    · generalize parseLoop baseSegmentCharacterFormat (if isVar then .accept else .skip) true rec 0
        (zeroFields baseSegmentStruct) = q at h
      obtain ⟨fs', o⟩ := q
      cases o with
      | some e => simp at h
      | none =>
        simp only at h
        have hst : (if fs'.int .BlockDescriptorWord > 0 then 426 + 4 else 426) =
            Spec.segmentsStart .character fs' := rfl
        rw [hst] at h
        by_cases hl : rec.length < Spec.segmentsStart .character fs'
        · rw [if_pos hl] at h; simp at h
        rw [if_neg hl] at h
        generalize hra : readApplicableSegments {} (rec.drop (Spec.segmentsStart .character fs')) isVar = q at h
        obtain ⟨g', x⟩ := q
        cases x with
        | error e => simp at h
        | ok m =>
          simp only at h
          split at h
          · simp at h
          · next hc1 =>
            split at h
            · simp at h
            · next hc2 =>
              simp only [Prod.mk.injEq, Except.ok.injEq] at h
              obtain ⟨⟨rfl, rfl⟩, rfl⟩ := h
              refine ⟨by omega, m, hra, ?_⟩
              have h7 : 0 ≤ fs'.int .BlockDescriptorWord := hb
              split
              · omega
              · omega
  | packed =>
    have h := newBase_parse_packed.1 h
    rw [parseBasePacked_eq] at h
    split at h
    · simp at h
    · split at h
      · simp at h
      · simp only at h
        split at h
        · simp at h
        · next hl =>
          split at h
          · simp at h
          · next hra =>
            split at h
            · simp at h
            · next hc =>
              simp only [Prod.mk.injEq, Except.ok.injEq] at h
              obtain ⟨⟨rfl, rfl⟩, rfl⟩ := h
              refine ⟨?_, _, hra, ?_⟩
              · simp only [segmentsStart]; omega
              · simp only [segmentsStart]; omega

/-- A data record that is read from a text beginning with `line` reports the length of `line`. -/
theorem base_size {enc : Enc} {isVar : Bool} {rec line : Bytes} {fs : Fields} {g : Segs} {n : Int} (hl : RecordText line)
    (hw : PlainWord enc line) (h4 : rec.take 4 = line.take 4) (h : (newBase enc).parse rec isVar = (.base enc fs g, .ok n)) :
    n = line.length ∧ segmentsStart enc fs = tailStart enc isVar ∧ 0 ≤ Spec.bdw fs ∧
      (enc = .character → isVar = true → 0 < Spec.bdw fs) := by
  have hlen : (0 : Int) < line.length := by have := hl.four; omega
  cases enc with
  | character =>
    have h := newBase_parse_character.1 h
    obtain ⟨h1, -, -, k4, k5, k6⟩ := parseBaseCharacter_inv (zeroFields_typed _) h
    cases isVar with
    | true =>
      have hb := baseCharacter_bdw_read (zeroFields_typed _) h
      rw [h4] at hb
      have e := word_size hl hw (bdwField_typ .character) hb
      have hp : 0 < Spec.bdw fs := by omega
      refine ⟨by rw [(k5 hp).1]; exact e, ?_, by omega, fun _ _ => hp⟩
      simp [segmentsStart, tailStart, hp]
    | false =>
      simp only [Bool.false_eq_true, if_false] at k4
      have hb : Spec.bdw fs = 0 := by rw [Spec.bdw, k4]; exact newBase_bdw
      obtain ⟨-, hs⟩ := baseCharacter_slots (zeroFields_typed _) h
      have hr := rdw_of_slots (blocked_base .character) h1 hs
      rw [h4] at hr
      have e := word_size hl hw (rdwField_typ .character) hr
      refine ⟨by rw [(k6 hb).1]; exact e, ?_, by omega, fun _ h => by cases h⟩
      simp [segmentsStart, tailStart, hb]
  | packed =>
    have h := newBase_parse_packed.1 h
    obtain ⟨h1, -, -, rfl, -, k6, -⟩ := parseBasePacked_inv (zeroFields_typed _) h
    have hb := basePacked_bdw_read (zeroFields_typed _) h
    rw [h4] at hb
    have e := word_size hl hw (bdwField_typ .packed) hb
    exact ⟨by rw [k6]; exact e, rfl, by omega, fun h => by cases h⟩

theorem take_four {line : Bytes} (hl : RecordText line) (R : Bytes) : (line ++ R).take 4 = line.take 4 :=
  List.take_append_of_le_length hl.four

/-- What a data record reads of a text in which other records follow it. -/
theorem base_append {enc : Enc} {isVar : Bool} {line R : Bytes} {r : Record} (hl : RecordText line)
    (hw : PlainWord enc line) (hR : 2 < R.length) :
    (∃ n, (newBase enc).parse (line ++ R) isVar = (r, .ok n)) ↔
      (∃ n, (newBase enc).parse line isVar = (r, .ok n)) ∧ ¬ RunsOver (line.drop (tailStart enc isVar)) R := by
  constructor
  · rintro ⟨n, h⟩
    obtain ⟨fs, g, rfl⟩ := newBase_parse_shape h
    obtain ⟨rfl, hst, hb, hb'⟩ := base_size hl hw (take_four hl R) h
    obtain ⟨-, m, hm, hle⟩ := parseBase_room h hb
    rw [hst] at hm hle
    have hlen : tailStart enc isVar ≤ line.length := by omega
    rw [List.drop_append_of_le_length hlen] at hm
    obtain ⟨hm', hno⟩ := (readApplicable_append hR).1 ⟨hm, by rw [List.length_drop]; omega⟩
    refine ⟨⟨line.length, ?_⟩, hno⟩
    have hsp := List.take_append_drop (tailStart enc isVar) line
    have hhead : (line.take (tailStart enc isVar)).length = segmentsStart enc fs := by rw [List.length_take, hst]; omega
    have h2 : (newBase enc).parse (line.take (tailStart enc isVar) ++ (line.drop (tailStart enc isVar) ++ R)) isVar =
        (.base enc fs g, .ok line.length) := by rw [← List.append_assoc, hsp]; exact h
    have := base_parse_swap h2 hhead hb' hm hm' (.inl (Nat.le_refl _))
    rwa [hsp] at this
  · rintro ⟨⟨n, h⟩, hno⟩
    obtain ⟨fs, g, rfl⟩ := newBase_parse_shape h
    obtain ⟨rfl, hst, hb, hb'⟩ := base_size hl hw rfl h
    obtain ⟨hlen, m, hm, hle⟩ := parseBase_room h hb
    rw [hst] at hm hle hlen
    obtain ⟨hm', -⟩ := (readApplicable_append hR).2 ⟨hm, hno⟩
    have hsp := List.take_append_drop (tailStart enc isVar) line
    have hhead : (line.take (tailStart enc isVar)).length = segmentsStart enc fs := by rw [List.length_take, hst]; omega
    refine ⟨line.length, ?_⟩
    have h2 : (newBase enc).parse (line.take (tailStart enc isVar) ++ line.drop (tailStart enc isVar)) isVar =
        (.base enc fs g, .ok line.length) := by rw [hsp]; exact h
    have := base_parse_swap h2 hhead hb' hm hm' (.inl (Nat.le_refl _))
    rwa [← List.append_assoc, hsp] at this

/-! ### The header -/

/-- The field loop looks at the first `n` bytes only, if the rows of its fields end there. -/
theorem parseLoop_near {fmt : Format} {pol : BdwPolicy} {bounds : Bool} {a b : Bytes} {n : Nat} (hab : a.take n = b.take n)
    (ha : n ≤ a.length) (hb : n ≤ b.length) (fs : Fields) :
    ∀ off, (∀ p ∈ fs, ∀ e, fmt.lookup p.1 = some e → e.start + e.len + (off + reach pol fs) ≤ n) →
    parseLoop fmt pol bounds a off fs = parseLoop fmt pol bounds b off fs := by
  induction fs with
  | nil => intro off _; rfl
  | cons p fs ih =>
    intro off hr
    obtain ⟨f, v⟩ := p
    have hle : reach pol fs ≤ reach pol ((f, v) :: fs) := by
      unfold reach
      split
      · rw [List.filter_cons]
        split
        · simp only [List.length_cons]
          omega
        · exact Nat.le_refl _
      · exact Nat.le_refl _
    have hacc : f = .BlockDescriptorWord → pol = .accept → reach pol ((f, v) :: fs) = 4 + reach pol fs := by
      rintro rfl rfl
      simp only [reach, if_true, List.filter_cons, decide_true, List.length_cons]
      omega
    have hnext := ih off fun q hq e he => by have := hr q (List.mem_cons_of_mem _ hq) e he; omega
    rw [parseLoop_cons, parseLoop_cons]
    cases he : fmt.lookup f with
    | none => rfl
    | some e =>
      have hf := hr (f, v) List.mem_cons_self e he
      simp only
      rw [if_neg (by omega), if_neg (by omega), slice_take hab (by omega)]
      cases isValidType e f ((b.drop (e.start + off)).take e.len) with
      | some err => rfl
      | none =>
        simp only
        cases parseValue e ((b.drop (e.start + off)).take e.len) with
        | error err => rfl
        | ok new =>
          simp only
          split
          · rw [hnext]
          · rfl
          · cases setVal v new with
            | none => rfl
            | some w =>
              have h4 := hacc rfl rfl
              have := ih (off + 4) fun q hq e he => by have := hr q (List.mem_cons_of_mem _ hq) e he; omega
              simp only [this]
          · cases setVal v new with
            | none => rfl
            | some w => simp only [hnext]

theorem header_rows_near (enc : Enc) : ∀ p ∈ (newHeader enc).fields, ∀ e, enc.headerFormat.lookup p.1 = some e →
    e.start + e.len + 4 ≤ enc.recordLength := by
  have key : ∀ enc : Enc, ((newHeader enc).fields.all fun p => match enc.headerFormat.lookup p.1 with
      | some e => decide (e.start + e.len + 4 ≤ enc.recordLength) | none => true) = true := by
    intro enc; cases enc <;> decide +kernel
  intro p hp e he
  have := List.all_eq_true.1 (key enc) p hp
  rw [he] at this
  simpa using this

theorem reach_header (enc : Enc) (pol : BdwPolicy) : reach pol (newHeader enc).fields ≤ 4 := by
  have : ((newHeader enc).fields.filter fun p => decide (p.1 = .BlockDescriptorWord)).length = 1 := by cases enc <;> decide +kernel
  unfold reach
  rw [this]
  split <;> omega

theorem isVariableLength_append {line : Bytes} (hl : 16 ≤ line.length) (R : Bytes) :
    isVariableLength (line ++ R) = isVariableLength line := by
  unfold isVariableLength
  rw [List.drop_append_of_le_length (by omega), List.take_append_of_le_length (by rw [List.length_drop]; omega),
    List.length_append, decide_eq_true (by omega : 15 < line.length), decide_eq_true (by omega : 15 < line.length + R.length)]

/-- A header is read from its own bytes, whatever follows. -/
theorem header_append {enc : Enc} {line : Bytes} (hl : enc.recordLength ≤ line.length) (R : Bytes) (isVar : Bool) :
    parseHeader enc (newHeader enc).fields (line ++ R) isVar = parseHeader enc (newHeader enc).fields line isVar := by
  have hpol : headerPolicy enc (line ++ R) isVar = headerPolicy enc line isVar := by
    cases enc with
    | character => rfl
    | packed =>
      simp only [headerPolicy]
      rw [isVariableLength_append (by simp only [Enc.recordLength] at hl; omega)]
  have hloop := parseLoop_near (fmt := enc.headerFormat) (pol := headerPolicy enc line isVar) (bounds := true) (a := line ++ R) (b := line)
    (n := enc.recordLength) (List.take_append_of_le_length hl) (by rw [List.length_append]; omega) hl (newHeader enc).fields 0
    fun p hp e he => by
      have := header_rows_near enc p hp e he
      have := reach_header enc (headerPolicy enc line isVar)
      omega
  unfold parseHeader
  rw [hpol, hloop, if_neg (by rw [List.length_append]; omega), if_neg (by omega)]

theorem header_size {enc : Enc} {isVar : Bool} {rec line : Bytes} {fs : Fields} {n : Int} (hl : RecordText line) (hw : PlainWord enc line)
    (h4 : rec.take 4 = line.take 4) (hv : isVar = isVariableLength rec)
    (h : parseHeader enc (newHeader enc).fields rec isVar = (fs, .ok n)) : n = line.length ∧ enc.recordLength ≤ line.length := by
  have hlen : (0 : Int) < line.length := by have := hl.four; omega
  obtain ⟨h1, -, h3, -, hn⟩ := parseHeader_inv (newHeader_typed enc) h
  obtain ⟨-, hs⟩ := header_slots (newHeader_typed enc) h
  cases hv' : isVar with
  | true =>
    have hb := (header_bdw_read (newHeader_typed enc) (.inl hv') h).1
    rw [h4] at hb
    have e := word_size hl hw (bdwField_typ enc) hb
    have e2 := (word_ge hl (bdwField_typ enc) hb).1
    have hp : fs.int .BlockDescriptorWord > 0 := by show Spec.bdw fs > 0; omega
    rw [if_pos hp] at hn
    exact ⟨hn.trans e, by omega⟩
  | false =>
    cases enc with
    | character =>
      subst hv'
      simp only [headerPolicy, Bool.false_eq_true, if_false, reduceCtorEq] at h3
      have hb : fs.int .BlockDescriptorWord = 0 := by rw [h3.2.2]; exact newHeader_bdw _
      have hr := rdw_of_slots (blocked_header .character) h1 hs
      rw [h4] at hr
      have e := word_size hl hw (rdwField_typ .character) hr
      have e2 := (word_ge hl (rdwField_typ .character) hr).1
      rw [if_neg (by omega)] at hn
      exact ⟨hn.trans e, by omega⟩
    | packed =>
      have := (header_bdw_read (newHeader_typed .packed) (.inr rfl) h).2 rfl
      rw [← hv, hv'] at this
      cases this

/-! ### The trailer -/

theorem trailer_size {enc : Enc} {isVar : Bool} {rec line : Bytes} {fs : Fields} {n : Int} (hl : RecordText line) (hw : PlainWord enc line)
    (h4 : rec.take 4 = line.take 4) (h : parseTrailer enc (newTrailer enc).fields rec isVar = (fs, .ok n)) : n = line.length := by
  obtain ⟨h1, -, rfl⟩ := parseTrailer_inv (newTrailer_typed enc) h
  obtain ⟨-, hs⟩ := trailer_slots (newTrailer_typed enc) h
  obtain ⟨-, e, g1, -, -, g4⟩ := hs _ (mem_noBdw (by simp) (trailer_rdw_mem h1))
  simp only [lookup_of_mem (layout_trailer enc).names (trailer_rows enc).1, Option.some.injEq] at g1
  subst g1
  have e1 : (rdwField enc).start = 0 := by cases enc <;> rfl
  have e2 : (rdwField enc).len = 4 := by cases enc <;> rfl
  rw [e1, e2] at g4
  have g4 : parseValue (rdwField enc) (rec.take 4) = .ok (.int (fs.int .RecordDescriptorWord)) := g4
  rw [h4] at g4
  exact word_size hl hw (rdwField_typ enc) g4

/-! ### One record behind the other -/

theorem runsOver_append {tail next : Bytes} (hn : 2 ≤ next.length) (X : Bytes) : RunsOver tail (next ++ X) ↔ RunsOver tail next := by
  have hl : ∀ k, (segmentIdent k).length = 2 := by intro k; cases k <;> rfl
  constructor
  · rintro ⟨l, u, k, h1, h2, h3, h4⟩
    refine ⟨l, u, k, h1, h2, h3, ?_⟩
    rw [← List.append_assoc] at h4
    exact List.prefix_of_prefix_length_le h4 (List.prefix_append _ _) (by rw [hl, List.length_append]; omega)
  · rintro ⟨l, u, k, h1, h2, h3, h4⟩
    refine ⟨l, u, k, h1, h2, h3, ?_⟩
    rw [← List.append_assoc]
    exact h4.trans (List.prefix_append _ _)

/-- A record that the stream is divided into, with the length word that the file's own records are read with. -/
def Line (enc : Enc) (line : Bytes) : Prop := RecordText line ∧ PlainWord enc line

theorem Line.four {enc : Enc} {line : Bytes} (h : Line enc line) : 4 ≤ line.length := h.1.four

theorem flatten_long {enc : Enc} {next : Bytes} {ls : List Bytes} (h : Line enc next) : 2 < (next :: ls).flatten.length := by
  have := h.four
  rw [List.flatten_cons, List.length_append]
  omega

/-- The data records that `File.Parse` finds in a text are the lines of the text, if no record runs over. -/
theorem dataFrom_lines {enc : Enc} {isVar : Bool} {b : Int} : ∀ (rs : List Record) (ls : List Bytes) (front : Bytes),
    (∀ l ∈ ls, Line enc l) → DataFrom enc isVar (front ++ ls.flatten) front.length rs b → b < (front ++ ls.flatten).length →
    ∃ datas last rest, ls = datas ++ last :: rest ∧ List.Forall₂ (fun line r => ∃ k, (newBase enc).parse line isVar = (r, .ok k)) datas rs ∧
      List.IsChain (fun line next => ¬ RunsOver (line.drop (tailStart enc isVar)) next) (datas ++ [last]) ∧
      b = (front ++ datas.flatten).length := by
  intro rs
  induction rs with
  | nil =>
    intro ls front hl h hb
    cases h
    cases ls with
    | nil => simp at hb
    | cons last rest => exact ⟨[], last, rest, rfl, .nil, by simp, by simp⟩
  | cons r rs ih =>
    intro ls front hl h hb
    cases h with
    | @cons _ n _ _ _ h0 h1 hr h =>
      cases ls with
      | nil => simp at h1
      | cons line ls =>
        have hline := hl line List.mem_cons_self
        rw [Int.toNat_natCast, List.drop_left, List.flatten_cons] at hr
        obtain ⟨fs, g, rfl⟩ := newBase_parse_shape hr
        obtain ⟨rfl, -⟩ := base_size hline.1 hline.2 (take_four hline.1 _) hr
        have e : front ++ (line :: ls).flatten = (front ++ line) ++ ls.flatten := by simp
        rw [e] at h hb
        rw [show ((front.length : Int) + line.length) = ((front ++ line).length : Int) by simp] at h
        obtain ⟨datas, last, rest, rfl, h2, h3, h4⟩ := ih ls (front ++ line) (fun l hm => hl l (List.mem_cons_of_mem _ hm)) h hb
        have hlong : 2 < (datas ++ last :: rest).flatten.length := by
          have := hl last (by simp)
          have := this.four
          simp only [List.flatten_append, List.flatten_cons, List.length_append]
          omega
        obtain ⟨hk, hno⟩ := (base_append hline.1 hline.2 hlong).1 ⟨_, hr⟩
        refine ⟨line :: datas, last, rest, rfl, .cons hk h2, ?_, by rw [h4]; simp⟩
        cases datas with
        | nil =>
          have := hl last (by simp)
          simp only [List.nil_append, List.flatten_cons] at hno
          rw [runsOver_append (by have := this.four; omega)] at hno
          simpa using hno
        | cons d ds =>
          have := hl d (by simp)
          simp only [List.cons_append, List.flatten_cons] at hno
          rw [runsOver_append (by have := this.four; omega)] at hno
          simp only [List.cons_append, List.isChain_cons_cons] at h3 ⊢
          exact ⟨hno, h3⟩

/-- The other direction. -/
theorem dataFrom_of_lines {enc : Enc} {isVar : Bool} {last : Bytes} (hlast : Line enc last) : ∀ (datas : List Bytes) (rs : List Record) (front : Bytes),
    0 < front.length → (∀ l ∈ datas, Line enc l) →
    List.Forall₂ (fun line r => ∃ k, (newBase enc).parse line isVar = (r, .ok k)) datas rs →
    List.IsChain (fun line next => ¬ RunsOver (line.drop (tailStart enc isVar)) next) (datas ++ [last]) →
    DataFrom enc isVar (front ++ (datas.flatten ++ last)) front.length rs (front ++ datas.flatten).length := by
  intro datas
  induction datas with
  | nil =>
    intro rs front _ _ h _
    cases h
    simp only [List.flatten_nil, List.append_nil]
    exact .nil
  | cons line ls ih =>
    intro rs front h0 hl h hc
    cases h with
    | @cons _ r _ rs hk h =>
      have hline := hl line List.mem_cons_self
      have e : front ++ ((line :: ls).flatten ++ last) = (front ++ line) ++ (ls.flatten ++ last) := by simp
      have e2 : front ++ (line :: ls).flatten = (front ++ line) ++ ls.flatten := by simp
      have hlong : 2 < (ls.flatten ++ last).length := by have := hlast.four; rw [List.length_append]; omega
      have hno : ¬ RunsOver (line.drop (tailStart enc isVar)) (ls.flatten ++ last) := by
        cases ls with
        | nil => simpa using hc
        | cons d ds =>
          have := hl d (by simp)
          rw [List.flatten_cons, List.append_assoc, runsOver_append (by have := this.four; omega)]
          simp only [List.cons_append, List.isChain_cons_cons] at hc
          exact hc.1
      have hc' : List.IsChain (fun line next => ¬ RunsOver (line.drop (tailStart enc isVar)) next) (ls ++ [last]) := by
        cases ls with
        | nil => simp
        | cons d ds =>
          simp only [List.cons_append, List.isChain_cons_cons] at hc ⊢
          exact hc.2
      obtain ⟨n, hr⟩ := (base_append hline.1 hline.2 hlong).2 ⟨hk, hno⟩
      obtain ⟨fs, g, rfl⟩ := newBase_parse_shape hr
      obtain ⟨rfl, -⟩ := base_size hline.1 hline.2 (take_four hline.1 _) hr
      have := hline.four
      refine .cons (n := line.length) (by omega) ?_ ?_ ?_
      · simp only [List.length_append, List.flatten_cons]; omega
      · rw [Int.toNat_natCast, List.drop_left, List.flatten_cons, List.append_assoc]; exact hr
      · rw [e, e2, show ((front.length : Int) + line.length) = ((front ++ line).length : Int) by simp]
        exact ih rs (front ++ line) (by rw [List.length_append]; omega) (fun l hm => hl l (List.mem_cons_of_mem _ hm)) h hc'

end Metro2
