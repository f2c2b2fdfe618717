import Verif.Lemmas.Reread

/-! What a successful `Parse` of a record leaves. -/

namespace Metro2

/-- A block descriptor that was read is in range. -/
theorem bdw_read_le {enc : Enc} {data : Bytes} {i : Int} (hl : data.length = 4)
    (h : parseValue (bdwField enc) data = .ok (.int i)) : i ≤ wordMax enc := by
  cases enc with
  | character =>
    simp only [parseValue, bdwField] at h
    split at h
    · next v hv =>
      cases h
      have := signedDecimal_lt (parseInt_ok_iff.1 hv).1
      rw [hl] at this
      simp only [wordMax]; omega
    · cases h
  | packed =>
    simp only [parseValue, bdwField] at h
    split at h
    · cases h
    · cases h
      have h1 := beVal_lt (data.take 2)
      rw [List.length_take, hl] at h1
      have : 256 ^ min 2 4 = 65536 := by decide
      simp only [wordMax]; omega

theorem upper_ne_blank {s : Bytes} (h : toUpper s = b! "HEADER") : trimRight s = s := by
  apply trimRight_eq_self
  unfold NoTrailingBlank
  intro hl
  have h1 := congrArg List.getLast? h
  rw [toUpper, List.getLast?_map, hl] at h1
  revert h1; decide

/-- The fields of a header that was read. -/
theorem parseHeader_inv {enc : Enc} {fs fs' : Fields} {rec : Bytes} {isVar : Bool} {n : Int}
    (ht : fs.Typed headerRecordStruct) (h : parseHeader enc fs rec isVar = (fs', .ok n)) :
    fs'.Typed headerRecordStruct ∧ Accepted enc.headerFormat fs' ∧
    (if headerPolicy enc rec isVar = .accept then fs'.int .BlockDescriptorWord ≤ wordMax enc
      else enc = .character ∧ isVar = false ∧ fs'.int .BlockDescriptorWord = fs.int .BlockDescriptorWord) ∧
    (enc = .packed → ∃ id, (.RecordIdentifier, .str id) ∈ fs' ∧ toUpper id = b! "HEADER") ∧
    n = (if fs'.int .BlockDescriptorWord > 0 then fs'.int .BlockDescriptorWord
        else fs'.int .RecordDescriptorWord) := by
  have hs := (parseHeader_safe (enc := enc) ht rec isVar).1
  rw [h] at hs
  unfold parseHeader at h
  split at h
  · simp at h
  · generalize hr : parseLoop enc.headerFormat (headerPolicy enc rec isVar) true rec 0 fs = r at h
    obtain ⟨fs2, o⟩ := r
    cases o with
    | some err => simp at h
    | none =>
      simp only [Prod.mk.injEq, Except.ok.injEq] at h
      obtain ⟨rfl, rfl⟩ := h
      obtain ⟨h1, h2, i, h3, h4, h5⟩ := parseLoop_inv_bdw (blocked_header enc) ht hr
      refine ⟨hs, h5.accepted_noBdw, ?_, ?_, rfl⟩
      · by_cases ha : headerPolicy enc rec isVar = .accept
        · rw [if_pos ha] at h4 ⊢
          rw [h4]
          exact bdw_read_le (by rw [List.length_take]; omega) h3
        · rw [if_neg ha] at h4 ⊢
          cases enc with
          | character =>
            refine ⟨rfl, ?_, h4⟩
            cases isVar
            · rfl
            · simp [headerPolicy] at ha
          | packed =>
            exfalso
            simp only [headerPolicy] at ha h1
            split at ha <;> simp_all
      · intro he
        subst he
        have hv : isVariableLength rec = true := by
          cases hv : isVariableLength rec
          · simp [headerPolicy, hv] at h1
          · rfl
        simp only [headerPolicy, hv, if_true] at h5
        have hd : F.RecordIdentifier ∈ headerRecordStruct.map Prod.fst := by decide +kernel
        rw [← hs.names] at hd
        obtain ⟨⟨f, v⟩, hq, he⟩ := List.mem_map.1 hd
        simp only at he
        subst he
        have hq' : (F.RecordIdentifier, v) ∈ noBdw fs2 := by
          unfold noBdw; rw [List.mem_filter]; exact ⟨hq, by simp⟩
        obtain ⟨-, e, h6, -, -, h7⟩ := h5 _ hq'
        have hl : Enc.packed.headerFormat.lookup .RecordIdentifier =
            some ⟨4, 6, .alphanumeric, false, false, .required⟩ := by decide +kernel
        rw [hl] at h6
        cases h6
        simp only [parseValue, Except.ok.injEq] at h7
        unfold isVariableLength at hv
        simp only [Bool.and_eq_true, decide_eq_true_eq] at hv
        have hu := hv.2
        rw [show 4 + 4 = 8 from rfl] at h7
        rw [upper_ne_blank hu] at h7
        exact ⟨_, by rw [h7]; exact hq, hu⟩

/-- The fields of a trailer that was read. -/
theorem parseTrailer_inv {enc : Enc} {fs fs' : Fields} {rec : Bytes} {isVar : Bool} {n : Int}
    (ht : fs.Typed trailerRecordStruct) (h : parseTrailer enc fs rec isVar = (fs', .ok n)) :
    fs'.Typed trailerRecordStruct ∧ Accepted enc.trailerFormat fs' ∧ n = fs'.int .RecordDescriptorWord := by
  have hs := (parseTrailer_safe (enc := enc) ht rec isVar).1
  rw [h] at hs
  unfold parseTrailer at h
  split at h
  · simp at h
  · generalize hr : trailerLoop enc fs rec isVar = r at h
    obtain ⟨fs2, o⟩ := r
    cases o with
    | some err => simp at h
    | none =>
      simp only [Prod.mk.injEq, Except.ok.injEq] at h
      obtain ⟨rfl, rfl⟩ := h
      refine ⟨hs, ?_, rfl⟩
      have hb : ∀ p ∈ fs, p.1 ≠ .BlockDescriptorWord := by
        intro p hp
        obtain ⟨d, hd⟩ := mem_decl_of_typed ht hp
        exact trailer_noBdw _ hd
      cases enc <;> exact (parseLoop_inv hb hr).accepted

/-- The contents of a character data record that was read into a record without segments. -/
theorem parseBaseCharacter_inv {fs fs' : Fields} {g : Segs} {rec : Bytes} {isVar : Bool} {n : Int}
    (ht : fs.Typed baseSegmentStruct) (h : parseBaseCharacter fs {} rec isVar = ((fs', g), .ok n)) :
    fs'.Typed baseSegmentStruct ∧ Accepted baseSegmentCharacterFormat fs' ∧ SegsAll SegRead g ∧
    (if isVar then fs'.int .BlockDescriptorWord ≤ 9999
      else fs'.int .BlockDescriptorWord = fs.int .BlockDescriptorWord) ∧
    (fs'.int .BlockDescriptorWord > 0 → n = fs'.int .BlockDescriptorWord ∧ (430 + Spec.segsLength g : Nat) ≤ n) ∧
    (fs'.int .BlockDescriptorWord = 0 → n = fs'.int .RecordDescriptorWord ∧ (426 + Spec.segsLength g : Nat) ≤ n) := by
  have hs := (parseBaseCharacter_safe (g := {}) ht rec isVar).1
  rw [h] at hs
  rw [parseBaseCharacter_eq] at h
  split at h
  · simp at h
  · generalize hr : parseLoop baseSegmentCharacterFormat (if isVar then .accept else .skip) true rec 0 fs = r at h
    obtain ⟨fs2, o⟩ := r
    cases o with
    | some err => simp at h
    | none =>
      obtain ⟨h1, h2, i, h3, h4, h5⟩ := parseLoop_inv_bdw (blocked_base .character) ht hr
      simp only at h
      generalize hoff : (if fs2.int .BlockDescriptorWord > 0 then 426 + 4 else 426) = off at h
      split at h
      · simp at h
      · generalize hq : readApplicableSegments {} (List.drop off rec) isVar = q at h
        obtain ⟨g2, x⟩ := q
        cases x with
        | error err => simp at h
        | ok m =>
          simp only at h
          split at h
          · simp at h
          · next hc1 =>
            split at h
            · simp at h
            · next hc2 =>
              simp only [Prod.mk.injEq, Except.ok.injEq] at h
              obtain ⟨⟨rfl, rfl⟩, rfl⟩ := h
              obtain ⟨s1, s2, -⟩ := readApplicableSegments_inv hq
              refine ⟨hs, h5.accepted_noBdw, s1, ?_, ?_, ?_⟩
              · cases isVar with
                | true =>
                  simp only [if_true] at h4 ⊢
                  rw [h4]
                  exact bdw_read_le (enc := .character) (by rw [List.length_take]; omega) h3
                | false =>
                  simp only [Bool.false_eq_true, if_false, reduceCtorEq] at h4 ⊢
                  exact h4
              · intro hp
                rw [if_pos hp] at hoff ⊢
                refine ⟨rfl, ?_⟩
                subst hoff
                have hc := fun hx => hc1 ⟨hp, hx⟩
                omega
              · intro hp
                rw [if_neg (by omega)] at hoff ⊢
                refine ⟨rfl, ?_⟩
                subst hoff
                have hc := fun hx => hc2 ⟨hp, hx⟩
                omega

/-- The contents of a packed data record that was read into a record without segments. -/
theorem parseBasePacked_inv {fs fs' : Fields} {g : Segs} {rec : Bytes} {isVar : Bool} {n : Int}
    (ht : fs.Typed baseSegmentStruct) (h : parseBasePacked fs {} rec isVar = ((fs', g), .ok n)) :
    fs'.Typed baseSegmentStruct ∧ Accepted baseSegmentPackedFormat fs' ∧ SegsAll SegRead g ∧ isVar = true ∧
    fs'.int .BlockDescriptorWord ≤ 65535 ∧ n = fs'.int .BlockDescriptorWord ∧
    (370 + Spec.segsLength g : Nat) ≤ n := by
  have hs := (parseBasePacked_safe (g := {}) ht rec isVar).1
  rw [h] at hs
  rw [parseBasePacked_eq] at h
  split at h
  · simp at h
  · generalize hr : parseLoop baseSegmentPackedFormat (if isVar then .accept else .fail) true rec 0 fs = r at h
    obtain ⟨fs2, o⟩ := r
    cases o with
    | some err => simp at h
    | none =>
      obtain ⟨h1, h2, i, h3, h4, h5⟩ := parseLoop_inv_bdw (blocked_base .packed) ht hr
      have hv : isVar = true := by cases isVar <;> simp_all
      subst hv
      simp only [if_true] at h4 h5
      simp only at h
      split at h
      · simp at h
      · generalize hq : readApplicableSegments {} (List.drop _ rec) true = q at h
        obtain ⟨g2, x⟩ := q
        cases x with
        | error err => simp at h
        | ok m =>
          simp only at h
          split at h
          · simp at h
          · next hc1 =>
            simp only [Prod.mk.injEq, Except.ok.injEq] at h
            obtain ⟨⟨rfl, rfl⟩, rfl⟩ := h
            obtain ⟨s1, s2, -⟩ := readApplicableSegments_inv hq
            refine ⟨hs, h5.accepted_noBdw, s1, rfl, ?_, rfl, by omega⟩
            rw [h4]
            exact bdw_read_le (enc := .packed) (by rw [List.length_take]; omega) h3

theorem newBase_parse_character {rec : Bytes} {isVar : Bool} {fs : Fields} {g : Segs} {x : Except Err Int} :
    (newBase .character).parse rec isVar = (.base .character fs g, x) ↔
      parseBaseCharacter (zeroFields baseSegmentStruct) {} rec isVar = ((fs, g), x) := by
  rw [newBase, Record.parse]
  generalize parseBaseCharacter (zeroFields baseSegmentStruct) {} rec isVar = q
  obtain ⟨⟨a, b⟩, c⟩ := q
  simp [and_assoc]

theorem newBase_parse_packed {rec : Bytes} {isVar : Bool} {fs : Fields} {g : Segs} {x : Except Err Int} :
    (newBase .packed).parse rec isVar = (.base .packed fs g, x) ↔
      parseBasePacked (zeroFields baseSegmentStruct) {} rec isVar = ((fs, g), x) := by
  rw [newBase, Record.parse]
  generalize parseBasePacked (zeroFields baseSegmentStruct) {} rec isVar = q
  obtain ⟨⟨a, b⟩, c⟩ := q
  simp [and_assoc]

end Metro2
