import Verif.Lemmas.Messages

/-! Lemmas about the error texts of Parse. -/

namespace Metro2

theorem timeFromString_fault {l : List Std} {s : Bytes} {e : Err} (h : timeFromString l s = .error e) : Spec.faultOf e = none := by
  simp only [timeFromString] at h
  (repeat' split at h) <;> first | (cases h; done) | (obtain rfl := Except.error.inj h; rfl)

theorem convertInt64_fault {v : Nat} {e : Err} (h : convertInt64 v = .error e) : Spec.faultOf e = none := by
  simp only [convertInt64] at h
  split at h
  · cases h
  · obtain rfl := Except.error.inj h
    rfl

theorem timeFromPacked_fault {n w : Nat} {l : List Std} {s : Bytes} {e : Err} (h : timeFromPacked n w l s = .error e) :
    Spec.faultOf e = none := by
  simp only [timeFromPacked] at h
  split at h
  · split at h
    · split at h
      · exact timeFromString_fault h
      · rename_i hc
        obtain rfl := Except.error.inj h
        exact convertInt64_fault hc
    · exact timeFromString_fault h
  · obtain rfl := Except.error.inj h
    rfl

theorem map_error {α β : Type} {x : Except Err α} {f : α → β} {e : Err} (h : x.map f = .error e) : x = .error e := by
  cases x with
  | error e' => simpa [Except.map] using h
  | ok a => cases h

theorem parseValue_fault {e : Field} {data : Bytes} {err : Err} (h : parseValue e data = .error err) :
    Spec.faultOf err = none := by
  simp only [parseValue] at h
  split at h
  · split at h
    · cases h
    · obtain rfl := Except.error.inj h
      rfl
  · exact timeFromString_fault (map_error h)
  · exact timeFromString_fault (map_error h)
  · cases h
  · cases h
  · split at h
    · obtain rfl := Except.error.inj h
      rfl
    · cases h
  · exact timeFromPacked_fault (map_error h)
  · exact timeFromPacked_fault (map_error h)
  · exact convertInt64_fault (map_error h)

/-- The errors of the field loop that are about a field are about a field of the struct. -/
theorem parseLoop_fault {fmt : Format} {bdw : BdwPolicy} {bounds : Bool} {rec : Bytes} {fs : Fields} {off : Nat} {err : Err}
    (h : (parseLoop fmt bdw bounds rec off fs).2 = some err) {f : F} {x : Spec.Fault} (hf : Spec.faultOf err = some (f, x)) :
    f ∈ fs.map Prod.fst ∧
      (err = .required f ∨ err = .numeric f ∨ err = .nonAlphanumeric f ∨ err = .upperAlpha f ∨ err = .invalidValue f) := by
  induction fs generalizing off with
  | nil => cases h
  | cons p fs ih =>
    obtain ⟨g, v⟩ := p
    have step : ∀ {off}, (parseLoop fmt bdw bounds rec off fs).2 = some err →
        f ∈ List.map Prod.fst ((g, v) :: fs) ∧
          (err = .required f ∨ err = .numeric f ∨ err = .nonAlphanumeric f ∨ err = .upperAlpha f ∨ err = .invalidValue f) := by
      intro off h
      exact ⟨List.mem_cons_of_mem _ (ih h).1, (ih h).2⟩
    rw [parseLoop] at h
    split at h
    · obtain rfl := Option.some.inj h
      obtain ⟨rfl, rfl⟩ := Prod.mk.inj (Option.some.inj hf)
      exact ⟨by simp, by simp⟩
    · split at h
      · obtain rfl := Option.some.inj h
        cases hf
      · split at h
        · obtain rfl := Option.some.inj h
          cases hf
        · split at h
          · rename_i hv
            obtain rfl := Option.some.inj h
            rcases isValidType_cases hv with rfl | rfl | rfl | rfl <;>
              (obtain ⟨rfl, rfl⟩ := Prod.mk.inj (Option.some.inj hf); exact ⟨by simp, by simp⟩)
          · split at h
            · rename_i hv
              obtain rfl := Option.some.inj h
              rw [parseValue_fault hv] at hf
              cases hf
            · split at h
              · exact step h
              · obtain rfl := Option.some.inj h
                cases hf
              · split at h
                · obtain rfl := Option.some.inj h
                  cases hf
                · exact step h
              · split at h
                · obtain rfl := Option.some.inj h
                  cases hf
                · exact step h

/-- Their texts. -/
theorem parseText_says {n : Sort14} {err : Err} {f : F} {x : Spec.Fault} (hf : Spec.faultOf err = some (f, x))
    (h : err = .required f ∨ err = .numeric f ∨ err = .nonAlphanumeric f ∨ err = .upperAlpha f ∨ err = .invalidValue f) :
    ∃ msg, n.parseText err = some msg ∧ Spec.Accuses msg f n x := by
  rcases h with rfl | rfl | rfl | rfl | rfl <;> (obtain ⟨_, rfl⟩ := Prod.mk.inj (Option.some.inj hf))
  · exact ⟨_, rfl, says_required f n⟩
  · exact ⟨_, rfl, _, by rw [errNumeric, text_eq]; rfl, bare_name f⟩
  · exact ⟨_, rfl, _, by rw [errNonAlphanumeric, text_eq]; rfl, bare_name f⟩
  · exact ⟨_, rfl, _, by rw [errUpperAlpha, text_eq]; rfl, bare_name f⟩
  · exact ⟨_, rfl, says_invalid f n⟩

theorem loop_says {fmt : Format} {bdw : BdwPolicy} {bounds : Bool} {rec : Bytes} {fs : Fields} {off : Nat} {err : Err} (n : Sort14)
    (h : (parseLoop fmt bdw bounds rec off fs).2 = some err) {f : F} {x : Spec.Fault} (hf : Spec.faultOf err = some (f, x)) :
    f ∈ fs.map Prod.fst ∧ ∃ msg, n.parseText err = some msg ∧ Spec.Accuses msg f n x :=
  ⟨(parseLoop_fault h hf).1, parseText_says hf (parseLoop_fault h hf).2⟩

/-- The kind of a segment does not change. -/
theorem seg_parse_error {s s' : Seg} {rec : Bytes} {isVar : Bool} {err : Err} (h : s.parse rec isVar = (s', .error err))
    {f : F} {x : Spec.Fault} (hf : Spec.faultOf err = some (f, x)) :
    f ∈ s.fields.map Prod.fst ∧ ∃ msg, (Sort14.seg s.kind).parseText err = some msg ∧ Spec.Accuses msg f (.seg s.kind) x := by
  simp only [Seg.parse] at h
  split at h
  · obtain ⟨_, h⟩ := Prod.mk.inj h
    obtain rfl := Except.error.inj h
    cases hf
  · split at h
    · rename_i fs e hp
      obtain ⟨_, h⟩ := Prod.mk.inj h
      obtain rfl := Except.error.inj h
      exact loop_says _ (by rw [hp]) hf
    · cases (Prod.mk.inj h).2

theorem header_parse_error {enc : Enc} {fs fs' : Fields} {rec : Bytes} {isVar : Bool} {err : Err}
    (h : parseHeader enc fs rec isVar = (fs', .error err)) {f : F} {x : Spec.Fault} (hf : Spec.faultOf err = some (f, x)) :
    f ∈ fs.map Prod.fst ∧ ∃ msg, (Sort14.header enc).parseText err = some msg ∧ Spec.Accuses msg f (.header enc) x := by
  simp only [parseHeader] at h
  split at h
  · obtain ⟨_, h⟩ := Prod.mk.inj h
    obtain rfl := Except.error.inj h
    cases hf
  · split at h
    · rename_i fs e hp
      obtain ⟨_, h⟩ := Prod.mk.inj h
      obtain rfl := Except.error.inj h
      exact loop_says _ (by rw [hp]) hf
    · cases (Prod.mk.inj h).2

theorem trailer_parse_error {enc : Enc} {fs fs' : Fields} {rec : Bytes} {isVar : Bool} {err : Err}
    (h : parseTrailer enc fs rec isVar = (fs', .error err)) {f : F} {x : Spec.Fault} (hf : Spec.faultOf err = some (f, x)) :
    f ∈ fs.map Prod.fst ∧ ∃ msg, (Sort14.trailer enc).parseText err = some msg ∧ Spec.Accuses msg f (.trailer enc) x := by
  simp only [parseTrailer] at h
  split at h
  · obtain ⟨_, h⟩ := Prod.mk.inj h
    obtain rfl := Except.error.inj h
    cases hf
  · split at h
    · rename_i fs e hp
      obtain ⟨_, h⟩ := Prod.mk.inj h
      obtain rfl := Except.error.inj h
      cases enc with
      | character => exact loop_says _ (by simp only [trailerLoop] at hp; rw [hp]) hf
      | packed => exact loop_says _ (by simp only [trailerLoop] at hp; rw [hp]) hf
    · cases (Prod.mk.inj h).2

/-- A segment of kind `k` begins the text `rec`, reading or validating it gives `err`, and the text `msg` says so. -/
def SegFault (isVar : Bool) (rec : Bytes) (k : SegKind) (err : Err) (text : Option Bytes) (f : F) (x : Spec.Fault) : Prop :=
  rec.take 2 = k.ident ∧ ∃ msg, text = some msg ∧
    (((∃ s, (Seg.new k).parse rec isVar = (s, .error err)) ∧ Spec.Accuses msg f (.seg k) x) ∨
      ((∃ s n, (Seg.new k).parse rec isVar = (s, .ok n) ∧ s.validate = some err) ∧
        if x = .invalid ∧ Spec.Misnamed (.seg k) f then Spec.Accuses msg f (.base .character) x else Spec.Accuses msg f (.seg k) x))

theorem ident_of_segKind {id : Bytes} {k : SegKind} (h : segKindOfIdent id = some k) : id = k.ident := by
  simp only [segKindOfIdent] at h
  (repeat' split at h) <;> first | (cases h; done) | (obtain rfl := Option.some.inj h; assumption)

theorem seg_parse_kind (s : Seg) (rec : Bytes) (isVar : Bool) : (s.parse rec isVar).1.kind = s.kind := by
  simp only [Seg.parse]
  split
  · rfl
  · split <;> rfl

theorem readSegs_text {isVar : Bool} {fuel : Nat} {g g' : Segs} {off : Nat} {rec : Bytes} {err : Err}
    (h : readSegs isVar fuel g off rec = (g', .error err)) {f : F} {x : Spec.Fault} (hf : Spec.faultOf err = some (f, x)) :
    ∃ i k, i ≤ rec.length ∧ SegFault isVar (rec.drop i) k err (readSegsText isVar fuel g rec) f x := by
  induction fuel generalizing g off rec with
  | zero =>
    simp only [readSegs] at h
    obtain ⟨_, h⟩ := Prod.mk.inj h
    obtain rfl := Except.error.inj h
    cases hf
  | succ fuel ih =>
    simp only [readSegs] at h
    by_cases h2 : 2 < rec.length
    · rw [if_pos h2] at h
      cases hs : slice rec 0 2 with
      | none =>
        rw [hs] at h
        obtain ⟨_, h⟩ := Prod.mk.inj h
        obtain rfl := Except.error.inj h
        cases hf
      | some id =>
        rw [hs] at h
        simp only at h
        have hid : id = rec.take 2 := by
          simp only [slice] at hs
          split at hs
          · simpa using (Option.some.inj hs).symm
          · cases hs
        cases hk : segKindOfIdent id with
        | none => rw [hk] at h; cases (Prod.mk.inj h).2
        | some k =>
          rw [hk] at h
          simp only at h
          have hident : rec.take 2 = k.ident := by rw [← hid]; exact ident_of_segKind hk
          rcases hp : (Seg.new k).parse rec isVar with ⟨s, e | n⟩
          · rw [hp] at h
            obtain ⟨_, h⟩ := Prod.mk.inj h
            obtain rfl := Except.error.inj h
            obtain ⟨_, msg, hm, hsay⟩ := seg_parse_error hp hf
            refine ⟨0, k, Nat.zero_le _, hident, msg, ?_, Or.inl ⟨⟨s, hp⟩, hsay⟩⟩
            simp only [readSegsText, if_pos h2, hs, hk, hp]; exact hm
          · rw [hp] at h
            simp only at h
            have hkind : s.kind = k := by
              have := seg_parse_kind (Seg.new k) rec isVar
              rw [hp] at this
              exact this
            simp only [Segs.add] at h
            cases hv : s.validate with
            | some e =>
              rw [hv] at h
              obtain ⟨_, h⟩ := Prod.mk.inj h
              obtain rfl := Except.error.inj h
              obtain ⟨f', x', msg, hf', hm, hsay⟩ := seg_validate_text hv
              rw [hf] at hf'
              obtain ⟨rfl, rfl⟩ := Prod.mk.inj (Option.some.inj hf')
              rw [hkind] at hm hsay
              refine ⟨0, k, Nat.zero_le _, hident, msg, ?_, Or.inr ⟨⟨s, n, hp, hv⟩, hsay⟩⟩
              simp only [readSegsText, if_pos h2, hs, hk, hp, Segs.add, hv]
              exact hm
            | none =>
              rw [hv] at h
              simp only at h
              obtain ⟨i, k', hi, hfault⟩ := ih h
              rw [List.drop_drop] at hfault
              rw [List.length_drop] at hi
              have ht : readSegsText isVar (fuel + 1) g rec = readSegsText isVar fuel (g.store s) (rec.drop n) := by
                simp only [readSegsText, if_pos h2, hs, hk, hp, Segs.add, hv]
              rw [ht]
              by_cases hn : n ≤ rec.length
              · exact ⟨n + i, k', by omega, hfault⟩
              · refine ⟨rec.length, k', Nat.le_refl _, ?_⟩
                rw [List.drop_of_length_le (by omega)] at hfault
                rw [List.drop_length]
                exact hfault
    · rw [if_neg h2] at h
      cases (Prod.mk.inj h).2

theorem base_parse_error {enc : Enc} {fs : Fields} {g : Segs} {r' : Record} {rec : Bytes} {isVar : Bool} {err : Err}
    (h : (Record.base enc fs g).parse rec isVar = (r', .error err)) {f : F} {x : Spec.Fault}
    (hf : Spec.faultOf err = some (f, x)) :
    (f ∈ fs.map Prod.fst ∧ ∃ msg, (Record.base enc fs g).parseText rec isVar = some msg ∧ Spec.Accuses msg f (.base enc) x) ∨
      ∃ i k, i ≤ rec.length ∧ SegFault isVar (rec.drop i) k err ((Record.base enc fs g).parseText rec isVar) f x := by
  have ht : (Record.base enc fs g).parseText rec isVar = baseParseText enc fs g rec isVar err := by
    simp only [Record.parseText, h]
  rw [ht]
  have drop2 : ∀ {off : Nat} {tail : Bytes}, sliceFrom rec off = some tail → ∀ {k text}, 
      (∃ i, i ≤ tail.length ∧ SegFault isVar (tail.drop i) k err text f x) →
      ∃ i k, i ≤ rec.length ∧ SegFault isVar (rec.drop i) k err text f x := by
    intro off tail hs k text ⟨i, hi, hfault⟩
    simp only [sliceFrom] at hs
    split at hs
    · obtain rfl := Option.some.inj hs
      rw [List.length_drop] at hi
      rw [List.drop_drop] at hfault
      exact ⟨off + i, k, by omega, hfault⟩
    · cases hs
  cases enc with
  | character =>
    simp only [Record.parse] at h
    obtain ⟨_, h⟩ := Prod.mk.inj h
    simp only [parseBaseCharacter] at h
    by_cases hl : rec.length < 426
    · rw [if_pos hl] at h
      obtain rfl := Except.error.inj h
      cases hf
    · rw [if_neg hl] at h
      have hl' : ¬ rec.length < Enc.recordLength .character := hl
      rcases hp : parseLoop baseSegmentCharacterFormat (if isVar then .accept else .skip) true rec 0 fs with ⟨fs', e | e⟩
      · rw [hp] at h
        simp only at h
        simp only [baseParseText, if_neg hl', baseHead, hp]
        generalize (if fs'.int .BlockDescriptorWord > 0 then 426 + 4 else 426) = off at h ⊢
        by_cases h2 : rec.length < off
        · rw [if_pos h2] at h
          obtain rfl := Except.error.inj h
          cases hf
        · rw [if_neg h2] at h
          rw [if_neg h2]
          cases hs : sliceFrom rec off with
          | none =>
            rw [hs] at h
            obtain rfl := Except.error.inj h
            cases hf
          | some tail =>
            rw [hs] at h
            simp only at h
            simp only
            rcases hr : readApplicableSegments { g with j1 := [], j2 := [] } tail isVar with ⟨g', e | n⟩
            · rw [hr] at h
              obtain rfl := Except.error.inj h
              obtain ⟨i, k, hi, hfault⟩ := readSegs_text hr hf
              exact Or.inr (drop2 hs ⟨i, hi, hfault⟩)
            · rw [hr] at h
              simp only at h
              (repeat' split at h) <;> first
                | (cases h; done)
                | (obtain rfl := Except.error.inj h; cases hf)
      · rw [hp] at h
        obtain rfl := Except.error.inj h
        simp only [baseParseText, if_neg hl', baseHead, hp]
        exact Or.inl (loop_says _ (by rw [hp]) hf)
  | packed =>
    simp only [Record.parse] at h
    obtain ⟨_, h⟩ := Prod.mk.inj h
    simp only [parseBasePacked] at h
    by_cases hl : rec.length < 366
    · rw [if_pos hl] at h
      obtain rfl := Except.error.inj h
      cases hf
    · rw [if_neg hl] at h
      have hl' : ¬ rec.length < Enc.recordLength .packed := hl
      rcases hp : parseLoop baseSegmentPackedFormat (if isVar then .accept else .fail) true rec 0 fs with ⟨fs', e | e⟩
      · rw [hp] at h
        simp only at h
        simp only [baseParseText, if_neg hl', baseHead, hp]
        generalize 366 + 4 = off at h ⊢
        by_cases h2 : rec.length < off
        · rw [if_pos h2] at h
          obtain rfl := Except.error.inj h
          cases hf
        · rw [if_neg h2] at h
          rw [if_neg h2]
          cases hs : sliceFrom rec off with
          | none =>
            rw [hs] at h
            obtain rfl := Except.error.inj h
            cases hf
          | some tail =>
            rw [hs] at h
            simp only at h
            simp only
            rcases hr : readApplicableSegments { g with j1 := [], j2 := [] } tail isVar with ⟨g', e | n⟩
            · rw [hr] at h
              obtain rfl := Except.error.inj h
              obtain ⟨i, k, hi, hfault⟩ := readSegs_text hr hf
              exact Or.inr (drop2 hs ⟨i, hi, hfault⟩)
            · rw [hr] at h
              simp only at h
              (repeat' split at h) <;> first
                | (cases h; done)
                | (obtain rfl := Except.error.inj h; cases hf)
      · rw [hp] at h
        obtain rfl := Except.error.inj h
        simp only [baseParseText, if_neg hl', baseHead, hp]
        exact Or.inl (loop_says _ (by rw [hp]) hf)

end Metro2
