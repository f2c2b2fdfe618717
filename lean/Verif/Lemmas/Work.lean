import Verif.Model.Work
import Verif.Lemmas.Safe
import Verif.Lemmas.FileParse
import Verif.Lemmas.Reader
import Verif.Lemmas.Store
import Verif.Lemmas.Validate
import Verif.Spec.Work

/-! Lemmas for C124 and C125: without the counters it is the model as before, and bounds of the counters. -/

namespace Metro2

/-! ### Without the counters -/

theorem readSegsW_fst (isVar : Bool) : ∀ (fuel : Nat) (g : Segs) (off : Nat) (rec : Bytes),
    (readSegsW isVar fuel g off rec).1 = readSegs isVar fuel g off rec := by
  intro fuel
  induction fuel with
  | zero => intro g off rec; rfl
  | succ n ih =>
    intro g off rec
    unfold readSegsW readSegs
    by_cases h : 2 < rec.length
    · rw [if_pos h, if_pos h]
      cases slice rec 0 2 with
      | none => rfl
      | some id =>
        simp only
        cases segKindOfIdent id with
        | none => rfl
        | some k =>
          simp only
          generalize (Seg.new k).parse rec isVar = q
          obtain ⟨s, e | read⟩ := q
          · rfl
          · simp only
            generalize g.add s = q
            obtain ⟨g', _ | e⟩ := q
            · exact ih _ _ _
            · rfl
    · rw [if_neg h, if_neg h]

theorem parseBaseW_fst (enc : Enc) (fs : Fields) (g : Segs) (rec : Bytes) (isVar : Bool) : (parseBaseW enc fs g rec isVar).1 =
    match enc with
    | .character => parseBaseCharacter fs g rec isVar
    | .packed => parseBasePacked fs g rec isVar := by
  have key : ∀ (fs : Fields) (off : Nat) (tooLong : Int → Bool) (size : Int), (tailW fs g rec isVar off tooLong size).1 =
      (let g0 : Segs := { g with j1 := [], j2 := [] }
       if rec.length < off then ((fs, g0), .error .segmentLength)
       else
        match sliceFrom rec off with
        | none => ((fs, g0), .error .panic)
        | some tail =>
        match readApplicableSegments g0 tail isVar with
        | (g', .error err) => ((fs, g'), .error err)
        | (g', .ok read) => if tooLong (read + off) then ((fs, g'), .error .failedParsing) else ((fs, g'), .ok size)) := by
    intro fs off tooLong size
    unfold tailW readApplicableSegments
    simp only
    split
    · rfl
    · cases sliceFrom rec off with
      | none => rfl
      | some tail =>
        simp only
        rw [← readSegsW_fst]
        generalize readSegsW isVar (tail.length + 1) _ 0 tail = q
        obtain ⟨⟨g', e | read⟩, n⟩ := q
        · rfl
        · simp only
          split <;> rfl
  cases enc with
  | character =>
    unfold parseBaseW parseBaseCharacter Enc.recordLength
    simp only
    split
    · rfl
    · generalize parseLoop baseSegmentCharacterFormat (if isVar then .accept else .skip) true rec 0 fs = q
      obtain ⟨fs', _ | e⟩ := q
      · simp only [key]
        generalize (if fs'.int .BlockDescriptorWord > 0 then 426 + 4 else 426 : Nat) = off
        generalize (if fs'.int .BlockDescriptorWord > 0 then fs'.int .BlockDescriptorWord else fs'.int .RecordDescriptorWord) = size
        by_cases hl : rec.length < off
        · rw [if_pos hl, if_pos hl]
        · rw [if_neg hl, if_neg hl]
          cases sliceFrom rec off with
          | none => rfl
          | some tail =>
            simp only
            generalize readApplicableSegments _ tail isVar = q
            obtain ⟨g', e | read⟩ := q
            · rfl
            · simp only [decide_eq_true_eq]
              by_cases h1 : fs'.int .BlockDescriptorWord > 0 ∧ (read : Int) + off > fs'.int .BlockDescriptorWord
              · rw [if_pos (.inl h1), if_pos h1]
              · rw [if_neg h1]
                by_cases h2 : fs'.int .BlockDescriptorWord = 0 ∧ (read : Int) + off > fs'.int .RecordDescriptorWord
                · rw [if_pos (.inr h2), if_pos h2]
                · rw [if_neg (by rintro (h | h); exacts [h1 h, h2 h]), if_neg h2]
      · rfl
  | packed =>
    unfold parseBaseW parseBasePacked Enc.recordLength
    simp only
    split
    · rfl
    · generalize parseLoop baseSegmentPackedFormat (if isVar then .accept else .fail) true rec 0 fs = q
      obtain ⟨fs', _ | e⟩ := q
      · simp only [key]
        split
        · rfl
        · cases sliceFrom rec _ with
          | none => rfl
          | some tail =>
            simp only
            generalize readApplicableSegments _ tail isVar = q
            obtain ⟨g', e | read⟩ := q
            · rfl
            · simp only [decide_eq_true_eq]
      · rfl

theorem parseW_fst (r : Record) (rec : Bytes) (isVar : Bool) : (r.parseW rec isVar).1 = r.parse rec isVar := by
  cases r with
  | header enc fs => rfl
  | trailer enc fs => rfl
  | base enc fs g =>
    unfold Record.parseW
    simp only [parseBaseW_fst]
    cases enc <;> rfl

theorem parseBasesW_fst (enc : Enc) (isVar : Bool) (record : Bytes) : ∀ (fuel : Nat) (off : Int) (acc : List Record),
    (parseBasesW enc isVar record fuel off acc).1 = parseBases enc isVar record fuel off acc := by
  intro fuel
  induction fuel with
  | zero => intro off acc; rfl
  | succ n ih =>
    intro off acc
    unfold parseBasesW parseBases
    split
    · rfl
    · cases sliceFrom record off with
      | none => rfl
      | some tail =>
        simp only
        rw [← parseW_fst]
        generalize (newBase enc).parseW tail isVar = q
        obtain ⟨⟨b, e | read⟩, m⟩ := q
        · cases e <;> rfl
        · exact ih _ _

theorem fileParseW_fst (f : File) (fuel : Nat) (buf : Bytes) (isVar : Bool) : (f.parseW fuel buf isVar).1 = f.parse fuel buf isVar := by
  unfold File.parseW File.parse
  simp only
  rw [← parseW_fst]
  generalize f.header.parseW _ isVar = q
  obtain ⟨⟨h, e | head⟩, n⟩ := q
  · rfl
  · simp only
    rw [← parseBasesW_fst]
    generalize parseBasesW f.format isVar _ fuel head [] = q
    rcases q with ⟨_ | ⟨bs, off, _ | e⟩, m⟩
    · rfl
    · simp only
      split
      · rfl
      · cases sliceFrom _ off with
        | none => rfl
        | some tail =>
          simp only
          rw [← parseW_fst]
          generalize f.trailer.parseW tail isVar = q
          obtain ⟨⟨t, e | k⟩, i⟩ := q <;> rfl
    · rfl

theorem readBasesW_none {p : Plan} {enc : Enc} {isVar : Bool} {s t : Scanner} {acc : List Record}
    (h : s.scan p = (t, none)) : readBasesW p enc isVar s acc = (.ok (acc, none, t), 0) := by
  rw [readBasesW]
  split
  · next h' => rw [h] at h'; cases h'; rfl
  · next h' => rw [h] at h'; simp at h'

theorem readBasesW_some {p : Plan} {enc : Enc} {isVar : Bool} {s t : Scanner} {acc : List Record} {line : Bytes}
    (h : s.scan p = (t, some line)) : readBasesW p enc isVar s acc =
      match (newBase enc).parseW line isVar with
      | ((_, .error .panic), n) => (.error .panic, n)
      | ((_, .error _), n) => (.ok (acc, some line, t), n)
      | ((b, .ok _), n) =>
        ((readBasesW p enc isVar t (acc ++ [b])).1, n + (readBasesW p enc isVar t (acc ++ [b])).2) := by
  rw [readBasesW]
  split
  · next h' => rw [h] at h'; simp at h'
  · next h' => rw [h] at h'; cases h'; rfl

theorem readBasesW_fst (p : Plan) (enc : Enc) (isVar : Bool) (s : Scanner) (acc : List Record) :
    (readBasesW p enc isVar s acc).1 = readBases p enc isVar s acc := by
  induction hn : s.window.length + s.rest.length using Nat.strongRecOn generalizing s acc with
  | _ n ih =>
    cases hs : s.scan p with
    | mk t y =>
      cases y with
      | none => rw [readBasesW_none hs, readBases_none hs]
      | some line =>
        rw [readBasesW_some hs, readBases_some hs, ← parseW_fst]
        generalize (newBase enc).parseW line isVar = q
        obtain ⟨⟨b, e | read⟩, m⟩ := q
        · cases e <;> rfl
        · exact ih _ (by rw [← hn]; exact Scanner.scan_lt p s hs) t _ rfl

theorem readFileW_fst (p : Plan) (data : Bytes) : (readFileW p data).1 = readFile p data := by
  unfold readFileW readFile
  simp only
  generalize (newScanner data).scan p = q
  obtain ⟨s, _ | line⟩ := q
  · rfl
  · simp only
    generalize readHeader (newFile .character) line = q
    rcases q with e | ⟨f, isVar⟩
    · rfl
    · simp only
      rw [← readBasesW_fst]
      generalize readBasesW p f.format isVar s [] = q
      rcases q with ⟨e | ⟨bs, _ | line, s'⟩, n⟩
      · rfl
      · simp only
        generalize s'.scan p = q
        obtain ⟨s'', _ | line⟩ := q <;> rfl
      · rfl

/-! ### Bounds -/

theorem length_ge (k : SegKind) : 30 ≤ k.length := by cases k <;> decide

theorem readSegsW_le (isVar : Bool) : ∀ (fuel : Nat) (g : Segs) (off : Nat) (rec : Bytes),
    30 * (readSegsW isVar fuel g off rec).2 ≤ rec.length + 27 ∧
    ∀ g' m, (readSegsW isVar fuel g off rec).1 = (g', .ok m) → off + 30 * (readSegsW isVar fuel g off rec).2 ≤ m ∧ m ≤ off + rec.length := by
  intro fuel
  induction fuel with
  | zero => intro g off rec; exact ⟨by simp [readSegsW], fun g' m h => by cases h⟩
  | succ n ih =>
    intro g off rec
    unfold readSegsW
    by_cases h : 2 < rec.length
    · rw [if_pos h]
      cases slice rec 0 2 with
      | none => exact ⟨by simp, fun g' m h => by cases h⟩
      | some id =>
        simp only
        cases segKindOfIdent id with
        | none => exact ⟨by simp, fun g' m h => by cases h; exact ⟨by simp, by simp⟩⟩
        | some k =>
          simp only
          cases hq : (Seg.new k).parse rec isVar with
          | mk s x =>
            cases x with
            | error e => exact ⟨by simp only; omega, fun g' m h => by cases h⟩
            | ok read =>
              simp only
              obtain ⟨h1, h2, -⟩ := seg_parse_ok hq
              have h3 := length_ge k
              rw [Seg.new_kind] at h1 h2
              generalize g.add s = q
              obtain ⟨g', _ | e⟩ := q
              · simp only
                obtain ⟨h4, h5⟩ := ih g' (off + read) (rec.drop read)
                rw [List.length_drop] at h4 h5
                refine ⟨by omega, fun g'' m hm => ?_⟩
                have := h5 g'' m hm
                omega
              · exact ⟨by simp only; omega, fun g' m h => by cases h⟩
    · rw [if_neg h]
      exact ⟨by simp, fun g' m h => by cases h; exact ⟨by simp, by simp⟩⟩

theorem sliceFrom_length {l tail : Bytes} {off : Nat} (h : sliceFrom l off = some tail) : tail.length = l.length - off := by
  unfold sliceFrom at h
  split at h
  · cases h; simp
  · cases h

theorem tailW_le (fs : Fields) (g : Segs) (rec : Bytes) (isVar : Bool) (off : Nat) (tooLong : Int → Bool) (size : Int) (ho : 366 ≤ off) :
    30 * ((tailW fs g rec isVar off tooLong size).2 + 1) ≤ rec.length + 30 ∧
    ∀ q m, (tailW fs g rec isVar off tooLong size).1 = (q, .ok m) → m = size ∧ 30 * ((tailW fs g rec isVar off tooLong size).2 + 1) ≤ rec.length ∧
      ∃ read : Nat, tooLong (read + off) = false ∧ 30 * (tailW fs g rec isVar off tooLong size).2 ≤ read := by
  unfold tailW
  simp only
  split
  · exact ⟨by simp, fun q m h => by cases h⟩
  · next hl =>
    cases ht : sliceFrom rec off with
    | none => exact ⟨by simp, fun q m h => by cases h⟩
    | some tail =>
      have hlen := sliceFrom_length ht
      simp only
      obtain ⟨h1, h2⟩ := readSegsW_le isVar (tail.length + 1) { g with j1 := [], j2 := [] } 0 tail
      generalize readSegsW isVar (tail.length + 1) { g with j1 := [], j2 := [] } 0 tail = q at h1 h2
      obtain ⟨⟨g', e | read⟩, n⟩ := q
      · exact ⟨by simp only at h1 ⊢; omega, fun q m h => by cases h⟩
      · simp only at h1 ⊢
        have h3 := h2 g' read rfl
        simp only at h3
        split
        · exact ⟨by simp only; omega, fun q m h => by cases h⟩
        · next hb =>
          refine ⟨by simp only; omega, fun q m h => ?_⟩
          cases h
          exact ⟨rfl, by simp only; omega, read, by simpa using hb, by simp only; omega⟩

theorem tailW_fields (fs : Fields) (g : Segs) (rec : Bytes) (isVar : Bool) (off : Nat) (tooLong : Int → Bool) (size : Int) :
    (tailW fs g rec isVar off tooLong size).1.1.1 = fs := by
  unfold tailW
  simp only
  split
  · rfl
  · cases sliceFrom rec off with
    | none => rfl
    | some tail =>
      simp only
      generalize readSegsW isVar (tail.length + 1) { g with j1 := [], j2 := [] } 0 tail = q
      obtain ⟨⟨g', e | read⟩, n⟩ := q
      · rfl
      · simp only
        split <;> rfl

theorem parseW_le (r : Record) (rec : Bytes) (isVar : Bool) : 30 * (r.parseW rec isVar).2 ≤ rec.length + 30 := by
  cases r with
  | header enc fs => simp [Record.parseW]
  | trailer enc fs => simp [Record.parseW]
  | base enc fs g =>
    simp only [Record.parseW]
    unfold parseBaseW
    split
    · simp
    · cases enc with
      | character =>
        simp only
        generalize parseLoop baseSegmentCharacterFormat (if isVar then .accept else .skip) true rec 0 fs = q
        obtain ⟨fs', _ | e⟩ := q
        · exact (tailW_le _ _ _ _ _ _ _ (by split <;> decide)).1
        · simp
      | packed =>
        simp only
        generalize parseLoop baseSegmentPackedFormat (if isVar then .accept else .fail) true rec 0 fs = q
        obtain ⟨fs', _ | e⟩ := q
        · exact (tailW_le _ _ _ _ _ _ _ (by decide)).1
        · simp

/-- Of a data record that is read; the size that it reports counts if its block descriptor is not negative. -/
theorem parseW_ok {enc : Enc} {fs fs' : Fields} {g g' : Segs} {rec : Bytes} {isVar : Bool} {size : Int}
    (h : ((Record.base enc fs g).parseW rec isVar).1 = (.base enc fs' g', .ok size)) :
    30 * ((Record.base enc fs g).parseW rec isVar).2 ≤ rec.length ∧
    (0 ≤ fs'.int .BlockDescriptorWord → (30 * ((Record.base enc fs g).parseW rec isVar).2 : Int) ≤ size) := by
  simp only [Record.parseW] at h ⊢
  unfold parseBaseW at h ⊢
  by_cases hl : rec.length < enc.recordLength
  · rw [if_pos hl] at h; cases h
  rw [if_neg hl] at h ⊢
  cases enc with
  | character =>
    simp only at h ⊢
    generalize parseLoop baseSegmentCharacterFormat (if isVar then .accept else .skip) true rec 0 fs = q at h ⊢
    obtain ⟨fs2, _ | e⟩ := q
    · simp only at h ⊢
      have hf := fun a b c => (tailW_fields fs2 g rec isVar a b c)
      have hk := fun a b c (ho : 366 ≤ a) => (tailW_le fs2 g rec isVar a b c ho).2
      have ho : 366 ≤ (if fs2.int .BlockDescriptorWord > 0 then 426 + 4 else 426) := by split <;> decide
      replace hf := hf (if fs2.int .BlockDescriptorWord > 0 then 426 + 4 else 426) (fun n => decide ((fs2.int .BlockDescriptorWord > 0 ∧ n > fs2.int .BlockDescriptorWord) ∨ (fs2.int .BlockDescriptorWord = 0 ∧ n > fs2.int .RecordDescriptorWord))) (if fs2.int .BlockDescriptorWord > 0 then fs2.int .BlockDescriptorWord else fs2.int .RecordDescriptorWord)
      replace hk := hk (if fs2.int .BlockDescriptorWord > 0 then 426 + 4 else 426) (fun n => decide ((fs2.int .BlockDescriptorWord > 0 ∧ n > fs2.int .BlockDescriptorWord) ∨ (fs2.int .BlockDescriptorWord = 0 ∧ n > fs2.int .RecordDescriptorWord))) (if fs2.int .BlockDescriptorWord > 0 then fs2.int .BlockDescriptorWord else fs2.int .RecordDescriptorWord) ho
      generalize tailW fs2 g rec isVar _ _ _ = q at h hf hk ⊢
      obtain ⟨⟨⟨fs3, g3⟩, x⟩, n⟩ := q
      simp only [Prod.mk.injEq, Record.base.injEq, true_and] at h
      obtain ⟨⟨rfl, rfl⟩, rfl⟩ := h
      obtain ⟨h1, h2, read, h3, h4⟩ := hk _ size rfl
      refine ⟨h2, fun hb => ?_⟩
      simp only at hf
      subst hf
      simp only [Bool.decide_or, Bool.or_eq_false_iff, decide_eq_false_iff_not] at h3
      simp only at h4 ⊢
      split at h1 <;> split at h3 <;> omega
    · cases h
  | packed =>
    simp only at h ⊢
    generalize parseLoop baseSegmentPackedFormat (if isVar then .accept else .fail) true rec 0 fs = q at h ⊢
    obtain ⟨fs2, _ | e⟩ := q
    · simp only at h ⊢
      have hk := (tailW_le fs2 g rec isVar (366 + 4) (fun n => n > fs2.int .BlockDescriptorWord) (fs2.int .BlockDescriptorWord) (by decide)).2
      generalize tailW fs2 g rec isVar _ _ _ = q at h hk ⊢
      obtain ⟨⟨⟨fs3, g3⟩, x⟩, n⟩ := q
      simp only [Prod.mk.injEq, Record.base.injEq, true_and] at h
      obtain ⟨⟨rfl, rfl⟩, rfl⟩ := h
      obtain ⟨h1, h2, read, h3, h4⟩ := hk _ size rfl
      refine ⟨h2, fun hb => ?_⟩
      simp only [decide_eq_false_iff_not] at h3
      simp only at h4 ⊢
      omega
    · cases h

/-! ### Exactly -/

theorem store_list_length (g : Segs) (s : Seg) : (g.store s).list.length ≤ g.list.length + 1 := by
  obtain ⟨k, fs⟩ := s
  have o : ∀ o : Option Seg, o.toList.length ≤ 1 := fun o => by cases o <;> simp
  cases k <;> (simp only [Segs.store, Segs.list, List.length_append, List.length_singleton, Option.toList_some]; omega)

theorem readSegsW_pieces {isVar : Bool} : ∀ (fuel : Nat) (g g' : Segs) (off n c : Nat) (rec : Bytes),
    readSegsW isVar fuel g off rec = ((g', .ok n), c) →
    ∃ l, Spec.Segmented rec l ∧ c = l.length ∧ g'.list.length ≤ g.list.length + c := by
  intro fuel
  induction fuel with
  | zero => intro g g' off n c rec h; simp [readSegsW] at h
  | succ m ih =>
    intro g g' off n c rec h
    unfold readSegsW at h
    by_cases hl : 2 < rec.length
    · rw [if_pos hl, show slice rec 0 2 = some (rec.take 2) by rw [slice]; simp; omega] at h
      simp only at h
      cases hk : segKindOfIdent (rec.take 2) with
      | none => rw [hk] at h; cases h; exact ⟨[], .done (.inl ((noSegment_iff _).2 hk)), rfl, by omega⟩
      | some k =>
        rw [hk] at h
        simp only at h
        cases he : (Seg.new k).parse rec isVar with
        | mk s x =>
          rw [he] at h
          cases x with
          | error e => cases h
          | ok read =>
            obtain ⟨h1, h2, h3, -, -, -⟩ := seg_parse_read he
            simp only at h
            cases ha : g.add s with
            | mk g2 y =>
              rw [ha] at h
              cases y with
              | some e => cases h
              | none =>
                unfold Segs.add at ha
                split at ha
                · cases ha
                · cases ha
                  simp only at h
                  generalize hq : readSegsW isVar m (g.store s) (off + read) (rec.drop read) = q at h
                  obtain ⟨⟨g3, x⟩, c'⟩ := q
                  cases h
                  obtain ⟨ps, hps, hc, hg⟩ := ih _ _ _ _ _ _ hq
                  have hid := segKindOfIdent_some hk
                  have hlen : (rec.take read).length = k.length := by rw [List.length_take]; omega
                  refine ⟨(k, rec.take read) :: ps, ?_, by simp [hc], ?_⟩
                  · have := Spec.Segmented.step (k := k) (p := rec.take read) (rest := rec.drop read) ?_ ?_ hps
                    · rwa [List.take_append_drop] at this
                    · rw [segmentIdent_eq, ← hid]
                      have hge := SegKind.length_gt k
                      exact List.take_prefix_take_left (by omega)
                    · rw [segmentLength_eq]; exact hlen
                  · have := store_list_length g s
                    omega
    · rw [if_neg hl] at h
      cases h; exact ⟨[], .done (.inr (by omega)), rfl, by omega⟩

theorem tailW_pieces {fs fs' : Fields} {g g' : Segs} {rec : Bytes} {isVar : Bool} {off : Nat} {tooLong : Int → Bool} {size m : Int} {c : Nat}
    (h : tailW fs g rec isVar off tooLong size = (((fs', g'), .ok m), c)) :
    fs' = fs ∧ ∃ l, Spec.Segmented (rec.drop off) l ∧ c = l.length ∧ g'.list.length ≤ ({ g with j1 := [], j2 := [] } : Segs).list.length + c := by
  unfold tailW at h
  simp only at h
  split at h
  · cases h
  · next hl =>
    rw [sliceFrom_of_le (by omega) (by omega)] at h
    simp only [Int.toNat_natCast] at h
    generalize hq : readSegsW isVar ((rec.drop off).length + 1) { g with j1 := [], j2 := [] } 0 (rec.drop off) = q at h
    obtain ⟨⟨g2, e | read⟩, n⟩ := q
    · cases h
    · simp only at h
      split at h
      · cases h
      · cases h
        exact ⟨rfl, readSegsW_pieces _ _ _ _ _ _ _ hq⟩

theorem parseW_pieces {enc : Enc} {fs' : Fields} {g' : Segs} {rec : Bytes} {isVar : Bool} {size : Int} {c : Nat}
    (h : (newBase enc).parseW rec isVar = ((.base enc fs' g', .ok size), c)) :
    ∃ l, Spec.Segmented (rec.drop (Spec.segmentsStart enc fs')) l ∧ c = 1 + l.length ∧ g'.list.length + 1 ≤ c := by
  rw [show newBase enc = .base enc (zeroFields baseSegmentStruct) {} from rfl, Record.parseW] at h
  unfold parseBaseW at h
  by_cases hl : rec.length < enc.recordLength
  · rw [if_pos hl] at h; cases h
  rw [if_neg hl] at h
  cases enc with
  | character =>
    simp only at h
    generalize parseLoop baseSegmentCharacterFormat (if isVar then .accept else .skip) true rec 0 (zeroFields baseSegmentStruct) = q at h
    obtain ⟨fs2, _ | e⟩ := q
    · simp only at h
      rw [show (if fs2.int .BlockDescriptorWord > 0 then 426 + 4 else 426) = Spec.segmentsStart .character fs2 from rfl] at h
      generalize hq : tailW fs2 {} rec isVar _ _ _ = q at h
      obtain ⟨⟨⟨fs3, g3⟩, x⟩, n⟩ := q
      simp only [Prod.mk.injEq, Record.base.injEq, true_and] at h
      obtain ⟨⟨⟨rfl, rfl⟩, rfl⟩, rfl⟩ := h
      obtain ⟨rfl, l, h1, h2, h3⟩ := tailW_pieces hq
      exact ⟨l, h1, by omega, by simpa [Segs.list] using h3⟩
    · cases h
  | packed =>
    simp only at h
    generalize parseLoop baseSegmentPackedFormat (if isVar then .accept else .fail) true rec 0 (zeroFields baseSegmentStruct) = q at h
    obtain ⟨fs2, _ | e⟩ := q
    · simp only at h
      generalize hq : tailW fs2 {} rec isVar _ _ _ = q at h
      obtain ⟨⟨⟨fs3, g3⟩, x⟩, n⟩ := q
      simp only [Prod.mk.injEq, Record.base.injEq, true_and] at h
      obtain ⟨⟨⟨rfl, rfl⟩, rfl⟩, rfl⟩ := h
      obtain ⟨rfl, l, h1, h2, h3⟩ := tailW_pieces hq
      exact ⟨l, h1, by omega, by simpa [Segs.list] using h3⟩
    · cases h

theorem parts_eq (enc : Enc) (fs : Fields) (g : Segs) : Spec.parts (.base enc fs g) = g.list.length + 1 := by
  have o : ∀ o : Option Seg, o.toList.length = Spec.present o := fun o => by cases o <;> simp [Spec.present]
  simp only [Spec.parts, Segs.list, List.length_append, o]
  omega

theorem readSegsW_stored (isVar : Bool) : ∀ (fuel : Nat) (g : Segs) (off : Nat) (rec : Bytes),
    (readSegsW isVar fuel g off rec).1.1.list.length ≤ g.list.length + (readSegsW isVar fuel g off rec).2 := by
  intro fuel
  induction fuel with
  | zero => intro g off rec; simp [readSegsW]
  | succ n ih =>
    intro g off rec
    unfold readSegsW
    by_cases h : 2 < rec.length
    · rw [if_pos h]
      cases slice rec 0 2 with
      | none => simp
      | some id =>
        simp only
        cases segKindOfIdent id with
        | none => simp
        | some k =>
          simp only
          generalize (Seg.new k).parse rec isVar = q
          obtain ⟨s, e | read⟩ := q
          · simp
          · simp only
            cases ha : g.add s with
            | mk g2 y =>
              unfold Segs.add at ha
              split at ha
              · cases ha; simp
              · cases ha
                simp only
                have h1 := ih (g.store s) (off + read) (rec.drop read)
                have h2 := store_list_length g s
                omega
    · rw [if_neg h]; simp

theorem tailW_stored (fs : Fields) (g : Segs) (rec : Bytes) (isVar : Bool) (off : Nat) (tooLong : Int → Bool) (size : Int) :
    (tailW fs g rec isVar off tooLong size).1.1.2.list.length ≤
      ({ g with j1 := [], j2 := [] } : Segs).list.length + (tailW fs g rec isVar off tooLong size).2 := by
  unfold tailW
  simp only
  split
  · simp
  · cases sliceFrom rec off with
    | none => simp
    | some tail =>
      simp only
      have h1 := readSegsW_stored isVar (tail.length + 1) { g with j1 := [], j2 := [] } 0 tail
      generalize readSegsW isVar (tail.length + 1) { g with j1 := [], j2 := [] } 0 tail = q at h1
      obtain ⟨⟨g', e | read⟩, n⟩ := q
      · exact h1
      · simp only
        split <;> exact h1

theorem parseW_stored (enc : Enc) (rec : Bytes) (isVar : Bool) :
    Spec.parts ((newBase enc).parseW rec isVar).1.1 ≤ ((newBase enc).parseW rec isVar).2 := by
  rw [show newBase enc = .base enc (zeroFields baseSegmentStruct) {} from rfl, Record.parseW]
  simp only [parts_eq]
  rw [Nat.add_le_add_iff_right]
  unfold parseBaseW
  split
  · simp [Segs.list]
  · cases enc with
    | character =>
      simp only
      generalize parseLoop baseSegmentCharacterFormat (if isVar then .accept else .skip) true rec 0 (zeroFields baseSegmentStruct) = q
      obtain ⟨fs2, _ | e⟩ := q
      · simp only
        exact (tailW_stored _ _ _ _ _ _ _).trans (by simp [Segs.list])
      · simp [Segs.list]
    | packed =>
      simp only
      generalize parseLoop baseSegmentPackedFormat (if isVar then .accept else .fail) true rec 0 (zeroFields baseSegmentStruct) = q
      obtain ⟨fs2, _ | e⟩ := q
      · simp only
        exact (tailW_stored _ _ _ _ _ _ _).trans (by simp [Segs.list])
      · simp [Segs.list]

theorem parseW_parts {enc : Enc} {b : Record} {rec : Bytes} {isVar : Bool} {size : Int} {c : Nat}
    (h : (newBase enc).parseW rec isVar = ((b, .ok size), c)) : Spec.parts b ≤ c := by
  have hsh : ∃ fs' g' x n, (newBase enc).parseW rec isVar = ((.base enc fs' g', x), n) := ⟨_, _, _, _, rfl⟩
  obtain ⟨fs', g', x, n, hx⟩ := hsh
  have h' := h
  rw [hx] at h
  simp only [Prod.mk.injEq] at h
  obtain ⟨⟨rfl, -⟩, -⟩ := h
  obtain ⟨l, -, -, h3⟩ := parseW_pieces h'
  rw [parts_eq]
  exact h3

theorem readBasesW_parts (p : Plan) (enc : Enc) (isVar : Bool) (s : Scanner) (acc : List Record) {bs : List Record} {o : Option Bytes} {t : Scanner} {c : Nat}
    (h : readBasesW p enc isVar s acc = (.ok (bs, o, t), c)) : (bs.map Spec.parts).sum ≤ (acc.map Spec.parts).sum + c := by
  generalize hn : s.window.length + s.rest.length = n
  induction n using Nat.strongRecOn generalizing s acc c with
  | _ n ih =>
    cases hs : s.scan p with
    | mk t' y =>
      cases y with
      | none => rw [readBasesW_none hs] at h; cases h; omega
      | some line =>
        rw [readBasesW_some hs] at h
        generalize hq : (newBase enc).parseW line isVar = q at h
        obtain ⟨⟨b, e | read⟩, m⟩ := q
        · cases e <;> cases h <;> omega
        · simp only at h
          generalize hr : readBasesW p enc isVar t' (acc ++ [b]) = r at h
          obtain ⟨x, c'⟩ := r
          cases h
          have h1 := ih _ (by rw [← hn]; exact Scanner.scan_lt p s hs) t' (acc ++ [b]) hr rfl
          have h2 := parseW_parts hq
          simp only [List.map_append, List.map_cons, List.map_nil, List.sum_append, List.sum_singleton] at h1
          omega

theorem parseBasesW_parts {enc : Enc} {isVar : Bool} {record : Bytes} : ∀ (fuel : Nat) (off : Int) (acc : List Record) {bs : List Record} {off' : Int} {c : Nat},
    parseBasesW enc isVar record fuel off acc = (some (bs, off', none), c) → (bs.map Spec.parts).sum ≤ (acc.map Spec.parts).sum + c := by
  intro fuel
  induction fuel with
  | zero => intro off acc bs off' c h; cases h
  | succ n ih =>
    intro off acc bs off' c h
    unfold parseBasesW at h
    split at h
    · cases h
    · cases hs : sliceFrom record off with
      | none => rw [hs] at h; cases h
      | some tail =>
        rw [hs] at h
        simp only at h
        generalize hq : (newBase enc).parseW tail isVar = q at h
        obtain ⟨⟨b, e | read⟩, m⟩ := q
        · cases e <;> cases h <;> omega
        · simp only at h
          generalize hr : parseBasesW enc isVar record n (off + read) (acc ++ [b]) = r at h
          obtain ⟨x, c'⟩ := r
          cases h
          have h1 := ih _ _ hr
          have h2 := parseW_parts hq
          simp only [List.map_append, List.map_cons, List.map_nil, List.sum_append, List.sum_singleton] at h1
          omega

/-- What a successful `Scan` consumes is at least as long as the line. -/
theorem Scanner.scan_line (p : Plan) (s : Scanner) {t : Scanner} {tok : Bytes} (h : s.scan p = (t, some tok)) :
    t.window.length + t.rest.length + tok.length ≤ s.window.length + s.rest.length := by
  induction s using Scanner.scan.induct p generalizing t tok with
  | case1 s hs => rw [Scanner.scan, hs] at h; simp at h
  | case2 s advance tk hs =>
    rw [Scanner.scan, hs] at h
    simp only [Prod.mk.injEq, Option.some.injEq] at h
    obtain ⟨rfl, rfl⟩ := h
    have : scanRecord s.window s.err = .token advance tk := by
      unfold Scanner.split at hs
      split at hs
      · exact hs
      · simp at hs
    obtain ⟨h1, -, h3⟩ := scanRecord_token this
    have h4 := withoutBreaks_length_le (s.window.take advance)
    rw [← h3, List.length_take] at h4
    simp only [List.length_drop]
    omega
  | case3 s hs he => rw [Scanner.scan, hs] at h; simp [he] at h
  | case4 s hs he hg =>
    rw [Scanner.scan, hs] at h
    simp only at h
    rw [dif_neg he] at h
    split at h
    · simp at h
    · next hg' => rw [hg] at hg'; simp at hg'
  | case5 s hs he u hg ih =>
    rw [Scanner.scan, hs] at h
    simp only at h
    rw [dif_neg he] at h
    split at h
    · simp at h
    · next u' hg' =>
      rw [hg] at hg'
      cases hg'
      have h1 := ih h
      rw [Scanner.fill_size] at h1
      have h2 : u.rest = s.rest := by rw [(Scanner.grow_keeps hg).2, s.shift_keeps.2]
      have h3 : u.window = s.window := by
        have : s.shift.window = s.window := by unfold Scanner.shift; split <;> rfl
        unfold Scanner.grow at hg
        split at hg
        · split at hg
          · simp at hg
          · cases hg; exact this
        · cases hg; exact this
      rw [h2, h3] at h1
      exact h1

theorem readBasesW_le (p : Plan) (enc : Enc) (isVar : Bool) (s : Scanner) (acc : List Record) :
    30 * (readBasesW p enc isVar s acc).2 ≤ s.window.length + s.rest.length + 30 := by
  induction hn : s.window.length + s.rest.length using Nat.strongRecOn generalizing s acc with
  | _ n ih =>
    cases hs : s.scan p with
    | mk t y =>
      cases y with
      | none => rw [readBasesW_none hs]; simp
      | some line =>
        rw [readBasesW_some hs]
        have h1 := Scanner.scan_line p s hs
        have h2 := parseW_le (newBase enc) line isVar
        have h3 := fun fs' g' size => (parseW_ok (enc := enc) (fs := zeroFields baseSegmentStruct) (fs' := fs') (g := {}) (g' := g') (rec := line) (isVar := isVar)
          (size := size))
        have hb : (newBase enc) = .base enc (zeroFields baseSegmentStruct) {} := rfl
        rw [← hb] at h3
        have hsh : ∃ fs' g' x, ((newBase enc).parseW line isVar).1 = (.base enc fs' g', x) := ⟨_, _, _, rfl⟩
        generalize (newBase enc).parseW line isVar = q at h2 h3 hsh
        obtain ⟨⟨b, e | read⟩, m⟩ := q
        · cases e <;> (simp only at h2 ⊢; omega)
        · obtain ⟨fs', g', x, hx⟩ := hsh
          simp only [Prod.mk.injEq] at hx
          obtain ⟨rfl, -⟩ := hx
          have h4 := (h3 fs' g' read rfl).1
          have h5 := ih _ (by rw [← hn]; exact Scanner.scan_lt p s hs) t (acc ++ [.base enc fs' g']) rfl
          simp only at h4 ⊢
          omega

/-! ### Joining -/

theorem joinW_fst (l : List Bytes) (acc : Bytes × Nat) : (l.foldl joinW acc).1 = acc.1 ++ l.flatten := by
  induction l generalizing acc with
  | nil => simp
  | cons t l ih => rw [List.foldl_cons, ih, joinW]; simp

end Metro2
