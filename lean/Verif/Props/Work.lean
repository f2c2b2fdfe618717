import Verif.Lemmas.Work
import Verif.Spec.Work
import Verif.Props.Parse
import Verif.Props.Files
import Verif.Props.Agree

/-!
Properties C124 and C125: the work of reading is in proportion to the text; the work of joining segments is not.
-/

namespace Metro2

open Samples

/-! ### C124 -/

/-- C124. The counters change nothing else. -/
theorem C124_same (p : Plan) (data : Bytes) (r : Record) (f : File) (fuel : Nat) (isVar : Bool) :
    (r.parseW data isVar).1 = r.parse data isVar ∧ (f.parseW fuel data isVar).1 = f.parse fuel data isVar ∧
    (readFileW p data).1 = readFile p data :=
  ⟨parseW_fst r data isVar, fileParseW_fst f fuel data isVar, readFileW_fst p data⟩

/-- C124, records: however many segments the text pretends to have. -/
theorem C124_record (r : Record) (rec : Bytes) (isVar : Bool) : (r.parseW rec isVar).2 ≤ rec.length / 30 + 1 := by
  have := parseW_le r rec isVar
  omega

/-- C124, the reader: at most one call of `Parse` in 30 bytes, and three more, whatever the text is and however it is delivered. -/
theorem C124_reader (p : Plan) (data : Bytes) : (readFileW p data).2 ≤ data.length / 30 + 3 := by
  suffices h : 30 * (readFileW p data).2 ≤ data.length + 90 by omega
  unfold readFileW
  simp only
  cases hs : (newScanner data).scan p with
  | mk s y =>
    cases y with
    | none => simp
    | some line =>
      have h1 := Scanner.scan_line p _ hs
      rw [show (newScanner data).window.length = 0 from rfl, show (newScanner data).rest = data from rfl] at h1
      simp only
      generalize readHeader (newFile .character) line = q
      rcases q with e | ⟨f, isVar⟩
      · simp only
        split <;> omega
      · simp only
        have h2 := readBasesW_le p f.format isVar s []
        generalize readBasesW p f.format isVar s [] = q at h2
        rcases q with ⟨e | ⟨bs, _ | line, s'⟩, n⟩
        · simp only at h2 ⊢; omega
        · simp only at h2 ⊢
          generalize s'.scan p = q
          obtain ⟨s'', _ | line⟩ := q <;> (simp only; omega)
        · simp only at h2 ⊢; omega

/-- C124. For a data record that is read the number of calls is one for the record and one for each segment that its text has. -/
theorem C124_exact (enc : Enc) (rec : Bytes) (isVar : Bool) (fs : Fields) (g : Segs) (n : Int)
    (h : (newBase enc).parse rec isVar = (.base enc fs g, .ok n)) (pieces : List (SegKind × Bytes))
    (hs : Spec.Segmented (rec.drop (Spec.segmentsStart enc fs)) pieces) : ((newBase enc).parseW rec isVar).2 = 1 + pieces.length := by
  rw [← parseW_fst] at h
  generalize hq : (newBase enc).parseW rec isVar = q at h ⊢
  obtain ⟨x, c⟩ := q
  simp only at h
  subst h
  obtain ⟨l, h1, h2, -⟩ := parseW_pieces hq
  rw [segmented_unique hs h1]
  exact h2

/-- C124. Nor are there fewer calls if the record is refused: for each part that it has then there was a call. -/
theorem C124_needed_record (enc : Enc) (rec : Bytes) (isVar : Bool) (r : Record) (e : Except Err Int) (h : (newBase enc).parse rec isVar = (r, e)) :
    Spec.parts r ≤ ((newBase enc).parseW rec isVar).2 := by
  have := parseW_stored enc rec isVar
  rwa [parseW_fst, h] at this

/-- C124. Less is not possible: for each part of the file that is read there is a call. -/
theorem C124_needed (p : Plan) (data : Bytes) (f : File) (h : readFile p data = .ok f) : Spec.partsOf f ≤ (readFileW p data).2 := by
  rw [← readFileW_fst] at h
  unfold readFileW at h ⊢
  simp only at h ⊢
  generalize (newScanner data).scan p = q at h ⊢
  obtain ⟨s, _ | line⟩ := q
  · cases h
  · simp only at h ⊢
    generalize readHeader (newFile .character) line = q at h ⊢
    rcases q with e | ⟨f', isVar⟩
    · cases h
    · simp only at h ⊢
      have key : ∀ (bs : List Record) (line : Bytes), readTrailer { f' with bases := bs } line isVar = .ok f → f.bases = bs := by
        intro bs line h
        unfold readTrailer at h
        simp only at h
        generalize f'.trailer.parse line isVar = q at h
        obtain ⟨t, e | k⟩ := q <;> cases h
        rfl
      generalize hr : readBasesW p f'.format isVar s [] = r at h ⊢
      rcases r with ⟨e | ⟨bs, _ | line, s'⟩, n⟩
      · cases h
      · simp only at h ⊢
        have h1 := readBasesW_parts _ _ _ _ _ hr
        generalize s'.scan p = q at h ⊢
        obtain ⟨s'', _ | line⟩ := q
        · cases h
        · simp only at h ⊢
          rw [Spec.partsOf, key _ _ h]
          simp only [List.map_nil, List.sum_nil] at h1
          omega
      · simp only at h ⊢
        have h1 := readBasesW_parts _ _ _ _ _ hr
        rw [Spec.partsOf, key _ _ h]
        simp only [List.map_nil, List.sum_nil] at h1
        omega

/-- C124, the same for `File.Parse`. -/
theorem C124_needed_parse (f g : File) (hu : Spec.Uniform f) (fuel : Nat) (buf : Bytes) (isVar : Bool) (h : f.parse fuel buf isVar = some (g, none)) :
    Spec.partsOf g ≤ (f.parseW fuel buf isVar).2 := by
  rw [← fileParseW_fst] at h
  obtain ⟨fs, hh⟩ := hu.header
  obtain ⟨ts, ht⟩ := hu.trailer
  have h1 : ∀ rec, (f.header.parseW rec isVar).2 = 1 := by rw [hh]; intro rec; rfl
  have h2 : ∀ tail, (f.trailer.parseW tail isVar).2 = 1 := by rw [ht]; intro tail; rfl
  unfold File.parseW at h ⊢
  simp only at h ⊢
  generalize (deleteFunc isNewline buf).1 = rec at h ⊢
  have h1 := h1 rec
  generalize f.header.parseW rec isVar = q at h h1 ⊢
  obtain ⟨⟨hd, e | head⟩, n⟩ := q
  · cases h
  · simp only at h h1 ⊢
    generalize hr : parseBasesW f.format isVar rec fuel head [] = q at h ⊢
    rcases q with ⟨_ | ⟨bs, off, _ | e⟩, m⟩
    · cases h
    · have h3 := parseBasesW_parts _ _ _ hr
      simp only [List.map_nil, List.sum_nil] at h h3 ⊢
      split at h
      · cases h
      · next ho =>
        rw [if_neg ho]
        cases hs : sliceFrom rec off with
        | none => rw [hs] at h; cases h
        | some tail =>
          rw [hs] at h
          simp only at h ⊢
          have h5 := h2 tail
          generalize f.trailer.parseW tail isVar = q at h h5 ⊢
          obtain ⟨⟨t, e | k⟩, i⟩ := q
          · cases h
          · simp only at h h5 ⊢
            split at h
            · cases h
            · cases h
              rw [Spec.partsOf]
              simp only
              omega
    · cases h

theorem parseBasesW_le {enc : Enc} {isVar : Bool} {record : Bytes}
    (hb : ∀ tail fs g n, tail <:+ record → (newBase enc).parse tail isVar = (.base enc fs g, .ok n) → 0 ≤ Spec.bdw fs) :
    ∀ (fuel : Nat) (off : Int) (acc : List Record),
    (30 * (parseBasesW enc isVar record fuel off acc).2 : Int) ≤ (if 0 < off ∧ off < record.length then record.length - off + 30 else 0) := by
  intro fuel
  induction fuel with
  | zero => intro off acc; simp only [parseBasesW]; split <;> omega
  | succ n ih =>
    intro off acc
    unfold parseBasesW
    by_cases ho : off ≤ 0 ∨ (record.length : Int) ≤ off
    · rw [if_pos ho, if_neg (by omega)]; simp
    · rw [if_neg ho, if_pos (by omega), sliceFrom_of_le (by omega) (by omega)]
      simp only
      have h1 := parseW_le (newBase enc) (record.drop off.toNat) isVar
      have h3 := fun fs' g' size => (parseW_ok (enc := enc) (fs := zeroFields baseSegmentStruct) (fs' := fs') (g := {}) (g' := g')
        (rec := record.drop off.toNat) (isVar := isVar) (size := size))
      have hn : (newBase enc) = .base enc (zeroFields baseSegmentStruct) {} := rfl
      rw [← hn] at h3
      have hsh : ∃ fs' g' x, ((newBase enc).parseW (record.drop off.toNat) isVar).1 = (.base enc fs' g', x) := ⟨_, _, _, rfl⟩
      have hp := parseW_fst (newBase enc) (record.drop off.toNat) isVar
      rw [List.length_drop] at h1 h3
      generalize (newBase enc).parseW (record.drop off.toNat) isVar = q at h1 h3 hsh hp
      obtain ⟨⟨b, e | read⟩, m⟩ := q
      · cases e <;> (simp only at h1 ⊢; omega)
      · obtain ⟨fs', g', x, hx⟩ := hsh
        simp only [Prod.mk.injEq] at hx
        obtain ⟨rfl, -⟩ := hx
        obtain ⟨h4, h5⟩ := h3 fs' g' read rfl
        have h6 := h5 (hb _ fs' g' read (List.drop_suffix _ _) hp.symm)
        have h7 := ih (off + read) (acc ++ [.base enc fs' g'])
        simp only at h4 h6 ⊢
        push_cast
        split at h7 <;> omega

/-- C124, `File.Parse`, if no data record in the text has a negative block descriptor (see C23). -/
theorem C124_parse_partial (f : File) (hu : Spec.Uniform f) (fuel : Nat) (buf : Bytes) (isVar : Bool)
    (hb : ∀ tail fs g n, tail <:+ Spec.withoutNewlines buf → (newBase f.format).parse tail isVar = (.base f.format fs g, .ok n) → 0 ≤ Spec.bdw fs) :
    (f.parseW fuel buf isVar).2 ≤ buf.length / 30 + 3 := by
  suffices h : 30 * (f.parseW fuel buf isVar).2 ≤ buf.length + 90 by omega
  have hstrip : (deleteFunc isNewline buf).1 = Spec.withoutNewlines buf := by rw [deleteFunc_newline, stripNewlines_eq]
  have hlen : (Spec.withoutNewlines buf).length ≤ buf.length := List.length_filter_le _ _
  obtain ⟨fs, hh⟩ := hu.header
  obtain ⟨ts, ht⟩ := hu.trailer
  have h1 : (f.header.parseW (Spec.withoutNewlines buf) isVar).2 = 1 := by rw [hh]; rfl
  have h2 : ∀ tail, (f.trailer.parseW tail isVar).2 = 1 := by rw [ht]; intro tail; rfl
  unfold File.parseW
  simp only
  rw [hstrip]
  generalize Spec.withoutNewlines buf = rec at h1 hb hlen ⊢
  generalize f.header.parseW rec isVar = q at h1 ⊢
  obtain ⟨⟨h, e | head⟩, n⟩ := q
  · simp only at h1 ⊢; omega
  · simp only at h1 ⊢
    have h3 := parseBasesW_le hb fuel head []
    have h4 : (30 * (parseBasesW f.format isVar rec fuel head []).2 : Int) ≤ rec.length + 30 := by
      refine le_trans h3 ?_
      split <;> omega
    generalize parseBasesW f.format isVar rec fuel head [] = q at h4 ⊢
    rcases q with ⟨_ | ⟨bs, off, _ | e⟩, m⟩
    · simp only at h4 ⊢; omega
    · simp only at h4 ⊢
      split
      · simp only; omega
      · cases sliceFrom rec off with
        | none => simp only; omega
        | some tail =>
          simp only
          have h5 := h2 tail
          generalize f.trailer.parseW tail isVar = q at h5 ⊢
          obtain ⟨⟨t, e | k⟩, i⟩ := q <;> (simp only at h5 ⊢; omega)
    · simp only at h4 ⊢; omega

/-- C124. In particular if the text has no minus sign. -/
theorem C124_no_minus (f : File) (hu : Spec.Uniform f) (fuel : Nat) (buf : Bytes) (isVar : Bool) (h : (45 : UInt8) ∉ buf) :
    (f.parseW fuel buf isVar).2 ≤ buf.length / 30 + 3 := by
  refine C124_parse_partial f hu fuel buf isVar fun tail fs g n ht hp => ?_
  cases hf : f.format with
  | packed =>
    rw [hf] at hp
    obtain ⟨-, -, -, -, -, h5, h6⟩ := parseBasePacked_inv (zeroFields_typed _) (newBase_parse_packed.1 hp)
    have : n = Spec.bdw fs := h5
    omega
  | character =>
    rw [hf] at hp
    cases isVar with
    | false =>
      obtain ⟨-, -, -, h4, -⟩ := parseBaseCharacter_inv (zeroFields_typed _) (newBase_parse_character.1 hp)
      simp only [Bool.false_eq_true, if_false] at h4
      rw [newBase_bdw] at h4
      exact le_of_eq h4.symm
    | true =>
      obtain ⟨ds, m, -, -, h3⟩ := newBase_parse_bdw hp
      rcases h3 with ⟨-, h3⟩ | ⟨-, h3⟩ | ⟨h4, -⟩
      · rw [Spec.bdw, h3]; omega
      · rw [Spec.bdw, h3]; omega
      · exfalso
        apply h
        have h5 : (45 : UInt8) ∈ tail.take 4 := by rw [h4]; exact List.mem_cons_self
        exact (List.mem_filter.1 (ht.subset (List.mem_of_mem_take h5))).1

/-- C124 fails for `File.Parse`: there is a text of 1360 bytes on which it calls `Parse` more often than any number. -/
theorem C124_violated : ∃ buf : Bytes, buf.length = 1360 ∧ ∀ n, ∃ fuel, n < ((newFile .character).parseW fuel buf true).2 := by
  refine ⟨endless, endless_length, fun n => ⟨n, ?_⟩⟩
  have hs : (deleteFunc isNewline endless).1 = endless := by decide +kernel
  have step : ∀ (off : Nat) (read : Int) (b : Record) (k : Nat) (acc : List Record), 0 < off → off < 1360 →
      (newBase .character).parse (endless.drop off) true = (b, .ok read) →
      (parseBasesW .character true endless (k + 1) off acc).2 ≥ 1 + (parseBasesW .character true endless k (off + read) (acc ++ [b])).2 := by
    intro off read b k acc h1 h2 hp
    rw [parseBasesW, if_neg (by rw [endless_length]; omega), sliceFrom_of_le (by omega) (by rw [endless_length]; omega)]
    simp only [Int.toNat_natCast]
    rw [← parseW_fst] at hp
    have h3 : 1 ≤ ((newBase .character).parseW (endless.drop off) true).2 := Nat.le_add_left 1 _
    generalize (newBase .character).parseW (endless.drop off) true = q at hp h3
    obtain ⟨⟨b', x⟩, m⟩ := q
    cases hp
    simp only at h3 ⊢
    omega
  have key : ∀ k acc, k ≤ (parseBasesW .character true endless k 930 acc).2 ∧ k ≤ (parseBasesW .character true endless k 430 acc).2 := by
    intro k
    induction k with
    | zero => intro acc; exact ⟨Nat.zero_le _, Nat.zero_le _⟩
    | succ k ih =>
      intro acc
      have h1 := step 930 (-500) _ k acc (by decide) (by decide) endless_b
      have h2 := step 430 500 _ k acc (by decide) (by decide) endless_a
      have h3 := (ih (acc ++ [.base .character (base (-1) (-500)) {}])).2
      have h4 := (ih (acc ++ [.base .character (base 500 496) {}])).1
      constructor
      · exact le_trans (by simp only [Nat.cast_ofNat, Int.reduceAdd] at h1 ⊢; omega) h1
      · exact le_trans (by simp only [Nat.cast_ofNat, Int.reduceAdd] at h2 ⊢; omega) h2
  have hk := (key n []).1
  unfold File.parseW
  simp only
  rw [hs]
  have hh : (newHeader .character).parseW endless true = ((.header .character (header 930 926), .ok 930), 1) := by
    rw [← endless_header]; rfl
  rw [show (newFile .character).header = newHeader .character from rfl, hh]
  simp only
  rw [show (newFile .character).format = .character from rfl]
  generalize parseBasesW .character true endless n 930 [] = q at hk
  rcases q with ⟨_ | ⟨bs, off, _ | e⟩, m⟩
  · simp only at hk ⊢; omega
  · simp only at hk ⊢
    split
    · simp only; omega
    · cases sliceFrom endless off with
      | none => simp only; omega
      | some tail =>
        simp only
        generalize (newFile .character).trailer.parseW tail true = q
        obtain ⟨⟨t, e | k⟩, i⟩ := q <;> (simp only; omega)
  · simp only at hk ⊢; omega

/-! ### C125 -/

/-- C125. What is joined is the text of the segments. -/
theorem C125_same (g : Segs) : g.stringW.1 = g.string := by
  unfold Segs.stringW
  rw [joinW_fst, List.nil_append]
  rfl

theorem foldl_joinW_snd (l : List Bytes) (h : ∀ t ∈ l, t ≠ []) : (l.foldl joinW ([], 0)).2 = Spec.copied l := by
  induction l using List.reverseRecOn with
  | nil => rfl
  | append_singleton l t ih =>
    rw [List.foldl_append, List.foldl_cons, List.foldl_nil, joinW]
    simp only
    rw [ih fun t ht => h t (List.mem_append_left _ ht), joinW_fst, List.nil_append]
    unfold Spec.copied
    rw [List.length_append, List.length_singleton, List.range_succ (n := l.length + 1), List.map_append, List.sum_append]
    have e1 : (List.range (l.length + 1)).map (fun k => if k < 2 then 0 else ((l ++ [t]).take k).flatten.length) =
        (List.range (l.length + 1)).map (fun k => if k < 2 then 0 else (l.take k).flatten.length) := by
      apply List.map_congr_left
      intro k hk
      rw [List.take_append_of_le_length (by have := List.mem_range.1 hk; omega)]
    rw [e1]
    congr 1
    have ht : t ≠ [] := h t (List.mem_append_right _ List.mem_cons_self)
    simp only [List.map_cons, List.map_nil, List.sum_singleton]
    have e2 : (l ++ [t]).take (l.length + 1) = l ++ [t] := List.take_of_length_le (by simp)
    rw [e2]
    cases l with
    | nil => simp
    | cons a l =>
      have ha : a ≠ [] := h a List.mem_cons_self
      rw [if_neg (by simp [ha, ht]), if_neg (by simp)]
      simp [Nat.add_assoc]

theorem foldl_joinW_le (l : List Bytes) : ∀ acc : Bytes × Nat,
    (l.foldl joinW acc).2 ≤ acc.2 + l.length * (acc.1.length + l.flatten.length) := by
  induction l with
  | nil => intro acc; simp
  | cons t l ih =>
    intro acc
    rw [List.foldl_cons]
    refine le_trans (ih _) ?_
    rw [joinW, List.flatten_cons, List.length_append, List.length_cons]
    simp only [List.length_append]
    generalize l.flatten.length = m
    rw [Nat.succ_mul, ← Nat.add_assoc acc.1.length t.length m]
    split <;> omega

/-- C125. What is copied for well-formed segments, exactly: after each segment but the first all the text so far. -/
theorem C125_exact (g : Segs) (h : Spec.SegsOk g) : g.stringW.2 = Spec.copied (g.list.map Seg.string) := by
  refine foldl_joinW_snd _ fun t ht => ?_
  obtain ⟨s, hs, rfl⟩ := List.mem_map.1 ht
  have hm := h.mem s hs
  have h1 := seg_string_length rfl ((layout_segment s.kind).widthAll_of_fits hm.typed hm.fits)
  have h2 := length_ge s.kind
  intro h
  rw [h, List.length_nil] at h1
  omega

/-- C125, a bound for all records: at most the text of the segments once for each segment. -/
theorem C125_bound_partial (g : Segs) : g.stringW.2 ≤ (g.j1.length + g.j2.length + 6) * g.string.length := by
  refine le_trans (foldl_joinW_le _ _) ?_
  rw [List.length_map, Nat.zero_add, List.length_nil, Nat.zero_add]
  refine Nat.mul_le_mul ?_ (le_refl _)
  unfold Segs.list
  have o : ∀ o : Option Seg, o.toList.length ≤ 1 := fun o => by cases o <;> simp
  have := o g.k1
  have := o g.k2
  have := o g.k3
  have := o g.k4
  have := o g.l1
  have := o g.n1
  simp only [List.length_append]
  omega

theorem joinW_replicate {t : Bytes} (ht : t ≠ []) (n : Nat) : ∀ acc : Bytes × Nat, acc.1 ≠ [] →
    2 * ((List.replicate n t).foldl joinW acc).2 = 2 * acc.2 + 2 * (n * acc.1.length) + t.length * (n * (n + 1)) := by
  induction n with
  | zero => intro acc _; simp
  | succ n ih =>
    intro acc ha
    rw [List.replicate_succ, List.foldl_cons, ih _ (by simp [joinW, ha]), joinW]
    simp only
    rw [if_neg (by simp [ha, ht]), List.length_append]
    ring

/-- C125 fails: for every factor there are records, valid and with well-formed segments, for which more bytes are copied than so many times the
length of the record. -/
theorem C125_violated (c : Nat) : ∃ fs g, (Record.base .character fs g).validate = none ∧ Spec.SegsOk g ∧
    c * (Record.base .character fs g).string.length < g.stringW.2 := by
  have hj : Spec.SegmentOk .j1 j1 := segmentOk_of_B (by decide +kernel)
  have hl : j1.string.length = 100 := by decide +kernel
  have hn : j1.string ≠ [] := by intro h; rw [h] at hl; cases hl
  have hf : (fieldsString baseSegmentCharacterFormat (base 0 426)).length = 426 := by decide +kernel
  have hz : baseBlockSize .character (base 0 426) = 426 := by decide +kernel
  have hv : (Record.base .character (base 0 426) {}).validate = none := by decide +kernel
  refine ⟨base 0 426, { j1 := List.replicate (2 * c + 11) j1 }, hv, ?_, ?_⟩
  · constructor
    case j1 => intro s hs; rw [(List.mem_replicate.1 hs).2]; exact hj
    case j2 => intro s hs; exact (List.not_mem_nil hs).elim
    all_goals (intro s hs; exact nomatch hs)
  · have hg : (Segs.list { j1 := List.replicate (2 * c + 11) j1 }).map Seg.string = List.replicate (2 * c + 11) j1.string := by
      simp [Segs.list]
    have hs : (Segs.string { j1 := List.replicate (2 * c + 11) j1 }).length = (2 * c + 11) * 100 := by
      rw [Segs.string, hg, List.length_flatten, List.map_replicate, hl, List.sum_replicate_nat]
    have hw := joinW_replicate hn (2 * c + 10) (j1.string, 0) hn
    have hx : (Segs.stringW { j1 := List.replicate (2 * c + 11) j1 }) = (List.replicate (2 * c + 10) j1.string).foldl joinW (j1.string, 0) := by
      rw [Segs.stringW, hg, List.replicate_succ, List.foldl_cons]
      rfl
    have ht : (Record.base .character (base 0 426) { j1 := List.replicate (2 * c + 11) j1 }).string.length = 426 + (2 * c + 11) * 100 := by
      rw [Record.string, padTo, List.length_append, List.length_replicate, List.length_append, hs, hz]
      rw [show fieldsString (Enc.baseFormat .character) (base 0 426) = fieldsString baseSegmentCharacterFormat (base 0 426) from rfl, hf]
      omega
    rw [ht, hx]
    simp only [hl] at hw
    nlinarith

/-! ### Cases -/

/-- A record with segments, its block descriptor and length. -/
def workText : Bytes := (Record.base .character (base 660 656) { j1 := [j1], k1 := some k1, k4 := some k4 }).string

/-- Case of `C124_record`: four calls for a record with three segments; one for a text without segments. -/
example : ((newBase .character).parseW workText true).2 = 4 ∧ workText.length / 30 + 1 = 22 ∧
    ((newBase .character).parseW (workText.take 300) true).2 = 1 := by decide +kernel

/-- Case of `C124_exact`: a record with segments in unusual order and a repeated K1. -/
example : (newBase .character).parse mixedRecord true = (.base .character (base 1000 996) { j1 := [j1', j1], k1 := some k1' }, .ok 1000) ∧
    Spec.Segmented (mixedRecord.drop (Spec.segmentsStart .character (base 1000 996)))
      [(.k1, k1.string), (.j1, j1'.string), (.k1, k1'.string), (.j1, j1.string)] ∧
    ((newBase .character).parseW mixedRecord true).2 = 5 := by
  refine ⟨by decide +kernel, ?_, by decide +kernel⟩
  rw [show mixedRecord.drop (Spec.segmentsStart .character (base 1000 996)) =
    k1.string ++ (j1'.string ++ (k1'.string ++ (j1.string ++ List.replicate 302 32))) by decide +kernel]
  exact .step (by decide +kernel) (by decide +kernel) (.step (by decide +kernel) (by decide +kernel) (.step (by decide +kernel) (by decide +kernel)
    (.step (by decide +kernel) (by decide +kernel) (.done (.inl ((noSegment_iff _).2 (by decide +kernel)))))))

/-- Case of `C124_needed_record`: the third segment is cut off, and the record is refused with two segments. -/
example : (∃ fs e, (newBase .character).parse (workText.take 590) true = (.base .character fs { j1 := [j1], k1 := some k1 }, .error e)) ∧
    ((newBase .character).parseW (workText.take 590) true).2 = 4 :=
  ⟨⟨base 660 656, .segmentLength, by decide +kernel⟩, by decide +kernel⟩

/-- Case of `C124_needed` and of `C124_needed_parse`: 13 parts. -/
example : readFile slow (fixedFile.string true) = .ok fixedFile ∧ Spec.partsOf fixedFile = 13 ∧
    (newFile .character).parse 9 (fixedFile.string true) false = some (fixedFile, none) := by
  refine ⟨?_, by decide +kernel, C43_character false fixedFile fixedFile_good true 9 (by decide)⟩
  have := readFile_text fixedFile_good (goodFile_noBreaks fixedFile_good) true [] slow_progress
  rwa [List.append_nil] at this

/-- Case of `C124_reader` and of `C124_same`: a text which is read; the counter is at most 85. -/
example : (readFileW slow (fixedFile.string true)).1 = .ok fixedFile ∧ (fixedFile.string true).length / 30 + 3 = 85 := by
  refine ⟨?_, by decide +kernel⟩
  rw [readFileW_fst]
  have := readFile_text fixedFile_good (goodFile_noBreaks fixedFile_good) true [] slow_progress
  rwa [List.append_nil] at this

/-- Case of `C124_parse_partial` and of `C124_no_minus`: a header, a data record with a segment and a trailer, without minus sign. -/
example : let t := File.string ⟨.character, .header .character (header 430 426),
      [.base .character (base 530 526) { j1 := [j1] }], .trailer .character (trailer 426)⟩ true
    (45 : UInt8) ∉ t ∧ Spec.Uniform (newFile .character) :=
  ⟨by decide +kernel, (C32_reachable (.new .character)).1⟩

/-- Case of `C125_exact` and of `C125_same`: three segments, of 100, 34 and 30 bytes. -/
example : Spec.SegsOk { j1 := [j1], k1 := some k1, k4 := some k4 } ∧
    (Segs.stringW { j1 := [j1], k1 := some k1, k4 := some k4 }).2 = 134 + 164 := ⟨segsOk_of_B (by decide +kernel), by decide +kernel⟩

/-- Case of `C125_bound_partial`: the bound is 7 times 164. -/
example : (Segs.string { j1 := [j1], k1 := some k1, k4 := some k4 }).length = 164 := by decide +kernel

end Metro2
