import Verif.Lemmas.Size
import Verif.Props.Work
import Verif.Props.Checked
import Verif.Lemmas.Check

/-!
Property C127: how long the text of a record and of a file can be.
-/

namespace Metro2

open Samples

theorem segmentsOf_eq (g : Segs) : Spec.segmentsOf g = g.list := by
  have h : ∀ (o : Option Seg) (l : List (Option Seg)), (o :: l).filterMap id = o.toList ++ l.filterMap id := by
    intro o l; cases o <;> rfl
  simp only [Spec.segmentsOf, Segs.list, h, List.filterMap_nil, List.append_nil, List.append_assoc]

theorem seg_between {s : Seg} (ht : s.fields.Typed s.kind.struct) (hs : Spec.GoTimes s.fields) :
    Spec.segmentLength s.kind ≤ s.string.length ∧ s.string.length ≤ 4 * Spec.segmentLength s.kind := by
  rw [segmentLength_eq]
  exact (layout_segment s.kind).fieldsString_between_plain (seg_noBdwRow _) ht hs

theorem segs_between {l : List Seg} (ht : Spec.TypedSegments l) (hs : ∀ s ∈ l, Spec.GoTimes s.fields) :
    (l.map fun s => Spec.segmentLength s.kind).sum ≤ ((l.map Seg.string).flatten).length ∧
    ((l.map Seg.string).flatten).length ≤ 4 * (l.map fun s => Spec.segmentLength s.kind).sum := by
  induction l with
  | nil => simp
  | cons s l ih =>
    have h1 := ih (fun x hx => ht x (List.mem_cons_of_mem _ hx)) fun x hx => hs x (List.mem_cons_of_mem _ hx)
    have h2 := seg_between (ht s List.mem_cons_self) (hs s List.mem_cons_self)
    simp only [List.map_cons, List.flatten_cons, List.length_append, List.sum_cons]
    omega

theorem clamped_le (v : Int) : clampedBlockSize v ≤ 65535 := by unfold clampedBlockSize; split <;> omega

/-- C127, segments: at least the documented length, at most four times that, whatever the values are. -/
theorem C127_segment (s : Seg) (ht : s.fields.Typed s.kind.struct) (hs : Spec.GoTimes s.fields) :
    Spec.segmentLength s.kind ≤ s.string.length ∧ s.string.length ≤ 4 * Spec.segmentLength s.kind := seg_between ht hs

/-- C127, records: at least the documented length; at most four times that and a block descriptor, or 65535 bytes if that is more,
whatever the values are, the descriptor words among them. -/
theorem C127_record (r : Record) (hv : Spec.AnyValues r) (ht : Spec.GoRecord r) :
    Spec.nominal r ≤ r.string.length ∧ r.string.length ≤ max 65535 (4 * Spec.nominal r + 4) := by
  cases r with
  | header enc fs =>
    have h1 := (layout_header enc).fieldsString_between (blocked_header enc) hv ht
    have h2 := clamped_le (if fs.int .BlockDescriptorWord = 0 then fs.int .RecordDescriptorWord else fs.int .BlockDescriptorWord)
    simp only [Record.string, padTo_length, headerBlockSize, Spec.nominal, recordLength_eq]
    omega
  | base enc fs g =>
    obtain ⟨hv1, hv2⟩ := hv
    obtain ⟨ht1, ht2⟩ := ht
    have h1 := (layout_base enc).fieldsString_between (blocked_base enc) hv1 ht1
    have h2 := segs_between (l := Spec.segmentsOf g) hv2 ht2
    have h3 : baseBlockSize enc fs ≤ 65535 := by cases enc <;> exact clamped_le _
    have h4 : g.string = ((Spec.segmentsOf g).map Seg.string).flatten := by rw [segmentsOf_eq]; rfl
    simp only [Record.string, padTo_length, Spec.nominal, recordLength_eq, List.length_append, h4]
    omega
  | trailer enc fs =>
    have h1 := (layout_trailer enc).fieldsString_between_plain (trailer_noBdwRow enc) hv ht
    have h2 := clamped_le (fs.int .RecordDescriptorWord)
    simp only [Record.string, padTo_length, Spec.nominal, recordLength_eq]
    omega

theorem parts_segments (enc : Enc) (fs : Fields) (g : Segs) : Spec.parts (.base enc fs g) = 1 + (Spec.segmentsOf g).length := by
  have h : ∀ o : Option Seg, o.toList.length = Spec.present o := by intro o; cases o <;> simp [Spec.present]
  rw [segmentsOf_eq]
  simp only [Spec.parts, Segs.list, List.length_append, h]
  omega

theorem record_le_parts (r : Record) (hv : Spec.AnyValues r) (ht : Spec.GoRecord r) : r.string.length ≤ 65535 * Spec.parts r := by
  have h1 := (C127_record r hv ht).2
  cases r with
  | header enc fs =>
    have : Spec.recordLength enc ≤ 426 := by cases enc <;> decide
    simp only [Spec.nominal, Spec.parts] at h1 ⊢
    omega
  | trailer enc fs =>
    have : Spec.recordLength enc ≤ 426 := by cases enc <;> decide
    simp only [Spec.nominal, Spec.parts] at h1 ⊢
    omega
  | base enc fs g =>
    have h2 : Spec.recordLength enc ≤ 426 := by cases enc <;> decide
    have h3 : ∀ l : List Seg, (l.map fun s => Spec.segmentLength s.kind).sum ≤ 200 * l.length := by
      intro l
      induction l with
      | nil => simp
      | cons s l ih =>
        have : Spec.segmentLength s.kind ≤ 200 := by cases s.kind <;> decide
        simp only [List.map_cons, List.sum_cons, List.length_cons]
        omega
    have h4 := h3 (Spec.segmentsOf g)
    rw [parts_segments]
    simp only [Spec.nominal] at h1
    omega

/-- C127, files: at most 65536 bytes for each record and each segment. -/
theorem C127_file (f : File) (hu : Spec.Uniform f) (hv : Spec.AnyRecords f) (ht : Spec.GoFile f) (newline : Bool) :
    (f.string newline).length ≤ 65536 * Spec.partsOf f := by
  have h1 := record_le_parts f.header hv.header ht.header
  have h2 := record_le_parts f.trailer hv.trailer ht.trailer
  obtain ⟨fs, hh⟩ := hu.header
  obtain ⟨ts, hr⟩ := hu.trailer
  have h3 : Spec.parts f.header = 1 := by rw [hh]; rfl
  have h4 : Spec.parts f.trailer = 1 := by rw [hr]; rfl
  have h5 : (newLine newline).length ≤ 1 := by cases newline <;> decide
  have h6 : ∀ l : List Record, (∀ r ∈ l, Spec.AnyValues r ∧ Spec.GoRecord r) →
      ((l.map fun b => b.string ++ newLine newline).flatten).length ≤ 65536 * (l.map Spec.parts).sum := by
    intro l hl
    induction l with
    | nil => simp
    | cons r l ih =>
      have h7 := ih fun x hx => hl x (List.mem_cons_of_mem _ hx)
      have h8 := record_le_parts r (hl r List.mem_cons_self).1 (hl r List.mem_cons_self).2
      have h9 : 1 ≤ Spec.parts r := by cases r <;> simp [Spec.parts]
      simp only [List.map_cons, List.flatten_cons, List.length_append, List.sum_cons]
      omega
  have h7 := h6 f.bases fun r hr => ⟨hv.bases r hr, ht.bases r hr⟩
  simp only [File.string, List.length_append, Spec.partsOf]
  omega

/-! ### Times that are read -/

theorem goTime_plain {t : Time} (h : Spec.PlainTime t) : Spec.GoTime t := by
  obtain ⟨⟨-, h1, -, h2, h3, h4, h5, -⟩, h6, h7, -, -⟩ := (spec_plainTime_iff t).1 h
  have h8 : daysIn t.month t.year ≤ 31 := by
    unfold daysIn
    repeat' split
    all_goals omega
  exact ⟨h1, by omega, h3, h4, h5, by omega⟩

theorem parseValue_time {e : Field} {data : Bytes} {t : Time} (h : parseValue e data = .ok (.time t)) : Spec.GoTime t := by
  unfold parseValue at h
  split at h
  · split at h <;> cases h
  · obtain ⟨a, ha, hb⟩ := except_map_ok' h
    cases hb; exact goTime_plain (timeFromString_timestamp_plain ha)
  · obtain ⟨a, ha, hb⟩ := except_map_ok' h
    cases hb; exact goTime_plain (timeFromString_date_plain ha).1
  · cases h
  · cases h
  · split at h <;> cases h
  · obtain ⟨a, ha, hb⟩ := except_map_ok' h
    cases hb
    obtain ⟨s, hs⟩ := timeFromPacked_ok ha
    exact goTime_plain (timeFromString_timestamp_plain hs)
  · obtain ⟨a, ha, hb⟩ := except_map_ok' h
    cases hb
    obtain ⟨s, hs⟩ := timeFromPacked_ok ha
    exact goTime_plain (timeFromString_date_plain hs).1
  · obtain ⟨a, ha, hb⟩ := except_map_ok' h
    cases hb

theorem goTimes_cons {f : F} {v : Val} {fs : Fields} : Spec.GoTimes ((f, v) :: fs) ↔ (∀ t, v = .time t → Spec.GoTime t) ∧ Spec.GoTimes fs := by
  constructor
  · exact fun h => ⟨fun t ht => h f t (by rw [ht]; exact List.mem_cons_self), fun f' t ht => h f' t (List.mem_cons_of_mem _ ht)⟩
  · rintro ⟨h1, h2⟩ f' t ht
    rcases List.mem_cons.1 ht with ht | ht
    · cases ht; exact h1 t rfl
    · exact h2 f' t ht

theorem parseLoop_times (fmt : Format) (pol : BdwPolicy) (bounds : Bool) (rec : Bytes) (off : Nat) (fs : Fields) (h : Spec.GoTimes fs) :
    Spec.GoTimes (parseLoop fmt pol bounds rec off fs).1 := by
  induction fs generalizing off with
  | nil => exact h
  | cons p fs ih =>
    obtain ⟨f, v⟩ := p
    obtain ⟨h1, h2⟩ := goTimes_cons.1 h
    have hset : ∀ {new w e data}, parseValue e data = .ok new → setVal v new = some w → ∀ t, w = .time t → Spec.GoTime t := by
      intro new w e data hp hs t ht
      subst ht
      unfold setVal at hs
      split at hs
      · cases hs
      · cases hs
      · cases hs; exact parseValue_time hp
      · cases hs
    rw [parseLoop]
    split
    · exact h
    · split
      · exact h
      · split
        · exact h
        · split
          · exact h
          · split
            · exact h
            · next new hp =>
              split
              · exact goTimes_cons.2 ⟨h1, ih _ h2⟩
              · exact h
              · split
                · exact h
                · next w hw => exact goTimes_cons.2 ⟨hset hp hw, ih _ h2⟩
              · split
                · exact h
                · next w hw => exact goTimes_cons.2 ⟨hset hp hw, ih _ h2⟩

theorem seg_parse_times (s : Seg) (rec : Bytes) (isVar : Bool) (h : Spec.GoTimes s.fields) : Spec.GoTimes (s.parse rec isVar).1.fields := by
  unfold Seg.parse
  split
  · exact h
  · have := parseLoop_times s.kind.format (if isVar then .accept else .skip) true rec 0 s.fields h
    generalize parseLoop _ _ _ _ _ _ = q at this ⊢
    obtain ⟨fs, _ | e⟩ := q <;> exact this

/-- All times among the values are times of Go, as a computation. -/
def goTimesB (fs : Fields) : Bool := fs.all fun p => match p.2 with
  | .time t => decide (t.month ≤ 12 ∧ t.day ≤ 31 ∧ t.hour < 24 ∧ t.min < 60 ∧ t.sec < 60 ∧ t.year.natAbs < 10 ^ 12)
  | _ => true

theorem goTimes_of_B {fs : Fields} (h : goTimesB fs = true) : Spec.GoTimes fs := by
  intro f t hm
  have := List.all_eq_true.1 h _ hm
  exact of_decide_eq_true (p := t.month ≤ 12 ∧ t.day ≤ 31 ∧ t.hour < 24 ∧ t.min < 60 ∧ t.sec < 60 ∧ t.year.natAbs < 10 ^ 12) this

/-- The segments of the record hold times of Go. -/
def SegTimes (g : Segs) : Prop := ∀ s ∈ g.list, Spec.GoTimes s.fields

theorem segTimes_add {g g' : Segs} (hg : SegTimes g) {s : Seg} (hs : Spec.GoTimes s.fields) {e : Option Err}
    (h : g.add s = (g', e)) : SegTimes g' := by
  unfold Segs.add at h
  cases hv : s.validate with
  | some e => rw [hv] at h; cases h; exact hg
  | none =>
    rw [hv] at h
    cases h
    intro x hx
    have hm : x ∈ g.list ∨ x = s := by
      unfold Segs.store at hx
      split at hx <;> simp only [Segs.list, List.mem_append, Option.mem_toList, List.mem_singleton, Option.some.injEq] at hx ⊢ <;>
        grind
    rcases hm with hm | rfl
    · exact hg x hm
    · exact hs

theorem segTimes_clear {g : Segs} (hg : SegTimes g) : SegTimes { g with j1 := [], j2 := [] } := by
  intro x hx
  refine hg x ?_
  simp only [Segs.list, List.mem_append, List.nil_append] at hx ⊢
  grind

theorem segTimes_empty : SegTimes {} := by
  intro x hx
  cases hx

theorem newSeg_times (k : SegKind) : Spec.GoTimes (Seg.new k).fields := goTimes_of_B (by cases k <;> decide +kernel)

theorem readSegs_times {isVar : Bool} (fuel : Nat) {g : Segs} {off : Nat} {rec : Bytes} (hg : SegTimes g) :
    SegTimes (readSegs isVar fuel g off rec).1 := by
  induction fuel generalizing g off rec with
  | zero => exact hg
  | succ fuel ih =>
    rw [readSegs]
    split
    · split
      · exact hg
      · split
        · exact hg
        · next k hk =>
          have hp := seg_parse_times (Seg.new k) rec isVar (newSeg_times k)
          generalize (Seg.new k).parse rec isVar = q at hp ⊢
          obtain ⟨s, e' | n⟩ := q
          · exact hg
          · simp only at hp ⊢
            cases ha : g.add s with
            | mk g1 e1 =>
              have := segTimes_add hg hp ha
              cases e1 with
              | some e1 => exact this
              | none => exact ih this
    · exact hg

theorem goRecord_base {enc : Enc} {fs : Fields} {g : Segs} : Spec.GoRecord (.base enc fs g) ↔ Spec.GoTimes fs ∧ SegTimes g := by
  simp only [Spec.GoRecord, SegTimes, segmentsOf_eq]

theorem record_parse_times (r : Record) (rec : Bytes) (isVar : Bool) (h : Spec.GoRecord r) : Spec.GoRecord (r.parse rec isVar).1 := by
  cases r with
  | header enc fs =>
    show Spec.GoTimes (parseHeader enc fs rec isVar).1
    unfold parseHeader
    split
    · exact h
    · have := parseLoop_times enc.headerFormat (headerPolicy enc rec isVar) true rec 0 fs h
      generalize parseLoop _ _ _ _ _ _ = q at this ⊢
      obtain ⟨fs, _ | e⟩ := q <;> exact this
  | trailer enc fs =>
    show Spec.GoTimes (parseTrailer enc fs rec isVar).1
    unfold parseTrailer
    split
    · exact h
    · have : Spec.GoTimes (trailerLoop enc fs rec isVar).1 := by cases enc <;> exact parseLoop_times _ _ _ _ _ _ h
      generalize trailerLoop enc fs rec isVar = q at this ⊢
      obtain ⟨fs, _ | e⟩ := q <;> exact this
  | base enc fs g =>
    obtain ⟨h1, h2⟩ := goRecord_base.1 h
    have hc := segTimes_clear h2
    cases enc with
    | character =>
      refine goRecord_base.2 ?_
      unfold parseBaseCharacter
      split
      · exact ⟨h1, h2⟩
      · have := parseLoop_times baseSegmentCharacterFormat (if isVar then .accept else .skip) true rec 0 fs h1
        generalize parseLoop _ _ _ _ _ _ = q at this ⊢
        obtain ⟨fs', _ | e⟩ := q
        · simp only at this ⊢
          generalize (if fs'.int .BlockDescriptorWord > 0 then 426 + 4 else 426 : Nat) = off
          split
          · exact ⟨this, hc⟩
          · split
            · exact ⟨this, hc⟩
            · next tail _ =>
              have hr : SegTimes (readApplicableSegments { g with j1 := [], j2 := [] } tail isVar).1 := readSegs_times _ hc
              generalize readApplicableSegments _ _ _ = q at hr ⊢
              obtain ⟨g', e | n⟩ := q
              · exact ⟨this, hr⟩
              · simp only
                split
                · exact ⟨this, hr⟩
                · split <;> exact ⟨this, hr⟩
        · exact ⟨this, h2⟩
    | packed =>
      refine goRecord_base.2 ?_
      unfold parseBasePacked
      split
      · exact ⟨h1, h2⟩
      · have := parseLoop_times baseSegmentPackedFormat (if isVar then .accept else .fail) true rec 0 fs h1
        generalize parseLoop _ _ _ _ _ _ = q at this ⊢
        obtain ⟨fs', _ | e⟩ := q
        · simp only at this ⊢
          split
          · exact ⟨this, hc⟩
          · split
            · exact ⟨this, hc⟩
            · next tail _ =>
              have hr : SegTimes (readApplicableSegments { g with j1 := [], j2 := [] } tail isVar).1 := readSegs_times _ hc
              generalize readApplicableSegments _ _ _ = q at hr ⊢
              obtain ⟨g', e | n⟩ := q
              · exact ⟨this, hr⟩
              · simp only
                split <;> exact ⟨this, hr⟩
        · exact ⟨this, h2⟩

theorem newBase_times (enc : Enc) : Spec.GoRecord (newBase enc) :=
  goRecord_base.2 ⟨goTimes_of_B (by decide +kernel), segTimes_empty⟩

theorem readTrailer_times {f g : File} (h : Spec.GoFile f) {line : Bytes} {isVar : Bool} (hr : readTrailer f line isVar = .ok g) : Spec.GoFile g := by
  unfold readTrailer at hr
  have h1 := record_parse_times f.trailer line isVar h.trailer
  generalize f.trailer.parse line isVar = q at hr h1
  obtain ⟨t, e | x⟩ := q <;> cases hr
  exact ⟨h.header, h.bases, h1⟩

/-- The same for the records of a file without data records. -/
def newTimesB (f : File) : Bool := f.bases.isEmpty && (match f.header, f.trailer with
  | .header _ fs, .trailer _ ts => goTimesB fs && goTimesB ts
  | _, _ => false)

theorem goFile_of_B {f : File} (h : newTimesB f = true) : Spec.GoFile f := by
  obtain ⟨enc, hd, bs, tr⟩ := f
  unfold newTimesB at h
  simp only [Bool.and_eq_true, List.isEmpty_iff] at h
  obtain ⟨rfl, h⟩ := h
  split at h
  · simp only [Bool.and_eq_true] at h
    exact ⟨goTimes_of_B h.1, by simp, goTimes_of_B h.2⟩
  · cases h

theorem readHeader_times {g : File} {line : Bytes} {isVar : Bool} (h : readHeader (newFile .character) line = .ok (g, isVar)) : Spec.GoFile g := by
  unfold readHeader at h
  split at h
  · cases h
  · split at h
    · cases h
    · next packed _ =>
      simp only at h
      have hs : Spec.GoFile ((newFile .character).setType (if packed then Enc.packed.name else messageMetroFormat)).1 := by
        have key : ∀ packed : Bool, newTimesB ((newFile .character).setType (if packed then Enc.packed.name else messageMetroFormat)).1 = true := by
          decide +kernel
        exact goFile_of_B (key packed)
      generalize ((newFile .character).setType (if packed then Enc.packed.name else messageMetroFormat)).1 = f1 at h hs
      have h1 := record_parse_times f1.header line (isVariableLength line) hs.header
      generalize f1.header.parse line (isVariableLength line) = q at h h1
      obtain ⟨t, e | x⟩ := q <;> cases h
      exact ⟨h1, hs.bases, hs.trailer⟩

theorem readFile_times {p : Plan} {data : Bytes} {f : File} (h : readFile p data = .ok f) : Spec.GoFile f := by
  unfold readFile at h
  simp only at h
  split at h
  · cases h
  · next s line hs =>
    cases hh : readHeader (newFile .character) line with
    | error e => rw [hh] at h; cases h
    | ok q =>
      obtain ⟨f1, isVar⟩ := q
      rw [hh] at h
      simp only at h
      have ht := readHeader_times hh
      cases hb : readBases p f1.format isVar s [] with
      | error e => rw [hb] at h; cases h
      | ok q =>
        obtain ⟨bs, l, t⟩ := q
        rw [hb] at h
        have hP := readBases_inv (P := Spec.GoRecord) (fun rec => record_parse_times _ rec isVar (newBase_times _)) s [] (by simp) hb
        have ht2 : Spec.GoFile { f1 with bases := bs } := ⟨ht.header, hP, ht.trailer⟩
        cases l with
        | some line => exact readTrailer_times ht2 h
        | none =>
          simp only at h
          split at h
          · cases h
          · exact readTrailer_times ht2 h

/-! ### Lengths of what is read -/

/-- The documented length of the segments of a record. -/
def segSum (g : Segs) : Nat := (g.list.map fun s => Spec.segmentLength s.kind).sum

theorem segSum_add {g g' : Segs} {s : Seg} {e : Option Err} (h : g.add s = (g', e)) : segSum g' ≤ segSum g + Spec.segmentLength s.kind := by
  unfold Segs.add at h
  cases hv : s.validate with
  | some e => rw [hv] at h; cases h; omega
  | none =>
    rw [hv] at h
    cases h
    unfold Segs.store
    split <;> simp only [segSum, Segs.list, List.map_append, List.sum_append, List.map_cons, List.map_nil, List.sum_cons, List.sum_nil, Option.toList] <;> omega

theorem newSeg_parse_ok {k : SegKind} {rec : Bytes} {isVar : Bool} {s : Seg} {n : Nat} (h : (Seg.new k).parse rec isVar = (s, .ok n)) :
    s.kind = k ∧ n = Spec.segmentLength k ∧ n ≤ rec.length := by
  unfold Seg.parse at h
  split at h
  · cases h
  · next hl =>
    rw [segmentLength_eq]
    generalize parseLoop _ _ _ _ _ _ = q at h
    obtain ⟨fs, _ | e⟩ := q <;> cases h
    exact ⟨rfl, rfl, Nat.le_of_not_lt hl⟩

theorem readSegs_sum {isVar : Bool} (fuel : Nat) {g g' : Segs} {off n : Nat} {rec : Bytes} (h : readSegs isVar fuel g off rec = (g', .ok n)) :
    segSum g' + off ≤ segSum g + n ∧ n ≤ off + rec.length := by
  induction fuel generalizing g off rec with
  | zero => cases h
  | succ fuel ih =>
    rw [readSegs] at h
    split at h
    · split at h
      · cases h
      · split at h
        · cases h; omega
        · next k hk =>
          cases hp : (Seg.new k).parse rec isVar with
          | mk s x =>
            rw [hp] at h
            cases x with
            | error e => cases h
            | ok read =>
              obtain ⟨h1, h2, h3⟩ := newSeg_parse_ok hp
              simp only at h
              cases ha : g.add s with
              | mk g1 e1 =>
                have h4 := segSum_add ha
                rw [ha] at h
                cases e1 with
                | some e1 => cases h
                | none =>
                  have := ih h
                  rw [List.length_drop] at this
                  rw [h1] at h4
                  omega
    · cases h; omega

theorem newBase_parse_nominal {enc : Enc} {rec : Bytes} {isVar : Bool} {b : Record} {n : Int} (h : (newBase enc).parse rec isVar = (b, .ok n)) :
    Spec.nominal b ≤ rec.length := by
  have hempty : segSum {} = 0 := rfl
  cases enc with
  | character =>
    simp only [newBase, Record.parse, parseBaseCharacter] at h
    split at h
    · cases h
    · next hl =>
      generalize parseLoop _ _ _ _ _ _ = q at h
      obtain ⟨fs', _ | e⟩ := q
      · simp only at h
        generalize ho : (if fs'.int .BlockDescriptorWord > 0 then 426 + 4 else 426 : Nat) = off at h
        have ho' : 426 ≤ off := by subst ho; split <;> omega
        split at h
        · cases h
        · next hl2 =>
          rw [sliceFrom_of_le (by omega) (by omega)] at h
          simp only [Int.toNat_natCast] at h
          cases hr : readApplicableSegments {} (rec.drop off) isVar with
          | mk g' e =>
            rw [hr] at h
            cases e with
            | error e => cases h
            | ok m =>
              have h1 := readSegs_sum _ hr
              rw [hempty, List.length_drop] at h1
              have h2 : b = .base .character fs' g' := by
                simp only at h
                split at h
                · cases h
                · split at h <;> cases h; rfl
              rw [h2, Spec.nominal, segmentsOf_eq, show Spec.recordLength .character = 426 from rfl]
              unfold segSum at h1
              omega
      · cases h
  | packed =>
    simp only [newBase, Record.parse, parseBasePacked] at h
    split at h
    · cases h
    · next hl =>
      generalize parseLoop _ _ _ _ _ _ = q at h
      obtain ⟨fs', _ | e⟩ := q
      · simp only at h
        split at h
        · cases h
        · next hl2 =>
          rw [sliceFrom_of_le (by omega) (by omega)] at h
          simp only [Int.toNat_natCast] at h
          cases hr : readApplicableSegments {} (rec.drop (366 + 4)) isVar with
          | mk g' e =>
            rw [hr] at h
            cases e with
            | error e => cases h
            | ok m =>
              have h1 := readSegs_sum _ hr
              rw [hempty, List.length_drop] at h1
              have h2 : b = .base .packed fs' g' := by
                simp only at h
                split at h <;> cases h; rfl
              rw [h2, Spec.nominal, segmentsOf_eq, show Spec.recordLength .packed = 366 from rfl]
              unfold segSum at h1
              omega
      · cases h

theorem header_parse_nominal {enc : Enc} {fs : Fields} {rec : Bytes} {isVar : Bool} {b : Record} {n : Int}
    (h : (Record.header enc fs).parse rec isVar = (b, .ok n)) : Spec.nominal b ≤ rec.length := by
  simp only [Record.parse, parseHeader] at h
  split at h
  · cases h
  · next hl =>
    have : b = .header enc _ := (Prod.mk.inj h).1.symm
    rw [this, Spec.nominal, recordLength_eq]
    omega

theorem trailer_parse_nominal {enc : Enc} {fs : Fields} {rec : Bytes} {isVar : Bool} {b : Record} {n : Int}
    (h : (Record.trailer enc fs).parse rec isVar = (b, .ok n)) : Spec.nominal b ≤ rec.length := by
  simp only [Record.parse, parseTrailer] at h
  split at h
  · cases h
  · next hl =>
    have : b = .trailer enc _ := (Prod.mk.inj h).1.symm
    rw [this, Spec.nominal, recordLength_eq]
    omega

theorem Scanner.scan_none_le (p : Plan) (s : Scanner) {t : Scanner} (h : s.scan p = (t, none)) :
    t.window.length + t.rest.length ≤ s.window.length + s.rest.length := by
  induction s using Scanner.scan.induct p generalizing t with
  | case1 s hs => rw [Scanner.scan, hs] at h; cases h; exact Nat.le_refl _
  | case2 s advance tk hs => rw [Scanner.scan, hs] at h; simp at h
  | case3 s hs he =>
    rw [Scanner.scan, hs] at h
    simp only [he, dite_true, Prod.mk.injEq, and_true] at h
    subst h
    simp
  | case4 s hs he hg =>
    rw [Scanner.scan, hs] at h
    simp only at h
    rw [dif_neg he] at h
    split at h
    · cases h
      have : s.shift.window = s.window := by unfold Scanner.shift; split <;> rfl
      simp only [this, s.shift_keeps.2]
      exact Nat.le_refl _
    · next hg' => rw [hg] at hg'; simp at hg'
  | case5 s hs he u hg ih =>
    rw [Scanner.scan, hs] at h
    simp only at h
    rw [dif_neg he] at h
    split at h
    · next hg' => rw [hg] at hg'; simp at hg'
    · next u' hg' =>
      rw [hg] at hg'
      cases hg'
      have h1 := ih h
      rw [Scanner.fill_size] at h1
      have h2 : u.rest = s.rest := by rw [(Scanner.grow_keeps hg).2, s.shift_keeps.2]
      have h3 : u.window = s.window := by
        have : s.shift.window = s.window := by unfold Scanner.shift; split <;> rfl
        unfold Scanner.grow at hg
        split at hg
        · split at hg
          · simp at hg
          · cases hg; exact this
        · cases hg; exact this
      rw [h2, h3] at h1
      exact h1

theorem readBases_nominal (p : Plan) (enc : Enc) (isVar : Bool) (s : Scanner) (acc : List Record) {bs : List Record} {o : Option Bytes} {t : Scanner}
    (h : readBases p enc isVar s acc = .ok (bs, o, t)) :
    (bs.map Spec.nominal).sum + (t.window.length + t.rest.length + (o.getD []).length) ≤
      (acc.map Spec.nominal).sum + (s.window.length + s.rest.length) := by
  generalize hn : s.window.length + s.rest.length = n
  induction n using Nat.strongRecOn generalizing s acc with
  | _ n ih =>
    cases hs : s.scan p with
    | mk t' y =>
      cases y with
      | none =>
        rw [readBases_none hs] at h
        cases h
        have := Scanner.scan_none_le p s hs
        simp
        omega
      | some line =>
        have h1 := Scanner.scan_line p s hs
        rw [readBases_some hs] at h
        cases hq : (newBase enc).parse line isVar with
        | mk b x =>
          rw [hq] at h
          cases x with
          | error e =>
            cases e <;> cases h <;> (simp only [Option.getD_some]; omega)
          | ok read =>
            have h2 := ih _ (by rw [← hn]; exact Scanner.scan_lt p s hs) t' (acc ++ [b]) h rfl
            have h3 := newBase_parse_nominal hq
            simp only [List.map_append, List.map_cons, List.map_nil, List.sum_append, List.sum_singleton] at h2
            omega

theorem readTrailer_nominal {f g : File} (hu : Spec.Uniform f) {line : Bytes} {isVar : Bool} (h : readTrailer f line isVar = .ok g) :
    g.header = f.header ∧ g.bases = f.bases ∧ Spec.nominal g.trailer ≤ line.length := by
  unfold readTrailer at h
  obtain ⟨ts, ht⟩ := hu.trailer
  rw [ht] at h
  cases hp : (Record.trailer f.format ts).parse line isVar with
  | mk t x =>
    rw [hp] at h
    cases x with
    | error e => cases h
    | ok n =>
      cases h
      exact ⟨rfl, rfl, trailer_parse_nominal hp⟩

theorem readHeader_nominal {g : File} {line : Bytes} {isVar : Bool} (h : readHeader (newFile .character) line = .ok (g, isVar)) :
    Spec.nominal g.header ≤ line.length := by
  unfold readHeader at h
  split at h
  · cases h
  · split at h
    · cases h
    · next packed _ =>
      simp only at h
      obtain ⟨hu0, ht0⟩ := C32_reachable (.new .character)
      have hs := C32_step hu0 ht0 (op := .setType (if packed then Enc.packed.name else messageMetroFormat)) trivial (.setType _)
      generalize ((newFile .character).setType (if packed then Enc.packed.name else messageMetroFormat)).1 = f1 at h hs
      obtain ⟨fs, hfs⟩ := hs.1.header
      rw [hfs] at h
      cases hp : (Record.header f1.format fs).parse line (isVariableLength line) with
      | mk t x =>
        rw [hp] at h
        cases x with
        | error e => cases h
        | ok n => cases h; exact header_parse_nominal hp

/-- C127. What was read is in the text one after the other. -/
theorem C127_contained (p : Plan) (data : Bytes) (f : File) (h : readFile p data = .ok f) :
    Spec.nominal f.header + (f.bases.map Spec.nominal).sum + Spec.nominal f.trailer ≤ data.length := by
  unfold readFile at h
  simp only at h
  split at h
  · cases h
  · next s line hs =>
    have h1 := Scanner.scan_line p _ hs
    rw [show (newScanner data).window.length = 0 from rfl, show (newScanner data).rest = data from rfl] at h1
    cases hh : readHeader (newFile .character) line with
    | error e => rw [hh] at h; cases h
    | ok q =>
      obtain ⟨f1, isVar⟩ := q
      rw [hh] at h
      simp only at h
      obtain ⟨hu0, ht0⟩ := C32_reachable (.new .character)
      obtain ⟨hu, -⟩ := readHeader_uniform hu0 ht0 hh
      have h2 := readHeader_nominal hh
      cases hb : readBases p f1.format isVar s [] with
      | error e => rw [hb] at h; cases h
      | ok q =>
        obtain ⟨bs, l, t⟩ := q
        rw [hb] at h
        have h3 := readBases_nominal p _ _ _ _ hb
        have hP := readBases_inv (P := fun r => Spec.IsBase f1.format r) (fun rec => (newBase_parse_isBase f1.format rec isVar).1) s [] (by simp) hb
        have hu2 : Spec.Uniform { f1 with bases := bs } := ⟨hu.header, hP, hu.trailer⟩
        simp only [List.map_nil, List.sum_nil] at h3
        cases l with
        | some line =>
          obtain ⟨h4, h5, h6⟩ := readTrailer_nominal hu2 h
          rw [h4, h5]
          simp only [Option.getD_some] at h3 ⊢
          omega
        | none =>
          simp only at h
          split at h
          · cases h
          · next hs2 =>
            obtain ⟨h4, h5, h6⟩ := readTrailer_nominal hu2 h
            have h7 := Scanner.scan_line p _ hs2
            rw [h4, h5]
            simp only [Option.getD_none, List.length_nil] at h3 ⊢
            omega

theorem inFormat_times {enc : Enc} {r : Record} (h : Spec.GoRecord r) : Spec.GoRecord (Spec.inFormat enc r) := by
  cases r <;> exact h

theorem inFormat_nominal (enc : Enc) (r : Record) : 366 ≤ Spec.nominal r ∧ Spec.nominal (Spec.inFormat enc r) ≤ Spec.nominal r + 60 := by
  have h : ∀ e e', 366 ≤ Spec.recordLength e ∧ Spec.recordLength e' ≤ Spec.recordLength e + 60 := by intro e e'; cases e <;> cases e' <;> decide
  cases r with
  | header e fs => exact h e enc
  | base e fs g =>
    have := h e enc
    simp only [Spec.inFormat, Spec.nominal]
    omega
  | trailer e fs => exact h e enc

/-- C127, the reader: what is read from a text, converted to the other format or not and written again has at most 180 times the length of
the text. -/
theorem C127_read (p : Plan) (data : Bytes) (f : File) (h : readFile p data = .ok f) (newline : Bool) :
    (f.string newline).length ≤ 180 * data.length ∧ ∀ type, ((changeType f type).string newline).length ≤ 180 * data.length := by
  obtain ⟨hu, ht, hs⟩ := readFile_sound h
  have ha := sound_any hu ht hs
  have hg := readFile_times h
  have h1 := C127_contained p data f h
  have h5 : (newLine newline).length ≤ 1 := by cases newline <;> decide
  have key : ∀ enc, ((Spec.fileIn enc f).string newline).length ≤ 180 * data.length := by
    intro enc
    have h6 : ∀ r : Record, Spec.AnyValues r → Spec.GoRecord r → (Spec.inFormat enc r).string.length + 1 ≤ 180 * Spec.nominal r := by
      intro r hv ht
      have h2 := (C127_record _ (inFormat_any hv) (inFormat_times (enc := enc) ht)).2
      have h3 := inFormat_nominal enc r
      omega
    have h7 : ∀ l : List Record, (∀ r ∈ l, Spec.AnyValues r ∧ Spec.GoRecord r) →
        (((l.map (Spec.inFormat enc)).map fun b => b.string ++ newLine newline).flatten).length ≤ 180 * (l.map Spec.nominal).sum := by
      intro l hl
      induction l with
      | nil => simp
      | cons r l ih =>
        have h7 := ih fun x hx => hl x (List.mem_cons_of_mem _ hx)
        have h8 := h6 r (hl r List.mem_cons_self).1 (hl r List.mem_cons_self).2
        simp only [List.map_cons, List.flatten_cons, List.length_append, List.sum_cons]
        omega
    have h8 := h7 f.bases fun r hr => ⟨ha.bases r hr, hg.bases r hr⟩
    have h9 := h6 f.header ha.header hg.header
    have h10 := h6 f.trailer ha.trailer hg.trailer
    simp only [Spec.fileIn, File.string, List.length_append]
    omega
  have hself : (f.string newline).length ≤ 180 * data.length := by
    have := key f.format
    rwa [Spec.fileIn, inFormat_self hu] at this
  refine ⟨hself, fun ty => ?_⟩
  rcases changeType_spec hu ty with ⟨-, e⟩ | ⟨-, e⟩ | ⟨-, -, e⟩
  · rw [e]; exact key _
  · rw [e]; exact key _
  · rw [e]; exact hself

/-! ### Both bounds are reached -/

/-- C127. The lower bound is reached by a new segment of each type. -/
theorem C127_least (k : SegKind) : (Seg.new k).string.length = Spec.segmentLength k := by
  cases k <;> decide +kernel

/-- C127. A factor of three is not enough: in an employment segment whose texts are all of characters of four bytes only the one reserved byte
is not written fourfold. -/
theorem C127_fourfold : ∃ s : Seg, s.kind = .n1 ∧ s.fields.Typed s.kind.struct ∧ Spec.GoTimes s.fields ∧
    s.string.length = 581 ∧ 3 * Spec.segmentLength .n1 < 581 := by
  refine ⟨⟨.n1, (zeroFields n1SegmentStruct).map fun p => (p.1, match p.2 with
    | .str _ => .str (List.replicate 40 [0xf0, 0x9f, 0x98, 0x80]).flatten
    | v => v)⟩, rfl, ?_, goTimes_of_B (by decide +kernel), by decide +kernel, by decide⟩
  exact typed_of_typedB (by decide +kernel)

/-- C127. 65535 bytes are reached, by records of each type and format. -/
theorem C127_most (enc : Enc) : ∃ h b t : Fields, h.Typed headerRecordStruct ∧ b.Typed baseSegmentStruct ∧ t.Typed trailerRecordStruct ∧
    (Record.header enc h).string.length = 65535 ∧ (Record.base enc b {}).string.length = 65535 ∧ (Record.trailer enc t).string.length = 65535 := by
  refine ⟨(zeroFields headerRecordStruct).set .RecordDescriptorWord (.int 65535), (zeroFields baseSegmentStruct).set .RecordDescriptorWord (.int 65535),
    (zeroFields trailerRecordStruct).set .RecordDescriptorWord (.int 65535), typed_of_typedB (by decide +kernel),
    typed_of_typedB (by decide +kernel), typed_of_typedB (by decide +kernel), ?_, ?_, ?_⟩
  all_goals
    rw [Record.string, padTo_length]
    cases enc <;> decide +kernel

/-- C127. So much more than was read is really written: there is a data record of 370 bytes which is read and then written in 65535 bytes. -/
theorem C127_amplified : ∃ (text : Bytes) (r : Record), text.length = 370 ∧ (newBase .packed).parse text true = (r, .ok 370) ∧
    Spec.AnyValues r ∧ r.string.length = 65535 := by
  refine ⟨fieldsString baseSegmentPackedFormat (base 370 65531), .base .packed (base 370 65531) {}, by decide +kernel, by decide +kernel,
    ⟨typed_of_typedB (by decide +kernel), by simp [Spec.TypedSegments]⟩, ?_⟩
  rw [Record.string, padTo_length]
  decide +kernel

/-! ### A file that grows when it is written -/

/-- The text of a packed data record that has 370 bytes and says that it has 65535. -/
def Samples.swollen : Bytes := fieldsString baseSegmentPackedFormat (base 370 65531)

/-- A file of such records. -/
def Samples.swollenFile (n : Nat) : File :=
  ⟨.packed, .header .packed (header 370 366), List.replicate n (.base .packed (base 370 65531) {}), .trailer .packed (trailer 366)⟩

/-- Its text, record by record. -/
def Samples.swollenTexts (n : Nat) : List Bytes :=
  (Record.header .packed (header 370 366)).string :: (List.replicate n swollen ++ [(Record.trailer .packed (trailer 366)).string])

theorem lineBases_swollen (l : Bytes) (hl : ∃ b e, (newBase .packed).parse l true = (b, .error e) ∧ e ≠ .panic) (n : Nat) (acc : List Record) :
    lineBases .packed true (List.replicate n swollen ++ [l]) acc =
      .ok (acc ++ List.replicate n (.base .packed (base 370 65531) {}), some l) := by
  have h1 : (newBase .packed).parse swollen true = (.base .packed (base 370 65531) {}, .ok 370) := by decide +kernel
  induction n generalizing acc with
  | zero =>
    obtain ⟨b, e, h, he⟩ := hl
    rw [List.replicate_zero, List.nil_append, lineBases, h]
    cases e <;> simp at he ⊢
  | succ n ih =>
    rw [List.replicate_succ, List.cons_append, lineBases, h1]
    simp only
    rw [ih, List.append_assoc, List.replicate_succ]
    rfl

theorem swollenTexts_texts (n : Nat) : ∀ u ∈ swollenTexts n, RecordText u := by
  intro u hu
  simp only [swollenTexts, List.mem_cons, List.mem_append, List.not_mem_nil, or_false, List.mem_replicate] at hu
  rcases hu with rfl | ⟨-, rfl⟩ | rfl
  · exact recordText_of (enc := .packed) (v := 370) (by decide +kernel) (by decide +kernel) (by decide +kernel) (by decide) (by decide)
  · exact recordText_of (enc := .packed) (v := 370) (by decide +kernel) (by decide +kernel) (by decide +kernel) (by decide) (by decide)
  · exact recordText_of (enc := .packed) (v := 366) (by decide +kernel) (by decide +kernel) (by decide +kernel) (by decide) (by decide)

theorem swollen_read (n : Nat) : readLines (swollenTexts n) = .ok (swollenFile n) := by
  have h1 : readHeader (newFile .character) (Record.header .packed (header 370 366)).string =
      .ok ({ newFile .packed with header := .header .packed (header 370 366) }, true) := by decide +kernel
  have h2 : (newTrailer .packed).parse (Record.trailer .packed (trailer 366)).string true = (.trailer .packed (trailer 366), .ok 366) := by
    decide +kernel
  have h3 : ∃ b e, (newBase .packed).parse (Record.trailer .packed (trailer 366)).string true = (b, .error e) ∧ e ≠ .panic := by
    have h : (match ((newBase .packed).parse (Record.trailer .packed (trailer 366)).string true).2 with
      | .ok _ => false
      | .error e => decide (e ≠ .panic)) = true := by decide +kernel
    generalize (newBase .packed).parse (Record.trailer .packed (trailer 366)).string true = x at h ⊢
    obtain ⟨b, e | k⟩ := x
    · exact ⟨b, e, rfl, of_decide_eq_true h⟩
    · cases h
  rw [swollenTexts, readLines, h1]
  simp only [newFile]
  rw [lineBases_swollen _ h3]
  simp only [readTrailer, List.nil_append]
  rw [h2]
  rfl

/-- C127. So it is for whole files: for every number n there is a text of n data records which is read, however it is delivered, and of which
every data record is written in 65535 bytes for the 370 that were read. -/
theorem C127_amplified_file (n : Nat) : ∃ (raw : Bytes) (f : File), raw.length = 736 + 370 * n ∧
    (∀ p : Plan, p.Progress → readFile p raw = .ok f) ∧ f.bases.length = n ∧ ∀ nl, 65535 * n < (f.string nl).length := by
  have hr : (Record.base .packed (base 370 65531) {}).string.length = 65535 := by
    rw [Record.string, padTo_length]
    decide +kernel
  have hs : swollen.length = 370 := by decide +kernel
  have hh : (Record.header .packed (header 370 366)).string.length = 370 := by decide +kernel
  have ht : (Record.trailer .packed (trailer 366)).string.length = 366 := by decide +kernel
  refine ⟨(swollenTexts n).flatten, swollenFile n, ?_, fun p hp => (readFile_texts hp (swollenTexts_texts n)).trans (swollen_read n), by simp [swollenFile], fun nl => ?_⟩
  · simp only [swollenTexts, List.flatten_cons, List.flatten_append, List.length_append, hh, List.flatten_nil, List.length_nil, ht,
      List.length_flatten, List.map_replicate, hs, List.sum_replicate_nat]
    omega
  · simp only [swollenFile, File.string, List.length_append, hh, List.length_flatten, List.map_replicate, List.sum_replicate_nat, hr,
      Nat.mul_add]
    omega

/-! ### Cases -/

/-- Case of `C127_amplified`: with a record descriptor that is 4 less than the block descriptor 370 bytes are written. -/
example : (Record.base .packed (base 370 366) {}).string.length = 370 := by decide +kernel

/-- Case of `C127_amplified_file`: the text of a file of two such records. -/
example : (swollenTexts 2).flatten.length = 1476 := by decide +kernel

/-- Case of `C127_segment`: a name of a hundred characters of three bytes each, of which thirty are written. -/
example : let s : Seg := ⟨.k1, (Seg.new .k1).fields.set .OriginalCreditorName (.str (List.replicate 100 [0xe2, 0x82, 0xac]).flatten)⟩
    s.fields.Typed s.kind.struct ∧ Spec.GoTimes s.fields ∧ s.string.length = 94 :=
  ⟨typed_of_typedB (by decide +kernel), goTimes_of_B (by decide +kernel), by decide +kernel⟩

/-- Case of `C127_record`: a record that says that it is longer than any number, and whose date is in the year one hundred thousand. -/
example : let r : Record := .base .character (base (2 ^ 62) (-3) [(.DateOpened, .time ⟨100000, 1, 1, 0, 0, 0, 0, .utc⟩)]) {}
    Spec.AnyValues r ∧ Spec.GoRecord r ∧ r.string.length = 432 := by
  refine ⟨⟨?_, by simp [Spec.TypedSegments]⟩, ⟨goTimes_of_B (by decide +kernel), by simp [Spec.segmentsOf]⟩, by decide +kernel⟩
  exact typed_of_typedB (by decide +kernel)

/-- Case of `C127_file`, of `C127_contained` and of `C127_read`: a file with 13 parts, read from its text. -/
example : readFile slow (fixedFile.string true) = .ok fixedFile ∧ Spec.Uniform fixedFile ∧ Spec.AnyRecords fixedFile ∧ Spec.GoFile fixedFile ∧
    Spec.partsOf fixedFile = 13 := by
  have h : readFile slow (fixedFile.string true) = .ok fixedFile := by
    have := readFile_text fixedFile_good (goodFile_noBreaks fixedFile_good) true [] slow_progress
    rwa [List.append_nil] at this
  obtain ⟨hu, ht, hs⟩ := readFile_sound h
  exact ⟨h, hu, sound_any hu ht hs, readFile_times h, by decide +kernel⟩

/-- Case of `C127_least`: the shortest. -/
example : (Seg.new .k4).string.length = 30 := C127_least .k4

/-- Case of `C127_fourfold`: the text of one such character, in a field of one byte. -/
example : fmtLeftStr 1 [0xf0, 0x9f, 0x98, 0x80, 65] = [0xf0, 0x9f, 0x98, 0x80] := by decide

/-- Case of `C127_most`: one more than 65535 is not taken as a length. -/
example : (Record.trailer .packed ((zeroFields trailerRecordStruct).set .RecordDescriptorWord (.int 65536))).string.length = 366 := by decide +kernel

end Metro2
