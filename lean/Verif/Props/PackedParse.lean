import Verif.Props.Accessors
import Verif.Spec.Touch

/-! C43 for packed files, exactly. -/

namespace Metro2

open Samples

/-! ### The sizes that were read add up -/

theorem parseBases_sizes {enc : Enc} {isVar : Bool} {record : Bytes} : ∀ (fuel : Nat) (off off' : Int) (acc bs : List Record)
    (e : Option Err), parseBases enc isVar record fuel off acc = some (bs, off', e) →
    ∃ new, bs = acc ++ new ∧ off' = off + (new.map Spec.reported).sum := by
  intro fuel
  induction fuel with
  | zero => intro off off' acc bs e h; simp [parseBases] at h
  | succ n ih =>
    intro off off' acc bs e h
    rw [parseBases_succ] at h
    split at h
    · simp only [Option.some.injEq, Prod.mk.injEq] at h
      exact ⟨[], by simp [h.1], by simp [h.2.1]⟩
    · split at h
      · simp only [Option.some.injEq, Prod.mk.injEq] at h
        exact ⟨[], by simp [h.1], by simp [h.2.1]⟩
      · simp only [Option.some.injEq, Prod.mk.injEq] at h
        exact ⟨[], by simp [h.1], by simp [h.2.1]⟩
      · next b read hp =>
        obtain ⟨new, h1, h2⟩ := ih _ _ _ _ _ h
        refine ⟨b :: new, by rw [h1]; simp, ?_⟩
        rw [h2, C97_parse _ _ _ _ _ hp, List.map_cons, List.sum_cons]
        omega

/-- C97. What `File.Parse` accepts is, line breaks aside, as long as the sizes of the records that it read. -/
theorem C97_accepted (f f' : File) (fuel : Nat) (buf : Bytes) (isVar : Bool) (h : f.parse fuel buf isVar = some (f', none)) :
    ((Spec.withoutBreaks buf).length : Int) = ((Spec.allRecords f').map Spec.reported).sum := by
  unfold File.parse at h
  rw [deleteFunc_newline, stripNewlines_withoutBreaks] at h
  simp only at h
  split at h
  · simp at h
  · next hd head hh =>
    split at h
    · simp at h
    · simp at h
    · next bs off hb =>
      split at h
      · simp at h
      · split at h
        · simp at h
        · split at h
          · simp at h
          · next t tread ht =>
            split at h
            · simp at h
            · next hne =>
              simp only [Option.some.injEq, Prod.mk.injEq, and_true] at h
              obtain ⟨new, h1, h2⟩ := parseBases_sizes _ _ _ _ _ _ hb
              rw [List.nil_append] at h1
              subst h1
              rw [← h]
              simp only [Spec.allRecords, List.map_cons, List.map_append, List.sum_cons, List.sum_append, List.map_nil, List.sum_nil]
              rw [← C97_parse _ _ _ _ _ hh, ← C97_parse _ _ _ _ _ ht]
              omega

theorem withoutBreaks_join (nl : Bool) (ts : List Bytes) :
    Spec.withoutBreaks (Spec.joinRecords nl ts) = Spec.withoutBreaks ts.flatten := by
  cases ts with
  | nil => rfl
  | cons t ts =>
    rw [joinRecords_cons, List.flatten_cons, withoutBreaks_append, withoutBreaks_append]
    congr 1
    induction ts with
    | nil => rfl
    | cons u ts ih =>
      rw [List.map_cons, List.flatten_cons, List.flatten_cons, withoutBreaks_append, withoutBreaks_append, withoutBreaks_append, ih]
      cases nl <;> rfl

theorem noBreaks_of_length {t : Bytes} (h : t.length ≤ (Spec.withoutBreaks t).length) : Spec.NoBreaks t := by
  have h1 := (List.filter_sublist (p := fun c => decide (c ≠ '\r'.toNat.toUInt8 ∧ c ≠ '\n'.toNat.toUInt8)) (l := t)).eq_of_length_le h
  intro c hc
  rw [← h1] at hc
  simpa using (List.mem_filter.1 hc).2

theorem reported_good {enc : Enc} {isVar : Bool} {f : File} (hf : Spec.GoodFile enc isVar f) :
    ∀ r ∈ Spec.allRecords f, (r.string.length : Int) = Spec.reported r :=
  (C97_walk_iff f _ ((lists_iff f _).2 rfl)).1 (C97_walk_partial enc isVar f hf _ ((lists_iff f _).2 rfl))

theorem sizes_flatten (rs : List Record) (h : ∀ r ∈ rs, (r.string.length : Int) = Spec.reported r) :
    (((rs.map Record.string).flatten.length : Nat) : Int) = (rs.map Spec.reported).sum := by
  induction rs with
  | nil => rfl
  | cons r rs ih =>
    have := ih fun r hr => h r (List.mem_cons_of_mem _ hr)
    have := h r List.mem_cons_self
    simp only [List.map_cons, List.flatten_cons, List.length_append, List.sum_cons]
    omega

theorem noBreaks_of_parse {enc : Enc} {isVar : Bool} {f : File} (hf : Spec.GoodFile enc isVar f) {fuel : Nat} {nl : Bool}
    (h : (newFile enc).parse fuel (f.string nl) isVar = some (f, none)) : ∀ t ∈ Spec.recordTexts f, Spec.NoBreaks t := by
  have h1 := C97_accepted _ _ _ _ _ h
  rw [File.string_eq, withoutBreaks_join, recordTexts_all, ← sizes_flatten _ (reported_good hf)] at h1
  have h2 := noBreaks_of_length (t := ((Spec.allRecords f).map Record.string).flatten) (Int.ofNat_inj.1 h1).symm.le
  rw [recordTexts_all]
  intro t ht c hc
  exact h2 c (List.mem_flatten.2 ⟨t, ht, hc⟩)

/-! ### A segment that begins behind the record -/

theorem readSegs_more {isVar : Bool} {rest : Bytes} (hr : ¬ Spec.NoSegment rest) (hl2 : 2 < rest.length) (l : List Seg) :
    ∀ (fuel : Nat) (g g' : Segs) (off n : Nat), SegsAll SegRead g → (∀ s ∈ l, Spec.SegmentOk s.kind s) →
    readSegs isVar fuel g off ((l.map Seg.string).flatten ++ rest) = (g', .ok n) →
    off + (l.map fun s => s.kind.length).sum < n := by
  induction l with
  | nil =>
    intro fuel g g' off n hg _ h
    cases fuel with
    | zero => simp [readSegs] at h
    | succ fuel =>
      simp only [List.map_nil, List.flatten_nil, List.nil_append] at h
      rw [readSegs_succ, if_pos hl2] at h
      rw [noSegment_iff] at hr
      split at h
      · next hk => exact absurd hk hr
      · next k hk =>
        split at h
        · simp at h
        · next s m hp =>
          obtain ⟨h1, h2, h3, h4, h5, h6⟩ := seg_parse_read hp
          have := k.length_gt
          split at h
          · simp at h
          · next g2 ha =>
            unfold Segs.add at ha
            split at ha
            · cases ha
            · next hv =>
              cases ha
              have hid := segKindOfIdent_some hk
              rw [hid, trimRight_ident] at h6
              have hsr : SegRead s.kind s := by rw [h3]; exact ⟨h3, h4, h5, h6, hv⟩
              obtain ⟨-, -, h7, -⟩ := readSegs_inv _ _ _ _ _ _ h (hg.store hsr)
              simp only [List.map_nil, List.sum_nil]
              omega
  | cons s l ih =>
    intro fuel g g' off n hg hl h
    cases fuel with
    | zero => simp [readSegs] at h
    | succ fuel =>
      have hs := hl s List.mem_cons_self
      have hlen := seg_string_length rfl ((layout_segment s.kind).widthAll_of_fits hs.typed hs.fits)
      have hgt := s.kind.length_gt
      rw [List.map_cons, List.flatten_cons, List.append_assoc] at h
      rw [readSegs_succ, if_pos (by rw [List.length_append]; omega)] at h
      rw [List.take_append_of_le_length (by omega), seg_string_ident hs] at h
      simp only [segKindOfIdent_ident] at h
      generalize hq : (Seg.new s.kind).parse (s.string ++ ((l.map Seg.string).flatten ++ rest)) isVar = q at h
      have hq' := hq
      rw [seg_parse_string (Seg.new_kind _) (Seg.new_typed _) hs.typed hs.fits] at hq
      subst hq
      obtain ⟨-, -, -, h4, h5, -⟩ := seg_parse_read hq'
      simp only [Segs.add, hs.valid] at h
      have hd : (s.string ++ ((l.map Seg.string).flatten ++ rest)).drop s.kind.length =
          (l.map Seg.string).flatten ++ rest := by
        rw [← hlen, List.drop_left]
      rw [hd] at h
      have := ih _ _ _ _ _ (hg.store ⟨rfl, h4, h5, by rw [← segmentIdent_eq]; exact hs.ident, hs.valid⟩)
        (fun t ht => hl t (List.mem_cons_of_mem _ ht)) h
      simp only [List.map_cons, List.sum_cons]
      omega

theorem readApplicableSegments_more {g : Segs} (h : Spec.SegsOk g) {rest : Bytes} (hr : ¬ Spec.NoSegment rest)
    (hl2 : 2 < rest.length) {isVar : Bool} {g' : Segs} {n : Nat}
    (he : readApplicableSegments {} (g.string ++ rest) isVar = (g', .ok n)) : Spec.segsLength g < n := by
  have := readSegs_more hr hl2 g.list _ _ _ _ _ (SegsAll.empty _) h.mem he
  rw [segsLength_eq h.placed] at this
  omega

/-- A packed data record without filling that is followed by something that begins like a segment is not read. -/
theorem base_more {fs : Fields} {g : Segs} (h : Spec.GoodData .packed true fs g) {rest : Bytes}
    (hu : Spec.Unfilled (.base .packed fs g)) (hr : ¬ Spec.NoSegment rest) (hl2 : 2 < rest.length) :
    ∃ b err, (newBase .packed).parse ((Record.base .packed fs g).string ++ rest) true = (b, .error err) := by
  obtain ⟨⟨ht, hf, hg, -, hb, hc⟩, hwr⟩ := h
  simp only [if_true] at hb
  have hw := (layout_base .packed).widthAll_of_fits ht hf
  have hl := base_length ht hw
  have hsl := hg.string_length
  have h0 : 0 < fs.int .BlockDescriptorWord := hb.1
  have h1 : fs.int .BlockDescriptorWord ≤ 65535 := hb.2
  simp only [Spec.Unfilled] at hu
  rw [Nat.max_eq_left hu] at hwr
  have hcl : Spec.contentLength .packed fs g = 370 + Spec.segsLength g := by
    unfold Spec.contentLength Spec.fixedLength
    rw [if_neg (by have := hb.1; omega)]
    rfl
  rw [hcl] at hwr hu
  replace hwr : ((370 + Spec.segsLength g : Nat) : Int) = fs.int .BlockDescriptorWord := hwr
  simp only [Spec.fixedLength, Spec.bdw, h0.ne', if_false, Spec.recordLength] at hl
  have hpad : baseBlockSize .packed fs - (fieldsString Enc.packed.baseFormat fs ++ g.string).length = 0 := by
    rw [List.length_append, hl, hsl]
    unfold baseBlockSize
    simp only [gt_iff_lt, h0, if_true]
    rw [← padSize_eq]
    have : Spec.padSize (fs.int .RecordDescriptorWord + 4) ≤ 370 + Spec.segsLength g := hu
    omega
  rw [Record.string, padTo_append, hpad, List.replicate_zero, List.nil_append]
  show ∃ b err, (newBase .packed).parse _ true = _
  rw [newBase, Record.parse, parseBasePacked_eq]
  rw [List.append_assoc, if_neg (by rw [List.length_append]; omega)]
  have := (layout_base .packed).parse_accept (blocked_base .packed) ht (zeroFields_typed _) hf h0 h1 true (g.string ++ rest)
  simp only [show Enc.packed.baseFormat = baseSegmentPackedFormat from rfl] at this hl ⊢
  simp only [if_true, this]
  rw [if_neg (by rw [List.length_append]; omega)]
  have hd : (fieldsString baseSegmentPackedFormat fs ++ (g.string ++ rest)).drop (366 + 4) = g.string ++ rest := by
    rw [← hl, List.drop_left]
  rw [hd]
  generalize hq : readApplicableSegments {} (g.string ++ rest) true = q
  obtain ⟨g', x⟩ := q
  cases x with
  | error err => exact ⟨_, err, rfl⟩
  | ok n =>
    have hm := readApplicableSegments_more hg hr hl2 hq
    simp only
    rw [if_pos (by omega)]
    exact ⟨_, _, rfl⟩

/-! ### The data records -/

theorem segment_of_first {v : Int} {rest : Bytes} (h : rest.take 4 = firstWord .packed v) {k : SegKind}
    (hv : v = Spec.identNumber k) : ¬ Spec.NoSegment rest := by
  intro hn
  apply hn k
  have : rest.take 2 = Spec.segmentIdent k := by
    have h2 : (rest.take 4).take 2 = rest.take 2 := by rw [List.take_take]; rfl
    rw [← h2, h, hv]
    cases k <;> decide
  rw [← this]
  exact List.take_prefix _ _

/-- The text of the next record. -/
theorem next_first {enc : Enc} {isVar : Bool} {tfs : Fields} (htr : Spec.GoodTrailer enc tfs) (extra : Bytes) (bs : List Record)
    (hbs : ∀ r ∈ bs, ∃ fs g, r = .base enc fs g ∧ Spec.GoodData enc isVar fs g) :
    ∃ next after, bs ++ [.trailer enc tfs] = next :: after ∧ 0 ≤ Spec.announced next ∧ Spec.announced next ≤ wordMax enc ∧
      ((bs.map Record.string).flatten ++ ((Record.trailer enc tfs).string ++ extra)).take 4 = firstWord enc (Spec.announced next) := by
  have hrl := recordLength_pos enc
  cases bs with
  | nil =>
    have he : Spec.announced (.trailer enc tfs) = Spec.rdw tfs := if_pos (trailer_bdw htr.typed)
    refine ⟨_, _, rfl, ?_, ?_, ?_⟩
    · rw [he]; have := htr.size; omega
    · rw [he]; exact rdw_bounds htr.fits (trailer_rdw_mem htr.typed) (trailer_rows enc).1
    · rw [he]; exact trailer_first htr extra
  | cons b bs =>
    obtain ⟨fs, g, rfl, hg⟩ := hbs b List.mem_cons_self
    have he : Spec.announced (.base enc fs g) = Spec.sizeWord isVar fs := sizeWord_announced rfl hg.base.bdw
    refine ⟨_, _, rfl, ?_, ?_, ?_⟩
    · rw [he]; have := hg.base.size; omega
    · rw [he]; exact sizeWord_le (blocked_base enc) hg.base.typed hg.base.fits hg.base.bdw
    · rw [he]
      simp only [List.map_cons, List.flatten_cons, List.append_assoc]
      exact base_first hg.base _

/-- `Apart` for the rest of the records. -/
def ApartFrom (bs : List Record) (t : Record) : Prop :=
  ∀ before r next after, bs ++ [t] = before ++ r :: next :: after → Spec.Unfilled r →
    ∀ k, Spec.announced next ≠ Spec.identNumber k

theorem apartFrom_cons {b : Record} {bs : List Record} {t next : Record} {after : List Record} (h : bs ++ [t] = next :: after) :
    ApartFrom (b :: bs) t ↔ (Spec.Unfilled b → ∀ k, Spec.announced next ≠ Spec.identNumber k) ∧ ApartFrom bs t := by
  constructor
  · intro ha
    refine ⟨fun hu k => ha [] b next after (by rw [List.cons_append, h]; rfl) hu k, ?_⟩
    intro before r n af he hu
    exact ha (b :: before) r n af (by rw [List.cons_append, he]; rfl) hu
  · rintro ⟨h1, h2⟩ before r n af he hu
    cases before with
    | nil =>
      rw [List.cons_append, h, List.nil_append] at he
      have e1 := (List.cons.inj he).1
      have e2 := (List.cons.inj (List.cons.inj he).2).1
      subst e1 e2
      exact h1 hu
    | cons x before =>
      rw [List.cons_append, List.cons_append] at he
      exact h2 before r n af (List.cons.inj he).2 hu

theorem apartFrom_nil (t : Record) : ApartFrom [] t := by
  intro before r next after he
  have := congrArg List.length he
  simp at this
  omega

/-- The loop reads all data records if and only if they are apart. -/
theorem parseBases_apart {tfs : Fields} (htr : Spec.GoodTrailer .packed tfs) :
    ∀ (bs : List Record) (pre : Bytes) (acc : List Record) (fuel : Nat), pre ≠ [] → bs.length < fuel →
    (∀ r ∈ bs, ∃ fs g, r = .base .packed fs g ∧ Spec.GoodData .packed true fs g) →
    (ApartFrom bs (.trailer .packed tfs) →
      parseBases .packed true (pre ++ ((bs.map Record.string).flatten ++ ((Record.trailer .packed tfs).string ++ [])))
        fuel ((pre.length : Nat) : Int) acc = some (acc ++ bs, (((pre ++ (bs.map Record.string).flatten).length : Nat) : Int), none)) ∧
    (∀ off e, parseBases .packed true (pre ++ ((bs.map Record.string).flatten ++ ((Record.trailer .packed tfs).string ++ [])))
        fuel ((pre.length : Nat) : Int) acc = some (acc ++ bs, off, e) → ApartFrom bs (.trailer .packed tfs)) := by
  have htl : 0 < (Record.trailer .packed tfs).string.length := by
    have h1 := trailer_text_length htr
    have h2 := htr.size
    have h3 := recordLength_pos .packed
    omega
  intro bs
  induction bs with
  | nil =>
    intro pre acc fuel hpre hfuel _
    refine ⟨fun _ => ?_, fun _ _ _ => apartFrom_nil _⟩
    obtain ⟨n, rfl⟩ : ∃ n, fuel = n + 1 := ⟨fuel - 1, by simp at hfuel; omega⟩
    have hp : 0 < pre.length := List.length_pos_iff.2 hpre
    simp only [List.map_nil, List.flatten_nil, List.nil_append]
    rw [parseBases_succ, if_neg (by simp only [List.length_append]; omega)]
    rw [show ((pre.length : Nat) : Int).toNat = pre.length from by omega, List.drop_left]
    obtain ⟨b, err, he, hne⟩ := base_of_trailer htr true []
    rw [he]
    cases err <;> first | rfl | exact absurd rfl hne | simp
  | cons b bs ih =>
    intro pre acc fuel hpre hfuel hbs
    obtain ⟨n, rfl⟩ : ∃ n, fuel = n + 1 := ⟨fuel - 1, by simp at hfuel; omega⟩
    have hp : 0 < pre.length := List.length_pos_iff.2 hpre
    obtain ⟨fs, g, rfl, hg⟩ := hbs b List.mem_cons_self
    have hbs' := fun r hr => hbs r (List.mem_cons_of_mem _ hr)
    obtain ⟨next, after, hnext, hn0, hn1, hfirst⟩ := next_first htr [] bs hbs'
    rw [apartFrom_cons hnext]
    have hlen := base_text_length hg
    have hi := ih (pre ++ (Record.base .packed fs g).string) (acc ++ [.base .packed fs g]) n (by simp [hpre])
      (by simp at hfuel; omega) hbs'
    simp only [List.map_cons, List.flatten_cons, List.append_assoc]
    rw [parseBases_succ, if_neg (by simp only [List.length_append]; omega)]
    rw [show ((pre.length : Nat) : Int).toNat = pre.length from by omega, List.drop_left]
    by_cases hok : Spec.NextOk .packed fs g ((bs.map Record.string).flatten ++ ((Record.trailer .packed tfs).string ++ []))
    · rw [base_reread hg.base hok]
      simp only
      rw [← hlen, ← Int.natCast_add, ← List.length_append, ← List.append_assoc pre]
      simp only [List.append_assoc, List.singleton_append] at hi ⊢
      refine ⟨fun ha => hi.1 ha.2, fun off e h => ⟨fun hu k hk => segment_of_first hfirst hk (hok hu), hi.2 off e h⟩⟩
    · have hu : Spec.Unfilled (.base .packed fs g) := Classical.byContradiction fun hu => hok fun h => absurd h hu
      have hr : ¬ Spec.NoSegment ((bs.map Record.string).flatten ++ ((Record.trailer .packed tfs).string ++ [])) :=
        fun hr => hok fun _ => hr
      have hl2 : 2 < ((bs.map Record.string).flatten ++ ((Record.trailer .packed tfs).string ++ [])).length := by
        have := congrArg List.length hfirst
        rw [firstWord_length, List.length_take] at this
        omega
      obtain ⟨b', err, hb⟩ := base_more hg hu hr hl2
      rw [hb]
      constructor
      · rintro ⟨h1, -⟩
        exact absurd (noSegment_of_first hfirst hn0 hn1 fun _ => h1 hu) hr
      · intro off e h
        exfalso
        have : acc = acc ++ .base .packed fs g :: bs := by
          cases err <;> simp only [Option.some.injEq, Prod.mk.injEq] at h <;> exact h.1
        simpa using congrArg List.length this

/-! ### C43 -/

/-- C43, exactly, for packed files: a well-formed file is read back by `File.Parse` if and only if no byte of a record looks like a line
break and no data record that is not filled up comes before a size word that looks like the identifier of a segment. -/
theorem C43_packed_iff (f : File) (h : Spec.GoodFile .packed true f) (nl : Bool) (fuel : Nat) (hfuel : f.bases.length < fuel) :
    (newFile .packed).parse fuel (f.string nl) true = some (f, none) ↔
      (∀ t ∈ Spec.recordTexts f, Spec.NoBreaks t) ∧ Spec.Apart f := by
  have hfull := h
  obtain ⟨format, header, bases, trailer⟩ := f
  obtain ⟨h0, ⟨hfs, h1, hh⟩, hbs, ⟨tfs, h2, htr⟩⟩ := h
  simp only at h0 h1 h2 hbs hfuel
  subst h0 h1 h2
  have hhl := header_text_length hh
  have hhs := hh.size
  have hrl := recordLength_pos .packed
  have hfl : Spec.recordLength .packed ≤ Spec.fixedLength .packed hfs := Nat.le_add_right _ _
  have htl := trailer_text_length htr
  have hts := htr.size
  have hpb := parseBases_apart htr bases (Record.header .packed hfs).string [] fuel
    (by intro h0; rw [h0] at hhl; simp at hhl; omega) hfuel hbs
  have hap : Spec.Apart ⟨.packed, .header .packed hfs, bases, .trailer .packed tfs⟩ ↔ ApartFrom bases (.trailer .packed tfs) := Iff.rfl
  have key : ∀ (hnb : ∀ t ∈ Spec.recordTexts ⟨.packed, .header .packed hfs, bases, .trailer .packed tfs⟩, Spec.NoBreaks t),
      stripNewlines ((⟨.packed, .header .packed hfs, bases, .trailer .packed tfs⟩ : File).string nl) =
        (Record.header .packed hfs).string ++ ((bases.map Record.string).flatten ++ ((Record.trailer .packed tfs).string ++ [])) := by
    intro hnb
    rw [stripNewlines_withoutBreaks, C38_delete _ hnb]
    simp only [File.string, newLine, Bool.false_eq_true, if_false, List.append_nil, List.append_assoc]
  constructor
  · intro hp
    have hnb := noBreaks_of_parse hfull hp
    refine ⟨hnb, hap.2 ?_⟩
    unfold File.parse at hp
    rw [deleteFunc_newline, key hnb] at hp
    simp only [newFile] at hp
    rw [header_reread hh] at hp
    simp only at hp
    rw [← hhl] at hp
    split at hp
    · simp at hp
    · simp at hp
    · next bs off hb =>
      have he : bs = bases := by
        split at hp
        · simp at hp
        · split at hp
          · simp at hp
          · split at hp
            · simp at hp
            · split at hp
              · simp at hp
              · simp only [Option.some.injEq, Prod.mk.injEq, and_true] at hp
                exact congrArg File.bases hp
      subst he
      exact hpb.2 _ _ hb
  · rintro ⟨hnb, ha⟩
    have hb := hpb.1 (hap.1 ha)
    unfold File.parse
    rw [deleteFunc_newline, key hnb]
    simp only [newFile]
    rw [header_reread hh]
    simp only
    rw [← hhl, hb]
    simp only [List.nil_append]
    rw [if_neg (by simp only [List.length_append]; omega),
      sliceFrom_of_le (by omega) (by simp only [List.length_append]; omega)]
    simp only
    have hd : (((Record.header .packed hfs).string ++ (bases.map Record.string).flatten).length : Int).toNat =
        ((Record.header .packed hfs).string ++ (bases.map Record.string).flatten).length := by omega
    rw [hd, ← List.append_assoc (Record.header .packed hfs).string, List.drop_left, C18_trailer .packed tfs htr.typed htr.fits]
    simp only
    rw [if_neg]
    simp only [List.length_append, List.length_nil]
    omega

/-- A packed file whose second data record has size 18993, the bytes of "J1", while the first is filled up. -/
def Samples.filledFile : File :=
  fileOf .packed (header 370 366) [(base 380 376, {}), (base 18993 18989, {})] (trailer 366)

theorem filledFile_good : Spec.GoodFile .packed true filledFile := by
  refine goodFile_of (goodHeader_of_B (by decide +kernel) (by decide +kernel) (by decide +kernel) (by decide)
    (by decide +kernel) (by decide +kernel)) ?_ (goodTrailer_of_B (by decide +kernel) (by decide +kernel)
    (by decide +kernel) (by decide +kernel))
  intro p hp
  simp only [List.mem_cons, List.not_mem_nil, or_false] at hp
  rcases hp with rfl | rfl <;>
    exact ⟨goodBase_of_B (by decide +kernel) (by decide +kernel) (by decide +kernel) (by decide) (by decide +kernel)
      (by decide +kernel), by decide +kernel⟩

theorem filledFile_noBreaks : ∀ t ∈ Spec.recordTexts filledFile, Spec.NoBreaks t := by
  have h1 : Spec.NoBreaks (fieldsString Enc.packed.headerFormat (header 370 366)) := by decide +kernel
  have h2 : Spec.NoBreaks (fieldsString Enc.packed.baseFormat (base 380 376) ++ ({} : Segs).string) := by
    decide +kernel
  have h3 : Spec.NoBreaks (fieldsString Enc.packed.baseFormat (base 18993 18989) ++ ({} : Segs).string) := by
    decide +kernel
  have h4 : Spec.NoBreaks (fieldsString Enc.packed.trailerFormat (trailer 366)) := by decide +kernel
  intro t ht
  simp only [Spec.recordTexts, filledFile, fileOf, List.map_cons, List.map_nil, List.cons_append, List.nil_append,
    List.mem_cons, List.not_mem_nil, or_false] at ht
  rcases ht with rfl | rfl | rfl | rfl
  · exact noBreaks_padTo h1
  · exact noBreaks_padTo h2
  · exact noBreaks_padTo h3
  · exact noBreaks_padTo h4

theorem filledFile_apart : Spec.Apart filledFile := by
  have h1 : ¬ Spec.padSize (Spec.padWord .packed (base 380 376)) ≤ Spec.contentLength .packed (base 380 376) {} := by decide +kernel
  have h2 : ∀ k, Spec.announced (.trailer .packed (trailer 366)) ≠ Spec.identNumber k := by
    intro k; cases k <;> decide +kernel
  show ApartFrom [.base .packed (base 380 376) {}, .base .packed (base 18993 18989) {}] (.trailer .packed (trailer 366))
  rw [apartFrom_cons rfl, apartFrom_cons rfl]
  exact ⟨fun hu => absurd hu h1, fun _ => h2, apartFrom_nil _⟩

/-- This file is outside `C43_packed_partial`: a size word is the identifier of a segment. -/
example : Spec.GoodFile .packed true filledFile ∧ ¬ Spec.NoIdentSizes filledFile ∧
    (∀ t ∈ Spec.recordTexts filledFile, Spec.NoBreaks t) ∧ Spec.Apart filledFile ∧
    (newFile .packed).parse 3 (filledFile.string true) true = some (filledFile, none) := by
  refine ⟨filledFile_good, ?_, filledFile_noBreaks, filledFile_apart,
    (C43_packed_iff _ filledFile_good true 3 (by decide)).2 ⟨filledFile_noBreaks, filledFile_apart⟩⟩
  intro h
  exact h.1 (.base .packed (base 18993 18989) {}) (by simp [filledFile, fileOf]) .j1 (by decide +kernel)

/-- And this one shows that the condition can fail. -/
example : Spec.GoodFile .packed true identFile ∧ ¬ Spec.Apart identFile := by
  refine ⟨identFile_good, fun h => ?_⟩
  have h1 : Spec.padSize (Spec.padWord .packed (base 370 366)) ≤ Spec.contentLength .packed (base 370 366) {} := by decide +kernel
  exact h [] _ _ _ rfl h1 .j1 (by decide +kernel)

/-- C97_accepted is about files that are read. -/
example : ((Spec.withoutBreaks (fixedFile.string true)).length : Int) = ((Spec.allRecords fixedFile).map Spec.reported).sum :=
  C97_accepted _ _ _ _ _ (C43_character false fixedFile fixedFile_good true 3 (by decide))

end Metro2
