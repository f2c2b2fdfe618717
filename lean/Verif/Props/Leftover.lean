import Verif.Props.Reuse

/-! C62, exactly: what of the earlier content of a record or file shows up after `Parse`. -/

namespace Metro2

open Samples

/-! ### The block descriptor in the field loop -/

/-- The field loop that skips the block descriptor does not look at the old one, and keeps it. -/
theorem parseLoop_skip {fmt : Format} {bounds : Bool} {rec : Bytes} {off : Nat} {t : Fields} (i j : Val) :
    (parseLoop fmt .skip bounds rec off ((.BlockDescriptorWord, i) :: t)).2 =
      (parseLoop fmt .skip bounds rec off ((.BlockDescriptorWord, j) :: t)).2 ∧
    ((parseLoop fmt .skip bounds rec off ((.BlockDescriptorWord, i) :: t)).2 = none → ∃ t',
      (parseLoop fmt .skip bounds rec off ((.BlockDescriptorWord, i) :: t)).1 = (.BlockDescriptorWord, i) :: t' ∧
      (parseLoop fmt .skip bounds rec off ((.BlockDescriptorWord, j) :: t)).1 = (.BlockDescriptorWord, j) :: t') := by
  rw [parseLoop, parseLoop]
  cases fmt.lookup .BlockDescriptorWord with
  | none => simp
  | some e =>
    simp only
    split
    · simp
    · cases slice rec (e.start + off) (e.start + e.len + off) with
      | none => simp
      | some data =>
        simp only
        cases isValidType e .BlockDescriptorWord data with
        | some err => simp
        | none =>
          simp only
          cases parseValue e data with
          | error err => simp
          | ok new => exact ⟨rfl, fun _ => ⟨_, rfl, rfl⟩⟩

/-- Two structs of one type, read by the loop that skips the block descriptor: the same verdict, and values that agree but for
the block descriptors, which are the old ones. -/
theorem parseLoop_kept {enc : Enc} {fmt : Format} {decl : List (F × FieldDecl)} (hB : Blocked enc fmt decl) {a b : Fields}
    (ha : a.Typed decl) (hb : b.Typed decl) (bounds : Bool) (rec : Bytes) :
    (parseLoop fmt .skip bounds rec 0 a).2 = (parseLoop fmt .skip bounds rec 0 b).2 ∧
    ((parseLoop fmt .skip bounds rec 0 a).2 = none → ∃ t,
      (parseLoop fmt .skip bounds rec 0 a).1 = (.BlockDescriptorWord, .int (Spec.bdw a)) :: t ∧
      (parseLoop fmt .skip bounds rec 0 b).1 = (.BlockDescriptorWord, .int (Spec.bdw b)) :: t) := by
  obtain ⟨i, r, fr, rfl, h1, -, hfr⟩ := hB.shape ha
  obtain ⟨j, r', fr', rfl, h2, -, hfr'⟩ := hB.shape hb
  have h1 : Spec.bdw ((F.BlockDescriptorWord, Val.int i) :: (F.RecordDescriptorWord, Val.int r) :: fr) = i := h1
  have h2 : Spec.bdw ((F.BlockDescriptorWord, Val.int j) :: (F.RecordDescriptorWord, Val.int r') :: fr') = j := h2
  have hk := Kin.ofTyped ha hb
  have hk' : Kin ((F.BlockDescriptorWord, Val.int j) :: (F.RecordDescriptorWord, Val.int r) :: fr)
      ((F.BlockDescriptorWord, Val.int j) :: (F.RecordDescriptorWord, Val.int r') :: fr') := by
    cases hk with
    | cons k hv hw h => exact .cons k hw hw h
  obtain ⟨f1, f2⟩ := parseLoop_forget (fmt := fmt) (pol := .skip) (bounds := bounds) (rec := rec) hk' (by
    intro _ v w hv hw
    have e1 : v = .int j := by
      rcases List.mem_cons.1 hv with e | hv
      · cases e; rfl
      · rcases List.mem_cons.1 hv with e | hv
        · cases e
        · exact absurd rfl (hfr _ hv).1
    have e2 : w = .int j := by
      rcases List.mem_cons.1 hw with e | hw
      · cases e; rfl
      · rcases List.mem_cons.1 hw with e | hw
        · cases e
        · exact absurd rfl (hfr' _ hw).1
    rw [e1, e2]) 0
  obtain ⟨s1, s2⟩ := parseLoop_skip (fmt := fmt) (bounds := bounds) (rec := rec) (off := 0)
    (t := (F.RecordDescriptorWord, Val.int r) :: fr) (.int i) (.int j)
  rw [h1, h2]
  refine ⟨s1.trans f1, fun hn => ?_⟩
  obtain ⟨t', e1, e2⟩ := s2 hn
  exact ⟨t', e1, by rw [← f2 (s1 ▸ hn), e2]⟩

/-! ### The segments -/

theorem overlay_store (n o : Segs) (s : Seg) : Spec.overlay (n.store s) o = (Spec.overlay n o).store s := by
  unfold Segs.store
  cases s.kind <;> rfl

theorem overlay_add (n o : Segs) (s : Seg) :
    (Spec.overlay n o).add s = (Spec.overlay (n.add s).1 o, (n.add s).2) := by
  unfold Segs.add
  cases s.validate with
  | some e => rfl
  | none => simp only [overlay_store]

/-- Segments are read into whatever was there. -/
theorem readSegs_overlay {isVar : Bool} {o : Segs} {fuel : Nat} : ∀ {n : Segs} {off : Nat} {rec : Bytes},
    readSegs isVar fuel (Spec.overlay n o) off rec =
      (Spec.overlay (readSegs isVar fuel n off rec).1 o, (readSegs isVar fuel n off rec).2) := by
  induction fuel with
  | zero => intro n off rec; rfl
  | succ fuel ih =>
    intro n off rec
    rw [readSegs, readSegs]
    split
    · cases slice rec 0 2 with
      | none => rfl
      | some id =>
        simp only
        cases segKindOfIdent id with
        | none => rfl
        | some k =>
          simp only
          generalize (Seg.new k).parse rec isVar = q
          obtain ⟨s, x⟩ := q
          cases x with
          | error e => rfl
          | ok read =>
            simp only
            rw [overlay_add]
            generalize n.add s = z
            obtain ⟨n', y⟩ := z
            cases y with
            | some e => rfl
            | none => exact ih
    · rfl

theorem overlay_empty (g : Segs) : { g with j1 := [], j2 := [] } = Spec.overlay {} g := by
  cases g
  simp [Spec.overlay]

theorem readApplicableSegments_overlay (isVar : Bool) (g : Segs) (rec : Bytes) :
    readApplicableSegments { g with j1 := [], j2 := [] } rec isVar =
      (Spec.overlay (readApplicableSegments {} rec isVar).1 g, (readApplicableSegments {} rec isVar).2) := by
  rw [overlay_empty]
  exact readSegs_overlay

/-- A data record with segments in it, read again: like the same record without segments, but the old single segments are still
there. -/
theorem base_overlay {enc : Enc} {a : Fields} {g : Segs} (rec : Bytes) (isVar : Bool) :
    ((Record.base enc a g).parse rec isVar).2 = ((Record.base enc a {}).parse rec isVar).2 ∧
    ∀ n, ((Record.base enc a g).parse rec isVar).2 = .ok n → ∃ fs g', ((Record.base enc a {}).parse rec isVar).1 = .base enc fs g' ∧
      ((Record.base enc a g).parse rec isVar).1 = .base enc fs (Spec.overlay g' g) := by
  have hz : ({ ({} : Segs) with j1 := [], j2 := [] } : Segs) = {} := rfl
  cases enc with
  | character =>
    simp only [Record.parse, parseBaseCharacter_eq]
    split
    · simp
    · generalize parseLoop baseSegmentCharacterFormat (if isVar then .accept else .skip) true rec 0 a = q
      obtain ⟨fs, x⟩ := q
      cases x with
      | some e => simp
      | none =>
        simp only
        generalize (if fs.int .BlockDescriptorWord > 0 then 426 + 4 else 426) = off
        split
        · simp
        · rw [readApplicableSegments_overlay]
          generalize readApplicableSegments {} (rec.drop off) isVar = z
          obtain ⟨g', y⟩ := z
          cases y with
          | error e => simp
          | ok read =>
            simp only
            split
            · simp
            · split
              · simp
              · exact ⟨rfl, fun n _ => ⟨_, _, rfl, rfl⟩⟩
  | packed =>
    simp only [Record.parse, parseBasePacked_eq]
    split
    · simp
    · generalize parseLoop baseSegmentPackedFormat (if isVar then .accept else .fail) true rec 0 a = q
      obtain ⟨fs, x⟩ := q
      cases x with
      | some e => simp
      | none =>
        simp only
        split
        · simp
        · rw [readApplicableSegments_overlay]
          generalize readApplicableSegments {} (rec.drop (366 + 4)) isVar = z
          obtain ⟨g', y⟩ := z
          cases y with
          | error e => simp
          | ok read =>
            simp only
            split
            · simp
            · exact ⟨rfl, fun n _ => ⟨_, _, rfl, rfl⟩⟩

/-- C62, data records: what stays. A used data record reads like a new one (if the block descriptor does not matter or is zero), and of
its earlier content exactly the single segments stay that the new record has not. -/
theorem C62_segments_kept (enc : Enc) (a : Fields) (g : Segs) (ht : a.Typed baseSegmentStruct) (rec : Bytes) (isVar : Bool)
    (hb : enc = .character → isVar = false → Spec.bdw a = 0) :
    ((Record.base enc a g).parse rec isVar).2 = ((newBase enc).parse rec isVar).2 ∧
    ∀ n, ((newBase enc).parse rec isVar).2 = .ok n → ∃ fs g', ((newBase enc).parse rec isVar).1 = .base enc fs g' ∧
      ((Record.base enc a g).parse rec isVar).1 = .base enc fs (Spec.overlay g' g) := by
  obtain ⟨h1, h2⟩ := base_overlay (enc := enc) (a := a) (g := g) rec isVar
  obtain ⟨h3, h4⟩ := base_forget (enc := enc) (isVar := isVar) (g := {}) (g' := {}) ht (zeroFields_typed baseSegmentStruct)
    (fun he hv => (hb he hv).trans newBase_bdw.symm) rfl rec
  refine ⟨h1.trans h3, fun n hn => ?_⟩
  have hn' : ((Record.base enc a {}).parse rec isVar).2 = .ok n := h3.trans hn
  obtain ⟨fs, g', e1, e2⟩ := h2 n (h1.trans hn')
  exact ⟨fs, g', (h4 n hn').symm.trans e1, e2⟩

/-- C62, headers: what stays. A used character header reads a fixed-length record like a new one, but for its block descriptor: that one stays, and it
is the reported size if it is positive. -/
theorem C62_header_kept (a : Fields) (ht : a.Typed headerRecordStruct) (rec : Bytes) :
    (∀ e, ((newHeader .character).parse rec false).2 = .error e → ((Record.header .character a).parse rec false).2 = .error e) ∧
    ∀ n, ((newHeader .character).parse rec false).2 = .ok n → ∃ others,
      ((newHeader .character).parse rec false).1 = .header .character ((.BlockDescriptorWord, .int 0) :: others) ∧
      (Record.header .character a).parse rec false =
        (.header .character ((.BlockDescriptorWord, .int (Spec.bdw a)) :: others), .ok (if 0 < Spec.bdw a then Spec.bdw a else n)) := by
  obtain ⟨k1, k2⟩ := parseLoop_kept (blocked_header .character) ht (newHeader_typed .character) true rec
  have hz : Spec.bdw (newHeader .character).fields = 0 := newHeader_bdw .character
  unfold newHeader at k1 k2 hz ⊢
  simp only [Record.fields, Record.parse, parseHeader, headerPolicy, Bool.false_eq_true, if_false] at k1 k2 hz ⊢
  split
  · simp
  · generalize parseLoop Enc.character.headerFormat .skip true rec 0 a = x at *
    generalize parseLoop Enc.character.headerFormat .skip true rec 0
      ((zeroFields headerRecordStruct).set .RecordIdentifier (.str (b! "HEADER"))) = y at *
    obtain ⟨x1, x2⟩ := x
    obtain ⟨y1, y2⟩ := y
    simp only at k1 k2
    subst k1
    cases x2 with
    | some e => simp
    | none =>
      obtain ⟨t, rfl, rfl⟩ := k2 rfl
      rw [hz]
      refine ⟨by simp, fun n hn => ⟨_, rfl, ?_⟩⟩
      have i1 : Fields.int ((F.BlockDescriptorWord, Val.int 0) :: t) .BlockDescriptorWord = 0 := rfl
      have i2 : Fields.int ((F.BlockDescriptorWord, Val.int (Spec.bdw a)) :: t) .BlockDescriptorWord = Spec.bdw a := rfl
      have i3 : Fields.int ((F.BlockDescriptorWord, Val.int (Spec.bdw a)) :: t) .RecordDescriptorWord =
        Fields.int ((F.BlockDescriptorWord, Val.int 0) :: t) .RecordDescriptorWord := rfl
      simp only [hz, i1, gt_iff_lt, lt_self_iff_false, if_false, Except.ok.injEq] at hn
      simp only [i2, i3, gt_iff_lt, hn]

/-! ### Exactly -/

/-- A block descriptor that is too small for any record makes every fixed-length read fail. -/
theorem base_too_small {a b : Fields} {g g' : Segs} (ha : a.Typed baseSegmentStruct) (hb : b.Typed baseSegmentStruct)
    (h1 : 0 < Spec.bdw a) (h2 : Spec.bdw a < 430) (h3 : 0 < Spec.bdw b) (h4 : Spec.bdw b < 430) (rec : Bytes) :
    ∃ e, ((Record.base .character a g).parse rec false).2 = .error e ∧ ((Record.base .character b g').parse rec false).2 = .error e := by
  obtain ⟨o1, -⟩ := base_overlay (enc := .character) (a := a) (g := g) rec false
  obtain ⟨o2, -⟩ := base_overlay (enc := .character) (a := b) (g := g') rec false
  rw [o1, o2]
  obtain ⟨k1, k2⟩ := parseLoop_kept (blocked_base .character) ha hb true rec
  simp only [Record.parse, parseBaseCharacter_eq, Bool.false_eq_true, if_false]
  simp only [Enc.baseFormat] at k1 k2
  split
  · exact ⟨_, rfl, rfl⟩
  · generalize parseLoop baseSegmentCharacterFormat .skip true rec 0 a = x at *
    generalize parseLoop baseSegmentCharacterFormat .skip true rec 0 b = y at *
    obtain ⟨x1, x2⟩ := x
    obtain ⟨y1, y2⟩ := y
    simp only at k1 k2
    subst k1
    cases x2 with
    | some e => exact ⟨_, rfl, rfl⟩
    | none =>
      obtain ⟨t, rfl, rfl⟩ := k2 rfl
      have i1 : Fields.int ((F.BlockDescriptorWord, Val.int (Spec.bdw a)) :: t) .BlockDescriptorWord = Spec.bdw a := rfl
      have i2 : Fields.int ((F.BlockDescriptorWord, Val.int (Spec.bdw b)) :: t) .BlockDescriptorWord = Spec.bdw b := rfl
      simp only [i1, i2, gt_iff_lt, h1, h3, if_true]
      split
      · exact ⟨_, rfl, rfl⟩
      · generalize readApplicableSegments {} (rec.drop (426 + 4)) false = z
        obtain ⟨gz, w⟩ := z
        cases w with
        | error e => exact ⟨_, rfl, rfl⟩
        | ok read =>
          simp only [true_and]
          rw [if_pos (by push_cast; omega), if_pos (by push_cast; omega)]
          exact ⟨_, rfl, rfl⟩

/-- A fixed-length record that shows the block descriptor. -/
def probe : Bytes := (Record.base .character (base 0 426) {}).string ++ [32, 32, 32, 32]

theorem probe_new : parseLoop baseSegmentCharacterFormat .skip true probe 0 (zeroFields baseSegmentStruct) = (base 0 426, none) := by
  decide +kernel

theorem probe_read {a : Fields} (ha : a.Typed baseSegmentStruct) (g : Segs) :
    (0 < Spec.bdw a ∧ Spec.bdw a < 430 ∧ ∃ e, ((Record.base .character a g).parse probe false).2 = .error e) ∨
    (¬ (0 < Spec.bdw a ∧ Spec.bdw a < 430) ∧ ∃ n fs g', (Record.base .character a g).parse probe false = (.base .character fs g', .ok n) ∧
      Spec.bdw fs = Spec.bdw a) := by
  by_cases h : 0 < Spec.bdw a ∧ Spec.bdw a < 430
  · obtain ⟨e, h1, -⟩ := base_too_small (g := g) (g' := g) ha ha h.1 h.2 h.1 h.2 probe
    exact .inl ⟨h.1, h.2, e, h1⟩
  · right
    refine ⟨h, ?_⟩
    obtain ⟨k1, k2⟩ := parseLoop_kept (blocked_base .character) ha (zeroFields_typed baseSegmentStruct) true probe
    simp only [Enc.baseFormat] at k1 k2
    rw [probe_new] at k1 k2
    have hl : probe.length = 430 := by decide +kernel
    have hd : probe.drop 426 = [32, 32, 32, 32] := by decide +kernel
    have hd' : probe.drop (426 + 4) = [] := by decide +kernel
    simp only [Record.parse, parseBaseCharacter_eq, Bool.false_eq_true, if_false]
    generalize parseLoop baseSegmentCharacterFormat .skip true probe 0 a = x at *
    obtain ⟨x1, x2⟩ := x
    simp only at k1 k2
    subst k1
    obtain ⟨t, rfl, ht⟩ := k2 rfl
    have i1 : Fields.int ((F.BlockDescriptorWord, Val.int (Spec.bdw a)) :: t) .BlockDescriptorWord = Spec.bdw a := rfl
    have i2 : Fields.int ((F.BlockDescriptorWord, Val.int (Spec.bdw a)) :: t) .RecordDescriptorWord = 426 := by
      have : Fields.int ((F.BlockDescriptorWord, Val.int (Spec.bdw a)) :: t) .RecordDescriptorWord =
          (base 0 426).int .RecordDescriptorWord := by rw [ht]; rfl
      rw [this]
      decide +kernel
    rw [hl]
    simp only [i1, i2, gt_iff_lt]
    rw [if_neg (by decide)]
    by_cases h0 : 0 < Spec.bdw a
    · simp only [h0, if_true, hd', true_and]
      rw [if_neg (by decide)]
      have hr : readApplicableSegments { g with j1 := [], j2 := [] } [] false = ({ g with j1 := [], j2 := [] }, .ok 0) := rfl
      simp only [hr]
      rw [if_neg (by push_cast; omega), if_neg (by rintro ⟨h1, -⟩; rw [h1] at h0; exact absurd h0 (by decide))]
      exact ⟨_, _, _, rfl, rfl⟩
    · simp only [h0, if_false, hd, false_and]
      rw [if_neg (by decide)]
      have hr : readApplicableSegments { g with j1 := [], j2 := [] } [32, 32, 32, 32] false =
          ({ g with j1 := [], j2 := [] }, .ok 0) := rfl
      simp only [hr]
      rw [if_neg (by simp)]
      exact ⟨_, _, _, rfl, rfl⟩

/-- A record with block descriptor that shows the single segments. -/
def probeBlocked : Enc → Bytes
  | .character => (Record.base .character (base 430 426) {}).string
  | .packed => (Record.base .packed (base 370 366) {}).string

theorem probeBlocked_new (enc : Enc) : ∃ n fs, (newBase enc).parse (probeBlocked enc) true = (.base enc fs {}, .ok n) := by
  cases enc with
  | character => exact ⟨430, base 430 426, by decide +kernel⟩
  | packed => exact ⟨370, base 370 366, by decide +kernel⟩

theorem singleSegs_overlay {g g' : Segs} (h : Spec.overlay {} g = Spec.overlay {} g') : Spec.SingleSegs g g' := by
  obtain ⟨a1, a2, a3, a4, a5, a6, a7, a8⟩ := g
  obtain ⟨b1, b2, b3, b4, b5, b6, b7, b8⟩ := g'
  simpa [Spec.overlay, Spec.SingleSegs] using h

theorem base_blocked {a b : Fields} {g g' : Segs} {enc : Enc} (ha : a.Typed baseSegmentStruct) (hb : b.Typed baseSegmentStruct)
    (h : Spec.SameRead ((Record.base enc a g).parse (probeBlocked enc) true) ((Record.base enc b g').parse (probeBlocked enc) true)) :
    Spec.SingleSegs g g' := by
  obtain ⟨n, fs, hn⟩ := probeBlocked_new enc
  obtain ⟨h1, h2⟩ := C62_segments_kept enc a g ha (probeBlocked enc) true (by simp)
  obtain ⟨h3, h4⟩ := C62_segments_kept enc b g' hb (probeBlocked enc) true (by simp)
  rw [hn] at h1 h2 h3 h4
  obtain ⟨fs1, g1, e1, e2⟩ := h2 n rfl
  obtain ⟨fs2, g2, e3, e4⟩ := h4 n rfl
  cases e1
  cases e3
  have := h.2 n h1
  rw [e2, e4] at this
  exact singleSegs_overlay (Record.base.inj this).2.2

/-- C62, exactly, for records: two records of one type read every input alike if and only if they agree in what `Indistinct` names. -/
theorem C62_record_iff (r r' : Record) (h : Spec.SameType r r') (hr : Spec.WellTyped r) (hr' : Spec.WellTyped r') :
    (∀ rec isVar, Spec.SameRead (r.parse rec isVar) (r'.parse rec isVar)) ↔ Spec.Indistinct r r' := by
  cases r with
  | header e fs =>
    cases r' with
    | header e' fs' =>
      cases (h : e = e')
      constructor
      · rintro hall rfl
        obtain ⟨h1, h2⟩ := hall (Record.header .character (header 0 426)).string false
        have hn : (newHeader .character).parse (Record.header .character (header 0 426)).string false =
            (.header .character (header 0 426), .ok 426) := by decide +kernel
        obtain ⟨-, k1⟩ := C62_header_kept fs hr (Record.header .character (header 0 426)).string
        obtain ⟨-, k2⟩ := C62_header_kept fs' hr' (Record.header .character (header 0 426)).string
        rw [hn] at k1 k2
        obtain ⟨f1, e1, p1⟩ := k1 426 rfl
        obtain ⟨f2, e2, p2⟩ := k2 426 rfl
        cases e1
        cases e2
        rw [p1, p2] at h2
        have := h2 _ rfl
        simp only [Record.header.injEq, true_and] at this
        have := congrArg Spec.bdw this
        exact this
      · intro hi rec isVar
        exact C62_record_partial _ _ (by exact rfl) hr hr' rec isVar (fun hk => hi hk.1) ⟨rfl, rfl, rfl, rfl, rfl, rfl⟩
    | _ => exact h.elim
  | base e fs g =>
    cases r' with
    | base e' fs' g' =>
      cases (h : e = e')
      constructor
      · intro hall
        refine ⟨base_blocked hr hr' (hall _ true), ?_⟩
        rintro rfl
        obtain ⟨h1, h2⟩ := hall probe false
        rcases probe_read hr g with ⟨p1, p2, e, p3⟩ | ⟨p1, n, f1, g1, p2, p3⟩
        · rcases probe_read hr' g' with ⟨q1, q2, e', q3⟩ | ⟨q1, n', f2, g2, q2, q3⟩
          · exact .inr ⟨p1, p2, q1, q2⟩
          · rw [p3, q2] at h1; cases h1
        · rcases probe_read hr' g' with ⟨q1, q2, e', q3⟩ | ⟨q1, n', f2, g2, q2, q3⟩
          · rw [p2, q3] at h1; cases h1
          · rw [p2, q2] at h2
            have := h2 n rfl
            simp only [Record.base.injEq, true_and] at this
            left
            rw [← p3, ← q3, this.1]
      · rintro ⟨hs, hi⟩ rec isVar
        by_cases hk : Spec.KeepsBdw isVar (.base e fs g)
        · obtain ⟨rfl, rfl⟩ := hk
          rcases hi rfl with hi | ⟨p1, p2, p3, p4⟩
          · exact C62_record_partial _ _ (by exact rfl) hr hr' rec false (fun _ => hi) hs
          · obtain ⟨x, x1, x2⟩ := base_too_small (g := g) (g' := g') hr hr' p1 p2 p3 p4 rec
            exact ⟨x1.trans x2.symm, fun n hn => by rw [x1] at hn; cases hn⟩
        · exact C62_record_partial _ _ (by exact rfl) hr hr' rec isVar (fun hk' => absurd hk' hk) hs
    | _ => exact h.elim
  | trailer e fs =>
    cases r' with
    | trailer e' fs' =>
      cases (h : e = e')
      refine ⟨fun _ => trivial, fun _ rec isVar => ?_⟩
      exact C62_record_partial _ _ (by exact rfl) hr hr' rec isVar (fun hk => hk.elim) ⟨rfl, rfl, rfl, rfl, rfl, rfl⟩
    | _ => exact h.elim

/-- C62, exactly, for files: a used file reads every input like a new one if and only if it is a packed file or its header has no block descriptor. -/
theorem C62_file_iff (g : File) (hg : Spec.Reachable g) :
    (∀ fuel buf isVar, Spec.SameParse (g.parse fuel buf isVar) ((newFile g.format).parse fuel buf isVar)) ↔
      (g.format = .character → Spec.bdw (Spec.valuesOf g.header) = 0) := by
  constructor
  · intro h hc
    have hp := ((h 3 (fixedFile.string false) false).2 fixedFile).2 (by
      rw [hc]; exact C43_character false fixedFile fixedFile_good false 3 (by decide))
    obtain ⟨⟨⟨hfs, h1⟩, -, -⟩, th, -, -⟩ := C32_reachable hg
    obtain ⟨fmt, hd, bs, tr⟩ := g
    simp only at h1 th hc
    subst h1 hc
    simp only
    unfold File.parse at hp
    simp only at hp
    obtain ⟨k1, k2⟩ := C62_header_kept hfs th (deleteFunc isNewline (fixedFile.string false)).1
    generalize hq : (Record.header Enc.character hfs).parse (deleteFunc isNewline (fixedFile.string false)).1 false = q at hp k1 k2
    obtain ⟨h', x⟩ := q
    cases hz : ((newHeader .character).parse (deleteFunc isNewline (fixedFile.string false)).1 false).2 with
    | error e =>
      have := k1 e hz
      simp only at this
      subst this
      simp only [Option.some.injEq, Prod.mk.injEq, reduceCtorEq, and_false] at hp
    | ok m =>
      obtain ⟨t, -, e2⟩ := k2 m hz
      obtain ⟨rfl, rfl⟩ := Prod.mk.inj e2
      have hh : fixedFile.header = .header .character ((.BlockDescriptorWord, .int (Spec.bdw hfs)) :: t) := by
        revert hp
        simp only
        generalize parseBases Enc.character false (deleteFunc isNewline (fixedFile.string false)).1 3 _ [] = q
        cases q with
        | none => intro hp; cases hp
        | some q =>
          obtain ⟨bs', off, e⟩ := q
          cases e with
          | some e => intro hp; simp at hp
          | none =>
            simp only
            split
            · intro hp; simp at hp
            · generalize sliceFrom _ off = w
              cases w with
              | none => intro hp; simp at hp
              | some tail =>
                simp only
                generalize tr.parse tail false = w
                obtain ⟨t', y⟩ := w
                cases y with
                | error e => intro hp; simp at hp
                | ok tread =>
                  simp only
                  split
                  · intro hp; simp at hp
                  · intro hp
                    simp only [Option.some.injEq, Prod.mk.injEq, and_true] at hp
                    rw [← hp]
      have h0 : Spec.bdw (Spec.valuesOf fixedFile.header) = 0 := by decide +kernel
      rw [hh] at h0
      exact h0
  · intro h fuel buf isVar
    exact C62_file_partial g hg fuel buf isVar (fun hc _ => h hc)

/-- C62: a block descriptor left by an earlier call hides the segments of the next record: a new record reads the J1 segment, the used one
reports success without it, and the size of the earlier record. -/
theorem C62_segments_lost : ∃ (rec : Bytes) (used : Record), (newBase .character).parse (probeBlocked .character) true = (used, .ok 430) ∧
    ((newBase .character).parse rec false).2 = .ok 1200 ∧ (Spec.singles ((newBase .character).parse rec false).1).j1.length = 2 ∧
    (used.parse rec false).2 = .ok 430 ∧ (Spec.singles (used.parse rec false).1).j1 = [] := by
  refine ⟨(Record.base .character (base 0 1200) segs).string, .base .character (base 430 426) {}, ?_⟩
  decide +kernel

/-- The hypotheses of `C62_segments_kept`: a record with a K1 segment in it reads another record, and the K1 segment stays. -/
example : ((Record.base .character (base 0 1200) segs).parse probe false).2 = .ok 426 ∧
    (Spec.singles ((Record.base .character (base 0 1200) segs).parse probe false).1).k1 = segs.k1 := by
  have hb : typedB baseSegmentStruct (base 0 1200) = true := by decide +kernel
  have ht := typed_of_typedB hb
  obtain ⟨h1, h2⟩ := C62_segments_kept .character _ segs ht probe false (fun _ _ => by decide +kernel)
  have hn : (newBase .character).parse probe false = (.base .character (base 0 426) {}, .ok 426) := by decide +kernel
  rw [hn] at h1 h2
  obtain ⟨fs, g', e1, e2⟩ := h2 426 (by rfl)
  refine ⟨h1, ?_⟩
  rw [e2, ← (Record.base.inj e1).2.2]
  rfl

/-- The hypotheses of `C62_header_kept`: a header with a block descriptor. -/
example : ∃ others, (Record.header .character (header 500 426)).parse (Record.header .character (header 0 426)).string false =
    (.header .character ((.BlockDescriptorWord, .int 500) :: others), .ok 500) := by
  have hb : typedB headerRecordStruct (header 500 426) = true := by decide +kernel
  have ht : (header 500 426).Typed headerRecordStruct := typed_of_typedB hb
  have hn : ((newHeader .character).parse (Record.header .character (header 0 426)).string false).2 = .ok 426 := by decide +kernel
  obtain ⟨others, -, h⟩ := (C62_header_kept _ ht _).2 426 hn
  exact ⟨others, h⟩

/-- The hypotheses of `C62_record_iff`: block descriptors 5 and 7 cannot be told apart, 0 and 430 can. -/
example : Spec.Indistinct (.base .character (base 5 426) {}) (.base .character (base 7 426) {}) ∧
    ¬ Spec.Indistinct (.base .character (base 0 426) {}) (.base .character (base 430 426) {}) := by
  have h5 : Spec.bdw (base 5 426) = 5 := by decide +kernel
  have h7 : Spec.bdw (base 7 426) = 7 := by decide +kernel
  have h0 : Spec.bdw (base 0 426) = 0 := by decide +kernel
  have h430 : Spec.bdw (base 430 426) = 430 := by decide +kernel
  simp only [Spec.Indistinct, h5, h7, h0, h430]
  exact ⟨⟨⟨rfl, rfl, rfl, rfl, rfl, rfl⟩, fun _ => .inr (by decide)⟩, fun h => absurd (h.2 trivial) (by decide)⟩

/-- The hypotheses of `C62_file_iff`: the file that read a variable-blocked text does not read all inputs like a new one. -/
example : ¬ ∀ fuel buf isVar, Spec.SameParse (variableFile.parse fuel buf isVar) ((newFile variableFile.format).parse fuel buf isVar) := by
  rw [C62_file_iff variableFile variableFile_reachable]
  intro h
  exact absurd (h rfl) (by decide +kernel)

end Metro2
