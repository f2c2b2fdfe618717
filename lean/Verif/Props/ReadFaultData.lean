import Verif.Spec.ReadFaultData
import Verif.Props.ReadFault

/-! Property C130, the segments of data records. -/

namespace Metro2

open Spec Samples

theorem readSegs_fault {isVar : Bool} : ∀ (fuel : Nat) (g g' : Segs) (off : Nat) (rec : Bytes) (err : Err), rec.length < fuel →
    readSegs isVar fuel g off rec = (g', .error err) → ∃ l rest, Segments isVar rec l rest ∧ FaultySegment isVar rest err := by
  intro fuel
  induction fuel with
  | zero => intro g g' off rec r h; omega
  | succ m ih =>
    intro g g' off rec err hf h
    rw [readSegs_succ] at h
    by_cases hl : 2 < rec.length
    swap
    · rw [if_neg hl] at h; cases h
    rw [if_pos hl] at h
    cases hk : segKindOfIdent (rec.take 2) with
    | none => rw [hk] at h; cases h
    | some k =>
      rw [hk] at h
      simp only at h
      have hid := segKindOfIdent_some hk
      have hpre : segmentIdent k <+: rec := by rw [segmentIdent_eq, ← hid]; exact List.take_prefix _ _
      generalize hq : (Seg.new k).parse rec isVar = q at h
      obtain ⟨s, x⟩ := q
      cases x with
      | error e =>
        cases h
        refine ⟨[], rec, .nil, hl, k, hpre, ?_⟩
        by_cases hlen : rec.length < segmentLength k
        · refine .inl ⟨hlen, ?_⟩
          rw [segmentLength_eq] at hlen
          unfold Seg.parse at hq
          rw [show (Seg.new k).kind = k from rfl, if_pos hlen] at hq
          cases hq; rfl
        · refine .inr (.inl ⟨by omega, ?_⟩)
          have := (C130_segment (Seg.new k) (Seg.new_typed k) rec isVar (Nat.le_of_not_lt hlen) err).1 (by rw [hq])
          rwa [show (Seg.new k).fields.map Prod.fst = k.struct.map Prod.fst from (Seg.new_typed k).names] at this
      | ok n =>
        obtain ⟨h1, h2, h3, -, -, -⟩ := seg_parse_read hq
        have hlen : (rec.take n).length = k.length := by rw [List.length_take]; omega
        have hloc : (Seg.new k).parse (rec.take n) isVar = (s, .ok n) :=
          seg_parse_local (rest := rec.drop n) hlen (by rw [List.take_append_drop]; exact hq)
        simp only [Segs.add] at h
        cases hv : s.validate with
        | some e =>
          rw [hv] at h; cases h
          exact ⟨[], rec, .nil, hl, k, hpre, .inr (.inr ⟨s, by rw [segmentLength_eq, ← h1, hloc], hv⟩)⟩
        | none =>
          rw [hv] at h
          have hgt := k.length_gt
          obtain ⟨l, rest, h4, h5⟩ := ih _ _ _ _ _ (by rw [List.length_drop]; omega) h
          refine ⟨s :: l, rest, ?_, h5⟩
          have := Segments.cons (k := k) (piece := rec.take n) (more := rec.drop n) (isVar := isVar) (s := s) ?_ ?_ ?_ hv h4
          · rwa [List.take_append_drop] at this
          · rw [segmentIdent_eq, ← hid]
            exact List.take_prefix_take_left (by omega)
          · rw [segmentLength_eq]; exact hlen
          · rw [segmentLength_eq, hloc, h1]

/-- C130 (segments of data records): if all fields of a data record can be read, an error is about the first segment behind them that is cut off, cannot be read or is not
valid, and says what is wrong with it; or all segments are good, and it says that they go beyond the size that the record tells; or the text ends before the place of the segments. -/
theorem C130_appended (enc : Enc) (fs new : Fields) (g g' : Segs) (ht : fs.Typed baseSegmentStruct) (text : Bytes) (isVar : Bool) (hp : enc = .packed → isVar = true)
    (hl : Spec.recordLength enc + (if isVar then 4 else 0) ≤ text.length) (err : Err)
    (hn : ∀ e, ¬ FirstRefused enc.baseFormat text isVar (fs.map Prod.fst) e)
    (h : (Record.base enc fs g).parse text isVar = (.base enc new g', .error err)) :
    (text.length < segmentsStart enc new ∧ isVar = false ∧ err = .segmentLength) ∨
    (segmentsStart enc new ≤ text.length ∧ ∃ l rest, Segments isVar (text.drop (segmentsStart enc new)) l rest ∧
      (FaultySegment isVar rest err ∨
       ((NoSegment rest ∨ rest.length ≤ 2) ∧ err = .failedParsing ∧
          (((enc = .packed ∨ 0 < bdw new) ∧ bdw new < text.length - rest.length) ∨
           (enc = .character ∧ bdw new = 0 ∧ rdw new < text.length - rest.length))))) := by
  rw [recordLength_eq] at hl
  have key := fun pol hpol e => (parseLoop_first_blocked (pol := pol) (bounds := true) (blocked_base enc) (layout_base enc) (base_rows_le enc) hpol hl ht e)
  cases enc with
  | character =>
    simp only [Record.parse] at h
    generalize hP : parseBaseCharacter fs g text isVar = P at h
    obtain ⟨⟨new', g1⟩, x⟩ := P
    cases h
    dsimp only
    have h1 := key (if isVar then .accept else .skip) rfl
    simp only [Enc.baseFormat, Enc.recordLength] at h1 hl hn
    rw [parseBaseCharacter_eq] at hP
    rw [if_neg (by omega)] at hP
    generalize hq : parseLoop baseSegmentCharacterFormat (if isVar then .accept else .skip) true text 0 fs = q at hP
    obtain ⟨new1, o⟩ := q
    cases o with
    | some e => exact absurd ((h1 e).1 (by rw [hq])) (hn e)
    | none =>
      simp only at hP
      have hoff : (if new1.int .BlockDescriptorWord > 0 then 426 + 4 else 426) = segmentsStart .character new1 := rfl
      rw [hoff] at hP
      by_cases hs : text.length < segmentsStart .character new1
      · rw [if_pos hs] at hP; cases hP
        refine .inl ⟨hs, ?_, rfl⟩
        cases isVar with
        | false => rfl
        | true =>
          exfalso
          rw [← hoff] at hs
          simp only [if_true] at hl
          split at hs <;> omega
      rw [if_neg hs] at hP
      generalize hr : readApplicableSegments { g with j1 := [], j2 := [] } (text.drop (segmentsStart .character new1)) isVar = q at hP
      obtain ⟨g2, x⟩ := q
      cases x with
      | error e =>
        cases hP
        obtain ⟨l, rest, h2, h3⟩ := readSegs_fault _ _ _ _ _ _ (Nat.lt_succ_self _) hr
        exact .inr ⟨by omega, l, rest, h2, .inl h3⟩
      | ok n =>
        obtain ⟨l, rest, h2, h3, h4⟩ := readSegs_stopped _ _ _ _ _ _ (Nat.lt_succ_self _) hr
        rcases h4 with ⟨⟨e, h4⟩, -⟩ | ⟨h4, h5, h6⟩
        · cases h4
        cases h4
        simp only at hP
        rw [List.length_drop] at hP h5
        have hb : bdw new1 = new1.int .BlockDescriptorWord := rfl
        have hd : rdw new1 = new1.int .RecordDescriptorWord := rfl
        split at hP
        · next hc =>
          cases hP
          exact .inr ⟨by omega, l, rest, h2, .inr ⟨h6, rfl, .inl ⟨.inr hc.1, by omega⟩⟩⟩
        · next hc =>
          split at hP
          · next hc' =>
            cases hP
            exact .inr ⟨by omega, l, rest, h2, .inr ⟨h6, rfl, .inr ⟨rfl, hc'.1, by omega⟩⟩⟩
          · cases hP
  | packed =>
    have := hp rfl
    subst this
    simp only [Record.parse] at h
    generalize hP : parseBasePacked fs g text true = P at h
    obtain ⟨⟨new', g1⟩, x⟩ := P
    cases h
    dsimp only
    have h1 := key .accept rfl
    simp only [Enc.baseFormat, Enc.recordLength, if_true] at h1 hl hn
    rw [parseBasePacked_eq] at hP
    rw [if_neg (by omega)] at hP
    simp only [if_true] at hP
    generalize hq : parseLoop baseSegmentPackedFormat .accept true text 0 fs = q at hP
    obtain ⟨new1, o⟩ := q
    cases o with
    | some e => exact absurd ((h1 e).1 (by rw [hq])) (hn e)
    | none =>
      simp only at hP
      have hoff : 366 + 4 = segmentsStart .packed new1 := rfl
      rw [hoff] at hP
      by_cases hs : text.length < segmentsStart .packed new1
      · rw [← hoff] at hs; omega
      rw [if_neg hs] at hP
      generalize hr : readApplicableSegments { g with j1 := [], j2 := [] } (text.drop (segmentsStart .packed new1)) true = q at hP
      obtain ⟨g2, x⟩ := q
      cases x with
      | error e =>
        cases hP
        obtain ⟨l, rest, h2, h3⟩ := readSegs_fault _ _ _ _ _ _ (Nat.lt_succ_self _) hr
        exact .inr ⟨by omega, l, rest, h2, .inl h3⟩
      | ok n =>
        obtain ⟨l, rest, h2, h3, h4⟩ := readSegs_stopped _ _ _ _ _ _ (Nat.lt_succ_self _) hr
        rcases h4 with ⟨⟨e, h4⟩, -⟩ | ⟨h4, h5, h6⟩
        · cases h4
        cases h4
        simp only at hP
        rw [List.length_drop] at hP h5
        have hb : bdw new1 = new1.int .BlockDescriptorWord := rfl
        split at hP
        · next hc =>
          cases hP
          exact .inr ⟨by omega, l, rest, h2, .inr ⟨h6, rfl, .inl ⟨.inl rfl, by omega⟩⟩⟩
        · cases hP

/-- Case of `C130_appended`: of the segments behind a data record the first is good, and the second has a control character in its name. -/
example : ∃ new g', (Record.base .character (zeroFields baseSegmentStruct) {}).parse ((Record.base .character (base 0 600) { k2 := some k2 }).string.take 460 ++
        b! "K1\tabc                          zz") false = (.base .character new g', .error (.nonAlphanumeric .OriginalCreditorName)) ∧
    ∀ e, ¬ FirstRefused baseSegmentCharacterFormat ((Record.base .character (base 0 600) { k2 := some k2 }).string.take 460 ++
        b! "K1\tabc                          zz") false ((zeroFields baseSegmentStruct).map Prod.fst) e := by
  generalize ht : (Record.base .character (base 0 600) { k2 := some k2 }).string.take 460 ++ b! "K1\tabc                          zz" = text
  have hl : 426 ≤ text.length := by rw [← ht]; decide +kernel
  have h1 : errorIn ((Record.base .character (zeroFields baseSegmentStruct) {}).parse text false).2 = some (.nonAlphanumeric .OriginalCreditorName) := by
    rw [← ht]; decide +kernel
  have h2 : (parseLoop baseSegmentCharacterFormat .skip true text 0 (zeroFields baseSegmentStruct)).2 = none := by rw [← ht]; decide +kernel
  refine ⟨_, _, Prod.ext rfl (error_of_errorIn h1), fun e he => ?_⟩
  have := (parseLoop_first_blocked (pol := .skip) (bounds := true) (blocked_base .character) (layout_base .character) (base_rows_le .character)
    (blocked := false) rfl hl (zeroFields_typed _) e).2 he
  simp only [Enc.baseFormat] at this
  rw [h2] at this
  cases this

/-! ### Texts without a block descriptor, and short texts -/

theorem parseLoop_fail {fmt : Format} {rec : Bytes} {v : Val} {rest : Fields} (hf : fmt.lookup .BlockDescriptorWord = some (bdwField .packed)) (hl : 4 ≤ rec.length) :
    (parseLoop fmt .fail true rec 0 ((.BlockDescriptorWord, v) :: rest)).2 = some .blockDescriptorWord := by
  have hs : slice rec 0 4 = some (rec.take 4) := by simp [slice, hl]
  have h2 : ¬ (rec.take 4).length < 2 := by rw [List.length_take]; omega
  rw [parseLoop]
  simp only [hf, bdwField, Nat.add_zero, Nat.zero_add, true_and, if_neg (Nat.not_lt.2 hl), hs, isValidType, requiredCheck, parseValue, if_neg h2]
  simp

theorem typed_head {d : FieldDecl} {f : F} {ds : List (F × FieldDecl)} {fs : Fields} (h : fs.Typed ((f, d) :: ds)) : ∃ v rest, fs = (f, v) :: rest := by
  cases fs with
  | nil => exact h.elim
  | cons p rest =>
    obtain ⟨g, v⟩ := p
    obtain ⟨h1, -, -⟩ := h
    subst h1
    exact ⟨v, rest, rfl⟩

/-- C130 (packed records without a block descriptor word): this is the error, whatever else is wrong. For headers the text itself tells if it begins with one, for data
records the caller does. -/
theorem C130_unblocked (fs : Fields) (g : Segs) (text : Bytes) (isVar : Bool) (hl : Spec.recordLength .packed ≤ text.length) :
    (fs.Typed headerRecordStruct → isVariableLength text = false → ((Record.header .packed fs).parse text isVar).2 = .error .blockDescriptorWord) ∧
    (fs.Typed baseSegmentStruct → ((Record.base .packed fs g).parse text false).2 = .error .blockDescriptorWord) := by
  rw [recordLength_eq] at hl
  simp only [Enc.recordLength] at hl
  constructor
  · intro ht hv
    obtain ⟨v, rest, rfl⟩ := typed_head ht
    have := parseLoop_fail (v := v) (rest := rest) (blocked_header .packed).bdw (rec := text) (by omega)
    simp only [Record.parse]
    unfold parseHeader
    rw [if_neg (by simp only [Enc.recordLength]; omega)]
    simp only [headerPolicy, hv, Bool.false_eq_true, if_false]
    generalize parseLoop Enc.packed.headerFormat .fail true text 0 _ = q at this
    obtain ⟨fs', o⟩ := q
    simp only at this
    subst this
    rfl
  · intro ht
    obtain ⟨v, rest, rfl⟩ := typed_head ht
    have := parseLoop_fail (v := v) (rest := rest) (blocked_base .packed).bdw (rec := text) (by omega)
    simp only [Record.parse]
    unfold parseBasePacked
    rw [if_neg (by omega), if_neg (by decide)]
    simp only [Enc.baseFormat] at this
    generalize parseLoop baseSegmentPackedFormat .fail true text 0 _ = q at this
    obtain ⟨fs', o⟩ := q
    simp only at this
    subst this
    rfl

/-- C130 (short texts): a text that is shorter than a record, or than a segment, is refused for its length, and changes nothing. -/
theorem C130_short (text : Bytes) (isVar : Bool) :
    (∀ enc fs, text.length < Spec.recordLength enc → (Record.header enc fs).parse text isVar = (.header enc fs, .error .segmentLength)) ∧
    (∀ enc fs, text.length < Spec.recordLength enc → (Record.trailer enc fs).parse text isVar = (.trailer enc fs, .error .segmentLength)) ∧
    (∀ enc fs g, text.length < Spec.recordLength enc → (Record.base enc fs g).parse text isVar = (.base enc fs g, .error .segmentLength)) ∧
    (∀ s : Seg, text.length < segmentLength s.kind → s.parse text isVar = (s, .error .segmentLength)) := by
  refine ⟨fun enc fs h => ?_, fun enc fs h => ?_, fun enc fs g h => ?_, fun s h => ?_⟩
  · rw [recordLength_eq] at h
    simp only [Record.parse, parseHeader, if_pos h]
  · rw [recordLength_eq] at h
    simp only [Record.parse, parseTrailer, if_pos h]
  · rw [recordLength_eq] at h
    cases enc <;> simp only [Enc.recordLength] at h <;> simp only [Record.parse, parseBaseCharacter, parseBasePacked, if_pos h]
  · rw [segmentLength_eq] at h
    simp only [Seg.parse, if_pos h]

/-- Case of `C130_unblocked`: the text of a packed header without its first word. -/
example : Spec.recordLength .packed ≤ ((Record.header .packed (header 370 366)).string.drop 4).length ∧
    isVariableLength ((Record.header .packed (header 370 366)).string.drop 4) = false ∧ (zeroFields headerRecordStruct).Typed headerRecordStruct ∧
    (zeroFields baseSegmentStruct).Typed baseSegmentStruct :=
  ⟨by decide +kernel, by decide +kernel, zeroFields_typed _, zeroFields_typed _⟩

/-- Case of `C130_short`: all but the last byte of a trailer and of a segment. -/
example : ((Record.trailer .character (trailer 426)).string.take 425).length < Spec.recordLength .character ∧
    (k2.string.take 33).length < segmentLength k2.kind := by decide +kernel

/-! ### Texts that begin with a block descriptor word and are a little too short -/

theorem firstUnread_cons {fmt : Format} {rec : Bytes} {blocked : Bool} {f : F} {l : List F} {err : Err} :
    FirstUnread fmt rec blocked (f :: l) err ↔ UnreadAt fmt rec blocked f err ∨ (∀ e, ¬ UnreadAt fmt rec blocked f e) ∧ FirstUnread fmt rec blocked l err := by
  constructor
  · rintro ⟨before, g, behind, h1, h2, h3⟩
    cases before with
    | nil => cases h1; exact .inl h3
    | cons x before =>
      cases h1
      exact .inr ⟨h2 _ List.mem_cons_self, before, g, behind, rfl, fun x hx => h2 x (List.mem_cons_of_mem _ hx), h3⟩
  · rintro (h | ⟨h1, before, g, behind, rfl, h2, h3⟩)
    · exact ⟨[], f, l, rfl, by simp, h⟩
    · refine ⟨f :: before, g, behind, rfl, ?_, h3⟩
      intro x hx
      rcases List.mem_cons.1 hx with rfl | hx
      · exact h1
      · exact h2 x hx

section
variable {fmt : Format} {pol : BdwPolicy} {rec : Bytes} {decl : List (F × FieldDecl)}

theorem unreadAt_iff (hnd : (fmt.map (·.1)).Nodup) {f : F} {e : Field} (he : (f, e) ∈ fmt) (hw : WidthOk e = true) {blocked : Bool} {off : Nat}
    (ho : off = if blocked ∧ f ≠ .BlockDescriptorWord then 4 else 0) {err : Err} :
    UnreadAt fmt rec blocked f err ↔ (rec.length < e.start + e.len + off ∧ err = .segmentLength) ∨
      (e.start + e.len + off ≤ rec.length ∧ verdict e f ((rec.drop (e.start + off)).take e.len) = .error err) := by
  have key : ∀ h : e.start + e.len + off ≤ rec.length, _ := fun h => refusedAt_iff (rec := rec) hnd he hw ho h (err := err)
  constructor
  · rintro ⟨e', h1, h2⟩
    have := lookup_of_mem hnd h1
    rw [lookup_of_mem hnd he] at this; cases this
    rw [← ho] at h2
    exact h2.imp id fun h => ⟨h.1, (key h.1).1 h.2⟩
  · intro h
    refine ⟨e, he, ?_⟩
    rw [← ho]
    exact h.imp id fun h => ⟨h.1, (key h.1).2 h.2⟩

theorem parseLoop_beyond {off : Nat} {f : F} {v : Val} {rest : Fields} {e : Field} (he : fmt.lookup f = some e) (hl : rec.length < e.start + e.len + off) :
    (parseLoop fmt pol true rec off ((f, v) :: rest)).2 = some .segmentLength := by
  rw [parseLoop_cons]
  simp only [he]
  rw [if_pos hl]
  simp

theorem parseLoop_unread (hnd : (fmt.map (·.1)).Nodup) {blocked : Bool} {fs : Fields}
    (hl : ∀ d ∈ decl, d.1 ≠ .BlockDescriptorWord ∧ ∃ e, (d.1, e) ∈ fmt ∧ WidthOk e = true ∧ KindOk e d.2.kind = true)
    (ht : fs.Typed decl) (err : Err) :
    (parseLoop fmt pol true rec (if blocked then 4 else 0) fs).2 = some err ↔ FirstUnread fmt rec blocked (fs.map Prod.fst) err := by
  induction decl generalizing fs with
  | nil => cases fs with
    | nil =>
      simp only [parseLoop, List.map_nil, reduceCtorEq, false_iff]
      rintro ⟨b, g, c, h, -⟩
      simp at h
    | cons => exact ht.elim
  | cons d ds ih => cases fs with
    | nil => exact ht.elim
    | cons p fs =>
      obtain ⟨f, v⟩ := p
      obtain ⟨h1, h2, h3⟩ := ht
      obtain ⟨hb, e, he, hw, hk⟩ := hl d List.mem_cons_self
      rw [h1] at he hb
      have hr := fun err => unreadAt_iff (rec := rec) hnd he hw (blocked := blocked) (off := if blocked then 4 else 0) (by simp [hb]) (err := err)
      have ih' := ih (fun d hd => hl d (List.mem_cons_of_mem _ hd)) h3
      rw [List.map_cons, firstUnread_cons, hr, forall_congr' fun err => not_congr (hr err)]
      by_cases hlen : e.start + e.len + (if blocked then 4 else 0) ≤ rec.length
      swap
      · rw [parseLoop_beyond (lookup_of_mem hnd he) (Nat.lt_of_not_le hlen)]
        have hlt := Nat.lt_of_not_le hlen
        constructor
        · intro h; cases h; exact .inl (.inl ⟨hlt, rfl⟩)
        · rintro ((h | h) | h)
          · rw [h.2]
          · exact absurd h.1 hlen
          · exact absurd (.inl ⟨hlt, rfl⟩) (h.1 .segmentLength)
      rw [parseLoop_verdict (lookup_of_mem hnd he) hk h2 hlen]
      simp only [Nat.not_lt.2 hlen, hlen, false_and, false_or, true_and]
      cases hv : verdict e f ((rec.drop (e.start + if blocked = true then 4 else 0)).take e.len) with
      | error err0 =>
        simp only [Option.some.injEq, Except.error.injEq]
        exact ⟨.inl, fun h => h.elim id fun h => absurd rfl (h.1 err0)⟩
      | ok w =>
        simp only [reduceCtorEq, false_or, not_false_eq_true, implies_true, true_and]
        rw [← ih']
        cases pol <;> first | rfl | (cases f <;> first | rfl | exact absurd rfl hb)

theorem parseLoop_fault_blocked {enc : Enc} {L : Nat} (hB : Blocked enc fmt decl) (hL : Layout fmt decl L)
    (h4 : 4 ≤ rec.length) {fs : Fields} (ht : fs.Typed decl) (err : Err) :
    (parseLoop fmt .accept true rec 0 fs).2 = some err ↔ FirstUnread fmt rec true (fs.map Prod.fst) err := by
  have hbd : fmt.lookup .BlockDescriptorWord = some (bdwField enc) := hB.bdw
  obtain ⟨d, d', ds, rfl, hk, hk', hds⟩ := hB.struct
  cases fs with
  | nil => exact ht.elim
  | cons p fs =>
    obtain ⟨f, v⟩ := p
    obtain ⟨h1, h2, h3⟩ := ht
    obtain ⟨e, he, hw, hkk, -⟩ := hL.hasRow _ List.mem_cons_self
    simp only at h1 h2 he hkk
    subst h1
    have hee : e.start + e.len + 0 ≤ rec.length := by
      have := lookup_of_mem hL.names he
      rw [hbd] at this; cases this
      cases enc <;> exact h4
    have hl : ∀ x ∈ (F.RecordDescriptorWord, d') :: ds, x.1 ≠ .BlockDescriptorWord ∧ ∃ e, (x.1, e) ∈ fmt ∧ WidthOk e = true ∧
        KindOk e x.2.kind = true := by
      intro x hx
      refine ⟨?_, ?_⟩
      · rcases List.mem_cons.1 hx with rfl | hx
        · simp
        · exact (hds x hx).1
      · obtain ⟨e, h4, h5, h6, -⟩ := hL.hasRow x (List.mem_cons_of_mem _ hx)
        exact ⟨e, h4, h5, h6⟩
    have hr := fun err => unreadAt_iff (rec := rec) hL.names he hw (blocked := true) (off := 0) (by simp) (err := err)
    have hrest := parseLoop_unread (pol := .accept) hL.names hl h3 (blocked := true) (rec := rec) err
    rw [List.map_cons, firstUnread_cons, parseLoop_verdict (lookup_of_mem hL.names he) hkk h2 hee, hr, forall_congr' fun err => not_congr (hr err), ← hrest]
    simp only [Nat.not_lt.2 hee, hee, false_and, false_or, true_and]
    cases hv : verdict e .BlockDescriptorWord ((rec.drop (e.start + 0)).take e.len) with
    | error err0 =>
      simp only [Option.some.injEq, Except.error.injEq]
      exact ⟨.inl, fun h => h.elim id fun h => absurd rfl (h.1 err0)⟩
    | ok w =>
      simp only [reduceCtorEq, false_or, not_false_eq_true, implies_true, true_and]
      exact Iff.rfl

end

/-- C130 (headers with a block descriptor word, of any length from that of a record on): the error is about the first field that is not there or cannot be read. -/
theorem C130_header_cut (enc : Enc) (fs : Fields) (ht : fs.Typed headerRecordStruct) (text : Bytes) (isVar : Bool)
    (hb : (if enc = .packed then isVariableLength text else isVar) = true) (hl : Spec.recordLength enc ≤ text.length) (err : Err) :
    ((Record.header enc fs).parse text isVar).2 = .error err ↔ FirstUnread enc.headerFormat text true (fs.map Prod.fst) err := by
  rw [recordLength_eq] at hl
  have hp : headerPolicy enc text isVar = .accept := by
    cases enc with
    | character => simp at hb; subst hb; rfl
    | packed => simp only [if_true] at hb; simp [headerPolicy, hb]
  have h4 : 4 ≤ text.length := Nat.le_trans (by cases enc <;> decide) hl
  rw [← parseLoop_fault_blocked (blocked_header enc) (layout_header enc) h4 ht]
  simp only [Record.parse]
  unfold parseHeader
  rw [if_neg (by omega), hp]
  generalize parseLoop enc.headerFormat .accept true text 0 fs = q
  obtain ⟨fs, o⟩ := q
  cases o <;> simp

/-- C130 (data records with a block descriptor word, of any length from that of a record on): if a field is not there or cannot be read, the error is about the first one. -/
theorem C130_data_cut (enc : Enc) (fs : Fields) (g : Segs) (ht : fs.Typed baseSegmentStruct) (text : Bytes) (hl : Spec.recordLength enc ≤ text.length) (err : Err)
    (h : FirstUnread enc.baseFormat text true (fs.map Prod.fst) err) : ((Record.base enc fs g).parse text true).2 = .error err := by
  rw [recordLength_eq] at hl
  have h4 : 4 ≤ text.length := Nat.le_trans (by cases enc <;> decide) hl
  have h1 := (parseLoop_fault_blocked (blocked_base enc) (layout_base enc) h4 ht err).2 h
  cases enc with
  | character =>
    simp only [Enc.baseFormat, Enc.recordLength] at h1 hl
    simp only [Record.parse]
    unfold parseBaseCharacter
    rw [if_neg (by omega)]
    simp only [if_true]
    generalize parseLoop baseSegmentCharacterFormat .accept true text 0 fs = q at h1
    obtain ⟨fs', o⟩ := q
    simp only at h1
    subst h1
    rfl
  | packed =>
    simp only [Enc.baseFormat, Enc.recordLength] at h1 hl
    simp only [Record.parse]
    unfold parseBasePacked
    rw [if_neg (by omega)]
    simp only [if_true]
    generalize parseLoop baseSegmentPackedFormat .accept true text 0 fs = q at h1
    obtain ⟨fs', o⟩ := q
    simp only at h1
    subst h1
    rfl

/-- Case of `C130_header_cut`: two bytes are missing, and a field before them has a control character. -/
example : FirstUnread headerRecordCharacterFormat (((Record.header .character (header 430 426)).string.set 90 9).take 428) true
    ((zeroFields headerRecordStruct).map Prod.fst) (.nonAlphanumeric .ReporterName) :=
  (C130_header_cut .character (zeroFields headerRecordStruct) (zeroFields_typed _) _ true rfl (by decide +kernel) _).1
    (error_of_errorIn (by decide +kernel))

/-- Case of `C130_header_cut`: no field stands in the last 146 places of a header, so missing bytes there are no fault. -/
example (err : Err) : ¬ FirstUnread headerRecordCharacterFormat ((Record.header .character (header 430 426)).string.take 428) true
    ((zeroFields headerRecordStruct).map Prod.fst) err := by
  intro h
  have h1 := (C130_header_cut .character (zeroFields headerRecordStruct) (zeroFields_typed _) _ true rfl (by decide +kernel) _).2 h
  have h2 : errorIn ((Record.header .character (zeroFields headerRecordStruct)).parse ((Record.header .character (header 430 426)).string.take 428) true).2 = none := by
    decide +kernel
  rw [h1] at h2
  cases h2

/-- Case of `C130_data_cut`: one byte is missing. -/
example : FirstUnread baseSegmentCharacterFormat ((Record.base .character (base 430 426) {}).string.take 429) true
    ((zeroFields baseSegmentStruct).map Prod.fst) .segmentLength :=
  (parseLoop_fault_blocked (blocked_base .character) (layout_base .character) (by decide +kernel) (zeroFields_typed _) _).1 (by decide +kernel)

end Metro2
