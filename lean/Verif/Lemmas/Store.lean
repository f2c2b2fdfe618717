import Verif.Spec.Store
import Verif.Lemmas.RecordInv

/-! Storing and reading appended segments. -/

namespace Metro2

/-- What a sequence of stored segments does to the segments of type `k`. -/
def afterStores (k : SegKind) (old new : List Seg) : List Seg :=
  if Spec.Repeatable k then old ++ new else if new = [] then old else new.getLast?.toList

theorem segmentName_eq (k : SegKind) : Spec.segmentName k = k.name := by cases k <;> rfl

theorem Segs.get_store (g : Segs) (s : Seg) (k : SegKind) :
    (g.store s).get k.name = if s.kind = k then afterStores k (g.get k.name) [s] else g.get k.name := by
  obtain ⟨k', fs⟩ := s
  cases k' <;> cases k <;> rfl

theorem afterStores_nil (k : SegKind) (old : List Seg) : afterStores k old [] = old := by
  unfold afterStores; split <;> simp

theorem afterStores_append (k : SegKind) (old a b : List Seg) :
    afterStores k (afterStores k old a) b = afterStores k old (a ++ b) := by
  unfold afterStores
  split
  · simp
  · by_cases hb : b = []
    · simp [hb]
    · rw [if_neg hb, if_neg (by simp [hb]), List.getLast?_append]
      cases h : b.getLast? with
      | none => simp at h; exact absurd h hb
      | some x => rfl

theorem Segs.get_foldl_store (l : List Seg) (g : Segs) (k : SegKind) :
    (l.foldl Segs.store g).get k.name =
      afterStores k (g.get k.name) (l.filter fun s => decide (s.kind = k)) := by
  induction l generalizing g with
  | nil => rw [List.foldl_nil, List.filter_nil, afterStores_nil]
  | cons s l ih =>
    rw [List.foldl_cons, ih, Segs.get_store, List.filter_cons]
    by_cases h : s.kind = k
    · simp only [h, if_true, decide_true]
      rw [afterStores_append, List.singleton_append]
    · simp [h]

theorem Segs.get_unknown (g : Segs) (name : Bytes) (h : ∀ k, name ≠ Spec.segmentName k) : g.get name = [] := by
  have h1 := h .j1; have h2 := h .j2; have h3 := h .k1; have h4 := h .k2
  have h5 := h .k3; have h6 := h .k4; have h7 := h .l1; have h8 := h .n1
  simp only [segmentName_eq, SegKind.name] at h1 h2 h3 h4 h5 h6 h7 h8
  unfold Segs.get
  rw [if_neg h1, if_neg h2, if_neg h3, if_neg h4, if_neg h5, if_neg h6, if_neg h7, if_neg h8]

theorem addSegment_foldl (ss : List Seg) (enc : Enc) (fs : Fields) (g : Segs) :
    ss.foldl (fun r s => (Record.addSegment r s).1) (.base enc fs g) =
      .base enc fs ((ss.filter fun s => decide (s.validate = none)).foldl Segs.store g) := by
  induction ss generalizing g with
  | nil => rfl
  | cons s ss ih =>
    rw [List.foldl_cons]
    cases hv : s.validate with
    | none =>
      have h1 : (Record.addSegment (.base enc fs g) s).1 = .base enc fs (g.store s) := by
        simp only [Record.addSegment, Segs.add, hv]
      rw [h1, ih]; simp [hv]
    | some e =>
      have h1 : (Record.addSegment (.base enc fs g) s).1 = .base enc fs g := by
        simp only [Record.addSegment, Segs.add, hv]
      rw [h1, ih]; simp [hv]

theorem seg_rows_le (k : SegKind) : ∀ r ∈ k.format, r.2.start + r.2.len ≤ k.length := by
  cases k <;> decide +kernel

theorem slice_prefix {p rest : Bytes} {a l : Nat} (h : a + l ≤ p.length) :
    ((p ++ rest).drop a).take l = (p.drop a).take l := by
  rw [List.drop_append_of_le_length (by omega), List.take_append_of_le_length (by rw [List.length_drop]; omega)]

/-- A segment is read from its own bytes only. -/
theorem seg_parse_local {k : SegKind} {s : Seg} {p rest : Bytes} {isVar : Bool} {n : Nat} (hp : p.length = k.length)
    (h : (Seg.new k).parse (p ++ rest) isVar = (s, .ok n)) : (Seg.new k).parse p isVar = (s, .ok n) := by
  have hs := (seg_parse_safe (s := Seg.new k) (Seg.new_typed k) (p ++ rest) isVar).2.1
  rw [h] at hs
  obtain ⟨h1, h2, h3, h4⟩ := seg_parse_ok h
  simp only [Seg.new_kind] at h1 h2 h3 h4 hs
  have hb : ∀ p ∈ (Seg.new k).fields, p.1 ≠ .BlockDescriptorWord := by
    intro p hp
    obtain ⟨d, hd⟩ := mem_decl_of_typed (Seg.new_typed k) hp
    exact seg_noBdw k _ hd
  have hsl := parseLoop_inv hb h4
  have hsl' : SlotsOk k.format p 0 s.fields := by
    intro q hq
    obtain ⟨h5, e, h6, h7, h8, h9⟩ := hsl q hq
    have hle := seg_rows_le k _ (lookup_mem h6)
    simp only at hle
    rw [slice_prefix (by omega)] at h8 h9
    exact ⟨h5, e, h6, by omega, h8, h9⟩
  have hok := parseLoop_ok (pol := if isVar then .accept else .skip) (bounds := true)
    (SameShape.ofTyped (Seg.new_typed k) hs) hsl'
  unfold Seg.parse
  rw [if_neg (show ¬ p.length < (Seg.new k).kind.length by rw [Seg.new_kind]; omega),
    show (Seg.new k).kind = k from rfl, hok]
  obtain ⟨k', fs⟩ := s
  simp only at h3
  subst h3
  rw [h1]

/-- The segments that `readApplicableSegments` stores are those of the input, in order. -/
theorem readSegs_pieces {isVar : Bool} : ∀ (fuel : Nat) (g g' : Segs) (off n : Nat) (rec : Bytes),
    readSegs isVar fuel g off rec = (g', .ok n) →
    ∃ l, Spec.Segmented rec l ∧
      g' = (l.map fun p => ((Seg.new p.1).parse p.2 isVar).1).foldl Segs.store g ∧
      ∀ p ∈ l, ∃ s, (Seg.new p.1).parse p.2 isVar = (s, .ok p.1.length) ∧ s.kind = p.1 ∧
        s.validate = none := by
  intro fuel
  induction fuel with
  | zero => intro g g' off n rec h; simp [readSegs] at h
  | succ m ih =>
    intro g g' off n rec h
    rw [readSegs_succ] at h
    split at h
    · split at h
      · next hk => cases h; exact ⟨[], .done (.inl ((noSegment_iff _).2 hk)), rfl, by simp⟩
      · next k hk =>
        split at h
        · cases h
        · next s l he =>
          obtain ⟨h1, h2, h3, -, -, -⟩ := seg_parse_read he
          split at h
          · cases h
          · next g2 ha =>
            unfold Segs.add at ha
            split at ha
            · cases ha
            · next hv =>
              cases ha
              obtain ⟨ps, hps, hg, hall⟩ := ih _ _ _ _ _ h
              have hid := segKindOfIdent_some hk
              have hlen : (rec.take l).length = k.length := by rw [List.length_take]; omega
              have hloc : (Seg.new k).parse (rec.take l) isVar = (s, .ok l) :=
                seg_parse_local (rest := rec.drop l) hlen (by rw [List.take_append_drop]; exact he)
              refine ⟨(k, rec.take l) :: ps, ?_, ?_, ?_⟩
              · have := Spec.Segmented.step (k := k) (p := rec.take l) (rest := rec.drop l) ?_ ?_ hps
                · rwa [List.take_append_drop] at this
                · rw [segmentIdent_eq, ← hid]
                  have hge := SegKind.length_gt k
                  exact List.take_prefix_take_left (by omega)
                · rw [segmentLength_eq]; exact hlen
              · rw [hg, List.map_cons, List.foldl_cons, hloc]
              · intro p hp
                rcases List.mem_cons.1 hp with rfl | hp
                · exact ⟨s, by rw [hloc, h1], h3, hv⟩
                · exact hall p hp
    · cases h; exact ⟨[], .done (.inr (by omega)), rfl, by simp⟩

theorem pieces_filter {k : SegKind} {isVar : Bool} (l : List (SegKind × Bytes))
    (h : ∀ p ∈ l, ((Seg.new p.1).parse p.2 isVar).1.kind = p.1) :
    (l.map fun p => ((Seg.new p.1).parse p.2 isVar).1).filter (fun s => decide (s.kind = k)) =
      Spec.piecesOf k isVar l := by
  unfold Spec.piecesOf
  induction l with
  | nil => rfl
  | cons p l ih =>
    rw [List.map_cons, List.filter_cons, List.filter_cons, ih fun p hp => h p (List.mem_cons_of_mem _ hp)]
    have := h p List.mem_cons_self
    rw [this]
    by_cases hk : p.1 = k
    · subst hk; simp
    · simp [hk]

/-- The segments of an accepted data record. -/
theorem parseBase_pieces {enc : Enc} {rec : Bytes} {isVar : Bool} {fs : Fields} {g : Segs} {n : Int}
    (h : (newBase enc).parse rec isVar = (.base enc fs g, .ok n)) :
    ∃ m, readApplicableSegments {} (rec.drop (Spec.segmentsStart enc fs)) isVar = (g, .ok m) := by
  cases enc with
  | character =>
    have h := newBase_parse_character.1 h
    rw [parseBaseCharacter_eq] at h
    split at h
    · simp at h
    · generalize parseLoop baseSegmentCharacterFormat (if isVar then .accept else .skip) true rec 0
        (zeroFields baseSegmentStruct) = q at h
      obtain ⟨fs', o⟩ := q
      cases o with
      | some e => simp at h
      | none =>
        simp only at h
        have hst : (if fs'.int .BlockDescriptorWord > 0 then 426 + 4 else 426) =
            Spec.segmentsStart .character fs' := rfl
        rw [hst] at h
        by_cases hl : rec.length < Spec.segmentsStart .character fs'
        · rw [if_pos hl] at h; simp at h
        rw [if_neg hl] at h
        generalize hra : readApplicableSegments {} (rec.drop (Spec.segmentsStart .character fs')) isVar = q at h
        obtain ⟨g', x⟩ := q
        cases x with
        | error e => simp at h
        | ok m =>
          have : fs' = fs ∧ g' = g := by
            simp only at h
            split at h
            · simp at h
            · split at h
              · simp at h
              · simp only [Prod.mk.injEq] at h; exact h.1
          obtain ⟨rfl, rfl⟩ := this
          exact ⟨m, hra⟩
  | packed =>
    have h := newBase_parse_packed.1 h
    rw [parseBasePacked_eq] at h
    split at h
    · simp at h
    · split at h
      · simp at h
      · simp only at h
        split at h
        · simp at h
        · split at h
          · simp at h
          · next hra =>
            split at h
            · simp at h
            · simp only [Prod.mk.injEq] at h
              obtain ⟨⟨rfl, rfl⟩, -⟩ := h
              exact ⟨_, hra⟩

end Metro2
