import Verif.Lemmas.Order
import Verif.Props.Store
import Verif.Props.Validate

/-! Properties C73 to C75: the rules of /repo/docs/file-structure.md for appended segments. -/

namespace Metro2

open Samples

/-! ### C73 -/

theorem placeholder_rejected : ∀ (k : SegKind) (isVar : Bool),
    (match (Seg.new k).parse (Spec.placeholder k) isVar with
      | (s, .ok _) => decide (s.validate ≠ none)
      | (_, .error _) => true) = true := by
  intro k isVar
  cases k <;> cases isVar <;> decide +kernel

/-- C73 fails for every record: whatever else it contains, no data record with a placeholder, of any type, is accepted by `Parse`,
in either format and blocking. -/
theorem C73_never_accepted (enc : Enc) (rec : Bytes) (isVar : Bool) (fs : Fields) (g : Segs) (n : Int)
    (h : (newBase enc).parse rec isVar = (.base enc fs g, .ok n)) (pieces : List (SegKind × Bytes))
    (hs : Spec.Segmented (rec.drop (Spec.segmentsStart enc fs)) pieces) (k : SegKind) : (k, Spec.placeholder k) ∉ pieces := by
  intro hp
  obtain ⟨l, h1, h2, -⟩ := C26_segments_kept_partial enc rec isVar fs g n h
  have := segmented_unique hs h1
  subst this
  obtain ⟨s, h3, h4⟩ := h2 _ hp
  have := placeholder_rejected k isVar
  simp only at h3
  rw [h3] at this
  simp [h4] at this

/-- A fixed-length data record with a placeholder for segments of type `k`. -/
def withPlaceholder (enc : Enc) (fs : Fields) (k : SegKind) : Bytes :=
  fieldsString enc.baseFormat fs ++ Spec.placeholder k ++ List.replicate (1000 - Spec.fixedLength enc fs - Spec.segmentLength k) 32

/-- C73 is violated in every format and blocking, for every type: the record is refused; with blanks in the place of the
placeholder it is accepted. -/
theorem C73_violated : ∀ p ∈ [(Enc.character, false, base 0 1000), (Enc.character, true, base 1000 996),
      (Enc.packed, true, base 1000 996)], ∀ k ∈ SegKind.all,
    (match ((newBase p.1).parse (withPlaceholder p.1 p.2.2 k) p.2.1).2 with
      | .error _ => true
      | .ok _ => false) = true ∧
    (newBase p.1).parse (fieldsString p.1.baseFormat p.2.2 ++ List.replicate (1000 - Spec.fixedLength p.1 p.2.2) 32) p.2.1 =
      (.base p.1 p.2.2 {}, .ok 1000) := by
  decide +kernel

/-- C73, the part that holds: a data record that leaves out the types it does not need is read, as is every writable record; what is
written has no placeholder, and nothing at all for a type that the record does not have. The full property, that placeholders are
accepted, fails, see `C73_never_accepted`. -/
theorem C73_omitted_partial (enc : Enc) (isVar : Bool) (fs : Fields) (g : Segs) (h : Spec.GoodBase enc isVar fs g)
    (rest : Bytes) (hn : Spec.NextOk enc fs g rest) :
    (newBase enc).parse ((Record.base enc fs g).string ++ rest) isVar = (.base enc fs g, .ok (Spec.sizeWord isVar fs)) ∧
    ∃ pieces, Spec.Segmented (((Record.base enc fs g).string ++ rest).drop (Spec.segmentsStart enc fs)) pieces ∧
      ∀ k, (k, Spec.placeholder k) ∉ pieces ∧ ((Record.base enc fs g).getSegments (Spec.segmentName k) = [] → ∀ p, (k, p) ∉ pieces) := by
  have hr := base_reread h hn
  refine ⟨hr, ?_⟩
  obtain ⟨pad, hd, hpad⟩ := base_string_drop h hn
  have hseg : Spec.Segmented (((Record.base enc fs g).string ++ rest).drop (Spec.segmentsStart enc fs)) (written g) := by
    rw [hd]; exact shaped_segmented hpad (written_shaped h.segs)
  refine ⟨written g, hseg, fun k => ⟨C73_never_accepted enc _ isVar fs g _ hr _ hseg k, fun hk p hp => ?_⟩⟩
  obtain ⟨s, hs, hp⟩ := List.mem_map.1 hp
  have hkind : s.kind = k := congrArg Prod.fst hp
  rw [Record.getSegments, segmentName_eq, ← foldl_store_list h.segs.placed, Segs.get_foldl_store] at hk
  have hm : s ∈ g.list.filter fun s => decide (s.kind = k) := List.mem_filter.2 ⟨hs, by simpa using hkind⟩
  have h0 : Segs.get {} k.name = [] := by cases k <;> rfl
  rw [h0] at hk
  unfold afterStores at hk
  split at hk
  · rw [List.nil_append] at hk
    rw [hk] at hm
    cases hm
  · split at hk
    · next h2 => rw [h2] at hm; cases hm
    · next h2 =>
      cases h3 : (g.list.filter fun s => decide (s.kind = k)).getLast? with
      | none => exact h2 (List.getLast?_eq_none_iff.1 h3)
      | some x => rw [h3] at hk; simp at hk

/-- Non-vacuity: a record with two of the eight types. -/
theorem k1l1_good : Spec.GoodBase .character false (base 0 1000) { k1 := some k1, l1 := some l1 } :=
  goodBase_of_B (by decide +kernel) (by decide +kernel) (by decide +kernel) (by decide) (by decide +kernel) (by decide +kernel)

example : Spec.NextOk .character (base 0 1000) { k1 := some k1, l1 := some l1 } (b! "0426") ∧
    (Record.base .character (base 0 1000) { k1 := some k1, l1 := some l1 }).getSegments (Spec.segmentName .j1) = [] ∧
    (Record.base .character (base 0 1000) { k1 := some k1, l1 := some l1 }).string.length = 1000 :=
  ⟨nextOk_of_B (by decide +kernel), by decide +kernel, by decide +kernel⟩

/-- Cases of `C73_never_accepted` and `C74_written_partial`: this record is accepted, and its text has two pieces. -/
example : (newBase .character).parse (Record.base .character (base 0 1000) { k1 := some k1, l1 := some l1 }).string false =
      (.base .character (base 0 1000) { k1 := some k1, l1 := some l1 }, .ok 1000) ∧
    ∃ pieces, pieces.length = 2 ∧
      Spec.Segmented ((Record.base .character (base 0 1000) { k1 := some k1, l1 := some l1 }).string.drop
        (Spec.segmentsStart .character (base 0 1000))) pieces := by
  refine ⟨by decide +kernel, written { k1 := some k1, l1 := some l1 }, by decide +kernel, ?_⟩
  obtain ⟨pad, hd, hpad⟩ := base_string_drop (rest := []) k1l1_good (nextOk_of_B (by decide +kernel))
  rw [List.append_nil] at hd
  rw [hd]
  exact shaped_segmented hpad (written_shaped k1l1_good.segs)

/-! ### C74 -/

/-- C74, the part that holds: what is written has the segments in the documented order. Missing for the full property is that the
reader refuses any other order, see `C74_violated`. -/
theorem C74_written_partial (enc : Enc) (isVar : Bool) (fs : Fields) (g : Segs) (h : Spec.GoodBase enc isVar fs g)
    (rest : Bytes) (hn : Spec.NextOk enc fs g rest) (pieces : List (SegKind × Bytes))
    (hs : Spec.Segmented (((Record.base enc fs g).string ++ rest).drop (Spec.segmentsStart enc fs)) pieces) :
    Spec.Ordered pieces := by
  obtain ⟨pad, hd, hpad⟩ := base_string_drop h hn
  rw [hd] at hs
  rw [segmented_unique hs (shaped_segmented hpad (written_shaped h.segs))]
  exact written_ordered h.segs.placed

/-- C74. The order in which the types are mixed is not noticed by the reader: if the pieces of each type are in the same order, the
same record is read. With `C74_written_partial`, a record whose segments are in another order is therefore put in order by reading
and writing. -/
theorem C74_any_order (enc : Enc) (isVar : Bool) (head rest : Bytes) (l l' : List (SegKind × Bytes)) (fs : Fields) (g : Segs) (n : Int)
    (h : (newBase enc).parse (head ++ (Spec.bytesOf l ++ rest)) isVar = (.base enc fs g, .ok n))
    (hh : head.length = Spec.segmentsStart enc fs) (hb : enc = .character → isVar = true → 0 < Spec.bdw fs)
    (hr : Spec.Segmented rest []) (hs : Spec.Shaped l) (hl : Spec.SameByType l l') :
    (newBase enc).parse (head ++ (Spec.bytesOf l' ++ rest)) isVar = (.base enc fs g, .ok n) :=
  base_parse_same h hh hb hr hs hl

/-- Non-vacuity: two orders of four segments of three types; the theorem applies to an accepted record. -/
example : Spec.Ordered [(.j1, j1'.string), (.j1, j1.string), (.k1, k1.string), (.n1, n1.string)] ∧
    ¬ Spec.Ordered [(.k1, k1.string), (.j1, j1'.string), (.n1, n1.string), (.j1, j1.string)] ∧
    (newBase .character).parse (fieldsString baseSegmentCharacterFormat (base 900 896) ++
      (Spec.bytesOf [(.k1, k1.string), (.j1, j1'.string), (.n1, n1.string), (.j1, j1.string)] ++ List.replicate 90 32)) true =
      (.base .character (base 900 896) { j1 := [j1', j1], k1 := some k1, n1 := some n1 }, .ok 900) := by
  refine ⟨by simp [Spec.Ordered, Spec.rank], by simp [Spec.Ordered, Spec.rank], ?_⟩
  refine C74_any_order .character true _ _ [(.j1, j1'.string), (.j1, j1.string), (.k1, k1.string), (.n1, n1.string)] _ _ _ _
    (by decide +kernel) (by decide +kernel) (by decide +kernel) (.done (.inl ?_)) (by unfold Spec.Shaped; decide +kernel) ?_
  · intro k; cases k <;> decide +kernel
  · intro k; cases k <;> rfl

theorem mixed_segmented : Spec.Segmented (mixedRecord.drop (Spec.segmentsStart .character (base 1000 996)))
    [(.k1, k1.string), (.j1, j1'.string), (.k1, k1'.string), (.j1, j1.string)] := by
  have : mixedRecord.drop (Spec.segmentsStart .character (base 1000 996)) =
      Spec.bytesOf [(.k1, k1.string), (.j1, j1'.string), (.k1, k1'.string), (.j1, j1.string)] ++ List.replicate 302 32 := by
    decide +kernel
  rw [this]
  refine shaped_segmented (.done (.inl ?_)) ?_
  · intro k; cases k <;> decide +kernel
  · unfold Spec.Shaped; decide +kernel

/-- C74 is violated: a record whose segments are not in the documented order is accepted, and written in another order. -/
theorem C74_violated : ∃ rec fs g n pieces, (newBase .character).parse rec true = (.base .character fs g, .ok n) ∧
    Spec.Segmented (rec.drop (Spec.segmentsStart .character fs)) pieces ∧ ¬ Spec.Ordered pieces ∧
    (Record.base .character fs g).string ≠ rec :=
  ⟨mixedRecord, base 1000 996, { j1 := [j1', j1], k1 := some k1' }, 1000, _, by decide +kernel, mixed_segmented,
    by simp [Spec.Ordered, Spec.rank], by decide +kernel⟩

/-! ### C75 -/

theorem replicate_parsed {isVar : Bool} {g : Segs} (h : Spec.SegsOk g) {k : SegKind} {t : Seg} (ht : Spec.SegmentOk k t) (c : Nat) :
    ((List.replicate c (k, t.string) ++ written g).map fun p => ((Seg.new p.1).parse p.2 isVar).1) = List.replicate c t ++ g.list := by
  have key : ∀ s : Seg, Spec.SegmentOk s.kind s → ((Seg.new s.kind).parse s.string isVar) = (s, .ok s.kind.length) := by
    intro s hs
    have := seg_parse_string (Seg.new_kind _) (Seg.new_typed _) hs.typed hs.fits isVar []
    rwa [List.append_nil] at this
  have hk := ht.kind
  subst hk
  rw [List.map_append, List.map_replicate, key t ht, written, List.map_map]
  congr 1
  rw [List.map_congr_left (g := id), List.map_id]
  intro s hs
  simp only [Function.comp_apply, key s (h.mem s hs), id]

theorem store_overwritten {g : Segs} (h : SegsPlaced g) {t s : Seg} (ht : t.kind = .l1) (hg : g.l1 = some s) (c : Nat) :
    (List.replicate c t ++ g.list).foldl Segs.store {} = g := by
  rw [← foldl_store_list h]
  apply Segs.ext_get
  intro k
  rw [foldl_store_list h, Segs.get_foldl_store, List.filter_append]
  have hget : g.get k.name = afterStores k (Segs.get {} k.name) (g.list.filter fun s => decide (s.kind = k)) := by
    rw [← Segs.get_foldl_store, foldl_store_list h]
  rw [hget]
  by_cases hk : k = .l1
  · subst hk
    have hm : s ∈ g.list.filter fun s => decide (s.kind = .l1) := by
      refine List.mem_filter.2 ⟨?_, by simpa using h.l1 s hg⟩
      simp [Segs.list, hg]
    have hne : (g.list.filter fun s => decide (s.kind = .l1)) ≠ [] := by intro h0; rw [h0] at hm; cases hm
    unfold afterStores
    rw [if_neg (by decide), if_neg (by simp [hne]), if_neg (by decide), if_neg hne, List.getLast?_append]
    cases hl : (g.list.filter fun s => decide (s.kind = .l1)).getLast? with
    | none => exact absurd (List.getLast?_eq_none_iff.1 hl) hne
    | some x => rfl
  · rw [List.filter_eq_nil_iff.2, List.nil_append]
    intro a ha
    rw [(List.mem_replicate.1 ha).2, ht]
    simpa using fun h => hk h.symm

/-- C75 fails for every record: any number of further L1 segments in front of the record's own is accepted, as far as the record has
room for them, and all but the last are lost without an error. -/
theorem C75_never_refused (enc : Enc) (isVar : Bool) (fs : Fields) (g : Segs) (s t : Seg) (c : Nat) (rest : Bytes)
    (h : Spec.GoodBase enc isVar fs g) (hg : g.l1 = some s) (ht : Spec.SegmentOk .l1 t)
    (hc : (Spec.contentLength enc fs g + 54 * c : Nat) ≤ Spec.sizeWord isVar fs) (hr : Spec.NoSegment rest) :
    (newBase enc).parse (fieldsString enc.baseFormat fs ++ ((List.replicate c t.string).flatten ++ (g.string ++ rest))) isVar =
      (.base enc fs g, .ok (Spec.sizeWord isVar fs)) := by
  have hn : Spec.NextOk enc fs g rest := fun _ => hr
  have hpar := base_reread h hn
  obtain ⟨pad, hd, hpad⟩ := base_string_drop h hn
  have hw := (layout_base enc).widthAll_of_fits h.typed h.fits
  have hl := base_length h.typed hw
  have hst : Spec.segmentsStart enc fs = Spec.fixedLength enc fs := by
    have hb := h.bdw
    cases enc with
    | character =>
      cases isVar with
      | false => simp only [Bool.false_eq_true, if_false] at hb; simp [Spec.segmentsStart, Spec.fixedLength, Spec.recordLength, hb]
      | true =>
        simp only [if_true] at hb
        have : Spec.bdw fs ≠ 0 := by omega
        simp [Spec.segmentsStart, Spec.fixedLength, Spec.recordLength, hb.1, this]
    | packed =>
      have := h.packed rfl
      subst this
      simp only [if_true] at hb
      have : Spec.bdw fs ≠ 0 := by omega
      simp [Spec.segmentsStart, Spec.fixedLength, Spec.recordLength, this]
  have hhead : (fieldsString enc.baseFormat fs).length = Spec.segmentsStart enc fs := by rw [hl, hst]
  have hsplit : (Record.base enc fs g).string ++ rest = fieldsString enc.baseFormat fs ++ (Spec.bytesOf (written g) ++ pad) := by
    have h1 : ((Record.base enc fs g).string ++ rest).take (Spec.segmentsStart enc fs) = fieldsString enc.baseFormat fs := by
      rw [Record.string, padTo_append, List.append_assoc, ← hhead, List.take_left]
    rw [← hd, ← h1, List.take_append_drop]
  rw [hsplit] at hpar
  obtain ⟨m, hm⟩ := parseBase_pieces hpar
  rw [← hhead, List.drop_left] at hm
  have hshape : Spec.Shaped (List.replicate c (SegKind.l1, t.string) ++ written g) := by
    intro p hp
    rcases List.mem_append.1 hp with hp | hp
    · rw [(List.mem_replicate.1 hp).2]
      refine ⟨?_, ?_⟩
      · rw [segmentIdent_eq, ← seg_string_ident ht]; exact List.take_prefix _ _
      · rw [segmentLength_eq]
        exact seg_string_length ht.kind ((layout_segment .l1).widthAll_of_fits ht.typed ht.fits)
    · exact written_shaped h.segs p hp
  have hvalid : ∀ p ∈ List.replicate c (SegKind.l1, t.string) ++ written g,
      ∃ s, (Seg.new p.1).parse p.2 isVar = (s, .ok p.1.length) ∧ s.validate = none := by
    have key : ∀ s : Seg, Spec.SegmentOk s.kind s → ∃ u, ((Seg.new s.kind).parse s.string isVar) = (u, .ok s.kind.length) ∧
        u.validate = none := by
      intro s hs
      have := seg_parse_string (Seg.new_kind _) (Seg.new_typed _) hs.typed hs.fits isVar []
      rw [List.append_nil] at this
      exact ⟨s, this, hs.valid⟩
    intro p hp
    rcases List.mem_append.1 hp with hp | hp
    · rw [(List.mem_replicate.1 hp).2]
      have := key t (by rw [ht.kind]; exact ht)
      rwa [ht.kind] at this
    · obtain ⟨s, hs, rfl⟩ := List.mem_map.1 hp
      exact key s (h.segs.mem s hs)
  have hbytes : (List.replicate c t.string).flatten ++ (g.string ++ rest) =
      Spec.bytesOf (List.replicate c (SegKind.l1, t.string) ++ written g) ++ rest := by
    have : Spec.bytesOf (List.replicate c (SegKind.l1, t.string) ++ written g) = (List.replicate c t.string).flatten ++ g.string := by
      rw [← bytesOf_written]
      simp [Spec.bytesOf]
    rw [this, List.append_assoc]
  have hm' := readSegs_of_pieces (isVar := isVar) (rest := rest) (.done (.inl hr)) (List.replicate c (SegKind.l1, t.string) ++ written g)
    ((Spec.bytesOf (List.replicate c (SegKind.l1, t.string) ++ written g) ++ rest).length + 1) {} 0
    (by have := shaped_length_le hshape; have := List.length_append (as := Spec.bytesOf (List.replicate c (SegKind.l1, t.string) ++ written g)) (bs := rest); omega) hshape hvalid
  rw [replicate_parsed h.segs ht, store_overwritten h.segs.placed ht.kind hg] at hm'
  rw [hbytes]
  refine base_parse_swap hpar hhead ?_ hm hm' (.inr ?_)
  · rintro rfl rfl
    have := h.bdw
    simp only [if_true] at this
    exact this.1
  · have h1 : ((List.replicate c (SegKind.l1, t.string) ++ written g).map fun p => p.1.length).sum = 54 * c + Spec.segsLength g := by
      rw [List.map_append, List.sum_append, List.map_replicate, written, List.map_map, ← segsLength_eq h.segs.placed]
      have : (SegKind.l1, t.string).1.length = 54 := rfl
      rw [this, List.sum_replicate_nat, Nat.mul_comm]
      rfl
    rw [h1, hl]
    unfold Spec.contentLength at hc
    omega

/-- Non-vacuity: the record above has room for eight more. -/
example : Spec.SegmentOk .l1 l1 ∧ (Spec.contentLength .character (base 0 1000) { k1 := some k1, l1 := some l1 } + 54 * 8 : Nat) ≤
    Spec.sizeWord false (base 0 1000) ∧ Spec.NoSegment (List.replicate 50 32) := by
  refine ⟨k1l1_good.segs.l1 _ rfl, by decide +kernel, ?_⟩
  intro k; cases k <;> decide +kernel

/-- A different L1 segment. -/
def l1' : Seg := ⟨.l1, (l1.fields).set .NewConsumerAccountNumber (.str (b! "NEW-2"))⟩

/-- C75 is violated: a record with two different L1 segments is accepted. -/
theorem C75_violated : l1 ≠ l1' ∧ (newBase .character).parse
      (fieldsString baseSegmentCharacterFormat (base 0 600) ++ (l1'.string ++ l1.string) ++ List.replicate 66 32) false =
    (.base .character (base 0 600) { l1 := some l1 }, .ok 600) := by
  decide +kernel

/-- C75, the part that holds: what is written has at most one L1 segment. The full property, that a record with several is
refused, fails, see `C75_never_refused`. -/
theorem C75_written_partial (enc : Enc) (isVar : Bool) (fs : Fields) (g : Segs) (h : Spec.GoodBase enc isVar fs g)
    (rest : Bytes) (hn : Spec.NextOk enc fs g rest) (pieces : List (SegKind × Bytes))
    (hs : Spec.Segmented (((Record.base enc fs g).string ++ rest).drop (Spec.segmentsStart enc fs)) pieces) :
    (pieces.filter fun p => decide (p.1 = .l1)).length ≤ 1 := by
  obtain ⟨pad, hd, hpad⟩ := base_string_drop h hn
  rw [hd] at hs
  rw [segmented_unique hs (shaped_segmented hpad (written_shaped h.segs))]
  obtain ⟨g1, g2, g3, g4, g5, g6, g7, g8⟩ := h.segs.placed
  have o : ∀ {k : SegKind} {x : Option Seg}, k ≠ .l1 → (∀ s, x = some s → s.kind = k) →
      x.toList.filter (fun s => decide (s.kind = .l1)) = [] := by
    intro k x hk hx
    apply List.filter_eq_nil_iff.2
    intro s hs
    rw [hx s (Option.mem_toList.1 hs)]
    simpa using hk
  have j : ∀ {k : SegKind} {x : List Seg}, k ≠ .l1 → (∀ s ∈ x, s.kind = k) → x.filter (fun s => decide (s.kind = .l1)) = [] := by
    intro k x hk hx
    apply List.filter_eq_nil_iff.2
    intro s hs
    rw [hx s hs]
    simpa using hk
  rw [written, List.filter_map, List.length_map, Segs.list]
  simp only [Function.comp_def, List.filter_append]
  rw [j (by decide) g1, j (by decide) g2, o (by decide) g3, o (by decide) g4, o (by decide) g5, o (by decide) g6, o (by decide) g8]
  simp only [List.nil_append, List.append_nil]
  refine Nat.le_trans (List.length_filter_le _ _) ?_
  cases g.l1 <;> simp

/-- Non-vacuity: records with segments of every type, among them an L1. -/
example : segs.l1 = some l1 ∧ Spec.NextOk .packed (base 1200 1196) segs [] := ⟨rfl, nextOk_of_B (by decide +kernel)⟩

end Metro2
