import Verif.Spec.Order
import Verif.Lemmas.Store
import Verif.Lemmas.Validate
import Verif.Lemmas.WellFormed

/-! Reading does not depend on the order of appended segments of different types. -/

namespace Metro2

/-- How far the field loop may move its offset. -/
def reach (pol : BdwPolicy) (fs : Fields) : Nat :=
  if pol = .accept then 4 * (fs.filter fun p => decide (p.1 = .BlockDescriptorWord)).length else 0

theorem slice_take {a b : Bytes} {n s l : Nat} (h : a.take n = b.take n) (hn : s + l ≤ n) :
    (a.drop s).take l = (b.drop s).take l := by
  have key : ∀ x : Bytes, (x.drop s).take l = ((x.take n).drop s).take l := by
    intro x
    rw [List.drop_take, List.take_take, Nat.min_eq_left (by omega)]
  rw [key a, key b, h]

/-- The field loop looks at the first `n` bytes only, if the rows end there. -/
theorem parseLoop_local {fmt : Format} {pol : BdwPolicy} {bounds : Bool} {a b : Bytes} {n : Nat} (hab : a.take n = b.take n)
    (ha : n ≤ a.length) (hb : n ≤ b.length) (fs : Fields) :
    ∀ off, (∀ f e, fmt.lookup f = some e → e.start + e.len + (off + reach pol fs) ≤ n) →
    parseLoop fmt pol bounds a off fs = parseLoop fmt pol bounds b off fs := by
  induction fs with
  | nil => intro off _; rfl
  | cons p fs ih =>
    intro off hr
    obtain ⟨f, v⟩ := p
    have hle : reach pol fs ≤ reach pol ((f, v) :: fs) := by
      unfold reach
      split
      · rw [List.filter_cons]
        split
        · simp only [List.length_cons]
          omega
        · exact Nat.le_refl _
      · exact Nat.le_refl _
    have hacc : f = .BlockDescriptorWord → pol = .accept → reach pol ((f, v) :: fs) = 4 + reach pol fs := by
      rintro rfl rfl
      simp only [reach, if_true, List.filter_cons, decide_true, List.length_cons]
      omega
    have hnext := ih off fun f e he => by have := hr f e he; omega
    rw [parseLoop_cons, parseLoop_cons]
    cases he : fmt.lookup f with
    | none => rfl
    | some e =>
      have hf := hr f e he
      simp only
      rw [if_neg (by omega), if_neg (by omega), slice_take hab (by omega)]
      cases isValidType e f ((b.drop (e.start + off)).take e.len) with
      | some err => rfl
      | none =>
        simp only
        cases parseValue e ((b.drop (e.start + off)).take e.len) with
        | error err => rfl
        | ok new =>
          simp only
          split
          · rw [hnext]
          · rfl
          · cases setVal v new with
            | none => rfl
            | some w =>
              have h4 := hacc rfl rfl
              have := ih (off + 4) fun f e he => by have := hr f e he; omega
              simp only [this]
          · cases setVal v new with
            | none => rfl
            | some w => simp only [hnext]

/-- A segment is read from its own bytes, whatever follows. -/
theorem seg_parse_append {k : SegKind} {p : Bytes} (hp : p.length = k.length) (rest : Bytes) (isVar : Bool) :
    (Seg.new k).parse (p ++ rest) isVar = (Seg.new k).parse p isVar := by
  have hr : ∀ pol, reach pol (Seg.new k).fields = 0 := by
    intro pol
    unfold reach
    have : ((Seg.new k).fields.filter fun p => decide (p.1 = .BlockDescriptorWord)) = [] := by
      apply List.filter_eq_nil_iff.2
      intro q hq
      obtain ⟨d, hd⟩ := mem_decl_of_typed (Seg.new_typed k) hq
      simpa using seg_noBdw k _ hd
    rw [this]
    split <;> rfl
  have hl : ∀ pol, parseLoop k.format pol true (p ++ rest) 0 (Seg.new k).fields = parseLoop k.format pol true p 0 (Seg.new k).fields := by
    intro pol
    refine parseLoop_local (n := k.length) (by rw [← hp]; simp) (by rw [List.length_append]; omega) (by omega) _ 0 fun f e he => ?_
    have := seg_rows_le k _ (lookup_mem he)
    rw [hr]
    simpa using this
  have h1 : ¬ (p ++ rest).length < k.length := by rw [List.length_append]; omega
  have h2 : ¬ p.length < k.length := by omega
  unfold Seg.parse
  rw [show (Seg.new k).kind = k from rfl, if_neg h1, if_neg h2, hl]

/-- The segments that well-shaped pieces stand for are read. -/
theorem readSegs_of_pieces {isVar : Bool} {rest : Bytes} (hr : Spec.Segmented rest []) (l : List (SegKind × Bytes)) :
    ∀ (fuel : Nat) (g : Segs) (off : Nat), l.length < fuel → Spec.Shaped l →
    (∀ p ∈ l, ∃ s, (Seg.new p.1).parse p.2 isVar = (s, .ok p.1.length) ∧ s.validate = none) →
    readSegs isVar fuel g off (Spec.bytesOf l ++ rest) =
      ((l.map fun p => ((Seg.new p.1).parse p.2 isVar).1).foldl Segs.store g, .ok (off + (l.map fun p => p.1.length).sum)) := by
  induction l with
  | nil =>
    intro fuel g off hf _ _
    cases fuel with
    | zero => simp at hf
    | succ n =>
      simp only [Spec.bytesOf, List.map_nil, List.flatten_nil, List.nil_append, readSegs_succ, List.foldl_nil, List.sum_nil]
      cases hr with
      | done h =>
        rcases h with h | h
        · rw [(noSegment_iff rest).1 h]
          split <;> rfl
        · rw [if_neg (by omega)]
          rfl
  | cons p l ih =>
    intro fuel g off hf hs hv
    cases fuel with
    | zero => simp at hf
    | succ n =>
      obtain ⟨k, p⟩ := p
      obtain ⟨h1, h2⟩ := hs (k, p) List.mem_cons_self
      obtain ⟨s, h3, h4⟩ := hv (k, p) List.mem_cons_self
      simp only at h1 h2 h3
      rw [segmentLength_eq] at h2
      have hgt := k.length_gt
      have hid : p.take 2 = k.ident := by
        obtain ⟨t, rfl⟩ := h1
        rw [segmentIdent_eq]
        cases k <;> rfl
      have hb : Spec.bytesOf ((k, p) :: l) ++ rest = p ++ (Spec.bytesOf l ++ rest) := by
        simp [Spec.bytesOf]
      rw [hb, readSegs_succ, if_pos (by rw [List.length_append]; omega), List.take_append_of_le_length (by omega), hid]
      simp only [segKindOfIdent_ident]
      rw [seg_parse_append h2, h3]
      simp only [Segs.add, h4]
      have hd : (p ++ (Spec.bytesOf l ++ rest)).drop k.length = Spec.bytesOf l ++ rest := by rw [← h2, List.drop_left]
      rw [hd, ih n _ _ (by simp only [List.length_cons] at hf; omega) (fun q hq => hs q (List.mem_cons_of_mem _ hq))
        fun q hq => hv q (List.mem_cons_of_mem _ hq)]
      simp [Nat.add_assoc, h3]

/-- A store is known by what `GetSegments` returns. -/
theorem Segs.ext_get {g g' : Segs} (h : ∀ k : SegKind, g.get k.name = g'.get k.name) : g = g' := by
  have hinj : ∀ a b : Option Seg, a.toList = b.toList → a = b := by
    intro a b h
    cases a <;> cases b <;> simp_all
  obtain ⟨a1, a2, a3, a4, a5, a6, a7, a8⟩ := g
  obtain ⟨b1, b2, b3, b4, b5, b6, b7, b8⟩ := g'
  have h1 : a1 = b1 := h .j1
  have h2 : a2 = b2 := h .j2
  have h3 : a3 = b3 := hinj _ _ (h .k1)
  have h4 : a4 = b4 := hinj _ _ (h .k2)
  have h5 : a5 = b5 := hinj _ _ (h .k3)
  have h6 : a6 = b6 := hinj _ _ (h .k4)
  have h7 : a7 = b7 := hinj _ _ (h .l1)
  have h8 : a8 = b8 := hinj _ _ (h .n1)
  subst h1; subst h2; subst h3; subst h4; subst h5; subst h6; subst h7; subst h8
  rfl

theorem foldl_store_sameByType {isVar : Bool} {l l' : List (SegKind × Bytes)} (h : Spec.SameByType l l')
    (hk : ∀ p ∈ l, ((Seg.new p.1).parse p.2 isVar).1.kind = p.1) (hk' : ∀ p ∈ l', ((Seg.new p.1).parse p.2 isVar).1.kind = p.1) (g : Segs) :
    (l.map fun p => ((Seg.new p.1).parse p.2 isVar).1).foldl Segs.store g =
      (l'.map fun p => ((Seg.new p.1).parse p.2 isVar).1).foldl Segs.store g := by
  apply Segs.ext_get
  intro k
  rw [Segs.get_foldl_store, Segs.get_foldl_store, pieces_filter l hk, pieces_filter l' hk']
  unfold Spec.piecesOf
  rw [h k]

theorem SameByType.perm {l l' : List (SegKind × Bytes)} (h : Spec.SameByType l l') : l.Perm l' := by
  rw [List.perm_iff_count]
  intro p
  have key : ∀ m : List (SegKind × Bytes), m.count p = (m.filter fun q => decide (q.1 = p.1)).count p := by
    intro m
    rw [List.count_filter (by simp)]
  rw [key l, key l', h p.1]

theorem shaped_segmented {rest : Bytes} (hr : Spec.Segmented rest []) {l : List (SegKind × Bytes)} (h : Spec.Shaped l) :
    Spec.Segmented (Spec.bytesOf l ++ rest) l := by
  induction l with
  | nil => simpa [Spec.bytesOf] using hr
  | cons p l ih =>
    obtain ⟨h1, h2⟩ := h p List.mem_cons_self
    have : Spec.bytesOf (p :: l) ++ rest = p.2 ++ (Spec.bytesOf l ++ rest) := by simp [Spec.bytesOf]
    rw [this]
    exact .step h1 h2 (ih fun q hq => h q (List.mem_cons_of_mem _ hq))

theorem shaped_length_le {l : List (SegKind × Bytes)} (h : Spec.Shaped l) : l.length ≤ (Spec.bytesOf l).length := by
  induction l with
  | nil => exact Nat.zero_le _
  | cons p l ih =>
    have h2 := (h p List.mem_cons_self).2
    rw [segmentLength_eq] at h2
    have := p.1.length_gt
    have := ih fun q hq => h q (List.mem_cons_of_mem _ hq)
    have hb : (Spec.bytesOf (p :: l)).length = p.2.length + (Spec.bytesOf l).length := by simp [Spec.bytesOf]
    rw [hb, List.length_cons]
    omega

/-- The same segments are read from pieces mixed differently. -/
theorem readApplicable_same {isVar : Bool} {rest : Bytes} (hr : Spec.Segmented rest []) {l l' : List (SegKind × Bytes)}
    (hs : Spec.Shaped l) (h : Spec.SameByType l l') {g : Segs} {m : Nat}
    (hg : readApplicableSegments {} (Spec.bytesOf l ++ rest) isVar = (g, .ok m)) :
    readApplicableSegments {} (Spec.bytesOf l' ++ rest) isVar = (g, .ok m) := by
  have hp := SameByType.perm h
  have hs' : Spec.Shaped l' := fun q hq => hs q (hp.mem_iff.2 hq)
  obtain ⟨ps, h1, -, h3⟩ := readSegs_pieces _ _ _ _ _ _ hg
  have := segmented_unique (shaped_segmented hr hs) h1
  subst this
  have hv : ∀ p ∈ l, ∃ s, (Seg.new p.1).parse p.2 isVar = (s, .ok p.1.length) ∧ s.validate = none := by
    intro p hp
    obtain ⟨s, a, -, b⟩ := h3 p hp
    exact ⟨s, a, b⟩
  have hk : ∀ p ∈ l, ((Seg.new p.1).parse p.2 isVar).1.kind = p.1 := by
    intro p hp
    obtain ⟨s, a, b, -⟩ := h3 p hp
    rw [a]; exact b
  unfold readApplicableSegments at hg ⊢
  rw [readSegs_of_pieces hr l _ _ _ (by rw [List.length_append]; have := shaped_length_le hs; omega) hs hv] at hg
  rw [readSegs_of_pieces hr l' _ _ _ (by rw [List.length_append]; have := shaped_length_le hs'; omega) hs'
    fun p hq => hv p (hp.mem_iff.2 hq), ← hg, foldl_store_sameByType h hk fun p hq => hk p (hp.mem_iff.2 hq),
    (hp.map fun p => p.1.length).sum_nat]

theorem base_rows_le (enc : Enc) : ∀ r ∈ enc.baseFormat, r.2.start + r.2.len ≤ enc.recordLength := by
  cases enc <;> decide +kernel

theorem reach_base (pol : BdwPolicy) : reach pol (zeroFields baseSegmentStruct) = if pol = .accept then 4 else 0 := by
  have : ((zeroFields baseSegmentStruct).filter fun p => decide (p.1 = .BlockDescriptorWord)).length = 1 := by decide +kernel
  unfold reach
  rw [this]

/-- The field loop of a data record looks only at what stands before the segments. -/
theorem base_loop_local {enc : Enc} {pol : BdwPolicy} {head a b : Bytes}
    (hh : enc.recordLength + (if pol = .accept then 4 else 0) ≤ head.length) :
    parseLoop enc.baseFormat pol true (head ++ a) 0 (zeroFields baseSegmentStruct) =
      parseLoop enc.baseFormat pol true (head ++ b) 0 (zeroFields baseSegmentStruct) := by
  refine parseLoop_local (n := head.length) (by rw [List.take_left, List.take_left]) (by rw [List.length_append]; omega)
    (by rw [List.length_append]; omega) _ 0 fun f e he => ?_
  have := base_rows_le enc _ (lookup_mem he)
  rw [reach_base]
  simp only at this
  omega

/-- An accepted data record is also accepted with other bytes in the place of its segments, if they read as segments that the
record has room for. -/
theorem base_parse_swap {enc : Enc} {isVar : Bool} {head a b : Bytes} {fs : Fields} {g g' : Segs} {n : Int} {m m' : Nat}
    (h : (newBase enc).parse (head ++ a) isVar = (.base enc fs g, .ok n))
    (hh : head.length = Spec.segmentsStart enc fs) (hb : enc = .character → isVar = true → 0 < Spec.bdw fs)
    (hm : readApplicableSegments {} a isVar = (g, .ok m)) (hm' : readApplicableSegments {} b isVar = (g', .ok m'))
    (hle : m' ≤ m ∨ (m' : Int) + head.length ≤ n) :
    (newBase enc).parse (head ++ b) isVar = (.base enc fs g', .ok n) := by
  cases enc with
  | character =>
    have h := newBase_parse_character.1 h
    refine newBase_parse_character.2 ?_
    have hge : 426 ≤ head.length := by rw [hh]; simp only [Spec.segmentsStart]; split <;> omega
    have h1 : ∀ x : Bytes, ¬ (head ++ x).length < 426 := fun x => by rw [List.length_append]; omega
    have hpol : Enc.character.recordLength + (if (if isVar then BdwPolicy.accept else .skip) = .accept then 4 else 0) ≤ head.length := by
      cases isVar with
      | false => simpa [Enc.recordLength] using hge
      | true => rw [hh]; simp [Spec.segmentsStart, hb rfl rfl, Enc.recordLength]
    rw [parseBaseCharacter_eq, if_neg (h1 _)] at h
    rw [parseBaseCharacter_eq, if_neg (h1 _)]
    have hloop := base_loop_local (enc := .character) (a := b) (b := a) hpol
    simp only [Enc.baseFormat] at hloop
    rw [hloop]
    generalize parseLoop baseSegmentCharacterFormat (if isVar then .accept else .skip) true (head ++ a) 0
        (zeroFields baseSegmentStruct) = q at h
    obtain ⟨fs', o⟩ := q
    cases o with
    | some e => simp at h
    | none =>
      have hst : (if fs'.int .BlockDescriptorWord > 0 then 426 + 4 else 426) = Spec.segmentsStart .character fs' := rfl
      simp only [hst] at h ⊢
      have hfs : fs' = fs := by
        split at h
        · simp at h
        · split at h
          · simp at h
          · split at h
            · simp at h
            · split at h
              · simp at h
              · exact congrArg (fun x => x.1.1) h
      subst hfs
      have h2 : ∀ x : Bytes, ¬ (head ++ x).length < Spec.segmentsStart .character fs' := fun x => by rw [List.length_append]; omega
      rw [if_neg (h2 _), ← hh, List.drop_left, hm] at h
      rw [if_neg (h2 _), ← hh, List.drop_left, hm']
      simp only at h ⊢
      generalize fs'.int .BlockDescriptorWord = w at h ⊢
      generalize fs'.int .RecordDescriptorWord = r at h ⊢
      have ha : ¬ (w > 0 ∧ (m : Int) + head.length > w) := by
        intro hc; rw [if_pos hc] at h; simp at h
      rw [if_neg ha] at h
      have hb' : ¬ (w = 0 ∧ (m : Int) + head.length > r) := by
        intro hc; rw [if_pos hc] at h; simp at h
      rw [if_neg hb'] at h
      have hn : (if w > 0 then w else r) = n := by
        have := congrArg Prod.snd h
        exact Except.ok.inj this
      have ha' : ¬ (w > 0 ∧ (m' : Int) + head.length > w) := by
        rintro ⟨h3, h4⟩
        rw [if_pos h3] at hn
        omega
      have hb'' : ¬ (w = 0 ∧ (m' : Int) + head.length > r) := by
        rintro ⟨h3, h4⟩
        rw [if_neg (by omega)] at hn
        omega
      rw [if_neg ha', if_neg hb'', hn]
  | packed =>
    have h := newBase_parse_packed.1 h
    refine newBase_parse_packed.2 ?_
    have hge : 370 = head.length := hh.symm
    have h1 : ∀ x : Bytes, ¬ (head ++ x).length < 366 := fun x => by rw [List.length_append]; omega
    have h2 : ∀ x : Bytes, ¬ (head ++ x).length < 366 + 4 := fun x => by rw [List.length_append]; omega
    have hpol : Enc.packed.recordLength + (if (if isVar then BdwPolicy.accept else .fail) = .accept then 4 else 0) ≤ head.length := by
      cases isVar <;> simp [Enc.recordLength] <;> omega
    rw [parseBasePacked_eq, if_neg (h1 _)] at h
    rw [parseBasePacked_eq, if_neg (h1 _)]
    have hloop := base_loop_local (enc := .packed) (a := b) (b := a) hpol
    simp only [Enc.baseFormat] at hloop
    rw [hloop]
    generalize parseLoop baseSegmentPackedFormat (if isVar then .accept else .fail) true (head ++ a) 0
        (zeroFields baseSegmentStruct) = q at h
    obtain ⟨fs', o⟩ := q
    cases o with
    | some e => simp at h
    | none =>
      simp only at h ⊢
      rw [if_neg (h2 _), show 366 + 4 = head.length from hge, List.drop_left, hm] at h
      rw [if_neg (h2 _), show 366 + 4 = head.length from hge, List.drop_left, hm']
      simp only at h ⊢
      generalize fs'.int .BlockDescriptorWord = w at h ⊢
      have ha : ¬ ((m : Int) + head.length > w) := by
        intro hc; rw [if_pos hc] at h; simp at h
      rw [if_neg ha] at h
      have hn : w = n := by
        have := congrArg Prod.snd h
        exact Except.ok.inj this
      have hfs : fs' = fs := congrArg (fun x => x.1.1) h
      rw [if_neg (by omega), hn, hfs]

/-- A data record is read the same from segments mixed differently. -/
theorem base_parse_same {enc : Enc} {isVar : Bool} {head rest : Bytes} {l l' : List (SegKind × Bytes)} {fs : Fields} {g : Segs} {n : Int}
    (h : (newBase enc).parse (head ++ (Spec.bytesOf l ++ rest)) isVar = (.base enc fs g, .ok n))
    (hh : head.length = Spec.segmentsStart enc fs) (hb : enc = .character → isVar = true → 0 < Spec.bdw fs)
    (hr : Spec.Segmented rest []) (hs : Spec.Shaped l) (hl : Spec.SameByType l l') :
    (newBase enc).parse (head ++ (Spec.bytesOf l' ++ rest)) isVar = (.base enc fs g, .ok n) := by
  obtain ⟨m, hm⟩ := parseBase_pieces h
  rw [← hh, List.drop_left] at hm
  exact base_parse_swap h hh hb hm (readApplicable_same hr hs hl hm) (.inl (Nat.le_refl _))

/-- The pieces that a record's segments are written as. -/
def written (g : Segs) : List (SegKind × Bytes) := g.list.map fun s => (s.kind, s.string)

theorem bytesOf_written (g : Segs) : Spec.bytesOf (written g) = g.string := by
  simp [Spec.bytesOf, written, Segs.string, List.map_map, Function.comp_def]

theorem written_shaped {g : Segs} (h : Spec.SegsOk g) : Spec.Shaped (written g) := by
  intro p hp
  obtain ⟨s, hs, rfl⟩ := List.mem_map.1 hp
  have hok := h.mem s hs
  refine ⟨?_, ?_⟩
  · rw [segmentIdent_eq, ← seg_string_ident hok]
    exact List.take_prefix _ _
  · rw [segmentLength_eq]
    exact seg_string_length rfl ((layout_segment s.kind).widthAll_of_fits hok.typed hok.fits)

theorem written_ordered {g : Segs} (h : SegsPlaced g) : Spec.Ordered (written g) := by
  unfold Spec.Ordered written
  rw [List.pairwise_map]
  have key : ∀ {k : SegKind} {l : List Seg}, (∀ s ∈ l, s.kind = k) → l.Pairwise fun a b => Spec.rank a.kind ≤ Spec.rank b.kind := by
    intro k l hl
    refine List.Pairwise.imp_of_mem (R := fun _ _ => True) ?_ (List.pairwise_of_forall fun _ _ => trivial)
    intro a b ha hb _
    rw [hl a ha, hl b hb]
  have o : ∀ {k : SegKind} {x : Option Seg}, (∀ s, x = some s → s.kind = k) → ∀ s ∈ x.toList, s.kind = k := by
    intro k x hx s hs
    exact hx s (Option.mem_toList.1 hs)
  have h3 := o h.k1; have h4 := o h.k2; have h5 := o h.k3; have h6 := o h.k4; have h7 := o h.l1; have h8 := o h.n1
  simp only [Segs.list, List.pairwise_append, List.mem_append]
  refine ⟨⟨⟨⟨⟨⟨⟨key h.j1, key h.j2, ?_⟩, key h3, ?_⟩, key h4, ?_⟩, key h5, ?_⟩, key h6, ?_⟩, key h7, ?_⟩, key h8, ?_⟩
  · intro a ha b hb
    rw [h.j1 a ha, h.j2 b hb]; decide
  · intro a ha b hb
    rw [h3 b hb]
    rcases ha with ha | ha
    · rw [h.j1 a ha]; decide
    · rw [h.j2 a ha]; decide
  · intro a ha b hb
    rw [h4 b hb]
    rcases ha with (ha | ha) | ha
    · rw [h.j1 a ha]; decide
    · rw [h.j2 a ha]; decide
    · rw [h3 a ha]; decide
  · intro a ha b hb
    rw [h5 b hb]
    rcases ha with ((ha | ha) | ha) | ha
    · rw [h.j1 a ha]; decide
    · rw [h.j2 a ha]; decide
    · rw [h3 a ha]; decide
    · rw [h4 a ha]; decide
  · intro a ha b hb
    rw [h6 b hb]
    rcases ha with (((ha | ha) | ha) | ha) | ha
    · rw [h.j1 a ha]; decide
    · rw [h.j2 a ha]; decide
    · rw [h3 a ha]; decide
    · rw [h4 a ha]; decide
    · rw [h5 a ha]; decide
  · intro a ha b hb
    rw [h7 b hb]
    rcases ha with ((((ha | ha) | ha) | ha) | ha) | ha
    · rw [h.j1 a ha]; decide
    · rw [h.j2 a ha]; decide
    · rw [h3 a ha]; decide
    · rw [h4 a ha]; decide
    · rw [h5 a ha]; decide
    · rw [h6 a ha]; decide
  · intro a ha b hb
    rw [h8 b hb]
    cases a.kind <;> decide

/-- The text of a data record from where the segments begin. -/
theorem base_string_drop {enc : Enc} {isVar : Bool} {fs : Fields} {g : Segs} (h : Spec.GoodBase enc isVar fs g)
    {rest : Bytes} (hn : Spec.NextOk enc fs g rest) :
    ∃ pad, ((Record.base enc fs g).string ++ rest).drop (Spec.segmentsStart enc fs) = Spec.bytesOf (written g) ++ pad ∧
      Spec.Segmented pad [] := by
  obtain ⟨ht, hf, hs, hp, hb, hc⟩ := h
  have hw := (layout_base enc).widthAll_of_fits ht hf
  have hl := base_length ht hw
  have hst : Spec.segmentsStart enc fs = Spec.fixedLength enc fs := by
    cases enc with
    | character =>
      cases isVar with
      | false => simp only [Bool.false_eq_true, if_false] at hb; simp [Spec.segmentsStart, Spec.fixedLength, Spec.recordLength, hb]
      | true =>
        simp only [if_true] at hb
        have : Spec.bdw fs ≠ 0 := by omega
        simp [Spec.segmentsStart, Spec.fixedLength, Spec.recordLength, hb.1, this]
    | packed =>
      have := hp rfl
      subst this
      simp only [if_true] at hb
      have : Spec.bdw fs ≠ 0 := by omega
      simp [Spec.segmentsStart, Spec.fixedLength, Spec.recordLength, this]
  refine ⟨List.replicate (baseBlockSize enc fs - (fieldsString enc.baseFormat fs ++ g.string).length) 32 ++ rest, ?_, ?_⟩
  · rw [Record.string, padTo_append, List.append_assoc, hst, ← hl, List.drop_left, bytesOf_written]
  · refine .done (.inl (noSegment_pad fun h0 => hn ?_))
    rw [List.length_append, hl, hs.string_length] at h0
    have : baseBlockSize enc fs = Spec.padSize (Spec.padWord enc fs) := by
      cases enc with
      | character => rw [padSize_eq]; rfl
      | packed =>
        have := hp rfl
        subst this
        simp only [if_true] at hb
        rw [padSize_eq]
        simp only [baseBlockSize, Spec.padWord, Spec.rdw]
        have : fs.int .BlockDescriptorWord > 0 := hb.1
        rw [if_pos this]
    rw [← this]
    unfold Spec.contentLength
    omega

end Metro2
