import Verif.Lemmas.RoundTrip
import Verif.Spec.Records

/-! Writing and reading appended segments. -/

namespace Metro2

theorem segmentIdent_eq (k : SegKind) : Spec.segmentIdent k = k.ident := by cases k <;> rfl
theorem segmentLength_eq (k : SegKind) : Spec.segmentLength k = k.length := by cases k <;> rfl

theorem seg_noBdwRow (k : SegKind) : bdwRows k.format = [] := by cases k <;> decide +kernel
theorem seg_noBdw (k : SegKind) : ∀ p ∈ k.struct, p.1 ≠ .BlockDescriptorWord := by cases k <;> decide +kernel

theorem Seg.new_kind (k : SegKind) : (Seg.new k).kind = k := rfl

theorem Fields.Typed.set {decl : List (F × FieldDecl)} {fs : Fields} (ht : fs.Typed decl) {f : F} {v : Val}
    (hk : ∀ d, (f, d) ∈ decl → v.hasKind d.kind = true) : (fs.set f v).Typed decl := by
  induction decl generalizing fs with
  | nil => cases fs with
    | nil => trivial
    | cons => exact ht.elim
  | cons d ds ih => cases fs with
    | nil => exact ht.elim
    | cons p fs =>
      obtain ⟨h1, h2, h3⟩ := ht
      have := ih h3 fun d hd => hk d (List.mem_cons_of_mem _ hd)
      show Fields.Typed (d :: ds) ((if p.1 = f then (p.1, v) else p) :: Fields.set fs f v)
      split
      · next hp => exact ⟨h1, hk _ (by rw [← hp, ← h1]; exact List.mem_cons_self), this⟩
      · exact ⟨h1, h2, this⟩

theorem Seg.new_typed (k : SegKind) : (Seg.new k).fields.Typed k.struct := by
  refine (zeroFields_typed _).set ?_
  have : ∀ p ∈ k.struct, p.1 = .SegmentIdentifier → p.2.kind = .str := by cases k <;> decide +kernel
  intro d hd
  rw [this _ hd rfl]; rfl

theorem seg_string_length {k : SegKind} {s : Seg} (hk : s.kind = k) (hw : WidthAll k.format s.fields) :
    s.string.length = k.length := by
  subst hk
  exact (layout_segment s.kind).fieldsString_length_plain (seg_noBdwRow _) hw

theorem seg_parse_string {s old : Seg} (hk : old.kind = s.kind) (ho : old.fields.Typed s.kind.struct)
    (ht : s.fields.Typed s.kind.struct)
    (hf : Spec.FitsAll s.kind.format s.fields) (isVar : Bool) (rest : Bytes) :
    old.parse (s.string ++ rest) isVar = (s, .ok s.kind.length) := by
  have hl := (layout_segment s.kind).widthAll_of_fits ht hf
  have hlen := seg_string_length rfl hl
  unfold Seg.parse
  rw [hk, if_neg (by rw [List.length_append]; omega)]
  have := (layout_segment s.kind).parse_plain (seg_noBdwRow _) (seg_noBdw _) ht ho hf
    (if isVar then .accept else .skip) true rest
  rw [Seg.string, this]

/-- The text of a segment starts with its identifier. -/
theorem seg_string_ident {k : SegKind} {s : Seg} (h : Spec.SegmentOk k s) :
    s.string.take 2 = k.ident := by
  obtain ⟨rfl, ht, hf, hi, -⟩ := h
  have L := layout_segment s.kind
  have hw := L.widthAll_of_fits ht hf
  have hrow : (F.SegmentIdentifier, (⟨0, 2, .alphanumeric, false, false, .required⟩ : Field)) ∈ s.kind.format := by
    cases s.kind <;> decide +kernel
  have hm := L.mem_main hrow (by simp)
  have h3 := ((rowsText_contig L.main.2.1 (L.widths hw)).2 _ hm).2.2 []
  rw [Fields.get_of_mem (by rw [ht.names]; exact L.structNames) hi] at h3
  simp only [List.append_nil] at h3
  rw [Seg.string, L.text, bdwText, seg_noBdwRow]
  simp only [rowsText, List.map_nil, List.flatten_nil, List.nil_append, mainText]
  simp only [rowsText, Nat.sub_zero, List.drop_zero] at h3
  rw [h3]
  cases s.kind <;> decide +kernel

theorem segKindOfIdent_ident (k : SegKind) : segKindOfIdent k.ident = some k := by cases k <;> decide +kernel

theorem segKindOfIdent_some {s : Bytes} {k : SegKind} (h : segKindOfIdent s = some k) : s = k.ident := by
  unfold segKindOfIdent at h
  repeat (split at h; · next hs => cases h; exact hs)
  cases h

theorem noSegment_iff (rest : Bytes) : Spec.NoSegment rest ↔ segKindOfIdent (rest.take 2) = none := by
  constructor
  · intro h
    cases hk : segKindOfIdent (rest.take 2) with
    | none => rfl
    | some k =>
      exfalso
      apply h k
      rw [segmentIdent_eq, ← segKindOfIdent_some hk]
      exact List.take_prefix _ _
  · intro h k hp
    rw [segmentIdent_eq] at hp
    obtain ⟨t, rfl⟩ := hp
    have : (k.ident ++ t).take 2 = k.ident := by cases k <;> rfl
    rw [this, segKindOfIdent_ident] at h
    cases h

theorem SegKind.length_gt (k : SegKind) : 2 < k.length := by cases k <;> decide

/-- One iteration with the slice expression evaluated. -/
theorem readSegs_succ (isVar : Bool) (fuel : Nat) (g : Segs) (off : Nat) (rec : Bytes) :
    readSegs isVar (fuel + 1) g off rec =
    if 2 < rec.length then
      match segKindOfIdent (rec.take 2) with
      | none => (g, .ok off)
      | some k =>
        match (Seg.new k).parse rec isVar with
        | (_, .error err) => (g, .error err)
        | (s, .ok read) =>
          match g.add s with
          | (g', some err) => (g', .error err)
          | (g', none) => readSegs isVar fuel g' (off + read) (rec.drop read)
    else (g, .ok off) := by
  rw [readSegs]
  split
  · rw [slice_of_le (by omega) (by omega), List.drop_zero]
    rfl
  · rfl

/-- Reading a list of well-formed segments. -/
theorem readSegs_strings {isVar : Bool} {rest : Bytes} (hr : Spec.NoSegment rest) (l : List Seg) :
    ∀ (fuel : Nat) (g : Segs) (off : Nat), l.length < fuel → (∀ s ∈ l, Spec.SegmentOk s.kind s) →
    readSegs isVar fuel g off ((l.map Seg.string).flatten ++ rest) =
      (l.foldl Segs.store g, .ok (off + (l.map fun s => s.kind.length).sum)) := by
  induction l with
  | nil =>
    intro fuel g off hf _
    cases fuel with
    | zero => simp at hf
    | succ n =>
      simp only [List.map_nil, List.flatten_nil, List.nil_append, readSegs_succ, List.foldl_nil, List.sum_nil,
        (noSegment_iff rest).1 hr]
      split <;> simp
  | cons s l ih =>
    intro fuel g off hf hl
    cases fuel with
    | zero => simp at hf
    | succ n =>
      have hs := hl s List.mem_cons_self
      have hlen := seg_string_length rfl ((layout_segment s.kind).widthAll_of_fits hs.typed hs.fits)
      have hgt := s.kind.length_gt
      rw [List.map_cons, List.flatten_cons, List.append_assoc]
      rw [readSegs_succ, if_pos (by rw [List.length_append]; omega)]
      rw [List.take_append_of_le_length (by omega), seg_string_ident hs]
      simp only [segKindOfIdent_ident]
      rw [seg_parse_string (Seg.new_kind _) (Seg.new_typed _) hs.typed hs.fits]
      simp only [Segs.add, hs.valid]
      have hd : (s.string ++ ((l.map Seg.string).flatten ++ rest)).drop s.kind.length =
          (l.map Seg.string).flatten ++ rest := by
        rw [← hlen, List.drop_left]
      rw [hd, ih n _ _ (by simp only [List.length_cons] at hf; omega)
        fun s hs => hl s (List.mem_cons_of_mem _ hs)]
      simp [Nat.add_assoc]

theorem foldl_store_j1 (l : List Seg) (g : Segs) (h : ∀ s ∈ l, s.kind = .j1) :
    l.foldl Segs.store g = { g with j1 := g.j1 ++ l } := by
  induction l generalizing g with
  | nil => simp
  | cons s l ih =>
    rw [List.foldl_cons, ih _ fun s hs => h s (List.mem_cons_of_mem _ hs)]
    simp [Segs.store, h s List.mem_cons_self]

theorem foldl_store_j2 (l : List Seg) (g : Segs) (h : ∀ s ∈ l, s.kind = .j2) :
    l.foldl Segs.store g = { g with j2 := g.j2 ++ l } := by
  induction l generalizing g with
  | nil => simp
  | cons s l ih =>
    rw [List.foldl_cons, ih _ fun s hs => h s (List.mem_cons_of_mem _ hs)]
    simp [Segs.store, h s List.mem_cons_self]

theorem Spec.SegsOk.mem {g : Segs} (h : Spec.SegsOk g) : ∀ s ∈ g.list, Spec.SegmentOk s.kind s := by
  intro s hs
  simp only [Segs.list, List.mem_append, Option.mem_toList] at hs
  have key : ∀ {k}, Spec.SegmentOk k s → Spec.SegmentOk s.kind s := fun {k} h => by
    have := h.kind; subst this; exact h
  rcases hs with ((((((hs | hs) | hs) | hs) | hs) | hs) | hs) | hs
  · exact key (h.j1 s hs)
  · exact key (h.j2 s hs)
  · exact key (h.k1 s hs)
  · exact key (h.k2 s hs)
  · exact key (h.k3 s hs)
  · exact key (h.k4 s hs)
  · exact key (h.l1 s hs)
  · exact key (h.n1 s hs)

/-- The places are of the right kind. -/
structure SegsPlaced (g : Segs) : Prop where
  j1 : ∀ s ∈ g.j1, s.kind = .j1
  j2 : ∀ s ∈ g.j2, s.kind = .j2
  k1 : ∀ s, g.k1 = some s → s.kind = .k1
  k2 : ∀ s, g.k2 = some s → s.kind = .k2
  k3 : ∀ s, g.k3 = some s → s.kind = .k3
  k4 : ∀ s, g.k4 = some s → s.kind = .k4
  l1 : ∀ s, g.l1 = some s → s.kind = .l1
  n1 : ∀ s, g.n1 = some s → s.kind = .n1

theorem Spec.SegsOk.placed {g : Segs} (h : Spec.SegsOk g) : SegsPlaced g :=
  ⟨fun s hs => (h.j1 s hs).kind, fun s hs => (h.j2 s hs).kind, fun s hs => (h.k1 s hs).kind,
   fun s hs => (h.k2 s hs).kind, fun s hs => (h.k3 s hs).kind, fun s hs => (h.k4 s hs).kind,
   fun s hs => (h.l1 s hs).kind, fun s hs => (h.n1 s hs).kind⟩

theorem Spec.SegsSized.placed {g : Segs} (h : Spec.SegsSized g) : SegsPlaced g :=
  ⟨fun s hs => (h.j1 s hs).kind, fun s hs => (h.j2 s hs).kind, fun s hs => (h.k1 s hs).kind,
   fun s hs => (h.k2 s hs).kind, fun s hs => (h.k3 s hs).kind, fun s hs => (h.k4 s hs).kind,
   fun s hs => (h.l1 s hs).kind, fun s hs => (h.n1 s hs).kind⟩

/-- Storing all segments one by one rebuilds the record's segments. -/
theorem foldl_store_list {g : Segs} (h : SegsPlaced g) : g.list.foldl Segs.store {} = g := by
  obtain ⟨j1, j2, k1, k2, k3, k4, l1, n1⟩ := g
  simp only [Segs.list, List.foldl_append]
  rw [foldl_store_j1 _ _ h.j1, foldl_store_j2 _ _ h.j2]
  obtain ⟨-, -, h1, h2, h3, h4, h5, h6⟩ := h
  simp only at h1 h2 h3 h4 h5 h6
  cases k1 <;> cases k2 <;> cases k3 <;> cases k4 <;> cases l1 <;> cases n1 <;>
    simp_all [Segs.store]

theorem sum_const (l : List Seg) (k : SegKind) (h : ∀ s ∈ l, s.kind = k) :
    (l.map fun s => s.kind.length).sum = k.length * l.length := by
  induction l with
  | nil => simp
  | cons s l ih =>
    rw [List.map_cons, List.sum_cons, ih fun s hs => h s (List.mem_cons_of_mem _ hs),
      h s List.mem_cons_self, List.length_cons, Nat.mul_succ, Nat.add_comm]

theorem sum_option (o : Option Seg) (k : SegKind) (h : ∀ s, o = some s → s.kind = k) :
    (o.toList.map fun s => s.kind.length).sum = k.length * Spec.present o := by
  cases o with
  | none => simp [Spec.present]
  | some s => simp [Spec.present, h s rfl]

theorem segsLength_eq {g : Segs} (h : SegsPlaced g) :
    (g.list.map fun s => s.kind.length).sum = Spec.segsLength g := by
  simp only [Segs.list, List.map_append, List.sum_append]
  rw [sum_const _ _ h.j1, sum_const _ _ h.j2, sum_option _ _ h.k1, sum_option _ _ h.k2, sum_option _ _ h.k3,
    sum_option _ _ h.k4, sum_option _ _ h.l1, sum_option _ _ h.n1]
  rfl

theorem flatten_length_sum (l : List Seg) (h : ∀ s ∈ l, s.string.length = s.kind.length) :
    ((l.map Seg.string).flatten).length = (l.map fun s => s.kind.length).sum := by
  induction l with
  | nil => rfl
  | cons s l ih =>
    rw [List.map_cons, List.flatten_cons, List.length_append, h s List.mem_cons_self,
      ih fun s hs => h s (List.mem_cons_of_mem _ hs), List.map_cons, List.sum_cons]

theorem Spec.SegsOk.string_length {g : Segs} (h : Spec.SegsOk g) : g.string.length = Spec.segsLength g := by
  rw [← segsLength_eq h.placed, Segs.string, flatten_length_sum]
  intro s hs
  have := h.mem s hs
  exact seg_string_length rfl ((layout_segment s.kind).widthAll_of_fits this.typed this.fits)

theorem Spec.SegsSized.string_length {g : Segs} (h : Spec.SegsSized g) : g.string.length = Spec.segsLength g := by
  rw [← segsLength_eq h.placed, Segs.string, flatten_length_sum]
  intro s hs
  have key : ∀ {k}, Spec.SegSized k s → s.string.length = s.kind.length := fun {k} h => by
    obtain ⟨rfl, h2, h3⟩ := h
    exact seg_string_length rfl ((layout_segment s.kind).widthAll_of_sized h2 h3)
  simp only [Segs.list, List.mem_append, Option.mem_toList] at hs
  rcases hs with ((((((hs | hs) | hs) | hs) | hs) | hs) | hs) | hs
  · exact key (h.j1 s hs)
  · exact key (h.j2 s hs)
  · exact key (h.k1 s hs)
  · exact key (h.k2 s hs)
  · exact key (h.k3 s hs)
  · exact key (h.k4 s hs)
  · exact key (h.l1 s hs)
  · exact key (h.n1 s hs)

/-- Reading the appended segments of a well-formed record. -/
theorem readApplicableSegments_string {g : Segs} (h : Spec.SegsOk g) {rest : Bytes}
    (hr : Spec.NoSegment rest) (isVar : Bool) :
    readApplicableSegments {} (g.string ++ rest) isVar = (g, .ok (Spec.segsLength g)) := by
  unfold readApplicableSegments
  have hl : g.list.length ≤ g.string.length := by
    rw [h.string_length, ← segsLength_eq h.placed]
    generalize g.list = l
    induction l with
    | nil => simp
    | cons s l ih =>
      have := s.kind.length_gt
      simp only [List.map_cons, List.sum_cons, List.length_cons]; omega
  rw [Segs.string, readSegs_strings hr g.list _ _ _ (by
    simp only [List.length_append]; rw [Segs.string] at hl; omega) h.mem, foldl_store_list h.placed,
    segsLength_eq h.placed, Nat.zero_add]

end Metro2
