import Verif.Lemmas.ParseInv
import Verif.Spec.Reread

/-! Everything that was read can be written and read again. -/

namespace Metro2

/-- Every field other than the block descriptor holds a value read from some bytes. -/
def Accepted (fmt : Format) (fs : Fields) : Prop :=
  ∀ p ∈ fs, p.1 ≠ .BlockDescriptorWord → ∃ e data, fmt.lookup p.1 = some e ∧ data.length = e.len ∧
    isValidType e p.1 data = none ∧ parseValue e data = .ok p.2

theorem SlotsOk.accepted {fmt : Format} {rec : Bytes} {off : Nat} {fs : Fields} (h : SlotsOk fmt rec off fs) :
    Accepted fmt fs := by
  intro p hp _
  obtain ⟨-, e, h1, h2, h3, h4⟩ := h p hp
  exact ⟨e, _, h1, by rw [List.length_take, List.length_drop]; omega, h3, h4⟩

theorem SlotsOk.accepted_noBdw {fmt : Format} {rec : Bytes} {off : Nat} {fs : Fields}
    (h : SlotsOk fmt rec off (noBdw fs)) : Accepted fmt fs := by
  intro p hp hb
  have : p ∈ noBdw fs := by
    unfold noBdw
    rw [List.mem_filter]
    exact ⟨hp, by simpa using hb⟩
  exact h.accepted p this hb

theorem mem_decl_of_typed {decl : List (F × FieldDecl)} {fs : Fields} (ht : fs.Typed decl) {p : F × Val}
    (hp : p ∈ fs) : ∃ d, (p.1, d) ∈ decl := by
  have : p.1 ∈ fs.map Prod.fst := List.mem_map_of_mem hp
  rw [ht.names] at this
  obtain ⟨q, hq, he⟩ := List.mem_map.1 this
  exact ⟨q.2, by rw [← he]; exact hq⟩

/-- Accepted values fit. -/
theorem Layout.fits_of_accepted {fmt : Format} {decl : List (F × FieldDecl)} {L : Nat} (h : Layout fmt decl L)
    {fs : Fields} (ht : fs.Typed decl) (ha : Accepted fmt fs) (hr : Spec.Regular fmt fs) :
    Spec.FitsAll fmt fs := by
  intro p hp hb e he
  obtain ⟨e', data, h1, h2, h3, h4⟩ := ha p hp hb
  have := lookup_of_mem h.names he
  rw [this] at h1
  cases h1
  obtain ⟨d, hd⟩ := mem_decl_of_typed ht hp
  exact fits_of_parse (h.row hd he).1 h2 h3 h4 (hr.1 p hp e he) (hr.2 p hp e he)

/-! ### All segments of a record -/

/-- `P k s` for the segment(s) in the place for type `k`. -/
structure SegsAll (P : SegKind → Seg → Prop) (g : Segs) : Prop where
  j1 : ∀ s ∈ g.j1, P .j1 s
  j2 : ∀ s ∈ g.j2, P .j2 s
  k1 : ∀ s, g.k1 = some s → P .k1 s
  k2 : ∀ s, g.k2 = some s → P .k2 s
  k3 : ∀ s, g.k3 = some s → P .k3 s
  k4 : ∀ s, g.k4 = some s → P .k4 s
  l1 : ∀ s, g.l1 = some s → P .l1 s
  n1 : ∀ s, g.n1 = some s → P .n1 s

theorem SegsAll.empty (P : SegKind → Seg → Prop) : SegsAll P {} := by
  constructor <;> intro s hs <;> cases hs

theorem SegsAll.store {P : SegKind → Seg → Prop} {g : Segs} (h : SegsAll P g) {s : Seg} (hs : P s.kind s) :
    SegsAll P (g.store s) := by
  obtain ⟨h1, h2, h3, h4, h5, h6, h7, h8⟩ := h
  obtain ⟨k, fs⟩ := s
  cases k <;> simp only [Segs.store] <;> constructor <;> (try assumption) <;> intro t ht <;>
    simp only [List.mem_append, List.mem_singleton, Option.some.injEq] at ht
  all_goals first
    | (subst ht; exact hs)
    | (rcases ht with ht | rfl
       · first | exact h1 t ht | exact h2 t ht
       · exact hs)

theorem SegsAll.ok {P : SegKind → Seg → Prop} {g : Segs} (h : SegsAll P g)
    (hp : ∀ k s, P k s → Spec.Holds g s → Spec.SegmentOk k s) : Spec.SegsOk g :=
  ⟨fun s hs => hp _ s (h.j1 s hs) (by simp [Spec.Holds, hs]),
   fun s hs => hp _ s (h.j2 s hs) (by simp [Spec.Holds, hs]),
   fun s hs => hp _ s (h.k1 s hs) (by simp [Spec.Holds, hs]),
   fun s hs => hp _ s (h.k2 s hs) (by simp [Spec.Holds, hs]),
   fun s hs => hp _ s (h.k3 s hs) (by simp [Spec.Holds, hs]),
   fun s hs => hp _ s (h.k4 s hs) (by simp [Spec.Holds, hs]),
   fun s hs => hp _ s (h.l1 s hs) (by simp [Spec.Holds, hs]),
   fun s hs => hp _ s (h.n1 s hs) (by simp [Spec.Holds, hs])⟩

/-- A segment that was read. -/
structure SegRead (k : SegKind) (s : Seg) : Prop where
  kind : s.kind = k
  typed : s.fields.Typed k.struct
  accepted : Accepted k.format s.fields
  ident : (.SegmentIdentifier, .str k.ident) ∈ s.fields
  valid : s.validate = none

theorem SegRead.ok {k : SegKind} {s : Seg} (h : SegRead k s) (hr : Spec.Regular k.format s.fields) :
    Spec.SegmentOk k s :=
  ⟨h.kind, h.typed, (layout_segment k).fits_of_accepted h.typed h.accepted hr,
   by rw [segmentIdent_eq]; exact h.ident, h.valid⟩

theorem seg_lookup_ident (k : SegKind) :
    k.format.lookup .SegmentIdentifier = some ⟨0, 2, .alphanumeric, false, false, .required⟩ := by
  cases k <;> decide +kernel

theorem seg_decl_ident (k : SegKind) : F.SegmentIdentifier ∈ k.struct.map Prod.fst := by
  cases k <;> decide +kernel

theorem segLength_pos (k : SegKind) : 0 < k.length := by cases k <;> decide

/-- What a successful parse of a segment leaves. -/
theorem seg_parse_read {k : SegKind} {t : Seg} {rec : Bytes} {isVar : Bool} {n : Nat}
    (h : (Seg.new k).parse rec isVar = (t, .ok n)) :
    n = k.length ∧ k.length ≤ rec.length ∧ t.kind = k ∧ t.fields.Typed k.struct ∧ Accepted k.format t.fields ∧
      (.SegmentIdentifier, .str (trimRight (rec.take 2))) ∈ t.fields := by
  have hs := (seg_parse_safe (s := Seg.new k) (Seg.new_typed k) rec isVar).2.1
  rw [h] at hs
  obtain ⟨h1, h2, h3, h4⟩ := seg_parse_ok h
  simp only [Seg.new_kind] at h1 h2 h3 h4 hs
  have hb : ∀ p ∈ (Seg.new k).fields, p.1 ≠ .BlockDescriptorWord := by
    intro p hp
    obtain ⟨d, hd⟩ := mem_decl_of_typed (Seg.new_typed k) hp
    exact seg_noBdw k _ hd
  have hsl := parseLoop_inv hb h4
  refine ⟨h1, h2, h3, hs, hsl.accepted, ?_⟩
  have hm := seg_decl_ident k
  rw [← hs.names] at hm
  obtain ⟨⟨f, v⟩, hq, he⟩ := List.mem_map.1 hm
  simp only at he
  subst he
  obtain ⟨-, e, h5, -, -, h6⟩ := hsl _ hq
  simp only at h5 h6
  rw [seg_lookup_ident] at h5
  cases h5
  simp only [parseValue, Nat.add_zero, List.drop_zero, Except.ok.injEq] at h6
  rw [h6]
  exact hq

theorem trimRight_ident (k : SegKind) : trimRight k.ident = k.ident := by cases k <;> decide

theorem segsLength_store (g : Segs) (s : Seg) :
    Spec.segsLength (g.store s) ≤ Spec.segsLength g + s.kind.length := by
  have h1 : Spec.present (some s) = 1 := rfl
  obtain ⟨k, fs⟩ := s
  cases k <;> simp only [Segs.store, Spec.segsLength, SegKind.length, List.length_append, List.length_singleton] <;>
    omega

/-- A successful `readApplicableSegments`: only read segments are added, and they are no longer
than what was consumed. -/
theorem readSegs_inv {isVar : Bool} : ∀ (fuel : Nat) (g g' : Segs) (off n : Nat) (rec : Bytes),
    readSegs isVar fuel g off rec = (g', .ok n) → SegsAll SegRead g →
    SegsAll SegRead g' ∧ Spec.segsLength g' + off ≤ Spec.segsLength g + n ∧ off ≤ n ∧ n ≤ off + rec.length := by
  intro fuel
  induction fuel with
  | zero => intro g g' off n rec h _; simp [readSegs] at h
  | succ m ih =>
    intro g g' off n rec h hg
    rw [readSegs_succ] at h
    split at h
    · split at h
      · cases h; exact ⟨hg, by omega, by omega, by omega⟩
      · next k hk =>
        split at h
        · cases h
        · next s l he =>
          obtain ⟨h1, h2, h3, h4, h5, h6⟩ := seg_parse_read he
          split at h
          · cases h
          · next g2 ha =>
            unfold Segs.add at ha
            split at ha
            · cases ha
            · next hv =>
              cases ha
              have hid := segKindOfIdent_some hk
              rw [hid, trimRight_ident] at h6
              have hsr : SegRead s.kind s := by rw [h3]; exact ⟨h3, h4, h5, h6, hv⟩
              obtain ⟨r1, r2, r3, r4⟩ := ih _ _ _ _ _ h (hg.store hsr)
              have := segsLength_store g s
              rw [h3] at this
              rw [List.length_drop] at r4
              exact ⟨r1, by omega, by omega, by omega⟩
    · cases h; exact ⟨hg, by omega, by omega, by omega⟩

theorem segsLength_empty : Spec.segsLength {} = 0 := rfl

theorem readApplicableSegments_inv {isVar : Bool} {g : Segs} {n : Nat} {rec : Bytes}
    (h : readApplicableSegments {} rec isVar = (g, .ok n)) :
    SegsAll SegRead g ∧ Spec.segsLength g ≤ n ∧ n ≤ rec.length := by
  obtain ⟨h1, h2, -, h4⟩ := readSegs_inv _ _ _ _ _ _ h (SegsAll.empty _)
  rw [segsLength_empty] at h2
  exact ⟨h1, by omega, by omega⟩

end Metro2
