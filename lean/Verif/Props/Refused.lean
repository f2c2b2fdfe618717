import Verif.Spec.Refused
import Verif.Lemmas.Store
import Verif.Props.Fields
import Verif.Props.Accepts
import Verif.Props.Leftover

/-! Property C122: what a text that is refused leaves of the record or file that was to hold it. -/

namespace Metro2
open Spec Samples

/-- The text has the value `w` for field `f`: the place of the field, moved by `shift` bytes, lies inside the text, and its bytes are read as `w`
(which texts of a field are read as which values is property C09). -/
def HasAt (fmt : Format) (text : Bytes) (shift : Nat) (f : F) (w : Val) : Prop :=
  ∃ e, fmt.lookup f = some e ∧ e.start + e.len + shift ≤ text.length ∧ Reads e f ((text.drop (e.start + shift)).take e.len) w

section
variable {fmt : Format} {pol : BdwPolicy} {rec : Bytes} {decl : List (F × FieldDecl)} {bounds : Bool}

theorem hasAt_kind {off : Nat} {f : F} {w : Val} {e : Field} {k : Kind} (he : fmt.lookup f = some e) (hk : Spec.KindOk e k = true)
    (h : HasAt fmt rec off f w) : w.hasKind k = true := by
  obtain ⟨e', h1, -, h2⟩ := h
  rw [he] at h1; cases h1
  exact parseValue_kind hk h2.2

/-- One step of the loop. -/
theorem parseLoop_one {off : Nat} {f : F} {v : Val} {rest : Fields} {e : Field} {k : Kind} (he : fmt.lookup f = some e)
    (hk : Spec.KindOk e k = true) (hv : v.hasKind k = true) :
    (∃ err, parseLoop fmt pol bounds rec off ((f, v) :: rest) = ((f, v) :: rest, some err) ∧ ∀ w, ¬ HasAt fmt rec off f w) ∨
    ∃ w, HasAt fmt rec off f w ∧ parseLoop fmt pol bounds rec off ((f, v) :: rest) =
      match f, pol with
      | .BlockDescriptorWord, .skip => ((f, v) :: (parseLoop fmt pol bounds rec off rest).1, (parseLoop fmt pol bounds rec off rest).2)
      | .BlockDescriptorWord, .fail => ((f, v) :: rest, some .blockDescriptorWord)
      | .BlockDescriptorWord, .accept =>
        ((f, w) :: (parseLoop fmt pol bounds rec (off + 4) rest).1, (parseLoop fmt pol bounds rec (off + 4) rest).2)
      | _, _ => ((f, w) :: (parseLoop fmt pol bounds rec off rest).1, (parseLoop fmt pol bounds rec off rest).2) := by
  rw [parseLoop_cons]
  simp only [he]
  by_cases hlen : rec.length < e.start + e.len + off
  · rw [if_pos hlen]
    refine .inl ⟨_, rfl, ?_⟩
    rintro w ⟨e', h1, h2, -⟩
    rw [he] at h1; cases h1
    omega
  rw [if_neg hlen]
  cases hi : isValidType e f ((rec.drop (e.start + off)).take e.len) with
  | some err =>
    refine .inl ⟨_, rfl, ?_⟩
    rintro w ⟨e', h1, -, h2⟩
    rw [he] at h1; cases h1
    rw [h2.1] at hi; cases hi
  | none =>
    cases hp : parseValue e ((rec.drop (e.start + off)).take e.len) with
    | error err =>
      refine .inl ⟨err, by simp only, ?_⟩
      rintro w ⟨e', h1, -, h2⟩
      rw [he] at h1; cases h1
      rw [h2.2] at hp; cases hp
    | ok w =>
      refine .inr ⟨w, ⟨e, he, by omega, hi, hp⟩, ?_⟩
      have hs := setVal_of_kind hv (parseValue_kind hk hp)
      simp only [hs]
      cases f <;> cases pol <;> rfl

/-- The loop over fields without a block descriptor word. -/
theorem parseLoop_plain {off : Nat} {fs new : Fields} {o : Option Err}
    (hl : ∀ d ∈ decl, d.1 ≠ .BlockDescriptorWord ∧ ∃ e, fmt.lookup d.1 = some e ∧ Spec.KindOk e d.2.kind = true)
    (ht : fs.Typed decl) (h : parseLoop fmt pol bounds rec off fs = (new, o)) :
    (o = none ∧ Replaced (fun f _ w => HasAt fmt rec off f w) fs new) ∨
    (o ≠ none ∧ Stopped (fun f _ w => HasAt fmt rec off f w) (fun f => ∀ w, ¬ HasAt fmt rec off f w) fs new) := by
  induction decl generalizing fs new with
  | nil => cases fs with
    | nil => cases h; exact .inl ⟨rfl, .nil⟩
    | cons => exact ht.elim
  | cons d ds ih => cases fs with
    | nil => exact ht.elim
    | cons p fs =>
      obtain ⟨f, v⟩ := p
      obtain ⟨h1, h2, h3⟩ := ht
      obtain ⟨hb, e, he, hk⟩ := hl d List.mem_cons_self
      rw [h1] at he hb
      rcases parseLoop_one (pol := pol) (bounds := bounds) (rec := rec) (off := off) (rest := fs) he hk h2 with ⟨err, h4, h5⟩ | ⟨w, h4, h5⟩
      · rw [h4] at h; cases h
        exact .inr ⟨by simp, [], [], f, v, fs, rfl, rfl, .nil, h5⟩
      · generalize hq : parseLoop fmt pol bounds rec off fs = q at h5
        obtain ⟨new', o'⟩ := q
        have h6 : parseLoop fmt pol bounds rec off ((f, v) :: fs) = ((f, w) :: new', o') := by
          rw [h5]
          cases pol <;> first | rfl | (cases f <;> first | rfl | exact absurd rfl hb)
        rw [h6] at h; cases h
        rcases ih (fun d hd => hl d (List.mem_cons_of_mem _ hd)) h3 hq with ⟨h7, h8⟩ | ⟨h7, b, b', g, u, be, rfl, rfl, h8, h9⟩
        · exact .inl ⟨h7, .cons ⟨rfl, h4⟩ h8⟩
        · exact .inr ⟨h7, (f, v) :: b, (f, w) :: b', g, u, be, rfl, rfl, .cons ⟨rfl, h4⟩ h8, h9⟩

/-- What is stored in a field of a record that may begin with a block descriptor word. -/
def Stored (fmt : Format) (text : Bytes) (blocked : Bool) (f : F) (v w : Val) : Prop :=
  if f = .BlockDescriptorWord then
    if blocked then HasAt fmt text 0 f w else w = v ∧ ∃ u, HasAt fmt text 0 f u
  else HasAt fmt text (if blocked then 4 else 0) f w

/-- The field cannot be read. -/
def Unreadable (fmt : Format) (text : Bytes) (blocked : Bool) (f : F) : Prop :=
  ∀ w, ¬ HasAt fmt text (if blocked ∧ f ≠ .BlockDescriptorWord then 4 else 0) f w

theorem Layout.rowsOf {L : Nat} (h : Layout fmt decl L) : ∀ d ∈ decl, ∃ e, fmt.lookup d.1 = some e ∧ Spec.KindOk e d.2.kind = true := by
  intro d hd
  obtain ⟨e, h1, -, h2, -⟩ := h.hasRow d hd
  exact ⟨e, lookup_of_mem h.names h1, h2⟩

theorem forall₂_imp' {α β : Type} {R S : α → β → Prop} {l : List α} {m : List β} (h : List.Forall₂ R l m)
    (hi : ∀ a ∈ l, ∀ b, R a b → S a b) : List.Forall₂ S l m := by
  induction h with
  | nil => exact .nil
  | cons h _ ih => exact .cons (hi _ List.mem_cons_self _ h) (ih fun a ha => hi a (List.mem_cons_of_mem _ ha))

/-- The loop over the fields of a record that may begin with a block descriptor word. -/
theorem parseLoop_blocked {enc : Enc} {L : Nat} (hB : Blocked enc fmt decl) (hL : Layout fmt decl L) {fs new : Fields} {o : Option Err}
    (ht : fs.Typed decl) (h : parseLoop fmt pol bounds rec 0 fs = (new, o)) :
    (o = none ∧ pol ≠ .fail ∧ Replaced (Stored fmt rec (decide (pol = .accept))) fs new) ∨
    (o ≠ none ∧ ((pol = .fail ∧ new = fs) ∨
      Stopped (Stored fmt rec (decide (pol = .accept))) (Unreadable fmt rec (decide (pol = .accept))) fs new)) := by
  obtain ⟨d, d', ds, rfl, hk, hk', hds⟩ := hB.struct
  have hr := hL.rowsOf
  cases fs with
  | nil => exact ht.elim
  | cons p fs =>
    obtain ⟨f, v⟩ := p
    obtain ⟨h1, h2, h3⟩ := ht
    obtain ⟨e, he, hkk⟩ := hr _ List.mem_cons_self
    simp only at h1 h2 he hkk
    subst h1
    have hl : ∀ x ∈ (F.RecordDescriptorWord, d') :: ds, x.1 ≠ .BlockDescriptorWord ∧ ∃ e, fmt.lookup x.1 = some e ∧ Spec.KindOk e x.2.kind = true := by
      intro x hx
      refine ⟨?_, hr x (List.mem_cons_of_mem _ hx)⟩
      rcases List.mem_cons.1 hx with rfl | hx
      · simp
      · exact (hds x hx).1
    have hn : ∀ (P : Fields), P.Typed ((F.RecordDescriptorWord, d') :: ds) → ∀ p ∈ P, p.1 ≠ .BlockDescriptorWord := by
      intro P hP p hp
      obtain ⟨d0, hd0⟩ := mem_decl_of_typed hP hp
      exact (hl _ hd0).1
    have hn' := hn fs h3
    rcases parseLoop_one (pol := pol) (bounds := bounds) (rec := rec) (off := 0) (rest := fs) he hkk h2 with ⟨err, h4, h5⟩ | ⟨w, h4, h5⟩
    · rw [h4] at h; cases h
      refine .inr ⟨by simp, .inr ⟨[], [], _, v, fs, rfl, rfl, .nil, ?_⟩⟩
      simpa [Unreadable] using h5
    · rw [h5] at h
      cases pol with
      | fail => cases h; exact .inr ⟨by simp, .inl ⟨rfl, rfl⟩⟩
      | skip =>
        generalize hq : parseLoop fmt .skip bounds rec 0 fs = q at h
        obtain ⟨new', o'⟩ := q
        cases h
        have hs : Stored fmt rec false .BlockDescriptorWord v v := by simpa [Stored] using ⟨w, h4⟩
        rcases parseLoop_plain hl h3 hq with ⟨h7, h8⟩ | ⟨h7, b, b', g, u, be, rfl, rfl, h8, h9⟩
        · refine .inl ⟨h7, by simp, .cons ⟨rfl, hs⟩ (forall₂_imp' h8 ?_)⟩
          rintro a ha c ⟨h10, h11⟩
          exact ⟨h10, by simpa [Stored, hn' a ha] using h11⟩
        · refine .inr ⟨h7, .inr ⟨_ :: b, _ :: b', g, u, be, rfl, rfl, .cons ⟨rfl, hs⟩ (forall₂_imp' h8 ?_), ?_⟩⟩
          · rintro a ha c ⟨h10, h11⟩
            exact ⟨h10, by simpa [Stored, hn' a (List.mem_append_left _ ha)] using h11⟩
          · simpa [Unreadable] using h9
      | accept =>
        generalize hq : parseLoop fmt .accept bounds rec (0 + 4) fs = q at h
        obtain ⟨new', o'⟩ := q
        cases h
        have hs : Stored fmt rec true .BlockDescriptorWord v w := by simpa [Stored] using h4
        rcases parseLoop_plain hl h3 hq with ⟨h7, h8⟩ | ⟨h7, b, b', g, u, be, rfl, rfl, h8, h9⟩
        · refine .inl ⟨h7, by simp, .cons ⟨rfl, hs⟩ (forall₂_imp' h8 ?_)⟩
          rintro a ha c ⟨h10, h11⟩
          exact ⟨h10, by simpa [Stored, hn' a ha] using h11⟩
        · refine .inr ⟨h7, .inr ⟨_ :: b, _ :: b', g, u, be, rfl, rfl, .cons ⟨rfl, hs⟩ (forall₂_imp' h8 ?_), ?_⟩⟩
          · rintro a ha c ⟨h10, h11⟩
            exact ⟨h10, by simpa [Stored, hn' a (List.mem_append_left _ ha)] using h11⟩
          · have hg := hn' (g, u) (by simp)
            simp only at hg
            simpa [Unreadable, hg] using h9

end

/-! ### Segments in a data record -/

/-- What is read from the bytes of a segment is read from any text that begins with them. -/
theorem seg_parse_extend {k : SegKind} {s : Seg} {p rest : Bytes} {isVar : Bool} {n : Nat} (hp : p.length = k.length)
    (h : (Seg.new k).parse p isVar = (s, .ok n)) : (Seg.new k).parse (p ++ rest) isVar = (s, .ok n) := by
  have hs := (seg_parse_safe (s := Seg.new k) (Seg.new_typed k) p isVar).2.1
  rw [h] at hs
  obtain ⟨h1, h2, h3, h4⟩ := seg_parse_ok h
  simp only [Seg.new_kind] at h1 h2 h3 h4 hs
  have hb : ∀ p ∈ (Seg.new k).fields, p.1 ≠ .BlockDescriptorWord := by
    intro p hp
    obtain ⟨d, hd⟩ := mem_decl_of_typed (Seg.new_typed k) hp
    exact seg_noBdw k _ hd
  have hsl := parseLoop_inv hb h4
  have hsl' : SlotsOk k.format (p ++ rest) 0 s.fields := by
    intro q hq
    obtain ⟨h5, e, h6, h7, h8, h9⟩ := hsl q hq
    have hle := seg_rows_le k _ (lookup_mem h6)
    simp only at hle
    rw [← slice_prefix (rest := rest) (by omega)] at h8 h9
    exact ⟨h5, e, h6, by rw [List.length_append]; omega, h8, h9⟩
  have hok := parseLoop_ok (pol := if isVar then .accept else .skip) (bounds := true)
    (SameShape.ofTyped (Seg.new_typed k) hs) hsl'
  unfold Seg.parse
  rw [if_neg (show ¬ (p ++ rest).length < (Seg.new k).kind.length by rw [Seg.new_kind, List.length_append]; omega),
    show (Seg.new k).kind = k from rfl, hok]
  obtain ⟨k', fs⟩ := s
  simp only at h3
  subst h3
  rw [h1]

theorem readSegs_stopped {isVar : Bool} : ∀ (fuel : Nat) (g g' : Segs) (off : Nat) (rec : Bytes) (r : Except Err Nat), rec.length < fuel →
    readSegs isVar fuel g off rec = (g', r) → ∃ l rest, Segments isVar rec l rest ∧ g' = l.foldl Segs.store g ∧
      (((∃ err, r = .error err) ∧ BadSegment isVar rest) ∨
        (r = .ok (off + (rec.length - rest.length)) ∧ rest.length ≤ rec.length ∧ (NoSegment rest ∨ rest.length ≤ 2))) := by
  intro fuel
  induction fuel with
  | zero => intro g g' off rec r h; omega
  | succ m ih =>
    intro g g' off rec r hf h
    rw [readSegs_succ] at h
    by_cases hl : 2 < rec.length
    swap
    · rw [if_neg hl] at h; cases h
      exact ⟨[], rec, .nil, rfl, .inr ⟨by simp, Nat.le_refl _, .inr (by omega)⟩⟩
    rw [if_pos hl] at h
    cases hk : segKindOfIdent (rec.take 2) with
    | none =>
      rw [hk] at h; cases h
      exact ⟨[], rec, .nil, rfl, .inr ⟨by simp, Nat.le_refl _, .inl ((noSegment_iff _).2 hk)⟩⟩
    | some k =>
      rw [hk] at h
      simp only at h
      have hid := segKindOfIdent_some hk
      have hpre : segmentIdent k <+: rec := by rw [segmentIdent_eq, ← hid]; exact List.take_prefix _ _
      generalize hq : (Seg.new k).parse rec isVar = q at h
      obtain ⟨s, x⟩ := q
      cases x with
      | error err =>
        cases h
        refine ⟨[], rec, .nil, rfl, .inl ⟨⟨_, rfl⟩, hl, k, hpre, ?_⟩⟩
        by_cases hlen : rec.length < segmentLength k
        · exact .inl hlen
        · right
          intro s' n hs'
          exfalso
          have := seg_parse_extend (rest := rec.drop (segmentLength k)) (by rw [List.length_take, ← segmentLength_eq]; omega) hs'
          rw [List.take_append_drop, hq] at this
          cases this
      | ok n =>
        obtain ⟨h1, h2, h3, -, -, -⟩ := seg_parse_read hq
        have hlen : (rec.take n).length = k.length := by rw [List.length_take]; omega
        have hloc : (Seg.new k).parse (rec.take n) isVar = (s, .ok n) :=
          seg_parse_local (rest := rec.drop n) hlen (by rw [List.take_append_drop]; exact hq)
        simp only [Segs.add] at h
        cases hv : s.validate with
        | some err =>
          rw [hv] at h; cases h
          refine ⟨[], rec, .nil, rfl, .inl ⟨⟨_, rfl⟩, hl, k, hpre, .inr ?_⟩⟩
          intro s' n' hs'
          rw [segmentLength_eq, ← h1, hloc] at hs'
          cases hs'
          rw [hv]; simp
        | none =>
          rw [hv] at h
          have hgt := k.length_gt
          obtain ⟨l, rest, h4, h5, h6⟩ := ih _ _ _ _ _ (by rw [List.length_drop]; omega) h
          refine ⟨s :: l, rest, ?_, h5, ?_⟩
          · have := Segments.cons (k := k) (piece := rec.take n) (more := rec.drop n) (isVar := isVar) (s := s) ?_ ?_ ?_ hv h4
            · rwa [List.take_append_drop] at this
            · rw [segmentIdent_eq, ← hid]
              exact List.take_prefix_take_left (by omega)
            · rw [segmentLength_eq]; exact hlen
            · rw [segmentLength_eq, hloc, h1]
          · rcases h6 with h6 | ⟨h6, h7, h8⟩
            · exact .inl h6
            · rw [List.length_drop] at h7
              refine .inr ⟨?_, by omega, h8⟩
              rw [h6, List.length_drop]
              congr 1; omega

theorem segmentsAfter_fold (g : Segs) (l : List Seg) : SegmentsAfter g l (l.foldl Segs.store { g with j1 := [], j2 := [] }) := by
  intro k
  rw [segmentName_eq, Segs.get_foldl_store]
  generalize l.filter (fun s => decide (s.kind = k)) = new
  unfold afterStores
  by_cases hr : Repeatable k
  · rw [if_pos hr, if_pos hr]
    rcases hr with rfl | rfl <;> rfl
  · rw [if_neg hr, if_neg hr]
    have h0 : Segs.get { g with j1 := [], j2 := [] } k.name = g.get k.name := by
      cases k <;> first | rfl | exact absurd (Or.inl rfl) hr | exact absurd (Or.inr rfl) hr
    rw [h0]
    cases hn : new.getLast? with
    | none => rw [List.getLast?_eq_none_iff] at hn; rw [if_pos hn]
    | some s =>
      have : new ≠ [] := by rintro rfl; simp at hn
      rw [if_neg this]; rfl

/-! ### The property -/

/-- C122 (segments): a segment that refuses a text is as it was if the text is too short for it. Otherwise the fields up to the first that cannot be read
have what the text has at their places, and this field and all behind it are as they were. -/
theorem C122_segment_partial (s s' : Seg) (ht : s.fields.Typed s.kind.struct) (text : Bytes) (isVar : Bool) (err : Err)
    (h : s.parse text isVar = (s', .error err)) :
    s'.kind = s.kind ∧ ((text.length < segmentLength s.kind ∧ s' = s) ∨
      (segmentLength s.kind ≤ text.length ∧
        Stopped (fun f _ w => HasAt s.kind.format text 0 f w) (fun f => ∀ w, ¬ HasAt s.kind.format text 0 f w) s.fields s'.fields)) := by
  unfold Seg.parse at h
  rw [segmentLength_eq]
  by_cases hl : text.length < s.kind.length
  · rw [if_pos hl] at h; cases h
    exact ⟨rfl, .inl ⟨hl, rfl⟩⟩
  · rw [if_neg hl] at h
    generalize hq : parseLoop s.kind.format (if isVar then .accept else .skip) true text 0 s.fields = q at h
    obtain ⟨fs, o⟩ := q
    cases o with
    | none => cases h
    | some e =>
      cases h
      refine ⟨rfl, .inr ⟨by omega, ?_⟩⟩
      rcases parseLoop_plain (fun d hd => ⟨seg_noBdw _ d hd, (layout_segment _).rowsOf d hd⟩) ht hq with ⟨h1, -⟩ | ⟨-, h1⟩
      · cases h1
      · exact h1

/-- C122 (headers): the same for headers; a packed header takes no text without a block descriptor word. The fields of a text with a block descriptor
word stand four bytes later; without it, the old block descriptor stays. -/
theorem C122_header_partial (enc : Enc) (fs : Fields) (ht : fs.Typed headerRecordStruct) (text : Bytes) (isVar : Bool) (r : Record) (err : Err)
    (h : (Record.header enc fs).parse text isVar = (r, .error err)) :
    ∃ new, r = .header enc new ∧
      (((text.length < Spec.recordLength enc ∨ (enc = .packed ∧ isVariableLength text = false)) ∧ new = fs) ∨
       (Spec.recordLength enc ≤ text.length ∧ ∃ blocked, blocked = (if enc = .packed then isVariableLength text else isVar) ∧
         Stopped (Stored enc.headerFormat text blocked) (Unreadable enc.headerFormat text blocked) fs new)) := by
  simp only [Record.parse, Prod.mk.injEq] at h
  obtain ⟨rfl, h⟩ := h
  refine ⟨_, rfl, ?_⟩
  unfold parseHeader at h ⊢
  rw [recordLength_eq]
  by_cases hl : text.length < enc.recordLength
  · rw [if_pos hl]; exact .inl ⟨.inl hl, rfl⟩
  · rw [if_neg hl] at h ⊢
    generalize hq : parseLoop enc.headerFormat (headerPolicy enc text isVar) true text 0 fs = q at h ⊢
    obtain ⟨new, o⟩ := q
    cases o with
    | none => cases h
    | some e =>
      rcases parseLoop_blocked (blocked_header enc) (layout_header enc) ht hq with ⟨h1, -⟩ | ⟨-, ⟨h1, h2⟩ | h1⟩
      · cases h1
      · refine .inl ⟨.inr ?_, h2⟩
        cases enc <;> simp only [headerPolicy] at h1 <;> split at h1 <;> simp_all
      · refine .inr ⟨by omega, _, ?_, h1⟩
        cases enc <;> simp only [headerPolicy] <;> split <;> simp_all

/-- C122 (trailers): the same for trailers, which have no block descriptor word. -/
theorem C122_trailer_partial (enc : Enc) (fs : Fields) (ht : fs.Typed trailerRecordStruct) (text : Bytes) (isVar : Bool) (r : Record) (err : Err)
    (h : (Record.trailer enc fs).parse text isVar = (r, .error err)) :
    ∃ new, r = .trailer enc new ∧
      ((text.length < Spec.recordLength enc ∧ new = fs) ∨
       (Spec.recordLength enc ≤ text.length ∧
         Stopped (fun f _ w => HasAt enc.trailerFormat text 0 f w) (fun f => ∀ w, ¬ HasAt enc.trailerFormat text 0 f w) fs new)) := by
  simp only [Record.parse, Prod.mk.injEq] at h
  obtain ⟨rfl, h⟩ := h
  refine ⟨_, rfl, ?_⟩
  unfold parseTrailer at h ⊢
  rw [recordLength_eq]
  by_cases hl : text.length < enc.recordLength
  · rw [if_pos hl]; exact .inl ⟨hl, rfl⟩
  · rw [if_neg hl] at h ⊢
    generalize hq : trailerLoop enc fs text isVar = q at h ⊢
    obtain ⟨new, o⟩ := q
    cases o with
    | none => cases h
    | some e =>
      refine .inr ⟨by omega, ?_⟩
      have hrows := fun d hd => And.intro (trailer_noBdw d hd) ((layout_trailer enc).rowsOf d hd)
      cases enc with
      | character =>
        rcases parseLoop_plain hrows ht hq with ⟨h1, -⟩ | ⟨-, h1⟩
        · cases h1
        · exact h1
      | packed =>
        rcases parseLoop_plain hrows ht hq with ⟨h1, -⟩ | ⟨-, h1⟩
        · cases h1
        · exact h1

/-- C122 (data records): as long as not all fields have been read, a data record that refuses a text keeps its segments, and of its fields the same is true as of
those of a header. If all fields have been read, they are those of the text, and its segments are the valid segments of the text up to the place where reading
ended, with those old segments of types that are not repeated of which the text has none. Reading ended because the text ends before the place of the segments, because of a segment that
cannot be read or is not valid, or because the segments go beyond the length that the text tells. -/
theorem C122_data_partial (enc : Enc) (fs : Fields) (g : Segs) (ht : fs.Typed baseSegmentStruct) (text : Bytes) (isVar : Bool) (r : Record) (err : Err)
    (h : (Record.base enc fs g).parse text isVar = (r, .error err)) :
    ∃ new g', r = .base enc new g' ∧
      (((text.length < Spec.recordLength enc ∨ (enc = .packed ∧ isVar = false)) ∧ new = fs ∧ g' = g) ∨
       (Spec.recordLength enc ≤ text.length ∧ g' = g ∧
         Stopped (Stored enc.baseFormat text isVar) (Unreadable enc.baseFormat text isVar) fs new) ∨
       (Spec.recordLength enc ≤ text.length ∧ Replaced (Stored enc.baseFormat text isVar) fs new ∧ ∃ l, SegmentsAfter g l g' ∧
         ((text.length < segmentsStart enc new ∧ l = []) ∨
          (segmentsStart enc new ≤ text.length ∧ ∃ rest, Segments isVar (text.drop (segmentsStart enc new)) l rest ∧
            (BadSegment isVar rest ∨ ((NoSegment rest ∨ rest.length ≤ 2) ∧
              (((enc = .packed ∨ 0 < bdw new) ∧ bdw new < text.length - rest.length) ∨
               (enc = .character ∧ bdw new = 0 ∧ rdw new < text.length - rest.length)))))))) := by
  have pol : ∀ p : BdwPolicy, (p = if isVar then BdwPolicy.accept else .skip) ∨ (p = if isVar then BdwPolicy.accept else .fail) →
      decide (p = .accept) = isVar := by
    rintro p (rfl | rfl) <;> cases isVar <;> rfl
  cases enc with
  | character =>
    simp only [Record.parse] at h
    generalize hP : parseBaseCharacter fs g text isVar = P at h
    obtain ⟨⟨new', g1⟩, x⟩ := P
    cases h
    refine ⟨_, _, rfl, ?_⟩
    rw [recordLength_eq]
    simp only [Enc.recordLength]
    rw [parseBaseCharacter_eq] at hP
    by_cases hl : text.length < 426
    · rw [if_pos hl] at hP; cases hP; exact .inl ⟨.inl hl, rfl, rfl⟩
    rw [if_neg hl] at hP
    generalize hq : parseLoop baseSegmentCharacterFormat (if isVar then .accept else .skip) true text 0 fs = q at hP
    obtain ⟨new, o⟩ := q
    have hpl := parseLoop_blocked (blocked_base .character) layout_baseCharacter ht hq
    rw [pol _ (.inl rfl)] at hpl
    cases o with
    | some e =>
      cases hP
      rcases hpl with ⟨h1, -⟩ | ⟨-, ⟨h1, -⟩ | h1⟩
      · cases h1
      · cases isVar <;> cases h1
      · exact .inr (.inl ⟨by omega, rfl, h1⟩)
    | none =>
      rcases hpl with ⟨-, -, h1⟩ | ⟨h1, -⟩
      swap
      · exact absurd rfl h1
      refine .inr (.inr ⟨by omega, ?_⟩)
      simp only at hP
      have hoff : (if new.int .BlockDescriptorWord > 0 then 426 + 4 else 426) = segmentsStart .character new := rfl
      rw [hoff] at hP
      by_cases hs : text.length < segmentsStart .character new
      · rw [if_pos hs] at hP; cases hP
        exact ⟨h1, [], segmentsAfter_fold g [], .inl ⟨hs, rfl⟩⟩
      rw [if_neg hs] at hP
      generalize hr : readApplicableSegments { g with j1 := [], j2 := [] } (text.drop (segmentsStart .character new)) isVar = q at hP
      obtain ⟨g', x⟩ := q
      obtain ⟨l, rest, h2, h3, h4⟩ := readSegs_stopped _ _ _ _ _ _ (Nat.lt_succ_self _) hr
      have hg : SegmentsAfter g l g' := by rw [h3]; exact segmentsAfter_fold g l
      rcases h4 with ⟨⟨e, rfl⟩, h4⟩ | ⟨rfl, h5, h6⟩
      · cases hP
        exact ⟨h1, l, hg, .inr ⟨by omega, rest, h2, .inl h4⟩⟩
      · simp only at hP
        rw [List.length_drop] at hP h5
        have hb : bdw new = new.int .BlockDescriptorWord := rfl
        have hd : rdw new = new.int .RecordDescriptorWord := rfl
        split at hP
        · next hc =>
          cases hP
          exact ⟨h1, l, hg, .inr ⟨by omega, rest, h2, .inr ⟨h6, .inl ⟨.inr hc.1, by omega⟩⟩⟩⟩
        · next hc =>
          split at hP
          · next hc' =>
            cases hP
            exact ⟨h1, l, hg, .inr ⟨by omega, rest, h2, .inr ⟨h6, .inr ⟨trivial, hc'.1, by omega⟩⟩⟩⟩
          · cases hP
  | packed =>
    simp only [Record.parse] at h
    generalize hP : parseBasePacked fs g text isVar = P at h
    obtain ⟨⟨new', g1⟩, x⟩ := P
    cases h
    refine ⟨_, _, rfl, ?_⟩
    rw [recordLength_eq]
    simp only [Enc.recordLength]
    rw [parseBasePacked_eq] at hP
    by_cases hl : text.length < 366
    · rw [if_pos hl] at hP; cases hP; exact .inl ⟨.inl hl, rfl, rfl⟩
    rw [if_neg hl] at hP
    generalize hq : parseLoop baseSegmentPackedFormat (if isVar then .accept else .fail) true text 0 fs = q at hP
    obtain ⟨new, o⟩ := q
    have hpl := parseLoop_blocked (blocked_base .packed) layout_basePacked ht hq
    rw [pol _ (.inr rfl)] at hpl
    cases o with
    | some e =>
      cases hP
      rcases hpl with ⟨h1, -⟩ | ⟨-, ⟨h1, h2⟩ | h1⟩
      · cases h1
      · exact .inl ⟨.inr ⟨trivial, by cases isVar <;> first | rfl | cases h1⟩, h2, rfl⟩
      · exact .inr (.inl ⟨by omega, rfl, h1⟩)
    | none =>
      rcases hpl with ⟨-, -, h1⟩ | ⟨h1, -⟩
      swap
      · exact absurd rfl h1
      refine .inr (.inr ⟨by omega, ?_⟩)
      simp only at hP
      have hoff : 366 + 4 = segmentsStart .packed new := rfl
      rw [hoff] at hP
      by_cases hs : text.length < segmentsStart .packed new
      · rw [if_pos hs] at hP; cases hP
        exact ⟨h1, [], segmentsAfter_fold g [], .inl ⟨hs, rfl⟩⟩
      rw [if_neg hs] at hP
      generalize hr : readApplicableSegments { g with j1 := [], j2 := [] } (text.drop (segmentsStart .packed new)) isVar = q at hP
      obtain ⟨g', x⟩ := q
      obtain ⟨l, rest, h2, h3, h4⟩ := readSegs_stopped _ _ _ _ _ _ (Nat.lt_succ_self _) hr
      have hg : SegmentsAfter g l g' := by rw [h3]; exact segmentsAfter_fold g l
      rcases h4 with ⟨⟨e, rfl⟩, h4⟩ | ⟨rfl, h5, h6⟩
      · cases hP
        exact ⟨h1, l, hg, .inr ⟨by omega, rest, h2, .inl h4⟩⟩
      · simp only at hP
        rw [List.length_drop] at hP h5
        have hb : bdw new = new.int .BlockDescriptorWord := rfl
        split at hP
        · next hc =>
          cases hP
          exact ⟨h1, l, hg, .inr ⟨by omega, rest, h2, .inr ⟨h6, .inl ⟨.inl trivial, by omega⟩⟩⟩⟩
        · cases hP

/-! ### Files -/

theorem parseBases_stopped {enc : Enc} {isVar : Bool} {text : Bytes} {bs : List Record} {b : Int} {e : Err} : ∀ (fuel : Nat) (a : Int) (acc : List Record),
    parseBases enc isVar text fuel a acc = some (bs, b, some e) → ∃ new, bs = acc ++ new ∧ DataFrom enc isVar text a new b ∧
      (b ≤ 0 ∨ text.length ≤ b) := by
  intro fuel
  induction fuel with
  | zero => intro a acc h; simp [parseBases] at h
  | succ n ih =>
    intro a acc h
    rw [parseBases_succ] at h
    split at h
    · next hc =>
      simp only [Option.some.injEq, Prod.mk.injEq] at h
      obtain ⟨rfl, rfl, -⟩ := h
      exact ⟨[], by simp, .nil, hc⟩
    · next hc =>
      have hpanic := (C13_record (newBase enc) (zeroFields_typed _) (text.drop a.toNat) isVar).1
      split at h
      · next hp => rw [hp] at hpanic; exact absurd rfl hpanic
      · simp at h
      · next r k hp =>
        obtain ⟨new, rfl, h1, h2⟩ := ih _ _ h
        exact ⟨r :: new, by simp, .cons (by omega) (by omega) hp h1, h2⟩

/-- C122 (files): a file that refuses a text keeps its format, and loses all its data records: it has those that were read from the text. Its header is what the
header has become in reading the text. Its trailer is as it was, unless the place of a trailer has been reached. -/
theorem C122_file_partial (f f' : File) (fuel : Nat) (buf : Bytes) (isVar : Bool) (err : Err)
    (h : f.parse fuel buf isVar = some (f', some err)) :
    f'.format = f.format ∧
    (((f.header.parse (withoutBreaks buf) isVar) = (f'.header, .error err) ∧ f'.bases = [] ∧ f'.trailer = f.trailer) ∨
     ∃ a b, f.header.parse (withoutBreaks buf) isVar = (f'.header, .ok a) ∧ DataFrom f.format isVar (withoutBreaks buf) a f'.bases b ∧
      (((b ≤ 0 ∨ (withoutBreaks buf).length ≤ b) ∧ f'.trailer = f.trailer) ∨
       (0 < b ∧ b < (withoutBreaks buf).length ∧ (∀ r n, (newBase f.format).parse ((withoutBreaks buf).drop b.toNat) isVar ≠ (r, .ok n)) ∧
        (f.trailer.parse ((withoutBreaks buf).drop b.toNat) isVar = (f'.trailer, .error err) ∨
         ∃ m, f.trailer.parse ((withoutBreaks buf).drop b.toNat) isVar = (f'.trailer, .ok m) ∧ b + m ≠ (withoutBreaks buf).length)))) := by
  unfold File.parse at h
  simp only [deleteFunc_newline, stripNewlines_withoutBreaks] at h
  generalize withoutBreaks buf = text at *
  split at h
  · next hd e hh =>
    simp only [Option.some.injEq, Prod.mk.injEq] at h
    obtain ⟨rfl, rfl⟩ := h
    exact ⟨rfl, .inl ⟨hh, rfl, rfl⟩⟩
  · next hd head hh =>
    split at h
    · simp at h
    · next bs b e hb =>
      simp only [Option.some.injEq, Prod.mk.injEq] at h
      obtain ⟨rfl, rfl⟩ := h
      obtain ⟨new', h1, h2, h3⟩ := parseBases_stopped _ _ _ hb
      rw [List.nil_append] at h1
      subst h1
      exact ⟨rfl, .inr ⟨head, b, hh, h2, .inl ⟨h3, rfl⟩⟩⟩
    · next bs off hb =>
      obtain ⟨new', h1, h2, h3, h4, h5⟩ := parseBases_ok _ _ _ hb
      rw [List.nil_append] at h1
      subst h1
      rw [if_neg (by omega), sliceFrom_of_le (by omega) (by omega)] at h
      simp only at h
      split at h
      · next t e ht =>
        simp only [Option.some.injEq, Prod.mk.injEq] at h
        obtain ⟨rfl, rfl⟩ := h
        exact ⟨rfl, .inr ⟨head, off, hh, h2, .inr ⟨h3, h4, h5, .inl ht⟩⟩⟩
      · next t tread ht =>
        split at h
        · next hne =>
          simp only [Option.some.injEq, Prod.mk.injEq] at h
          obtain ⟨rfl, rfl⟩ := h
          exact ⟨rfl, .inr ⟨head, off, hh, h2, .inr ⟨h3, h4, h5, .inr ⟨tread, ht, hne⟩⟩⟩⟩
        · simp at h

/-- A file that refuses a text is as it was only if it had no data records or those of the text. -/
theorem C122_file_kept (f : File) (fuel : Nat) (buf : Bytes) (isVar : Bool) (err : Err)
    (h : f.parse fuel buf isVar = some (f, some err)) :
    f.bases = [] ∨ ∃ a b, (f.header.parse (withoutBreaks buf) isVar).2 = .ok a ∧ DataFrom f.format isVar (withoutBreaks buf) a f.bases b := by
  obtain ⟨-, ⟨-, h1, -⟩ | ⟨a, b, h1, h2, -⟩⟩ := C122_file_partial f f fuel buf isVar err h
  · exact .inl h1
  · exact .inr ⟨a, b, by rw [h1], h2⟩

/-- The statement of C122. -/
def C122_statement : Prop :=
  (∀ (r r' : Record) (text : Bytes) (isVar : Bool) (err : Err), WellTyped r → r.parse text isVar = (r', .error err) → r' = r) ∧
  (∀ (s s' : Seg) (text : Bytes) (isVar : Bool) (err : Err), s.fields.Typed s.kind.struct → s.parse text isVar = (s', .error err) → s' = s) ∧
  ∀ (f f' : File) (fuel : Nat) (buf : Bytes) (isVar : Bool) (err : Err), Reachable f → f.parse fuel buf isVar = some (f', some err) → f' = f

/-- The text of a header whose name is read and whose date of activity is not. -/
def brokenHeader : Bytes := b! "0426HEADER01" ++ List.replicate 35 (32 : UInt8) ++ List.replicate 400 (88 : UInt8)

/-- C122 is violated in each part: a header that has read a part of a text, an L1 segment that has, and any file with data records: the empty text
is refused, and the data records are gone. -/
theorem C122_violated : ¬ C122_statement ∧
    (∃ new, (newHeader .character).parse brokenHeader false = (new, .error .timeFormat) ∧
      (valuesOf new).str .CycleIdentifier = b! "01" ∧ (valuesOf (newHeader .character)).str .CycleIdentifier = []) ∧
    (∃ new, (Seg.new .l1).parse (List.replicate 60 88) false = (new, .error (.required .ChangeIndicator)) ∧
      new.fields.str .SegmentIdentifier = b! "XX" ∧ (Seg.new .l1).fields.str .SegmentIdentifier = b! "L1") ∧
    ∀ f : File, Reachable f → f.parse 1 [] false = some ({ f with bases := [] }, some .segmentLength) := by
  have h1 : ∃ new, (newHeader .character).parse brokenHeader false = (new, .error .timeFormat) ∧
      (valuesOf new).str .CycleIdentifier = b! "01" ∧ (valuesOf (newHeader .character)).str .CycleIdentifier = [] :=
    ⟨_, by rw [← Prod.mk.eta (p := (newHeader .character).parse brokenHeader false)]; exact congrArg _ (by decide +kernel),
      by decide +kernel, by decide +kernel⟩
  refine ⟨fun h => ?_, h1, ⟨_, rfl, by decide +kernel, by decide +kernel⟩, ?_⟩
  · obtain ⟨new, h2, h3, h4⟩ := h1
    have := h.1 (newHeader .character) _ _ _ _ (newHeader_typed .character) h2
    rw [this, h4] at h3
    cases h3
  · intro f hf
    obtain ⟨⟨⟨fs, hh⟩, -, -⟩, -⟩ := C32_reachable hf
    unfold File.parse
    have h0 : (deleteFunc isNewline []).1 = [] := rfl
    simp only [h0, hh, Record.parse, parseHeader]
    rw [if_pos (by cases f.format <;> decide)]

/-! ### Non-vacuity -/

/-- Case of `C122_segment_partial`: reading ends with the second field. -/
example : ((Seg.new .l1).parse (List.replicate 60 88) false).2 = .error (.required .ChangeIndicator) ∧ (Seg.new .l1).fields.Typed (Seg.new .l1).kind.struct :=
  ⟨rfl, Seg.new_typed .l1⟩

/-- Case of `C122_header_partial`: a header in a buffer that is too short, one that is spoiled, and a packed one without block descriptor word. -/
example : ((Record.header .character (newHeader .character).fields).parse (b! "0426HEADER") false).2 = .error .segmentLength ∧
    ((Record.header .character (newHeader .character).fields).parse brokenHeader false).2 = .error .timeFormat ∧
    ((Record.header .packed (newHeader .packed).fields).parse fixedFile.header.string true).2 = .error .blockDescriptorWord := by decide +kernel

/-- Case of `C122_trailer_partial`: the text of a header is no trailer. -/
example : ((Record.trailer .character (newTrailer .character).fields).parse fixedFile.header.string false).2 = .error (.required .TotalBaseRecords) := by
  decide +kernel

/-- Case of `C122_data_partial`: the text of a header is no data record; the text of a data record with a K1 segment that has been spoiled. -/
example : ((Record.base .character (zeroFields baseSegmentStruct) {}).parse fixedFile.header.string false).2 = .error (.numeric .ProcessingIndicator) ∧
    ((Record.base .character (base 0 1200) segs).parse ((Record.base .character (base 0 426) {}).string ++ b! "K1 and nothing more") false).2 = .error .segmentLength ∧
    ((Record.base .character (base 0 1200) segs).parse (probe ++ b! "K1 and nothing more") false).1 =
      .base .character (base 0 426) { segs with j1 := [], j2 := [] } := by
  decide +kernel

/-- Case of `C122_file_partial`: the file has a header and a data record of the text, and then neither another data record nor a trailer. -/
example : (fixedFile.parse 3 (fixedFile.header.string ++ (fixedFile.bases.map Record.string).flatten) false).map (·.2) = some (some .segmentLength) := by
  decide +kernel

/-- Case of `C122_file_kept`: a new file keeps nothing to lose. -/
example : (newFile .character).parse 1 [] false = some (newFile .character, some .segmentLength) := by decide +kernel

end Metro2
