import Verif.Lemmas.Memory
import Verif.Props.Samples

/-!
Property C107: records, segments and a file as objects in memory behave like the values of the other models, as long as no two records share an array.
-/

namespace Metro2

open Samples

theorem addSegment_eq {grow : Nat → Nat} {m : Memory} {r p : Nat} {o : RecordObject} {s : Seg} (hr : m.records r = some o)
    (hs : m.segments p = some s) : m.addSegment grow r p =
      match (generalizing := false) o with
      | .base enc fs g =>
        match s.validate with
        | some e => some (m, some e)
        | none => some (m.store grow r enc fs g p s.kind, none)
      | _ => some (m, some .applicableSegment) := by
  cases o <;> simp only [Memory.addSegment, hr, hs]
  cases s.validate <;> rfl

theorem addSegment_held {grow : Nat → Nat} {m : Memory} {r p : Nat} {x : Memory × Option Err} (h : m.addSegment grow r p = some x) :
    (∃ o, m.records r = some o) ∧ ∃ s, m.segments p = some s := by
  unfold Memory.addSegment at h
  cases hr : m.records r with
  | none => simp [hr] at h
  | some o =>
    cases hs : m.segments p with
    | none => rw [hr, hs] at h; cases o <;> simp at h
    | some s => exact ⟨⟨o, rfl⟩, s, rfl⟩

theorem addSegment_facts {grow : Nat → Nat} (hg : Spec.Grows grow) {m : Memory} (h : Objects m) {r p : Nat} {v : Record} {s : Seg}
    (hr : m.record r = some v) (hs : m.segments p = some s) :
    ∃ m', m.addSegment grow r p = some (m', (v.addSegment s).2) ∧ m'.record r = some (v.addSegment s).1 ∧ Objects m' ∧ m'.file = m.file ∧
      m'.segments = m.segments ∧ m'.recArrays = m.recArrays ∧ m.next ≤ m'.next ∧ ∃ o, m'.records = put m.records r (some o) := by
  obtain ⟨o, ho, hv⟩ := record_some hr
  rw [addSegment_eq ho hs]
  have hself : m.records = put m.records r (some o) := by
    funext q
    by_cases he : q = r
    · subst he; rw [put_at, ho]
    · rw [put_other _ _ he]
  cases o with
  | header enc fs =>
    simp only [RecordObject.value, Option.some.injEq] at hv
    subst hv
    exact ⟨m, rfl, hr, h, rfl, rfl, rfl, Nat.le_refl _, _, hself⟩
  | trailer enc fs =>
    simp only [RecordObject.value, Option.some.injEq] at hv
    subst hv
    exact ⟨m, rfl, hr, h, rfl, rfl, rfl, Nat.le_refl _, _, hself⟩
  | base enc fs g =>
    simp only [RecordObject.value, Option.map_eq_some_iff] at hv
    obtain ⟨w, hw, rfl⟩ := hv
    simp only [Record.addSegment, Segs.add]
    cases hval : s.validate with
    | some e => exact ⟨m, rfl, hr, h, rfl, rfl, rfl, Nat.le_refl _, _, hself⟩
    | none =>
      obtain ⟨h1, h2⟩ := store_facts hg h ho hs hw
      obtain ⟨f1, f2, f3, f4, ⟨g', f5⟩, -⟩ := store_frame (grow := grow) m r p enc fs g s.kind
      exact ⟨_, rfl, h2, h1, f3, f1, f2, f4, _, f5⟩

theorem sound_call {grow : Nat → Nat} (hg : Spec.Grows grow) {m m' : Memory} (h : Sound m) {c : Call} {e : Option Err}
    (hc : m.call grow c = some (m', e)) : Sound m' := by
  obtain ⟨f, hf⟩ := h.fileValue
  cases c with
  | newSegment k => simp only [Memory.call, Option.some.injEq, Prod.mk.injEq] at hc; exact hc.1 ▸ sound_newSegment h k
  | newHeader enc => simp only [Memory.call, Option.some.injEq, Prod.mk.injEq] at hc; exact hc.1 ▸ sound_newRecord h _
  | newBase enc => simp only [Memory.call, Option.some.injEq, Prod.mk.injEq] at hc; exact hc.1 ▸ sound_newRecord h _
  | newTrailer enc => simp only [Memory.call, Option.some.injEq, Prod.mk.injEq] at hc; exact hc.1 ▸ sound_newRecord h _
  | changeSegment p fs =>
    simp only [Memory.call, Option.map_eq_some_iff, Prod.mk.injEq] at hc
    obtain ⟨m1, h1, rfl, -⟩ := hc
    exact sound_changeSegment h h1
  | changeRecord p fs =>
    simp only [Memory.call, Option.map_eq_some_iff, Prod.mk.injEq] at hc
    obtain ⟨m1, h1, rfl, -⟩ := hc
    exact sound_changeRecord h h1
  | addSegment r p =>
    obtain ⟨⟨o, ho⟩, s, hs⟩ := addSegment_held hc
    obtain ⟨v, hv⟩ := h.record ho
    obtain ⟨m1, h1, -, h3, h4, h5, h6, h7, o', h8⟩ := addSegment_facts hg h.toObjects hv hs
    simp only [Memory.call, h1, Option.some.injEq, Prod.mk.injEq] at hc
    obtain ⟨rfl, -⟩ := hc
    exact sound_update h h3 h8 h7 h6 h4
  | setRecord r =>
    cases hv : m.record r with
    | none => simp [Memory.call, Memory.setRecord, hv] at hc
    | some v => exact (setRecord_facts h hc hv hf).1
  | addDataRecord r =>
    cases hv : m.record r with
    | none => simp [Memory.call, Memory.addDataRecord, hv] at hc
    | some v => exact (addDataRecord_facts hg h hc hv hf).1
  | setType name =>
    simp only [Memory.call, Option.some.injEq] at hc
    have := (setType_facts hg h name hf).1
    rw [hc] at this
    exact this

theorem sound_arises {grow : Nat → Nat} (hg : Spec.Grows grow) {sort : Call → Prop} {m : Memory} (h : Spec.Arises grow sort m) : Sound m := by
  induction h with
  | new enc => exact sound_new enc
  | call _ _ hc ih => exact sound_call hg ih hc

/-! ### C107 -/

/-- C107. `AddApplicableSegment` on a record in memory returns what it returns for values, and the record has the value that it has there. -/
theorem C107_add (grow : Nat → Nat) (hg : Spec.Grows grow) (m : Memory) (h : Spec.Arises grow Spec.Any m) (r p : Nat) (v : Record) (s : Seg)
    (hr : m.record r = some v) (hs : m.segments p = some s) :
    ∃ m', m.addSegment grow r p = some (m', (v.addSegment s).2) ∧ m'.record r = some (v.addSegment s).1 ∧ m'.file = m.file ∧
      m'.segments = m.segments := by
  obtain ⟨m', h1, h2, -, h4, h5, -⟩ := addSegment_facts hg (sound_arises hg h).toObjects hr hs
  exact ⟨m', h1, h2, h4, h5⟩

theorem mapM_getElem? {α : Type} {f : Nat → Option α} {l : List Nat} {v : List α} (h : l.mapM f = some v) (i : Nat) : v[i]? = l[i]?.bind f := by
  induction l generalizing v i with
  | nil => simp only [List.mapM_nil, Option.pure_def, Option.some.injEq] at h; subst h; rfl
  | cons a l ih =>
    obtain ⟨x, w, hx, hw, rfl⟩ := mapM_cons_some h
    cases i with
    | zero => simp [hx]
    | succ i => simpa using ih hw i

theorem set_ne_iff {α : Type} {v : List α} {i : Nat} {s : α} : v.set i s ≠ v ↔ ∃ b, v[i]? = some b ∧ b ≠ s := by
  constructor
  · intro h
    by_cases hi : i < v.length
    · refine ⟨v[i], List.getElem?_eq_getElem hi, fun hb => h ?_⟩
      rw [← hb, List.set_getElem_self]
    · exact absurd (List.set_eq_of_length_le (Nat.le_of_not_lt hi)) h
  · rintro ⟨b, hb, hne⟩ h
    have hi : i < v.length := (List.getElem?_eq_some_iff.1 hb).1
    have := List.getElem?_set_self (a := s) hi
    rw [h, hb] at this
    exact hne (Option.some.inj this)

/-- The value of another data record after a segment was stored. -/
theorem store_other {grow : Nat → Nat} {m : Memory} (h : Objects m) {r r' p : Nat} (hne : r' ≠ r) {enc enc' : Enc} {fs fs' : Fields}
    {g g' : SegsObject} (hr : m.records r = some (.base enc fs g)) (hr' : m.records r' = some (.base enc' fs' g')) {s : Seg}
    (hs : m.segments p = some s) {v : Segs} (hv : g'.value m = some v) :
    (m.store grow r enc fs g p s.kind).record r' ≠ m.record r' ↔
      ∃ t t', Spec.listOf g s.kind = some t ∧ Spec.listOf g' s.kind = some t' ∧ Spec.SameArray t t' ∧ t.len < t.cap ∧
        ∃ q, (t'.elements m.segArrays)[t.len]? = some q ∧ m.segments q ≠ some s := by
  obtain ⟨f1, -, -, -, ⟨g2, f5⟩, f6⟩ := store_frame (grow := grow) m r p enc fs g s.kind
  have hold : m.record r' = some (.base enc' fs' v) := by rw [record_of hr']; simp only [RecordObject.value, hv, Option.map_some]
  have hnew : ∀ w, SegsObject.value (m.store grow r enc fs g p s.kind) g' = some w →
      (m.store grow r enc fs g p s.kind).record r' = some (.base enc' fs' w) := by
    intro w hw
    rw [record_of (o := .base enc' fs' g') (by rw [f5, put_other _ _ hne]; exact hr')]
    simp only [RecordObject.value, hw, Option.map_some]
  have hsl := h.slices _ _ _ _ hr'
  have hv' := segsValue_iff.1 hv
  obtain ⟨v1, v2, v3⟩ := hv'
  have key : ∀ (t t' : Slice) (l : List Seg), SliceOk m.segArrays m.next t' → (t'.elements m.segArrays).mapM m.segments = some l →
      (t'.elements (appendTo grow m.segArrays m.next t p).1).mapM m.segments =
        some (if t.len < t.cap ∧ 0 < t'.cap ∧ t.array = t'.array then l.set t.len s else l) := by
    intro t t' l ht' hl
    rw [append_elements ht']
    split
    · exact mapM_set hl hs
    · exact hl
  have fin : ∀ (t t' : Slice) (l : List Seg), (t'.elements m.segArrays).mapM m.segments = some l →
      ((if t.len < t.cap ∧ 0 < t'.cap ∧ t.array = t'.array then l.set t.len s else l) ≠ l ↔
        Spec.SameArray t t' ∧ t.len < t.cap ∧ ∃ q, (t'.elements m.segArrays)[t.len]? = some q ∧ m.segments q ≠ some s) := by
    intro t t' l hl
    split
    · next hc =>
      rw [set_ne_iff]
      constructor
      · rintro ⟨b, hb, hn⟩
        rw [mapM_getElem? hl, Option.bind_eq_some_iff] at hb
        obtain ⟨q, hq, hqb⟩ := hb
        exact ⟨⟨by omega, hc.2.1, hc.2.2⟩, hc.1, q, hq, by rw [hqb]; exact fun h => hn (Option.some.inj h)⟩
      · rintro ⟨-, -, q, hq, hn⟩
        obtain ⟨x, hx⟩ := mapM_some_iff.1 ⟨l, hl⟩ q (List.mem_of_getElem? hq)
        exact ⟨x, by rw [mapM_getElem? hl, hq]; exact hx, fun hb => hn (hb ▸ hx)⟩
    · next hc =>
      constructor
      · intro hx; exact absurd rfl hx
      · rintro ⟨⟨a, b, c⟩, d, -⟩; exact absurd ⟨d, b, c⟩ hc
  obtain ⟨k, sfs⟩ := s
  cases k with
  | j1 =>
    have hval : SegsObject.value (m.store grow r enc fs g p .j1) g' =
        some { v with j1 := if g.j1.len < g.j1.cap ∧ 0 < g'.j1.cap ∧ g.j1.array = g'.j1.array then v.j1.set g.j1.len ⟨.j1, sfs⟩ else v.j1 } := by
      refine segsValue_iff.2 ⟨key g.j1 g'.j1 v.j1 hsl.1 v1, ?_, v3⟩
      simp only [Memory.store, append_apart hsl.2 p (h.kinds _ _ _ _ _ _ _ _ hr hr')]
      exact v2
    have hx := fin g.j1 g'.j1 v.j1 v1
    rw [hnew _ hval, hold]
    constructor
    · intro hn
      obtain ⟨a, b, c⟩ := hx.1 fun he => hn (by rw [he])
      exact ⟨_, _, rfl, rfl, a, b, c⟩
    · rintro ⟨t, t', ht, ht', a, b, c⟩ he
      cases ht; cases ht'
      refine hx.2 ⟨a, b, c⟩ ?_
      simp only [Option.some.injEq, Record.base.injEq, true_and] at he
      exact congrArg Segs.j1 he
  | j2 =>
    have hval : SegsObject.value (m.store grow r enc fs g p .j2) g' =
        some { v with j2 := if g.j2.len < g.j2.cap ∧ 0 < g'.j2.cap ∧ g.j2.array = g'.j2.array then v.j2.set g.j2.len ⟨.j2, sfs⟩ else v.j2 } := by
      refine segsValue_iff.2 ⟨?_, key g.j2 g'.j2 v.j2 hsl.2 v2, v3⟩
      simp only [Memory.store, append_apart hsl.1 p fun hx => h.kinds _ _ _ _ _ _ _ _ hr' hr (sameArray_symm hx)]
      exact v1
    have hx := fin g.j2 g'.j2 v.j2 v2
    rw [hnew _ hval, hold]
    constructor
    · intro hn
      obtain ⟨a, b, c⟩ := hx.1 fun he => hn (by rw [he])
      exact ⟨_, _, rfl, rfl, a, b, c⟩
    · rintro ⟨t, t', ht, ht', a, b, c⟩ he
      cases ht; cases ht'
      refine hx.2 ⟨a, b, c⟩ ?_
      simp only [Option.some.injEq, Record.base.injEq, true_and] at he
      exact congrArg Segs.j2 he
  | _ =>
    rw [hnew v hv, hold]
    constructor
    · intro hn; exact absurd rfl hn
    · rintro ⟨t, t', ht, -⟩; cases ht

/-- What an added segment does to the lists of the record. -/
theorem store_lists {grow : Nat → Nat} (m : Memory) (r p : Nat) (enc : Enc) (fs : Fields) (g : SegsObject) (k : SegKind) :
    ∃ g', (m.store grow r enc fs g p k).records = put m.records r (some (.base enc fs g')) ∧
      (∀ t, SliceOk m.segArrays m.next t → Spec.SameArray g'.j1 t → Spec.SameArray g.j1 t) ∧
      (∀ t, SliceOk m.segArrays m.next t → Spec.SameArray g'.j2 t → Spec.SameArray g.j2 t) := by
  cases k
  case j1 => exact ⟨_, rfl, fun t ht h => append_array ht p h, fun _ _ h => h⟩
  case j2 => exact ⟨_, rfl, fun _ _ h => h, fun t ht h => append_array ht p h⟩
  all_goals exact ⟨_, rfl, fun _ _ h => h, fun _ _ h => h⟩

theorem shares_symm {m : Memory} {q q' : Nat} (h : Spec.Shares m q q') : Spec.Shares m q' q := by
  obtain ⟨enc, fs, g, enc', fs', g', h1, h2, h3⟩ := h
  exact ⟨_, _, _, _, _, _, h2, h1, h3.imp sameArray_symm sameArray_symm⟩

/-- A replaced record shares no more than before. -/
theorem shares_put {m m' : Memory} (h : Objects m) {r : Nat} {o : RecordObject} (hrec : m'.records = put m.records r (some o))
    (ho : ∀ enc fs g', o = .base enc fs g' → ∃ enc' fs' g, m.records r = some (.base enc' fs' g) ∧
      (∀ t, SliceOk m.segArrays m.next t → Spec.SameArray g'.j1 t → Spec.SameArray g.j1 t) ∧
      (∀ t, SliceOk m.segArrays m.next t → Spec.SameArray g'.j2 t → Spec.SameArray g.j2 t)) {q q' : Nat} (hne : q ≠ q')
    (hs : Spec.Shares m' q q') : Spec.Shares m q q' := by
  have key : ∀ q', r ≠ q' → Spec.Shares m' r q' → Spec.Shares m r q' := by
    rintro q' hne ⟨enc, fs, g, enc', fs', g', h1, h2, h3⟩
    rw [hrec, put_at] at h1
    rw [hrec, put_other _ _ (Ne.symm hne)] at h2
    obtain ⟨enc2, fs2, g2, h4, h5, h6⟩ := ho enc fs g (Option.some.inj h1)
    have hsl := h.slices _ _ _ _ h2
    exact ⟨_, _, _, _, _, _, h4, h2, h3.imp (h5 _ hsl.1) (h6 _ hsl.2)⟩
  by_cases hq : q = r
  · subst hq; exact key q' hne hs
  · by_cases hq' : q' = r
    · subst hq'; exact shares_symm (key q (Ne.symm hne) (shares_symm hs))
    · obtain ⟨enc, fs, g, enc', fs', g', h1, h2, h3⟩ := hs
      rw [hrec, put_other _ _ hq] at h1
      rw [hrec, put_other _ _ hq'] at h2
      exact ⟨_, _, _, _, _, _, h1, h2, h3⟩

theorem shares_same {m m' : Memory} (hrec : m'.records = m.records) {q q' : Nat} (hs : Spec.Shares m' q q') : Spec.Shares m q q' := by
  unfold Spec.Shares at hs
  rwa [hrec] at hs

theorem shares_newRecord {m : Memory} {v : Record} {q q' : Nat} (hs : Spec.Shares (m.newRecord v) q q') : Spec.Shares m q q' := by
  obtain ⟨enc, fs, g, enc', fs', g', h1, h2, h3⟩ := hs
  have key : ∀ q enc fs g, (m.newRecord v).records q = some (.base enc fs g) → (0 < g.j1.cap ∨ 0 < g.j2.cap) → m.records q = some (.base enc fs g) := by
    intro q enc fs g hq hc
    simp only [Memory.newRecord, put] at hq
    split at hq
    · cases v <;> simp only [Record.object, Option.some.injEq, RecordObject.base.injEq, reduceCtorEq] at hq
      obtain ⟨-, -, rfl⟩ := hq
      rcases hc with hc | hc <;> exact absurd hc (Nat.lt_irrefl 0)
    · exact hq
  exact ⟨_, _, _, _, _, _, key _ _ _ _ h1 (h3.imp (·.1) (·.1)), key _ _ _ _ h2 (h3.imp (·.2.1) (·.2.1)), h3⟩

theorem shares_call {grow : Nat → Nat} (hg : Spec.Grows grow) {m m' : Memory} (h : Sound m) {c : Call} (hn : Spec.NoSetType c) {e : Option Err}
    (hc : m.call grow c = some (m', e)) {q q' : Nat} (hne : q ≠ q') (hs : Spec.Shares m' q q') : Spec.Shares m q q' := by
  obtain ⟨f, hf⟩ := h.fileValue
  cases c with
  | newSegment k => simp only [Memory.call, Option.some.injEq, Prod.mk.injEq] at hc; rw [← hc.1] at hs; exact hs
  | newHeader enc => simp only [Memory.call, Option.some.injEq, Prod.mk.injEq] at hc; rw [← hc.1] at hs; exact shares_newRecord hs
  | newBase enc => simp only [Memory.call, Option.some.injEq, Prod.mk.injEq] at hc; rw [← hc.1] at hs; exact shares_newRecord hs
  | newTrailer enc => simp only [Memory.call, Option.some.injEq, Prod.mk.injEq] at hc; rw [← hc.1] at hs; exact shares_newRecord hs
  | changeSegment p fs =>
    simp only [Memory.call, Option.map_eq_some_iff, Prod.mk.injEq] at hc
    obtain ⟨m1, h1, rfl, -⟩ := hc
    obtain ⟨s, -, rfl⟩ := changeSegment_eq h1
    exact hs
  | changeRecord p fs =>
    simp only [Memory.call, Option.map_eq_some_iff, Prod.mk.injEq] at hc
    obtain ⟨m1, h1, rfl, -⟩ := hc
    obtain ⟨o, ho, rfl⟩ := changeRecord_eq h1
    refine shares_put h.toObjects rfl (fun enc fs' g' he => ?_) hne hs
    cases o <;> simp only [RecordObject.withFields, RecordObject.base.injEq, reduceCtorEq] at he
    obtain ⟨-, -, rfl⟩ := he
    exact ⟨_, _, _, ho, fun _ _ h => h, fun _ _ h => h⟩
  | addSegment r p =>
    obtain ⟨⟨o, ho⟩, s, hsg⟩ := addSegment_held hc
    simp only [Memory.call] at hc
    rw [addSegment_eq ho hsg] at hc
    cases o with
    | header enc fs => simp only [Option.some.injEq, Prod.mk.injEq] at hc; rw [← hc.1] at hs; exact hs
    | trailer enc fs => simp only [Option.some.injEq, Prod.mk.injEq] at hc; rw [← hc.1] at hs; exact hs
    | base enc fs g =>
      cases hv : s.validate with
      | some e => simp only [hv, Option.some.injEq, Prod.mk.injEq] at hc; rw [← hc.1] at hs; exact hs
      | none =>
        simp only [hv, Option.some.injEq, Prod.mk.injEq] at hc
        rw [← hc.1] at hs
        obtain ⟨g', h1, h2, h3⟩ := store_lists (grow := grow) m r p enc fs g s.kind
        refine shares_put h.toObjects h1 (fun enc' fs' g2 he => ?_) hne hs
        cases he
        exact ⟨_, _, _, ho, h2, h3⟩
  | setRecord r =>
    cases hv : m.record r with
    | none => simp [Memory.call, Memory.setRecord, hv] at hc
    | some v => exact shares_same (setRecord_facts h hc hv hf).2.2.2.1 hs
  | addDataRecord r =>
    cases hv : m.record r with
    | none => simp [Memory.call, Memory.addDataRecord, hv] at hc
    | some v => exact shares_same (addDataRecord_facts hg h hc hv hf).2.2.2.1 hs
  | setType name => exact absurd rfl (hn name)

/-- C107. Exactly when `AddApplicableSegment` changes another data record: the lists for this type of segment have the same array, there is room in it, and
the other list has another segment at the place after the end of the first. -/
theorem C107_others_iff (grow : Nat → Nat) (hg : Spec.Grows grow) (m : Memory) (h : Spec.Arises grow Spec.Any m) (r r' p : Nat) (hne : r' ≠ r)
    (enc enc' : Enc) (fs fs' : Fields) (g g' : SegsObject) (hr : m.records r = some (.base enc fs g))
    (hr' : m.records r' = some (.base enc' fs' g')) (s : Seg) (hs : m.segments p = some s) (m' : Memory)
    (hc : m.addSegment grow r p = some (m', none)) :
    m'.record r' ≠ m.record r' ↔
      ∃ t t', Spec.listOf g s.kind = some t ∧ Spec.listOf g' s.kind = some t' ∧ Spec.SameArray t t' ∧ t.len < t.cap ∧
        ∃ q, (t'.elements m.segArrays)[t.len]? = some q ∧ m.segments q ≠ some s := by
  have ho := (sound_arises hg h).toObjects
  rw [addSegment_eq hr hs] at hc
  obtain ⟨w, hw⟩ := ho.values _ _ hr'
  simp only [RecordObject.value, Option.map_eq_some_iff] at hw
  obtain ⟨v, hv, -⟩ := hw
  cases hval : s.validate with
  | some e => simp [hval] at hc
  | none =>
    simp only [hval, Option.some.injEq, Prod.mk.injEq, and_true] at hc
    rw [← hc]
    exact store_other ho hne hr hr' hs hv

/-- C107. A call of `AddApplicableSegment` changes no record that shares no array with the record it is made for. -/
theorem C107_others_partial (grow : Nat → Nat) (hg : Spec.Grows grow) (m : Memory) (h : Spec.Arises grow Spec.Any m) (r r' p : Nat) (hne : r' ≠ r)
    (hsh : ¬ Spec.Shares m r r') (m' : Memory) (e : Option Err) (hc : m.addSegment grow r p = some (m', e)) : m'.record r' = m.record r' := by
  obtain ⟨⟨o, hr⟩, s, hs⟩ := addSegment_held hc
  have hc' := hc
  rw [addSegment_eq hr hs] at hc
  cases o with
  | header enc fs => simp only [Option.some.injEq, Prod.mk.injEq] at hc; rw [← hc.1]
  | trailer enc fs => simp only [Option.some.injEq, Prod.mk.injEq] at hc; rw [← hc.1]
  | base enc fs g =>
    cases hval : s.validate with
    | some e => simp only [hval, Option.some.injEq, Prod.mk.injEq] at hc; rw [← hc.1]
    | none =>
      simp only [hval, Option.some.injEq, Prod.mk.injEq] at hc
      obtain ⟨hm, rfl⟩ := hc
      obtain ⟨-, -, -, -, ⟨g2, f5⟩, -⟩ := store_frame (grow := grow) m r p enc fs g s.kind
      have hq : m'.records r' = m.records r' := by rw [← hm, f5, put_other _ _ hne]
      cases hr' : m.records r' with
      | none => simp only [Memory.record, hq, hr', Option.bind_none]
      | some o' =>
        cases o' with
        | header enc' fs' => rw [record_of hr', record_of (hq.trans hr')]; rfl
        | trailer enc' fs' => rw [record_of hr', record_of (hq.trans hr')]; rfl
        | base enc' fs' g' =>
          refine Classical.byContradiction fun hx => hsh ?_
          obtain ⟨t, t', h1, h2, h3, -⟩ := (C107_others_iff grow hg m h r r' p hne enc enc' fs fs' g g' hr hr' s hs m' hc').1 hx
          refine ⟨_, _, _, _, _, _, hr, hr', ?_⟩
          obtain ⟨k, sfs⟩ := s
          cases k <;> simp only [Spec.listOf, Option.some.injEq, reduceCtorEq] at h1 h2
          · subst h1 h2; exact .inl h3
          · subst h1 h2; exact .inr h3

/-- C107. Two records share an array only after a call of `SetType`. -/
theorem C107_unshared_partial (grow : Nat → Nat) (hg : Spec.Grows grow) (m : Memory) (h : Spec.Arises grow Spec.NoSetType m) (r r' : Nat)
    (hne : r ≠ r') : ¬ Spec.Shares m r r' := by
  induction h with
  | new enc =>
    rintro ⟨e, fs, g, -, -, -, h1, -⟩
    simp only [Memory.new, put, newHeader, newTrailer, Record.object] at h1
    split at h1
    · cases h1
    · split at h1 <;> cases h1
  | call h hs hc ih => exact fun hx => ih (shares_call hg (sound_arises hg h) hs hc hne hx)

theorem arises_any {grow : Nat → Nat} {sort : Call → Prop} {m : Memory} (h : Spec.Arises grow sort m) : Spec.Arises grow Spec.Any m := by
  induction h with
  | new enc => exact .new enc
  | call _ _ hc ih => exact .call ih trivial hc

/-- C107. Without `SetType`, a call of `AddApplicableSegment` changes the record it is made for and no other. -/
theorem C107_values_partial (grow : Nat → Nat) (hg : Spec.Grows grow) (m : Memory) (h : Spec.Arises grow Spec.NoSetType m) (r r' p : Nat)
    (hne : r' ≠ r) (m' : Memory) (e : Option Err) (hc : m.addSegment grow r p = some (m', e)) : m'.record r' = m.record r' :=
  C107_others_partial grow hg m (arises_any h) r r' p hne (C107_unshared_partial grow hg m h r r' (Ne.symm hne)) m' e hc

/-- C107. The calls for the file return what they return for values, the file has the value that it has there, and no record changes. -/
theorem C107_file (grow : Nat → Nat) (hg : Spec.Grows grow) (m : Memory) (h : Spec.Arises grow Spec.Any m) (f : File) (hf : m.fileValue = some f) :
    (∀ r v, m.record r = some v → ∃ m', m.setRecord r = some (m', (f.setRecord v).2) ∧ m'.fileValue = some (f.setRecord v).1 ∧
      ∀ q, m'.record q = m.record q) ∧
    (∀ r v, m.record r = some v → ∃ m', m.addDataRecord grow r = some (m', (f.addDataRecord v).2) ∧ m'.fileValue = some (f.addDataRecord v).1 ∧
      ∀ q, m'.record q = m.record q) ∧
    (∀ name, ∃ m', m.setType grow name = (m', (f.setType name).2) ∧ m'.fileValue = some (f.setType name).1 ∧
      (∀ q v, m.record q = some v → m'.record q = some v) ∧
      ∀ q q' v v', m.record q = some v → m.record q' = some v' → (Spec.Shares m' q q' ↔ Spec.Shares m q q')) := by
  have hs := sound_arises hg h
  refine ⟨fun r v hr => ?_, fun r v hr => ?_, fun name => ?_⟩
  · have hx : ∃ x, m.setRecord r = some x := by
      unfold Memory.setRecord
      simp only [hr]
      split
      · exact ⟨_, rfl⟩
      · split
        · split <;> exact ⟨_, rfl⟩
        · split <;> exact ⟨_, rfl⟩
        · exact ⟨_, rfl⟩
    obtain ⟨⟨m', e⟩, hx⟩ := hx
    obtain ⟨-, h2, rfl, h4, h5, h6⟩ := setRecord_facts hs hx hr hf
    exact ⟨m', hx, h2, record_same h5 h6 h4⟩
  · have hx : ∃ x, m.addDataRecord grow r = some x := by
      unfold Memory.addDataRecord
      simp only [hr]
      split
      · exact ⟨_, rfl⟩
      · split
        · split <;> exact ⟨_, rfl⟩
        · exact ⟨_, rfl⟩
    obtain ⟨⟨m', e⟩, hx⟩ := hx
    obtain ⟨-, h2, rfl, h4, h5, h6⟩ := addDataRecord_facts hg hs hx hr hf
    exact ⟨m', hx, h2, record_same h5 h6 h4⟩
  · obtain ⟨-, h2, h3, h4⟩ := setType_facts hg hs name hf
    refine ⟨(m.setType grow name).1, by rw [← h3], h2, fun q v hq => h4.record hq, fun q q' v v' hq hq' => ?_⟩
    obtain ⟨o, ho, -⟩ := record_some hq
    obtain ⟨o', ho', -⟩ := record_some hq'
    unfold Spec.Shares
    rw [h4.records _ _ ho, h4.records _ _ ho', ho, ho']

/-- C107. A new file, a new record and a new segment have the values that they have as values; a new record or segment is at an address that held nothing,
and it changes nothing else. -/
theorem C107_new (grow : Nat → Nat) (hg : Spec.Grows grow) (m : Memory) (h : Spec.Arises grow Spec.Any m) (enc : Enc) :
    (Memory.new enc).fileValue = some (newFile enc) ∧
    (∀ c v, (c, v) ∈ [(Call.newHeader enc, Metro2.newHeader enc), (Call.newBase enc, Metro2.newBase enc), (Call.newTrailer enc, Metro2.newTrailer enc)] →
      ∃ m' a, m.call grow c = some (m', none) ∧ m.record a = none ∧ m'.record a = some v ∧ m'.file = m.file ∧ m'.segments = m.segments ∧
        ∀ q w, m.record q = some w → m'.record q = some w) ∧
    ∀ k, ∃ m' p, m.call grow (.newSegment k) = some (m', none) ∧ m.segments p = none ∧ m'.segments p = some (Seg.new k) ∧ m'.file = m.file ∧
      (∀ q, q ≠ p → m'.segments q = m.segments q) ∧ ∀ q, m'.records q = m.records q := by
  have ho := (sound_arises hg h).toObjects
  refine ⟨by cases enc <;> rfl, ?_, fun k => ?_⟩
  · have key : ∀ r : Record, r.object.value m = some r → ∃ a, m.record a = none ∧ (m.newRecord r).record a = some r ∧
        ∀ q w, m.record q = some w → (m.newRecord r).record q = some w := by
      intro r hv
      obtain ⟨-, h2, -, h4, -⟩ := newRecord_facts ho r
      refine ⟨m.next, ?_, h4.trans hv, fun q w hq => h2.record hq⟩
      cases hm : m.record m.next with
      | none => rfl
      | some v =>
        obtain ⟨o, hx, -⟩ := record_some hm
        exact absurd (ho.recs _ _ hx) (Nat.lt_irrefl _)
    intro c v hc
    simp only [List.mem_cons, Prod.mk.injEq, List.not_mem_nil, or_false] at hc
    have hx : m.call grow c = some (m.newRecord v, none) ∧ v.object.value m = some v := by
      rcases hc with ⟨rfl, rfl⟩ | ⟨rfl, rfl⟩ | ⟨rfl, rfl⟩ <;> exact ⟨rfl, rfl⟩
    obtain ⟨a, h1, h2, h3⟩ := key v hx.2
    exact ⟨_, a, hx.1, h1, h2, rfl, rfl, h3⟩
  · refine ⟨_, m.next, rfl, ?_, put_at _ _ _, rfl, fun q hq => put_other _ _ hq, fun q => rfl⟩
    cases hm : m.segments m.next with
    | none => rfl
    | some s => exact absurd (ho.segs _ _ hm) (Nat.lt_irrefl _)

/-- C107. Assigning to fields of a record changes that record only, and assigning to fields of a segment changes only the records that point to it. -/
theorem C107_change (m : Memory) (fs : Fields) :
    (∀ r v, m.record r = some v → ∃ m', m.changeRecord r fs = some m' ∧ m'.record r = some (Spec.withFields fs v) ∧ m'.file = m.file ∧
      ∀ q, q ≠ r → m'.record q = m.record q) ∧
    (∀ p s, m.segments p = some s → ∃ m', m.changeSegment p fs = some m' ∧ m'.segments p = some ⟨s.kind, fs⟩ ∧ m'.file = m.file ∧
      ∀ q, ¬ Spec.PointsTo m q p → m'.record q = m.record q) := by
  constructor
  · intro r v hr
    obtain ⟨o, ho, hv⟩ := record_some hr
    refine ⟨{ m with records := put m.records r (some (o.withFields fs)) }, by simp only [Memory.changeRecord, ho], ?_, rfl, fun q hq => ?_⟩
    · rw [record_of (o := o.withFields fs) (put_at _ _ _)]
      refine (value_same (m := m) rfl rfl _).trans ?_
      cases o with
      | header enc f => simp only [RecordObject.value, Option.some.injEq] at hv; subst hv; rfl
      | trailer enc f => simp only [RecordObject.value, Option.some.injEq] at hv; subst hv; rfl
      | base enc f g =>
        simp only [RecordObject.value, Option.map_eq_some_iff] at hv
        obtain ⟨w, hw, rfl⟩ := hv
        simp only [RecordObject.withFields, RecordObject.value, hw, Option.map_some, Spec.withFields]
    · simp only [Memory.record, put_other _ _ hq]
      exact congrArg _ (funext fun o => value_same rfl rfl o)
  · intro p s hs
    refine ⟨{ m with segments := put m.segments p (some ⟨s.kind, fs⟩) }, by simp only [Memory.changeSegment, hs], put_at _ _ _, rfl, fun q hq => ?_⟩
    simp only [Memory.record]
    cases hr : m.records q with
    | none => rfl
    | some o =>
      cases o with
      | header enc f => rfl
      | trailer enc f => rfl
      | base enc f g =>
        have key : ∀ x, x ≠ p → put m.segments p (some ⟨s.kind, fs⟩) x = m.segments x := fun x hx => put_other _ _ hx
        simp only [Option.bind_some, RecordObject.value]
        refine congrArg _ (segsValue_congr rfl (fun x hx => key x ?_) (fun x hx => key x ?_) fun o ho x hx => key x ?_)
        · rintro rfl; exact hq ⟨_, _, _, hr, .inl hx⟩
        · rintro rfl; exact hq ⟨_, _, _, hr, .inr (.inl hx)⟩
        · rintro rfl; exact hq ⟨_, _, _, hr, .inr (.inr (hx ▸ ho))⟩

theorem arises_calls {grow : Nat → Nat} {sort : Call → Prop} {m m' : Memory} (h : Spec.Arises grow sort m) {cs : List Call}
    (hc : Spec.calls grow m cs = some m') (hs : ∀ c ∈ cs, sort c) : Spec.Arises grow sort m' := by
  induction cs generalizing m with
  | nil => simp only [Spec.calls, Option.some.injEq] at hc; exact hc ▸ h
  | cons c cs ih =>
    simp only [Spec.calls] at hc
    split at hc
    · next m1 h1 => exact ih (.call h (hs c (by simp)) h1) hc fun c' hc' => hs c' (by simp [hc'])
    · cases hc

namespace Samples

/-- How the runtime of Go enlarges small slices, runtime/slice.go `growslice`: the capacity is doubled. -/
def doubling (n : Nat) : Nat := if n = 0 then 1 else 2 * n

theorem doubling_grows : Spec.Grows doubling := by
  intro n
  unfold doubling
  split <;> omega

/-- A new data record with three J1 segments, at address 2; the J1 segments `j1` and `j1'` are at the addresses 3 and 4. -/
def build : List Call :=
  [.newBase .character, .changeRecord 2 (base 0 426), .newSegment .j1, .changeSegment 3 j1.fields, .newSegment .j1, .changeSegment 4 j1'.fields,
   .addSegment 2 3, .addSegment 2 3, .addSegment 2 3]

/-- The J1 segments of a record in memory. -/
def j1s (m : Memory) (r : Nat) : Option (List Seg) :=
  match m.record r with
  | some (.base _ _ segs) => some segs.j1
  | _ => none

/-- The parts of a data record in memory. -/
def lists (m : Memory) (r : Nat) : Option (Enc × Fields × SegsObject) :=
  match m.records r with
  | some (.base enc fs g) => some (enc, fs, g)
  | _ => none

end Samples

/-- For `C107_add`, `C107_others_partial`, `C107_others_iff`, `C107_file`, `C107_new` and `C107_change`: the memory, the records and the segments of a run. -/
example : ∃ m g g' enc enc' fs fs' v f, Spec.Grows doubling ∧ Spec.Arises doubling Spec.Any m ∧ m.records 10 = some (.base enc fs g) ∧
    m.records 2 = some (.base enc' fs' g') ∧ m.record 10 = some v ∧ m.segments 4 = some j1' ∧ (v.addSegment j1').2 = none ∧
    Spec.SameArray g.j1 g'.j1 ∧ m.fileValue = some f ∧ f.bases = [v] ∧ f.format = .packed := by
  have h : ((Spec.calls doubling (.new .character) (build ++ [.addDataRecord 2, .setType Enc.packed.name, .addSegment 2 3])).bind fun m =>
      (m.record 10).bind fun v => m.fileValue.bind fun f => (Samples.lists m 10).bind fun a => (Samples.lists m 2).bind fun b =>
        some (decide (m.segments 4 = some j1' ∧ (v.addSegment j1').2 = none ∧ f.bases = [v] ∧ f.format = .packed ∧
          0 < a.2.2.j1.cap ∧ 0 < b.2.2.j1.cap ∧ a.2.2.j1.array = b.2.2.j1.array))) = some true := by decide +kernel
  obtain ⟨m, hm, h⟩ := Option.bind_eq_some_iff.1 h
  obtain ⟨v, hv, h⟩ := Option.bind_eq_some_iff.1 h
  obtain ⟨f, hf, h⟩ := Option.bind_eq_some_iff.1 h
  obtain ⟨⟨enc, fs, g⟩, ha, h⟩ := Option.bind_eq_some_iff.1 h
  obtain ⟨⟨enc', fs', g'⟩, hb, h⟩ := Option.bind_eq_some_iff.1 h
  simp only [Option.some.injEq, decide_eq_true_eq] at h
  obtain ⟨h1, h2, h3, h4, h5⟩ := h
  have key : ∀ r x, Samples.lists m r = some x → m.records r = some (.base x.1 x.2.1 x.2.2) := by
    intro r x hx
    unfold Samples.lists at hx
    split at hx
    · next h => cases hx; exact h
    · cases hx
  exact ⟨m, g, g', enc, enc', fs, fs', v, f, doubling_grows, arises_calls (.new _) hm fun _ _ => trivial, key 10 _ ha, key 2 _ hb, hv, h1, h2, h5, hf,
    h3, h4⟩

/-- For `C107_unshared_partial` and `C107_values_partial`: without `SetType`, two records to which segments were added. -/
example : ∃ m m', Spec.Arises doubling Spec.NoSetType m ∧ m.addSegment doubling 8 4 = some (m', none) ∧
    Samples.j1s m 2 = some [j1, j1, j1] ∧ Samples.j1s m' 2 = some [j1, j1, j1] ∧ Samples.j1s m' 8 = some [j1'] := by
  have h : ((Spec.calls doubling (.new .character) (build ++ [.newBase .packed])).bind fun m =>
      (m.addSegment doubling 8 4).bind fun x =>
        some (decide (x.2 = none ∧ Samples.j1s m 2 = some [j1, j1, j1] ∧ Samples.j1s x.1 2 = some [j1, j1, j1] ∧
          Samples.j1s x.1 8 = some [j1']))) = some true := by decide +kernel
  obtain ⟨m, hm, h⟩ := Option.bind_eq_some_iff.1 h
  obtain ⟨⟨m', e⟩, hm', h⟩ := Option.bind_eq_some_iff.1 h
  simp only [Option.some.injEq, decide_eq_true_eq] at h
  obtain ⟨rfl, h2, h3, h4⟩ := h
  refine ⟨m, m', arises_calls (.new _) hm ?_, hm', h2, h3, h4⟩
  intro c hc name he
  subst he
  simp [build] at hc

/-- C107. After `SetType` the old record and the one of the file share an array: a segment that is added to the record of the file is seen in the old
record, in the place of one added there. No call returns an error. -/
theorem C107_violated : ∃ m m' v w, Spec.Arises doubling Spec.Any m ∧ m.record 2 = some v ∧ m.addSegment doubling 10 4 = some (m', none) ∧
    m'.record 2 = some w ∧ w ≠ v ∧ Samples.j1s m 2 = some [j1, j1, j1, j1] ∧ Samples.j1s m' 2 = some [j1, j1, j1, j1'] ∧
    10 ∈ m.file.bases.elements m.recArrays := by
  have h : ((Spec.calls doubling (.new .character) (build ++ [.addDataRecord 2, .setType Enc.packed.name, .addSegment 2 3])).bind fun m =>
      (m.addSegment doubling 10 4).bind fun x => (m.record 2).bind fun v => (x.1.record 2).bind fun w =>
        some (decide (x.2 = none ∧ w ≠ v ∧ Samples.j1s m 2 = some [j1, j1, j1, j1] ∧ Samples.j1s x.1 2 = some [j1, j1, j1, j1'] ∧
          10 ∈ m.file.bases.elements m.recArrays))) = some true := by decide +kernel
  obtain ⟨m, hm, h⟩ := Option.bind_eq_some_iff.1 h
  obtain ⟨⟨m', e⟩, hm', h⟩ := Option.bind_eq_some_iff.1 h
  obtain ⟨v, hv, h⟩ := Option.bind_eq_some_iff.1 h
  obtain ⟨w, hw, h⟩ := Option.bind_eq_some_iff.1 h
  simp only [Option.some.injEq, decide_eq_true_eq] at h
  obtain ⟨rfl, h2, h3, h4, h5⟩ := h
  exact ⟨m, m', v, w, arises_calls (.new _) hm fun _ _ => trivial, hv, hm', hw, h2, h3, h4, h5⟩

/-- C107. A record that was added twice is two records of the file after `SetType`; they share an array, and a segment added to the one replaces the segment
added to the other. -/
theorem C107_twice_violated : ∃ m m', Spec.Arises doubling Spec.Any m ∧ m.addSegment doubling 13 4 = some (m', none) ∧
    Samples.j1s m 11 = some [j1, j1, j1, j1] ∧ Samples.j1s m' 11 = some [j1, j1, j1, j1'] ∧ m.file.bases.elements m.recArrays = [11, 13] := by
  have h : ((Spec.calls doubling (.new .character)
      (build ++ [.addDataRecord 2, .addDataRecord 2, .setType Enc.packed.name, .addSegment 11 3])).bind fun m =>
      (m.addSegment doubling 13 4).bind fun x =>
        some (decide (x.2 = none ∧ Samples.j1s m 11 = some [j1, j1, j1, j1] ∧ Samples.j1s x.1 11 = some [j1, j1, j1, j1'] ∧
          m.file.bases.elements m.recArrays = [11, 13]))) = some true := by decide +kernel
  obtain ⟨m, hm, h⟩ := Option.bind_eq_some_iff.1 h
  obtain ⟨⟨m', e⟩, hm', h⟩ := Option.bind_eq_some_iff.1 h
  simp only [Option.some.injEq, decide_eq_true_eq] at h
  obtain ⟨rfl, h2, h3, h4⟩ := h
  exact ⟨m, m', arises_calls (.new _) hm fun _ _ => trivial, hm', h2, h3, h4⟩

/-- C107. `AddDataRecord` takes valid records only, but it keeps the pointer: the file holds a record that is not valid after the caller changed it, and no
call returned an error. -/
theorem C107_checked_violated : ∃ m f b, Spec.Arises doubling Spec.NoSetType m ∧ m.fileValue = some f ∧ b ∈ f.bases ∧ b.validate ≠ none := by
  have h : ((Spec.calls doubling (.new .character) (build ++ [.addDataRecord 2, .changeRecord 2 (base 0 426 [(.AccountType, .str (b! "ZZ"))])])).bind fun m =>
      m.fileValue.bind fun f => some (decide (∃ b ∈ f.bases, b.validate ≠ none))) = some true := by decide +kernel
  obtain ⟨m, hm, h⟩ := Option.bind_eq_some_iff.1 h
  obtain ⟨f, hf, h⟩ := Option.bind_eq_some_iff.1 h
  simp only [Option.some.injEq, decide_eq_true_eq] at h
  obtain ⟨b, hb, hx⟩ := h
  refine ⟨m, f, b, arises_calls (.new _) hm ?_, hf, hb, hx⟩
  intro c hc name he
  subst he
  simp [build] at hc

end Metro2
