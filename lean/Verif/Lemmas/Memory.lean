import Verif.Spec.Memory

/-! Lemmas about records in memory. -/

namespace Metro2

/-! ### Maps and lists of pointers -/

theorem put_at {α : Type} (f : Nat → α) (a : Nat) (x : α) : put f a x a = x := if_pos rfl

theorem put_other {α : Type} (f : Nat → α) {a b : Nat} (x : α) (h : b ≠ a) : put f a x b = f b := if_neg h

theorem mapM_mono {α : Type} {f f' : Nat → Option α} (h : ∀ p s, f p = some s → f' p = some s) {l : List Nat} {v : List α}
    (hl : l.mapM f = some v) : l.mapM f' = some v := by
  induction l generalizing v with
  | nil => simpa using hl
  | cons a l ih =>
    rw [List.mapM_cons] at hl ⊢
    cases ha : f a with
    | none => simp [ha] at hl
    | some s =>
      cases hl' : l.mapM f with
      | none => simp [ha, hl'] at hl
      | some w =>
        simp only [ha, hl', Option.bind_eq_bind, Option.bind_some, Option.pure_def] at hl
        simp only [h a s ha, ih hl', Option.bind_eq_bind, Option.bind_some, Option.pure_def, hl]

theorem mapM_some_iff {α : Type} {f : Nat → Option α} {l : List Nat} : (∃ v, l.mapM f = some v) ↔ ∀ p ∈ l, ∃ s, f p = some s := by
  induction l with
  | nil => simp
  | cons a l ih =>
    rw [List.mapM_cons, List.forall_mem_cons, ← ih]
    cases f a with
    | none => simp
    | some s => cases l.mapM f <;> simp

theorem mapM_congr_mem {α : Type} {f f' : Nat → Option α} {l : List Nat} (h : ∀ p ∈ l, f p = f' p) : l.mapM f = l.mapM f' := by
  induction l with
  | nil => rfl
  | cons a l ih =>
    rw [List.mapM_cons, List.mapM_cons, h a (List.mem_cons_self ..), ih fun p hp => h p (List.mem_cons_of_mem _ hp)]

/-! ### Slices -/

/-- The slice is one of the memory with these arrays and this next free address. -/
structure SliceOk (arrays : Nat → List Nat) (next : Nat) (s : Slice) : Prop where
  fits : s.len ≤ s.cap
  held : s.cap = 0 ∨ s.array < next ∧ (arrays s.array).length = s.cap

theorem SliceOk.nil (arrays : Nat → List Nat) (next : Nat) : SliceOk arrays next {} := ⟨Nat.le_refl 0, .inl rfl⟩

theorem SliceOk.mono {arrays : Nat → List Nat} {next next' : Nat} {s : Slice} (h : SliceOk arrays next s) (hn : next ≤ next') :
    SliceOk arrays next' s :=
  ⟨h.fits, h.held.imp_right fun ⟨a, b⟩ => ⟨Nat.lt_of_lt_of_le a hn, b⟩⟩

theorem elements_nil {arrays : Nat → List Nat} {s : Slice} (h : s.len = 0) : s.elements arrays = [] := by
  unfold Slice.elements; rw [h]; rfl

theorem SliceOk.elements_length {arrays : Nat → List Nat} {next : Nat} {s : Slice} (h : SliceOk arrays next s) :
    (s.elements arrays).length = s.len := by
  rcases h.held with h0 | ⟨-, h1⟩
  · have : s.len = 0 := Nat.le_zero.1 (h0 ▸ h.fits)
    rw [elements_nil this, this]; rfl
  · unfold Slice.elements
    rw [List.length_take, h1, Nat.min_eq_left h.fits]

theorem append_own {grow : Nat → Nat} {arrays : Nat → List Nat} {next : Nat} {s : Slice} (h : SliceOk arrays next s) (x : Nat) :
    (appendTo grow arrays next s x).2.1.elements (appendTo grow arrays next s x).1 = s.elements arrays ++ [x] := by
  unfold appendTo
  split
  · next hl =>
    have hlen : (arrays s.array).length = s.cap := by
      rcases h.held with h0 | ⟨-, h1⟩
      · omega
      · exact h1
    simp only [Slice.elements, put_at]
    rw [List.take_add_one, List.getElem?_set_self (by omega), List.take_set_of_le (Nat.le_refl _)]
    rfl
  · have hlen := h.elements_length
    simp only [Slice.elements, put_at] at hlen ⊢
    rw [List.take_append, List.take_of_length_le (by omega), hlen]
    simp

theorem append_next {grow : Nat → Nat} {arrays : Nat → List Nat} {next : Nat} {s : Slice} {x : Nat} :
    next ≤ (appendTo grow arrays next s x).2.2 := by
  unfold appendTo
  split
  · exact Nat.le_refl _
  · exact Nat.le_succ _

theorem append_length {grow : Nat → Nat} {arrays : Nat → List Nat} {next : Nat} {s : Slice} {x : Nat} {a : Nat} (ha : a < next) :
    ((appendTo grow arrays next s x).1 a).length = (arrays a).length := by
  unfold appendTo
  split
  · by_cases h : a = s.array
    · subst h; simp only [put_at, List.length_set]
    · simp only [put_other _ _ h]
  · simp only [put_other _ _ (Nat.ne_of_lt ha)]

theorem append_ok {grow : Nat → Nat} (hg : Spec.Grows grow) {arrays : Nat → List Nat} {next : Nat} {s : Slice} (h : SliceOk arrays next s) (x : Nat) :
    SliceOk (appendTo grow arrays next s x).1 (appendTo grow arrays next s x).2.2 (appendTo grow arrays next s x).2.1 := by
  unfold appendTo
  split
  · next hl =>
    rcases h.held with h0 | ⟨h1, h2⟩
    · omega
    · refine ⟨hl, .inr ⟨h1, ?_⟩⟩
      simp only [put_at, List.length_set, h2]
  · have := hg s.len
    refine ⟨this, .inr ⟨Nat.lt_succ_self _, ?_⟩⟩
    have hlen := h.elements_length
    simp only [put_at, List.length_append, List.length_cons, List.length_replicate, hlen]
    omega

/-- Slices stay slices when something is appended to another one. -/
theorem append_keeps {grow : Nat → Nat} {arrays : Nat → List Nat} {next : Nat} {s t : Slice} (ht : SliceOk arrays next t) (x : Nat) :
    SliceOk (appendTo grow arrays next s x).1 (appendTo grow arrays next s x).2.2 t :=
  ⟨ht.fits, ht.held.imp_right fun ⟨h1, h2⟩ => ⟨Nat.lt_of_lt_of_le h1 append_next, (append_length h1).trans h2⟩⟩

/-- The array that an `append` writes to, at which place. -/
theorem append_elements {grow : Nat → Nat} {arrays : Nat → List Nat} {next : Nat} {s t : Slice} (ht : SliceOk arrays next t) (x : Nat) :
    t.elements (appendTo grow arrays next s x).1 =
      if s.len < s.cap ∧ 0 < t.cap ∧ s.array = t.array then (t.elements arrays).set s.len x else t.elements arrays := by
  rcases ht.held with h0 | ⟨h1, h2⟩
  · have : t.len = 0 := Nat.le_zero.1 (h0 ▸ ht.fits)
    rw [elements_nil this, elements_nil this, if_neg (by omega)]
  · unfold appendTo
    split
    · next hl =>
      by_cases ha : s.array = t.array
      · by_cases hc : 0 < t.cap
        · rw [if_pos ⟨hl, hc, ha⟩]
          simp only [Slice.elements, ha, put_at, List.take_set]
        · have : t.len = 0 := by have := ht.fits; omega
          rw [elements_nil this, elements_nil this, if_neg fun h => hc h.2.1]
      · rw [if_neg fun h => ha h.2.2]
        simp only [Slice.elements, put_other _ _ (Ne.symm ha)]
    · next hl =>
      rw [if_neg fun h => hl h.1]
      simp only [Slice.elements, put_other _ _ (Nat.ne_of_lt h1)]

theorem append_apart {grow : Nat → Nat} {arrays : Nat → List Nat} {next : Nat} {s t : Slice} (ht : SliceOk arrays next t) (x : Nat)
    (h : ¬ Spec.SameArray s t) : t.elements (appendTo grow arrays next s x).1 = t.elements arrays := by
  rw [append_elements ht]
  refine if_neg ?_
  rintro ⟨a, b, c⟩
  exact h ⟨by omega, b, c⟩

/-- The new slice has the array of the old one or one that is in no other slice. -/
theorem append_array {grow : Nat → Nat} {arrays : Nat → List Nat} {next : Nat} {s t : Slice} (ht : SliceOk arrays next t) (x : Nat)
    (h : Spec.SameArray (appendTo grow arrays next s x).2.1 t) : Spec.SameArray s t := by
  unfold appendTo at h
  split at h
  · exact h
  · obtain ⟨-, h2, h3⟩ := h
    rcases ht.held with h0 | ⟨h1, -⟩
    · omega
    · simp only at h3; omega

/-! ### Values -/

theorem pointee_mono {f f' : Nat → Option Seg} (h : ∀ p s, f p = some s → f' p = some s) {o : Option Nat} {v : Option Seg}
    (ho : pointee f o = some v) : pointee f' o = some v := by
  cases o with
  | none => exact ho
  | some p =>
    simp only [pointee, Option.map_eq_some_iff] at ho ⊢
    obtain ⟨s, hs, rfl⟩ := ho
    exact ⟨s, h p s hs, rfl⟩

theorem segsValue_iff {m : Memory} {g : SegsObject} {v : Segs} : g.value m = some v ↔
    (g.j1.elements m.segArrays).mapM m.segments = some v.j1 ∧ (g.j2.elements m.segArrays).mapM m.segments = some v.j2 ∧
    pointee m.segments g.k1 = some v.k1 ∧ pointee m.segments g.k2 = some v.k2 ∧ pointee m.segments g.k3 = some v.k3 ∧
    pointee m.segments g.k4 = some v.k4 ∧ pointee m.segments g.l1 = some v.l1 ∧ pointee m.segments g.n1 = some v.n1 := by
  obtain ⟨v1, v2, v3, v4, v5, v6, v7, v8⟩ := v
  unfold SegsObject.value
  simp only [Option.bind_eq_bind, Option.bind_eq_some_iff, Option.pure_def, Option.some.injEq, Segs.mk.injEq]
  constructor
  · rintro ⟨a, ha, b, hb, c, hc, d, hd, e, he, f, hf, i, hi, j, hj, rfl, rfl, rfl, rfl, rfl, rfl, rfl, rfl⟩
    exact ⟨ha, hb, hc, hd, he, hf, hi, hj⟩
  · rintro ⟨ha, hb, hc, hd, he, hf, hi, hj⟩
    exact ⟨_, ha, _, hb, _, hc, _, hd, _, he, _, hf, _, hi, _, hj, rfl, rfl, rfl, rfl, rfl, rfl, rfl, rfl⟩

theorem segsValue_mono {m m' : Memory} {g : SegsObject} {v : Segs} (hs : ∀ p s, m.segments p = some s → m'.segments p = some s)
    (h1 : g.j1.elements m'.segArrays = g.j1.elements m.segArrays) (h2 : g.j2.elements m'.segArrays = g.j2.elements m.segArrays)
    (h : g.value m = some v) : g.value m' = some v := by
  rw [segsValue_iff] at h ⊢
  obtain ⟨a, b, c, d, e, f, i, j⟩ := h
  rw [h1, h2]
  exact ⟨mapM_mono hs a, mapM_mono hs b, pointee_mono hs c, pointee_mono hs d, pointee_mono hs e, pointee_mono hs f, pointee_mono hs i,
    pointee_mono hs j⟩

theorem record_of {m : Memory} {r : Nat} {o : RecordObject} (h : m.records r = some o) : m.record r = o.value m := by
  unfold Memory.record; rw [h]; rfl

theorem record_some {m : Memory} {r : Nat} {v : Record} (h : m.record r = some v) : ∃ o, m.records r = some o ∧ o.value m = some v := by
  unfold Memory.record at h
  cases ho : m.records r with
  | none => simp [ho] at h
  | some o => exact ⟨o, rfl, by simpa [ho] using h⟩

/-- Every record of `m` is in `m'`, with the same value. -/
structure Extends (m m' : Memory) : Prop where
  segments : ∀ p s, m.segments p = some s → m'.segments p = some s
  records : ∀ r o, m.records r = some o → m'.records r = some o
  elements : ∀ r enc fs g, m.records r = some (.base enc fs g) → g.j1.elements m'.segArrays = g.j1.elements m.segArrays ∧
    g.j2.elements m'.segArrays = g.j2.elements m.segArrays

theorem Extends.refl (m : Memory) : Extends m m := ⟨fun _ _ h => h, fun _ _ h => h, fun _ _ _ _ _ => ⟨rfl, rfl⟩⟩

theorem Extends.trans {m m' m'' : Memory} (h : Extends m m') (h' : Extends m' m'') : Extends m m'' :=
  ⟨fun p s hp => h'.segments p s (h.segments p s hp), fun r o hr => h'.records r o (h.records r o hr), fun r enc fs g hr =>
    have a := h.elements r enc fs g hr
    have b := h'.elements r enc fs g (h.records _ _ hr)
    ⟨b.1.trans a.1, b.2.trans a.2⟩⟩

theorem Extends.record {m m' : Memory} (h : Extends m m') {r : Nat} {v : Record} (hr : m.record r = some v) : m'.record r = some v := by
  obtain ⟨o, ho, hv⟩ := record_some hr
  rw [record_of (h.records r o ho)]
  cases o with
  | header enc fs => exact hv
  | trailer enc fs => exact hv
  | base enc fs g =>
    simp only [RecordObject.value, Option.map_eq_some_iff] at hv ⊢
    obtain ⟨w, hw, rfl⟩ := hv
    exact ⟨w, segsValue_mono h.segments (h.elements r enc fs g ho).1 (h.elements r enc fs g ho).2 hw, rfl⟩

/-! ### What holds of every memory -/

/-- The objects of the memory, without the file. -/
structure Objects (m : Memory) : Prop where
  segs : ∀ p s, m.segments p = some s → p < m.next
  recs : ∀ r o, m.records r = some o → r < m.next
  slices : ∀ r enc fs g, m.records r = some (.base enc fs g) → SliceOk m.segArrays m.next g.j1 ∧ SliceOk m.segArrays m.next g.j2
  values : ∀ r o, m.records r = some o → ∃ v, o.value m = some v
  kinds : ∀ r enc fs g r' enc' fs' g', m.records r = some (.base enc fs g) → m.records r' = some (.base enc' fs' g') →
    ¬ Spec.SameArray g.j1 g'.j2

/-- The objects of the memory and the file. -/
structure Sound (m : Memory) : Prop extends Objects m where
  bases : SliceOk m.recArrays m.next m.file.bases
  header : ∃ o, m.records m.file.header = some o
  data : ∀ r ∈ m.file.bases.elements m.recArrays, ∃ o, m.records r = some o
  trailer : ∃ o, m.records m.file.trailer = some o

theorem Objects.record {m : Memory} (h : Objects m) {r : Nat} {o : RecordObject} (hr : m.records r = some o) : ∃ v, m.record r = some v := by
  rw [record_of hr]; exact h.values r o hr

theorem sound_new (enc : Enc) : Sound (.new enc) := by
  have hrec : ∀ r o, (Memory.new enc).records r = some o → r < 2 ∧ (o = (newHeader enc).object ∨ o = (newTrailer enc).object) := by
    intro r o h
    simp only [Memory.new, put] at h
    split at h
    · cases h; exact ⟨by omega, .inr rfl⟩
    · split at h
      · cases h; exact ⟨by omega, .inl rfl⟩
      · cases h
  have hbase : ∀ r e fs g, (Memory.new enc).records r = some (.base e fs g) → False := by
    intro r e fs g h
    rcases (hrec r _ h).2 with h | h <;> cases h
  refine ⟨⟨?_, fun r o h => (hrec r o h).1, fun r e fs g h => (hbase r e fs g h).elim, ?_, fun r e fs g _ _ _ _ h => (hbase r e fs g h).elim⟩,
    SliceOk.nil _ _, ⟨_, rfl⟩, ?_, ⟨_, rfl⟩⟩
  · intro p s h; cases h
  · intro r o h
    rcases (hrec r o h).2 with h | h <;> subst h <;> exact ⟨_, rfl⟩
  · intro r hr; simp [Memory.new, Slice.elements] at hr

/-- A new record. Its slices are copies of slices that are there, or nil. -/
theorem objects_alloc {m m' : Memory} (h : Objects m) (o : RecordObject) (hs : m'.segments = m.segments) (ha : m'.segArrays = m.segArrays)
    (hr : m'.records = put m.records m.next (some o)) (hn : m.next < m'.next)
    (ho : ∀ enc fs g, o = .base enc fs g → g = {} ∨ ∃ r enc' fs', m.records r = some (.base enc' fs' g)) :
    Objects m' ∧ Extends m m' ∧ m'.records m.next = some o ∧ m'.record m.next = o.value m ∧ (∃ v, o.value m = some v) := by
  have hold : ∀ r o', m.records r = some o' → m'.records r = some o' := by
    intro r o' hr'
    rw [hr, put_other _ _ (Nat.ne_of_lt (h.recs r o' hr'))]; exact hr'
  have hnew : m'.records m.next = some o := by rw [hr, put_at]
  have hcases : ∀ r o', m'.records r = some o' → (r = m.next ∧ o' = o) ∨ m.records r = some o' := by
    intro r o' hr'
    rw [hr] at hr'
    by_cases he : r = m.next
    · subst he; rw [put_at] at hr'; cases hr'; exact .inl ⟨rfl, rfl⟩
    · rw [put_other _ _ he] at hr'; exact .inr hr'
  have hext : Extends m m' := ⟨fun p s hp => hs ▸ hp, hold, fun _ _ _ _ _ => by rw [ha]; exact ⟨rfl, rfl⟩⟩
  have hval : ∀ o', RecordObject.value m' o' = RecordObject.value m o' := by
    intro o'
    cases o' with
    | header enc fs => rfl
    | trailer enc fs => rfl
    | base enc fs g => simp only [RecordObject.value, SegsObject.value, hs, ha]
  have hg : ∀ r enc fs g, m'.records r = some (.base enc fs g) → g = {} ∨ ∃ r enc' fs', m.records r = some (.base enc' fs' g) := by
    intro r enc fs g hr'
    rcases hcases _ _ hr' with ⟨-, h'⟩ | h'
    · exact ho enc fs g h'.symm
    · exact .inr ⟨r, enc, fs, h'⟩
  have hv : ∃ v, o.value m = some v := by
    cases o with
    | header enc fs => exact ⟨_, rfl⟩
    | trailer enc fs => exact ⟨_, rfl⟩
    | base enc fs g =>
      rcases ho enc fs g rfl with rfl | ⟨r, enc', fs', hr'⟩
      · exact ⟨.base enc fs {}, rfl⟩
      · obtain ⟨v, hv⟩ := h.values r _ hr'
        simp only [RecordObject.value, Option.map_eq_some_iff] at hv ⊢
        obtain ⟨w, hw, -⟩ := hv
        exact ⟨_, w, hw, rfl⟩
  refine ⟨⟨?_, ?_, ?_, ?_, ?_⟩, hext, hnew, ?_, hv⟩
  · intro p s hp; rw [hs] at hp; exact Nat.lt_trans (h.segs p s hp) hn
  · intro r o' hr'
    rcases hcases _ _ hr' with ⟨rfl, -⟩ | h'
    · exact hn
    · exact Nat.lt_trans (h.recs r o' h') hn
  · intro r enc fs g hr'
    rw [ha]
    rcases hg r enc fs g hr' with rfl | ⟨r, enc', fs', hr'⟩
    · exact ⟨SliceOk.nil _ _, SliceOk.nil _ _⟩
    · have := h.slices r enc' fs' g hr'
      exact ⟨this.1.mono (Nat.le_of_lt hn), this.2.mono (Nat.le_of_lt hn)⟩
  · intro r o' hr'
    rw [hval]
    rcases hcases _ _ hr' with ⟨-, rfl⟩ | h'
    · exact hv
    · exact h.values r o' h'
  · intro r enc fs g r' enc' fs' g' h1 h2
    rcases hg r enc fs g h1 with rfl | ⟨r1, e1, f1, h1'⟩
    · exact fun hc => Nat.lt_irrefl 0 hc.1
    · rcases hg r' enc' fs' g' h2 with rfl | ⟨r2, e2, f2, h2'⟩
      · exact fun hc => Nat.lt_irrefl 0 hc.2.1
      · exact h.kinds r1 e1 f1 g r2 e2 f2 g' h1' h2'
  · rw [record_of hnew, hval]

theorem fileValue_iff {m : Memory} {v : File} : m.fileValue = some v ↔ m.record m.file.header = some v.header ∧
    (m.file.bases.elements m.recArrays).mapM m.record = some v.bases ∧ m.record m.file.trailer = some v.trailer ∧ m.file.format = v.format := by
  obtain ⟨f, h, bs, t⟩ := v
  unfold Memory.fileValue
  simp only [Option.bind_eq_bind, Option.bind_eq_some_iff, Option.pure_def, Option.some.injEq, File.mk.injEq]
  constructor
  · rintro ⟨a, ha, b, hb, c, hc, rfl, rfl, rfl, rfl⟩
    exact ⟨ha, hb, hc, rfl⟩
  · rintro ⟨ha, hb, hc, rfl⟩
    exact ⟨_, ha, _, hb, _, hc, rfl, rfl, rfl, rfl⟩

theorem Sound.fileValue {m : Memory} (h : Sound m) : ∃ v, m.fileValue = some v := by
  obtain ⟨o, ho⟩ := h.header
  obtain ⟨o', ho'⟩ := h.trailer
  obtain ⟨v, hv⟩ := h.record ho
  obtain ⟨v', hv'⟩ := h.record ho'
  obtain ⟨bs, hbs⟩ := mapM_some_iff.2 fun r hr => (h.data r hr).elim fun _ hr' => h.record hr'
  exact ⟨⟨m.file.format, v, bs, v'⟩, fileValue_iff.2 ⟨hv, hbs, hv', rfl⟩⟩

theorem Sound.extend {m m' : Memory} (h : Sound m) (ho : Objects m') (hx : Extends m m') (hn : m.next ≤ m'.next) (ha : m'.recArrays = m.recArrays)
    (hf : m'.file = m.file) : Sound m' := by
  refine ⟨ho, ?_, ?_, ?_, ?_⟩
  · rw [ha, hf]; exact h.bases.mono hn
  · rw [hf]; exact h.header.imp fun o => hx.records _ o
  · rw [hf, ha]; exact fun r hr => (h.data r hr).imp fun o => hx.records _ o
  · rw [hf]; exact h.trailer.imp fun o => hx.records _ o

/-! ### New objects and assignments -/

theorem newSegment_extends {m : Memory} (h : Objects m) (k : SegKind) : Extends m (m.newSegment k) := by
  refine ⟨fun p s hp => ?_, fun _ _ hr => hr, fun _ _ _ _ _ => ⟨rfl, rfl⟩⟩
  simp only [Memory.newSegment]
  rw [put_other _ _ (Nat.ne_of_lt (h.segs p s hp))]; exact hp

theorem sound_newSegment {m : Memory} (h : Sound m) (k : SegKind) : Sound (m.newSegment k) := by
  have hx := newSegment_extends h.toObjects k
  refine h.extend ⟨?_, fun r o hr => Nat.lt_succ_of_lt (h.recs r o hr), fun r enc fs g hr => ?_, fun r o hr => ?_, h.kinds⟩ hx (Nat.le_succ _) rfl rfl
  · intro p s hp
    simp only [Memory.newSegment] at hp ⊢
    by_cases he : p = m.next
    · omega
    · rw [put_other _ _ he] at hp; exact Nat.lt_succ_of_lt (h.segs p s hp)
  · exact ⟨(h.slices r enc fs g hr).1.mono (Nat.le_succ _), (h.slices r enc fs g hr).2.mono (Nat.le_succ _)⟩
  · obtain ⟨v, hv⟩ := h.record hr
    exact ⟨v, (record_of (hx.records _ _ hr)).symm.trans (hx.record hv)⟩

theorem newRecord_facts {m : Memory} (h : Objects m) (r : Record) :
    Objects (m.newRecord r) ∧ Extends m (m.newRecord r) ∧ (m.newRecord r).records m.next = some r.object ∧
      (m.newRecord r).record m.next = r.object.value m ∧ ∃ v, r.object.value m = some v :=
  objects_alloc h r.object rfl rfl rfl (Nat.lt_succ_self _) fun enc fs g hg => by
    cases r <;> cases hg; exact .inl rfl

theorem sound_newRecord {m : Memory} (h : Sound m) (r : Record) : Sound (m.newRecord r) :=
  h.extend (newRecord_facts h.toObjects r).1 (newRecord_facts h.toObjects r).2.1 (Nat.le_succ _) rfl rfl

theorem pointee_some {f : Nat → Option Seg} {o : Option Nat} : (∃ v, pointee f o = some v) ↔ ∀ p, o = some p → ∃ s, f p = some s := by
  cases o with
  | none => simp [pointee]
  | some p =>
    constructor
    · rintro ⟨v, hv⟩ q hq
      cases hq
      simp only [pointee, Option.map_eq_some_iff] at hv
      exact hv.imp fun s hs => hs.1
    · intro h
      obtain ⟨s, hs⟩ := h p rfl
      exact ⟨some s, by simp only [pointee, hs, Option.map_some]⟩

/-- A data record has a value exactly if all its pointers point to something. -/
theorem segsValue_some {m : Memory} {g : SegsObject} : (∃ v, g.value m = some v) ↔
    (∀ p ∈ g.j1.elements m.segArrays, ∃ s, m.segments p = some s) ∧ (∀ p ∈ g.j2.elements m.segArrays, ∃ s, m.segments p = some s) ∧
    ∀ o ∈ [g.k1, g.k2, g.k3, g.k4, g.l1, g.n1], ∀ p, o = some p → ∃ s, m.segments p = some s := by
  constructor
  · rintro ⟨v, hv⟩
    rw [segsValue_iff] at hv
    obtain ⟨a, b, c, d, e, f, i, j⟩ := hv
    refine ⟨mapM_some_iff.1 ⟨_, a⟩, mapM_some_iff.1 ⟨_, b⟩, ?_⟩
    simp only [List.mem_cons, List.not_mem_nil, or_false]
    rintro o (rfl | rfl | rfl | rfl | rfl | rfl)
    · exact pointee_some.1 ⟨_, c⟩
    · exact pointee_some.1 ⟨_, d⟩
    · exact pointee_some.1 ⟨_, e⟩
    · exact pointee_some.1 ⟨_, f⟩
    · exact pointee_some.1 ⟨_, i⟩
    · exact pointee_some.1 ⟨_, j⟩
  · rintro ⟨a, b, c⟩
    simp only [List.mem_cons, List.not_mem_nil, or_false] at c
    obtain ⟨v1, h1⟩ := mapM_some_iff.2 a
    obtain ⟨v2, h2⟩ := mapM_some_iff.2 b
    obtain ⟨v3, h3⟩ := pointee_some.2 (c g.k1 (by simp))
    obtain ⟨v4, h4⟩ := pointee_some.2 (c g.k2 (by simp))
    obtain ⟨v5, h5⟩ := pointee_some.2 (c g.k3 (by simp))
    obtain ⟨v6, h6⟩ := pointee_some.2 (c g.k4 (by simp))
    obtain ⟨v7, h7⟩ := pointee_some.2 (c g.l1 (by simp))
    obtain ⟨v8, h8⟩ := pointee_some.2 (c g.n1 (by simp))
    exact ⟨⟨v1, v2, v3, v4, v5, v6, v7, v8⟩, segsValue_iff.2 ⟨h1, h2, h3, h4, h5, h6, h7, h8⟩⟩

theorem pointee_congr {f f' : Nat → Option Seg} {o : Option Nat} (h : ∀ p, o = some p → f p = f' p) : pointee f o = pointee f' o := by
  cases o with
  | none => rfl
  | some p => simp only [pointee, h p rfl]

/-- The value of a data record depends on the segments that it points to. -/
theorem segsValue_congr {m m' : Memory} {g : SegsObject} (ha : m'.segArrays = m.segArrays)
    (h1 : ∀ p ∈ g.j1.elements m.segArrays, m'.segments p = m.segments p) (h2 : ∀ p ∈ g.j2.elements m.segArrays, m'.segments p = m.segments p)
    (h3 : ∀ o ∈ [g.k1, g.k2, g.k3, g.k4, g.l1, g.n1], ∀ p, o = some p → m'.segments p = m.segments p) : g.value m' = g.value m := by
  unfold SegsObject.value
  simp only [List.mem_cons, List.not_mem_nil, or_false] at h3
  rw [ha, mapM_congr_mem h1, mapM_congr_mem h2, pointee_congr (h3 g.k1 (by simp)), pointee_congr (h3 g.k2 (by simp)),
    pointee_congr (h3 g.k3 (by simp)), pointee_congr (h3 g.k4 (by simp)), pointee_congr (h3 g.l1 (by simp)), pointee_congr (h3 g.n1 (by simp))]

theorem changeSegment_eq {m m' : Memory} {p : Nat} {fs : Fields} (h : m.changeSegment p fs = some m') :
    ∃ s, m.segments p = some s ∧ m' = { m with segments := put m.segments p (some ⟨s.kind, fs⟩) } := by
  unfold Memory.changeSegment at h
  split at h
  · cases h
  · next s hs => cases h; exact ⟨s, hs, rfl⟩

theorem sound_changeSegment {m m' : Memory} (h : Sound m) {p : Nat} {fs : Fields} (hc : m.changeSegment p fs = some m') : Sound m' := by
  obtain ⟨s, hs, rfl⟩ := changeSegment_eq hc
  have hp : ∀ q s', put m.segments p (some ⟨s.kind, fs⟩) q = some s' → ∃ s'', m.segments q = some s'' := by
    intro q s' hq
    by_cases he : q = p
    · subst he; exact ⟨s, hs⟩
    · rw [put_other _ _ he] at hq; exact ⟨_, hq⟩
  have hp' : ∀ q, (∃ s', m.segments q = some s') → ∃ s'', put m.segments p (some ⟨s.kind, fs⟩) q = some s'' := by
    intro q ⟨s', hq⟩
    by_cases he : q = p
    · subst he; rw [put_at]; exact ⟨_, rfl⟩
    · rw [put_other _ _ he]; exact ⟨_, hq⟩
  refine ⟨⟨fun q s' hq => (hp q s' hq).elim fun s'' hs'' => h.segs q s'' hs'', h.recs, h.slices, fun r o hr => ?_, h.kinds⟩, h.bases, h.header,
    h.data, h.trailer⟩
  obtain ⟨v, hv⟩ := h.values r o hr
  cases o with
  | header enc fs => exact ⟨_, rfl⟩
  | trailer enc fs => exact ⟨_, rfl⟩
  | base enc fs g =>
    simp only [RecordObject.value, Option.map_eq_some_iff] at hv ⊢
    obtain ⟨w, hw, -⟩ := hv
    obtain ⟨a, b, c⟩ := segsValue_some.1 ⟨w, hw⟩
    obtain ⟨w', hw'⟩ := (segsValue_some (m := { m with segments := put m.segments p (some ⟨s.kind, _⟩) }) (g := g)).2
      ⟨fun q hq => hp' q (a q hq), fun q hq => hp' q (b q hq), fun o ho q hq => hp' q (c o ho q hq)⟩
    exact ⟨_, w', hw', rfl⟩

theorem sameArray_symm {s t : Slice} (h : Spec.SameArray s t) : Spec.SameArray t s := ⟨h.2.1, h.1, h.2.2.symm⟩

/-- A record whose object is replaced, and arrays in which something is written. -/
theorem objects_update {m m' : Memory} (h : Objects m) {r : Nat} {o o' : RecordObject} (hr : m.records r = some o)
    (hs : m'.segments = m.segments) (hrec : m'.records = put m.records r (some o')) (hn : m.next ≤ m'.next)
    (hok : ∀ t, SliceOk m.segArrays m.next t → SliceOk m'.segArrays m'.next t)
    (hel : ∀ t, SliceOk m.segArrays m.next t → ∀ x ∈ t.elements m'.segArrays, x ∈ t.elements m.segArrays ∨ ∃ s, m.segments x = some s)
    (hv : ∃ v, o'.value m' = some v)
    (ho : ∀ enc fs g', o' = .base enc fs g' → ∃ enc' fs' g, o = .base enc' fs' g ∧ SliceOk m'.segArrays m'.next g'.j1 ∧ SliceOk m'.segArrays m'.next g'.j2 ∧
      (∀ t, SliceOk m.segArrays m.next t → Spec.SameArray g'.j1 t → Spec.SameArray g.j1 t) ∧
      (∀ t, SliceOk m.segArrays m.next t → Spec.SameArray g'.j2 t → Spec.SameArray g.j2 t) ∧ ¬ Spec.SameArray g'.j1 g'.j2) : Objects m' := by
  have hcases : ∀ q x, m'.records q = some x → (q = r ∧ x = o') ∨ (q ≠ r ∧ m.records q = some x) := by
    intro q x hq
    rw [hrec] at hq
    by_cases he : q = r
    · subst he; rw [put_at] at hq; cases hq; exact .inl ⟨rfl, rfl⟩
    · rw [put_other _ _ he] at hq; exact .inr ⟨he, hq⟩
  refine ⟨?_, ?_, ?_, ?_, ?_⟩
  · intro p s hp; rw [hs] at hp; exact Nat.lt_of_lt_of_le (h.segs p s hp) hn
  · intro q x hq
    rcases hcases q x hq with ⟨rfl, -⟩ | ⟨-, h'⟩
    · exact Nat.lt_of_lt_of_le (h.recs _ _ hr) hn
    · exact Nat.lt_of_lt_of_le (h.recs q x h') hn
  · intro q enc fs g hq
    rcases hcases q _ hq with ⟨-, h'⟩ | ⟨-, h'⟩
    · obtain ⟨_, _, _, -, a, b, -⟩ := ho enc fs g h'.symm
      exact ⟨a, b⟩
    · have := h.slices q enc fs g h'
      exact ⟨hok _ this.1, hok _ this.2⟩
  · intro q x hq
    rcases hcases q x hq with ⟨-, rfl⟩ | ⟨-, h'⟩
    · exact hv
    · obtain ⟨v, hv'⟩ := h.values q x h'
      cases x with
      | header enc fs => exact ⟨_, rfl⟩
      | trailer enc fs => exact ⟨_, rfl⟩
      | base enc fs g =>
        simp only [RecordObject.value, Option.map_eq_some_iff] at hv' ⊢
        obtain ⟨w, hw, -⟩ := hv'
        obtain ⟨a, b, c⟩ := segsValue_some.1 ⟨w, hw⟩
        have hsl := h.slices q enc fs g h'
        obtain ⟨w', hw'⟩ := (segsValue_some (m := m') (g := g)).2
          ⟨fun x hx => hs ▸ (hel _ hsl.1 x hx).elim (a x) id, fun x hx => hs ▸ (hel _ hsl.2 x hx).elim (b x) id, fun o ho q hq => hs ▸ c o ho q hq⟩
        exact ⟨_, w', hw', rfl⟩
  · intro q enc fs g q' enc' fs' g' h1 h2
    rcases hcases q _ h1 with ⟨-, e1⟩ | ⟨-, e1⟩ <;> rcases hcases q' _ h2 with ⟨-, e2⟩ | ⟨-, e2⟩
    · rw [← e1] at e2; cases e2
      obtain ⟨_, _, _, -, -, -, -, -, c⟩ := ho enc fs g e1.symm
      exact c
    · obtain ⟨e, f, g0, rfl, -, -, c, -, -⟩ := ho enc fs g e1.symm
      exact fun hc => h.kinds r e f g0 q' enc' fs' g' hr e2 (c _ (h.slices _ _ _ _ e2).2 hc)
    · obtain ⟨e, f, g0, rfl, -, -, -, c, -⟩ := ho enc' fs' g' e2.symm
      exact fun hc => h.kinds q enc fs g r e f g0 e1 hr (sameArray_symm (c _ (h.slices _ _ _ _ e1).1 (sameArray_symm hc)))
    · exact h.kinds q enc fs g q' enc' fs' g' e1 e2

theorem changeRecord_eq {m m' : Memory} {r : Nat} {fs : Fields} (h : m.changeRecord r fs = some m') :
    ∃ o, m.records r = some o ∧ m' = { m with records := put m.records r (some (o.withFields fs)) } := by
  unfold Memory.changeRecord at h
  split at h
  · cases h
  · next s hs => cases h; exact ⟨s, hs, rfl⟩

theorem sound_update {m m' : Memory} (h : Sound m) (ho : Objects m') {r : Nat} {o' : RecordObject} (hrec : m'.records = put m.records r (some o'))
    (hn : m.next ≤ m'.next) (ha : m'.recArrays = m.recArrays) (hf : m'.file = m.file) : Sound m' := by
  have hx : ∀ q o, m.records q = some o → ∃ o', m'.records q = some o' := by
    intro q o hq
    rw [hrec]
    by_cases he : q = r
    · subst he; rw [put_at]; exact ⟨_, rfl⟩
    · rw [put_other _ _ he]; exact ⟨_, hq⟩
  refine ⟨ho, ?_, ?_, ?_, ?_⟩
  · rw [ha, hf]; exact h.bases.mono hn
  · rw [hf]; exact h.header.elim fun o => hx _ o
  · rw [hf, ha]; exact fun r hr => (h.data r hr).elim fun o => hx _ o
  · rw [hf]; exact h.trailer.elim fun o => hx _ o

theorem sound_changeRecord {m m' : Memory} (h : Sound m) {r : Nat} {fs : Fields} (hc : m.changeRecord r fs = some m') : Sound m' := by
  obtain ⟨o, ho, rfl⟩ := changeRecord_eq hc
  refine sound_update h (objects_update h.toObjects ho rfl rfl (Nat.le_refl _) (fun _ ht => ht) (fun _ _ _ hx => .inl hx) ?_ ?_) rfl (Nat.le_refl _) rfl rfl
  · obtain ⟨v, hv⟩ := h.values r o ho
    cases o with
    | header enc fs => exact ⟨_, rfl⟩
    | trailer enc fs => exact ⟨_, rfl⟩
    | base enc fs' g =>
      simp only [RecordObject.value, Option.map_eq_some_iff] at hv
      obtain ⟨w, hw, -⟩ := hv
      exact ⟨.base enc fs w, congrArg (Option.map (Record.base enc fs)) hw⟩
  · intro enc fs' g' he
    cases o with
    | header enc fs => cases he
    | trailer enc fs => cases he
    | base enc0 fs0 g =>
      cases he
      have := h.slices _ _ _ _ ho
      exact ⟨_, _, _, rfl, this.1, this.2, fun _ _ h => h, fun _ _ h => h, h.kinds _ _ _ _ _ _ _ _ ho ho⟩

/-! ### AddApplicableSegment -/

theorem mapM_set {α : Type} {f : Nat → Option α} {l : List Nat} {v : List α} {i p : Nat} {s : α} (h : l.mapM f = some v) (hp : f p = some s) :
    (l.set i p).mapM f = some (v.set i s) := by
  induction l generalizing v i with
  | nil => simp only [List.mapM_nil, Option.pure_def, Option.some.injEq] at h; subst h; rfl
  | cons a l ih =>
    rw [List.mapM_cons] at h
    cases ha : f a with
    | none => simp [ha] at h
    | some x =>
      cases hl : l.mapM f with
      | none => simp [ha, hl] at h
      | some w =>
        simp only [ha, hl, Option.bind_eq_bind, Option.bind_some, Option.pure_def, Option.some.injEq] at h
        subst h
        cases i with
        | zero => simp [List.set_cons_zero, List.mapM_cons, hp, hl]
        | succ i => simp [List.set_cons_succ, List.mapM_cons, ha, ih hl]

theorem store_facts {grow : Nat → Nat} (hg : Spec.Grows grow) {m : Memory} (h : Objects m) {r p : Nat} {enc : Enc} {fs : Fields} {g : SegsObject}
    (hr : m.records r = some (.base enc fs g)) {s : Seg} (hs : m.segments p = some s) {v : Segs} (hv : g.value m = some v) :
    Objects (m.store grow r enc fs g p s.kind) ∧ (m.store grow r enc fs g p s.kind).record r = some (.base enc fs (v.store s)) := by
  rw [segsValue_iff] at hv
  obtain ⟨v1, v2, v3, v4, v5, v6, v7, v8⟩ := hv
  have hsl := h.slices r enc fs g hr
  have hk := h.kinds r enc fs g r enc fs g hr hr
  have hpt : pointee m.segments (some p) = some (some s) := by simp only [pointee, hs, Option.map_some]
  obtain ⟨k, sfs⟩ := s
  have happ : ∀ t w, SliceOk m.segArrays m.next t → (t.elements m.segArrays).mapM m.segments = some w →
      (((appendTo grow m.segArrays m.next t p).2.1.elements (appendTo grow m.segArrays m.next t p).1).mapM m.segments) =
        some (w ++ [⟨k, sfs⟩]) := by
    intro t w ht hw
    rw [append_own ht, List.mapM_append, hw]
    simp [hs]
  have fin : ∀ (m' : Memory) (g' : SegsObject), m'.records = put m.records r (some (.base enc fs g')) → g'.value m' = some (v.store ⟨k, sfs⟩) →
      m'.record r = some (.base enc fs (v.store ⟨k, sfs⟩)) := by
    intro m' g' h1 h2
    rw [record_of (o := .base enc fs g') (by rw [h1, put_at])]
    simp only [RecordObject.value, h2, Option.map_some]
  have same : ∀ (m' : Memory) (g' : SegsObject), m'.segments = m.segments → m'.segArrays = m.segArrays → m'.next = m.next →
      m'.records = put m.records r (some (.base enc fs g')) → g'.j1 = g.j1 → g'.j2 = g.j2 → g'.value m' = some (v.store ⟨k, sfs⟩) →
      Objects m' ∧ m'.record r = some (.base enc fs (v.store ⟨k, sfs⟩)) := by
    intro m' g' h1 h2 h3 h4 h5 h6 h7
    refine ⟨objects_update h hr h1 h4 (Nat.le_of_eq h3.symm) (by rw [h2, h3]; exact fun _ ht => ht) (by rw [h2]; exact fun _ _ _ hx => .inl hx)
      ⟨_, congrArg (Option.map (Record.base enc fs)) h7⟩ ?_, fin m' g' h4 h7⟩
    intro enc' fs' g'' he
    cases he
    refine ⟨_, _, _, rfl, ?_, ?_, ?_, ?_, ?_⟩
    · rw [h5, h2, h3]; exact hsl.1
    · rw [h6, h2, h3]; exact hsl.2
    · rw [h5]; exact fun _ _ h => h
    · rw [h6]; exact fun _ _ h => h
    · rw [h5, h6]; exact hk
  have helems : ∀ t, SliceOk m.segArrays m.next t → ∀ u, ∀ x ∈ t.elements (appendTo grow m.segArrays m.next u p).1,
      x ∈ t.elements m.segArrays ∨ ∃ s, m.segments x = some s := by
    intro t ht u x hx
    rw [append_elements ht] at hx
    split at hx
    · rcases List.mem_or_eq_of_mem_set hx with hx | rfl
      · exact .inl hx
      · exact .inr ⟨_, hs⟩
    · exact .inl hx
  cases k with
  | j1 =>
    have hval : SegsObject.value (m.store grow r enc fs g p .j1) { g with j1 := (appendTo grow m.segArrays m.next g.j1 p).2.1 } =
        some (v.store ⟨.j1, sfs⟩) := by
      rw [segsValue_iff]
      refine ⟨happ _ _ hsl.1 v1, ?_, v3, v4, v5, v6, v7, v8⟩
      simp only [Memory.store, append_apart hsl.2 p hk]
      exact v2
    refine ⟨objects_update h hr rfl rfl append_next (fun t ht => append_keeps ht p) (fun t ht x hx => helems t ht _ x hx)
      ⟨_, congrArg (Option.map (Record.base enc fs)) hval⟩ ?_, fin _ _ rfl hval⟩
    intro enc' fs' g'' he
    cases he
    exact ⟨_, _, _, rfl, append_ok hg hsl.1 p, append_keeps hsl.2 p, fun t ht hc => append_array ht p hc, fun _ _ h => h,
      fun hc => hk (append_array hsl.2 p hc)⟩
  | j2 =>
    have hval : SegsObject.value (m.store grow r enc fs g p .j2) { g with j2 := (appendTo grow m.segArrays m.next g.j2 p).2.1 } =
        some (v.store ⟨.j2, sfs⟩) := by
      rw [segsValue_iff]
      refine ⟨?_, happ _ _ hsl.2 v2, v3, v4, v5, v6, v7, v8⟩
      simp only [Memory.store, append_apart hsl.1 p fun hc => hk (sameArray_symm hc)]
      exact v1
    refine ⟨objects_update h hr rfl rfl append_next (fun t ht => append_keeps ht p) (fun t ht x hx => helems t ht _ x hx)
      ⟨_, congrArg (Option.map (Record.base enc fs)) hval⟩ ?_, fin _ _ rfl hval⟩
    intro enc' fs' g'' he
    cases he
    exact ⟨_, _, _, rfl, append_keeps hsl.1 p, append_ok hg hsl.2 p, fun _ _ h => h, fun t ht hc => append_array ht p hc,
      fun hc => hk (sameArray_symm (append_array hsl.1 p (sameArray_symm hc)))⟩
  | k1 => exact same _ _ rfl rfl rfl rfl rfl rfl (segsValue_iff.2 ⟨v1, v2, hpt, v4, v5, v6, v7, v8⟩)
  | k2 => exact same _ _ rfl rfl rfl rfl rfl rfl (segsValue_iff.2 ⟨v1, v2, v3, hpt, v5, v6, v7, v8⟩)
  | k3 => exact same _ _ rfl rfl rfl rfl rfl rfl (segsValue_iff.2 ⟨v1, v2, v3, v4, hpt, v6, v7, v8⟩)
  | k4 => exact same _ _ rfl rfl rfl rfl rfl rfl (segsValue_iff.2 ⟨v1, v2, v3, v4, v5, hpt, v7, v8⟩)
  | l1 => exact same _ _ rfl rfl rfl rfl rfl rfl (segsValue_iff.2 ⟨v1, v2, v3, v4, v5, v6, hpt, v8⟩)
  | n1 => exact same _ _ rfl rfl rfl rfl rfl rfl (segsValue_iff.2 ⟨v1, v2, v3, v4, v5, v6, v7, hpt⟩)

/-- What `store` changes: the record, the next free address, the array of the slice to which it appends. -/
theorem store_frame {grow : Nat → Nat} (m : Memory) (r p : Nat) (enc : Enc) (fs : Fields) (g : SegsObject) (k : SegKind) :
    (m.store grow r enc fs g p k).segments = m.segments ∧ (m.store grow r enc fs g p k).recArrays = m.recArrays ∧
    (m.store grow r enc fs g p k).file = m.file ∧ m.next ≤ (m.store grow r enc fs g p k).next ∧
    (∃ g', (m.store grow r enc fs g p k).records = put m.records r (some (.base enc fs g'))) ∧
    (m.store grow r enc fs g p k).segArrays =
      match Spec.listOf g k with
      | some t => (appendTo grow m.segArrays m.next t p).1
      | none => m.segArrays := by
  cases k
  case j1 => exact ⟨rfl, rfl, rfl, append_next, ⟨_, rfl⟩, rfl⟩
  case j2 => exact ⟨rfl, rfl, rfl, append_next, ⟨_, rfl⟩, rfl⟩
  all_goals exact ⟨rfl, rfl, rfl, Nat.le_refl _, ⟨_, rfl⟩, rfl⟩

/-! ### The file -/

theorem value_same {m m' : Memory} (hs : m'.segments = m.segments) (ha : m'.segArrays = m.segArrays) (o : RecordObject) : o.value m' = o.value m := by
  cases o with
  | header enc fs => rfl
  | trailer enc fs => rfl
  | base enc fs g => simp only [RecordObject.value, SegsObject.value, hs, ha]

theorem record_same {m m' : Memory} (hs : m'.segments = m.segments) (ha : m'.segArrays = m.segArrays) (hr : m'.records = m.records) (r : Nat) :
    m'.record r = m.record r := by
  unfold Memory.record
  rw [hr]
  exact congrArg _ (funext fun o => value_same hs ha o)

theorem objects_same {m m' : Memory} (h : Objects m) (hs : m'.segments = m.segments) (ha : m'.segArrays = m.segArrays) (hr : m'.records = m.records)
    (hn : m.next ≤ m'.next) : Objects m' := by
  refine ⟨?_, ?_, ?_, ?_, ?_⟩
  · rw [hs]; exact fun p s hp => Nat.lt_of_lt_of_le (h.segs p s hp) hn
  · rw [hr]; exact fun r o ho => Nat.lt_of_lt_of_le (h.recs r o ho) hn
  · rw [hr, ha]; exact fun r enc fs g ho => ⟨(h.slices r enc fs g ho).1.mono hn, (h.slices r enc fs g ho).2.mono hn⟩
  · rw [hr]; exact fun r o ho => value_same hs ha o ▸ h.values r o ho
  · rw [hr]; exact h.kinds

theorem setRecord_facts {m m' : Memory} (h : Sound m) {r : Nat} {e : Option Err} (hc : m.setRecord r = some (m', e)) {v : Record}
    (hv : m.record r = some v) {f : File} (hf : m.fileValue = some f) :
    Sound m' ∧ m'.fileValue = some (f.setRecord v).1 ∧ e = (f.setRecord v).2 ∧ m'.records = m.records ∧ m'.segments = m.segments ∧
      m'.segArrays = m.segArrays := by
  obtain ⟨o, ho, -⟩ := record_some hv
  have hfv := fileValue_iff.1 hf
  unfold Memory.setRecord at hc
  unfold File.setRecord
  simp only [hv] at hc
  cases hval : v.validate with
  | some err =>
    simp only [hval, Option.some.injEq, Prod.mk.injEq] at hc ⊢
    obtain ⟨rfl, rfl⟩ := hc
    exact ⟨h, hf, rfl, rfl, rfl, rfl⟩
  | none =>
    simp only [hval] at hc ⊢
    cases v with
    | base enc fs g =>
      simp only [Option.some.injEq, Prod.mk.injEq] at hc ⊢
      obtain ⟨rfl, rfl⟩ := hc
      exact ⟨h, hf, rfl, rfl, rfl, rfl⟩
    | header enc fs =>
      rw [hfv.2.2.2] at hc
      by_cases he : f.format = enc
      · simp only [if_pos he, Option.some.injEq, Prod.mk.injEq] at hc ⊢
        obtain ⟨rfl, rfl⟩ := hc
        refine ⟨⟨objects_same h.toObjects rfl rfl rfl (Nat.le_refl _), h.bases, ⟨o, ho⟩, h.data, h.trailer⟩, ?_, rfl, rfl, rfl, rfl⟩
        exact fileValue_iff.2 ⟨hv, hfv.2.1, hfv.2.2.1, rfl⟩
      · simp only [if_neg he, Option.some.injEq, Prod.mk.injEq] at hc ⊢
        obtain ⟨rfl, rfl⟩ := hc
        exact ⟨h, hf, rfl, rfl, rfl, rfl⟩
    | trailer enc fs =>
      rw [hfv.2.2.2] at hc
      by_cases he : f.format = enc
      · simp only [if_pos he, Option.some.injEq, Prod.mk.injEq] at hc ⊢
        obtain ⟨rfl, rfl⟩ := hc
        refine ⟨⟨objects_same h.toObjects rfl rfl rfl (Nat.le_refl _), h.bases, h.header, h.data, ⟨o, ho⟩⟩, ?_, rfl, rfl, rfl, rfl⟩
        exact fileValue_iff.2 ⟨hfv.1, hfv.2.1, hv, rfl⟩
      · simp only [if_neg he, Option.some.injEq, Prod.mk.injEq] at hc ⊢
        obtain ⟨rfl, rfl⟩ := hc
        exact ⟨h, hf, rfl, rfl, rfl, rfl⟩

theorem addDataRecord_facts {grow : Nat → Nat} (hg : Spec.Grows grow) {m m' : Memory} (h : Sound m) {r : Nat} {e : Option Err}
    (hc : m.addDataRecord grow r = some (m', e)) {v : Record} (hv : m.record r = some v) {f : File} (hf : m.fileValue = some f) :
    Sound m' ∧ m'.fileValue = some (f.addDataRecord v).1 ∧ e = (f.addDataRecord v).2 ∧ m'.records = m.records ∧ m'.segments = m.segments ∧
      m'.segArrays = m.segArrays := by
  obtain ⟨o, ho, -⟩ := record_some hv
  have hfv := fileValue_iff.1 hf
  unfold Memory.addDataRecord at hc
  unfold File.addDataRecord
  simp only [hv] at hc
  cases hval : v.validate with
  | some err =>
    simp only [hval, Option.some.injEq, Prod.mk.injEq] at hc ⊢
    obtain ⟨rfl, rfl⟩ := hc
    exact ⟨h, hf, rfl, rfl, rfl, rfl⟩
  | none =>
    simp only [hval] at hc ⊢
    cases v with
    | header enc fs =>
      simp only [Option.some.injEq, Prod.mk.injEq] at hc ⊢
      obtain ⟨rfl, rfl⟩ := hc
      exact ⟨h, hf, rfl, rfl, rfl, rfl⟩
    | trailer enc fs =>
      simp only [Option.some.injEq, Prod.mk.injEq] at hc ⊢
      obtain ⟨rfl, rfl⟩ := hc
      exact ⟨h, hf, rfl, rfl, rfl, rfl⟩
    | base enc fs g =>
      rw [hfv.2.2.2] at hc
      by_cases he : f.format = enc
      · simp only [if_pos he, Option.some.injEq, Prod.mk.injEq] at hc ⊢
        obtain ⟨rfl, rfl⟩ := hc
        have hown := append_own (grow := grow) h.bases r
        refine ⟨⟨objects_same h.toObjects rfl rfl rfl append_next, append_ok hg h.bases r, h.header, ?_, h.trailer⟩, ?_, rfl, rfl, rfl, rfl⟩
        · intro q hq
          simp only [hown, List.mem_append, List.mem_singleton] at hq
          rcases hq with hq | rfl
          · exact h.data q hq
          · exact ⟨o, ho⟩
        · refine fileValue_iff.2 ⟨hfv.1, ?_, hfv.2.2.1, rfl⟩
          simp only [hown]
          refine mapM_mono (f := m.record) (fun q w hq => (record_same rfl rfl rfl q).trans hq) ?_
          rw [List.mapM_append, hfv.2.1]
          simp [hv]
      · simp only [if_neg he, Option.some.injEq, Prod.mk.injEq] at hc ⊢
        obtain ⟨rfl, rfl⟩ := hc
        exact ⟨h, hf, rfl, rfl, rfl, rfl⟩

/-! ### SetType -/

theorem mapM_cons_some {α : Type} {f : Nat → Option α} {a : Nat} {l : List Nat} {v : List α} (h : (a :: l).mapM f = some v) :
    ∃ x w, f a = some x ∧ l.mapM f = some w ∧ v = x :: w := by
  rw [List.mapM_cons] at h
  cases ha : f a with
  | none => simp [ha] at h
  | some x =>
    cases hl : l.mapM f with
    | none => simp [ha, hl] at h
    | some w =>
      simp only [ha, hl, Option.bind_eq_bind, Option.bind_some, Option.pure_def, Option.some.injEq] at h
      exact ⟨x, w, rfl, rfl, h.symm⟩

theorem convertLoop_facts {grow : Nat → Nat} (hg : Spec.Grows grow) (src dst : Enc) (rs : List Nat) :
    ∀ (m : Memory) (acc : Slice) (vs as : List Record), Objects m → rs.mapM m.record = some vs → SliceOk m.recArrays m.next acc →
      (acc.elements m.recArrays).mapM m.record = some as →
      (m.convertLoop grow src dst rs acc = none → convertBases src dst vs = none) ∧
      ∀ m' sl, m.convertLoop grow src dst rs acc = some (m', sl) → ∃ bs, convertBases src dst vs = some bs ∧ Objects m' ∧ Extends m m' ∧
        m'.file = m.file ∧ m.next ≤ m'.next ∧ m'.segments = m.segments ∧ m'.segArrays = m.segArrays ∧ SliceOk m'.recArrays m'.next sl ∧
        (sl.elements m'.recArrays).mapM m'.record = some (as ++ bs) := by
  induction rs with
  | nil =>
    intro m acc vs as hm hvs hacc has
    simp only [List.mapM_nil, Option.pure_def, Option.some.injEq] at hvs
    subst hvs
    refine ⟨fun hc => by simp [Memory.convertLoop] at hc, fun m' sl hc => ?_⟩
    simp only [Memory.convertLoop, Option.some.injEq, Prod.mk.injEq] at hc
    obtain ⟨rfl, rfl⟩ := hc
    exact ⟨[], rfl, hm, Extends.refl _, rfl, Nat.le_refl _, rfl, rfl, hacc, by rw [List.append_nil]; exact has⟩
  | cons r rs ih =>
    intro m acc vs as hm hvs hacc has
    obtain ⟨x, w, hx, hw, rfl⟩ := mapM_cons_some hvs
    obtain ⟨o, ho, hov⟩ := record_some hx
    simp only [Memory.convertLoop, ho, convertBases]
    cases o with
    | header enc fs =>
      simp only [RecordObject.value, Option.some.injEq] at hov
      subst hov
      simp [convertBase]
    | trailer enc fs =>
      simp only [RecordObject.value, Option.some.injEq] at hov
      subst hov
      simp [convertBase]
    | base enc fs g =>
      simp only [RecordObject.value, Option.map_eq_some_iff] at hov
      obtain ⟨gv, hgv, rfl⟩ := hov
      by_cases he : enc = src
      · simp only [if_pos he, convertBase]
        generalize hm' : ({ m with records := put m.records m.next (some (.base dst fs g)), recArrays := (appendTo grow m.recArrays (m.next + 1) acc m.next).1, next := (appendTo grow m.recArrays (m.next + 1) acc m.next).2.2 } : Memory) = m1
        have e1 : m1.recArrays = (appendTo grow m.recArrays (m.next + 1) acc m.next).1 := by subst hm'; rfl
        have e2 : m1.next = (appendTo grow m.recArrays (m.next + 1) acc m.next).2.2 := by subst hm'; rfl
        have e3 : m1.file = m.file ∧ m1.segments = m.segments ∧ m1.segArrays = m.segArrays := by subst hm'; exact ⟨rfl, rfl, rfl⟩
        obtain ⟨h1, h2, h3, h4, -⟩ := objects_alloc (m := m) (m' := m1) hm (.base dst fs g) e3.2.1 e3.2.2 (by subst hm'; rfl)
          (by rw [e2]; exact Nat.lt_of_lt_of_le (Nat.lt_succ_self _) append_next)
          (by intro _ _ _ hb; cases hb; exact .inr ⟨r, enc, fs, ho⟩)
        have hacc' := hacc.mono (Nat.le_succ m.next)
        obtain ⟨hn, hs⟩ := ih m1 (appendTo grow m.recArrays (m.next + 1) acc m.next).2.1 w (as ++ [.base dst fs gv]) h1
          (mapM_mono (fun _ _ => h2.record) hw) (by rw [e1, e2]; exact append_ok hg hacc' m.next) (by
            rw [e1, append_own hacc' m.next, List.mapM_append, mapM_mono (fun _ _ => h2.record) has]
            simp only [List.mapM_cons, List.mapM_nil, h4, RecordObject.value, hgv]
            rfl)
        refine ⟨fun hc => by simp only [hn hc], fun m' sl hc => ?_⟩
        obtain ⟨bs, hb, a1, a2, a3, a4, a5, a6, a7, a8⟩ := hs m' sl hc
        refine ⟨.base dst fs gv :: bs, by simp only [hb], a1, h2.trans a2, a3.trans e3.1, ?_, a5.trans e3.2.1, a6.trans e3.2.2, a7, ?_⟩
        · rw [e2] at a4; exact Nat.le_trans (Nat.le_trans (Nat.le_succ _) append_next) a4
        · rw [a8, List.append_assoc]; rfl
      · simp [he, convertBase]

theorem convert_facts {grow : Nat → Nat} (hg : Spec.Grows grow) {m : Memory} (h : Sound m) (dst : Enc) {f : File} (hf : m.fileValue = some f) :
    Sound (m.convert grow dst).1 ∧ (m.convert grow dst).1.fileValue = some (f.convert dst).1 ∧ (m.convert grow dst).2 = (f.convert dst).2 ∧
      Extends m (m.convert grow dst).1 := by
  obtain ⟨f1, f2, f3, f4⟩ := fileValue_iff.1 hf
  obtain ⟨o, ho, hov⟩ := record_some f1
  unfold Memory.convert File.convert
  simp only [ho, ← f4]
  cases o with
  | base enc fs g =>
    simp only [RecordObject.value, Option.map_eq_some_iff] at hov
    obtain ⟨gv, -, hgv⟩ := hov
    simp only [← hgv, convertHeader]
    exact ⟨h, hf, trivial, Extends.refl _⟩
  | trailer enc fs =>
    simp only [RecordObject.value, Option.some.injEq] at hov
    simp only [← hov, convertHeader]
    exact ⟨h, hf, trivial, Extends.refl _⟩
  | header enc fs =>
    simp only [RecordObject.value, Option.some.injEq] at hov
    simp only [← hov, convertHeader]
    by_cases he : enc = m.file.format
    · simp only [if_pos he]
      generalize hm1 : ({ m with records := put m.records m.next (some (.header dst fs)), next := m.next + 1, file := { m.file with header := m.next } } : Memory) = m1
      obtain ⟨h1, h2, h3, h4, -⟩ := objects_alloc (m := m) (m' := m1) h.toObjects (.header dst fs) (by subst hm1; rfl) (by subst hm1; rfl)
        (by subst hm1; rfl) (by subst hm1; exact Nat.lt_succ_self _) (by intro _ _ _ hb; cases hb)
      have hfile : m1.file = { m.file with header := m.next } := by subst hm1; rfl
      have hrarr : m1.recArrays = m.recArrays := by subst hm1; rfl
      have hnext : m1.next = m.next + 1 := by subst hm1; rfl
      have s1 : Sound m1 := by
        refine ⟨h1, ?_, ?_, ?_, ?_⟩
        · rw [hfile, hrarr, hnext]; exact h.bases.mono (Nat.le_succ _)
        · rw [hfile]; exact ⟨_, h3⟩
        · rw [hfile, hrarr]; exact fun r hr => (h.data r hr).imp fun o => h2.records _ o
        · rw [hfile]; exact h.trailer.imp fun o => h2.records _ o
      have b1 : (m.file.bases.elements m.recArrays).mapM m1.record = some f.bases := mapM_mono (fun _ _ => h2.record) f2
      obtain ⟨hn, hs⟩ := convertLoop_facts hg m.file.format dst (m.file.bases.elements m.recArrays) m1 {} f.bases [] h1 b1 (SliceOk.nil _ _) rfl
      cases hloop : m1.convertLoop grow m.file.format dst (m.file.bases.elements m.recArrays) {} with
      | none =>
        simp only [hn hloop]
        refine ⟨s1, fileValue_iff.2 ⟨?_, ?_, ?_, ?_⟩, trivial, h2⟩
        · rw [hfile]; exact h4
        · rw [hfile, hrarr]; exact b1
        · rw [hfile]; exact h2.record f3
        · rw [hfile]
      | some x =>
        obtain ⟨m2, sl⟩ := x
        obtain ⟨bs, hb, a1, a2, a3, a4, a5, a6, a7, a8⟩ := hs m2 sl hloop
        simp only [hb]
        rw [List.nil_append] at a8
        have ext2 := h2.trans a2
        generalize hm3 : ({ m2 with file := { m2.file with bases := sl } } : Memory) = m3
        have e1 : m3.segments = m2.segments := by subst hm3; rfl
        have e2 : m3.segArrays = m2.segArrays := by subst hm3; rfl
        have e3 : m3.records = m2.records := by subst hm3; rfl
        have e4 : m3.recArrays = m2.recArrays := by subst hm3; rfl
        have e5 : m3.next = m2.next := by subst hm3; rfl
        have e6 : m3.file = { m.file with header := m.next, bases := sl } := by subst hm3; simp only [a3, hfile]
        have x3 : Extends m2 m3 := ⟨fun p s hp => e1 ▸ hp, fun r o hr => e3 ▸ hr, fun _ _ _ _ _ => by rw [e2]; exact ⟨rfl, rfl⟩⟩
        have o3 : Objects m3 := objects_same a1 e1 e2 e3 (Nat.le_of_eq e5.symm)
        have r3 : m3.record = m2.record := funext fun r => record_same e1 e2 e3 r
        obtain ⟨to, hto, htv⟩ := record_some f3
        have ht3 : m3.records m.file.trailer = some to := x3.records _ _ (ext2.records _ _ hto)
        have hh3 : m3.record m.next = some (.header dst fs) := x3.record (a2.record h4)
        have hd3 : ∀ q ∈ sl.elements m3.recArrays, ∃ o, m3.records q = some o := by
          intro q hq
          rw [e4] at hq
          obtain ⟨v, hv⟩ := mapM_some_iff.1 ⟨_, a8⟩ q hq
          obtain ⟨o, ho, -⟩ := record_some hv
          exact ⟨o, x3.records _ _ ho⟩
        have s3 : Sound m3 := by
          refine ⟨o3, ?_, ?_, ?_, ?_⟩
          · rw [e6, e4, e5]; exact a7
          · rw [e6]; exact ⟨_, x3.records _ _ (a2.records _ _ h3)⟩
          · rw [e6]; exact hd3
          · rw [e6]; exact ⟨_, ht3⟩
        have v3 : m3.fileValue = some { f with header := .header dst fs, bases := bs } := by
          refine fileValue_iff.2 ⟨?_, ?_, ?_, ?_⟩
          · rw [e6]; exact hh3
          · rw [e6, e4, r3]; exact a8
          · rw [e6]; exact x3.record (ext2.record f3)
          · rw [e6]; exact f4
        have xx := ext2.trans x3
        rw [e3] at ht3
        simp only [ht3]
        subst hm3
        cases to with
        | base enc' fs' g' =>
          simp only [RecordObject.value, Option.map_eq_some_iff] at htv
          obtain ⟨gv, -, hgv⟩ := htv
          simp only [← hgv, convertTrailer]
          exact ⟨s3, by rw [v3, ← hgv, f4], trivial, xx⟩
        | header enc' fs' =>
          simp only [RecordObject.value, Option.some.injEq] at htv
          simp only [← htv, convertTrailer]
          exact ⟨s3, by rw [v3, ← htv, f4], trivial, xx⟩
        | trailer enc' fs' =>
          simp only [RecordObject.value, Option.some.injEq] at htv
          simp only [← htv, convertTrailer]
          by_cases he' : enc' = m.file.format
          · simp only [if_pos he']
            obtain ⟨q1, q2, q3, q4, -⟩ := objects_alloc (m' := { m2 with records := put m2.records m2.next (some (.trailer dst fs')), next := m2.next + 1, file := { m2.file with format := dst, bases := sl, trailer := m2.next } }) o3 (.trailer dst fs') rfl rfl rfl
              (Nat.lt_succ_self _) (by intro _ _ _ hb; cases hb)
            refine ⟨⟨q1, s3.bases.mono (Nat.le_succ _), s3.header.imp fun o => q2.records _ o, fun r hr => (s3.data r hr).imp fun o => q2.records _ o,
              ⟨_, q3⟩⟩, ?_, trivial, xx.trans q2⟩
            obtain ⟨w1, w2, w3, w4⟩ := fileValue_iff.1 v3
            exact fileValue_iff.2 ⟨q2.record w1, mapM_mono (fun _ _ => q2.record) w2, q4, rfl⟩
          · simp only [if_neg he']
            exact ⟨s3, by rw [v3, ← htv, f4], trivial, xx⟩
    · simp only [if_neg he]
      exact ⟨h, hf, trivial, Extends.refl _⟩

theorem setType_facts {grow : Nat → Nat} (hg : Spec.Grows grow) {m : Memory} (h : Sound m) (name : Bytes) {f : File} (hf : m.fileValue = some f) :
    Sound (m.setType grow name).1 ∧ (m.setType grow name).1.fileValue = some (f.setType name).1 ∧ (m.setType grow name).2 = (f.setType name).2 ∧
      Extends m (m.setType grow name).1 := by
  unfold Memory.setType File.setType
  by_cases hn : name ≠ Enc.character.name ∧ name ≠ Enc.packed.name
  · simp only [if_pos hn]; exact ⟨h, hf, trivial, Extends.refl _⟩
  · simp only [if_neg hn, (fileValue_iff.1 hf).2.2.2]
    by_cases he : f.format = if name = Enc.character.name then Enc.character else Enc.packed
    · simp only [if_pos he]; exact ⟨h, hf, trivial, Extends.refl _⟩
    · simp only [if_neg he]; exact convert_facts hg h _ hf

end Metro2
