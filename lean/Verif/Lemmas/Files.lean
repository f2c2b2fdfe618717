import Verif.Spec.Files
import Verif.Lemmas.Totals

/-! Validation of records and files. -/

namespace Metro2

theorem validateLoop_none (fmt : Format) (custom : F → Option Err) (fs : Fields) :
    validateLoop fmt custom fs = none ↔ ∀ p ∈ fs, missing fmt p.1 p.2 = false ∧ custom p.1 = none := by
  induction fs with
  | nil => simp [validateLoop]
  | cons p fs ih =>
    obtain ⟨f, v⟩ := p
    rw [validateLoop]
    by_cases hm : missing fmt f v = true
    · rw [if_pos hm]
      simp [hm]
    · rw [if_neg hm]
      have hm : missing fmt f v = false := by simpa using hm
      cases hc : custom f with
      | some e => simp [hc]
      | none => simp [hm, hc, ih]

theorem firstInvalid_none (rs : List Record) : firstInvalid rs = none ↔ ∀ r ∈ rs, r.validate = none := by
  induction rs with
  | nil => simp [firstInvalid]
  | cons r rs ih =>
    rw [firstInvalid]
    cases h : r.validate with
    | some e => simp [h]
    | none => simp [h, ih]

theorem compareTotals_none (tr info : Fields) : compareTotals tr info = none ↔
    ∀ p ∈ info, p.1 ≠ .BlockDescriptorWord → p.1 ≠ .RecordDescriptorWord → p.1 ≠ .RecordIdentifier →
      tr.get p.1 = some p.2 := by
  induction info with
  | nil => simp [compareTotals]
  | cons p info ih =>
    obtain ⟨f, v⟩ := p
    rw [compareTotals]
    by_cases hx : f = .BlockDescriptorWord ∨ f = .RecordDescriptorWord ∨ f = .RecordIdentifier
    · rw [if_pos hx, ih]
      constructor
      · intro h p hp h1 h2 h3
        rcases List.mem_cons.1 hp with rfl | hp
        · rcases hx with hx | hx | hx
          · exact absurd hx h1
          · exact absurd hx h2
          · exact absurd hx h3
        · exact h p hp h1 h2 h3
      · exact fun h p hp => h p (List.mem_cons_of_mem _ hp)
    · rw [if_neg hx]
      simp only [not_or] at hx
      cases hg : tr.get f with
      | none =>
        simp only [reduceCtorEq, false_iff]
        intro h
        have := h (f, v) List.mem_cons_self hx.1 hx.2.1 hx.2.2
        rw [hg] at this
        cases this
      | some w =>
        by_cases hv : v = w
        · simp only [hv, if_true, ih]
          subst hv
          constructor
          · intro h p hp h1 h2 h3
            rcases List.mem_cons.1 hp with rfl | hp
            · exact hg
            · exact h p hp h1 h2 h3
          · exact fun h p hp => h p (List.mem_cons_of_mem _ hp)
        · simp only [hv, if_false, reduceCtorEq, false_iff]
          intro h
          have := h (f, v) List.mem_cons_self hx.1 hx.2.1 hx.2.2
          rw [hg] at this
          exact hv (Option.some.inj this).symm

/-- Fields of the same struct are equal if all values are. -/
theorem Fields.ext_typed {decl : List (F × FieldDecl)} (hn : (decl.map (·.1)).Nodup) {a b : Fields}
    (ha : a.Typed decl) (hb : b.Typed decl) (h : ∀ f, a.get f = b.get f) : a = b := by
  have hna : (a.map (·.1)).Nodup := by rw [ha.names]; exact hn
  have hnb : (b.map (·.1)).Nodup := by rw [hb.names]; exact hn
  have hnames : a.map (·.1) = b.map (·.1) := by rw [ha.names, hb.names]
  clear ha hb hn
  induction a generalizing b with
  | nil =>
    cases b with
    | nil => rfl
    | cons => simp at hnames
  | cons p a ih =>
    cases b with
    | nil => simp at hnames
    | cons q b =>
      obtain ⟨f, v⟩ := p
      obtain ⟨g, w⟩ := q
      simp only [List.map_cons, List.cons.injEq] at hnames
      obtain ⟨rfl, hnames⟩ := hnames
      rw [List.map_cons, List.nodup_cons] at hna hnb
      have h1 := h f
      simp only [Fields.get, List.lookup_cons, beq_self_eq_true] at h1
      have hvw : v = w := Option.some.inj h1
      subst hvw
      have : a = b := by
        apply ih _ hna.2 hnb.2 hnames
        intro g
        by_cases hg : g = f
        · subst hg
          rw [Fields.get_none hna.1, Fields.get_none hnb.1]
        · have h2 := h g
          have hgf : (g == f) = false := by simp [hg]
          simpa only [Fields.get, List.lookup_cons, hgf] using h2
      rw [this]

theorem totals_or : ∀ p ∈ trailerRecordStruct,
    p.1 ∈ Spec.totals ∨ p.1 = .RecordDescriptorWord ∨ p.1 = .RecordIdentifier := by decide +kernel

theorem totals_ne : ∀ t ∈ Spec.totals,
    t ≠ .BlockDescriptorWord ∧ t ≠ .RecordDescriptorWord ∧ t ≠ .RecordIdentifier := by decide +kernel

/-- A list of records without one of another type, or the generator panics. -/
theorem generatorTrailer_cases (enc : Enc) (bases : List Record) :
    (∀ r ∈ bases, Spec.IsBase enc r) ∨
      (¬ (∀ r ∈ bases, Spec.IsBase enc r)) ∧ generatorTrailer enc bases = .error .panic := by
  have : ∀ info, (∀ r ∈ bases, Spec.IsBase enc r) ∨
      (¬ (∀ r ∈ bases, Spec.IsBase enc r)) ∧ generatorLoop enc bases info = .error .panic := by
    induction bases with
    | nil => intro _; left; simp
    | cons r bases ih =>
      intro info
      cases r with
      | header e fs =>
        right
        refine ⟨fun h => ?_, rfl⟩
        obtain ⟨_, _, h⟩ := h _ List.mem_cons_self
        cases h
      | trailer e fs =>
        right
        refine ⟨fun h => ?_, rfl⟩
        obtain ⟨_, _, h⟩ := h _ List.mem_cons_self
        cases h
      | base e fs g =>
        by_cases he : e = enc
        · subst he
          rcases ih (statisticRecord fs g info) with h | ⟨h, h'⟩
          · left
            intro r hr
            rcases List.mem_cons.1 hr with rfl | hr
            · exact ⟨fs, g, rfl⟩
            · exact h r hr
          · right
            refine ⟨fun hh => h fun r hr => hh r (List.mem_cons_of_mem _ hr), ?_⟩
            rw [generatorLoop, if_pos rfl, h']
        · right
          refine ⟨fun h => ?_, by rw [generatorLoop, if_neg he]⟩
          obtain ⟨_, _, h⟩ := h _ List.mem_cons_self
          injection h with h
          exact he h
  exact this _

/-- What `GeneratorTrailer` returns. -/
theorem File.generatorTrailer_spec {f : File} (hb : ∀ r ∈ f.bases, Spec.IsBase f.format r) :
    ∃ fs, f.generatorTrailer = .ok (.trailer f.format fs) ∧ fs.Typed trailerRecordStruct ∧
      fs.get .RecordDescriptorWord = some (.int f.format.recordLength) ∧
      fs.get .RecordIdentifier = some (.str (b! "TRAILER")) ∧
      ∀ t ∈ Spec.totals, fs.get t = some (.int (Spec.total t f.bases)) := by
  obtain ⟨info, h1, h2, h3, h4⟩ := Metro2.generatorTrailer_spec hb
  refine ⟨_, by rw [File.generatorTrailer, h1], ?_, ?_, ?_, ?_⟩
  · refine (h2.set fun d hd => ?_).set fun d hd => ?_
    · have : ∀ p ∈ trailerRecordStruct, p.1 = .RecordDescriptorWord → (Val.int 0).hasKind p.2.kind = true := by
        decide +kernel
      have := this _ hd rfl
      simp only at this ⊢
      cases hk : d.kind <;> rw [hk] at this <;> first | rfl | cases this
    · have : ∀ p ∈ trailerRecordStruct, p.1 = .RecordIdentifier → (Val.str (b! "TRAILER")).hasKind p.2.kind = true := by
        decide +kernel
      exact this _ hd rfl
  · rw [get_set_other (by decide), Fields.get_set, if_pos rfl, h4 _ (by decide +kernel)]
    rfl
  · rw [Fields.get_set, if_pos rfl, get_set_other (by decide), h4 _ (by decide +kernel)]
    rfl
  · intro t ht
    obtain ⟨-, n2, n3⟩ := totals_ne t ht
    rw [get_set_other n3, get_set_other n2, h3 t ht]

theorem File.generatorTrailer_ok {f : File} {t : Record} (h : f.generatorTrailer = .ok t) :
    (∀ r ∈ f.bases, Spec.IsBase f.format r) := by
  rcases generatorTrailer_cases f.format f.bases with hb | ⟨-, hb⟩
  · exact hb
  · rw [File.generatorTrailer, hb] at h
    cases h

theorem trailer_required (enc : Enc) : ∀ p ∈ enc.trailerFormat, p.2.req = .required →
    p.1 ∈ [F.RecordDescriptorWord, .RecordIdentifier, .TotalBaseRecords, .BlockCount] := by
  cases enc <;> decide +kernel

/-- A trailer of the right types is valid if these four values are given. -/
theorem trailer_valid {enc : Enc} {fs : Fields} (ht : fs.Typed trailerRecordStruct)
    (h : ∀ f ∈ [F.RecordDescriptorWord, .RecordIdentifier, .TotalBaseRecords, .BlockCount], ∀ v, fs.get f = some v →
      v.isZero = false) : (Record.trailer enc fs).validate = none := by
  rw [Record.validate, validateLoop_none]
  rintro ⟨f, v⟩ hp
  refine ⟨?_, rfl⟩
  unfold missing
  cases hl : enc.trailerFormat.lookup f with
  | none => rfl
  | some e =>
    by_cases hr : e.req = .required
    · have := trailer_required enc (f, e) (lookup_mem hl) hr
      have := h f this v (Fields.get_of_mem (by rw [ht.names]; exact trailer_nodup) hp)
      simp [this]
    · simp [hr]

theorem File.convert_ok {f g : File} {dst : Enc} (h : f.convert dst = (g, none)) :
    ∃ hd bs tr, convertHeader f.format dst f.header = some hd ∧ convertBases f.format dst f.bases = some bs ∧
      convertTrailer f.format dst f.trailer = some tr ∧ g = ⟨dst, hd, bs, tr⟩ := by
  unfold File.convert at h
  cases h1 : convertHeader f.format dst f.header with
  | none => rw [h1] at h; cases h
  | some hd =>
    rw [h1] at h
    cases h2 : convertBases f.format dst f.bases with
    | none => simp only [h2] at h; cases h
    | some bs =>
      simp only [h2] at h
      cases h3 : convertTrailer f.format dst f.trailer with
      | none => simp only [h3] at h; cases h
      | some tr =>
        simp only [h3] at h
        cases h
        exact ⟨hd, bs, tr, rfl, rfl, rfl, rfl⟩

theorem Enc.name_inj : ∀ a b : Enc, a.name = b.name → a = b := by
  intro a b
  cases a <;> cases b <;> decide +kernel

/-- The two type names. -/
theorem File.setType_name (f : File) (dst : Enc) :
    f.setType dst.name = if f.format = dst then (f, none) else f.convert dst := by
  unfold File.setType
  cases dst
  · rw [if_neg (by decide +kernel), if_pos rfl]
  · rw [if_neg (by decide +kernel), show (if Enc.packed.name = Enc.character.name then Enc.character else Enc.packed) =
      Enc.packed by decide +kernel]

theorem File.setType_other (f : File) {name : Bytes} (h : ∀ e : Enc, name ≠ e.name) :
    f.setType name = (f, some .invalidFile) := by
  unfold File.setType
  rw [if_pos ⟨h _, h _⟩]

end Metro2
