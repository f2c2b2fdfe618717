import Verif.Lemmas.Files
import Verif.Lemmas.Check
import Verif.Props.Samples

/-! Properties C27 and C34-C36: trailer totals. -/

namespace Metro2

/-- A file with two data records, with segments. -/
def Samples.file (enc : Enc) : File :=
  ⟨enc, .header enc (Samples.header 0 enc.recordLength), [
    .base enc (Samples.base 0 1164) Samples.segs,
    .base enc (Samples.base 0 enc.recordLength [(.AccountStatus, .str (b! "71")), (.PaymentRating, .str []),
      (.ECOACode, .str (b! "Z")), (.SocialSecurityNumber, .int 999999999)]) {}],
    .trailer enc (Samples.trailer enc.recordLength)⟩

theorem Samples.file_bases (enc : Enc) : ∀ r ∈ (Samples.file enc).bases, Spec.IsBase enc r := by
  intro r hr
  simp only [Samples.file, List.mem_cons, List.not_mem_nil, or_false] at hr
  rcases hr with rfl | rfl <;> exact ⟨_, _, rfl⟩

/-- C34. The generated trailer has the record length, the identifier TRAILER, and every total is the number of data
records and segments with the characteristic. -/
theorem C34_generated {f : File} (hb : ∀ r ∈ f.bases, Spec.IsBase f.format r) :
    ∃ fs, f.generatorTrailer = .ok (.trailer f.format fs) ∧ fs.Typed trailerRecordStruct ∧
      fs.get .RecordDescriptorWord = some (.int f.format.recordLength) ∧
      fs.get .RecordIdentifier = some (.str "TRAILER".toUTF8.data.toList) ∧
      ∀ t ∈ Spec.totals, fs.get t = some (.int (Spec.total t f.bases)) :=
  f.generatorTrailer_spec hb

/-- Case of `C34_only_data_records`. -/
example : ∃ fs, (Samples.file .character).generatorTrailer = .ok (.trailer .character fs) ∧
    fs.get .TotalStatusCode71 = some (.int 1) ∧ fs.get .TotalStatusCode13 = some (.int 1) ∧
    fs.get .TotalSocialNumbersAllSegments = some (.int 3) ∧ fs.get .TotalECOACodeZ = some (.int 2) ∧
    fs.get .BlockCount = some (.int 4) := by
  obtain ⟨fs, h1, -, -, -, h⟩ := C34_generated (f := Samples.file .character) (Samples.file_bases _)
  have hv : ([F.TotalStatusCode71, .TotalStatusCode13, .TotalSocialNumbersAllSegments, .TotalECOACodeZ,
      .BlockCount].map fun t => Spec.total t (Samples.file .character).bases) = [1, 1, 3, 2, 4] := by decide +kernel
  simp only [List.map_cons, List.map_nil, List.cons.injEq, and_true] at hv
  obtain ⟨v1, v2, v3, v4, v5⟩ := hv
  exact ⟨fs, h1, by rw [h _ (by decide +kernel), v1]; rfl, by rw [h _ (by decide +kernel), v2]; rfl,
    by rw [h _ (by decide +kernel), v3]; rfl, by rw [h _ (by decide +kernel), v4]; rfl,
    by rw [h _ (by decide +kernel), v5]; rfl⟩

/-- C34, in the other direction: a trailer is generated only from data records of the file's format. -/
theorem C34_only_data_records {f : File} {t : Record} (h : f.generatorTrailer = .ok t) :
    ∀ r ∈ f.bases, Spec.IsBase f.format r := File.generatorTrailer_ok h

/-- C27. `Validate` succeeds exactly if the header, the trailer and all data records are valid and all totals in
the trailer are right. -/
theorem C27_validate {f : File} (hb : ∀ r ∈ f.bases, Spec.IsBase f.format r) :
    f.validate = none ↔ f.header.validate = none ∧ f.trailer.validate = none ∧ (∀ r ∈ f.bases, r.validate = none) ∧
      ∀ t ∈ Spec.totals, f.trailer.fields.get t = some (.int (Spec.total t f.bases)) := by
  obtain ⟨info, h1, h2, h3, h4⟩ := generatorTrailer_spec hb
  unfold File.validate
  cases hh : f.header.validate with
  | some e => simp
  | none =>
    cases ht : f.trailer.validate with
    | some e => simp
    | none =>
      rw [← firstInvalid_none]
      cases hf : firstInvalid f.bases with
      | some e => simp
      | none =>
        simp only [h1, true_and]
        rw [compareTotals_none]
        constructor
        · intro h t ht
          obtain ⟨n1, n2, n3⟩ := totals_ne t ht
          exact h (t, .int (Spec.total t f.bases)) (Fields.mem_of_get (h3 t ht)) n1 n2 n3
        · rintro h ⟨t, v⟩ hp n1 n2 n3
          obtain ⟨d, hd, -⟩ := h2.mem hp
          have ht : t ∈ Spec.totals := by
            rcases totals_or _ hd with h | h | h
            · exact h
            · exact absurd h n2
            · exact absurd h n3
          have := Fields.get_of_mem (by rw [h2.names]; exact trailer_nodup) hp
          rw [h3 t ht] at this
          rw [← Option.some.inj this]
          exact h t ht

/-- C27: the totals of a valid file cannot be changed. -/
theorem C27_wrong_total {f : File} {e : Enc} {fs : Fields} (hb : ∀ r ∈ f.bases, Spec.IsBase f.format r)
    (htr : f.trailer = .trailer e fs) (h : f.validate = none) {t : F} (ht : t ∈ Spec.totals) {i : Int}
    (hi : fs.int t ≠ i) : ({ f with trailer := .trailer e (fs.set t (.int i)) } : File).validate ≠ none := by
  intro h'
  have h1 := ((C27_validate hb).1 h).2.2.2 t ht
  have h2 := ((C27_validate (f := { f with trailer := .trailer e (fs.set t (.int i)) }) hb).1 h').2.2.2 t ht
  rw [htr] at h1
  simp only [Record.fields] at h1 h2
  rw [Fields.get_set, if_pos rfl, h1] at h2
  simp only [Option.map_some, Option.some.injEq, Val.int.injEq] at h2
  apply hi
  rw [Fields.int, h1, h2]

theorem total_baseRecords {enc : Enc} {bases : List Record} (hb : ∀ r ∈ bases, Spec.IsBase enc r) :
    Spec.total .TotalBaseRecords bases = bases.length ∧ Spec.total .BlockCount bases = bases.length + 2 := by
  have : ∀ f, (f = .TotalBaseRecords ∨ f = .BlockCount) → (bases.map (Spec.weightOf f)).sum = bases.length := by
    intro f hf
    induction bases with
    | nil => rfl
    | cons r bases ih =>
      obtain ⟨fs, g, rfl⟩ := hb r List.mem_cons_self
      rw [List.map_cons, List.sum_cons, ih fun r hr => hb r (List.mem_cons_of_mem _ hr), List.length_cons]
      rcases hf with rfl | rfl <;> simp only [Spec.weightOf, Spec.weight] <;> omega
  constructor
  · rw [Spec.total, this _ (Or.inl rfl)]; rfl
  · rw [Spec.total, this _ (Or.inr rfl)]; rfl

theorem generated_trailer_valid {f : File} (hb : ∀ r ∈ f.bases, Spec.IsBase f.format r) (hne : f.bases ≠ []) :
    ∃ fs, f.generatorTrailer = .ok (.trailer f.format fs) ∧ (Record.trailer f.format fs).validate = none ∧
      ∀ t ∈ Spec.totals, fs.get t = some (.int (Spec.total t f.bases)) := by
  obtain ⟨fs, h1, h2, h3, h4, h5⟩ := f.generatorTrailer_spec hb
  have htot := total_baseRecords hb
  have hvalid : (Record.trailer f.format fs).validate = none := by
    apply trailer_valid h2
    intro g hg v hgv
    simp only [List.mem_cons, List.not_mem_nil, or_false] at hg
    rcases hg with rfl | rfl | rfl | rfl
    · rw [h3] at hgv
      cases hgv
      cases f.format <;> decide
    · rw [h4] at hgv
      cases hgv
      decide
    · rw [h5 _ (by decide +kernel), htot.1] at hgv
      cases hgv
      have : f.bases.length ≠ 0 := fun h => hne (List.eq_nil_of_length_eq_zero h)
      simp [Val.isZero, this]
    · rw [h5 _ (by decide +kernel), htot.2] at hgv
      cases hgv
      simp only [Val.isZero, decide_eq_false_iff_not]
      omega
  exact ⟨fs, h1, hvalid, h5⟩

/-- The generated trailer is accepted by `SetRecord` whatever the data records contain. -/
theorem generated_accepted {f : File} (hb : ∀ r ∈ f.bases, Spec.IsBase f.format r) (hne : f.bases ≠ []) :
    ∃ t, f.generatorTrailer = .ok t ∧ f.setRecord t = ({ f with trailer := t }, none) := by
  obtain ⟨fs, h1, hvalid, -⟩ := generated_trailer_valid hb hne
  refine ⟨_, h1, ?_⟩
  rw [File.setRecord, hvalid]
  simp

/-- C36. With at least one data record, header and data records valid: the generated trailer is accepted by
`SetRecord`, which changes nothing else, and the file is then valid. -/
theorem C36_generated_valid {f : File} (hb : ∀ r ∈ f.bases, Spec.IsBase f.format r) (hne : f.bases ≠ [])
    (hh : f.header.validate = none) (hv : ∀ r ∈ f.bases, r.validate = none) :
    ∃ t, f.generatorTrailer = .ok t ∧ f.setRecord t = ({ f with trailer := t }, none) ∧
      ({ f with trailer := t } : File).validate = none := by
  obtain ⟨fs, h1, hvalid, h5⟩ := generated_trailer_valid hb hne
  refine ⟨_, h1, ?_, ?_⟩
  · rw [File.setRecord, hvalid]
    simp
  · exact (C27_validate (f := { f with trailer := .trailer f.format fs }) hb).2 ⟨hh, hvalid, hv, h5⟩

/-- C36. Without data records `SetRecord` refuses the generated trailer. -/
theorem C36_empty_refused {f : File} (hb : f.bases = []) :
    ∃ t, f.generatorTrailer = .ok t ∧ f.setRecord t = (f, some (.required .TotalBaseRecords)) := by
  obtain ⟨enc, h, bs, tr⟩ := f
  simp only at hb
  subst hb
  have key : ∀ enc, ∃ t, (newFile enc).generatorTrailer = .ok t ∧
      t.validate = some (.required .TotalBaseRecords) := by
    intro enc
    cases enc
    · exact ⟨_, rfl, by decide +kernel⟩
    · exact ⟨_, rfl, by decide +kernel⟩
  obtain ⟨t, h1, h2⟩ := key enc
  exact ⟨t, h1, by unfold File.setRecord; rw [h2]⟩

theorem Samples.file_valid (enc : Enc) : (Samples.file enc).header.validate = none ∧
    ∀ r ∈ (Samples.file enc).bases, r.validate = none := by
  cases enc <;> decide +kernel

example : ∃ t, (Samples.file .packed).generatorTrailer = .ok t ∧
    (Samples.file .packed).setRecord t = ({ Samples.file .packed with trailer := t }, none) ∧
    ({ Samples.file .packed with trailer := t } : File).validate = none :=
  C36_generated_valid (Samples.file_bases .packed) (by decide) (Samples.file_valid _).1 (Samples.file_valid _).2

example : ∃ t e, (newFile .character).generatorTrailer = .ok t ∧
    (newFile .character).setRecord t = (newFile .character, some e) := by
  obtain ⟨t, h⟩ := C36_empty_refused (f := newFile .character) rfl
  exact ⟨t, _, h⟩

/-- A valid file with two data records. -/
example : ∃ t, ({ Samples.file .character with trailer := t } : File).validate = none ∧
    Spec.total .TotalStatusCode71 (Samples.file .character).bases = 1 := by
  obtain ⟨t, -, -, h⟩ := C36_generated_valid (Samples.file_bases .character) (by decide) (Samples.file_valid _).1
    (Samples.file_valid _).2
  exact ⟨t, h, by decide +kernel⟩

/-- The trailer of the sample file has wrong totals. -/
example : (Samples.file .character).validate ≠ none := fun h =>
  absurd (((C27_validate (Samples.file_bases .character)).1 h).2.2.2 .BlockCount (by decide +kernel)) (by decide +kernel)

/-! ### C35 -/

theorem total_append (f : F) (a b : List Record) :
    Spec.total f (a ++ b) + (if f = .BlockCount then 2 else 0) = Spec.total f a + Spec.total f b := by
  unfold Spec.total
  rw [List.map_append, List.sum_append]
  omega

theorem total_perm (f : F) {a b : List Record} (h : a.Perm b) : Spec.total f a = Spec.total f b := by
  unfold Spec.total
  rw [(h.map (Spec.weightOf f)).sum_eq]

/-- C35. The generated trailer does not depend on the order of the data records. -/
theorem C35_order {f g : File} (hfmt : f.format = g.format) (hp : f.bases.Perm g.bases) :
    f.generatorTrailer = g.generatorTrailer := by
  rcases generatorTrailer_cases f.format f.bases with hf | ⟨hf, hf'⟩
  · have hg : ∀ r ∈ g.bases, Spec.IsBase g.format r := by
      intro r hr
      rw [← hfmt]
      exact hf r (hp.mem_iff.2 hr)
    obtain ⟨a, a1, a2, a3, a4, a5⟩ := f.generatorTrailer_spec hf
    obtain ⟨b, b1, b2, b3, b4, b5⟩ := g.generatorTrailer_spec hg
    rw [a1, b1, hfmt]
    congr 2
    apply Fields.ext_typed trailer_nodup a2 b2
    intro t
    by_cases ht : t ∈ trailerRecordStruct.map (·.1)
    · obtain ⟨p, hp', rfl⟩ := List.mem_map.1 ht
      rcases totals_or p hp' with h | h | h
      · rw [a5 _ h, b5 _ h, total_perm _ hp]
      · rw [h, a3, b3, hfmt]
      · rw [h, a4, b4]
    · rw [Fields.get_none (by rw [a2.names]; exact ht), Fields.get_none (by rw [b2.names]; exact ht)]
  · rcases generatorTrailer_cases g.format g.bases with hg | ⟨-, hg⟩
    · exact absurd (fun r hr => by rw [hfmt]; exact hg r (hp.mem_iff.1 hr)) hf
    · rw [File.generatorTrailer, File.generatorTrailer, hf', hg]

/-- C35. Totals add up when files are concatenated; the block counts add up to two more. -/
theorem C35_concat {f g h : File} (hb : h.bases = f.bases ++ g.bases) {tf tg th : Record}
    (hf : f.generatorTrailer = .ok tf) (hg : g.generatorTrailer = .ok tg) (hh : h.generatorTrailer = .ok th)
    {t : F} (ht : t ∈ Spec.totals) :
    th.fields.int t + (if t = .BlockCount then 2 else 0) = tf.fields.int t + tg.fields.int t := by
  obtain ⟨a, a1, -, -, -, a5⟩ := f.generatorTrailer_spec (File.generatorTrailer_ok hf)
  obtain ⟨b, b1, -, -, -, b5⟩ := g.generatorTrailer_spec (File.generatorTrailer_ok hg)
  obtain ⟨c, c1, -, -, -, c5⟩ := h.generatorTrailer_spec (File.generatorTrailer_ok hh)
  rw [a1] at hf; rw [b1] at hg; rw [c1] at hh
  cases hf; cases hg; cases hh
  have := total_append t f.bases g.bases
  rw [← hb] at this
  simp only [Record.fields, Fields.int, a5 t ht, b5 t ht, c5 t ht]
  split at this <;> split <;> first | omega | contradiction

/-- C35. The concatenation has a trailer if both parts have. -/
theorem C35_concat_ok {f g h : File} (h1 : f.format = h.format) (h2 : g.format = h.format)
    (hb : h.bases = f.bases ++ g.bases) {tf tg : Record} (hf : f.generatorTrailer = .ok tf)
    (hg : g.generatorTrailer = .ok tg) : ∃ th, h.generatorTrailer = .ok th := by
  obtain ⟨c, c1, -⟩ := h.generatorTrailer_spec (by
    intro r hr
    rw [hb] at hr
    rcases List.mem_append.1 hr with hr | hr
    · rw [← h1]; exact File.generatorTrailer_ok hf r hr
    · rw [← h2]; exact File.generatorTrailer_ok hg r hr)
  exact ⟨_, c1⟩

/-- Case of `C35_concat`. -/
example : ∃ th, (⟨.packed, newHeader .packed, (Samples.file .packed).bases ++ (Samples.file .packed).bases,
    newTrailer .packed⟩ : File).generatorTrailer = .ok th := by
  obtain ⟨t, h, -⟩ := C34_generated (f := Samples.file .packed) (Samples.file_bases _)
  exact C35_concat_ok (f := Samples.file .packed) (g := Samples.file .packed) rfl rfl rfl h h

/-- C35. The totals over all segments are the sums over the data records, J1 and J2 segments. -/
theorem C35_sums {f : File} {t : Record} (h : f.generatorTrailer = .ok t) :
    t.fields.int .TotalSocialNumbersAllSegments = t.fields.int .TotalSocialNumbersBaseSegments +
      t.fields.int .TotalSocialNumbersJ1Segments + t.fields.int .TotalSocialNumbersJ2Segments ∧
    t.fields.int .TotalDatesBirthAllSegments = t.fields.int .TotalDatesBirthBaseSegments +
      t.fields.int .TotalDatesBirthJ1Segments + t.fields.int .TotalDatesBirthJ2Segments := by
  have hb := File.generatorTrailer_ok h
  obtain ⟨a, a1, -, -, -, a5⟩ := f.generatorTrailer_spec hb
  rw [a1] at h
  cases h
  have key : ∀ b : List Record,
      Spec.total .TotalSocialNumbersAllSegments b = Spec.total .TotalSocialNumbersBaseSegments b +
        Spec.total .TotalSocialNumbersJ1Segments b + Spec.total .TotalSocialNumbersJ2Segments b ∧
      Spec.total .TotalDatesBirthAllSegments b = Spec.total .TotalDatesBirthBaseSegments b +
        Spec.total .TotalDatesBirthJ1Segments b + Spec.total .TotalDatesBirthJ2Segments b := by
    intro b
    simp only [Spec.total, reduceCtorEq, if_false, Nat.add_zero]
    induction b with
    | nil => simp
    | cons r b ih =>
      simp only [List.map_cons, List.sum_cons]
      cases r with
      | base e fs g =>
        simp only [Spec.weightOf, Spec.weight]
        omega
      | header => simp only [Spec.weightOf]; omega
      | trailer => simp only [Spec.weightOf]; omega
  have := key f.bases
  have m : ∀ t ∈ [F.TotalSocialNumbersAllSegments, .TotalSocialNumbersBaseSegments, .TotalSocialNumbersJ1Segments,
      .TotalSocialNumbersJ2Segments, .TotalDatesBirthAllSegments, .TotalDatesBirthBaseSegments,
      .TotalDatesBirthJ1Segments, .TotalDatesBirthJ2Segments],
      (Record.trailer f.format a).fields.int t = Spec.total t f.bases := by
    intro t ht
    have : ∀ t ∈ [F.TotalSocialNumbersAllSegments, .TotalSocialNumbersBaseSegments, .TotalSocialNumbersJ1Segments,
      .TotalSocialNumbersJ2Segments, .TotalDatesBirthAllSegments, .TotalDatesBirthBaseSegments,
      .TotalDatesBirthJ1Segments, .TotalDatesBirthJ2Segments], t ∈ Spec.totals := by decide +kernel
    rw [Record.fields, Fields.int, a5 t (this t ht)]
  rw [m _ (by simp), m _ (by simp), m _ (by simp), m _ (by simp), m _ (by simp), m _ (by simp), m _ (by simp),
    m _ (by simp)]
  omega

example : ∃ t, (Samples.file .packed).generatorTrailer = .ok t ∧
    t.fields.int .TotalDatesBirthAllSegments ≠ t.fields.int .TotalDatesBirthBaseSegments := by
  obtain ⟨fs, h, -, -, -, h5⟩ := C34_generated (f := Samples.file .packed) (Samples.file_bases _)
  refine ⟨_, h, ?_⟩
  rw [Record.fields, Fields.int, Fields.int, h5 _ (by decide +kernel), h5 _ (by decide +kernel)]
  decide +kernel

theorem status_weights (fs : Fields) (g : Segs) : (Spec.statusTotals.map fun p => Spec.weight p.1 fs g) =
    Spec.statusTotals.map fun p => Spec.one (fs.str .AccountStatus = p.2) := rfl

theorem sum_one {α : Type} [DecidableEq α] (s : α) (T : List (F × α)) (hn : (T.map (·.2)).Nodup) :
    (T.map fun p => Spec.one (s = p.2)).sum = Spec.one (s ∈ T.map (·.2)) := by
  induction T with
  | nil => simp [Spec.one]
  | cons p T ih =>
    rw [List.map_cons, List.nodup_cons] at hn
    rw [List.map_cons, List.sum_cons, ih hn.2]
    by_cases h : s = p.2
    · have : s ∉ T.map (·.2) := by rw [h]; exact hn.1
      rw [Spec.one, if_pos h, Spec.one, if_neg this, Spec.one, if_pos (by rw [List.map_cons, h]; exact List.mem_cons_self)]
    · rw [Spec.one, if_neg h]
      by_cases hm : s ∈ T.map (·.2)
      · rw [Spec.one, if_pos hm, Spec.one, if_pos (by rw [List.map_cons]; exact List.mem_cons_of_mem _ hm)]
      · rw [Spec.one, if_neg hm, Spec.one, if_neg (by rw [List.map_cons, List.mem_cons]; exact fun h' => h'.elim h hm)]

theorem sum_total (T : List F) (hT : F.BlockCount ∉ T) (bases : List Record) :
    (T.map fun t => Spec.total t bases).sum = (bases.map fun r => (T.map fun t => Spec.weightOf t r).sum).sum := by
  induction T with
  | nil =>
    have : ∀ l : List Record, (l.map fun _ => (0 : Nat)).sum = 0 := by
      intro l; induction l with
      | nil => rfl
      | cons r l ih => rw [List.map_cons, List.sum_cons, ih]
    exact (this bases).symm
  | cons t T ih =>
    simp only [List.mem_cons, not_or] at hT
    rw [List.map_cons, List.sum_cons, ih hT.2, Spec.total, if_neg (fun h => hT.1 h.symm), Nat.add_zero]
    clear ih
    induction bases with
    | nil => rfl
    | cons r bases ih =>
      simp only [List.map_cons, List.sum_cons] at ih ⊢
      omega

theorem intSum (T : List F) (v : F → Int) (n : F → Nat) (h : ∀ t ∈ T, v t = n t) : (T.map v).sum = ((T.map n).sum : Nat) := by
  induction T with
  | nil => rfl
  | cons t T ih =>
    rw [List.map_cons, List.map_cons, List.sum_cons, List.sum_cons, ih fun t ht => h t (List.mem_cons_of_mem _ ht),
      h t List.mem_cons_self]
    omega

/-- The record has one of the 23 statuses. -/
def hasStatus (r : Record) : Nat := Spec.one (r.fields.str .AccountStatus ∈ Spec.statusTotals.map (·.2))

theorem status_record (e : Enc) (fs : Fields) (g : Segs) :
    ((Spec.statusTotals.map (·.1)).map fun t => Spec.weightOf t (.base e fs g)).sum = hasStatus (.base e fs g) := by
  have h3 : ((Spec.statusTotals.map (·.1)).map fun t => Spec.weightOf t (.base e fs g)) =
      Spec.statusTotals.map fun p => Spec.weight p.1 fs g := by rw [List.map_map]; rfl
  have h4 : (Spec.statusTotals.map (·.2)).Nodup := by decide +kernel
  rw [h3, status_weights, sum_one _ _ h4]
  unfold hasStatus Spec.one
  by_cases h : fs.str .AccountStatus ∈ Spec.statusTotals.map (·.2)
  · rw [if_pos h]; exact (if_pos h).symm
  · rw [if_neg h]; exact (if_neg h).symm

theorem status_sum {f : File} {t : Record} (h : f.generatorTrailer = .ok t) :
    ((Spec.statusTotals.map (·.1)).map t.fields.int).sum = ((f.bases.map hasStatus).sum : Nat) := by
  have hb := File.generatorTrailer_ok h
  obtain ⟨a, a1, -, -, -, a5⟩ := f.generatorTrailer_spec hb
  rw [a1] at h
  cases h
  have h2 := intSum (Spec.statusTotals.map (·.1)) a.int (fun t => Spec.total t f.bases) (by
    intro t ht
    rw [Fields.int, a5 t (List.mem_append_left _ ht)])
  have hbc : F.BlockCount ∉ Spec.statusTotals.map (·.1) := by decide +kernel
  have h3 : (f.bases.map fun r => ((Spec.statusTotals.map (·.1)).map fun t => Spec.weightOf t r).sum) =
      f.bases.map hasStatus := by
    apply List.map_congr_left
    intro r hr
    obtain ⟨fs, g, rfl⟩ := hb r hr
    exact status_record _ fs g
  rw [sum_total _ hbc f.bases, h3] at h2
  exact h2

/-- C35. The status totals add up to at most the number of data records, ... -/
theorem C35_status_le {f : File} {t : Record} (h : f.generatorTrailer = .ok t) :
    ((Spec.statusTotals.map (·.1)).map t.fields.int).sum ≤ f.bases.length := by
  rw [status_sum h]
  have : ∀ l : List Record, (l.map hasStatus).sum ≤
      l.length := by
    intro l
    induction l with
    | nil => simp
    | cons r l ih =>
      rw [List.map_cons, List.sum_cons, List.length_cons]
      have : hasStatus r ≤ 1 := by
        unfold hasStatus Spec.one; split <;> omega
      omega
  have := this f.bases
  omega

theorem status_valid {enc : Enc} {fs : Fields} {g : Segs} (ht : fs.Typed baseSegmentStruct)
    (hv : (Record.base enc fs g).validate = none) :
    fs.str .AccountStatus ∈ Spec.statusTotals.map (·.2) := by
  rw [Record.validate, validateLoop_none] at hv
  have hm : F.AccountStatus ∈ fs.map (·.1) := by rw [ht.names]; decide +kernel
  obtain ⟨p, hp, hpf⟩ := List.mem_map.1 hm
  have := (hv p hp).2
  rw [hpf, baseCustom, check] at this
  have hc : accountStatuses.contains (fs.str .AccountStatus) = true := by
    cases hc : accountStatuses.contains (fs.str .AccountStatus) with
    | true => rfl
    | false => rw [hc] at this; simp at this
  have hsub : ∀ c ∈ accountStatuses, c ∈ Spec.statusTotals.map (·.2) := by decide +kernel
  exact hsub _ (by simpa using hc)

/-- C35. ... and to exactly that number if all data records are valid. -/
theorem C35_status_eq {f : File} {t : Record} (h : f.generatorTrailer = .ok t)
    (hty : ∀ r ∈ f.bases, Spec.WellTyped r) (hv : ∀ r ∈ f.bases, r.validate = none) :
    ((Spec.statusTotals.map (·.1)).map t.fields.int).sum = f.bases.length := by
  rw [status_sum h]
  have hb := File.generatorTrailer_ok h
  have : ∀ l : List Record, (∀ r ∈ l, r ∈ f.bases) →
      (l.map hasStatus).sum = l.length := by
    intro l hl
    induction l with
    | nil => simp
    | cons r l ih =>
      rw [List.map_cons, List.sum_cons, List.length_cons, ih fun r hr => hl r (List.mem_cons_of_mem _ hr)]
      have hr := hl r List.mem_cons_self
      obtain ⟨fs, g, rfl⟩ := hb r hr
      have : hasStatus (Record.base f.format fs g) = 1 :=
        if_pos (status_valid (hty _ hr) (hv _ hr))
      omega
  rw [this f.bases fun _ h => h]

theorem Samples.file_typed (enc : Enc) : ∀ r ∈ (Samples.file enc).bases, Spec.WellTyped r := by
  have h : ∀ r ∈ (Samples.file enc).bases, typedB baseSegmentStruct r.fields = true := by
    cases enc <;> decide +kernel
  intro r hr
  obtain ⟨fs, g, rfl⟩ := Samples.file_bases enc r hr
  have := h _ hr
  exact typed_of_typedB (fs := fs) this

/-- Case of `C35_status_le`. -/
example : ∃ t, (Samples.file .packed).generatorTrailer = .ok t ∧
    ((Spec.statusTotals.map (·.1)).map t.fields.int).sum = 2 := by
  obtain ⟨fs, h, -⟩ := C34_generated (f := Samples.file .packed) (Samples.file_bases _)
  have h1 := Samples.file_typed .packed
  have h2 := (Samples.file_valid .packed).2
  have h3 : ((Samples.file .packed).bases.length : Int) = 2 := by decide
  generalize Samples.file .packed = f at h h1 h2 h3 ⊢
  rw [← h3]
  exact ⟨_, h, C35_status_eq h h1 h2⟩

/-- The values in the trailer of the converted file. -/
theorem convertBases_weights {src dst : Enc} {bs bs' : List Record} (h : convertBases src dst bs = some bs') (t : F) :
    bs.map (Spec.weightOf t) = bs'.map (Spec.weightOf t) := by
  induction bs generalizing bs' with
  | nil => cases h; rfl
  | cons r bs ih =>
    rw [convertBases] at h
    cases hr : convertBase src dst r with
    | none => rw [hr] at h; cases h
    | some r' =>
      rw [hr] at h
      cases hbs : convertBases src dst bs with
      | none => rw [hbs] at h; cases h
      | some bs1 =>
        rw [hbs] at h
        cases h
        rw [List.map_cons, List.map_cons, ih hbs]
        cases r with
        | header => cases hr
        | trailer => cases hr
        | base e fs g =>
          rw [convertBase] at hr
          split at hr
          · cases hr; rfl
          · cases hr

theorem setType_weights {f g : File} {name : Bytes} (h : f.setType name = (g, none)) (t : F) :
    f.bases.map (Spec.weightOf t) = g.bases.map (Spec.weightOf t) := by
  by_cases hn : ∃ e : Enc, name = e.name
  · obtain ⟨dst, rfl⟩ := hn
    rw [File.setType_name] at h
    by_cases hd : f.format = dst
    · rw [if_pos hd] at h
      cases h; rfl
    · rw [if_neg hd] at h
      obtain ⟨hd, bs, tr, -, hbs, -, rfl⟩ := File.convert_ok h
      exact convertBases_weights hbs t
  · rw [File.setType_other f fun e he => hn ⟨e, he⟩] at h
    cases h

/-- C35. A converted file has the same totals. -/
theorem C35_converted {f g : File} {name : Bytes} (h : f.setType name = (g, none)) {tf tg : Record}
    (hf : f.generatorTrailer = .ok tf) (hg : g.generatorTrailer = .ok tg) {t : F} (ht : t ∈ Spec.totals) :
    tf.fields.get t = tg.fields.get t := by
  obtain ⟨a, a1, -, -, -, a5⟩ := f.generatorTrailer_spec (File.generatorTrailer_ok hf)
  obtain ⟨b, b1, -, -, -, b5⟩ := g.generatorTrailer_spec (File.generatorTrailer_ok hg)
  rw [a1] at hf; rw [b1] at hg
  cases hf; cases hg
  rw [Record.fields, Record.fields, a5 t ht, b5 t ht, Spec.total, Spec.total, setType_weights h t]

example : ((Samples.file .character).setType (b! "packed")).2 = none ∧
    ((Samples.file .character).setType (b! "packed")).1.format = .packed := by decide +kernel

/-- Case of `C35_order`. Another order of the data records. -/
example : ((Samples.file .character).bases.Perm (Samples.file .character).bases.reverse) ∧
    (Samples.file .character).bases.reverse ≠ (Samples.file .character).bases :=
  ⟨(List.reverse_perm _).symm, by decide +kernel⟩

/-- A valid file that becomes invalid by a change of its trailer. -/
example : ∃ fs, ({ Samples.file .packed with trailer := .trailer .packed fs } : File).validate = none ∧
    ({ Samples.file .packed with trailer := .trailer .packed (fs.set .TotalStatusCode05 (.int 1)) } : File).validate ≠
      none := by
  obtain ⟨fs, h1, -, -, -, h5⟩ := C34_generated (f := Samples.file .packed) (Samples.file_bases _)
  obtain ⟨t, h1', -, h3⟩ := C36_generated_valid (Samples.file_bases .packed) (by decide) (Samples.file_valid _).1
    (Samples.file_valid _).2
  rw [h1] at h1'
  cases h1'
  have hne : fs.int .TotalStatusCode05 ≠ 1 := by
    rw [Fields.int, h5 _ (by decide +kernel)]
    decide +kernel
  exact ⟨fs, h3, C27_wrong_total (f := { Samples.file .packed with trailer := .trailer .packed fs })
    (Samples.file_bases _) rfl h3 (by decide +kernel) hne⟩

end Metro2
