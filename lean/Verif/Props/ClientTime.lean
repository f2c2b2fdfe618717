import Verif.Lemmas.ClientOwn
import Verif.Props.Client

/-! C85: the times of the client. -/

namespace Metro2

open Samples

/-! ### One time -/

/-- C85: an existing time, with whatever fraction of a second, is written by the client, and client and service both read it as the same time in a zone of
whole minutes. -/
theorem C85_time (zone : LocalZone) (env : JsonEnv) (t : Time) (h : Spec.ExistingTime t) (hn : t.nsec < 1000000000) (hz : t.loc.offset.natAbs < 86400) :
    ∃ j, encodeClientTime t = some j ∧ decodeClientTime zone j = some (Spec.sentTime t) ∧ decodeTime env j = some (Spec.sentTime t) := by
  have hi := instantText_nano h hn hz
  exact ⟨_, encodeClientTime_existing h hz, decodeClientTime_instant zone (sentTime_existing h) hi, decodeTime_instant env (sentTime_existing h) hi⟩

/-- C85: it is read as it was exactly if its zone is UTC or whole minutes away from it. -/
theorem C85_time_iff (zone : LocalZone) (env : JsonEnv) (t : Time) (h : Spec.ExistingTime t) (hn : t.nsec < 1000000000)
    (hz : t.loc.offset.natAbs < 86400) :
    (∃ j, encodeClientTime t = some j ∧ decodeClientTime zone j = some t ∧ decodeTime env j = some t) ↔ Spec.WholeZone t := by
  obtain ⟨j, h1, h2, h3⟩ := C85_time zone env t h hn hz
  rw [← sentTime_iff]
  constructor
  · rintro ⟨j', h4, h5, -⟩
    rw [h1] at h4
    cases h4
    rw [h2] at h5
    exact Option.some.inj h5
  · intro hs
    rw [hs] at h2 h3
    exact ⟨j, h1, h2, h3⟩

/-- A time in the sixties, a millionth of a second past, in the zone of Liberia of that time. -/
def Samples.monrovia : Time := ⟨1964, 2, 29, 23, 59, 59, 1000, .zone (-2670)⟩

theorem Samples.monrovia_exists : Spec.ExistingTime monrovia := (existing_iff _).2 (by decide)

/-- Its text, and what is read of it. -/
example (zone : LocalZone) (env : JsonEnv) : encodeClientTime monrovia = some (.str (b! "1964-02-29T23:59:59.000001-00:44")) ∧
    decodeClientTime zone (.str (b! "1964-02-29T23:59:59.000001-00:44")) = some ⟨1964, 2, 29, 23, 59, 59, 1000, .zone (-2640)⟩ ∧
    decodeTime env (.str (b! "1964-02-29T23:59:59.000001-00:44")) = some ⟨1964, 2, 29, 23, 59, 59, 1000, .zone (-2640)⟩ := by
  have hj : encodeClientTime monrovia = some (.str (b! "1964-02-29T23:59:59.000001-00:44")) := by
    rw [encodeClientTime_existing monrovia_exists (by decide)]
    rfl
  obtain ⟨j, h1, h2, h3⟩ := C85_time zone env monrovia monrovia_exists (by decide) (by decide)
  rw [hj] at h1
  cases h1
  exact ⟨hj, h2, h3⟩

/-- It is not what it was. -/
example (zone : LocalZone) (env : JsonEnv) :
    ¬ ∃ j, encodeClientTime monrovia = some j ∧ decodeClientTime zone j = some monrovia ∧ decodeTime env j = some monrovia := by
  rw [C85_time_iff zone env _ monrovia_exists (by decide) (by decide)]
  rintro (h | ⟨m, _, h⟩)
  · cases h
  · have : (-2670 : Int) = 60 * m := Loc.zone.inj h
    omega

/-- A time of Kathmandu is. -/
example (zone : LocalZone) (env : JsonEnv) : ∃ j, encodeClientTime ⟨2024, 2, 29, 12, 0, 1, 999999999, .zone 20700⟩ = some j ∧
    decodeClientTime zone j = some ⟨2024, 2, 29, 12, 0, 1, 999999999, .zone 20700⟩ ∧
    decodeTime env j = some ⟨2024, 2, 29, 12, 0, 1, 999999999, .zone 20700⟩ :=
  (C85_time_iff zone env _ ((existing_iff _).2 (by decide)) (by decide) (by decide)).2 (.inr ⟨345, by decide, rfl⟩)

/-! ### A file -/

/-- C85: the client can write a file exactly if the year of every time in it has four digits and every zone is less than a day away from UTC. -/
theorem C85_written (f : ClientFile) : (∃ j, f.toJson = some j) ↔ Spec.TimesFile Spec.Writable f := by
  rw [← Option.isSome_iff_exists]
  exact clientFile_written_iff f

/-- C85: the client reads what it has written itself, with all times in zones of whole minutes. -/
theorem C85_own (zone : LocalZone) (f : ClientFile) (h : Spec.OwnFile f) :
    ∃ j, f.toJson = some j ∧ decodeClientFile zone j = some (Spec.sentFile f) := by
  obtain ⟨j, hj⟩ := (C85_written f).2 (ownFile_writable h)
  exact ⟨j, hj, decodeClientFile_own zone h hj⟩

/-- C85: it reads the very same file exactly if every zone is UTC or whole minutes away from it. -/
theorem C85_own_iff (zone : LocalZone) (f : ClientFile) (h : Spec.OwnFile f) :
    (∃ j, f.toJson = some j ∧ decodeClientFile zone j = some f) ↔ Spec.TimesFile Spec.WholeZone f := by
  obtain ⟨j, h1, h2⟩ := C85_own zone f h
  rw [← sentFile_iff h]
  constructor
  · rintro ⟨j', h3, h4⟩
    rw [h1] at h3
    cases h3
    rw [h2] at h4
    exact Option.some.inj h4
  · intro hs
    rw [hs] at h2
    exact ⟨j, h1, h2⟩

/-! ### A file of the client -/

theorem ownRec_zero (client : List (F × FieldDecl)) : Spec.OwnRec client (.zero client) := by
  intro f
  unfold ClientRec.zero
  cases client.lookup f with
  | none => rfl
  | some d =>
    cases ho : d.omitempty with
    | true => simp [ho]
    | false =>
      simp only [ho, Bool.false_eq_true, if_false]
      cases hk : d.kind with
      | int => exact ⟨by simp [Kind.zero, Val.hasKind], by simp [Kind.zero, Spec.OwnVal]⟩
      | int64 => exact ⟨by simp [Kind.zero, Val.hasKind], by simp [Kind.zero, Spec.OwnVal]⟩
      | str => exact ⟨by simp [Kind.zero, Val.hasKind], ⟨[], rfl⟩⟩
      | time => exact ⟨by simp [Kind.zero, Val.hasKind], (existing_iff _).2 (by decide), by decide, by decide⟩

theorem ownRec_put {client : List (F × FieldDecl)} {c : ClientRec} (hc : Spec.OwnRec client c) {f : F} {d : FieldDecl} {v : Val}
    (hl : client.lookup f = some d) (hk : v.hasKind d.kind = true) (hv : Spec.OwnVal d.kind v) : Spec.OwnRec client (c.put f (some v)) := by
  intro g
  by_cases hg : g = f
  · subst hg
    simp only [ClientRec.put, hl, if_true]
    exact ⟨hk, hv⟩
  · simp only [ClientRec.put, if_neg hg]
    exact hc g

/-- A file with a number, a text and a time, and a K4 segment with a date. -/
def Samples.clientSample (t : Time) : ClientFile where
  header := (((ClientRec.zero clientHeaderRecord).put .ActivityDate (some (.time t))).put .ReporterTelephoneNumber (some (.int 5555550123))).put
    .ReporterName (some (.str (b! "Café")))
  data := [{ base := .zero clientBaseSegment, k4 := some ((ClientRec.zero clientK4Segment).put .DeferredPaymentStartDate (some (.time t))) }]
  trailer := .zero clientTrailerRecord

theorem Samples.clientSample_own (t : Time) (h : Spec.ExistingTime t) (hn : t.nsec < 1000000000) (hz : t.loc.offset.natAbs < 86400) :
    Spec.OwnFile (clientSample t) := by
  refine ⟨?_, ?_, ownRec_zero _⟩
  · refine ownRec_put (d := ⟨.str, b! "reporterName", false⟩) (ownRec_put (d := ⟨.int64, b! "reporterTelephoneNumber", true⟩)
      (ownRec_put (d := ⟨.time, b! "activityDate", false⟩) (v := .time t) (ownRec_zero _) (by decide +kernel) rfl ⟨h, hn, hz⟩) (by decide +kernel) rfl ?_)
      (by decide +kernel) rfl ?_
    · simp [Spec.OwnVal]
    · exact ⟨['C', 'a', 'f', 'é'], by decide +kernel⟩
  · intro d hd
    simp only [clientSample, List.mem_singleton] at hd
    subst hd
    refine ⟨ownRec_zero _, by simp, by simp, by simp, by simp, by simp, ?_, by simp, by simp⟩
    intro c hc
    cases hc
    exact ownRec_put (d := ⟨.time, b! "deferredPaymentStartDate", true⟩) (ownRec_zero _) (by decide +kernel) rfl ⟨h, hn, hz⟩

/-- The client reads its own file with other times. -/
example (zone : LocalZone) : ∃ j, (clientSample monrovia).toJson = some j ∧
    decodeClientFile zone j = some (Spec.sentFile (clientSample monrovia)) :=
  C85_own zone _ (clientSample_own _ monrovia_exists (by decide) (by decide))

theorem Samples.clientSample_times (P : Time → Prop) (hz : P .zero) (t : Time) (h : P t) : Spec.TimesFile P (clientSample t) := by
  have hzero : ∀ client, Spec.TimesRec P client (.zero client) := by
    intro client p hp t ht
    unfold ClientRec.zero at ht
    split at ht
    · next d hd =>
      split at ht
      · cases ht
      · cases hk : d.kind <;> rw [hk] at ht <;> cases ht
        exact hz
    · cases ht
  have hput : ∀ client c f v, Spec.TimesRec P client c → (∀ t, v = .time t → P t) → Spec.TimesRec P client (c.put f (some v)) := by
    intro client c f v hc hv p hp t ht
    unfold ClientRec.put at ht
    split at ht
    · exact hv t (Option.some.inj ht)
    · exact hc p hp t ht
  refine ⟨?_, ?_, hzero _⟩
  · refine hput _ _ _ _ (hput _ _ _ _ (hput _ _ _ (.time t) (hzero _) ?_) ?_) ?_
    · intro _ ht; cases ht; exact h
    · intro _ ht; cases ht
    · intro _ ht; cases ht
  intro d hd
  simp only [clientSample, List.mem_singleton] at hd
  subst hd
  refine ⟨hzero _, by simp, by simp, by simp, by simp, by simp, ?_, by simp, by simp⟩
  intro c hc
  cases hc
  exact hput _ _ _ (.time t) (hzero _) fun _ ht => (by cases ht; exact h)

/-- A file that the client reads as it was, with a fraction of a second in a zone. -/
example (zone : LocalZone) : ∃ j, (clientSample ⟨2024, 2, 29, 12, 0, 1, 999999999, .zone 20700⟩).toJson = some j ∧
    decodeClientFile zone j = some (clientSample ⟨2024, 2, 29, 12, 0, 1, 999999999, .zone 20700⟩) :=
  (C85_own_iff zone _ (clientSample_own _ ((existing_iff _).2 (by decide)) (by decide) (by decide))).2
    (clientSample_times _ (.inl rfl) _ (.inr ⟨345, by decide, rfl⟩))

/-- A file that the client cannot write. -/
example : ¬ ∃ j, (clientSample ⟨10000, 1, 1, 0, 0, 0, 0, .utc⟩).toJson = some j := by
  rw [C85_written]
  intro h
  have := h.header (.ActivityDate, ⟨.time, b! "activityDate", false⟩) (by decide +kernel) ⟨10000, 1, 1, 0, 0, 0, 0, .utc⟩ rfl
  exact absurd this.2.1 (by decide)

/-- The same file in the last writable year. -/
example : ∃ j, (clientSample ⟨9999, 12, 31, 23, 59, 59, 0, .zone 86399⟩).toJson = some j :=
  (C85_written _).2 (clientSample_times _ ⟨by decide, by decide, by decide⟩ _ ⟨by decide, by decide, by decide⟩)

/-! ### C78 applies to such times -/

theorem clientOk_zero {client : List (F × FieldDecl)} (hn : (client.map (·.1)).Nodup) : Spec.ClientOk client (.zero client) := by
  intro p hp
  simp only [ClientRec.zero, lookup_of_mem hn (show (p.1, p.2) ∈ client from hp)]
  cases ho : p.2.omitempty with
  | true => simp
  | false =>
    simp only [Bool.false_eq_true, if_false]
    cases hk : p.2.kind with
    | int => exact ⟨by simp [Kind.zero, Val.hasKind], by simp [Kind.zero, Spec.SentVal]⟩
    | int64 => exact ⟨by simp [Kind.zero, Val.hasKind], by simp [Kind.zero, Spec.SentVal]⟩
    | str => exact ⟨by simp [Kind.zero, Val.hasKind], ⟨[], rfl⟩⟩
    | time => exact ⟨by simp [Kind.zero, Val.hasKind], (existing_iff _).2 (by decide), by decide, .inl rfl⟩

theorem clientOk_put {client : List (F × FieldDecl)} {c : ClientRec} (hc : Spec.ClientOk client c) {f : F} {v : Val}
    (hk : ∀ p ∈ client, p.1 = f → v.hasKind p.2.kind = true) (hv : Spec.SentVal v) : Spec.ClientOk client (c.put f (some v)) := by
  intro p hp
  by_cases hg : p.1 = f
  · simp only [ClientRec.put, hg, if_true]
    exact ⟨hk p hp hg, hv⟩
  · simp only [ClientRec.put, if_neg hg]
    exact hc p hp

/-- The service reads a moment with a fraction of a second in the zone of Kathmandu as it was. -/
example (env : JsonEnv) (he : Spec.JsonEnvOk env) (visits : Nat → List (Bytes × Json) → List (Bytes × Json)) (hv : Spec.MapOrders visits) (enc : Enc) :
    let f : ClientFile := ⟨(ClientRec.zero clientHeaderRecord).put .ActivityDate (some (.time ⟨2024, 2, 29, 12, 0, 1, 999999999, .zone 20700⟩)),
      [{ base := .zero clientBaseSegment }], .zero clientTrailerRecord⟩
    ∃ j, f.toJson = some j ∧ (newFile enc).ofJson env visits j = some (Spec.serviceFile enc f) := by
  refine C78_tree env he visits hv enc _ ⟨clientOk_put (clientOk_zero matches_header.1.1) (by decide +kernel) ?_, ?_, clientOk_zero matches_trailer.1.1⟩
  · exact ⟨(existing_iff _).2 (by decide), by decide, .inr ⟨345, by decide, by decide, rfl⟩⟩
  · intro d hd
    simp only [List.mem_singleton] at hd
    subst hd
    exact ⟨clientOk_zero matches_base.1.1, by simp, by simp, by simp, by simp, by simp, by simp, by simp, by simp⟩

end Metro2
