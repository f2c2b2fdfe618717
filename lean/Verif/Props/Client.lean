import Verif.Lemmas.ClientRound
import Verif.Spec.ClientCall
import Verif.Props.Schema
import Verif.Props.Server
import Verif.Props.JsonText

/-! C77 to C80: the generated client of the service. -/

namespace Metro2

open Samples

/-! ### C77: the client reads what the service writes -/

/-- C77: what the client makes of the document of a file, or that it refuses it, field by field. -/
theorem C77_exact (zone : LocalZone) (f : File) (h : Spec.WrittenFile f) : decodeClientFile zone f.toJson = Spec.clientFile f :=
  decodeClientFile_toJson zone h

/-- C77: the client reads the document exactly if every date that it knows is there and every number fits its type. -/
theorem C77_accepts (zone : LocalZone) (f : File) (h : Spec.WrittenFile f) :
    (∃ c, decodeClientFile zone f.toJson = some c) ↔ Spec.HeldFile f := by
  rw [C77_exact zone f h]
  exact clientFile_iff h

/-- The full statement of C77: the client reads every valid file, and its getters show the values of the file. -/
def C77_statement : Prop :=
  ∀ enc f, Spec.JsonFile enc f → f.validate = none → ∀ zone, ∃ c, decodeClientFile zone f.toJson = some c ∧ Spec.ShowsFile f c

theorem Samples.publishedFile_json : Spec.JsonFile .character (publishedFile .character) := by
  refine ⟨rfl, ⟨_, rfl, jsonFields_of (by decide +kernel)⟩, ?_, ⟨_, rfl, jsonFields_of (by decide +kernel)⟩⟩
  intro r hr
  simp only [publishedFile, List.mem_cons, List.not_mem_nil, or_false] at hr
  exact ⟨_, _, hr, jsonFields_of (by decide +kernel), segs_json⟩

/-- C77 is violated: the account of a valid file is not closed, its date of closing is written as the zero time, and the client refuses the document. -/
theorem C77_violated : ¬ C77_statement := by
  intro h
  obtain ⟨c, hc, -⟩ := h _ _ publishedFile_json publishedFile_valid (fun _ _ => none)
  have := (C77_accepts _ _ (writtenFile_of publishedFile_json)).1 ⟨c, hc⟩
  have hb := (this.bases .character (base 600 596) segs (by simp [publishedFile])).base
  have hz : (base 600 596).get .DateClosed = some (.time .zero) := by decide +kernel
  have := hb (.DateClosed, ⟨.time, b! "dateClosed", true⟩) (by decide +kernel) _ hz
  exact absurd (show Time.zero.isZero = false from this) (by decide)

/-- C77 in part: the client reads the files that `C77_accepts` names, and its getters show the values. Missing: files without one of the dates that the
client knows, and files with numbers beyond its `int32` fields (see `C77_violated`). -/
theorem C77_shows_partial (enc : Enc) (f : File) (hf : Spec.JsonFile enc f) (hh : Spec.HeldFile f) (zone : LocalZone) :
    ∃ c, decodeClientFile zone f.toJson = some c ∧ Spec.ShowsFile f c := by
  obtain ⟨c, hc⟩ := (C77_accepts zone f (writtenFile_of hf)).2 hh
  refine ⟨c, hc, ?_⟩
  rw [C77_exact zone f (writtenFile_of hf)] at hc
  exact clientFile_shows hf hc

/-- Decidable form of `Spec.Held`. -/
def heldB (client : List (F × FieldDecl)) (fs : Fields) : Bool :=
  client.all fun p => match fs.get p.1 with
    | some (.int i) => p.2.kind != .int || (decide (-2147483648 ≤ i) && decide (i ≤ 2147483647))
    | some (.time t) => !t.isZero
    | _ => true

theorem held_of {client : List (F × FieldDecl)} {fs : Fields} (h : heldB client fs = true) : Spec.Held client fs := by
  intro p hp v hv
  have h1 := List.all_eq_true.1 h p hp
  simp only [hv] at h1
  cases v with
  | int i =>
    intro hk
    simpa [hk] using h1
  | str s => trivial
  | time t => exact by simpa [Spec.ClientHolds] using h1

/-- The further dates of a closed account. -/
def Samples.closed : List (F × Val) := [(.DateFirstDelinquency, day 2001 1 1), (.DateClosed, day 2002 8 1)]

/-- Segments with all dates. -/
def Samples.datedSegs : Segs where
  j1 := [j1, j1']
  j2 := [{ j2 with fields := j2.fields.set .DateBirth (day 1980 1 1) }]
  k1 := some k1
  k2 := some k2
  k3 := some k3
  k4 := some { k4 with fields := k4.fields.set .DeferredPaymentStartDate (day 2029 1 1) }
  l1 := some { l1 with fields := (l1.fields.set .ChangeIndicator (.int 3)).set .NewIdentificationNumber (.str (b! "NEW-ID")) }
  n1 := some n1

/-- A file of closed accounts, with a mark in the first record. -/
def Samples.closedFile (mark : Int) : File :=
  ⟨.packed, .header .packed (header 600 596), [.base .packed (base 600 596 ((.ProcessingIndicator, .int mark) :: closed)) datedSegs,
    .base .packed (base 600 596 closed) {}], .trailer .packed (trailer 596)⟩

theorem Samples.datedSegs_json : Spec.JsonSegs datedSegs := by
  refine ⟨?_, ?_, ?_, ?_, ?_, ?_, ?_, ?_⟩
  · intro s hs
    simp only [datedSegs, List.mem_cons, List.not_mem_nil, or_false] at hs
    rcases hs with rfl | rfl
    · exact jsonSeg_of (s := j1) (by decide +kernel) (by decide +kernel)
    · exact jsonSeg_of (s := j1') (by decide +kernel) (by decide +kernel)
  · intro s hs
    simp only [datedSegs, List.mem_cons, List.not_mem_nil, or_false] at hs
    subst hs
    exact jsonSeg_of (s := { j2 with fields := j2.fields.set .DateBirth (day 1980 1 1) }) (by decide +kernel) (by decide +kernel)
  · intro s hs; cases hs; exact jsonSeg_of (s := k1) (by decide +kernel) (by decide +kernel)
  · intro s hs; cases hs; exact jsonSeg_of (s := k2) (by decide +kernel) (by decide +kernel)
  · intro s hs; cases hs; exact jsonSeg_of (s := k3) (by decide +kernel) (by decide +kernel)
  · intro s hs; cases hs
    exact jsonSeg_of (s := { k4 with fields := k4.fields.set .DeferredPaymentStartDate (day 2029 1 1) }) (by decide +kernel) (by decide +kernel)
  · intro s hs; cases hs
    exact jsonSeg_of (s := { l1 with fields := (l1.fields.set .ChangeIndicator (.int 3)).set .NewIdentificationNumber (.str (b! "NEW-ID")) }) (by decide +kernel) (by decide +kernel)
  · intro s hs; cases hs; exact jsonSeg_of (s := n1) (by decide +kernel) (by decide +kernel)

theorem Samples.closedFile_json (mark : Int)
    (hb : jsonFieldsB baseSegmentStruct (base 600 596 ((.ProcessingIndicator, .int mark) :: closed)) = true) :
    Spec.JsonFile .packed (closedFile mark) := by
  refine ⟨rfl, ⟨_, rfl, jsonFields_of (by decide +kernel)⟩, ?_, ⟨_, rfl, jsonFields_of (by decide +kernel)⟩⟩
  intro r hr
  simp only [closedFile, List.mem_cons, List.not_mem_nil, or_false] at hr
  rcases hr with rfl | rfl
  · exact ⟨_, _, rfl, jsonFields_of hb, datedSegs_json⟩
  · refine ⟨_, _, rfl, jsonFields_of (by decide +kernel), ?_⟩
    exact ⟨by simp, by simp, by simp, by simp, by simp, by simp, by simp, by simp⟩

theorem Samples.closedFile_held (mark : Int)
    (hb : heldB clientBaseSegment (base 600 596 ((.ProcessingIndicator, .int mark) :: closed)) = true) : Spec.HeldFile (closedFile mark) := by
  refine ⟨held_of (fs := header 600 596) (by decide +kernel), ?_, held_of (fs := trailer 596) (by decide +kernel)⟩
  intro enc fs g hm
  simp only [closedFile, List.mem_cons, List.not_mem_nil, or_false] at hm
  rcases hm with hm | hm
  · cases hm
    refine ⟨held_of hb, ?_⟩
    have : ∀ s ∈ datedSegs.list, heldB (clientSegment s.kind) s.fields = true := by decide +kernel
    exact fun s hs => held_of (this s hs)
  · cases hm
    exact ⟨held_of (by decide +kernel), fun s hs => by cases hs⟩

/-- C77 applies. -/
example (zone : LocalZone) : ∃ c, decodeClientFile zone (closedFile 1).toJson = some c ∧ Spec.ShowsFile (closedFile 1) c :=
  C77_shows_partial .packed _ (closedFile_json 1 (by decide +kernel)) (closedFile_held 1 (by decide +kernel)) zone

/-- Case of `C77_exact`. A file that is written but not read. -/
example : ∃ f, Spec.WrittenFile f ∧ ∀ zone, decodeClientFile zone f.toJson = none := by
  refine ⟨_, writtenFile_of publishedFile_json, fun zone => ?_⟩
  cases h : decodeClientFile zone (publishedFile .character).toJson with
  | none => rfl
  | some c =>
    have := (C77_accepts zone _ (writtenFile_of publishedFile_json)).1 ⟨c, h⟩
    have hb := (this.bases .character (base 600 596) segs (by simp [publishedFile])).base
    have hz : (base 600 596).get .DateClosed = some (.time .zero) := by decide +kernel
    have := hb (.DateClosed, ⟨.time, b! "dateClosed", true⟩) (by decide +kernel) _ hz
    exact absurd (show Time.zero.isZero = false from this) (by decide)

/-! ### C78: the service reads what the client writes -/

/-- C78: the client can write its file, and the service takes from it, in whatever format it reads, exactly the values that are set; the other fields are
those of a new record. -/
theorem C78_tree (env : JsonEnv) (he : Spec.JsonEnvOk env) (visits : Nat → List (Bytes × Json) → List (Bytes × Json)) (hv : Spec.MapOrders visits)
    (enc : Enc) (c : ClientFile) (hc : Spec.ClientFileOk c) :
    ∃ j, c.toJson = some j ∧ (newFile enc).ofJson env visits j = some (Spec.serviceFile enc c) := by
  obtain ⟨m, h1, _⟩ := clientFile_toJson he enc hc
  exact ⟨_, h1, ofJson_client he hv enc hc h1⟩

/-- C78: sent to the service, the document is taken as a file of the format that its header tells. -/
theorem C78_read (env : JsonEnv) (he : Spec.JsonEnvOk env) (visits : Nat → List (Bytes × Json) → List (Bytes × Json)) (hv : Spec.MapOrders visits)
    (c : ClientFile) (hc : Spec.ClientFileOk c) (first : Bytes → Option Json) (data : Bytes) (hd : first data = c.toJson) :
    readJson env visits first data = .ok (Spec.serviceFile (Spec.clientFormat c) c) :=
  readJson_client he hv hc hd

/-! ### C79: from the service to the client and back -/

/-- C79: a file that the client can hold comes back to the service without the three values that the client does not know, and otherwise unchanged. -/
theorem C79_exact (env : JsonEnv) (he : Spec.JsonEnvOk env) (visits : Nat → List (Bytes × Json) → List (Bytes × Json)) (hv : Spec.MapOrders visits)
    (enc : Enc) (f : File) (hf : Spec.JsonFile enc f) (hh : Spec.HeldFile f) (zone : LocalZone) :
    ∃ c j, decodeClientFile zone f.toJson = some c ∧ c.toJson = some j ∧ (newFile enc).ofJson env visits j = some (Spec.forgetFile f) := by
  obtain ⟨c, hc⟩ := (C77_accepts zone f (writtenFile_of hf)).2 hh
  have hc' := hc
  rw [C77_exact zone f (writtenFile_of hf)] at hc'
  obtain ⟨h1, h2⟩ := file_round hf hc'
  obtain ⟨j, h3, h4⟩ := C78_tree env he visits hv enc c h1
  exact ⟨c, j, hc, h3, by rw [h4, h2]⟩

/-- C79: it comes back unchanged exactly if none of these three has a value. -/
theorem C79_iff (env : JsonEnv) (he : Spec.JsonEnvOk env) (visits : Nat → List (Bytes × Json) → List (Bytes × Json)) (hv : Spec.MapOrders visits)
    (enc : Enc) (f : File) (hf : Spec.JsonFile enc f) (hh : Spec.HeldFile f) (zone : LocalZone) :
    (∃ c j, decodeClientFile zone f.toJson = some c ∧ c.toJson = some j ∧ (newFile enc).ofJson env visits j = some f) ↔ Spec.NothingLost f := by
  obtain ⟨c, j, h1, h2, h3⟩ := C79_exact env he visits hv enc f hf hh zone
  rw [← forgetFile_iff hf]
  constructor
  · rintro ⟨c', j', h4, h5, h6⟩
    rw [h1] at h4
    cases h4
    rw [h2] at h5
    cases h5
    rw [h3] at h6
    exact Option.some.inj h6
  · intro h
    rw [h] at h3
    exact ⟨c, j, h1, h2, h3⟩

/-- The full statement of C79. -/
def C79_statement : Prop :=
  ∀ env visits enc f zone, Spec.JsonEnvOk env → Spec.MapOrders visits → Spec.JsonFile enc f → Spec.HeldFile f →
    ∃ c j, decodeClientFile zone f.toJson = some c ∧ c.toJson = some j ∧ (newFile enc).ofJson env visits j = some f

/-- C79 is violated: the processing indicator of a record is lost. -/
theorem C79_violated : ¬ C79_statement := by
  intro h
  have hj := closedFile_json 1 (by decide +kernel)
  have hh := closedFile_held 1 (by decide +kernel)
  have hn := (C79_iff isoEnv isoEnv_ok backwards backwards_ok _ _ hj hh (fun _ _ => none)).1 (h _ _ _ _ (fun _ _ => none) isoEnv_ok backwards_ok hj hh)
  have := (hn .packed (base 600 596 ((.ProcessingIndicator, .int 1) :: closed)) datedSegs (by simp [closedFile])).1
    (.ProcessingIndicator, .int 1) (by decide +kernel) rfl
  cases this

/-- C79: files that differ in what is lost are the same to the client. -/
theorem C79_confused : ∃ f g, f ≠ g ∧ Spec.JsonFile .packed f ∧ Spec.JsonFile .packed g ∧ Spec.HeldFile f ∧
    ∀ zone, decodeClientFile zone f.toJson = decodeClientFile zone g.toJson := by
  have h1 := closedFile_json 1 (by decide +kernel)
  have h0 := closedFile_json 0 (by decide +kernel)
  refine ⟨closedFile 1, closedFile 0, ?_, h1, h0, closedFile_held 1 (by decide +kernel), fun zone => ?_⟩
  · intro h
    have hb := congrArg (fun f : File => f.bases.map fun r => r.fields.get .ProcessingIndicator) h
    exact absurd hb (by decide +kernel)
  · rw [C77_exact zone _ (writtenFile_of h1), C77_exact zone _ (writtenFile_of h0)]
    have key : Spec.clientData (base 600 596 ((.ProcessingIndicator, .int 1) :: closed)) datedSegs =
        Spec.clientData (base 600 596 ((.ProcessingIndicator, .int 0) :: closed)) datedSegs := by
      have hr : Spec.clientRec baseSegmentStruct clientBaseSegment (base 600 596 ((.ProcessingIndicator, .int 1) :: closed)) =
          Spec.clientRec baseSegmentStruct clientBaseSegment (base 600 596 ((.ProcessingIndicator, .int 0) :: closed)) := by
        have ht : ∀ f, Spec.clientTakes baseSegmentStruct clientBaseSegment (base 600 596 ((.ProcessingIndicator, .int 1) :: closed)) f =
            Spec.clientTakes baseSegmentStruct clientBaseSegment (base 600 596 ((.ProcessingIndicator, .int 0) :: closed)) f := by
          intro f
          by_cases hf : f = .ProcessingIndicator
          · subst hf
            have hl : clientBaseSegment.lookup .ProcessingIndicator = none := by decide +kernel
            unfold Spec.clientTakes
            rw [hl]
          · have hs : base 600 596 ((.ProcessingIndicator, .int 1) :: closed) =
                (base 600 596 ((.ProcessingIndicator, .int 0) :: closed)).set .ProcessingIndicator (.int 1) := by decide +kernel
            unfold Spec.clientTakes
            rw [hs, get_set_other hf]
        unfold Spec.clientRec
        simp only [ht]
      unfold Spec.clientData
      rw [hr]
    unfold Spec.clientFile closedFile
    simp only [List.mapM_cons, Spec.clientBase, key, Record.fields]

/-- C79 in part. Missing: files with a processing indicator, a correction indicator or a new identification number (see `C79_violated`). -/
theorem C79_back_partial (env : JsonEnv) (he : Spec.JsonEnvOk env) (visits : Nat → List (Bytes × Json) → List (Bytes × Json))
    (hv : Spec.MapOrders visits) (enc : Enc) (f : File) (hf : Spec.JsonFile enc f) (hh : Spec.HeldFile f) (hn : Spec.NothingLost f)
    (zone : LocalZone) :
    ∃ c j, decodeClientFile zone f.toJson = some c ∧ c.toJson = some j ∧ (newFile enc).ofJson env visits j = some f :=
  (C79_iff env he visits hv enc f hf hh zone).2 hn

/-- Case of `C79_iff`. A file with all three values comes back without them. -/
example (zone : LocalZone) : ∃ c j, decodeClientFile zone (closedFile 1).toJson = some c ∧ c.toJson = some j ∧
    (newFile .packed).ofJson isoEnv backwards j = some (Spec.forgetFile (closedFile 1)) :=
  C79_exact _ isoEnv_ok _ backwards_ok _ _ (closedFile_json 1 (by decide +kernel)) (closedFile_held 1 (by decide +kernel)) zone

/-- Case of `C79_confused`: the two files differ. -/
example : closedFile 1 ≠ closedFile 0 ∧ Spec.HeldFile (closedFile 1) :=
  ⟨fun h => absurd (congrArg (fun f : File => f.bases.map fun r => r.fields.get .ProcessingIndicator) h) (by decide +kernel),
    closedFile_held 1 (by decide +kernel)⟩

/-- Cases of `C78_tree` and `C78_read`. C78 applies to what the client has read. -/
example : ∃ c, Spec.ClientFileOk c ∧ Spec.clientFile (closedFile 1) = some c := by
  obtain ⟨c, hc⟩ := (clientFile_iff (writtenFile_of (closedFile_json 1 (by decide +kernel)))).2 (closedFile_held 1 (by decide +kernel))
  exact ⟨c, (file_round (closedFile_json 1 (by decide +kernel)) hc).1, hc⟩

end Metro2
