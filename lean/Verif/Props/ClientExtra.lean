import Verif.Lemmas.ClientExtra
import Verif.Props.ClientTime

/-! C86: what does not matter to the client. -/

namespace Metro2

open Samples

/-- C86: the client reads the same file from both documents, or none from either. -/
theorem C86_file (zone : LocalZone) (j j' : Json) (h : Spec.ClientAlike true .file j j') : decodeClientFile zone j = decodeClientFile zone j' :=
  reads_of_alike zone h trivial

/-- C86: the document that the service writes may be changed so: the client still shows the values of the file. -/
theorem C86_shows (enc : Enc) (f : File) (hf : Spec.JsonFile enc f) (hh : Spec.HeldFile f) (zone : LocalZone) (j : Json)
    (h : Spec.ClientAlike true .file f.toJson j) : ∃ c, decodeClientFile zone j = some c ∧ Spec.ShowsFile f c := by
  rw [← C86_file zone _ _ h]
  exact C77_shows_partial enc f hf hh zone

/-- C86: what the client has written itself may be changed so. -/
theorem C86_own (zone : LocalZone) (f : ClientFile) (hf : Spec.OwnFile f) (j : Json) (hj : f.toJson = some j) (j' : Json)
    (h : Spec.ClientAlike true .file j j') : decodeClientFile zone j' = some (Spec.sentFile f) := by
  obtain ⟨j₁, h1, h2⟩ := C85_own zone f hf
  rw [hj] at h1
  cases h1
  rw [← C86_file zone _ _ h, h2]

/-- C86: a `null` after other values of its field takes the value from an optional field and leaves that of a required one. -/
theorem C86_null (zone : LocalZone) (p : Spec.ClientPlace) (w : String) (client : List (F × FieldDecl)) (hi : Spec.ClientInside p w (.fields client))
    (x : F × FieldDecl) (hx : x ∈ client) (k : Bytes) (hk : Spec.Spells Spec.foldOthers (Spec.smallWord x.2.json) k) (kvs : List (Bytes × Json)) :
    decodeClient zone client (.zero client) (.obj (kvs ++ [(k, .null)])) =
      (decodeClient zone client (.zero client) (.obj kvs)).map fun c => if x.2.omitempty then c.put x.1 none else c := by
  have hg : FoldedOk client := clientInside_good hi
  obtain ⟨h1, h2⟩ := smallWord_fold x.2.json (hg.1 x hx)
  have hpart : (fieldParts zone client).part k = some x.1 := (fieldOf_folded hg hx k).2 (by rw [(spells_iff h2 k).1 hk, h1])
  rw [fieldParts_all, fieldParts_all, Parts.all_append]
  cases (fieldParts zone client).all (.zero client) kvs with
  | none => rfl
  | some c =>
    simp only [Option.bind_some, Option.map_some]
    rw [Parts.all_cons, Parts.member_some _ hpart]
    have hl : client.lookup x.1 = some x.2 := lookup_of_mem hg.2.1 (show (x.1, x.2) ∈ client from hx)
    have hs : (fieldParts zone client).step x.1 .null ((fieldParts zone client).get c x.1) = some (if x.2.omitempty then none else c x.1) := by
      simp only [fieldParts, hl, decodeClientVal]
    rw [hs]
    show some (c.put x.1 (if x.2.omitempty then none else c x.1)) = _
    cases x.2.omitempty with
    | true => rfl
    | false => exact congrArg some ((fieldParts zone client).set_get c x.1)

/-! ### Examples -/

theorem Samples.notSpelled {w k : Bytes} (hw : ∀ c ∈ w, (97 ≤ c ∧ c ≤ 122) ∨ (48 ≤ c ∧ c ≤ 57)) (h : foldKey k ≠ foldKey w) :
    ¬ Spec.Spells Spec.foldOthers w k := fun hs => h (fold_of_spells hs hw)

theorem Samples.spelled {w k : Bytes} (hw : ∀ c ∈ w, (97 ≤ c ∧ c ≤ 122) ∨ (48 ≤ c ∧ c ≤ 57)) (h : foldKey k = foldKey w) :
    Spec.Spells Spec.foldOthers w k := (spells_iff hw k).2 h

/-- Words of small letters and digits. -/
def Samples.Plain (p : Spec.ClientPlace) : Prop := ∀ w ∈ Spec.clientWords p, ∀ c ∈ w, (97 ≤ c ∧ c ≤ 122) ∨ (48 ≤ c ∧ c ≤ 57)

theorem Samples.unknown_of {p : Spec.ClientPlace} (hp : Plain p) {k : Bytes} (h : ∀ w ∈ Spec.clientWords p, foldKey k ≠ foldKey w) :
    ∀ w ∈ Spec.clientWords p, ¬ Spec.Spells Spec.foldOthers w k := fun w hw => notSpelled (hp w hw) (h w hw)

theorem Samples.apart_of {p : Spec.ClientPlace} (hp : Plain p) {k k' : Bytes} (h : foldKey k ≠ foldKey k') :
    ∀ w ∈ Spec.clientWords p, ¬ (Spec.Spells Spec.foldOthers w k ∧ Spec.Spells Spec.foldOthers w k') :=
  fun w hw hs => h ((fold_of_spells hs.1 (hp w hw)).trans (fold_of_spells hs.2 (hp w hw)).symm)

theorem Samples.plain_file : Plain .file := by unfold Plain; decide +kernel
theorem Samples.plain_record : Plain .record := by unfold Plain; decide +kernel
theorem Samples.plain_k3 : Plain (.fields clientK3Segment) := by unfold Plain; decide +kernel

/-- A short document. -/
def Samples.shortDoc : Json :=
  .obj [(b! "header", .obj [(b! "reporterName", .str (b! "A"))]),
    (b! "data", .arr [.obj [(b! "base", .null), (b! "k3", .obj [(b! "agencyIdentifier", .num (b! "1"))])]])]

/-- The same to the client: other order and case, a remark, and nulls. -/
def Samples.longDoc : Json :=
  .obj [(b! "DATA", .arr [.obj [(b! "base", .null), (b! "j1", .null),
      (b! "k3", .obj [(b! "mortgageIdentificationNumber", .null), (b! "agencyIdentifier", .num (b! "1"))])]]),
    (b! "remark", .arr [.num (b! "1e999")]),
    (b! "header", .obj [(b! "reporterName", .str (b! "A"))])]

theorem Samples.long_alike : Spec.ClientAlike true .file shortDoc longDoc := by
  have h1 : Spec.ClientAlike true .file shortDoc (.obj [(b! "data", .arr [.obj [(b! "base", .null), (b! "k3", .obj [(b! "agencyIdentifier", .num (b! "1"))])]]),
      (b! "header", .obj [(b! "reporterName", .str (b! "A"))])]) :=
    .swap [] [] (k := b! "header") (k' := b! "data") _ _ (apart_of plain_file (by decide))
  refine h1.trans ?_
  refine (Spec.ClientAlike.rename [] _ (k := b! "data") (k' := b! "DATA") (w := b! "data") _ (by decide +kernel) (spells_self _)
    (spelled (by decide) (by decide))).trans ?_
  refine (Spec.ClientAlike.extra [(b! "DATA", _)] [_] (k := b! "remark") (.arr [.num (b! "1e999")]) (unknown_of plain_file (by decide +kernel))).trans ?_
  refine Spec.ClientAlike.member [] _ (inner := true) (k := b! "DATA") (w := "data") (q := .data) .data (spelled (by decide +kernel) (by decide +kernel))
    (fun _ kv h => by cases h) ?_
  refine Spec.ClientAlike.element [] [] .record ?_
  refine (Spec.ClientAlike.null [(b! "base", .null)] _ (k := b! "j1") (w := b! "j1") (by decide +kernel) (spells_self _) ?_).trans ?_
  · intro kv h
    rw [List.mem_singleton.1 h]
    exact notSpelled (by decide) (by decide)
  · refine Spec.ClientAlike.member [(b! "base", .null), (b! "j1", .null)] [] (inner := true) (k := b! "k3") (w := "k3") .k3
      (spelled (by decide +kernel) (by decide +kernel)) ?_ ?_
    · intro _ kv h
      simp only [List.mem_cons, List.not_mem_nil, or_false] at h
      rcases h with rfl | rfl
      · exact notSpelled (by decide +kernel) (by decide +kernel)
      · exact notSpelled (by decide +kernel) (by decide +kernel)
    · exact Spec.ClientAlike.null [] _ (k := b! "mortgageIdentificationNumber") (w := Spec.smallWord (b! "mortgageIdentificationNumber"))
        (by decide +kernel) (spelled (by decide +kernel) (by decide +kernel)) (fun kv h => by cases h)

example (zone : LocalZone) : decodeClientFile zone longDoc = decodeClientFile zone shortDoc := (C86_file zone _ _ long_alike).symm

/-- What it reads. -/
example (zone : LocalZone) : ∃ c, decodeClientFile zone longDoc = some c ∧ c.header .ReporterName = some (.str (b! "A")) ∧ c.data.length = 1 := by
  rw [← C86_file zone _ _ long_alike]
  exact ⟨_, rfl, rfl, rfl⟩

/-- The document of a file with a remark at its end. -/
def Samples.withRemark (f : File) : Json :=
  .obj ([(b! "header", f.header.toJson), (b! "data", if f.bases = [] then .null else .arr (f.bases.map Record.toJson)), (b! "trailer", f.trailer.toJson)] ++
    (b! "remark", .arr [.null]) :: [])

/-- The document of a closed account, with a remark that the client does not know. -/
example (zone : LocalZone) : ∃ c, decodeClientFile zone (withRemark (closedFile 1)) = some c ∧ Spec.ShowsFile (closedFile 1) c :=
  C86_shows .packed _ (closedFile_json 1 (by decide +kernel)) (closedFile_held 1 (by decide +kernel)) zone _
    (.extra [(b! "header", (closedFile 1).header.toJson),
        (b! "data", if (closedFile 1).bases = [] then .null else .arr ((closedFile 1).bases.map Record.toJson)),
        (b! "trailer", (closedFile 1).trailer.toJson)] [] _ (unknown_of plain_file (by decide +kernel)))

/-- The client's own document, with a remark put before everything else. -/
example (zone : LocalZone) : ∃ kvs, (clientSample monrovia).toJson = some (.obj kvs) ∧
    decodeClientFile zone (.obj ((b! "remark", .null) :: kvs)) = some (Spec.sentFile (clientSample monrovia)) := by
  have hf := clientSample_own _ monrovia_exists (by decide) (by decide)
  obtain ⟨j, hj, _⟩ := C85_own zone _ hf
  cases hk : j with
  | obj kvs =>
    rw [hk] at hj
    exact ⟨kvs, hj, C86_own zone _ hf _ hj _ (.extra [] kvs _ (unknown_of plain_file (by decide +kernel)))⟩
  | _ =>
    rw [hk] at hj
    simp [ClientFile.toJson, bind, Option.bind_eq_some_iff] at hj

/-- The optional account number of a K3 segment is gone after a `null`, the required segment identifier is not. -/
example (zone : LocalZone) :
    (∃ c, decodeClient zone clientK3Segment (.zero clientK3Segment) (.obj ([(b! "accountNumber", .str (b! "7"))] ++ [(b! "ACCOUNTNUMBER", .null)])) = some c ∧
      c .AccountNumber = none) ∧
    (∃ c, decodeClient zone clientK3Segment (.zero clientK3Segment) (.obj ([(b! "segmentIdentifier", .str (b! "K3"))] ++ [(b! "SegmentIdentifier", .null)])) = some c ∧
      c .SegmentIdentifier = some (.str (b! "K3"))) := by
  constructor
  · rw [C86_null zone _ _ _ .k3 (.AccountNumber, ⟨.str, b! "accountNumber", true⟩) (by decide +kernel) _ (spelled (by decide +kernel) (by decide +kernel))]
    exact ⟨_, rfl, rfl⟩
  · rw [C86_null zone _ _ _ .k3 (.SegmentIdentifier, ⟨.str, b! "segmentIdentifier", false⟩) (by decide +kernel) _ (spelled (by decide +kernel) (by decide +kernel))]
    exact ⟨_, rfl, rfl⟩

end Metro2
