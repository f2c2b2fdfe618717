import Verif.Props.Json
import Verif.Lemmas.JsonDoc

/-! C82: the order of the members of a JSON document does not matter, and of repeated members the last counts. -/

namespace Metro2

open Samples

/-! ### Lemmas -/

theorem once_keys {word : String} (hw : ∀ c ∈ word.toUTF8.data.toList, 97 ≤ c ∧ c ≤ 122) {kvs : List (Bytes × Json)}
    (h : (kvs.map (·.1)).Pairwise fun a b => ¬ (foldKey a = foldKey word.toUTF8.data.toList ∧ foldKey b = foldKey word.toUTF8.data.toList)) :
    Spec.Once word kvs := by
  refine List.Pairwise.imp ?_ (List.pairwise_map.1 h)
  intro a b hab ⟨ha, hb⟩
  rw [← spells_fold _ hw, equalFold, decide_eq_true_iff] at ha hb
  exact hab ⟨ha, hb⟩

theorem once_header {word : String} (hw : ∀ c ∈ word.toUTF8.data.toList, 97 ≤ c ∧ c ≤ 122)
    (h : (headerRecordStruct.map (·.2.json)).Pairwise fun a b =>
      ¬ (foldKey a = foldKey word.toUTF8.data.toList ∧ foldKey b = foldKey word.toUTF8.data.toList)) (fs : Fields) :
    Spec.Once word (encodeMembers headerRecordStruct fs) :=
  once_keys hw (h.sublist (encodeMembers_keys headerRecordStruct fs))

theorem plain_toJson {enc : Enc} {f : File} (hf : Spec.JsonFile enc f) : Spec.PlainFile f.toJson := by
  refine ⟨once_keys (by decide +kernel) ?_, ?_⟩
  · show [b! "header", b! "data", b! "trailer"].Pairwise _
    decide +kernel
  · intro kv hkv hs
    rw [← spells_fold _ headerWord_small, headerWord_eq] at hs
    obtain ⟨fs, hh, -⟩ := hf.header
    simp only [List.mem_cons, List.not_mem_nil, or_false] at hkv
    rcases hkv with rfl | rfl | rfl
    · rw [hh]
      exact ⟨once_header (by decide +kernel) (by decide +kernel) fs, once_header (by decide +kernel) (by decide +kernel) fs,
        once_header (by decide +kernel) (by decide +kernel) fs⟩
    · exact absurd hs (by show ¬ equalFold (b! "data") (b! "header") = true; decide +kernel)
    · exact absurd hs (by show ¬ equalFold (b! "trailer") (b! "header") = true; decide +kernel)

/-! ### C82 -/

/-- C82: documents that say the same are read into a file with the same result, whether that is a file or an error. -/
theorem C82_file (env : JsonEnv) (visits : Nat → List (Bytes × Json) → List (Bytes × Json)) (f : File) (j j' : Json) (h : Spec.SameDoc env j j') :
    f.ofJson env visits j = f.ofJson env visits j' := by
  unfold File.ofJson
  rw [decodeMap_same h]

/-- C82, for data records alone. -/
theorem C82_record (env : JsonEnv) (visit : List (Bytes × Json) → List (Bytes × Json)) (e : Enc) (fs : Fields) (g : Segs) (j j' : Json)
    (h : Spec.SameDoc env j j') : (Record.base e fs g).ofJson env visit j = (Record.base e fs g).ofJson env visit j' := by
  simp only [Record.ofJson, decodeBase, decodeMap_same h]

/-- C82, for the reader: the result is the same if the members that tell the format occur once, apart from case. Missing: without that the format may
differ, see `C82_violated`. -/
theorem C82_reader_partial (env : JsonEnv) (visits : Nat → List (Bytes × Json) → List (Bytes × Json)) (first : Bytes → Option Json)
    (data data' : Bytes) (j j' : Json) (hd : first data = some j) (hd' : first data' = some j') (h : Spec.SameDoc env j j')
    (hp : Spec.PlainFile j) (hp' : Spec.PlainFile j') : readJson env visits first data = readJson env visits first data' := by
  unfold readJson
  rw [hd, hd']
  simp only [decodeDummy_same h hp hp', C82_file env visits _ j j' h]

/-- C82: any document that says the same as the one written for a file is read back as that file. -/
theorem C82_back (env : JsonEnv) (he : Spec.JsonEnvOk env) (visits : Nat → List (Bytes × Json) → List (Bytes × Json)) (hv : Spec.MapOrders visits)
    (enc : Enc) (f : File) (hf : Spec.JsonFile enc f) (hd : Spec.Detectable enc f) (first : Bytes → Option Json) (p : Plan) (data : Bytes)
    (hb : Spec.EarlyBrace data) (j : Json) (h : first data = some j) (hs : Spec.SameDoc env f.toJson j) (hp : Spec.PlainFile j) :
    newFileFromReader (readJson env visits first) p data false = .ok f := by
  have h1 := C47_reader env he visits hv enc f hf hd (fun _ => some f.toJson) p data rfl hb
  have h2 : readJson env visits (fun _ => some f.toJson) data = readJson env visits first data := by
    unfold readJson
    rw [h]
    simp only [decodeDummy_same hs (plain_toJson hf) hp, C82_file env visits _ _ _ hs]
  have hj : ∀ json json' : Bytes → Except Err File, json data = json' data →
      newFileFromReader json p data false = newFileFromReader json' p data false := by
    intro json json' hjj
    unfold newFileFromReader
    rw [hjj]
  rw [← hj _ _ h2]
  exact h1

namespace Samples

/-- The document of a file with its members backwards. -/
def turned (f : File) : Json :=
  .obj [(b! "trailer", f.trailer.toJson),
    (b! "data", if f.bases = [] then .null else .arr (f.bases.map Record.toJson)),
    (b! "header", f.header.toJson)]

/-- A document with two headers. -/
def twoHeaders : Json :=
  .obj [(b! "Header", .obj [(b! "recordDescriptorWord", .num (b! "426"))]),
    (b! "header", .obj [(b! "blockDescriptorWord", .num (b! "600")), (b! "recordDescriptorWord", .num (b! "596"))])]

def twoHeadersTurned : Json :=
  .obj [(b! "header", .obj [(b! "blockDescriptorWord", .num (b! "600")), (b! "recordDescriptorWord", .num (b! "596"))]),
    (b! "Header", .obj [(b! "recordDescriptorWord", .num (b! "426"))])]

/-- A document with a header that is repeated. -/
def repeatedHeader : Json :=
  .obj [(b! "header", .obj [(b! "recordDescriptorWord", .num (b! "426"))]), (b! "header", .obj [(b! "blockDescriptorWord", .num (b! "600"))])]

def lastHeader : Json := .obj [(b! "header", .obj [(b! "blockDescriptorWord", .num (b! "600"))])]

theorem turned_same (env : JsonEnv) (f : File) : Spec.SameDoc env f.toJson (turned f) := by
  have s1 := Spec.SameDoc.swap (env := env) [] [(b! "trailer", f.trailer.toJson)] (k := b! "header") (k' := b! "data") f.header.toJson
    (if f.bases = [] then .null else .arr (f.bases.map Record.toJson)) (by decide +kernel)
  have s2 := Spec.SameDoc.swap (env := env) [(b! "data", if f.bases = [] then .null else .arr (f.bases.map Record.toJson))] [] (k := b! "header")
    (k' := b! "trailer") f.header.toJson f.trailer.toJson (by decide +kernel)
  have s3 := Spec.SameDoc.swap (env := env) [] [(b! "header", f.header.toJson)] (k := b! "data") (k' := b! "trailer")
    (if f.bases = [] then .null else .arr (f.bases.map Record.toJson)) f.trailer.toJson (by decide +kernel)
  exact (s1.trans s2).trans s3

theorem turned_plain {enc : Enc} {f : File} (hf : Spec.JsonFile enc f) : Spec.PlainFile (turned f) := by
  refine ⟨once_keys (by decide +kernel) ?_, ?_⟩
  · show [b! "trailer", b! "data", b! "header"].Pairwise _
    decide +kernel
  · intro kv hkv hs
    exact (plain_toJson hf).2 kv (by
      simp only [List.mem_cons, List.not_mem_nil, or_false] at hkv ⊢
      rcases hkv with h | h | h <;> simp [h]) hs

end Samples

/-- Cases of `C82_file` and `C82_reader_partial`. -/
example : newFileFromReader (readJson isoEnv backwards fun _ => some (turned (jsonSample .packed 600 596))) ⟨fun _ => 4096, fun _ => false⟩
    (b! "{\"trailer\":") false = .ok (jsonSample .packed 600 596) :=
  have hf := jsonSample_ok .packed 600 596 (by decide +kernel) (by decide +kernel) (by decide +kernel)
  C82_back _ isoEnv_ok _ backwards_ok _ _ hf ⟨by decide +kernel, by decide +kernel⟩ _ _ _ (by decide +kernel) _ rfl (turned_same _ _) (turned_plain hf)

/-- Case of `C82_record`. -/
example : Spec.SameDoc isoEnv repeatedHeader lastHeader ∧ Spec.SameDoc isoEnv twoHeaders twoHeadersTurned ∧ ¬ Spec.PlainFile twoHeaders :=
  ⟨.repeated [] [] [] _ _ (.obj fun kv h => by
      rw [List.mem_singleton] at h
      subst h
      exact .num (by decide)),
    .swap [] [] _ _ (by decide +kernel), fun h => by
      have := (List.pairwise_cons.1 h.1).1 _ (List.mem_singleton.2 rfl)
      apply this
      rw [← spells_fold _ headerWord_small, ← spells_fold _ headerWord_small]
      decide +kernel⟩

/-- C82 is violated: with two headers that differ in case, or a repeated one, the format depends on the order or on what is overruled. -/
theorem C82_violated (first : Bytes → Option Json) (d1 d2 d3 d4 : Bytes) (h1 : first d1 = some twoHeaders) (h2 : first d2 = some twoHeadersTurned)
    (h3 : first d3 = some repeatedHeader) (h4 : first d4 = some lastHeader) :
    Spec.SameDoc isoEnv twoHeaders twoHeadersTurned ∧ Spec.SameDoc isoEnv repeatedHeader lastHeader ∧
    (∃ f f', readJson isoEnv backwards first d1 = .ok f ∧ readJson isoEnv backwards first d2 = .ok f' ∧ f.format = .packed ∧ f'.format = .character) ∧
    ∃ f f', readJson isoEnv backwards first d3 = .ok f ∧ readJson isoEnv backwards first d4 = .ok f' ∧ f.format = .character ∧ f'.format = .packed := by
  refine ⟨.swap [] [] _ _ (by decide +kernel), .repeated [] [] [] _ _ (.obj fun kv h => by
      rw [List.mem_singleton] at h
      subst h
      exact .num (by decide)), ?_, ?_⟩
  · refine ⟨_, _, by unfold readJson; rw [h1]; rfl, by unfold readJson; rw [h2]; rfl, by decide +kernel, by decide +kernel⟩
  · refine ⟨_, _, by unfold readJson; rw [h3]; rfl, by unfold readJson; rw [h4]; rfl, by decide +kernel, by decide +kernel⟩

end Metro2
