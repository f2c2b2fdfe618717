import Verif.Lemmas.JsonFile
import Verif.Props.Samples
import Verif.Props.Reader

/-! C47–C49: JSON. -/

namespace Metro2

open Samples

/-! ### An environment for the examples -/

/-- Numbers pass unchanged; the machine knows no zone abbreviation. -/
def isoEnv : JsonEnv where
  refloat := some
  zone := fun _ _ => none

theorem isoEnv_ok : Spec.JsonEnvOk isoEnv := ⟨fun _ _ _ => rfl⟩

/-- A Go map may be visited backwards. -/
def backwards : Nat → List (Bytes × Json) → List (Bytes × Json) := fun _ l => l.reverse

theorem backwards_ok : Spec.MapOrders backwards := fun _ l => List.reverse_perm l

/-! ### C48 -/

/-- C48 for files: whatever the order of the maps, the result is the same. -/
theorem C48_file (env : JsonEnv) (visits visits' : Nat → List (Bytes × Json) → List (Bytes × Json)) (h : Spec.MapOrders visits)
    (h' : Spec.MapOrders visits') (f : File) (j : Json) : f.ofJson env visits j = f.ofJson env visits' j :=
  file_ofJson_order env h h' f j

/-- C48 for records. -/
theorem C48_record (env : JsonEnv) (visit visit' : List (Bytes × Json) → List (Bytes × Json)) (h : ∀ l, (visit l).Perm l)
    (h' : ∀ l, (visit' l).Perm l) (r : Record) (j : Json) : r.ofJson env visit j = r.ofJson env visit' j :=
  ofJson_order env h h' r j

/-- C48 for the whole JSON branch of `NewFileFromReader`. -/
theorem C48_reader (env : JsonEnv) (visits visits' : Nat → List (Bytes × Json) → List (Bytes × Json)) (h : Spec.MapOrders visits)
    (h' : Spec.MapOrders visits') (first : Bytes → Option Json) (data : Bytes) :
    readJson env visits first data = readJson env visits' first data := by
  unfold readJson
  cases first data with
  | none => rfl
  | some j =>
    simp only
    cases decodeDummy env j with
    | none => rfl
    | some d => simp only [C48_file env visits visits' h h']

/-- Cases of `C48_file` and `C48_record`. -/
example : Spec.MapOrders (fun _ l => l) ∧ Spec.MapOrders backwards ∧ backwards 0 [([1], .null), ([2], .null)] ≠ [([1], .null), ([2], .null)] :=
  ⟨fun _ l => List.Perm.refl l, backwards_ok, by simp [backwards]⟩

/-! ### C47 -/

/-- C47 on trees: a file written as JSON and decoded into a new file of its format. -/
theorem C47_tree (env : JsonEnv) (he : Spec.JsonEnvOk env) (visits : Nat → List (Bytes × Json) → List (Bytes × Json))
    (hv : Spec.MapOrders visits) (enc : Enc) (f : File) (hf : Spec.JsonFile enc f) :
    (newFile enc).ofJson env visits f.toJson = some f :=
  file_ofJson_toJson he hv hf

/-- C47 through `NewFileFromReader`: a text whose first JSON value is the file. -/
theorem C47_reader (env : JsonEnv) (he : Spec.JsonEnvOk env) (visits : Nat → List (Bytes × Json) → List (Bytes × Json))
    (hv : Spec.MapOrders visits) (enc : Enc) (f : File) (hf : Spec.JsonFile enc f) (hd : Spec.Detectable enc f)
    (first : Bytes → Option Json) (p : Plan) (data : Bytes) (h : first data = some f.toJson) (hb : Spec.EarlyBrace data) :
    newFileFromReader (readJson env visits first) p data false = .ok f := by
  rw [newFile_json _ p hb, readJson_toJson he hv hf h]
  have : (if Spec.headerRdw f = 426 ∨ Spec.headerBdw f ≤ 0 then Enc.character else .packed) = enc := by
    cases enc with
    | character => exact if_pos hd
    | packed => obtain ⟨h1, h2⟩ := hd; rw [if_neg (by omega)]
  rw [this, fileIn_self hf]

/-- C47 for a single data record. -/
theorem C47_record (env : JsonEnv) (he : Spec.JsonEnvOk env) (visit : List (Bytes × Json) → List (Bytes × Json))
    (hv : ∀ l, (visit l).Perm l) (enc : Enc) (fs : Fields) (g : Segs) (hf : Spec.JsonFields baseSegmentStruct fs)
    (hg : Spec.JsonSegs g) : (newBase enc).ofJson env visit (Record.base enc fs g).toJson = some (.base enc fs g) := by
  show (decodeBase env visit _ {} (encodeBase fs g)).map _ = _
  rw [decodeBase_isObj hv (segsOk_of hg) (isObj_encodeBase he hf hg)]
  rfl

/-! ### C49 -/

/-- C49. Which format a JSON file is decoded in; nothing else changes. -/
theorem C49_result (env : JsonEnv) (he : Spec.JsonEnvOk env) (visits : Nat → List (Bytes × Json) → List (Bytes × Json))
    (hv : Spec.MapOrders visits) (enc : Enc) (f : File) (hf : Spec.JsonFile enc f) (first : Bytes → Option Json) (data : Bytes)
    (h : first data = some f.toJson) :
    (Spec.Detectable .character f → readJson env visits first data = .ok (Spec.fileIn .character f)) ∧
    (Spec.Detectable .packed f → readJson env visits first data = .ok (Spec.fileIn .packed f)) := by
  rw [readJson_toJson he hv hf h]
  constructor
  · intro hd; rw [if_pos (show Spec.headerRdw f = 426 ∨ Spec.headerBdw f ≤ 0 from hd)]
  · intro hd; obtain ⟨h1, h2⟩ := hd; rw [if_neg (by omega)]

/-- C49. A JSON file is decoded in the format it was written from exactly if the descriptors tell it. -/
theorem C49_iff (env : JsonEnv) (he : Spec.JsonEnvOk env) (visits : Nat → List (Bytes × Json) → List (Bytes × Json))
    (hv : Spec.MapOrders visits) (enc : Enc) (f : File) (hf : Spec.JsonFile enc f) (first : Bytes → Option Json) (data : Bytes)
    (h : first data = some f.toJson) : readJson env visits first data = .ok f ↔ Spec.Detectable enc f := by
  rw [readJson_toJson he hv hf h]
  constructor
  · intro h1
    have h2 : (if Spec.headerRdw f = 426 ∨ Spec.headerBdw f ≤ 0 then Enc.character else .packed) = enc := by
      have := congrArg File.format (Except.ok.inj h1)
      rw [hf.format] at this
      exact this
    cases enc with
    | character =>
      by_cases hc : Spec.headerRdw f = 426 ∨ Spec.headerBdw f ≤ 0
      · exact hc
      · rw [if_neg hc] at h2; cases h2
    | packed =>
      by_cases hc : Spec.headerRdw f = 426 ∨ Spec.headerBdw f ≤ 0
      · rw [if_pos hc] at h2; cases h2
      · exact ⟨by omega, by omega⟩
  · intro hd
    have : (if Spec.headerRdw f = 426 ∨ Spec.headerBdw f ≤ 0 then Enc.character else .packed) = enc := by
      cases enc with
      | character => exact if_pos hd
      | packed => obtain ⟨h1, h2⟩ := hd; rw [if_neg (by omega)]
    rw [this, fileIn_self hf]

/-! ### Examples -/

/-- Decidable sufficient condition for `Spec.JsonFields`: numbers small, texts ASCII, times existing. -/
def jsonFieldsB (decl : List (F × FieldDecl)) (fs : Fields) : Bool :=
  typedB decl fs && fs.all fun p =>
    match p.2 with
    | .int i => decide (-(2 ^ 53) ≤ i ∧ i ≤ 2 ^ 53)
    | .str s => s.all (· < 0x80)
    | .time t => decide t.Plain

theorem jsonFields_of {decl : List (F × FieldDecl)} {fs : Fields} (h : jsonFieldsB decl fs = true) : Spec.JsonFields decl fs := by
  unfold jsonFieldsB at h
  rw [Bool.and_eq_true, List.all_eq_true] at h
  refine ⟨typed_of_typedB h.1, ?_⟩
  intro p hp
  have := h.2 p hp
  revert this
  cases p.2 with
  | int i =>
    intro h
    have h' : -(2 ^ 53) ≤ i ∧ i ≤ 2 ^ 53 := of_decide_eq_true h
    exact h'
  | str s =>
    intro h
    apply utf8_of_ascii
    intro c hc
    simpa using List.all_eq_true.1 h c hc
  | time t => intro h; exact (spec_plainTime_iff t).2 (of_decide_eq_true h)

/-- A JSON-ready segment, checked. -/
theorem jsonSeg_of {s : Seg} (h1 : jsonFieldsB s.kind.struct s.fields = true) (h2 : s.validate = none) : Spec.JsonSeg s.kind s :=
  ⟨rfl, jsonFields_of h1, h2⟩

theorem segs_json : Spec.JsonSegs segs := by
  refine ⟨?_, ?_, ?_, ?_, ?_, ?_, ?_, ?_⟩
  · intro s hs
    simp only [segs, List.mem_cons, List.not_mem_nil, or_false] at hs
    rcases hs with rfl | rfl
    · exact jsonSeg_of (s := j1) (by decide +kernel) (by decide +kernel)
    · exact jsonSeg_of (s := j1') (by decide +kernel) (by decide +kernel)
  · intro s hs
    simp only [segs, List.mem_cons, List.not_mem_nil, or_false] at hs
    subst hs
    exact jsonSeg_of (s := j2) (by decide +kernel) (by decide +kernel)
  all_goals intro s hs
  · cases hs; exact jsonSeg_of (s := k1) (by decide +kernel) (by decide +kernel)
  · cases hs; exact jsonSeg_of (s := k2) (by decide +kernel) (by decide +kernel)
  · cases hs; exact jsonSeg_of (s := k3) (by decide +kernel) (by decide +kernel)
  · cases hs; exact jsonSeg_of (s := k4) (by decide +kernel) (by decide +kernel)
  · cases hs; exact jsonSeg_of (s := l1) (by decide +kernel) (by decide +kernel)
  · cases hs; exact jsonSeg_of (s := n1) (by decide +kernel) (by decide +kernel)

/-- A file with two data records, one with all kinds of segments. -/
def jsonSample (enc : Enc) (bdw rdw : Int) : File :=
  ⟨enc, .header enc (header bdw rdw), [.base enc (base bdw rdw) segs, .base enc (base bdw rdw) {}], .trailer enc (trailer rdw)⟩

theorem jsonSample_ok (enc : Enc) (bdw rdw : Int) (hh : jsonFieldsB headerRecordStruct (header bdw rdw) = true)
    (hb : jsonFieldsB baseSegmentStruct (base bdw rdw) = true) (ht : jsonFieldsB trailerRecordStruct (trailer rdw) = true) :
    Spec.JsonFile enc (jsonSample enc bdw rdw) := by
  refine ⟨rfl, ⟨_, rfl, jsonFields_of hh⟩, ?_, ⟨_, rfl, jsonFields_of ht⟩⟩
  intro r hr
  simp only [jsonSample, List.mem_cons, List.not_mem_nil, or_false] at hr
  rcases hr with rfl | rfl
  · exact ⟨_, _, rfl, jsonFields_of hb, segs_json⟩
  · refine ⟨_, _, rfl, jsonFields_of hb, ?_⟩
    exact ⟨by simp, by simp, by simp, by simp, by simp, by simp, by simp, by simp⟩

/-- Cases of `C47_reader`, `C49_result` and `C49_detected_partial`. C47 applies. -/
example : Spec.JsonFile .character (jsonSample .character 0 426) ∧ Spec.Detectable .character (jsonSample .character 0 426) :=
  ⟨jsonSample_ok _ _ _ (by decide +kernel) (by decide +kernel) (by decide +kernel), .inl (by decide +kernel)⟩

example : Spec.JsonFile .packed (jsonSample .packed 600 596) ∧ Spec.Detectable .packed (jsonSample .packed 600 596) :=
  ⟨jsonSample_ok _ _ _ (by decide +kernel) (by decide +kernel) (by decide +kernel), by decide +kernel, by decide +kernel⟩

example : (newFile .character).ofJson isoEnv backwards (jsonSample .character 0 426).toJson = some (jsonSample .character 0 426) :=
  C47_tree _ isoEnv_ok _ backwards_ok _ _ (jsonSample_ok _ _ _ (by decide +kernel) (by decide +kernel) (by decide +kernel))

/-- C49 is violated: a variable-blocked character file comes back as a packed file, and a packed file with record descriptor
426 as a character file. -/
theorem C49_violated :
    (∃ f, Spec.JsonFile .character f ∧ ∀ env visits first data, Spec.JsonEnvOk env → Spec.MapOrders visits →
      first data = some f.toJson → readJson env visits first data = .ok (Spec.fileIn .packed f)) ∧
    (∃ f, Spec.JsonFile .packed f ∧ ∀ env visits first data, Spec.JsonEnvOk env → Spec.MapOrders visits →
      first data = some f.toJson → readJson env visits first data = .ok (Spec.fileIn .character f)) := by
  have h1 : Spec.JsonFile .character (jsonSample .character 600 596) :=
    jsonSample_ok _ _ _ (by decide +kernel) (by decide +kernel) (by decide +kernel)
  have h2 : Spec.JsonFile .packed (jsonSample .packed 430 426) :=
    jsonSample_ok _ _ _ (by decide +kernel) (by decide +kernel) (by decide +kernel)
  refine ⟨⟨_, h1, fun env visits first data he hv hd => ?_⟩, ⟨_, h2, fun env visits first data he hv hd => ?_⟩⟩
  · exact (C49_result env he visits hv _ _ h1 first data hd).2 ⟨by decide +kernel, by decide +kernel⟩
  · exact (C49_result env he visits hv _ _ h2 first data hd).1 (.inl (by decide +kernel))

/-- C49 in part: the format is recovered if the descriptors tell it. Missing: files whose descriptors do not
(see `C49_violated`). -/
theorem C49_detected_partial (env : JsonEnv) (he : Spec.JsonEnvOk env) (visits : Nat → List (Bytes × Json) → List (Bytes × Json))
    (hv : Spec.MapOrders visits) (enc : Enc) (f : File) (hf : Spec.JsonFile enc f) (hd : Spec.Detectable enc f)
    (first : Bytes → Option Json) (data : Bytes) (h : first data = some f.toJson) : readJson env visits first data = .ok f :=
  (C49_iff env he visits hv enc f hf first data h).2 hd

/-- Case of `C47_record`. -/
example (enc : Enc) : (newBase enc).ofJson isoEnv (backwards 0) (Record.base enc (base 600 596) segs).toJson = some (.base enc (base 600 596) segs) :=
  C47_record _ isoEnv_ok _ (backwards_ok 0) _ _ _ (jsonFields_of (by decide +kernel)) segs_json

end Metro2
