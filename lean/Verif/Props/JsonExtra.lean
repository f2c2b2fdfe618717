import Verif.Props.JsonDoc
import Verif.Lemmas.JsonExtraFormat

/-! C83: members of a JSON document that are not known do not matter. -/

namespace Metro2

open Samples

theorem framed_new (enc : Enc) : Framed (newFile enc) := ⟨⟨_, _, rfl⟩, ⟨_, _, rfl⟩⟩

/-- C83: a new file takes the same from both documents, if the numbers in the members that are not known are in range. Missing: a number
out of range there makes an error, see `C83_violated`. -/
theorem C83_file_partial (env : JsonEnv) (hst : Spec.FloatsStable env) (visits : Nat → List (Bytes × Json) → List (Bytes × Json))
    (hv : Spec.MapOrders visits) (enc : Enc) (j j' : Json) (h : Spec.AddsTo env .file j j') :
    (newFile enc).ofJson env visits j = (newFile enc).ofJson env visits j' := by
  have ho : Spec.MapOrders inOrder := fun _ l => List.Perm.refl l
  rw [C48_file env visits inOrder hv ho, C48_file env visits inOrder hv ho]
  exact ofJson_adds hst h _ (framed_new enc)

/-- C83, for the reader: if also the members that tell the format occur once, apart from case. Missing: a member like `Header` is not
known to the file but tells the format, see `C83_violated`. -/
theorem C83_reader_partial (env : JsonEnv) (hst : Spec.FloatsStable env) (visits : Nat → List (Bytes × Json) → List (Bytes × Json))
    (hv : Spec.MapOrders visits) (first : Bytes → Option Json) (data data' : Bytes) (j j' : Json) (hd : first data = some j)
    (hd' : first data' = some j') (h : Spec.AddsTo env .file j j') (hp : Spec.PlainFile j) (hp' : Spec.PlainFile j') :
    readJson env visits first data = readJson env visits first data' := by
  unfold readJson
  rw [hd, hd']
  simp only [decodeDummy_adds h hp hp', C83_file_partial env hst visits hv _ j j' h]

/-- C83: what is written for a file, with further members that are not known, is read back as that file. -/
theorem C83_back_partial (env : JsonEnv) (he : Spec.JsonEnvOk env) (hst : Spec.FloatsStable env)
    (visits : Nat → List (Bytes × Json) → List (Bytes × Json)) (hv : Spec.MapOrders visits) (enc : Enc) (f : File) (hf : Spec.JsonFile enc f)
    (hd : Spec.Detectable enc f) (first : Bytes → Option Json) (p : Plan) (data : Bytes) (hb : Spec.EarlyBrace data) (j : Json)
    (h : first data = some j) (hs : Spec.AddsTo env .file f.toJson j) (hp : Spec.PlainFile j) :
    newFileFromReader (readJson env visits first) p data false = .ok f := by
  have h1 := C47_reader env he visits hv enc f hf hd (fun _ => some f.toJson) p data rfl hb
  have h2 : readJson env visits (fun _ => some f.toJson) data = readJson env visits first data := by
    unfold readJson
    rw [h]
    simp only [decodeDummy_adds hs (plain_toJson hf) hp, C83_file_partial env hst visits hv _ _ _ hs]
  have hj : ∀ json json' : Bytes → Except Err File, json data = json' data →
      newFileFromReader json p data false = newFileFromReader json' p data false := by
    intro json json' hjj
    unfold newFileFromReader
    rw [hjj]
  rw [← hj _ _ h2]
  exact h1

namespace Samples

theorem isoEnv_stable : Spec.FloatsStable isoEnv := fun _ _ _ => rfl

/-- A file with a remark of its own and one in the header. -/
def remarked (f : File) : Json :=
  .obj [(b! "$schema", .str (b! "metro2")),
    (b! "header", match f.header.toJson with
      | .obj kvs => .obj (kvs ++ [(b! "remark", .arr [.num (b! "1"), .null])])
      | j => j),
    (b! "data", if f.bases = [] then .null else .arr (f.bases.map Record.toJson)),
    (b! "trailer", f.trailer.toJson)]

theorem notSpelt {w k : Bytes} (hw : ∀ c ∈ w, 97 ≤ c ∧ c ≤ 122) (h : equalFold k w = false) : ¬ Spec.Spells Spec.foldOthers w k := by
  intro hs
  rw [← spells_fold _ hw, h] at hs
  cases hs

theorem spelt_fold {w s : Bytes} (hw : ∀ c ∈ w, c < 0x80) (h : Spec.Spells Spec.foldOthers w s) : s.length ≥ w.length := by
  induction h with
  | nil => exact Nat.le_refl _
  | small _ ih => exact Nat.succ_le_succ (ih fun c hc => hw c (List.mem_cons_of_mem _ hc))
  | large _ _ _ ih => exact Nat.succ_le_succ (ih fun c hc => hw c (List.mem_cons_of_mem _ hc))
  | other hm _ ih =>
    have := ih fun c hc => hw c (List.mem_cons_of_mem _ hc)
    simp only [Spec.foldOthers, List.mem_cons, Prod.mk.injEq, List.not_mem_nil, or_false] at hm
    rcases hm with ⟨rfl, rfl⟩ | ⟨rfl, rfl⟩ <;> simp <;> omega

/-- The header of a file is longer than the word. -/
theorem remark_unknown : Spec.UnknownKey (.fields headerRecordStruct) (b! "remark") := by
  intro p hp hs
  have hl : ∀ p ∈ headerRecordStruct, (Spec.smallWord p.2.json).length > 6 ∧ ∀ c ∈ Spec.smallWord p.2.json, c < 0x80 := by decide +kernel
  obtain ⟨h1, h2⟩ := hl p hp
  have := spelt_fold h2 hs
  have : (b! "remark").length = 6 := rfl
  omega

theorem remarked_adds (env : JsonEnv) (he : Spec.JsonEnvOk env) {enc : Enc} {f : File} (hf : Spec.JsonFile enc f) :
    Spec.AddsTo env .file f.toJson (remarked f) := by
  obtain ⟨fs, hh, -⟩ := hf.header
  have one : env.refloat (b! "1") ≠ none := by
    have := he.refloat 1 (by decide) (by decide)
    rw [show b! "1" = fmtInt 1 by decide +kernel, this]
    simp
  have s1 : Spec.AddsTo env .file f.toJson (.obj ((b! "$schema", .str (b! "metro2")) :: [(b! "header", f.header.toJson),
      (b! "data", if f.bases = [] then .null else .arr (f.bases.map Record.toJson)), (b! "trailer", f.trailer.toJson)])) :=
    .extra [] _ ⟨by decide +kernel, by decide +kernel, notSpelt headerWord_small (by decide +kernel)⟩ (.str _)
  refine .trans s1 ?_
  unfold remarked
  rw [hh]
  refine .member [(b! "$schema", .str (b! "metro2"))] _ (k := b! "header") .header ?_
  have := Spec.AddsTo.extra (env := env) (p := .fields headerRecordStruct) (encodeMembers headerRecordStruct fs) [] (k := b! "remark")
    (v := .arr [.num (b! "1"), .null]) remark_unknown (.arr fun x hx => by
      simp only [List.mem_cons, List.not_mem_nil, or_false] at hx
      rcases hx with rfl | rfl
      · exact .num one
      · exact .null)
  rw [List.append_nil] at this
  exact this

theorem once_header_remark {word : String} (hw : ∀ c ∈ word.toUTF8.data.toList, 97 ≤ c ∧ c ≤ 122)
    (h : (headerRecordStruct.map (·.2.json) ++ [b! "remark"]).Pairwise fun a b =>
      ¬ (foldKey a = foldKey word.toUTF8.data.toList ∧ foldKey b = foldKey word.toUTF8.data.toList)) (fs : Fields) (v : Json) :
    Spec.Once word (encodeMembers headerRecordStruct fs ++ [(b! "remark", v)]) := by
  refine once_keys hw (h.sublist ?_)
  rw [List.map_append]
  exact (encodeMembers_keys headerRecordStruct fs).append (List.Sublist.refl _)

theorem remarked_plain {enc : Enc} {f : File} (hf : Spec.JsonFile enc f) : Spec.PlainFile (remarked f) := by
  obtain ⟨fs, hh, -⟩ := hf.header
  refine ⟨once_keys (by decide +kernel) ?_, ?_⟩
  · show [b! "$schema", b! "header", b! "data", b! "trailer"].Pairwise _
    decide +kernel
  · intro kv hkv hs
    rw [← spells_fold _ headerWord_small, headerWord_eq] at hs
    rw [hh] at hkv
    simp only [List.mem_cons, List.not_mem_nil, or_false] at hkv
    rcases hkv with rfl | rfl | rfl | rfl
    · exact absurd hs (by decide +kernel)
    · exact ⟨once_header_remark (by decide +kernel) (by decide +kernel) fs _, once_header_remark (by decide +kernel) (by decide +kernel) fs _,
        once_header_remark (by decide +kernel) (by decide +kernel) fs _⟩
    · exact absurd hs (by show ¬ equalFold (b! "data") (b! "header") = true; decide +kernel)
    · exact absurd hs (by show ¬ equalFold (b! "trailer") (b! "header") = true; decide +kernel)

/-- A document without a header. -/
def noHeader : Json := .obj [(b! "data", .null)]

/-- The same with a member that is not known to the file. -/
def unknownHeader : Json := .obj [(b! "HEADER", .obj [(b! "blockDescriptorWord", .num (b! "600"))]), (b! "data", .null)]

/-- The same with a number in a member that is not known. -/
def hugeRemark (lit : Bytes) : Json := .obj [(b! "remark", .num lit), (b! "data", .null)]

end Samples

/-- Cases of `C83_file_partial` and `C83_reader_partial`. -/
example : newFileFromReader (readJson isoEnv backwards fun _ => some (remarked (jsonSample .packed 600 596))) ⟨fun _ => 4096, fun _ => false⟩
    (b! "{\"trailer\":") false = .ok (jsonSample .packed 600 596) :=
  have hf := jsonSample_ok .packed 600 596 (by decide +kernel) (by decide +kernel) (by decide +kernel)
  C83_back_partial _ isoEnv_ok isoEnv_stable _ backwards_ok _ _ hf ⟨by decide +kernel, by decide +kernel⟩ _ _ _ (by decide +kernel) _ rfl
    (remarked_adds _ isoEnv_ok hf) (remarked_plain hf)

/-- C83 is violated: a member whose name is not `header` but differs from it in case only is left out of the file and yet decides its format, and a
number that is out of range in a member that is not known makes the document unreadable. -/
theorem C83_violated (first : Bytes → Option Json) (d1 d2 : Bytes) (h1 : first d1 = some noHeader) (h2 : first d2 = some unknownHeader) :
    (∃ f f', readJson isoEnv backwards first d1 = .ok f ∧ readJson isoEnv backwards first d2 = .ok f' ∧ f.format = .character ∧
      f'.format = .packed ∧ f.header.fields = f'.header.fields) ∧
    ∀ env visits lit d3, env.refloat lit = none → first d3 = some (hugeRemark lit) → readJson env visits first d3 = .error .json := by
  refine ⟨⟨newFile .character, newFile .packed, ?_, ?_, rfl, rfl, by decide +kernel⟩, ?_⟩
  · unfold readJson
    rw [h1]
    rfl
  · unfold readJson
    rw [h2]
    rfl
  · intro env visits lit d3 hl h3
    unfold readJson
    rw [h3]
    have hd : decodeDummy env (hugeRemark lit) = some none := rfl
    have ho : (newFile (detectFormat none)).ofJson env visits (hugeRemark lit) = none := by
      have hm : decodeMap env (hugeRemark lit) = none := by
        show reObj env [(b! "remark", .num lit), (b! "data", .null)] [] = none
        rw [reObj, reJson, hl]
        rfl
      unfold File.ofJson
      rw [hm]
    simp only [hd, ho]

/-- Such documents, and a library for which numbers of more than 308 digits are out of range. -/
example : ∃ first : Bytes → Option Json, first [1] = some noHeader ∧ first [2] = some unknownHeader ∧ first [3] = some (hugeRemark [49]) :=
  ⟨fun d => if d = [1] then some noHeader else if d = [2] then some unknownHeader else some (hugeRemark [49]), rfl, rfl, rfl⟩

example : ({ isoEnv with refloat := fun lit => if lit.length < 309 then some lit else none } : JsonEnv).refloat (List.replicate 400 57) = none := by
  decide +kernel

end Metro2
