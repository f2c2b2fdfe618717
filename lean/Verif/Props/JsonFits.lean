import Verif.Lemmas.JsonFits
import Verif.Props.JsonExtra

/-! C117: which documents the library reads. -/

namespace Metro2

open Samples

theorem framedTyped {f : File} (hu : Spec.Uniform f) (ht : Spec.TypedFile f) : FramedTyped f := by
  obtain ⟨⟨fs, h1⟩, -, ⟨gs, h2⟩⟩ := hu
  have t1 := ht.header
  have t2 := ht.trailer
  rw [h1] at t1
  rw [h2] at t2
  exact ⟨⟨_, fs, h1, t1⟩, _, gs, h2, t2⟩

/-- C117: `UnmarshalJSON` of a file takes exactly the documents whose numbers are in range and whose known members, the last of each key, can be read at
their places, with valid segments. It does not matter what was in the file before, nor in which order Go walks through its maps. -/
theorem C117_file (env : JsonEnv) (hst : Spec.FloatsStable env) (visits : Nat → List (Bytes × Json) → List (Bytes × Json)) (hv : Spec.MapOrders visits)
    (f : File) (hu : Spec.Uniform f) (ht : Spec.TypedFile f) (j : Json) :
    (∃ g, f.ofJson env visits j = some g) ↔ Spec.NumbersOk env j ∧ Spec.ReadAt env (Spec.LibraryDate env) (Spec.ValidRead env) .file j := by
  rw [C48_file env visits inOrder hv (fun _ l => List.Perm.refl l), ← ofJson_isSome hst (framedTyped hu ht), Option.isSome_iff_exists]

/-- C117, for the reader: a text is read exactly if its first JSON value is such a document, and no member that spells `header` in whatever letters is
wrong in one of the three fields that tell the format (`Spec.BadHead`, see C104). -/
theorem C117_reader (env : JsonEnv) (hst : Spec.FloatsStable env) (visits : Nat → List (Bytes × Json) → List (Bytes × Json)) (hv : Spec.MapOrders visits)
    (first : Bytes → Option Json) (data : Bytes) :
    (∃ g, readJson env visits first data = .ok g) ↔ ∃ j, first data = some j ∧ ¬ Spec.BadHead env j ∧ Spec.NumbersOk env j ∧
      Spec.ReadAt env (Spec.LibraryDate env) (Spec.ValidRead env) .file j := by
  unfold readJson
  cases first data with
  | none => simp
  | some j =>
    simp only [Option.some.injEq, exists_eq_left']
    rw [← decodeDummy_none]
    cases decodeDummy env j with
    | none => simp
    | some h =>
      rw [← C117_file env hst visits hv _ (C32_reachable (.new (detectFormat h))).1 (C32_reachable (.new _)).2 j]
      simp only [reduceCtorEq, not_false_eq_true, true_and]
      cases (newFile (detectFormat h)).ofJson env visits j <;> simp

/-- C117: `null` as a segment is an error, but for K3, where it adds a segment in which nothing is filled in. -/
theorem C117_null_segment (env : JsonEnv) (k : SegKind) : Spec.ValidRead env k .null ↔ k = .k3 := by
  have h : Spec.ValidRead env k .null ↔ (Seg.new k).validate = none := by
    constructor
    · rintro ⟨w, fs, hw, hd, hv⟩
      cases hw
      cases hd
      exact hv
    · exact fun h => ⟨.null, _, rfl, rfl, h⟩
  rw [h]
  cases k <;> decide +kernel

/-! ### Examples -/

theorem isoEnv_floats : Spec.FloatsStable isoEnv := fun lit lit' h => by cases h; rfl

/-- Case of `C117_file`: a data record that is a text is refused; so is a list of data records that is an object. -/
example (visits : Nat → List (Bytes × Json) → List (Bytes × Json)) (hv : Spec.MapOrders visits) (enc : Enc) :
    (¬ ∃ g, (newFile enc).ofJson isoEnv visits (.obj [(b! "data", .arr [.str (b! "x")])]) = some g) ∧
    ¬ ∃ g, (newFile enc).ofJson isoEnv visits (.obj [(b! "data", .obj [])]) = some g := by
  have hu : Spec.Uniform (newFile enc) := (C32_reachable (.new enc)).1
  have ht : Spec.TypedFile (newFile enc) := (C32_reachable (.new enc)).2
  rw [C117_file isoEnv isoEnv_floats visits hv _ hu ht, C117_file isoEnv isoEnv_floats visits hv _ hu ht]
  have hin : Spec.Inside .file (b! "data") .data := by
    rw [show (b! "data") = "data".toUTF8.data.toList from by decide +kernel]; exact .data
  constructor
  · rintro ⟨-, h⟩
    cases h with
    | members _ _ h _ =>
      have h1 := h (b! "data") _ .data ⟨[], [], rfl, by simp⟩ hin
      cases h1 with
      | list _ he h2 _ =>
        cases he
        have h3 := h2 _ List.mem_cons_self
        cases h3
  · rintro ⟨-, h⟩
    cases h with
    | members _ _ h _ =>
      have h1 := h (b! "data") _ .data ⟨[], [], rfl, by simp⟩ hin
      cases h1 with
      | members _ hp _ _ => rcases hp with hp | hp <;> cases hp

/-- Case of `C117_file`: a document that repeats `data`; only the last one counts, and it can be read. -/
example (visits : Nat → List (Bytes × Json) → List (Bytes × Json)) (hv : Spec.MapOrders visits) (enc : Enc) :
    ∃ g, (newFile enc).ofJson isoEnv visits (.obj [(b! "data", .bool true), (b! "data", .arr [.null])]) = some g := by
  rw [C117_file isoEnv isoEnv_floats visits hv _ ((C32_reachable (.new enc)).1) ((C32_reachable (.new enc)).2)]
  constructor
  · refine .obj fun kv h => ?_
    simp only [List.mem_cons, List.not_mem_nil, or_false] at h
    rcases h with rfl | rfl
    · exact .bool true
    · exact .arr fun x hx => by rw [List.mem_singleton.1 hx]; exact .null
  · refine .members _ (.inl rfl) (fun k v q hl hin => ?_) fun s v hp => nomatch hp
    rw [lastMember_iff] at hl
    have hk : k = b! "data" := by
      have := lastVal_mem hl
      simp only [List.mem_cons, Prod.mk.injEq, List.not_mem_nil, or_false] at this
      rcases this with ⟨h, -⟩ | ⟨h, -⟩ <;> exact h
    subst hk
    cases hl
    rcases inside_file hin with ⟨h', -⟩ | ⟨-, rfl⟩ | ⟨h', -⟩
    · exact absurd h' (by decide)
    · exact .list _ .record (fun x hx => by rw [List.mem_singleton.1 hx]; exact .null _) (fun s hs => nomatch hs)
    · exact absurd h' (by decide)

/-- Case of `C117_reader`: any text whose first JSON value is `null` is read. -/
example (visits : Nat → List (Bytes × Json) → List (Bytes × Json)) (hv : Spec.MapOrders visits) : ∃ g, readJson isoEnv visits (fun _ => some .null) [] = .ok g :=
  (C117_reader isoEnv isoEnv_floats visits hv _ _).2 ⟨.null, rfl, by rw [← decodeDummy_none]; simp [decodeDummy], .null, .null _⟩

/-- Case of `C117_null_segment`: a data record with a K1 segment that is `null` is refused, one with such a K3 segment is not. -/
example : (decodeBase isoEnv (fun l => l) (zeroFields baseSegmentStruct) {} (.obj [(b! "k1", .null)])).isSome = false ∧
    (decodeBase isoEnv (fun l => l) (zeroFields baseSegmentStruct) {} (.obj [(b! "k3", .null)])).isSome = true := by
  have e : ∀ k, reJson isoEnv (.obj [(k, .null)]) = some (.obj [(k, .null)]) := fun k => by rw [reJson]; rfl
  constructor
  · rw [← Bool.not_eq_true, decodeBase_isSome isoEnv_floats _ _ (e _)]
    intro h
    cases h with
    | members _ _ _ h2 =>
      have := h2 .k1 .null rfl (by decide) (by decide) ⟨[], [], by rw [show Spec.smallWord (Spec.segmentIdent .k1) = b! "k1" from by decide +kernel]; rfl, by simp⟩
      exact absurd ((C117_null_segment isoEnv .k1).1 this) (by decide)
  · rw [decodeBase_isSome isoEnv_floats _ _ (e _)]
    refine .members _ (.inr rfl) (fun k v q hl hin => ?_) fun s v _ h1 h2 hl => ?_
    · rw [lastMember_iff] at hl
      have := lastVal_mem hl
      rw [List.mem_singleton] at this
      cases this
      exact .null _
    · rw [lastMember_iff] at hl
      have := lastVal_mem hl
      rw [List.mem_singleton] at this
      have hk : s = .k3 := names_apart.2.1 s .k3 (by rw [← (name_small s).1, (Prod.mk.inj this).1]; decide +kernel)
      rw [(Prod.mk.inj this).2]
      exact (C117_null_segment isoEnv s).2 hk

end Metro2
