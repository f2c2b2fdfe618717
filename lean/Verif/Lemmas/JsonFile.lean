import Verif.Lemmas.Json

/-! JSON round trip of data records and files. -/

namespace Metro2

theorem tagsOk_seg (k : SegKind) : TagsOk k.struct := by cases k <;> decide +kernel
theorem tagsOk_base : TagsOk baseSegmentStruct := by decide +kernel
theorem tagsOk_header : TagsOk headerRecordStruct := by decide +kernel
theorem tagsOk_trailer : TagsOk trailerRecordStruct := by decide +kernel

theorem omitZero_seg (k : SegKind) : OmitZero k.struct (Seg.new k).fields := by cases k <;> decide +kernel
theorem omitZero_base : OmitZero baseSegmentStruct (zeroFields baseSegmentStruct) := by decide +kernel
theorem omitZero_header (enc : Enc) : OmitZero headerRecordStruct (newHeader enc).fields := by cases enc <;> decide +kernel
theorem omitZero_trailer (enc : Enc) : OmitZero trailerRecordStruct (newTrailer enc).fields := by cases enc <;> decide +kernel

theorem Members.append {m n : List (Bytes × Json)} {ps qs : List (Bytes × (Json → Prop))} (h1 : Members m ps) (h2 : Members n qs) :
    Members (m ++ n) (ps ++ qs) := by
  induction m generalizing ps with
  | nil => cases ps with
    | nil => exact h2
    | cons => exact h1.elim
  | cons a m ih => cases ps with
    | nil => exact h1.elim
    | cons p ps => exact ⟨h1.1, h1.2.1, ih h1.2.2⟩

theorem Members.split {m : List (Bytes × Json)} {ps qs : List (Bytes × (Json → Prop))} (h : Members m (ps ++ qs)) :
    ∃ m1 m2, m = m1 ++ m2 ∧ Members m1 ps ∧ Members m2 qs := by
  induction ps generalizing m with
  | nil => exact ⟨[], m, rfl, trivial, h⟩
  | cons p ps ih => cases m with
    | nil => exact h.elim
    | cons a m =>
      obtain ⟨m1, m2, rfl, h1, h2⟩ := ih h.2.2
      exact ⟨a :: m1, m2, rfl, ⟨h.1, h.2.1, h1⟩, h2⟩

/-! ### Structs, however they are written -/

/-- Re-encoding, several times. -/
def reTimes (env : JsonEnv) : Nat → Json → Option Json
  | 0, j => some j
  | n + 1, j => (reJson env j).bind (reTimes env n)

/-- The value is decoded into `fs` from `fs0`, also after re-encoding. -/
def Carries (env : JsonEnv) (decl : List (F × FieldDecl)) (fs0 fs : Fields) (j : Json) : Prop :=
  ∀ n, ∃ k, reTimes env n j = some k ∧ decodeStruct env decl fs0 k = some fs

theorem stable_carries (env : JsonEnv) (decl : List (F × FieldDecl)) (fs0 fs : Fields) : Stable env (Carries env decl fs0 fs) := by
  intro j h
  obtain ⟨k, h1, _⟩ := h 1
  cases hk : reJson env j with
  | none => simp [reTimes, hk] at h1
  | some k =>
    refine ⟨k, rfl, fun n => ?_⟩
    obtain ⟨i, h2, h3⟩ := h (n + 1)
    rw [reTimes, hk, Option.bind_some] at h2
    exact ⟨i, h2, h3⟩

theorem Carries.decode {env : JsonEnv} {decl : List (F × FieldDecl)} {fs0 fs : Fields} {j : Json} (h : Carries env decl fs0 fs j) :
    decodeStruct env decl fs0 j = some fs := by
  obtain ⟨k, h1, h2⟩ := h 0
  cases h1
  exact h2

theorem carries_of_stable {env : JsonEnv} {decl : List (F × FieldDecl)} {fs0 fs : Fields} {P : Json → Prop} (hs : Stable env P)
    (hd : ∀ j, P j → decodeStruct env decl fs0 j = some fs) {j : Json} (h : P j) : Carries env decl fs0 fs j := by
  intro n
  induction n generalizing j with
  | zero => exact ⟨j, rfl, hd j h⟩
  | succ n ih =>
    obtain ⟨k, h1, h2⟩ := hs j h
    obtain ⟨i, h3, h4⟩ := ih h2
    exact ⟨i, by rw [reTimes, h1, Option.bind_some, h3], h4⟩

theorem carries_encode {env : JsonEnv} (he : Spec.JsonEnvOk env) {decl : List (F × FieldDecl)} (ht : TagsOk decl)
    {fs : Fields} (hf : Spec.JsonFields decl fs) {fs0 : Fields} (h0 : fs0.Typed decl) (ho : OmitZero decl fs0) :
    Carries env decl fs0 fs (encodeStruct decl fs) :=
  carries_of_stable (stable_isStruct he ht hf) (fun _ hj => decodeStruct_isStruct he ht hf h0 ho hj) (isStruct_encode decl fs)

/-! ### Data records -/

/-- A segment that is stored in its place and accepted by `Validate`. -/
structure SegOk (k : SegKind) (s : Seg) : Prop where
  kind : s.kind = k
  valid : s.validate = none

/-- All segments of a data record are such. -/
structure SegsOk (g : Segs) : Prop where
  j1 : ∀ s ∈ g.j1, SegOk .j1 s
  j2 : ∀ s ∈ g.j2, SegOk .j2 s
  k1 : ∀ s, g.k1 = some s → SegOk .k1 s
  k2 : ∀ s, g.k2 = some s → SegOk .k2 s
  k3 : ∀ s, g.k3 = some s → SegOk .k3 s
  k4 : ∀ s, g.k4 = some s → SegOk .k4 s
  l1 : ∀ s, g.l1 = some s → SegOk .l1 s
  n1 : ∀ s, g.n1 = some s → SegOk .n1 s

theorem segsOk_of {g : Segs} (h : Spec.JsonSegs g) : SegsOk g :=
  have go : ∀ {k : SegKind} {s : Seg}, Spec.JsonSeg k s → SegOk k s := fun h => ⟨h.kind, h.valid⟩
  ⟨fun s hs => go (h.j1 s hs), fun s hs => go (h.j2 s hs), fun s hs => go (h.k1 s hs), fun s hs => go (h.k2 s hs),
    fun s hs => go (h.k3 s hs), fun s hs => go (h.k4 s hs), fun s hs => go (h.l1 s hs), fun s hs => go (h.n1 s hs)⟩

/-- The value is read as the segment. -/
def IsSeg (env : JsonEnv) (s : Seg) : Json → Prop := Carries env s.kind.struct (Seg.new s.kind).fields s.fields

theorem isSeg_encode {env : JsonEnv} (he : Spec.JsonEnvOk env) {k : SegKind} {s : Seg} (h : Spec.JsonSeg k s) :
    IsSeg env s (encodeStruct s.kind.struct s.fields) := by
  have hk := h.kind
  subst hk
  exact carries_encode he (tagsOk_seg _) h.fields (Seg.new_typed _) (omitZero_seg _)

/-- The member of a list of segments. -/
def segsPs (env : JsonEnv) (key : Bytes) (l : List Seg) : List (Bytes × (Json → Prop)) :=
  if l = [] then [] else [(key, IsArr (l.map (IsSeg env)))]

/-- The member of an optional segment. -/
def segPs (env : JsonEnv) (key : Bytes) : Option Seg → List (Bytes × (Json → Prop))
  | none => []
  | some s => [(key, IsSeg env s)]

/-- The members of a data record. -/
def basePs (env : JsonEnv) (fs : Fields) (g : Segs) : List (Bytes × (Json → Prop)) :=
  [(b! "base", Carries env baseSegmentStruct (zeroFields baseSegmentStruct) fs)] ++ segsPs env (b! "j1") g.j1 ++ segsPs env (b! "j2") g.j2 ++
    segPs env (b! "k1") g.k1 ++ segPs env (b! "k2") g.k2 ++ segPs env (b! "k3") g.k3 ++ segPs env (b! "k4") g.k4 ++
    segPs env (b! "l1") g.l1 ++ segPs env (b! "n1") g.n1

theorem elems_map {α : Type} (l : List α) (f : α → Json) (P : α → Json → Prop) (h : ∀ a ∈ l, P a (f a)) :
    Elems (l.map f) (l.map P) := by
  induction l with
  | nil => trivial
  | cons a l ih => exact ⟨h a (by simp), ih fun b hb => h b (by simp [hb])⟩

theorem members_segs {env : JsonEnv} (he : Spec.JsonEnvOk env) {k : SegKind} (key : Bytes) (l : List Seg)
    (h : ∀ s ∈ l, Spec.JsonSeg k s) : Members (segsMember key l) (segsPs env key l) := by
  unfold segsMember segsPs
  split
  · trivial
  · exact ⟨rfl, ⟨_, rfl, elems_map l _ _ fun s hs => isSeg_encode he (h s hs)⟩, trivial⟩

theorem members_seg {env : JsonEnv} (he : Spec.JsonEnvOk env) {k : SegKind} (key : Bytes) (o : Option Seg)
    (h : ∀ s, o = some s → Spec.JsonSeg k s) : Members (segMember key o) (segPs env key o) := by
  cases o with
  | none => trivial
  | some s => exact ⟨rfl, isSeg_encode he (h s rfl), trivial⟩

theorem isObj_encodeBase {env : JsonEnv} (he : Spec.JsonEnvOk env) {fs : Fields} {g : Segs}
    (hf : Spec.JsonFields baseSegmentStruct fs) (hg : Spec.JsonSegs g) : IsObj (basePs env fs g) (encodeBase fs g) := by
  refine ⟨_, _, rfl, List.Perm.refl _, ?_⟩
  unfold basePs
  refine Members.append (Members.append (Members.append (Members.append (Members.append (Members.append (Members.append
    (Members.append ?_ (members_segs he _ _ hg.j1)) (members_segs he _ _ hg.j2)) (members_seg he _ _ hg.k1)) (members_seg he _ _ hg.k2))
    (members_seg he _ _ hg.k3)) (members_seg he _ _ hg.k4)) (members_seg he _ _ hg.l1)) (members_seg he _ _ hg.n1)
  exact ⟨rfl, carries_encode he tagsOk_base hf (zeroFields_typed _) omitZero_base, trivial⟩

theorem segsPs_keys (env : JsonEnv) (key : Bytes) (l : List Seg) : ((segsPs env key l).map (·.1)).Sublist [key] := by
  unfold segsPs
  split
  · exact List.nil_sublist _
  · exact List.Sublist.refl _

theorem segPs_keys (env : JsonEnv) (key : Bytes) (o : Option Seg) : ((segPs env key o).map (·.1)).Sublist [key] := by
  cases o with
  | none => exact List.nil_sublist _
  | some s => exact List.Sublist.refl _

theorem basePs_nodup (env : JsonEnv) (fs : Fields) (g : Segs) : ((basePs env fs g).map (·.1)).Nodup := by
  have hs : ((basePs env fs g).map (·.1)).Sublist
      ([b! "base"] ++ [b! "j1"] ++ [b! "j2"] ++ [b! "k1"] ++ [b! "k2"] ++ [b! "k3"] ++ [b! "k4"] ++ [b! "l1"] ++ [b! "n1"]) := by
    unfold basePs
    simp only [List.map_append]
    refine List.Sublist.append (List.Sublist.append (List.Sublist.append (List.Sublist.append (List.Sublist.append
      (List.Sublist.append (List.Sublist.append (List.Sublist.append (List.Sublist.refl _) (segsPs_keys _ _ _))
      (segsPs_keys _ _ _)) (segPs_keys _ _ _)) (segPs_keys _ _ _)) (segPs_keys _ _ _)) (segPs_keys _ _ _)) (segPs_keys _ _ _))
      (segPs_keys _ _ _)
  exact hs.nodup (by decide +kernel)

theorem segs_stable (env : JsonEnv) (key : Bytes) (l : List Seg) : ∀ p ∈ segsPs env key l, Stable env p.2 := by
  intro p hp
  unfold segsPs at hp
  split at hp
  · simp at hp
  · rw [List.mem_singleton] at hp
    subst hp
    apply stable_isArr
    intro q hq
    obtain ⟨s, hs, rfl⟩ := List.mem_map.1 hq
    exact stable_carries _ _ _ _

theorem seg_stable (env : JsonEnv) (key : Bytes) (o : Option Seg) : ∀ p ∈ segPs env key o, Stable env p.2 := by
  intro p hp
  cases o with
  | none => simp [segPs] at hp
  | some s =>
    simp only [segPs, List.mem_singleton] at hp
    subst hp
    exact stable_carries _ _ _ _

theorem basePs_stable (env : JsonEnv) (fs : Fields) (g : Segs) : ∀ p ∈ basePs env fs g, Stable env p.2 := by
  intro p hp
  simp only [basePs, List.mem_append] at hp
  rcases hp with (((((((hp | hp) | hp) | hp) | hp) | hp) | hp) | hp) | hp
  · rw [List.mem_singleton] at hp
    subst hp
    exact stable_carries _ _ _ _
  · exact segs_stable _ _ _ p hp
  · exact segs_stable _ _ _ p hp
  · exact seg_stable _ _ _ p hp
  · exact seg_stable _ _ _ p hp
  · exact seg_stable _ _ _ p hp
  · exact seg_stable _ _ _ p hp
  · exact seg_stable _ _ _ p hp
  · exact seg_stable _ _ _ p hp

theorem segOf_isSeg {env : JsonEnv} {k : SegKind} {s : Seg} (h : SegOk k s) {j : Json}
    (hj : IsSeg env s j) : segOf env k.name j = some [s] := by
  obtain ⟨hk, hv⟩ := h
  obtain ⟨k', fs⟩ := s
  simp only at hk
  subst hk
  have hn : segKindOfName k'.name = some k' := by cases k' <;> rfl
  unfold segOf
  rw [hn]
  simp only [hj.decode, hv]
  rfl

theorem segsOf_elems {env : JsonEnv} {k : SegKind} (l : List Seg)
    (h : ∀ s ∈ l, SegOk k s) (xs : List Json) (hx : Elems xs (l.map (IsSeg env))) : segsOf env k.name xs = some l := by
  induction l generalizing xs with
  | nil => cases xs with
    | nil => rfl
    | cons => exact hx.elim
  | cons s l ih => cases xs with
    | nil => exact hx.elim
    | cons x xs =>
      rw [segsOf, segOf_isSeg (h s (by simp)) hx.1, ih (fun t ht => h t (by simp [ht])) xs hx.2]
      rfl

theorem fold_segs {env : JsonEnv} {k : SegKind} (hk : k = .j1 ∨ k = .j2) {l : List Seg}
    (h : ∀ s ∈ l, SegOk k s) {m : List (Bytes × Json)} (hm : Members m (segsPs env k.name l)) (r : Fields × Segs) :
    m.foldlM (decodeBaseEntry env) r = some (r.1, l.foldl Segs.store r.2) := by
  unfold segsPs at hm
  split at hm
  · next hl =>
    subst hl
    cases m with
    | nil => rfl
    | cons => exact hm.elim
  · cases m with
    | nil => exact hm.elim
    | cons kv m => cases m with
      | cons => exact hm.2.2.elim
      | nil =>
        obtain ⟨h1, h2, _⟩ := hm
        simp only at h1 h2
        obtain ⟨xs, h3, h4⟩ := decodeList_isArr (env := env) (by
          intro q hq
          obtain ⟨s, hs, rfl⟩ := List.mem_map.1 hq
          exact stable_carries _ _ _ _) h2
        have he' : entryEffect env kv = some (.segs l) := by
          unfold entryEffect
          have hb : k.name ≠ b! "base" := by rcases hk with rfl | rfl <;> decide
          have hj : k.name = b! "j1" ∨ k.name = b! "j2" := by
            rcases hk with rfl | rfl
            · exact .inl rfl
            · exact .inr rfl
          rw [h1, if_neg hb, if_pos hj, h3, Option.bind_some, segsOf_elems l h xs h4]
          rfl
        simp only [List.foldlM_cons, List.foldlM_nil, decodeBaseEntry_eq, he']
        rfl

theorem fold_seg {env : JsonEnv} {k : SegKind} (hk : k ≠ .j1 ∧ k ≠ .j2) {o : Option Seg}
    (h : ∀ s, o = some s → SegOk k s) {m : List (Bytes × Json)} (hm : Members m (segPs env k.name o)) (r : Fields × Segs) :
    m.foldlM (decodeBaseEntry env) r = some (r.1, o.toList.foldl Segs.store r.2) := by
  cases o with
  | none =>
    cases m with
    | nil => rfl
    | cons => exact hm.elim
  | some s =>
    cases m with
    | nil => exact hm.elim
    | cons kv m => cases m with
      | cons => exact hm.2.2.elim
      | nil =>
        obtain ⟨h1, h2, _⟩ := hm
        simp only at h1 h2
        have he' : entryEffect env kv = some (.segs [s]) := by
          unfold entryEffect
          have hb : k.name ≠ b! "base" := by cases k <;> decide
          have hj : ¬ (k.name = b! "j1" ∨ k.name = b! "j2") := by
            cases k <;> first | exact absurd rfl hk.1 | exact absurd rfl hk.2 | decide
          rw [h1, if_neg hb, if_neg hj, segOf_isSeg (h s rfl) h2]
          rfl
        simp only [List.foldlM_cons, List.foldlM_nil, decodeBaseEntry_eq, he']
        rfl

theorem SegsOk.placed {g : Segs} (h : SegsOk g) : SegsPlaced g :=
  ⟨fun s hs => (h.j1 s hs).kind, fun s hs => (h.j2 s hs).kind, fun s hs => (h.k1 s hs).kind,
   fun s hs => (h.k2 s hs).kind, fun s hs => (h.k3 s hs).kind, fun s hs => (h.k4 s hs).kind,
   fun s hs => (h.l1 s hs).kind, fun s hs => (h.n1 s hs).kind⟩

/-- A data record is read back. -/
theorem decodeBase_isObj {env : JsonEnv} {visit : List (Bytes × Json) → List (Bytes × Json)}
    (hv : ∀ l, (visit l).Perm l) {fs : Fields} {g : Segs} (hg : SegsOk g)
    {j : Json} (hj : IsObj (basePs env fs g) j) (fs0 : Fields) : decodeBase env visit fs0 {} j = some (fs, g) := by
  obtain ⟨l, m, h1, h2, h3⟩ := decodeMap_isObj (basePs_nodup env fs g) (basePs_stable env fs g) hj
  unfold decodeBase
  rw [h1]
  simp only
  have hc : m.Pairwise (Commutes (decodeBaseEntry env)) := by
    have := h2.pairwise ((decodeMap_keys h1).imp fun hab => baseEntry_commutes env hab) (fun h => h.symm)
    exact this
  rw [foldlM_perm _ ((hv l).trans h2) hc]
  clear hc h1 h2
  unfold basePs at h3
  obtain ⟨m', m8, rfl, h3, e8⟩ := h3.split
  obtain ⟨m', m7, rfl, h3, e7⟩ := h3.split
  obtain ⟨m', m6, rfl, h3, e6⟩ := h3.split
  obtain ⟨m', m5, rfl, h3, e5⟩ := h3.split
  obtain ⟨m', m4, rfl, h3, e4⟩ := h3.split
  obtain ⟨m', m3, rfl, h3, e3⟩ := h3.split
  obtain ⟨m', m2, rfl, h3, e2⟩ := h3.split
  obtain ⟨m', m1, rfl, h3, e1⟩ := h3.split
  have e0 : ∀ r, m'.foldlM (decodeBaseEntry env) r = some (fs, r.2) := by
    intro r
    cases m' with
    | nil => exact h3.elim
    | cons kv m => cases m with
      | cons => exact h3.2.2.elim
      | nil =>
        obtain ⟨k1, k2, _⟩ := h3
        have : entryEffect env kv = some (.base fs) := by
          unfold entryEffect
          rw [if_pos k1, k2.decode]
          rfl
        simp only [List.foldlM_cons, List.foldlM_nil, decodeBaseEntry_eq, this]
        rfl
  simp only [List.foldlM_append, e0, Option.bind_eq_bind, Option.bind_some]
  rw [fold_segs (k := .j1) (.inl rfl) hg.j1 e1, Option.bind_some, fold_segs (k := .j2) (.inr rfl) hg.j2 e2, Option.bind_some,
    fold_seg (k := .k1) (by decide) hg.k1 e3, Option.bind_some, fold_seg (k := .k2) (by decide) hg.k2 e4, Option.bind_some,
    fold_seg (k := .k3) (by decide) hg.k3 e5, Option.bind_some, fold_seg (k := .k4) (by decide) hg.k4 e6, Option.bind_some,
    fold_seg (k := .l1) (by decide) hg.l1 e7, Option.bind_some, fold_seg (k := .n1) (by decide) hg.n1 e8]
  simp only [← List.foldl_append]
  have := foldl_store_list (SegsOk.placed hg)
  simp only [Segs.list, List.append_assoc] at this ⊢
  rw [this]

/-! ### Files -/

/-- The value is read as the data record. -/
def IsBase (env : JsonEnv) (r : Record) : Json → Prop :=
  match r with
  | .base _ fs g => IsObj (basePs env fs g)
  | _ => fun _ => False

theorem stable_isBase {env : JsonEnv} {enc : Enc} {fs : Fields} {g : Segs} : Stable env (IsBase env (.base enc fs g)) :=
  stable_isObj (basePs_nodup env fs g) (basePs_stable env fs g)

/-- The members of a file, with or without data records. -/
def filePs (env : JsonEnv) (enc : Enc) (h t : Fields) (d : List (Bytes × (Json → Prop))) : List (Bytes × (Json → Prop)) :=
  [(b! "header", Carries env headerRecordStruct (newHeader enc).fields h)] ++ d ++
    [(b! "trailer", Carries env trailerRecordStruct (newTrailer enc).fields t)]

theorem stable_null (env : JsonEnv) : Stable env (· = .null) := by
  rintro j rfl
  exact ⟨.null, by simp only [reJson], rfl⟩

theorem decodeBases_elems {env : JsonEnv} {visits : Nat → List (Bytes × Json) → List (Bytes × Json)}
    (hv : Spec.MapOrders visits) (enc : Enc) (bases : List Record) (h : ∀ r ∈ bases, ∃ fs g, r = .base enc fs g ∧ SegsOk g)
    (xs : List Json) (hx : Elems xs (bases.map (IsBase env))) (n : Nat) (acc : List Record) :
    decodeBases env visits enc n xs acc = some (acc ++ bases) := by
  induction bases generalizing xs n acc with
  | nil => cases xs with
    | nil => simp [decodeBases]
    | cons => exact hx.elim
  | cons r bases ih => cases xs with
    | nil => exact hx.elim
    | cons x xs =>
      obtain ⟨fs, g, rfl, hg⟩ := h r (by simp)
      have h1 : (newBase enc).ofJson env (visits n) x = some (.base enc fs g) := by
        show (decodeBase env (visits n) _ {} x).map _ = _
        rw [decodeBase_isObj (hv n) hg hx.1]
        rfl
      rw [decodeBases, h1]
      simp only
      rw [ih (fun q hq => h q (by simp [hq])) xs hx.2]
      simp

/-- The data member is left out or `null` if there are no records. -/
def dataPs (env : JsonEnv) (drop : Bool) (bases : List Record) : List (Bytes × (Json → Prop)) :=
  if bases = [] then (if drop then [] else [(b! "data", (· = .null))]) else [(b! "data", IsArr (bases.map (IsBase env)))]

/-- A file is read. -/
theorem file_ofJson_isObj {env : JsonEnv} {visits : Nat → List (Bytes × Json) → List (Bytes × Json)}
    (hv : Spec.MapOrders visits) {enc : Enc} {h t : Fields} {bases : List Record} {drop : Bool}
    (hb : ∀ r ∈ bases, ∃ fs g, r = .base enc fs g ∧ SegsOk g) {j : Json}
    (hj : IsObj (filePs env enc h t (dataPs env drop bases)) j) :
    (newFile enc).ofJson env visits j = some ⟨enc, .header enc h, bases, .trailer enc t⟩ := by
  have harr : ∀ q ∈ bases.map (IsBase env), Stable env q := by
    intro q hq
    obtain ⟨r, hr, rfl⟩ := List.mem_map.1 hq
    obtain ⟨fs, g, rfl, _⟩ := hb r hr
    exact stable_isBase
  have hstab : ∀ p ∈ filePs env enc h t (dataPs env drop bases), Stable env p.2 := by
    intro p hp
    simp only [filePs, List.mem_append, List.mem_singleton] at hp
    rcases hp with (rfl | hp) | rfl
    · exact stable_carries _ _ _ _
    · unfold dataPs at hp
      split at hp
      · split at hp
        · simp at hp
        · rw [List.mem_singleton] at hp
          subst hp
          exact stable_null env
      · rw [List.mem_singleton] at hp
        subst hp
        exact stable_isArr harr
    · exact stable_carries _ _ _ _
  have hnd : ((filePs env enc h t (dataPs env drop bases)).map (·.1)).Nodup := by
    unfold filePs dataPs
    split
    · split
      · show [b! "header", b! "trailer"].Nodup
        decide
      · show [b! "header", b! "data", b! "trailer"].Nodup
        decide
    · show [b! "header", b! "data", b! "trailer"].Nodup
      decide
  obtain ⟨l, m, h1, h2, h3⟩ := decodeMap_isObj hnd hstab hj
  unfold File.ofJson
  rw [h1]
  simp only
  have hc : m.Pairwise (Commutes (decodeFileEntry env visits)) :=
    h2.pairwise ((decodeMap_keys h1).imp fun hab => fileEntry_commutes env visits hab) (fun h => h.symm)
  rw [foldlM_perm _ ((hv 0 l).trans h2) hc]
  clear hc h1 h2 hj hstab hnd
  have hhd : ∀ j1, Carries env headerRecordStruct (newHeader enc).fields h j1 →
      (newFile enc).header.ofJson env (visits 0) j1 = some (.header enc h) := by
    intro j1 p1
    show (decodeStruct env headerRecordStruct (newHeader enc).fields j1).map _ = _
    rw [p1.decode]
    rfl
  have htr : ∀ j3, Carries env trailerRecordStruct (newTrailer enc).fields t j3 →
      (newFile enc).trailer.ofJson env (visits 0) j3 = some (.trailer enc t) := by
    intro j3 p3
    show (decodeStruct env trailerRecordStruct (newTrailer enc).fields j3).map _ = _
    rw [p3.decode]
    rfl
  have hdata : ∀ j2, (dataOf env visits enc [] j2 = some bases) → ∀ j1 j3,
      Carries env headerRecordStruct (newHeader enc).fields h j1 → Carries env trailerRecordStruct (newTrailer enc).fields t j3 →
      [(b! "header", j1), (b! "data", j2), (b! "trailer", j3)].foldlM (decodeFileEntry env visits) (newFile enc) =
        some ⟨enc, .header enc h, bases, .trailer enc t⟩ := by
    intro j2 hd j1 j3 p1 p3
    simp only [List.foldlM_cons, List.foldlM_nil, entry_header, entry_data, entry_trailer, hhd j1 p1, Option.map_some,
      Option.bind_eq_bind, Option.bind_some]
    show ((dataOf env visits enc [] j2).map _).bind _ = _
    rw [hd]
    simp only [Option.map_some, Option.bind_some]
    show ((newFile enc).trailer.ofJson env (visits 0) j3 |>.map _).bind _ = _
    rw [htr j3 p3]
    rfl
  unfold filePs dataPs at h3
  split at h3
  · next hbn =>
    subst hbn
    split at h3
    · match m, h3 with
      | [(k1, j1), (k3, j3)], ⟨e1, p1, e3, p3, _⟩ =>
        simp only at e1 e3 p1 p3
        subst e1 e3
        simp only [List.foldlM_cons, List.foldlM_nil, entry_header, entry_trailer, hhd j1 p1, Option.map_some,
          Option.bind_eq_bind, Option.bind_some]
        show ((newFile enc).trailer.ofJson env (visits 0) j3 |>.map _).bind _ = _
        rw [htr j3 p3]
        rfl
    · match m, h3 with
      | [(k1, j1), (k2, j2), (k3, j3)], ⟨e1, p1, e2, p2, e3, p3, _⟩ =>
        simp only at e1 e2 e3 p1 p2 p3
        subst e1 e2 e3 p2
        exact hdata _ rfl _ _ p1 p3
  · match m, h3 with
    | [(k1, j1), (k2, j2), (k3, j3)], ⟨e1, p1, e2, p2, e3, p3, _⟩ =>
      simp only at e1 e2 e3 p1 p2 p3
      subst e1 e2 e3
      refine hdata _ ?_ _ _ p1 p3
      unfold dataOf
      obtain ⟨xs, q1, q2⟩ := decodeList_isArr (env := env) harr p2
      rw [q1]
      simp only
      rw [decodeBases_elems hv enc bases hb xs q2]
      rfl

/-- A file is read back. -/
theorem file_ofJson_toJson {env : JsonEnv} (he : Spec.JsonEnvOk env) {visits : Nat → List (Bytes × Json) → List (Bytes × Json)}
    (hv : Spec.MapOrders visits) {enc : Enc} {f : File} (hf : Spec.JsonFile enc f) :
    (newFile enc).ofJson env visits f.toJson = some f := by
  obtain ⟨h, hh, hhf⟩ := hf.header
  obtain ⟨t, ht, htf⟩ := hf.trailer
  have hb := hf.bases
  have hfm := hf.format
  obtain ⟨fm, fh, bases, ft⟩ := f
  simp only at hh ht hb hfm
  subst hh ht hfm
  refine file_ofJson_isObj hv (drop := false) ?_ ?_
  · intro r hr
    obtain ⟨fs, g, rfl, _, hg⟩ := hb r hr
    exact ⟨fs, g, rfl, segsOk_of hg⟩
  · refine ⟨_, [(b! "header", _)] ++ [(b! "data", _)] ++ [(b! "trailer", _)], rfl, List.Perm.refl _,
      Members.append (Members.append ⟨rfl, carries_encode he tagsOk_header hhf (newHeader_typed _) (omitZero_header _), trivial⟩ ?_)
        ⟨rfl, carries_encode he tagsOk_trailer htf (newTrailer_typed _) (omitZero_trailer _), trivial⟩⟩
    unfold dataPs
    simp only
    split
    · exact ⟨rfl, rfl, trivial⟩
    · refine ⟨rfl, ⟨_, rfl, elems_map bases _ _ ?_⟩, trivial⟩
      intro r hr
      obtain ⟨fs, g, rfl, h1, h2⟩ := hb r hr
      exact isObj_encodeBase he h1 h2

/-! ### Format detection -/

/-- The JSON form does not tell the format. -/
theorem toJson_inFormat (enc : Enc) (r : Record) : (Spec.inFormat enc r).toJson = r.toJson := by cases r <;> rfl

theorem toJson_fileIn (enc : Enc) (f : File) : (Spec.fileIn enc f).toJson = f.toJson := by
  unfold File.toJson Spec.fileIn
  simp only [toJson_inFormat, List.map_map, List.map_eq_nil_iff]
  have : Record.toJson ∘ Spec.inFormat enc = Record.toJson := by funext r; exact toJson_inFormat enc r
  rw [this]

theorem jsonFile_fileIn {enc : Enc} {f : File} (h : Spec.JsonFile enc f) (enc' : Enc) :
    Spec.JsonFile enc' (Spec.fileIn enc' f) := by
  obtain ⟨fs, hh, h1⟩ := h.header
  obtain ⟨ts, ht, h2⟩ := h.trailer
  refine ⟨rfl, ⟨fs, by simp [Spec.fileIn, Spec.inFormat, hh], h1⟩, ?_, ⟨ts, by simp [Spec.fileIn, Spec.inFormat, ht], h2⟩⟩
  intro r hr
  obtain ⟨q, hq, rfl⟩ := List.mem_map.1 hr
  obtain ⟨fs, g, rfl, h3, h4⟩ := h.bases q hq
  exact ⟨fs, g, rfl, h3, h4⟩

theorem fileIn_self {enc : Enc} {f : File} (h : Spec.JsonFile enc f) : Spec.fileIn enc f = f := by
  obtain ⟨fs, hh, _⟩ := h.header
  obtain ⟨ts, ht, _⟩ := h.trailer
  have hb := h.bases
  have hf := h.format
  obtain ⟨fm, fh, bases, ft⟩ := f
  simp only at hh ht hb hf
  subst hh ht hf
  simp only [Spec.fileIn, Spec.inFormat, File.mk.injEq, true_and, and_true]
  rw [List.map_congr_left (g := id), List.map_id]
  intro r hr
  obtain ⟨fs, g, rfl, _⟩ := hb r hr
  rfl

theorem foldlM_unknown (env : JsonEnv) (decl : List (F × FieldDecl)) (m : List (Bytes × Json)) (s : Fields)
    (h : ∀ kv ∈ m, fieldOf decl kv.1 = none) : m.foldlM (decodeMember env decl) s = some s := by
  induction m with
  | nil => rfl
  | cons a m ih =>
    rw [List.foldlM_cons]
    have : decodeMember env decl s a = some s := by unfold decodeMember; rw [h a (by simp)]
    rw [this]
    exact ih fun kv hkv => h kv (by simp [hkv])

/-- The other fields of a header are not part of `headerInformation`, whatever the case of the letters. -/
theorem headerInfo_unknown : ∀ p ∈ headerRecordStruct.drop 3, fieldOf headerInfoStruct p.2.json = none := by decide +kernel

/-- `headerInformation` with given values. -/
def infoFields (b r : Int) (s : Bytes) : Fields :=
  [(.BlockDescriptorWord, .int b), (.RecordDescriptorWord, .int r), (.RecordIdentifier, .str s)]

theorem decodeStruct_info {env : JsonEnv} (he : Spec.JsonEnvOk env) {fs : Fields} (hf : Spec.JsonFields headerRecordStruct fs) :
    ∃ s, decodeStruct env headerInfoStruct (zeroFields headerInfoStruct) (encodeStruct headerRecordStruct fs) =
      some (infoFields (Spec.bdw fs) (Spec.rdw fs) s) := by
  obtain ⟨vb, hb, kb⟩ := hf.1.get tagsOk_header.1 (f := .BlockDescriptorWord) (d := ⟨.int, b! "blockDescriptorWord", true⟩)
    (by decide +kernel)
  obtain ⟨vr, hr, kr⟩ := hf.1.get tagsOk_header.1 (f := .RecordDescriptorWord) (d := ⟨.int, b! "recordDescriptorWord", false⟩)
    (by decide +kernel)
  obtain ⟨vi, hi, ki⟩ := hf.1.get tagsOk_header.1 (f := .RecordIdentifier) (d := ⟨.str, b! "recordIdentifier", false⟩)
    (by decide +kernel)
  cases vb with
  | str => simp [Val.hasKind] at kb
  | time => simp [Val.hasKind] at kb
  | int b => cases vr with
    | str => simp [Val.hasKind] at kr
    | time => simp [Val.hasKind] at kr
    | int r => cases vi with
      | int => simp [Val.hasKind] at ki
      | time => simp [Val.hasKind] at ki
      | str s =>
        have e1 : Spec.bdw fs = b := by simp [Spec.bdw, Fields.int, hb]
        have e2 : Spec.rdw fs = r := by simp [Spec.rdw, Fields.int, hr]
        rw [e1, e2]
        refine ⟨s, ?_⟩
        have d1 := decodeVal_encodeVal he (hf.2 _ (Fields.mem_of_get hb)) (old := .int 0) (k := .int) rfl rfl
        have d2 := decodeVal_encodeVal he (hf.2 _ (Fields.mem_of_get hr)) (old := .int 0) (k := .int) rfl rfl
        have d3 := decodeVal_encodeVal he (hf.2 _ (Fields.mem_of_get hi)) (old := .str []) (k := .str) rfl rfl
        show (encodeMembers headerRecordStruct fs).foldlM (decodeMember env headerInfoStruct) (infoFields 0 0 []) = _
        rw [encodeMembers_eq, show headerRecordStruct = [(.BlockDescriptorWord, ⟨.int, b! "blockDescriptorWord", true⟩)] ++
          ([(.RecordDescriptorWord, ⟨.int, b! "recordDescriptorWord", false⟩)] ++
          ([(.RecordIdentifier, ⟨.str, b! "recordIdentifier", false⟩)] ++ headerRecordStruct.drop 3)) from rfl,
          List.filterMap_append, List.filterMap_append, List.filterMap_append, List.foldlM_append]
        have s1 : ([(F.BlockDescriptorWord, (⟨.int, b! "blockDescriptorWord", true⟩ : FieldDecl))].filterMap (memberOf fs)).foldlM
            (decodeMember env headerInfoStruct) (infoFields 0 0 []) = some (infoFields b 0 []) := by
          by_cases h0 : b = 0
          · subst h0
            have : memberOf fs (F.BlockDescriptorWord, (⟨.int, b! "blockDescriptorWord", true⟩ : FieldDecl)) = none := by
              simp [memberOf, hb, emptyVal]
            simp only [List.filterMap_cons, this, List.filterMap_nil]
            rfl
          · have : memberOf fs (F.BlockDescriptorWord, (⟨.int, b! "blockDescriptorWord", true⟩ : FieldDecl)) =
                some (b! "blockDescriptorWord", encodeVal (.int b)) := by
              simp [memberOf, hb, emptyVal, h0]
            simp only [List.filterMap_cons, this, List.filterMap_nil, List.foldlM_cons, List.foldlM_nil]
            rw [decodeMember_eq env (infoFields 0 0 []) (kv := (b! "blockDescriptorWord", encodeVal (.int b)))
              (f := .BlockDescriptorWord) (by show fieldOf headerInfoStruct (b! "blockDescriptorWord") = _; decide +kernel)]
            show ((decodeVal env (.int 0) (encodeVal (.int b))).map _).bind _ = _
            rw [d1]
            rfl
        have s2 : ([(F.RecordDescriptorWord, (⟨.int, b! "recordDescriptorWord", false⟩ : FieldDecl))].filterMap (memberOf fs)).foldlM
            (decodeMember env headerInfoStruct) (infoFields b 0 []) = some (infoFields b r []) := by
          have : memberOf fs (F.RecordDescriptorWord, (⟨.int, b! "recordDescriptorWord", false⟩ : FieldDecl)) =
              some (b! "recordDescriptorWord", encodeVal (.int r)) := by
            simp [memberOf, hr]
          simp only [List.filterMap_cons, this, List.filterMap_nil, List.foldlM_cons, List.foldlM_nil]
          rw [decodeMember_eq env (infoFields b 0 []) (kv := (b! "recordDescriptorWord", encodeVal (.int r)))
            (f := .RecordDescriptorWord) (by show fieldOf headerInfoStruct (b! "recordDescriptorWord") = _; decide +kernel)]
          show ((decodeVal env (.int 0) (encodeVal (.int r))).map _).bind _ = _
          rw [d2]
          rfl
        have s3 : ([(F.RecordIdentifier, (⟨.str, b! "recordIdentifier", false⟩ : FieldDecl))].filterMap (memberOf fs)).foldlM
            (decodeMember env headerInfoStruct) (infoFields b r []) = some (infoFields b r s) := by
          have : memberOf fs (F.RecordIdentifier, (⟨.str, b! "recordIdentifier", false⟩ : FieldDecl)) =
              some (b! "recordIdentifier", encodeVal (.str s)) := by
            simp [memberOf, hi]
          simp only [List.filterMap_cons, this, List.filterMap_nil, List.foldlM_cons, List.foldlM_nil]
          rw [decodeMember_eq env (infoFields b r []) (kv := (b! "recordIdentifier", encodeVal (.str s)))
            (f := .RecordIdentifier) (by show fieldOf headerInfoStruct (b! "recordIdentifier") = _; decide +kernel)]
          show ((decodeVal env (.str []) (encodeVal (.str s))).map _).bind _ = _
          rw [d3]
          rfl
        rw [s1]
        simp only [Option.bind_eq_bind, Option.bind_some]
        rw [List.foldlM_append, s2]
        simp only [Option.bind_eq_bind, Option.bind_some]
        rw [List.foldlM_append, s3]
        simp only [Option.bind_eq_bind, Option.bind_some]
        apply foldlM_unknown
        intro kv hkv
        obtain ⟨p, hp, hm⟩ := List.mem_filterMap.1 hkv
        rw [(memberOf_key hm).1]
        exact headerInfo_unknown p hp

theorem decodeDummy_toJson {env : JsonEnv} (he : Spec.JsonEnvOk env) {enc : Enc} {f : File} (hf : Spec.JsonFile enc f) :
    ∃ s, decodeDummy env f.toJson = some (some (infoFields (Spec.headerBdw f) (Spec.headerRdw f) s)) := by
  obtain ⟨fs, hh, h1⟩ := hf.header
  obtain ⟨s, hs⟩ := decodeStruct_info he h1
  refine ⟨s, ?_⟩
  have n1 : ¬ (b! "data" = b! "header" ∨ foldKey (b! "data") = foldKey (b! "header")) := by decide +kernel
  have n2 : ¬ (b! "trailer" = b! "header" ∨ foldKey (b! "trailer") = foldKey (b! "header")) := by decide +kernel
  have e1 : Spec.headerBdw f = Spec.bdw fs := by simp [Spec.headerBdw, hh, Record.fields]
  have e2 : Spec.headerRdw f = Spec.rdw fs := by simp [Spec.headerRdw, hh, Record.fields]
  rw [e1, e2]
  unfold File.toJson decodeDummy
  simp only [List.foldlM_cons, List.foldlM_nil, hh]
  have m1 : decodeDummyMember env none (b! "header", (Record.header enc fs).toJson) =
      some (some (infoFields (Spec.bdw fs) (Spec.rdw fs) s)) := by
    unfold decodeDummyMember
    rw [if_pos (.inl rfl)]
    show ((decodeStruct env headerInfoStruct (zeroFields headerInfoStruct) (encodeStruct headerRecordStruct fs)).map some) = _
    rw [hs]
    rfl
  have m2 : ∀ h j, decodeDummyMember env h (b! "data", j) = some h := by
    intro h j
    unfold decodeDummyMember
    rw [if_neg n1]
  have m3 : ∀ h j, decodeDummyMember env h (b! "trailer", j) = some h := by
    intro h j
    unfold decodeDummyMember
    rw [if_neg n2]
  rw [m1]
  simp only [Option.bind_eq_bind, Option.bind_some, m2, m3]
  rfl

theorem detect_iff (b r : Int) (s : Bytes) :
    detectFormat (some (infoFields b r s)) = if r = 426 ∨ b ≤ 0 then .character else .packed := by
  have h1 : (infoFields b r s).int .RecordDescriptorWord = r := rfl
  have h2 : (infoFields b r s).int .BlockDescriptorWord = b := rfl
  simp only [detectFormat, h1, h2]
  by_cases hr : r = 426
  · simp [hr]
  · by_cases hb : b ≤ 0
    · have : ¬ b > 0 := by omega
      simp [hb]
    · have : b > 0 := by omega
      simp [hr, hb, this]

/-- What a file written as JSON is read as. -/
theorem readJson_toJson {env : JsonEnv} (he : Spec.JsonEnvOk env) {visits : Nat → List (Bytes × Json) → List (Bytes × Json)}
    (hv : Spec.MapOrders visits) {enc : Enc} {f : File} (hf : Spec.JsonFile enc f) {first : Bytes → Option Json} {data : Bytes}
    (hd : first data = some f.toJson) :
    readJson env visits first data =
      .ok (Spec.fileIn (if Spec.headerRdw f = 426 ∨ Spec.headerBdw f ≤ 0 then .character else .packed) f) := by
  obtain ⟨s, hs⟩ := decodeDummy_toJson he hf
  unfold readJson
  rw [hd]
  simp only [hs, detect_iff]
  rw [← toJson_fileIn (if Spec.headerRdw f = 426 ∨ Spec.headerBdw f ≤ 0 then .character else .packed) f,
    file_ofJson_toJson he hv (jsonFile_fileIn hf _)]

end Metro2
