import Verif.Lemmas.ClientFile

/-! What the client writes is read by the service. -/

namespace Metro2

/-- The members of a Go map, in some order. -/
def IsMap (ps : List (Bytes × (Json → Prop))) (m : List (Bytes × Json)) : Prop := ∃ m0, m.Perm m0 ∧ Members m0 ps

theorem IsMap.obj {ps : List (Bytes × (Json → Prop))} {m : List (Bytes × Json)} (h : IsMap ps m) : IsObj ps (.obj m) := by
  obtain ⟨m0, h1, h2⟩ := h
  exact ⟨m, m0, rfl, h1, h2⟩

theorem IsMap.set {ps : List (Bytes × (Json → Prop))} {m : List (Bytes × Json)} (h : IsMap ps m) {key : Bytes} {P : Json → Prop} {j : Json}
    (hk : key ∉ ps.map (·.1)) (hj : P j) : IsMap (ps ++ [(key, P)]) (mapSet key j m) := by
  obtain ⟨m0, h1, h2⟩ := h
  refine ⟨m0 ++ [(key, j)], ?_, Members.append h2 ⟨rfl, hj, trivial⟩⟩
  refine (mapSet_perm j ?_).trans ((h1.cons _).trans ?_)
  · intro hmem
    exact hk (by rw [← h2.keys]; exact (h1.map (·.1)).mem_iff.1 hmem)
  · exact (List.perm_append_singleton (key, j) m0).symm

/-- A slice member. -/
theorem clientList_ok {α : Type} {ps : List (Bytes × (Json → Prop))} {m : List (Bytes × Json)} (h : IsMap ps m) {key : Bytes}
    (hk : key ∉ ps.map (·.1)) {f : α → Option Json} {P : α → Json → Prop} {l : List α} (hl : ∀ x ∈ l, ∃ j, f x = some j ∧ P x j) :
    ∃ m', clientList key f l m = some m' ∧ IsMap (ps ++ if l = [] then [] else [(key, IsArr (l.map P))]) m' := by
  have all : ∃ xs, encodeAll f l = some xs ∧ Elems xs (l.map P) := by
    clear h hk
    induction l with
    | nil => exact ⟨[], rfl, trivial⟩
    | cons x l ih =>
      obtain ⟨j, h1, h2⟩ := hl x (by simp)
      obtain ⟨xs, h3, h4⟩ := ih fun y hy => hl y (List.mem_cons_of_mem _ hy)
      exact ⟨j :: xs, by simp only [encodeAll, h1, h3], h2, h4⟩
  obtain ⟨xs, h1, h2⟩ := all
  unfold clientList
  cases l with
  | nil => exact ⟨m, rfl, by simpa using h⟩
  | cons x l =>
    refine ⟨mapSet key (.arr xs) m, ?_, ?_⟩
    · rw [if_neg (by simp), h1]; rfl
    · rw [if_neg (by simp)]
      exact h.set hk ⟨xs, rfl, h2⟩

/-- A segment written by the client. -/
theorem isSeg_client {env : JsonEnv} (he : Spec.JsonEnvOk env) (k : SegKind) {c : ClientRec} (hc : Spec.ClientOk (clientSegment k) c) :
    ∃ j, encodeClient (clientSegment k) c = some j ∧ IsSeg env (Spec.serviceSeg k c) j := by
  obtain ⟨j, h1, h2⟩ := encodeClient_ok (matches_seg k).1 hc
  exact ⟨j, h1, carries_client he (matches_seg k) (tagsOk_seg k) hc (Seg.new_typed k) h2⟩

theorem clientSegs_ok {env : JsonEnv} (he : Spec.JsonEnvOk env) (k : SegKind) {ps : List (Bytes × (Json → Prop))} {m : List (Bytes × Json)}
    (h : IsMap ps m) {key : Bytes} (hk : key ∉ ps.map (·.1)) {l : List ClientRec} (hl : ∀ c ∈ l, Spec.ClientOk (clientSegment k) c) :
    ∃ m', clientList key (encodeClient (clientSegment k)) l m = some m' ∧
      IsMap (ps ++ segsPs env key (l.map (Spec.serviceSeg k))) m' := by
  obtain ⟨m', h1, h2⟩ := clientList_ok (P := fun c => IsSeg env (Spec.serviceSeg k c)) h hk fun c hc => isSeg_client he k (hl c hc)
  refine ⟨m', h1, ?_⟩
  unfold segsPs
  cases l with
  | nil => exact h2
  | cons c l =>
    rw [if_neg (by simp)] at h2 ⊢
    rw [List.map_map]
    exact h2

theorem clientSeg_ok {env : JsonEnv} (he : Spec.JsonEnvOk env) (k : SegKind) {ps : List (Bytes × (Json → Prop))} {m : List (Bytes × Json)}
    (h : IsMap ps m) {key : Bytes} (hk : key ∉ ps.map (·.1)) {o : Option ClientRec} (ho : ∀ c, o = some c → Spec.ClientOk (clientSegment k) c) :
    ∃ m', clientOpt key (encodeClient (clientSegment k)) o m = some m' ∧
      IsMap (ps ++ segPs env key (o.map (Spec.serviceSeg k))) m' := by
  cases o with
  | none => exact ⟨m, rfl, by simpa [segPs] using h⟩
  | some c =>
    obtain ⟨j, h1, h2⟩ := isSeg_client he k (ho c rfl)
    refine ⟨mapSet key j m, ?_, h.set hk h2⟩
    simp only [clientOpt, h1, Option.map_some]

theorem serviceSegs_ok {d : ClientData} (h : Spec.ClientDataOk d) : SegsOk (Spec.serviceSegs d) := by
  have list : ∀ {k : SegKind} {l : List ClientRec} {decl : List (F × FieldDecl)},
      (∀ c ∈ l, Spec.ClientOk decl c ∧ (Spec.serviceSeg k c).validate = none) → ∀ s ∈ l.map (Spec.serviceSeg k), SegOk k s := by
    intro k l decl h s hs
    obtain ⟨c, hc, rfl⟩ := List.mem_map.1 hs
    exact ⟨rfl, (h c hc).2⟩
  have opt : ∀ {k : SegKind} {o : Option ClientRec} {decl : List (F × FieldDecl)},
      (∀ c, o = some c → Spec.ClientOk decl c ∧ (Spec.serviceSeg k c).validate = none) → ∀ s, o.map (Spec.serviceSeg k) = some s → SegOk k s := by
    intro k o decl h s hs
    obtain ⟨c, hc, rfl⟩ := Option.map_eq_some_iff.1 hs
    exact ⟨rfl, (h c hc).2⟩
  exact ⟨list h.j1, list h.j2, opt h.k1, opt h.k2, opt h.k3, opt h.k4, opt h.l1, opt h.n1⟩

/-- A data record written by the client. -/
theorem clientData_toJson {env : JsonEnv} (he : Spec.JsonEnvOk env) (enc : Enc) {d : ClientData} (h : Spec.ClientDataOk d) :
    ∃ j, d.toJson = some j ∧ IsBase env (Spec.serviceBase enc d) j := by
  have sub : ∀ {a b : List (Bytes × (Json → Prop))} {u v : List Bytes}, (a.map (·.1)).Sublist u → (b.map (·.1)).Sublist v →
      ((a ++ b).map (·.1)).Sublist (u ++ v) := by
    intro a b u v h1 h2
    rw [List.map_append]
    exact h1.append h2
  have out : ∀ {a : List (Bytes × (Json → Prop))} {u : List Bytes} {key : Bytes}, (a.map (·.1)).Sublist u → key ∉ u → key ∉ a.map (·.1) :=
    fun h1 h2 h3 => h2 (h1.subset h3)
  obtain ⟨j0, e0, c0⟩ := encodeClient_ok matches_base.1 h.base
  have i0 : IsMap [(b! "base", Carries env baseSegmentStruct (zeroFields baseSegmentStruct)
      (Spec.serviceFields clientBaseSegment (zeroFields baseSegmentStruct) d.base))] [(b! "base", j0)] :=
    ⟨_, List.Perm.refl _, rfl, carries_client he matches_base tagsOk_base h.base (zeroFields_typed _) c0, trivial⟩
  have s0 : ([(b! "base", Carries env baseSegmentStruct (zeroFields baseSegmentStruct)
      (Spec.serviceFields clientBaseSegment (zeroFields baseSegmentStruct) d.base))].map (·.1)).Sublist [b! "base"] := List.Sublist.refl _
  obtain ⟨m1, e1, i1⟩ := clientSegs_ok he .j1 i0 (key := b! "j1") (out s0 (by decide)) (l := d.j1) fun c hc => (h.j1 c hc).1
  have s1 := sub s0 (segsPs_keys env (b! "j1") (d.j1.map (Spec.serviceSeg .j1)))
  obtain ⟨m2, e2, i2⟩ := clientSegs_ok he .j2 i1 (key := b! "j2") (out s1 (by decide)) (l := d.j2) fun c hc => (h.j2 c hc).1
  have s2 := sub s1 (segsPs_keys env (b! "j2") (d.j2.map (Spec.serviceSeg .j2)))
  obtain ⟨m3, e3, i3⟩ := clientSeg_ok he .k1 i2 (key := b! "k1") (out s2 (by decide)) (o := d.k1) fun c hc => (h.k1 c hc).1
  have s3 := sub s2 (segPs_keys env (b! "k1") (d.k1.map (Spec.serviceSeg .k1)))
  obtain ⟨m4, e4, i4⟩ := clientSeg_ok he .k2 i3 (key := b! "k2") (out s3 (by decide)) (o := d.k2) fun c hc => (h.k2 c hc).1
  have s4 := sub s3 (segPs_keys env (b! "k2") (d.k2.map (Spec.serviceSeg .k2)))
  obtain ⟨m5, e5, i5⟩ := clientSeg_ok he .k3 i4 (key := b! "k3") (out s4 (by decide)) (o := d.k3) fun c hc => (h.k3 c hc).1
  have s5 := sub s4 (segPs_keys env (b! "k3") (d.k3.map (Spec.serviceSeg .k3)))
  obtain ⟨m6, e6, i6⟩ := clientSeg_ok he .k4 i5 (key := b! "k4") (out s5 (by decide)) (o := d.k4) fun c hc => (h.k4 c hc).1
  have s6 := sub s5 (segPs_keys env (b! "k4") (d.k4.map (Spec.serviceSeg .k4)))
  obtain ⟨m7, e7, i7⟩ := clientSeg_ok he .l1 i6 (key := b! "l1") (out s6 (by decide)) (o := d.l1) fun c hc => (h.l1 c hc).1
  have s7 := sub s6 (segPs_keys env (b! "l1") (d.l1.map (Spec.serviceSeg .l1)))
  obtain ⟨m8, e8, i8⟩ := clientSeg_ok he .n1 i7 (key := b! "n1") (out s7 (by decide)) (o := d.n1) fun c hc => (h.n1 c hc).1
  refine ⟨.obj m8, ?_, i8.obj⟩
  unfold ClientData.toJson
  simp only [clientSegment] at e1 e2 e3 e4 e5 e6 e7 e8
  simp only [e0, Option.map_some, Option.bind_eq_bind, Option.bind_some, e1, e2, e3, e4, e5, e6, e7, e8]

/-- A file written by the client. -/
theorem clientFile_toJson {env : JsonEnv} (he : Spec.JsonEnvOk env) (enc : Enc) {f : ClientFile} (h : Spec.ClientFileOk f) :
    ∃ m, f.toJson = some (.obj m) ∧ IsMap ([(b! "header", IsClient clientHeaderRecord f.header)] ++
      dataPs env true (f.data.map (Spec.serviceBase enc)) ++ [(b! "trailer", IsClient clientTrailerRecord f.trailer)]) m := by
  obtain ⟨j0, e0, c0⟩ := encodeClient_ok matches_header.1 h.header
  obtain ⟨j2, e2, c2⟩ := encodeClient_ok matches_trailer.1 h.trailer
  have i0 : IsMap [(b! "header", IsClient clientHeaderRecord f.header)] [(b! "header", j0)] := ⟨_, List.Perm.refl _, rfl, c0, trivial⟩
  obtain ⟨m1, e1, i1⟩ := clientList_ok (P := fun d => IsBase env (Spec.serviceBase enc d)) i0 (key := b! "data")
    (by simp only [List.map_cons, List.map_nil]; decide) fun d hd => clientData_toJson he enc (h.data d hd)
  have hd : (if f.data = [] then [] else [(b! "data", IsArr (f.data.map fun d => IsBase env (Spec.serviceBase enc d)))]) =
      dataPs env true (f.data.map (Spec.serviceBase enc)) := by
    unfold dataPs
    rw [List.map_map]
    cases f.data with
    | nil => rfl
    | cons d l => rw [if_neg (by simp), if_neg (by simp)]; rfl
  rw [hd] at i1
  refine ⟨mapSet (b! "trailer") j2 m1, ?_, i1.set ?_ c2⟩
  · unfold ClientFile.toJson
    simp only [e0, Option.map_some, Option.bind_eq_bind, Option.bind_some, e1, e2]
  · intro hm
    rw [List.map_append, List.mem_append] at hm
    rcases hm with hm | hm
    · simp only [List.map_cons, List.map_nil, List.mem_singleton] at hm; revert hm; decide
    · unfold dataPs at hm
      split at hm
      · simp at hm
      · simp only [List.map_cons, List.map_nil, List.mem_singleton] at hm; revert hm; decide

theorem members_mono {m : List (Bytes × Json)} {ps qs : List (Bytes × (Json → Prop))} (h : Members m ps)
    (hpq : List.Forall₂ (fun p q => p.1 = q.1 ∧ ∀ j, p.2 j → q.2 j) ps qs) : Members m qs := by
  induction hpq generalizing m with
  | nil => exact h
  | cons hab _ ih =>
    cases m with
    | nil => exact h.elim
    | cons kv m => exact ⟨h.1.trans hab.1, hab.2 _ h.2.1, ih h.2.2⟩

theorem forall₂_same (ps : List (Bytes × (Json → Prop))) : List.Forall₂ (fun p q => p.1 = q.1 ∧ ∀ j, p.2 j → q.2 j) ps ps := by
  induction ps with
  | nil => exact .nil
  | cons p ps ih => exact .cons ⟨rfl, fun _ h => h⟩ ih

/-- The service reads a file of the client in a given format. -/
theorem ofJson_client {env : JsonEnv} (he : Spec.JsonEnvOk env) {visits : Nat → List (Bytes × Json) → List (Bytes × Json)}
    (hv : Spec.MapOrders visits) (enc : Enc) {f : ClientFile} (h : Spec.ClientFileOk f) {j : Json} (hj : f.toJson = some j) :
    (newFile enc).ofJson env visits j = some (Spec.serviceFile enc f) := by
  obtain ⟨m, h1, m0, h2, h3⟩ := clientFile_toJson he enc h
  rw [h1] at hj
  cases hj
  have hb : ∀ r ∈ f.data.map (Spec.serviceBase enc), ∃ fs g, r = .base enc fs g ∧ SegsOk g := by
    intro r hr
    obtain ⟨d, hd, rfl⟩ := List.mem_map.1 hr
    exact ⟨_, _, rfl, serviceSegs_ok (h.data d hd)⟩
  refine file_ofJson_isObj hv (drop := true) hb ?_
  refine ⟨m, m0, rfl, h2, ?_⟩
  obtain ⟨a, b, rfl, ha, hb⟩ := h3.split
  obtain ⟨c, d, rfl, hc, hd⟩ := ha.split
  refine Members.append (Members.append ?_ hd) ?_
  · exact members_mono hc (.cons ⟨rfl, fun j hj => carries_client he matches_header tagsOk_header h.header (newHeader_typed enc) hj⟩ .nil)
  · exact members_mono hb (.cons ⟨rfl, fun j hj => carries_client he matches_trailer tagsOk_trailer h.trailer (newTrailer_typed enc) hj⟩ .nil)

/-! ### The format -/

theorem tagsOk_info : TagsOk headerInfoStruct := by decide +kernel
theorem matches_info : Matches headerInfoStruct clientHeaderRecord := by decide +kernel

theorem dummy_other (env : JsonEnv) (s : Option Fields) {kv : Bytes × Json} (h : kv.1 = b! "data" ∨ kv.1 = b! "trailer") :
    decodeDummyMember env s kv = some s := by
  have n1 : ¬ (b! "data" = b! "header" ∨ foldKey (b! "data") = foldKey (b! "header")) := by decide +kernel
  have n2 : ¬ (b! "trailer" = b! "header" ∨ foldKey (b! "trailer") = foldKey (b! "header")) := by decide +kernel
  unfold decodeDummyMember
  rcases h with h | h
  · rw [h, if_neg n1]
  · rw [h, if_neg n2]

theorem commutes_id {σ α : Type} {step : σ → α → Option σ} {b : α} (h : ∀ s, step s b = some s) (a : α) : Commutes step a b := by
  intro s
  rw [h]
  cases ha : step s a with
  | none => exact ha.symm
  | some s' => simp only [Option.bind_some]; rw [ha, h]

theorem fold_same {σ α : Type} {step : σ → α → Option σ} {l : List α} (h : ∀ a ∈ l, ∀ s, step s a = some s) (s : σ) :
    l.foldlM step s = some s := by
  induction l with
  | nil => rfl
  | cons a l ih =>
    rw [List.foldlM_cons, h a (by simp)]
    exact ih fun b hb => h b (by simp [hb])

/-- The descriptors that the service sees. -/
theorem decodeDummy_client {env : JsonEnv} (he : Spec.JsonEnvOk env) {f : ClientFile} (h : Spec.ClientFileOk f) {j : Json}
    (hj : f.toJson = some j) :
    decodeDummy env j = some (some (Spec.serviceFields clientHeaderRecord (zeroFields headerInfoStruct) f.header)) := by
  obtain ⟨m, h1, m0, h2, h3⟩ := clientFile_toJson he .character h
  rw [h1] at hj
  cases hj
  obtain ⟨a, b, rfl, ha, hb⟩ := h3.split
  obtain ⟨c, d, rfl, hc, hd⟩ := ha.split
  cases c with
  | nil => exact hc.elim
  | cons kv c => cases c with
    | cons => exact hc.2.2.elim
    | nil =>
      obtain ⟨k1, k2, _⟩ := hc
      obtain ⟨key, jh⟩ := kv
      simp only at k1 k2
      subst k1
      have other : ∀ kv ∈ d ++ b, kv.1 = b! "data" ∨ kv.1 = b! "trailer" := by
        intro kv hkv
        rcases List.mem_append.1 hkv with hkv | hkv
        · left
          have hm : kv.1 ∈ (dataPs env true (f.data.map (Spec.serviceBase .character))).map (·.1) := by
            rw [← hd.keys]; exact List.mem_map_of_mem hkv
          unfold dataPs at hm
          split at hm
          · simp at hm
          · simpa using hm
        · right
          have hm : kv.1 ∈ [b! "trailer"] := by
            have : kv.1 ∈ b.map (·.1) := List.mem_map_of_mem hkv
            rw [hb.keys] at this
            exact this
          simpa using hm
      have same : ∀ kv ∈ d ++ b, ∀ s, decodeDummyMember env s kv = some s := fun kv hkv s => dummy_other env s (other kv hkv)
      show m.foldlM (decodeDummyMember env) none = _
      rw [List.append_assoc, List.singleton_append] at h2
      have hp : ((b! "header", jh) :: (d ++ b)).Pairwise (Commutes (decodeDummyMember env)) := by
        rw [List.pairwise_cons]
        refine ⟨fun kv hkv => commutes_id (same kv hkv) _, ?_⟩
        have : (d ++ b).Pairwise fun _ _ => True := List.pairwise_of_forall fun _ _ => trivial
        exact List.Pairwise.imp_of_mem (fun _ hb _ => commutes_id (same _ hb) _) this
      rw [foldlM_perm _ h2 hp, List.foldlM_cons]
      obtain ⟨l, rfl, hl⟩ := k2
      have : decodeDummyMember env none (b! "header", .obj l) =
          some (some (Spec.serviceFields clientHeaderRecord (zeroFields headerInfoStruct) f.header)) := by
        unfold decodeDummyMember
        rw [if_pos (.inl rfl)]
        show ((decodeStruct env headerInfoStruct (zeroFields headerInfoStruct) (.obj l)).map some) = _
        rw [decodeStruct_client he matches_info tagsOk_info h.header (zeroFields_typed _) hl]
        rfl
      rw [this]
      exact fold_same same _

/-- The number that the client sends in a field. -/
theorem clientInt_eq (c : ClientRec) : Spec.serviceFields clientHeaderRecord (zeroFields headerInfoStruct) c =
    [(.BlockDescriptorWord, match c .BlockDescriptorWord with | some v => v | none => .int 0),
     (.RecordDescriptorWord, match c .RecordDescriptorWord with | some v => v | none => .int 0),
     (.RecordIdentifier, match c .RecordIdentifier with | some v => v | none => .str [])] := by
  have l1 : clientHeaderRecord.lookup .BlockDescriptorWord ≠ none := by decide
  have l2 : clientHeaderRecord.lookup .RecordDescriptorWord ≠ none := by decide
  have l3 : clientHeaderRecord.lookup .RecordIdentifier ≠ none := by decide
  have go : ∀ f old, clientHeaderRecord.lookup f ≠ none → afterClient clientHeaderRecord c f old = match c f with | some v => v | none => old := by
    intro f old h
    unfold afterClient
    cases hl : clientHeaderRecord.lookup f with
    | none => exact absurd hl h
    | some d => cases c f <;> rfl
  show [(F.BlockDescriptorWord, afterClient clientHeaderRecord c .BlockDescriptorWord (.int 0)),
     (F.RecordDescriptorWord, afterClient clientHeaderRecord c .RecordDescriptorWord (.int 0)),
     (F.RecordIdentifier, afterClient clientHeaderRecord c .RecordIdentifier (.str []))] = _
  rw [go _ _ l1, go _ _ l2, go _ _ l3]

theorem detect_client {f : ClientFile} :
    detectFormat (some (Spec.serviceFields clientHeaderRecord (zeroFields headerInfoStruct) f.header)) =
      if Spec.clientNumber f.header .RecordDescriptorWord = 426 ∨ Spec.clientNumber f.header .BlockDescriptorWord ≤ 0 then .character else .packed := by
  rw [clientInt_eq]
  have h1 : Fields.int [(F.BlockDescriptorWord, match f.header .BlockDescriptorWord with | some v => v | none => .int 0),
     (.RecordDescriptorWord, match f.header .RecordDescriptorWord with | some v => v | none => .int 0),
     (.RecordIdentifier, match f.header .RecordIdentifier with | some v => v | none => .str [])] .RecordDescriptorWord =
      Spec.clientNumber f.header .RecordDescriptorWord := by
    unfold Spec.clientNumber
    cases f.header .RecordDescriptorWord with
    | none => rfl
    | some v => cases v <;> rfl
  have h2 : Fields.int [(F.BlockDescriptorWord, match f.header .BlockDescriptorWord with | some v => v | none => .int 0),
     (.RecordDescriptorWord, match f.header .RecordDescriptorWord with | some v => v | none => .int 0),
     (.RecordIdentifier, match f.header .RecordIdentifier with | some v => v | none => .str [])] .BlockDescriptorWord =
      Spec.clientNumber f.header .BlockDescriptorWord := by
    unfold Spec.clientNumber
    cases f.header .BlockDescriptorWord with
    | none => rfl
    | some v => cases v <;> rfl
  simp only [detectFormat, h1, h2]
  generalize Spec.clientNumber f.header .RecordDescriptorWord = r
  generalize Spec.clientNumber f.header .BlockDescriptorWord = b
  by_cases hr : r = 426
  · simp [hr]
  · by_cases hb : b ≤ 0
    · simp [hb]
    · have : b > 0 := by omega
      simp [hr, hb, this]

/-- The JSON branch of `NewFileFromReader` on a file of the client. -/
theorem readJson_client {env : JsonEnv} (he : Spec.JsonEnvOk env) {visits : Nat → List (Bytes × Json) → List (Bytes × Json)}
    (hv : Spec.MapOrders visits) {f : ClientFile} (h : Spec.ClientFileOk f) {first : Bytes → Option Json} {data : Bytes}
    (hd : first data = f.toJson) : readJson env visits first data = .ok (Spec.serviceFile (Spec.clientFormat f) f) := by
  obtain ⟨m, h1, _⟩ := clientFile_toJson he .character h
  rw [h1] at hd
  unfold readJson
  rw [hd]
  simp only [decodeDummy_client he h h1, detect_client]
  rw [ofJson_client he hv _ h h1]
  rfl

end Metro2
