import Verif.Lemmas.ClientFile
import Verif.Spec.ClientOwn

/-! The client reads what it writes. -/

namespace Metro2

/-! ### Which values can be written -/

theorem encodeClientVal_iff (v : Val) : (encodeClientVal v).isSome ↔ ∀ t, v = .time t → Spec.Writable t := by
  cases v with
  | int i => exact ⟨fun _ t h => (by cases h), fun _ => rfl⟩
  | str s => exact ⟨fun _ t h => (by cases h), fun _ => rfl⟩
  | time t =>
    rw [Option.isSome_iff_exists]
    show (∃ j, encodeClientTime t = some j) ↔ _
    rw [encodeClientTime_iff]
    exact ⟨fun h t' ht => by cases ht; exact h, fun h => h t rfl⟩

theorem encodeClientMembers_iff (c : ClientRec) (decl : List (F × FieldDecl)) : (encodeClientMembers c decl).isSome ↔ Spec.TimesRec Spec.Writable decl c := by
  induction decl with
  | nil => exact ⟨fun _ p hp => (by cases hp), fun _ => rfl⟩
  | cons p ds ih =>
    rw [encodeClientMembers]
    have hsplit : Spec.TimesRec Spec.Writable (p :: ds) c ↔ (∀ t, c p.1 = some (.time t) → Spec.Writable t) ∧ Spec.TimesRec Spec.Writable ds c := by
      unfold Spec.TimesRec
      simp only [List.mem_cons, forall_eq_or_imp]
    rw [hsplit, ← ih]
    cases encodeClientMembers c ds with
    | none => simp
    | some m =>
      simp only [Option.isSome_some, and_true]
      cases hc : c p.1 with
      | none => simp
      | some v =>
        have hv := encodeClientVal_iff v
        simp only [Option.some.injEq]
        rw [← hv]
        cases encodeClientVal v <;> simp

theorem encodeClient_iff (decl : List (F × FieldDecl)) (c : ClientRec) : (encodeClient decl c).isSome ↔ Spec.TimesRec Spec.Writable decl c := by
  rw [encodeClient, Option.isSome_map]
  exact encodeClientMembers_iff c decl

theorem encodeAll_iff {α : Type} (f : α → Option Json) (l : List α) : (encodeAll f l).isSome ↔ ∀ x ∈ l, (f x).isSome := by
  induction l with
  | nil => simp [encodeAll]
  | cons x l ih =>
    rw [encodeAll]
    simp only [List.mem_cons, forall_eq_or_imp, ← ih]
    cases f x <;> cases encodeAll f l <;> simp

theorem clientList_iff {α : Type} {f : α → Option Json} {P : α → Prop} (h : ∀ x, (f x).isSome ↔ P x) (key : Bytes) (l : List α)
    (m : List (Bytes × Json)) : (clientList key f l m).isSome ↔ ∀ x ∈ l, P x := by
  unfold clientList
  cases l with
  | nil => simp
  | cons x l =>
    rw [if_neg (by simp), Option.isSome_map, encodeAll_iff]
    simp only [h]

theorem clientOpt_iff {f : ClientRec → Option Json} {P : ClientRec → Prop} (h : ∀ x, (f x).isSome ↔ P x) (key : Bytes) (o : Option ClientRec)
    (m : List (Bytes × Json)) : (clientOpt key f o m).isSome ↔ ∀ c, o = some c → P c := by
  unfold clientOpt
  cases o with
  | none => simp
  | some c => simp [h]

theorem bind_iff {α β : Type} {x : Option α} {f : α → Option β} {P Q : Prop} (hx : x.isSome ↔ P) (hf : ∀ a, (f a).isSome ↔ Q) :
    (x >>= f).isSome ↔ P ∧ Q := by
  rw [← hx]
  cases x with
  | none => simp
  | some a => simp [hf a]

theorem clientData_written_iff (d : ClientData) : (d.toJson).isSome ↔ Spec.TimesData Spec.Writable d := by
  have h : (d.toJson).isSome ↔ Spec.TimesRec Spec.Writable clientBaseSegment d.base ∧ (∀ c ∈ d.j1, Spec.TimesRec Spec.Writable clientJ1Segment c) ∧
      (∀ c ∈ d.j2, Spec.TimesRec Spec.Writable clientJ2Segment c) ∧ (∀ c, d.k1 = some c → Spec.TimesRec Spec.Writable clientK1Segment c) ∧
      (∀ c, d.k2 = some c → Spec.TimesRec Spec.Writable clientK2Segment c) ∧ (∀ c, d.k3 = some c → Spec.TimesRec Spec.Writable clientK3Segment c) ∧
      (∀ c, d.k4 = some c → Spec.TimesRec Spec.Writable clientK4Segment c) ∧ (∀ c, d.l1 = some c → Spec.TimesRec Spec.Writable clientL1Segment c) ∧
      (∀ c, d.n1 = some c → Spec.TimesRec Spec.Writable clientN1Segment c) ∧ True := by
    unfold ClientData.toJson
    refine bind_iff (by rw [Option.isSome_map]; exact encodeClient_iff _ _) fun m => ?_
    refine bind_iff (clientList_iff (encodeClient_iff _) _ _ _) fun m => ?_
    refine bind_iff (clientList_iff (encodeClient_iff _) _ _ _) fun m => ?_
    refine bind_iff (clientOpt_iff (encodeClient_iff _) _ _ _) fun m => ?_
    refine bind_iff (clientOpt_iff (encodeClient_iff _) _ _ _) fun m => ?_
    refine bind_iff (clientOpt_iff (encodeClient_iff _) _ _ _) fun m => ?_
    refine bind_iff (clientOpt_iff (encodeClient_iff _) _ _ _) fun m => ?_
    refine bind_iff (clientOpt_iff (encodeClient_iff _) _ _ _) fun m => ?_
    refine bind_iff (clientOpt_iff (encodeClient_iff _) _ _ _) fun m => ?_
    simp
  rw [h]
  exact ⟨fun ⟨h1, h2, h3, h4, h5, h6, h7, h8, h9, _⟩ => ⟨h1, h2, h3, h4, h5, h6, h7, h8, h9⟩,
    fun ⟨h1, h2, h3, h4, h5, h6, h7, h8, h9⟩ => ⟨h1, h2, h3, h4, h5, h6, h7, h8, h9, trivial⟩⟩

theorem clientFile_written_iff (f : ClientFile) : (f.toJson).isSome ↔ Spec.TimesFile Spec.Writable f := by
  have h : (f.toJson).isSome ↔ Spec.TimesRec Spec.Writable clientHeaderRecord f.header ∧ (∀ d ∈ f.data, Spec.TimesData Spec.Writable d) ∧
      Spec.TimesRec Spec.Writable clientTrailerRecord f.trailer ∧ True := by
    unfold ClientFile.toJson
    refine bind_iff (by rw [Option.isSome_map]; exact encodeClient_iff _ _) fun m => ?_
    refine bind_iff (clientList_iff clientData_written_iff _ _ _) fun m => ?_
    refine bind_iff (by rw [Option.isSome_map]; exact encodeClient_iff _ _) fun m => ?_
    simp
  rw [h]
  exact ⟨fun ⟨h1, h2, h3, _⟩ => ⟨h1, h2, h3⟩, fun ⟨h1, h2, h3⟩ => ⟨h1, h2, h3, trivial⟩⟩

/-! ### Reading a struct -/

/-- A value as it is read. -/
theorem decodeClientVal_own (loc : LocalZone) {d : FieldDecl} {v : Val} (hk : v.hasKind d.kind = true) (hv : Spec.OwnVal d.kind v) {j : Json}
    (hj : encodeClientVal v = some j) (old : Option Val) : decodeClientVal loc d old j = some (some (Spec.sentVal v)) := by
  cases v with
  | int i =>
    cases hj
    have hr : -(2 ^ 63) ≤ i ∧ i < 2 ^ 63 := by
      unfold Spec.OwnVal at hv
      simp only at hv
      split at hv <;> omega
    have := parseInt_fmtInt (i := i) hr.1 hr.2
    show (decodeClientSome loc d.kind (encodeVal (.int i))).map some = _
    cases hd : d.kind with
    | str => rw [hd] at hk; simp [Val.hasKind] at hk
    | time => rw [hd] at hk; simp [Val.hasKind] at hk
    | int64 => simp [decodeClientSome, encodeVal, this, Spec.sentVal]
    | int =>
      rw [hd] at hv
      have hv : -2147483648 ≤ i ∧ i ≤ 2147483647 := by simpa [Spec.OwnVal] using hv
      simp only [decodeClientSome, encodeVal, this, Spec.sentVal]
      rw [if_pos (by omega)]
      rfl
  | str s =>
    cases hj
    show (decodeClientSome loc d.kind (encodeVal (.str s))).map some = _
    cases hd : d.kind with
    | str => simp only [decodeClientSome, encodeVal, Spec.sentVal, toValidUtf8_utf8 hv, Option.map_some]
    | time => rw [hd] at hk; simp [Val.hasKind] at hk
    | int => rw [hd] at hk; simp [Val.hasKind] at hk
    | int64 => rw [hd] at hk; simp [Val.hasKind] at hk
  | time t =>
    obtain ⟨h1, h2, h3⟩ := hv
    have hj : encodeClientTime t = some j := hj
    rw [encodeClientTime_existing h1 h3] at hj
    cases hj
    show (decodeClientSome loc d.kind (.str (rfc3339Nano t))).map some = _
    cases hd : d.kind with
    | str => rw [hd] at hk; simp [Val.hasKind] at hk
    | int => rw [hd] at hk; simp [Val.hasKind] at hk
    | int64 => rw [hd] at hk; simp [Val.hasKind] at hk
    | time =>
      simp only [decodeClientSome]
      rw [decodeClientTime_instant loc (sentTime_existing h1) (instantText_nano h1 h2 h3)]
      rfl

open Classical in
/-- The members in any order. -/
theorem foldlM_own (loc : LocalZone) {client : List (F × FieldDecl)} (ht : TagsOk client) {c : ClientRec} (hc : Spec.OwnRec client c)
    (l : List (Bytes × Json)) (hl : ∀ kv ∈ l, ∃ p ∈ client, clientMember c p = some kv) (s : ClientRec) :
    ∃ s', l.foldlM (decodeClientMember loc client) s = some s' ∧
      ∀ f, s' f = if ∃ kv ∈ l, ∃ p ∈ client, p.1 = f ∧ clientMember c p = some kv then Spec.sentRec c f else s f := by
  induction l generalizing s with
  | nil => exact ⟨s, rfl, by simp⟩
  | cons kv l ih =>
    obtain ⟨p, hp, hm⟩ := hl kv (by simp)
    obtain ⟨hkey, v, hv, hj⟩ := clientMember_key hm
    have hlk := lookup_of_mem ht.1 (show (p.1, p.2) ∈ client from hp)
    have hcp := hc p.1
    rw [hlk, hv] at hcp
    have hstep : decodeClientMember loc client s kv = some (s.put p.1 (some (Spec.sentVal v))) := by
      unfold decodeClientMember
      rw [hkey, fieldOf_tag ht.2 hp]
      simp only [hlk, decodeClientVal_own loc hcp.1 hcp.2 hj, Option.map_some]
    obtain ⟨s', h1, h2⟩ := ih (fun kv h => hl kv (List.mem_cons_of_mem _ h)) (s.put p.1 (some (Spec.sentVal v)))
    refine ⟨s', by rw [List.foldlM_cons, hstep]; exact h1, fun f => ?_⟩
    rw [h2 f]
    by_cases hl' : ∃ kv ∈ l, ∃ p ∈ client, p.1 = f ∧ clientMember c p = some kv
    · obtain ⟨kv', hkv', hq⟩ := hl'
      rw [if_pos ⟨kv', hkv', hq⟩, if_pos ⟨kv', List.mem_cons_of_mem _ hkv', hq⟩]
    · rw [if_neg hl']
      by_cases hf : f = p.1
      · subst hf
        rw [if_pos ⟨kv, by simp, p, hp, rfl, hm⟩]
        simp [ClientRec.put, Spec.sentRec, hv]
      · rw [if_neg]
        · simp [ClientRec.put, hf]
        · rintro ⟨kv', hkv', q, hq, hqf, hqm⟩
          rcases List.mem_cons.1 hkv' with rfl | hkv'
          · have hkey' := (clientMember_key hqm).1
            have : fieldOf client q.2.json = some q.1 := fieldOf_tag ht.2 hq
            rw [← hkey', hkey, fieldOf_tag ht.2 hp] at this
            exact hf (hqf.symm.trans (Option.some.inj this).symm)
          · exact hl' ⟨kv', hkv', q, hq, hqf, hqm⟩

/-- A struct. -/
theorem decodeClient_own (loc : LocalZone) {client : List (F × FieldDecl)} (ht : TagsOk client) {c : ClientRec} (hc : Spec.OwnRec client c)
    {j : Json} (hj : encodeClient client c = some j) : decodeClient loc client (.zero client) j = some (Spec.sentRec c) := by
  have hall : ∀ p ∈ client, ∀ v, c p.1 = some v → ∃ j, encodeClientVal v = some j := by
    intro p hp v hv
    have hw := (encodeClient_iff client c).1 (by rw [hj]; rfl)
    rw [← Option.isSome_iff_exists, encodeClientVal_iff]
    rintro t rfl
    exact hw p hp t hv
  obtain ⟨l, h1, h2⟩ := encodeClientMembers_perm ht.2 hall
  rw [encodeClient, h1] at hj
  cases hj
  obtain ⟨s', h3, h4⟩ := foldlM_own loc ht hc l (fun kv hkv => List.mem_filterMap.1 (h2.mem_iff.1 hkv)) (.zero client)
  show l.foldlM (decodeClientMember loc client) _ = _
  rw [h3]
  congr 1
  funext f
  rw [h4 f]
  split
  · rfl
  · next hn =>
    have hcf := hc f
    cases hlk : client.lookup f with
    | none =>
      rw [hlk] at hcf
      simp only at hcf
      simp [ClientRec.zero, hlk, Spec.sentRec, hcf]
    | some d =>
      rw [hlk] at hcf
      cases hv : c f with
      | none =>
        rw [hv] at hcf
        simp [ClientRec.zero, hlk, Spec.sentRec, hv, show d.omitempty = true from hcf]
      | some v =>
        obtain ⟨j, hj⟩ := hall _ (lookup_mem hlk) v hv
        refine absurd ⟨(d.json, j), ?_, (f, d), lookup_mem hlk, rfl, ?_⟩ hn
        · rw [h2.mem_iff, List.mem_filterMap]
          exact ⟨(f, d), lookup_mem hlk, by simp [clientMember, hv, hj]⟩
        · simp [clientMember, hv, hj]

/-! ### Reading a data record -/

/-- The key comes behind the others. -/
def behind (key : Bytes) (ks : List Bytes) : Prop := ∀ k ∈ ks, key ≠ k ∧ keyLt key k = false

instance (key : Bytes) (ks : List Bytes) : Decidable (behind key ks) := by unfold behind; infer_instance

theorem mapSet_behind {key : Bytes} {j : Json} {m : List (Bytes × Json)} (h : behind key (m.map (·.1))) : mapSet key j m = m ++ [(key, j)] := by
  induction m with
  | nil => rfl
  | cons kv m ih =>
    obtain ⟨k, v⟩ := kv
    obtain ⟨h1, h2⟩ := h k (by simp)
    simp only [mapSet, if_neg h1, h2, Bool.false_eq_true, if_false, List.cons_append]
    rw [ih fun k hk => h k (by simp only [List.map_cons, List.mem_cons]; exact Or.inr hk)]

theorem foldlM_snoc {α β : Type} {f : α → β → Option α} {l : List β} {s a : α} {x : β} (h : l.foldlM f s = some a) :
    (l ++ [x]).foldlM f s = f a x := by
  rw [List.foldlM_append, h]
  simp

theorem encodeAll_own {α : Type} {f : α → Option Json} {g : Json → Option α} {h : α → α} {l : List α} {xs : List Json}
    (hl : encodeAll f l = some xs) (hg : ∀ x ∈ l, ∀ j, f x = some j → g j = some (h x)) : decodeAll.go g xs = some (l.map h) := by
  induction l generalizing xs with
  | nil => cases hl; rfl
  | cons x l ih =>
    rw [encodeAll] at hl
    cases hx : f x with
    | none => rw [hx] at hl; cases hl
    | some y =>
      cases hy : encodeAll f l with
      | none => rw [hx, hy] at hl; cases hl
      | some ys =>
        rw [hx, hy] at hl
        cases hl
        simp only [decodeAll.go, hg x (by simp) y hx, ih hy fun z hz => hg z (by simp [hz]), List.map_cons]

/-- A slice member is added and read. -/
theorem own_list {α σ : Type} {f : α → Option Json} {g : Json → Option α} {h : α → α} {step : σ → Bytes × Json → Option σ} {s0 s : σ}
    {m m' : List (Bytes × Json)} {key : Bytes} {ks : List Bytes} {l : List α} {set : List α → σ} (he : clientList key f l m = some m')
    (hm : m.foldlM step s0 = some s ∧ ∀ k ∈ m.map (·.1), k ∈ ks) (hk : behind key ks)
    (hg : ∀ x ∈ l, ∀ j, f x = some j → g j = some (h x)) (h0 : set [] = s) (hset : ∀ j, step s (key, j) = (decodeAll g j).map set) :
    m'.foldlM step s0 = some (set (l.map h)) ∧ ∀ k ∈ m'.map (·.1), k ∈ ks ++ [key] := by
  unfold clientList at he
  cases l with
  | nil =>
    cases he
    exact ⟨by rw [hm.1, List.map_nil, h0], fun k hk => List.mem_append_left _ (hm.2 k hk)⟩
  | cons x l =>
    rw [if_neg (by simp)] at he
    cases hx : encodeAll f (x :: l) with
    | none => rw [hx] at he; cases he
    | some xs =>
      rw [hx] at he
      cases he
      simp only [mapSet_behind fun k hk' => hk k (hm.2 k hk'), foldlM_snoc hm.1, hset]
      refine ⟨?_, ?_⟩
      · show (decodeAll.go g xs).map set = _
        rw [encodeAll_own hx hg]
        rfl
      · intro k hk'
        rw [List.map_append, List.mem_append] at hk'
        rw [List.mem_append]
        exact hk'.imp (hm.2 k) id

/-- A pointer member is added and read. -/
theorem own_opt {σ : Type} {f : ClientRec → Option Json} {g : Json → Option (Option ClientRec)} {step : σ → Bytes × Json → Option σ} {s0 s : σ}
    {m m' : List (Bytes × Json)} {key : Bytes} {ks : List Bytes} {o : Option ClientRec} {set : Option ClientRec → σ}
    (he : clientOpt key f o m = some m')
    (hm : m.foldlM step s0 = some s ∧ ∀ k ∈ m.map (·.1), k ∈ ks) (hk : behind key ks)
    (hg : ∀ x, o = some x → ∀ j, f x = some j → g j = some (some (Spec.sentRec x))) (h0 : set none = s)
    (hset : ∀ j, step s (key, j) = (g j).map set) :
    m'.foldlM step s0 = some (set (o.map Spec.sentRec)) ∧ ∀ k ∈ m'.map (·.1), k ∈ ks ++ [key] := by
  unfold clientOpt at he
  cases o with
  | none =>
    cases he
    exact ⟨by rw [hm.1, Option.map_none, h0], fun k hk => List.mem_append_left _ (hm.2 k hk)⟩
  | some c =>
    simp only at he
    cases hx : f c with
    | none => rw [hx] at he; cases he
    | some j =>
      rw [hx] at he
      cases he
      simp only [mapSet_behind fun k hk' => hk k (hm.2 k hk'), foldlM_snoc hm.1, hset, hg c rfl j hx]
      refine ⟨rfl, ?_⟩
      intro k hk'
      rw [List.map_append, List.mem_append] at hk'
      rw [List.mem_append]
      exact hk'.imp (hm.2 k) id

theorem decodePointer_own (loc : LocalZone) (k : SegKind) {c : ClientRec} (hc : Spec.OwnRec (clientSegment k) c) {j : Json}
    (hj : encodeClient (clientSegment k) c = some j) : decodePointer loc k none j = some (some (Spec.sentRec c)) := by
  have h := decodeClient_own loc (matches_seg k).1 hc hj
  unfold encodeClient at hj
  cases hm : encodeClientMembers c (clientSegment k) with
  | none => rw [hm] at hj; cases hj
  | some l =>
    rw [hm] at hj
    cases hj
    show (decodeClient loc (clientSegment k) (.zero (clientSegment k)) (.obj l)).map some = _
    rw [h]
    rfl

theorem decodeClientData_own (loc : LocalZone) {d : ClientData} (h : Spec.OwnData d) {j : Json} (hj : d.toJson = some j) :
    decodeClientData loc j = some (Spec.sentData d) := by
  have k0 : keyOf clientDataKeys (b! "base") = some (b! "base") := by decide +kernel
  have k1 : keyOf clientDataKeys (b! "j1") = some (b! "j1") := by decide +kernel
  have k2 : keyOf clientDataKeys (b! "j2") = some (b! "j2") := by decide +kernel
  have k3 : keyOf clientDataKeys (b! "k1") = some (b! "k1") := by decide +kernel
  have k4 : keyOf clientDataKeys (b! "k2") = some (b! "k2") := by decide +kernel
  have k5 : keyOf clientDataKeys (b! "k3") = some (b! "k3") := by decide +kernel
  have k6 : keyOf clientDataKeys (b! "k4") = some (b! "k4") := by decide +kernel
  have k7 : keyOf clientDataKeys (b! "l1") = some (b! "l1") := by decide +kernel
  have k8 : keyOf clientDataKeys (b! "n1") = some (b! "n1") := by decide +kernel
  unfold ClientData.toJson at hj
  simp only [Option.bind_eq_bind, Option.bind_eq_some_iff, Option.map_eq_some_iff, Option.some.injEq] at hj
  obtain ⟨m0, ⟨j0, e0, rfl⟩, m1, e1, m2, e2, m3, e3, m4, e4, m5, e5, m6, e6, m7, e7, m8, e8, rfl⟩ := hj
  have i0 : [(b! "base", j0)].foldlM (decodeClientDataMember loc) { base := .zero clientBaseSegment } =
      some ({ base := Spec.sentRec d.base } : ClientData) ∧ ∀ k ∈ [(b! "base", j0)].map (·.1), k ∈ [b! "base"] := by
    refine ⟨?_, fun k hk => hk⟩
    rw [List.foldlM_cons]
    simp only [decodeClientDataMember, k0, if_true, decodeClient_own loc matches_base.1 h.base e0]
    rfl
  have i1 := own_list (set := fun l => .mk (Spec.sentRec d.base) l [] none
      none none none none none) e1 i0 (by decide +kernel)
    (fun c hc j hj => decodeClient_own loc (matches_seg .j1).1 (h.j1 c hc) hj) rfl
    (fun j => by simp only [decodeClientDataMember, k1]; rfl)
  have i2 := own_list (set := fun l => .mk (Spec.sentRec d.base) (d.j1.map Spec.sentRec) l none
      none none none none none) e2 i1 (by decide +kernel)
    (fun c hc j hj => decodeClient_own loc (matches_seg .j2).1 (h.j2 c hc) hj) rfl
    (fun j => by simp only [decodeClientDataMember, k2]; rfl)
  have i3 := own_opt (set := fun l => .mk (Spec.sentRec d.base) (d.j1.map Spec.sentRec) (d.j2.map Spec.sentRec) l
      none none none none none)
    e3 i2 (by decide +kernel) (fun c hc j hj => decodePointer_own loc .k1 (h.k1 c hc) hj) rfl
    (fun j => by simp only [decodeClientDataMember, k3]; rfl)
  have i4 := own_opt (set := fun l => .mk (Spec.sentRec d.base) (d.j1.map Spec.sentRec) (d.j2.map Spec.sentRec) (d.k1.map Spec.sentRec)
      l none none none none)
    e4 i3 (by decide +kernel) (fun c hc j hj => decodePointer_own loc .k2 (h.k2 c hc) hj) rfl
    (fun j => by simp only [decodeClientDataMember, k4]; rfl)
  have i5 := own_opt (set := fun l => .mk (Spec.sentRec d.base) (d.j1.map Spec.sentRec) (d.j2.map Spec.sentRec) (d.k1.map Spec.sentRec)
      (d.k2.map Spec.sentRec) l none none none)
    e5 i4 (by decide +kernel) (fun c hc j hj => decodePointer_own loc .k3 (h.k3 c hc) hj) rfl
    (fun j => by simp only [decodeClientDataMember, k5]; rfl)
  have i6 := own_opt (set := fun l => .mk (Spec.sentRec d.base) (d.j1.map Spec.sentRec) (d.j2.map Spec.sentRec) (d.k1.map Spec.sentRec)
      (d.k2.map Spec.sentRec) (d.k3.map Spec.sentRec) l none none)
    e6 i5 (by decide +kernel) (fun c hc j hj => decodePointer_own loc .k4 (h.k4 c hc) hj) rfl
    (fun j => by simp only [decodeClientDataMember, k6]; rfl)
  have i7 := own_opt (set := fun l => .mk (Spec.sentRec d.base) (d.j1.map Spec.sentRec) (d.j2.map Spec.sentRec) (d.k1.map Spec.sentRec)
      (d.k2.map Spec.sentRec) (d.k3.map Spec.sentRec) (d.k4.map Spec.sentRec) l none)
    e7 i6 (by decide +kernel) (fun c hc j hj => decodePointer_own loc .l1 (h.l1 c hc) hj) rfl
    (fun j => by simp only [decodeClientDataMember, k7]; rfl)
  have i8 := own_opt (set := fun l => .mk (Spec.sentRec d.base) (d.j1.map Spec.sentRec) (d.j2.map Spec.sentRec) (d.k1.map Spec.sentRec)
      (d.k2.map Spec.sentRec) (d.k3.map Spec.sentRec) (d.k4.map Spec.sentRec) (d.l1.map Spec.sentRec) l)
    e8 i7 (by decide +kernel) (fun c hc j hj => decodePointer_own loc .n1 (h.n1 c hc) hj) rfl
    (fun j => by simp only [decodeClientDataMember, k8]; rfl)
  exact i8.1

/-- A file. -/
theorem decodeClientFile_own (loc : LocalZone) {f : ClientFile} (h : Spec.OwnFile f) {j : Json} (hj : f.toJson = some j) :
    decodeClientFile loc j = some (Spec.sentFile f) := by
  have k0 : keyOf [b! "header", b! "data", b! "trailer"] (b! "header") = some (b! "header") := by decide +kernel
  have k1 : keyOf [b! "header", b! "data", b! "trailer"] (b! "data") = some (b! "data") := by decide +kernel
  have k2 : keyOf [b! "header", b! "data", b! "trailer"] (b! "trailer") = some (b! "trailer") := by decide +kernel
  unfold ClientFile.toJson at hj
  simp only [Option.bind_eq_bind, Option.bind_eq_some_iff, Option.map_eq_some_iff, Option.some.injEq] at hj
  obtain ⟨m0, ⟨j0, e0, rfl⟩, m1, e1, m2, ⟨j2, e2, rfl⟩, rfl⟩ := hj
  have hh : ∀ ds t, decodeClientFileMember loc ⟨.zero clientHeaderRecord, ds, t⟩ (b! "header", j0) = some ⟨Spec.sentRec f.header, ds, t⟩ := by
    intro ds t
    simp only [decodeClientFileMember, k0, if_true, decodeClient_own loc matches_header.1 h.header e0, Option.map_some]
  have ht : ∀ hd ds, decodeClientFileMember loc ⟨hd, ds, .zero clientTrailerRecord⟩ (b! "trailer", j2) = some ⟨hd, ds, Spec.sentRec f.trailer⟩ := by
    intro hd ds
    simp only [decodeClientFileMember, k2]
    rw [if_neg (by decide), if_neg (by decide), decodeClient_own loc matches_trailer.1 h.trailer e2]
    rfl
  unfold clientList at e1
  by_cases hd : f.data = []
  · rw [hd] at e1
    cases e1
    show [(b! "header", j0), (b! "trailer", j2)].foldlM (decodeClientFileMember loc) _ = _
    simp only [List.foldlM_cons, List.foldlM_nil, hh, Option.bind_eq_bind, Option.bind_some, ht, Spec.sentFile, hd, List.map_nil]
    rfl
  · have he : f.data.isEmpty = false := by cases hf : f.data with
      | nil => exact absurd hf hd
      | cons => rfl
    rw [he] at e1
    simp only [Bool.false_eq_true, if_false, Option.map_eq_some_iff] at e1
    obtain ⟨xs, h1, rfl⟩ := e1
    show [(b! "data", .arr xs), (b! "header", j0), (b! "trailer", j2)].foldlM (decodeClientFileMember loc) _ = _
    have hdata : ∀ cf : ClientFile, decodeClientFileMember loc cf (b! "data", .arr xs) = some { cf with data := f.data.map Spec.sentData } := by
      intro cf
      simp only [decodeClientFileMember, k1]
      rw [if_neg (by decide), if_pos trivial]
      show (decodeAll.go (decodeClientData loc) xs).map _ = _
      rw [encodeAll_own h1 fun d hd j hj => decodeClientData_own loc (h.data d hd) hj]
      rfl
    simp only [List.foldlM_cons, List.foldlM_nil, hdata, Option.bind_eq_bind, Option.bind_some, hh, ht]
    rfl

/-! ### What is left as it was -/

theorem sentTime_iff (t : Time) : Spec.sentTime t = t ↔ Spec.WholeZone t := by
  obtain ⟨y, mo, d, hh, mi, se, ns, l⟩ := t
  unfold Spec.sentTime Spec.WholeZone
  simp only [Time.mk.injEq, true_and]
  cases l with
  | utc => exact ⟨fun _ => Or.inl rfl, fun _ => rfl⟩
  | zone o =>
    simp only [Spec.minuteZone]
    constructor
    · intro h
      right
      refine ⟨o / 60, ?_, ?_⟩
      · intro h0
        split at h
        · cases h
        · split at h <;> injection h <;> omega
      · split at h
        · cases h
        · split at h <;> injection h <;> congr 1 <;> omega
    · rintro (h | ⟨m, h0, h⟩)
      · cases h
      · injection h with h
        rw [if_neg (by omega)]
        split <;> congr 1 <;> omega

theorem sentRec_iff {client : List (F × FieldDecl)} {c : ClientRec} (hc : Spec.OwnRec client c) :
    Spec.sentRec c = c ↔ Spec.TimesRec Spec.WholeZone client c := by
  constructor
  · intro h p _ t ht
    have := congrFun h p.1
    rw [Spec.sentRec, ht] at this
    injection this with this
    injection this with this
    exact (sentTime_iff t).1 this
  · intro h
    funext f
    unfold Spec.sentRec
    have hcf := hc f
    cases hv : c f with
    | none => rfl
    | some v =>
      cases v with
      | int i => rfl
      | str s => rfl
      | time t =>
        cases hlk : client.lookup f with
        | none => rw [hlk] at hcf; simp only at hcf; rw [hv] at hcf; cases hcf
        | some d => exact congrArg (fun t => some (Val.time t)) ((sentTime_iff t).2 (h (f, d) (lookup_mem hlk) t hv))

theorem map_iff {α : Type} {f : α → α} {P : α → Prop} {l : List α} (h : ∀ x ∈ l, f x = x ↔ P x) : l.map f = l ↔ ∀ x ∈ l, P x := by
  induction l with
  | nil => simp
  | cons x l ih =>
    simp only [List.map_cons, List.cons.injEq, List.mem_cons, forall_eq_or_imp]
    rw [h x (by simp), ih fun y hy => h y (by simp [hy])]

theorem opt_iff {α : Type} {f : α → α} {P : α → Prop} {o : Option α} (h : ∀ x, o = some x → (f x = x ↔ P x)) : o.map f = o ↔ ∀ x, o = some x → P x := by
  cases o with
  | none => simp
  | some x => simp [h x rfl]

theorem sentData_iff {d : ClientData} (h : Spec.OwnData d) : Spec.sentData d = d ↔ Spec.TimesData Spec.WholeZone d := by
  have e0 := sentRec_iff h.base
  have e1 := map_iff fun c hc => sentRec_iff (h.j1 c hc)
  have e2 := map_iff fun c hc => sentRec_iff (h.j2 c hc)
  have e3 := opt_iff fun c hc => sentRec_iff (h.k1 c hc)
  have e4 := opt_iff fun c hc => sentRec_iff (h.k2 c hc)
  have e5 := opt_iff fun c hc => sentRec_iff (h.k3 c hc)
  have e6 := opt_iff fun c hc => sentRec_iff (h.k4 c hc)
  have e7 := opt_iff fun c hc => sentRec_iff (h.l1 c hc)
  have e8 := opt_iff fun c hc => sentRec_iff (h.n1 c hc)
  obtain ⟨base, j1, j2, k1, k2, k3, k4, l1, n1⟩ := d
  unfold Spec.sentData
  simp only [ClientData.mk.injEq]
  simp only at e0 e1 e2 e3 e4 e5 e6 e7 e8
  rw [e0, e1, e2, e3, e4, e5, e6, e7, e8]
  exact ⟨fun ⟨h1, h2, h3, h4, h5, h6, h7, h8, h9⟩ => ⟨h1, h2, h3, h4, h5, h6, h7, h8, h9⟩,
    fun ⟨h1, h2, h3, h4, h5, h6, h7, h8, h9⟩ => ⟨h1, h2, h3, h4, h5, h6, h7, h8, h9⟩⟩

theorem sentFile_iff {f : ClientFile} (h : Spec.OwnFile f) : Spec.sentFile f = f ↔ Spec.TimesFile Spec.WholeZone f := by
  have e0 := sentRec_iff h.header
  have e1 := map_iff fun d hd => sentData_iff (h.data d hd)
  have e2 := sentRec_iff h.trailer
  obtain ⟨hd, ds, t⟩ := f
  unfold Spec.sentFile
  simp only [ClientFile.mk.injEq]
  simp only at e0 e1 e2
  rw [e0, e1, e2]
  exact ⟨fun ⟨h1, h2, h3⟩ => ⟨h1, h2, h3⟩, fun ⟨h1, h2, h3⟩ => ⟨h1, h2, h3⟩⟩

/-- The times of what a Go program holds can be written. -/
theorem ownRec_writable {client : List (F × FieldDecl)} (hk : (client.map (·.1)).Nodup) {c : ClientRec} (hc : Spec.OwnRec client c) :
    Spec.TimesRec Spec.Writable client c := by
  intro p hp t ht
  have := hc p.1
  rw [lookup_of_mem hk (show (p.1, p.2) ∈ client from hp), ht] at this
  obtain ⟨-, h1, -, h3⟩ := this
  have := existing_year h1
  exact ⟨this.1, this.2, h3⟩

theorem ownFile_writable {f : ClientFile} (h : Spec.OwnFile f) : Spec.TimesFile Spec.Writable f := by
  have hs := fun k => ((matches_seg k).1).1
  refine ⟨ownRec_writable matches_header.1.1 h.header, fun d hd => ?_, ownRec_writable matches_trailer.1.1 h.trailer⟩
  have h := h.data d hd
  exact ⟨ownRec_writable matches_base.1.1 h.base, fun c hc => ownRec_writable (hs .j1) (h.j1 c hc), fun c hc => ownRec_writable (hs .j2) (h.j2 c hc),
    fun c hc => ownRec_writable (hs .k1) (h.k1 c hc), fun c hc => ownRec_writable (hs .k2) (h.k2 c hc), fun c hc => ownRec_writable (hs .k3) (h.k3 c hc),
    fun c hc => ownRec_writable (hs .k4) (h.k4 c hc), fun c hc => ownRec_writable (hs .l1) (h.l1 c hc), fun c hc => ownRec_writable (hs .n1) (h.n1 c hc)⟩

end Metro2
