import Verif.Model.Json

/-! Loops over maps: the order does not matter if different entries commute. -/

namespace Metro2

/-- Two entries of a loop can be exchanged. -/
def Commutes {σ α : Type} (step : σ → α → Option σ) (a b : α) : Prop :=
  ∀ s, (step s a).bind (step · b) = (step s b).bind (step · a)

theorem Commutes.symm {σ α : Type} {step : σ → α → Option σ} {a b : α} (h : Commutes step a b) :
    Commutes step b a := fun s => (h s).symm

theorem foldlM_perm {σ α : Type} (step : σ → α → Option σ) {l m : List α} (hp : l.Perm m)
    (h : m.Pairwise (Commutes step)) (s : σ) : l.foldlM step s = m.foldlM step s := by
  induction hp generalizing s with
  | nil => rfl
  | cons x hp ih =>
    rw [List.pairwise_cons] at h
    simp only [List.foldlM_cons]
    congr 1
    funext t
    exact ih h.2 t
  | swap x y l =>
    rw [List.pairwise_cons, List.pairwise_cons] at h
    have hc := h.1 y (by simp) s
    simp only [List.foldlM_cons, Option.bind_eq_bind]
    rw [← Option.bind_assoc, ← Option.bind_assoc, hc]
  | trans h1 h2 ih1 ih2 =>
    rw [ih1 (h2.symm.pairwise h Commutes.symm), ih2 h]

/-! ### Maps have one entry per key -/

theorem keyLt_trans : ∀ {a b c : Bytes}, keyLt a b = true → keyLt b c = true → keyLt a c = true
  | [], [], _, h, _ => by simp [keyLt] at h
  | [], _ :: _, [], _, h => by simp [keyLt] at h
  | [], _ :: _, _ :: _, _, _ => by simp [keyLt]
  | _ :: _, [], _, h, _ => by simp [keyLt] at h
  | _ :: _, _ :: _, [], _, h => by simp [keyLt] at h
  | x :: a, y :: b, z :: c, h1, h2 => by
    simp only [keyLt] at h1 h2 ⊢
    by_cases hxy : x = y
    · subst hxy
      rw [if_pos rfl] at h1
      by_cases hxz : x = z
      · rw [if_pos hxz] at h2 ⊢; exact keyLt_trans h1 h2
      · rw [if_neg hxz] at h2 ⊢; exact h2
    · rw [if_neg hxy, decide_eq_true_eq] at h1
      by_cases hyz : y = z
      · subst hyz; rw [if_neg hxy, decide_eq_true_eq]; exact h1
      · rw [if_neg hyz, decide_eq_true_eq] at h2
        have h3 : x < z := UInt8.lt_trans h1 h2
        have h4 : x ≠ z := by rintro rfl; exact UInt8.lt_irrefl _ h3
        rw [if_neg h4, decide_eq_true_eq]
        exact h3

theorem keyLt_ne : ∀ {a b : Bytes}, keyLt a b = true → a ≠ b
  | [], _, h => by rintro rfl; simp [keyLt] at h
  | x :: a, [], _ => by simp
  | x :: a, y :: b, h => by
    simp only [keyLt] at h
    by_cases hxy : x = y
    · subst hxy
      rw [if_pos rfl] at h
      intro h2
      exact keyLt_ne h (by simpa using h2)
    · intro h2
      exact hxy (by simpa using (List.cons.inj h2).1)

theorem keyLt_total : ∀ {a b : Bytes}, a ≠ b → keyLt a b = false → keyLt b a = true
  | [], [], h, _ => absurd rfl h
  | [], _ :: _, _, h => by simp [keyLt] at h
  | _ :: _, [], _, _ => by simp [keyLt]
  | x :: a, y :: b, h, h2 => by
    simp only [keyLt] at h2 ⊢
    by_cases hxy : x = y
    · subst hxy
      rw [if_pos rfl] at h2 ⊢
      exact keyLt_total (by simpa using h) h2
    · rw [if_neg hxy, decide_eq_false_iff_not] at h2
      have h3 : y ≠ x := fun h => hxy h.symm
      rw [if_neg h3, decide_eq_true_eq]
      have : ¬ x.toNat < y.toNat := fun h => h2 (UInt8.lt_iff_toNat_lt.2 h)
      have hne : x.toNat ≠ y.toNat := fun h => hxy (UInt8.toNat_inj.1 h)
      exact UInt8.lt_iff_toNat_lt.2 (by omega)

/-- Strictly increasing keys. -/
def Sorted (l : List (Bytes × Json)) : Prop := l.Pairwise fun a b => keyLt a.1 b.1 = true

theorem mem_mapSet {k : Bytes} {v : Json} {l : List (Bytes × Json)} {p : Bytes × Json} (h : p ∈ mapSet k v l) :
    p = (k, v) ∨ (p ∈ l ∧ p.1 ≠ k) ∨ (p ∈ l) := by
  induction l with
  | nil => simp [mapSet] at h; exact .inl h
  | cons q rest ih =>
    obtain ⟨k', v'⟩ := q
    simp only [mapSet] at h
    split at h
    · simp only [List.mem_cons] at h
      rcases h with h | h
      · exact .inl h
      · exact .inr (.inr (by simp [h]))
    · split at h
      · simp only [List.mem_cons] at h
        rcases h with h | h | h
        · exact .inl h
        · exact .inr (.inr (by simp [h]))
        · exact .inr (.inr (by simp [h]))
      · simp only [List.mem_cons] at h
        rcases h with h | h
        · exact .inr (.inr (by simp [h]))
        · rcases ih h with h | h | h
          · exact .inl h
          · exact .inr (.inr (by simp [h]))
          · exact .inr (.inr (by simp [h]))

theorem sorted_mapSet {k : Bytes} {v : Json} {l : List (Bytes × Json)} (h : Sorted l) : Sorted (mapSet k v l) := by
  induction l with
  | nil => exact List.pairwise_singleton _ _
  | cons q rest ih =>
    obtain ⟨k', v'⟩ := q
    unfold Sorted at h ih ⊢
    rw [List.pairwise_cons] at h
    simp only [mapSet]
    split
    · next hk => subst hk; rw [List.pairwise_cons]; exact h
    · next hk =>
      split
      · next hlt =>
        rw [List.pairwise_cons, List.pairwise_cons]
        refine ⟨?_, h⟩
        intro p hp
        rcases List.mem_cons.1 hp with rfl | hp
        · exact hlt
        · exact keyLt_trans hlt (h.1 p hp)
      · next hlt =>
        rw [List.pairwise_cons]
        refine ⟨?_, ih h.2⟩
        intro p hp
        have h3 : keyLt k' k = true := keyLt_total hk (by simpa using hlt)
        rcases mem_mapSet hp with rfl | ⟨hp, _⟩ | hp
        · exact h3
        · exact h.1 p hp
        · exact h.1 p hp

theorem sorted_reObj (env : JsonEnv) (kvs : List (Bytes × Json)) {acc l : List (Bytes × Json)} (ha : Sorted acc)
    (h : reObj env kvs acc = some l) : Sorted l := by
  induction kvs generalizing acc with
  | nil => simp only [reObj, Option.some.injEq] at h; subst h; exact ha
  | cons q rest ih =>
    obtain ⟨k, v⟩ := q
    simp only [reObj] at h
    split at h
    · simp at h
    · exact ih (sorted_mapSet ha) h

/-- The entries of a map have different keys. -/
theorem decodeMap_keys {env : JsonEnv} {j : Json} {l : List (Bytes × Json)} (h : decodeMap env j = some l) :
    l.Pairwise fun a b => a.1 ≠ b.1 := by
  have : Sorted l := by
    unfold decodeMap at h
    split at h
    · exact sorted_reObj env _ List.Pairwise.nil h
    · cases h; exact List.Pairwise.nil
    · simp at h
  exact this.imp keyLt_ne

/-! ### Data records -/

/-- Entries of a data record that change different parts. -/
inductive Effect where
  | base (fs : Fields)
  | segs (l : List Seg)

/-- What an entry does. -/
def Effect.apply (r : Fields × Segs) : Effect → Fields × Segs
  | .base fs => (fs, r.2)
  | .segs l => (r.1, l.foldl Segs.store r.2)

/-- The segment that an entry adds. -/
def segOf (env : JsonEnv) (name : Bytes) (j : Json) : Option (List Seg) :=
  match segKindOfName name with
  | none => some []
  | some k =>
    match decodeStruct env k.struct (Seg.new k).fields j with
    | none => none
    | some fs => if (Seg.validate ⟨k, fs⟩).isSome then none else some [⟨k, fs⟩]

theorem decodeSeg_eq (env : JsonEnv) (name : Bytes) (g : Segs) (j : Json) :
    decodeSeg env name g j = (segOf env name j).map fun l => l.foldl Segs.store g := by
  unfold decodeSeg segOf
  cases segKindOfName name with
  | none => rfl
  | some k =>
    simp only
    cases decodeStruct env k.struct (Seg.new k).fields j with
    | none => rfl
    | some fs =>
      simp only [Segs.add]
      cases Seg.validate ⟨k, fs⟩ <;> simp

/-- The segments that a list adds. -/
def segsOf (env : JsonEnv) (name : Bytes) : List Json → Option (List Seg)
  | [] => some []
  | x :: xs => (segOf env name x).bind fun l => (segsOf env name xs).map (l ++ ·)

theorem foldlM_decodeSeg (env : JsonEnv) (name : Bytes) (xs : List Json) (g : Segs) :
    xs.foldlM (decodeSeg env name) g = (segsOf env name xs).map fun l => l.foldl Segs.store g := by
  induction xs generalizing g with
  | nil => rfl
  | cons x xs ih =>
    rw [List.foldlM_cons, decodeSeg_eq, segsOf]
    cases segOf env name x with
    | none => rfl
    | some l =>
      simp only [Option.map_some, Option.bind_eq_bind, Option.bind_some, ih]
      cases segsOf env name xs with
      | none => rfl
      | some m => simp

/-- What an entry does, or `none` if it is an error. -/
def entryEffect (env : JsonEnv) (kv : Bytes × Json) : Option Effect :=
  if kv.1 = b! "base" then (decodeStruct env baseSegmentStruct (zeroFields baseSegmentStruct) kv.2).map .base
  else if kv.1 = b! "j1" ∨ kv.1 = b! "j2" then ((decodeList env kv.2).bind (segsOf env kv.1)).map .segs
  else (segOf env kv.1 kv.2).map .segs

theorem decodeBaseEntry_eq (env : JsonEnv) (r : Fields × Segs) (kv : Bytes × Json) :
    decodeBaseEntry env r kv = (entryEffect env kv).map (Effect.apply r) := by
  unfold decodeBaseEntry entryEffect
  split
  · rw [Option.map_map]; rfl
  · split
    · cases decodeList env kv.2 with
      | none => rfl
      | some xs =>
        simp only [Option.bind_some, foldlM_decodeSeg, Option.map_map]
        rfl
    · rw [decodeSeg_eq, Option.map_map, Option.map_map]
      rfl

/-- The kind of the segments that an entry adds. -/
def EffectKind (name : Bytes) (l : List Seg) : Prop := ∀ s ∈ l, segKindOfName name = some s.kind

theorem segOf_kind {env : JsonEnv} {name : Bytes} {j : Json} {l : List Seg} (h : segOf env name j = some l) :
    EffectKind name l := by
  unfold segOf at h
  intro s hs
  cases hk : segKindOfName name with
  | none => rw [hk] at h; simp at h; subst h; simp at hs
  | some k =>
    rw [hk] at h
    simp only at h
    split at h
    · simp at h
    · split at h
      · simp at h
      · cases h; simp at hs; rw [hs]

theorem segsOf_kind {env : JsonEnv} {name : Bytes} {xs : List Json} {l : List Seg} (h : segsOf env name xs = some l) :
    EffectKind name l := by
  induction xs generalizing l with
  | nil => simp only [segsOf, Option.some.injEq] at h; subst h; intro s hs; simp at hs
  | cons x xs ih =>
    rw [segsOf] at h
    cases h1 : segOf env name x with
    | none => rw [h1] at h; simp at h
    | some l1 =>
      cases h2 : segsOf env name xs with
      | none => rw [h1, h2] at h; simp at h
      | some l2 =>
        rw [h1, h2] at h
        simp at h
        subst h
        intro s hs
        rcases List.mem_append.1 hs with hs | hs
        · exact segOf_kind h1 s hs
        · exact ih h2 s hs

theorem segKindOfName_eq {name : Bytes} {k : SegKind} (h : segKindOfName name = some k) : name = k.name := by
  unfold segKindOfName at h
  repeat' split at h
  all_goals first | (cases h; assumption) | cases h

theorem store_comm (g : Segs) {s t : Seg} (h : s.kind ≠ t.kind) : (g.store s).store t = (g.store t).store s := by
  unfold Segs.store
  cases hs : s.kind <;> cases ht : t.kind <;> first | rfl | exact absurd (hs.trans ht.symm) h

theorem foldl_store_comm1 (g : Segs) (l : List Seg) {t : Seg} (h : ∀ s ∈ l, s.kind ≠ t.kind) :
    (l.foldl Segs.store g).store t = l.foldl Segs.store (g.store t) := by
  induction l generalizing g with
  | nil => rfl
  | cons s l ih =>
    simp only [List.foldl_cons]
    rw [ih _ (fun x hx => h x (by simp [hx])), store_comm g (h s (by simp))]

theorem foldl_store_comm (g : Segs) (l m : List Seg) (h : ∀ s ∈ l, ∀ t ∈ m, s.kind ≠ t.kind) :
    m.foldl Segs.store (l.foldl Segs.store g) = l.foldl Segs.store (m.foldl Segs.store g) := by
  induction m generalizing g with
  | nil => rfl
  | cons t m ih =>
    simp only [List.foldl_cons]
    rw [foldl_store_comm1 g l (fun s hs => h s hs t (by simp)), ih _ (fun s hs t ht => h s hs t (by simp [ht]))]

theorem entryEffect_segs {env : JsonEnv} {kv : Bytes × Json} {l : List Seg} (h : entryEffect env kv = some (.segs l)) :
    EffectKind kv.1 l := by
  unfold entryEffect at h
  split at h
  · cases h1 : decodeStruct env baseSegmentStruct (zeroFields baseSegmentStruct) kv.2 <;> rw [h1] at h <;> simp at h
  · split at h
    · cases h1 : (decodeList env kv.2).bind (segsOf env kv.1) with
      | none => rw [h1] at h; simp at h
      | some m =>
        rw [h1] at h
        simp at h
        subst h
        cases h2 : decodeList env kv.2 with
        | none => rw [h2] at h1; simp at h1
        | some xs => rw [h2] at h1; exact segsOf_kind h1
    · cases h1 : segOf env kv.1 kv.2 with
      | none => rw [h1] at h; simp at h
      | some m => rw [h1] at h; simp at h; subst h; exact segOf_kind h1

theorem entryEffect_base {env : JsonEnv} {kv : Bytes × Json} {fs : Fields} (h : entryEffect env kv = some (.base fs)) :
    kv.1 = b! "base" := by
  unfold entryEffect at h
  split at h
  · assumption
  · split at h
    · cases h1 : (decodeList env kv.2).bind (segsOf env kv.1) <;> rw [h1] at h <;> simp at h
    · cases h1 : segOf env kv.1 kv.2 <;> rw [h1] at h <;> simp at h

theorem baseEntry_commutes (env : JsonEnv) {a b : Bytes × Json} (h : a.1 ≠ b.1) : Commutes (decodeBaseEntry env) a b := by
  intro r
  simp only [decodeBaseEntry_eq]
  cases ha : entryEffect env a with
  | none => cases entryEffect env b <;> rfl
  | some ea =>
    cases hb : entryEffect env b with
    | none => rfl
    | some eb =>
      simp only [Option.map_some, Option.bind_some, Option.some.injEq]
      cases ea with
      | base fs =>
        cases eb with
        | base fs' => exact absurd ((entryEffect_base ha).trans (entryEffect_base hb).symm) h
        | segs l => rfl
      | segs l =>
        cases eb with
        | base fs' => rfl
        | segs m =>
          simp only [Effect.apply, Prod.mk.injEq, true_and]
          apply foldl_store_comm
          intro s hs t ht hk
          have h1 := segKindOfName_eq (entryEffect_segs ha s hs)
          have h2 := segKindOfName_eq (entryEffect_segs hb t ht)
          exact h (by rw [h1, h2, hk])

/-- The order of the entries of a data record does not matter. -/
theorem decodeBase_order (env : JsonEnv) {v w : List (Bytes × Json) → List (Bytes × Json)} (hv : ∀ l, (v l).Perm l)
    (hw : ∀ l, (w l).Perm l) (fs : Fields) (g : Segs) (j : Json) :
    decodeBase env v fs g j = decodeBase env w fs g j := by
  unfold decodeBase
  cases h : decodeMap env j with
  | none => rfl
  | some kvs =>
    have hc : kvs.Pairwise (Commutes (decodeBaseEntry env)) :=
      (decodeMap_keys h).imp fun hab => baseEntry_commutes env hab
    simp only
    rw [foldlM_perm _ (hv kvs) hc, foldlM_perm _ (hw kvs) hc]

/-! ### Files -/

theorem ofJson_order (env : JsonEnv) {v w : List (Bytes × Json) → List (Bytes × Json)} (hv : ∀ l, (v l).Perm l)
    (hw : ∀ l, (w l).Perm l) (r : Record) (j : Json) : r.ofJson env v j = r.ofJson env w j := by
  cases r with
  | header e fs => rfl
  | trailer e fs => rfl
  | base e fs g => simp only [Record.ofJson]; rw [decodeBase_order env hv hw]

theorem decodeBases_order (env : JsonEnv) {v w : Nat → List (Bytes × Json) → List (Bytes × Json)} (hv : ∀ n l, (v n l).Perm l)
    (hw : ∀ n l, (w n l).Perm l) (enc : Enc) (n : Nat) (xs : List Json) (acc : List Record) :
    decodeBases env v enc n xs acc = decodeBases env w enc n xs acc := by
  induction xs generalizing n acc with
  | nil => rfl
  | cons x xs ih =>
    simp only [decodeBases]
    rw [ofJson_order env (hv n) (hw n)]
    cases (newBase enc).ofJson env (w n) x with
    | none => rfl
    | some b => exact ih _ _

theorem decodeFileEntry_order (env : JsonEnv) {v w : Nat → List (Bytes × Json) → List (Bytes × Json)} (hv : ∀ n l, (v n l).Perm l)
    (hw : ∀ n l, (w n l).Perm l) : decodeFileEntry env v = decodeFileEntry env w := by
  funext f kv
  unfold decodeFileEntry
  rw [ofJson_order env (hv 0) (hw 0) f.header, ofJson_order env (hv 0) (hw 0) f.trailer]
  split
  · rfl
  · split
    · rfl
    · split
      · cases decodeList env kv.2 with
        | none => rfl
        | some xs => simp only; rw [decodeBases_order env hv hw]
      · rfl

theorem entry_header (env : JsonEnv) (v : Nat → List (Bytes × Json) → List (Bytes × Json)) (f : File) (j : Json) :
    decodeFileEntry env v f (b! "header", j) = (f.header.ofJson env (v 0) j).map fun h => { f with header := h } := rfl

theorem entry_trailer (env : JsonEnv) (v : Nat → List (Bytes × Json) → List (Bytes × Json)) (f : File) (j : Json) :
    decodeFileEntry env v f (b! "trailer", j) = (f.trailer.ofJson env (v 0) j).map fun t => { f with trailer := t } := rfl

/-- The data records of an entry. -/
def dataOf (env : JsonEnv) (v : Nat → List (Bytes × Json) → List (Bytes × Json)) (enc : Enc) (bases : List Record) (j : Json) :
    Option (List Record) :=
  match decodeList env j with
  | none => none
  | some xs => decodeBases env v enc 1 xs bases

theorem entry_data (env : JsonEnv) (v : Nat → List (Bytes × Json) → List (Bytes × Json)) (f : File) (j : Json) :
    decodeFileEntry env v f (b! "data", j) =
      (dataOf env v f.format f.bases j).map fun bs => { f with bases := bs } := by
  have h1 : (b! "data") ≠ (b! "header") := by decide
  have h2 : (b! "data") ≠ (b! "trailer") := by decide
  unfold decodeFileEntry dataOf
  simp only [if_neg h1, if_neg h2, if_true]
  cases decodeList env j <;> rfl

theorem entry_other (env : JsonEnv) (v : Nat → List (Bytes × Json) → List (Bytes × Json)) (f : File) (j : Json) {k : Bytes}
    (h1 : k ≠ b! "header") (h2 : k ≠ b! "trailer") (h3 : k ≠ b! "data") : decodeFileEntry env v f (k, j) = some f := by
  unfold decodeFileEntry
  rw [if_neg h1, if_neg h2, if_neg h3]

theorem commutes_other (env : JsonEnv) (v : Nat → List (Bytes × Json) → List (Bytes × Json)) (a : Bytes × Json) {k : Bytes} (j : Json)
    (h1 : k ≠ b! "header") (h2 : k ≠ b! "trailer") (h3 : k ≠ b! "data") : Commutes (decodeFileEntry env v) a (k, j) := by
  intro f
  rw [entry_other env v f j h1 h2 h3]
  cases h : decodeFileEntry env v f a with
  | none => exact h.symm
  | some g => simp only [Option.bind_some]; rw [entry_other env v g j h1 h2 h3, h]

theorem commutes_header_trailer (env : JsonEnv) (v : Nat → List (Bytes × Json) → List (Bytes × Json)) (j j' : Json) :
    Commutes (decodeFileEntry env v) (b! "header", j) (b! "trailer", j') := by
  intro f
  simp only [entry_header, entry_trailer]
  cases h1 : f.header.ofJson env (v 0) j <;> cases h2 : f.trailer.ofJson env (v 0) j' <;> simp [h1, h2]

theorem commutes_header_data (env : JsonEnv) (v : Nat → List (Bytes × Json) → List (Bytes × Json)) (j j' : Json) :
    Commutes (decodeFileEntry env v) (b! "header", j) (b! "data", j') := by
  intro f
  simp only [entry_header, entry_data]
  cases h1 : f.header.ofJson env (v 0) j <;>
    cases h2 : dataOf env v f.format f.bases j' <;> simp [h1, h2]

theorem commutes_trailer_data (env : JsonEnv) (v : Nat → List (Bytes × Json) → List (Bytes × Json)) (j j' : Json) :
    Commutes (decodeFileEntry env v) (b! "trailer", j) (b! "data", j') := by
  intro f
  simp only [entry_trailer, entry_data]
  cases h1 : f.trailer.ofJson env (v 0) j <;>
    cases h2 : dataOf env v f.format f.bases j' <;> simp [h1, h2]

theorem fileEntry_commutes (env : JsonEnv) (v : Nat → List (Bytes × Json) → List (Bytes × Json)) {a b : Bytes × Json}
    (h : a.1 ≠ b.1) : Commutes (decodeFileEntry env v) a b := by
  obtain ⟨ka, ja⟩ := a
  obtain ⟨kb, jb⟩ := b
  simp only at h
  by_cases ho : kb ≠ b! "header" ∧ kb ≠ b! "trailer" ∧ kb ≠ b! "data"
  · exact commutes_other env v _ jb ho.1 ho.2.1 ho.2.2
  by_cases ho' : ka ≠ b! "header" ∧ ka ≠ b! "trailer" ∧ ka ≠ b! "data"
  · exact (commutes_other env v _ ja ho'.1 ho'.2.1 ho'.2.2).symm
  have hb : kb = b! "header" ∨ kb = b! "trailer" ∨ kb = b! "data" := by
    by_cases h1 : kb = b! "header"
    · exact .inl h1
    · by_cases h2 : kb = b! "trailer"
      · exact .inr (.inl h2)
      · by_cases h3 : kb = b! "data"
        · exact .inr (.inr h3)
        · exact absurd ⟨h1, h2, h3⟩ ho
  have ha : ka = b! "header" ∨ ka = b! "trailer" ∨ ka = b! "data" := by
    by_cases h1 : ka = b! "header"
    · exact .inl h1
    · by_cases h2 : ka = b! "trailer"
      · exact .inr (.inl h2)
      · by_cases h3 : ka = b! "data"
        · exact .inr (.inr h3)
        · exact absurd ⟨h1, h2, h3⟩ ho'
  clear ho ho'
  rcases ha with rfl | rfl | rfl <;> rcases hb with rfl | rfl | rfl
  · exact absurd rfl h
  · exact commutes_header_trailer env v ja jb
  · exact commutes_header_data env v ja jb
  · exact (commutes_header_trailer env v jb ja).symm
  · exact absurd rfl h
  · exact commutes_trailer_data env v ja jb
  · exact (commutes_header_data env v jb ja).symm
  · exact (commutes_trailer_data env v jb ja).symm
  · exact absurd rfl h

theorem file_ofJson_order (env : JsonEnv) {v w : Nat → List (Bytes × Json) → List (Bytes × Json)} (hv : ∀ n l, (v n l).Perm l)
    (hw : ∀ n l, (w n l).Perm l) (f : File) (j : Json) : f.ofJson env v j = f.ofJson env w j := by
  unfold File.ofJson
  cases h : decodeMap env j with
  | none => rfl
  | some kvs =>
    have hc : kvs.Pairwise (Commutes (decodeFileEntry env w)) :=
      (decodeMap_keys h).imp fun hab => fileEntry_commutes env w hab
    simp only
    rw [decodeFileEntry_order env hv hw, foldlM_perm _ (hv 0 kvs) hc, foldlM_perm _ (hw 0 kvs) hc]

end Metro2
