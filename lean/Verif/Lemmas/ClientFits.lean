import Verif.Lemmas.ClientExtra
import Verif.Lemmas.ParseInt
import Verif.Spec.ClientFits

/-! Which documents the client can read. -/

namespace Metro2

/-- The client reads the text as a time. -/
def Timed (zone : LocalZone) (s : Bytes) : Prop := (decodeClientTime zone (.str s)).isSome = true

theorem Parts.all_isSome {σ : Type} (P : Parts σ) (ok : P.ι → Json → Prop) (h : ∀ i j x, (P.step i j x).isSome = true ↔ ok i j)
    (kvs : List (Bytes × Json)) (s : σ) : (P.all s kvs).isSome = true ↔ ∀ kv ∈ kvs, ∀ i, P.part kv.1 = some i → ok i kv.2 := by
  induction kvs generalizing s with
  | nil => simp [Parts.all]
  | cons kv kvs ih =>
    obtain ⟨k, v⟩ := kv
    rw [P.all_cons]
    cases hk : P.part k with
    | none =>
      rw [P.member_none hk, Option.bind_some, ih]
      constructor
      · intro hh x hx i hi
        rcases List.mem_cons.1 hx with rfl | hx
        · rw [hk] at hi; cases hi
        · exact hh x hx i hi
      · exact fun hh x hx => hh x (List.mem_cons_of_mem _ hx)
    | some i =>
      rw [P.member_some hk]
      cases hs : P.step i v (P.get s i) with
      | none =>
        simp only [Option.map_none, Option.bind_none, Option.isSome_none, Bool.false_eq_true, false_iff]
        intro hh
        have := (h i v (P.get s i)).2 (hh (k, v) List.mem_cons_self i hk)
        rw [hs] at this
        cases this
      | some y =>
        simp only [Option.map_some, Option.bind_some]
        rw [ih]
        constructor
        · intro hh x hx j hj
          rcases List.mem_cons.1 hx with rfl | hx
          · rw [hk] at hj
            cases hj
            exact (h i v (P.get s i)).1 (by rw [hs]; rfl)
          · exact hh x hx j hj
        · exact fun hh x hx => hh x (List.mem_cons_of_mem _ hx)

theorem decodeAll_isSome {α : Type} (f : Json → Option α) (j : Json) :
    (decodeAll f j).isSome = true ↔ j = .null ∨ ∃ xs, j = .arr xs ∧ ∀ x ∈ xs, (f x).isSome = true := by
  have key : ∀ xs, (decodeAll.go f xs).isSome = true ↔ ∀ x ∈ xs, (f x).isSome = true := by
    intro xs
    induction xs with
    | nil => simp [decodeAll.go]
    | cons x xs ih =>
      rw [List.forall_mem_cons, ← ih, decodeAll.go]
      cases f x <;> cases decodeAll.go f xs <;> simp
  cases j with
  | arr xs =>
    rw [decodeAll, key]
    simp
  | null => simp [decodeAll]
  | _ => simp [decodeAll]

theorem decodeClientSome_isSome (zone : LocalZone) (k : Kind) (j : Json) :
    (decodeClientSome zone k j).isSome = true ↔ Spec.SuitsField (Timed zone) k j := by
  cases k with
  | str => cases j <;> simp [decodeClientSome, Spec.SuitsField]
  | time =>
    cases j <;> simp [decodeClientSome, Spec.SuitsField, Timed, decodeClientTime]
  | int =>
    cases j with
    | num lit =>
      simp only [decodeClientSome, Spec.SuitsField, Json.num.injEq]
      cases hp : parseInt lit with
      | ok v =>
        have h1 := parseInt_ok_iff.1 hp
        simp only
        constructor
        · intro h
          split at h
          · next hr => exact ⟨lit, v, rfl, h1.1, hr.1, hr.2⟩
          · cases h
        · rintro ⟨lit', v', rfl, h2, h3, h4⟩
          have : parseInt lit = .ok v' := parseInt_ok_iff.2 ⟨h2, by omega, by omega⟩
          rw [hp] at this
          cases this
          rw [if_pos ⟨h3, h4⟩]
          rfl
      | error e =>
        simp only [Option.isSome_none, Bool.false_eq_true, false_iff]
        rintro ⟨lit', v', rfl, h2, h3, h4⟩
        have : parseInt lit = .ok v' := parseInt_ok_iff.2 ⟨h2, by omega, by omega⟩
        rw [hp] at this
        cases this
    | _ => simp [decodeClientSome, Spec.SuitsField]
  | int64 =>
    cases j with
    | num lit =>
      simp only [decodeClientSome, Spec.SuitsField, Json.num.injEq]
      cases hp : parseInt lit with
      | ok v =>
        have h1 := parseInt_ok_iff.1 hp
        simp only [Option.isSome_some, true_iff]
        exact ⟨lit, v, rfl, h1⟩
      | error e =>
        simp only [Option.isSome_none, Bool.false_eq_true, false_iff]
        rintro ⟨lit', v', rfl, h2⟩
        have : parseInt lit = .ok v' := parseInt_ok_iff.2 h2
        rw [hp] at this
        cases this
    | _ => simp [decodeClientSome, Spec.SuitsField]

theorem decodeClientVal_isSome (zone : LocalZone) (d : FieldDecl) (old : Option Val) (j : Json) :
    (decodeClientVal zone d old j).isSome = true ↔ j = .null ∨ Spec.SuitsField (Timed zone) d.kind j := by
  cases j with
  | null => simp [decodeClientVal]
  | _ => simp [decodeClientVal, ← decodeClientSome_isSome]

theorem lookup_self {client : List (F × FieldDecl)} (h : (client.map (·.1)).Nodup) {x : F × FieldDecl} (hx : x ∈ client) : client.lookup x.1 = some x.2 :=
  lookup_of_mem h hx

theorem mem_of_lookup_field {client : List (F × FieldDecl)} {f : F} {d : FieldDecl} (h : client.lookup f = some d) : (f, d) ∈ client := by
  induction client with
  | nil => cases h
  | cons x xs ih =>
    obtain ⟨g, e⟩ := x
    rw [List.lookup_cons] at h
    split at h
    · next hb =>
      cases h
      rw [show f = g from by simpa using hb]
      exact List.mem_cons_self
    · exact List.mem_cons_of_mem _ (ih h)

theorem decodeClient_isSome (zone : LocalZone) {client : List (F × FieldDecl)} (h : FoldedOk client) (c : ClientRec) (j : Json) :
    (decodeClient zone client c j).isSome = true ↔ Spec.SuitsPlace (Timed zone) (.fields client) j := by
  cases j with
  | obj kvs =>
    rw [fieldParts_all, (fieldParts zone client).all_isSome (fun (f : F) j => ∀ d, client.lookup f = some d → j = .null ∨ Spec.SuitsField (Timed zone) d.kind j)]
    · have hsp : ∀ p ∈ client, ∀ k, Spec.Spells Spec.foldOthers (Spec.smallWord p.2.json) k ↔ fieldOf client k = some p.1 := by
        intro p hp k
        obtain ⟨h1, h2⟩ := smallWord_fold p.2.json (h.1 p hp)
        rw [spells_iff h2, h1, fieldOf_folded h hp]
      constructor
      · intro hh
        refine .fields client kvs fun kv hkv x hx hs => ?_
        exact hh kv hkv x.1 ((hsp x hx _).1 hs) x.2 (lookup_self h.2.1 hx)
      · intro hh kv hkv f hf d hd
        cases hh with
        | fields _ _ hh =>
          have hm := mem_of_lookup_field hd
          exact hh kv hkv (f, d) hm ((hsp (f, d) hm _).2 hf)
    · intro (f : F) j x
      show (match client.lookup f with | none => some x | some d => decodeClientVal zone d x j).isSome = true ↔ _
      cases hl : client.lookup f with
      | none => simp
      | some d =>
        simp only [Option.some.injEq, forall_eq']
        exact decodeClientVal_isSome zone d x j
  | null => exact ⟨fun _ => .null _, fun _ => rfl⟩
  | arr xs =>
    refine ⟨fun hh => (by simp [decodeClient] at hh), fun hh => ?_⟩
    cases hh with
    | list _ he _ => cases he
  | bool _ => exact ⟨fun hh => (by simp [decodeClient] at hh), fun hh => by cases hh⟩
  | num _ => exact ⟨fun hh => (by simp [decodeClient] at hh), fun hh => by cases hh⟩
  | str _ => exact ⟨fun hh => (by simp [decodeClient] at hh), fun hh => by cases hh⟩

theorem decodePointer_isSome (zone : LocalZone) (k : SegKind) (x : Option ClientRec) (j : Json) :
    (decodePointer zone k x j).isSome = true ↔ Spec.SuitsPlace (Timed zone) (.fields (clientSegment k)) j := by
  by_cases hj : j = .null
  · subst hj
    exact ⟨fun _ => .null _, fun _ => rfl⟩
  · rw [decodePointer_value zone k x j hj, Option.isSome_map, decodeClient_isSome zone (folded_seg k)]

theorem segments_isSome (zone : LocalZone) (k : SegKind) (j : Json) :
    (decodeAll (decodeClient zone (clientSegment k) (.zero (clientSegment k))) j).isSome = true ↔ Spec.SuitsPlace (Timed zone) (.segments k) j := by
  rw [decodeAll_isSome]
  constructor
  · rintro (rfl | ⟨xs, rfl, h⟩)
    · exact .null _
    · exact .list xs (.segment k) fun x hx => (decodeClient_isSome zone (folded_seg k) _ x).1 (h x hx)
  · intro h
    cases h with
    | null => exact .inl rfl
    | list xs he h =>
      cases he
      exact .inr ⟨xs, rfl, fun x hx => (decodeClient_isSome zone (folded_seg k) _ x).2 (h x hx)⟩

/-- What is inside of a data record, by its parts. -/
def DataPart.place : DataPart → Spec.ClientPlace
  | .base => .fields clientBaseSegment
  | .j1 => .segments .j1
  | .j2 => .segments .j2
  | .k1 => .fields clientK1Segment
  | .k2 => .fields clientK2Segment
  | .k3 => .fields clientK3Segment
  | .k4 => .fields clientK4Segment
  | .l1 => .fields clientL1Segment
  | .n1 => .fields clientN1Segment

theorem spells_part {keys : List Bytes} (hf : (keys.map foldKey).Nodup) (hw : ∀ w ∈ keys, ∀ c ∈ w, (97 ≤ c ∧ c ≤ 122) ∨ (48 ≤ c ∧ c ≤ 57))
    {w : Bytes} (h : w ∈ keys) (k : Bytes) : Spec.Spells Spec.foldOthers w k ↔ keyOf keys k = some w := by
  rw [spells_iff (hw w h), keyOf_folded hf h]

theorem decodeClientData_isSome (zone : LocalZone) (j : Json) : (decodeClientData zone j).isSome = true ↔ Spec.SuitsPlace (Timed zone) .record j := by
  cases j with
  | obj kvs =>
    rw [dataParts_all, (dataParts zone).all_isSome (fun i j => Spec.SuitsPlace (Timed zone) (DataPart.place i) j)]
    · have hsp : ∀ w ∈ clientDataKeys, ∀ k, Spec.Spells Spec.foldOthers w k ↔ keyOf clientDataKeys k = some w :=
        fun w h k => spells_part (by decide +kernel) (by decide +kernel) h k
      constructor
      · intro hh
        refine .record kvs fun kv hkv w q hi hs => ?_
        have key : ∀ key ∈ clientDataKeys, Spec.Spells Spec.foldOthers key kv.1 → Spec.SuitsPlace (Timed zone) (DataPart.of key).place kv.2 := by
          intro key hm hk
          exact hh kv hkv (DataPart.of key) (by simp only [dataParts, (hsp key hm _).1 hk, Option.map_some])
        cases hi with
        | base => exact key (b! "base") (by decide) hs
        | j1 => exact key (b! "j1") (by decide) hs
        | j2 => exact key (b! "j2") (by decide) hs
        | k1 => exact key (b! "k1") (by decide) hs
        | k2 => exact key (b! "k2") (by decide) hs
        | k3 => exact key (b! "k3") (by decide) hs
        | k4 => exact key (b! "k4") (by decide) hs
        | l1 => exact key (b! "l1") (by decide) hs
        | n1 => exact key (b! "n1") (by decide) hs
      · intro hh kv hkv i hi
        obtain ⟨key, hk, rfl⟩ : ∃ key, keyOf clientDataKeys kv.1 = some key ∧ DataPart.of key = i := Option.map_eq_some_iff.1 hi
        have hm := (keyOf_mem hk).1
        cases hh with
        | record _ hh =>
          have hs := (hsp key hm kv.1).2 hk
          simp only [clientDataKeys, List.mem_cons, List.not_mem_nil, or_false] at hm
          rcases hm with rfl | rfl | rfl | rfl | rfl | rfl | rfl | rfl | rfl
          · exact hh kv hkv _ _ .base hs
          · exact hh kv hkv _ _ .j1 hs
          · exact hh kv hkv _ _ .j2 hs
          · exact hh kv hkv _ _ .k1 hs
          · exact hh kv hkv _ _ .k2 hs
          · exact hh kv hkv _ _ .k3 hs
          · exact hh kv hkv _ _ .k4 hs
          · exact hh kv hkv _ _ .l1 hs
          · exact hh kv hkv _ _ .n1 hs
    · intro i j x
      cases i with
      | base => exact decodeClient_isSome zone (by decide +kernel) x j
      | j1 => exact segments_isSome zone .j1 j
      | j2 => exact segments_isSome zone .j2 j
      | k1 => exact decodePointer_isSome zone .k1 x j
      | k2 => exact decodePointer_isSome zone .k2 x j
      | k3 => exact decodePointer_isSome zone .k3 x j
      | k4 => exact decodePointer_isSome zone .k4 x j
      | l1 => exact decodePointer_isSome zone .l1 x j
      | n1 => exact decodePointer_isSome zone .n1 x j
  | null => exact ⟨fun _ => .null _, fun _ => rfl⟩
  | arr xs =>
    refine ⟨fun hh => (by simp [decodeClientData] at hh), fun hh => ?_⟩
    cases hh with
    | list _ he _ => cases he
  | bool _ => exact ⟨fun hh => (by simp [decodeClientData] at hh), fun hh => by cases hh⟩
  | num _ => exact ⟨fun hh => (by simp [decodeClientData] at hh), fun hh => by cases hh⟩
  | str _ => exact ⟨fun hh => (by simp [decodeClientData] at hh), fun hh => by cases hh⟩

/-- What is inside of a file, by its parts. -/
def FilePart.place : FilePart → Spec.ClientPlace
  | .header => .fields clientHeaderRecord
  | .data => .data
  | .trailer => .fields clientTrailerRecord

theorem decodeClientFile_isSome (zone : LocalZone) (j : Json) : (decodeClientFile zone j).isSome = true ↔ Spec.SuitsPlace (Timed zone) .file j := by
  cases j with
  | obj kvs =>
    rw [fileParts_all, (fileParts zone).all_isSome (fun i j => Spec.SuitsPlace (Timed zone) (FilePart.place i) j)]
    · have hsp : ∀ w ∈ clientFileKeys, ∀ k, Spec.Spells Spec.foldOthers w k ↔ keyOf clientFileKeys k = some w :=
        fun w h k => spells_part (by decide +kernel) (by decide +kernel) h k
      constructor
      · intro hh
        refine .file kvs fun kv hkv w q hi hs => ?_
        have key : ∀ key ∈ clientFileKeys, Spec.Spells Spec.foldOthers key kv.1 → Spec.SuitsPlace (Timed zone) (FilePart.of key).place kv.2 := by
          intro key hm hk
          exact hh kv hkv (FilePart.of key) (by simp only [fileParts, (hsp key hm _).1 hk, Option.map_some])
        cases hi with
        | header => exact key (b! "header") (by decide) hs
        | data => exact key (b! "data") (by decide) hs
        | trailer => exact key (b! "trailer") (by decide) hs
      · intro hh kv hkv i hi
        obtain ⟨key, hk, rfl⟩ : ∃ key, keyOf clientFileKeys kv.1 = some key ∧ FilePart.of key = i := Option.map_eq_some_iff.1 hi
        have hm := (keyOf_mem hk).1
        cases hh with
        | file _ hh =>
          have hs := (hsp key hm kv.1).2 hk
          simp only [clientFileKeys, List.mem_cons, List.not_mem_nil, or_false] at hm
          rcases hm with rfl | rfl | rfl
          · exact hh kv hkv _ _ .header hs
          · exact hh kv hkv _ _ .data hs
          · exact hh kv hkv _ _ .trailer hs
    · intro i j x
      cases i with
      | header => exact decodeClient_isSome zone (by decide +kernel) x j
      | trailer => exact decodeClient_isSome zone (by decide +kernel) x j
      | data =>
        show (decodeAll (decodeClientData zone) j).isSome = true ↔ Spec.SuitsPlace (Timed zone) .data j
        rw [decodeAll_isSome]
        constructor
        · rintro (rfl | ⟨xs, rfl, h⟩)
          · exact .null _
          · exact .list xs .record fun x hx => (decodeClientData_isSome zone x).1 (h x hx)
        · intro h
          cases h with
          | null => exact .inl rfl
          | list xs he h =>
            cases he
            exact .inr ⟨xs, rfl, fun x hx => (decodeClientData_isSome zone x).2 (h x hx)⟩
  | null => exact ⟨fun _ => .null _, fun _ => rfl⟩
  | arr xs =>
    refine ⟨fun hh => (by simp [decodeClientFile] at hh), fun hh => ?_⟩
    cases hh with
    | list _ he _ => cases he
  | bool _ => exact ⟨fun hh => (by simp [decodeClientFile] at hh), fun hh => by cases hh⟩
  | num _ => exact ⟨fun hh => (by simp [decodeClientFile] at hh), fun hh => by cases hh⟩
  | str _ => exact ⟨fun hh => (by simp [decodeClientFile] at hh), fun hh => by cases hh⟩

end Metro2
