import Verif.Lemmas.ClientFile
import Verif.Lemmas.JsonExtra
import Verif.Spec.ClientExtra

/-! What the client makes of documents that tell it the same. -/

namespace Metro2

/-! ### Members as parts of a value -/

/-- A value that is read member by member, each into a part of its own. -/
structure Parts (σ : Type) where
  ι : Type
  A : ι → Type
  get : σ → (i : ι) → A i
  set : σ → (i : ι) → A i → σ
  step : (i : ι) → Json → A i → Option (A i)
  part : Bytes → Option ι
  get_set : ∀ s i j x, i ≠ j → get (set s i x) j = get s j
  set_get : ∀ s i, set s i (get s i) = s
  set_comm : ∀ s i j x y, i ≠ j → set (set s i x) j y = set (set s j y) i x

namespace Parts

variable {σ : Type} (P : Parts σ)

/-- One member. -/
def member (s : σ) (kv : Bytes × Json) : Option σ :=
  match P.part kv.1 with
  | none => some s
  | some i => (P.step i kv.2 (P.get s i)).map (P.set s i)

/-- All members. -/
def all (s : σ) (kvs : List (Bytes × Json)) : Option σ := kvs.foldlM P.member s

theorem all_append (s : σ) (a b : List (Bytes × Json)) : P.all s (a ++ b) = (P.all s a).bind fun s' => P.all s' b := by
  unfold all
  rw [List.foldlM_append]
  rfl

theorem all_cons (s : σ) (x : Bytes × Json) (b : List (Bytes × Json)) : P.all s (x :: b) = (P.member s x).bind fun s' => P.all s' b := by
  unfold all
  rw [List.foldlM_cons]
  rfl

theorem member_none {k : Bytes} (h : P.part k = none) (s : σ) (v : Json) : P.member s (k, v) = some s := by
  simp only [member, h]

theorem member_some {k : Bytes} {i : P.ι} (h : P.part k = some i) (s : σ) (v : Json) :
    P.member s (k, v) = (P.step i v (P.get s i)).map (P.set s i) := by
  simp only [member, h]

theorem all_extra {k : Bytes} (h : P.part k = none) (s : σ) (a b : List (Bytes × Json)) (v : Json) : P.all s (a ++ (k, v) :: b) = P.all s (a ++ b) := by
  rw [all_append, all_append]
  congr 1
  funext s'
  rw [all_cons, P.member_none h]
  rfl

theorem all_rename {k k' : Bytes} (h : P.part k = P.part k') (s : σ) (a b : List (Bytes × Json)) (v : Json) :
    P.all s (a ++ (k, v) :: b) = P.all s (a ++ (k', v) :: b) := by
  rw [all_append, all_append]
  congr 1
  funext s'
  rw [all_cons, all_cons]
  simp only [member, h]

theorem all_swap {k k' : Bytes} (h : ∀ i, ¬ (P.part k = some i ∧ P.part k' = some i)) (s : σ) (a b : List (Bytes × Json)) (v v' : Json) :
    P.all s (a ++ (k, v) :: (k', v') :: b) = P.all s (a ++ (k', v') :: (k, v) :: b) := by
  rw [all_append, all_append]
  congr 1
  funext s'
  rw [all_cons, all_cons]
  cases hk : P.part k with
  | none =>
    rw [P.member_none hk, Option.bind_some, all_cons]
    congr 1
    funext s''
    rw [all_cons, P.member_none hk]
    rfl
  | some i =>
    cases hk' : P.part k' with
    | none =>
      rw [P.member_none hk', Option.bind_some, all_cons]
      congr 1
      funext s''
      rw [all_cons, P.member_none hk']
      rfl
    | some j =>
      have hij : i ≠ j := by
        rintro rfl
        exact h i ⟨hk, hk'⟩
      rw [P.member_some hk, P.member_some hk']
      cases h1 : P.step i v (P.get s' i) with
      | none =>
        cases h2 : P.step j v' (P.get s' j) with
        | none => rfl
        | some y =>
          simp only [Option.map_none, Option.bind_none, Option.map_some, Option.bind_some, all_cons, P.member_some hk, P.get_set s' j i y hij.symm, h1]
      | some x =>
        cases h2 : P.step j v' (P.get s' j) with
        | none =>
          simp only [Option.map_none, Option.bind_none, Option.map_some, Option.bind_some, all_cons, P.member_some hk', P.get_set s' i j x hij, h2]
        | some y =>
          simp only [Option.map_some, Option.bind_some, all_cons, P.member_some hk, P.member_some hk', P.get_set s' j i y hij.symm,
            P.get_set s' i j x hij, h1, h2, P.set_comm s' i j x y hij]

/-- A part stays as it is if no member belongs to it. -/
theorem all_keeps {i : P.ι} (s : σ) (a : List (Bytes × Json)) (h : ∀ kv ∈ a, P.part kv.1 ≠ some i) (s' : σ) (hs : P.all s a = some s') :
    P.get s' i = P.get s i := by
  induction a generalizing s with
  | nil => cases hs; rfl
  | cons x a ih =>
    rw [all_cons] at hs
    cases hm : P.member s x with
    | none => rw [hm] at hs; cases hs
    | some s1 =>
      rw [hm] at hs
      rw [ih s1 (fun kv hkv => h kv (List.mem_cons_of_mem _ hkv)) hs]
      unfold member at hm
      cases hp : P.part x.1 with
      | none => rw [hp] at hm; cases hm; rfl
      | some j =>
        rw [hp] at hm
        simp only [Option.map_eq_some_iff] at hm
        obtain ⟨y, _, rfl⟩ := hm
        exact P.get_set s j i y fun hji => h x List.mem_cons_self (by rw [hp, hji])

theorem all_null {k : Bytes} {i : P.ι} (hk : P.part k = some i) (s : σ) (hn : P.step i .null (P.get s i) = some (P.get s i))
    (a b : List (Bytes × Json)) (h : ∀ kv ∈ a, P.part kv.1 ≠ some i) : P.all s (a ++ (k, .null) :: b) = P.all s (a ++ b) := by
  rw [all_append, all_append]
  cases hs : P.all s a with
  | none => rfl
  | some s' =>
    simp only [Option.bind_some]
    rw [all_cons, P.member_some hk, P.all_keeps s a h s' hs, hn, Option.map_some, ← P.all_keeps s a h s' hs, P.set_get]
    rfl

/-- Inside a member. -/
theorem all_member {k : Bytes} {i : P.ι} (hk : P.part k = some i) (s : σ) (v v' : Json) (a b : List (Bytes × Json))
    (h : (∀ x, P.step i v x = P.step i v' x) ∨ (P.step i v (P.get s i) = P.step i v' (P.get s i) ∧ ∀ kv ∈ a, P.part kv.1 ≠ some i)) :
    P.all s (a ++ (k, v) :: b) = P.all s (a ++ (k, v') :: b) := by
  rw [all_append, all_append]
  cases hs : P.all s a with
  | none => rfl
  | some s' =>
    simp only [Option.bind_some]
    rw [all_cons, all_cons, P.member_some hk, P.member_some hk]
    rcases h with h | ⟨h, ha⟩
    · rw [h]
    · rw [P.all_keeps s a ha s' hs, h]

end Parts

/-! ### Names of members -/

theorem spells_self (w : Bytes) : Spec.Spells Spec.foldOthers w w := by
  induction w with
  | nil => exact .nil
  | cons c w ih => exact .small ih

theorem upperByte_large (c : UInt8) (h1 : 97 ≤ c) (h2 : c ≤ 122) : upperByte (c - 32) = upperByte c ∧ c - 32 < 0x80 ∧ c < 0x80 := by
  have : ∀ n : Fin 256, (fun c : UInt8 => 97 ≤ c → c ≤ 122 → upperByte (c - 32) = upperByte c ∧ c - 32 < 0x80 ∧ c < 0x80) ⟨⟨n⟩⟩ := by decide +kernel
  exact this c.toFin h1 h2

theorem smallOrDigit_ascii (c : UInt8) (h : (97 ≤ c ∧ c ≤ 122) ∨ (48 ≤ c ∧ c ≤ 57)) : c < 0x80 := by
  have : ∀ n : Fin 256, (fun c : UInt8 => ((97 ≤ c ∧ c ≤ 122) ∨ (48 ≤ c ∧ c ≤ 57)) → c < 0x80) ⟨⟨n⟩⟩ := by decide +kernel
  exact this c.toFin h

theorem fold_of_spells {w s : Bytes} (h : Spec.Spells Spec.foldOthers w s) (hw : ∀ c ∈ w, (97 ≤ c ∧ c ≤ 122) ∨ (48 ≤ c ∧ c ≤ 57)) :
    foldKey s = foldKey w := by
  induction h with
  | nil => rfl
  | @small c w s _ ih =>
    have hc := smallOrDigit_ascii c (hw c List.mem_cons_self)
    rw [foldKey_ascii hc, foldKey_ascii hc, ih fun c hc => hw c (List.mem_cons_of_mem _ hc)]
  | @large c w s h1 h2 _ ih =>
    obtain ⟨u1, u2, u3⟩ := upperByte_large c h1 h2
    rw [foldKey_ascii u2, foldKey_ascii u3, u1, ih fun c hc => hw c (List.mem_cons_of_mem _ hc)]
  | @other c t w s ht _ ih =>
    have ih := ih fun c hc => hw c (List.mem_cons_of_mem _ hc)
    simp only [Spec.foldOthers, List.mem_cons, Prod.mk.injEq, List.not_mem_nil, or_false] at ht
    rcases ht with ⟨rfl, rfl⟩ | ⟨rfl, rfl⟩
    · show foldKey (0xE2 :: 0x84 :: 0xAA :: s) = _
      rw [foldKey, foldKey_ascii (by decide), ih]
      rfl
    · show foldKey (0xC5 :: 0xBF :: s) = _
      rw [foldKey, foldKey_ascii (by decide), ih]
      rfl

theorem spells_iff {w : Bytes} (hw : ∀ c ∈ w, (97 ≤ c ∧ c ≤ 122) ∨ (48 ≤ c ∧ c ≤ 57)) (s : Bytes) :
    Spec.Spells Spec.foldOthers w s ↔ foldKey s = foldKey w := ⟨fun h => fold_of_spells h hw, spells_digits w hw s⟩

/-- The parts of a value and the names of its members. -/
structure Named {σ : Type} (P : Parts σ) (words : List Bytes) : Prop where
  known : ∀ k i, P.part k = some i → ∃ w ∈ words, Spec.Spells Spec.foldOthers w k
  meant : ∀ w ∈ words, ∃ i, P.part w = some i ∧ ∀ k, P.part k = some i ↔ Spec.Spells Spec.foldOthers w k

theorem Named.unknown {σ : Type} {P : Parts σ} {words : List Bytes} (h : Named P words) {k : Bytes}
    (hk : ∀ w ∈ words, ¬ Spec.Spells Spec.foldOthers w k) : P.part k = none := by
  cases hp : P.part k with
  | none => rfl
  | some i =>
    obtain ⟨w, hw, hs⟩ := h.known k i hp
    exact absurd hs (hk w hw)

theorem Named.apart {σ : Type} {P : Parts σ} {words : List Bytes} (h : Named P words) {k k' : Bytes}
    (hk : ∀ w ∈ words, ¬ (Spec.Spells Spec.foldOthers w k ∧ Spec.Spells Spec.foldOthers w k')) (i : P.ι) :
    ¬ (P.part k = some i ∧ P.part k' = some i) := by
  rintro ⟨h1, h2⟩
  obtain ⟨w, hw, hs⟩ := h.known k i h1
  obtain ⟨j, _, hj⟩ := h.meant w hw
  have := (hj k).2 hs
  rw [h1] at this
  cases this
  exact hk w hw ⟨hs, (hj k').1 h2⟩

/-! ### The parts of a struct -/

/-- The fields of a struct. -/
def fieldParts (zone : LocalZone) (client : List (F × FieldDecl)) : Parts ClientRec where
  ι := F
  A _ := Option Val
  get c f := c f
  set c f v := c.put f v
  step f j old :=
    match client.lookup f with
    | none => some old
    | some d => decodeClientVal zone d old j
  part k := fieldOf client k
  get_set s i j x h := by simp [ClientRec.put, h.symm]
  set_get s i := by
    funext f
    unfold ClientRec.put
    split
    · next h => rw [h]
    · rfl
  set_comm s i j x y h := by
    funext f
    unfold ClientRec.put
    by_cases h1 : f = j
    · subst h1
      simp [h.symm]
    · simp [h1]

theorem fieldParts_member (zone : LocalZone) (client : List (F × FieldDecl)) (c : ClientRec) (kv : Bytes × Json) :
    decodeClientMember zone client c kv = (fieldParts zone client).member c kv := by
  obtain ⟨k, v⟩ := kv
  unfold decodeClientMember
  cases hk : fieldOf client k with
  | none =>
    exact ((fieldParts zone client).member_none hk c v).symm
  | some f =>
    refine Eq.trans ?_ ((fieldParts zone client).member_some hk c v).symm
    cases hl : client.lookup f with
    | none =>
      have : (fieldParts zone client).step f v ((fieldParts zone client).get c f) = some ((fieldParts zone client).get c f) := by
        simp only [fieldParts, hl]
      simp only [this, Option.map_some, hl]
      exact congrArg some ((fieldParts zone client).set_get c f).symm
    | some d =>
      have : (fieldParts zone client).step f v ((fieldParts zone client).get c f) = decodeClientVal zone d (c f) v := by
        simp only [fieldParts, hl]
      simp only [this, hl]
      rfl

theorem fieldParts_all (zone : LocalZone) (client : List (F × FieldDecl)) (c : ClientRec) (kvs : List (Bytes × Json)) :
    decodeClient zone client c (.obj kvs) = (fieldParts zone client).all c kvs := by
  show kvs.foldlM (decodeClientMember zone client) c = kvs.foldlM _ c
  rw [show decodeClientMember zone client = (fieldParts zone client).member from funext fun c => funext fun kv => fieldParts_member zone client c kv]

/-- The tags of a struct: of letters and digits, and different even without regard to case. -/
def FoldedOk (client : List (F × FieldDecl)) : Prop :=
  Lettered client ∧ (client.map (·.1)).Nodup ∧ (client.map fun p => foldKey p.2.json).Nodup

instance (client : List (F × FieldDecl)) : Decidable (FoldedOk client) := by unfold FoldedOk; infer_instance

theorem inj_of_nodup {α β : Type} {f : α → β} {l : List α} (h : (l.map f).Nodup) {x y : α} (hx : x ∈ l) (hy : y ∈ l) (hf : f x = f y) : x = y := by
  induction l with
  | nil => cases hx
  | cons z l ih =>
    rw [List.map_cons, List.nodup_cons] at h
    rcases List.mem_cons.1 hx with rfl | hx
    · rcases List.mem_cons.1 hy with rfl | hy
      · rfl
      · exact absurd (List.mem_map.2 ⟨y, hy, hf.symm⟩) h.1
    · rcases List.mem_cons.1 hy with e | hy
      · exact absurd (List.mem_map.2 ⟨x, hx, by rw [hf, e]⟩) h.1
      · exact ih h.2 hx hy

theorem fieldOf_folded {client : List (F × FieldDecl)} (h : FoldedOk client) {p : F × FieldDecl} (hp : p ∈ client) (k : Bytes) :
    fieldOf client k = some p.1 ↔ foldKey k = foldKey p.2.json := by
  have hsome : ∀ f, fieldOf client k = some f → ∃ q ∈ client, q.1 = f ∧ foldKey k = foldKey q.2.json := by
    intro f hf
    unfold fieldOf at hf
    cases h1 : client.find? (fun p => p.2.json = k) with
    | some q =>
      rw [h1] at hf
      exact ⟨q, List.mem_of_find?_eq_some h1, Option.some.inj hf, by rw [show q.2.json = k by simpa using List.find?_some h1]⟩
    | none =>
      rw [h1] at hf
      simp only [Option.map_eq_some_iff] at hf
      obtain ⟨q, h2, rfl⟩ := hf
      exact ⟨q, List.mem_of_find?_eq_some h2, rfl, (show foldKey q.2.json = foldKey k by simpa using List.find?_some h2).symm⟩
  constructor
  · intro hf
    obtain ⟨q, hq, h1, h2⟩ := hsome _ hf
    rw [inj_of_nodup h.2.1 hp hq h1.symm]
    exact h2
  · intro hf
    cases hk : fieldOf client k with
    | none =>
      unfold fieldOf at hk
      split at hk
      · cases hk
      · simp only [Option.map_eq_none_iff, List.find?_eq_none, decide_eq_true_eq] at hk
        exact absurd hf.symm (hk p hp)
    | some f =>
      obtain ⟨q, hq, h1, h2⟩ := hsome _ hk
      rw [← h1, inj_of_nodup h.2.2 hp hq (hf.symm.trans h2)]

theorem named_fields (zone : LocalZone) {client : List (F × FieldDecl)} (h : FoldedOk client) :
    Named (fieldParts zone client) (Spec.clientWords (.fields client)) := by
  have hsp : ∀ p ∈ client, ∀ k, Spec.Spells Spec.foldOthers (Spec.smallWord p.2.json) k ↔ foldKey k = foldKey p.2.json := by
    intro p hp k
    obtain ⟨h1, h2⟩ := smallWord_fold p.2.json (h.1 p hp)
    rw [spells_iff h2, h1]
  constructor
  · intro k i hk
    have hk : fieldOf client k = some i := hk
    by_cases hc : ∃ p ∈ client, foldKey k = foldKey p.2.json
    · obtain ⟨p, hp, hf⟩ := hc
      exact ⟨_, List.mem_map.2 ⟨p, hp, rfl⟩, (hsp p hp k).2 hf⟩
    · exfalso
      have : fieldOf client k = none := by
        apply fieldOf_unknown h.1
        intro p hp hs
        exact hc ⟨p, hp, (hsp p hp k).1 hs⟩
      rw [hk] at this
      cases this
  · intro w hw
    obtain ⟨p, hp, rfl⟩ := List.mem_map.1 hw
    refine ⟨p.1, (fieldOf_folded h hp _).2 (smallWord_fold p.2.json (h.1 p hp)).1, fun k => ?_⟩
    rw [hsp p hp k]
    exact fieldOf_folded h hp k

/-! ### The parts of records and files -/

theorem keyOf_folded {keys : List Bytes} (h : (keys.map foldKey).Nodup) {w : Bytes} (hw : w ∈ keys) (k : Bytes) :
    keyOf keys k = some w ↔ foldKey k = foldKey w := by
  have hsome : ∀ v, keyOf keys k = some v → v ∈ keys ∧ foldKey k = foldKey v := by
    intro v hv
    unfold keyOf at hv
    cases h1 : keys.find? (· = k) with
    | some q =>
      rw [h1] at hv
      cases hv
      exact ⟨List.mem_of_find?_eq_some h1, by rw [show v = k by simpa using List.find?_some h1]⟩
    | none =>
      rw [h1] at hv
      exact ⟨List.mem_of_find?_eq_some hv, (show foldKey v = foldKey k by simpa using List.find?_some hv).symm⟩
  constructor
  · intro hf
    exact (hsome _ hf).2
  · intro hf
    cases hk : keyOf keys k with
    | none =>
      unfold keyOf at hk
      split at hk
      · cases hk
      · simp only [List.find?_eq_none, decide_eq_true_eq] at hk
        exact absurd hf.symm (hk w hw)
    | some v =>
      obtain ⟨h1, h2⟩ := hsome _ hk
      rw [inj_of_nodup h hw h1 (hf.symm.trans h2)]

theorem keyOf_mem {keys : List Bytes} {k v : Bytes} (hv : keyOf keys k = some v) : v ∈ keys ∧ foldKey k = foldKey v := by
  unfold keyOf at hv
  cases h1 : keys.find? (· = k) with
  | some q =>
    rw [h1] at hv
    cases hv
    exact ⟨List.mem_of_find?_eq_some h1, by rw [show v = k by simpa using List.find?_some h1]⟩
  | none =>
    rw [h1] at hv
    exact ⟨List.mem_of_find?_eq_some hv, (show foldKey v = foldKey k by simpa using List.find?_some hv).symm⟩

/-- The names of the parts of a record or a file. -/
theorem named_keys {σ : Type} (P : Parts σ) (keys : List Bytes) (part : Bytes → P.ι) (hk : ∀ k, P.part k = (keyOf keys k).map part)
    (hf : (keys.map foldKey).Nodup) (hw : ∀ w ∈ keys, ∀ c ∈ w, (97 ≤ c ∧ c ≤ 122) ∨ (48 ≤ c ∧ c ≤ 57))
    (hp : ∀ w ∈ keys, ∀ w' ∈ keys, part w = part w' → w = w') : Named P keys := by
  constructor
  · intro k i h
    rw [hk, Option.map_eq_some_iff] at h
    obtain ⟨w, h1, _⟩ := h
    obtain ⟨h2, h3⟩ := keyOf_mem h1
    exact ⟨w, h2, (spells_iff (hw w h2) k).2 h3⟩
  · intro w hwk
    refine ⟨part w, ?_, fun k => ?_⟩
    · rw [hk, (keyOf_folded hf hwk w).2 rfl]
      rfl
    · rw [spells_iff (hw w hwk), ← keyOf_folded hf hwk, hk, Option.map_eq_some_iff]
      constructor
      · rintro ⟨v, h1, h2⟩
        rw [← hp v (keyOf_mem h1).1 w hwk h2]
        exact h1
      · intro h
        exact ⟨w, h, rfl⟩

/-- The parts of a data record. -/
inductive DataPart
  | base | j1 | j2 | k1 | k2 | k3 | k4 | l1 | n1
deriving DecidableEq

/-- The part with this name. -/
def DataPart.of (key : Bytes) : DataPart :=
  if key = b! "base" then .base else if key = b! "j1" then .j1 else if key = b! "j2" then .j2 else if key = b! "k1" then .k1
  else if key = b! "k2" then .k2 else if key = b! "k3" then .k3 else if key = b! "k4" then .k4 else if key = b! "l1" then .l1 else .n1

/-- What the part is. -/
def DataPart.Holds : DataPart → Type
  | .base => ClientRec
  | .j1 | .j2 => List ClientRec
  | _ => Option ClientRec

/-- The parts of a data record. -/
def dataParts (zone : LocalZone) : Parts ClientData where
  ι := DataPart
  A := DataPart.Holds
  get d i := match i with
    | .base => d.base
    | .j1 => d.j1
    | .j2 => d.j2
    | .k1 => d.k1
    | .k2 => d.k2
    | .k3 => d.k3
    | .k4 => d.k4
    | .l1 => d.l1
    | .n1 => d.n1
  set d i := match i with
    | .base => fun x => { d with base := x }
    | .j1 => fun x => { d with j1 := x }
    | .j2 => fun x => { d with j2 := x }
    | .k1 => fun x => { d with k1 := x }
    | .k2 => fun x => { d with k2 := x }
    | .k3 => fun x => { d with k3 := x }
    | .k4 => fun x => { d with k4 := x }
    | .l1 => fun x => { d with l1 := x }
    | .n1 => fun x => { d with n1 := x }
  step i j := match i with
    | .base => fun x => decodeClient zone clientBaseSegment x j
    | .j1 => fun _ => decodeAll (decodeClient zone clientJ1Segment (.zero clientJ1Segment)) j
    | .j2 => fun _ => decodeAll (decodeClient zone clientJ2Segment (.zero clientJ2Segment)) j
    | .k1 => fun x => decodePointer zone .k1 x j
    | .k2 => fun x => decodePointer zone .k2 x j
    | .k3 => fun x => decodePointer zone .k3 x j
    | .k4 => fun x => decodePointer zone .k4 x j
    | .l1 => fun x => decodePointer zone .l1 x j
    | .n1 => fun x => decodePointer zone .n1 x j
  part k := (keyOf clientDataKeys k).map DataPart.of
  get_set s i j x h := by cases i <;> cases j <;> first | exact absurd rfl h | rfl
  set_get s i := by cases i <;> rfl
  set_comm s i j x y h := by cases i <;> cases j <;> first | exact absurd rfl h | rfl

theorem dataParts_member (zone : LocalZone) (d : ClientData) (kv : Bytes × Json) : decodeClientDataMember zone d kv = (dataParts zone).member d kv := by
  obtain ⟨k, v⟩ := kv
  cases hk : keyOf clientDataKeys k with
  | none =>
    refine Eq.trans ?_ ((dataParts zone).member_none (k := k) (by simp only [dataParts, hk, Option.map_none]) d v).symm
    unfold decodeClientDataMember
    simp only [hk]
  | some key =>
    refine Eq.trans ?_ ((dataParts zone).member_some (k := k) (i := DataPart.of key) (by simp only [dataParts, hk, Option.map_some]) d v).symm
    unfold decodeClientDataMember
    simp only [hk]
    have hm := (keyOf_mem hk).1
    simp only [clientDataKeys, List.mem_cons, List.not_mem_nil, or_false] at hm
    rcases hm with rfl | rfl | rfl | rfl | rfl | rfl | rfl | rfl | rfl <;> rfl

/-- A new data record. -/
def newClientData : ClientData := { base := .zero clientBaseSegment }

theorem dataParts_all (zone : LocalZone) (kvs : List (Bytes × Json)) : decodeClientData zone (.obj kvs) = (dataParts zone).all newClientData kvs := by
  show kvs.foldlM (decodeClientDataMember zone) newClientData = kvs.foldlM _ newClientData
  rw [show decodeClientDataMember zone = (dataParts zone).member from funext fun c => funext fun kv => dataParts_member zone c kv]

theorem record_words : Spec.clientWords .record = clientDataKeys := by decide +kernel

theorem dataPart_inj : ∀ w ∈ clientDataKeys, ∀ w' ∈ clientDataKeys, DataPart.of w = DataPart.of w' → w = w' := by decide +kernel

theorem named_data (zone : LocalZone) : Named (dataParts zone) (Spec.clientWords .record) := by
  rw [record_words]
  exact named_keys (dataParts zone) clientDataKeys DataPart.of (fun _ => rfl) (by decide +kernel) (by decide +kernel) dataPart_inj

/-- The parts of a file. -/
inductive FilePart
  | header | data | trailer
deriving DecidableEq

/-- The part with this name. -/
def FilePart.of (key : Bytes) : FilePart := if key = b! "header" then .header else if key = b! "data" then .data else .trailer

/-- What the part is. -/
def FilePart.Holds : FilePart → Type
  | .data => List ClientData
  | _ => ClientRec

/-- The keys of a file. -/
def clientFileKeys : List Bytes := [b! "header", b! "data", b! "trailer"]

/-- The parts of a file. -/
def fileParts (zone : LocalZone) : Parts ClientFile where
  ι := FilePart
  A := FilePart.Holds
  get f i := match i with
    | .header => f.header
    | .data => f.data
    | .trailer => f.trailer
  set f i := match i with
    | .header => fun x => { f with header := x }
    | .data => fun x => { f with data := x }
    | .trailer => fun x => { f with trailer := x }
  step i j := match i with
    | .header => fun x => decodeClient zone clientHeaderRecord x j
    | .data => fun _ => decodeAll (decodeClientData zone) j
    | .trailer => fun x => decodeClient zone clientTrailerRecord x j
  part k := (keyOf clientFileKeys k).map FilePart.of
  get_set s i j x h := by cases i <;> cases j <;> first | exact absurd rfl h | rfl
  set_get s i := by cases i <;> rfl
  set_comm s i j x y h := by cases i <;> cases j <;> first | exact absurd rfl h | rfl

theorem fileParts_member (zone : LocalZone) (f : ClientFile) (kv : Bytes × Json) : decodeClientFileMember zone f kv = (fileParts zone).member f kv := by
  obtain ⟨k, v⟩ := kv
  cases hk : keyOf clientFileKeys k with
  | none =>
    refine Eq.trans ?_ ((fileParts zone).member_none (k := k) (by simp only [fileParts, hk, Option.map_none]) f v).symm
    unfold decodeClientFileMember
    simp only [show keyOf [b! "header", b! "data", b! "trailer"] k = none from hk]
  | some key =>
    refine Eq.trans ?_ ((fileParts zone).member_some (k := k) (i := FilePart.of key) (by simp only [fileParts, hk, Option.map_some]) f v).symm
    unfold decodeClientFileMember
    simp only [show keyOf [b! "header", b! "data", b! "trailer"] k = some key from hk]
    have hm := (keyOf_mem hk).1
    simp only [clientFileKeys, List.mem_cons, List.not_mem_nil, or_false] at hm
    rcases hm with rfl | rfl | rfl <;> rfl

/-- A new file. -/
def newClientFile : ClientFile := ⟨.zero clientHeaderRecord, [], .zero clientTrailerRecord⟩

theorem fileParts_all (zone : LocalZone) (kvs : List (Bytes × Json)) : decodeClientFile zone (.obj kvs) = (fileParts zone).all newClientFile kvs := by
  show kvs.foldlM (decodeClientFileMember zone) newClientFile = kvs.foldlM _ newClientFile
  rw [show decodeClientFileMember zone = (fileParts zone).member from funext fun c => funext fun kv => fileParts_member zone c kv]

theorem file_words : Spec.clientWords .file = clientFileKeys := by decide +kernel

theorem filePart_inj : ∀ w ∈ clientFileKeys, ∀ w' ∈ clientFileKeys, FilePart.of w = FilePart.of w' → w = w' := by decide +kernel

theorem named_file (zone : LocalZone) : Named (fileParts zone) (Spec.clientWords .file) := by
  rw [file_words]
  exact named_keys (fileParts zone) clientFileKeys FilePart.of (fun _ => rfl) (by decide +kernel) (by decide +kernel) filePart_inj

/-! ### Documents -/

/-- The client makes the same of both. -/
def ClientReads (zone : LocalZone) (fresh : Bool) : Spec.ClientPlace → Json → Json → Prop
  | .file, j, j' => decodeClientFile zone j = decodeClientFile zone j'
  | .data, j, j' => decodeAll (decodeClientData zone) j = decodeAll (decodeClientData zone) j'
  | .record, j, j' => decodeClientData zone j = decodeClientData zone j'
  | .segments k, j, j' =>
    decodeAll (decodeClient zone (clientSegment k) (.zero (clientSegment k))) j = decodeAll (decodeClient zone (clientSegment k) (.zero (clientSegment k))) j'
  | .fields client, j, j' => ∀ c, (fresh = true → c = .zero client) → decodeClient zone client c j = decodeClient zone client c j'

theorem ClientReads.refl (zone : LocalZone) (fresh : Bool) (p : Spec.ClientPlace) (j : Json) : ClientReads zone fresh p j j := by
  cases p with
  | fields => exact fun _ _ => rfl
  | _ => exact rfl

theorem ClientReads.symm {zone : LocalZone} {fresh : Bool} {p : Spec.ClientPlace} {j j' : Json} (h : ClientReads zone fresh p j j') :
    ClientReads zone fresh p j' j := by
  cases p with
  | fields => exact fun c hc => (h c hc).symm
  | _ => exact Eq.symm h

theorem ClientReads.trans {zone : LocalZone} {fresh : Bool} {p : Spec.ClientPlace} {j j' j'' : Json} (h : ClientReads zone fresh p j j')
    (h' : ClientReads zone fresh p j' j'') : ClientReads zone fresh p j j'' := by
  cases p with
  | fields => exact fun c hc => (h c hc).trans (h' c hc)
  | _ => exact Eq.trans h h'

/-- The places of fields have good names. -/
def ClientGood : Spec.ClientPlace → Prop
  | .fields client => FoldedOk client
  | _ => True

theorem folded_seg (k : SegKind) : FoldedOk (clientSegment k) := by cases k <;> decide +kernel

theorem clientInside_good {p q : Spec.ClientPlace} {w : String} (h : Spec.ClientInside p w q) : ClientGood q := by
  cases h
  · exact (by decide +kernel : FoldedOk clientHeaderRecord)
  · trivial
  · exact (by decide +kernel : FoldedOk clientTrailerRecord)
  · exact (by decide +kernel : FoldedOk clientBaseSegment)
  · trivial
  · trivial
  · exact folded_seg .k1
  · exact folded_seg .k2
  · exact folded_seg .k3
  · exact folded_seg .k4
  · exact folded_seg .l1
  · exact folded_seg .n1

theorem clientElement_good {p q : Spec.ClientPlace} (h : Spec.ClientElement p q) : ClientGood q := by
  cases h
  · trivial
  · exact folded_seg _

/-- `null` is only like `null`. -/
theorem clientAlike_null {fresh : Bool} {p : Spec.ClientPlace} {j j' : Json} (h : Spec.ClientAlike fresh p j j') : j = .null ↔ j' = .null := by
  induction h with
  | refl => exact Iff.rfl
  | symm _ ih => exact ih.symm
  | trans _ _ ih1 ih2 => exact ih1.trans ih2
  | swap => simp
  | rename => simp
  | extra => simp
  | null => simp
  | member => simp
  | element => simp

/-- What a segment behind a pointer is before it is read. -/
def pointed (k : SegKind) : Option ClientRec → ClientRec
  | some c => c
  | none => .zero (clientSegment k)

theorem decodePointer_value (zone : LocalZone) (k : SegKind) (x : Option ClientRec) (w : Json) (hw : w ≠ .null) :
    decodePointer zone k x w = (decodeClient zone (clientSegment k) (pointed k x) w).map some := by
  cases w with
  | null => exact absurd rfl hw
  | _ => cases x <;> rfl

theorem decodePointer_alike {zone : LocalZone} {k : SegKind} {v v' : Json} (hn : v = .null ↔ v' = .null) {x : Option ClientRec}
    (h : decodeClient zone (clientSegment k) (pointed k x) v = decodeClient zone (clientSegment k) (pointed k x) v') :
    decodePointer zone k x v = decodePointer zone k x v' := by
  by_cases hv : v = .null
  · rw [hv, hn.1 hv]
  · rw [decodePointer_value zone k x v hv, decodePointer_value zone k x v' (fun h => hv (hn.2 h)), h]

theorem fieldParts_null (zone : LocalZone) (client : List (F × FieldDecl)) (i : F) :
    (fieldParts zone client).step i .null (ClientRec.zero client i) = some (ClientRec.zero client i) := by
  cases hl : client.lookup i with
  | none => simp only [fieldParts, hl]
  | some d =>
    simp only [fieldParts, hl, decodeClientVal, ClientRec.zero]
    cases d.omitempty <;> rfl

/-- A rule for all members of a place. -/
theorem reads_all {zone : LocalZone} {fresh : Bool} {p : Spec.ClientPlace} (hp : ClientGood p) {x y : List (Bytes × Json)}
    (h : ∀ {σ : Type} (P : Parts σ) (s : σ), Named P (Spec.clientWords p) → (fresh = true → ∀ i, (∃ k, P.part k = some i) → P.step i .null (P.get s i) = some (P.get s i)) →
      P.all s x = P.all s y) (hk : p ≠ .data) (hk' : ∀ k, p ≠ .segments k) : ClientReads zone fresh p (.obj x) (.obj y) := by
  cases p with
  | data => exact absurd rfl hk
  | segments k => exact absurd rfl (hk' k)
  | file =>
    show decodeClientFile zone _ = decodeClientFile zone _
    rw [fileParts_all, fileParts_all]
    refine h _ _ (named_file zone) fun _ i _ => ?_
    cases i <;> rfl
  | record =>
    show decodeClientData zone _ = decodeClientData zone _
    rw [dataParts_all, dataParts_all]
    refine h _ _ (named_data zone) fun _ i _ => ?_
    cases i <;> rfl
  | fields client =>
    intro c hc
    rw [fieldParts_all, fieldParts_all]
    refine h _ _ (named_fields zone hp) fun hf i _ => ?_
    rw [hc hf]
    exact fieldParts_null zone client i

theorem decodeAll_element {α : Type} {f : Json → Option α} {v v' : Json} (h : f v = f v') (a b : List Json) :
    decodeAll f (.arr (a ++ v :: b)) = decodeAll f (.arr (a ++ v' :: b)) := by
  show decodeAll.go f _ = decodeAll.go f _
  induction a with
  | nil => simp only [List.nil_append, decodeAll.go, h]
  | cons x a ih => simp only [List.cons_append, decodeAll.go, ih]

theorem reads_of_alike (zone : LocalZone) {fresh : Bool} {p : Spec.ClientPlace} {j j' : Json} (h : Spec.ClientAlike fresh p j j') (hp : ClientGood p) :
    ClientReads zone fresh p j j' := by
  induction h with
  | refl => exact .refl ..
  | symm _ ih => exact (ih hp).symm
  | trans _ _ ih1 ih2 => exact (ih1 hp).trans (ih2 hp)
  | @swap fresh p a b k k' v v' hw =>
    cases p with
    | data => exact rfl
    | segments => exact rfl
    | _ =>
      refine reads_all hp ?_ (by simp) (by simp)
      intro σ P s hn _
      exact P.all_swap (hn.apart hw) s a b v v'
  | @rename fresh p a b k k' w v hw h1 h2 =>
    cases p with
    | data => exact rfl
    | segments => exact rfl
    | _ =>
      refine reads_all hp ?_ (by simp) (by simp)
      intro σ P s hn _
      obtain ⟨i, _, h3⟩ := hn.meant w hw
      exact P.all_rename (((h3 k).2 h1).trans ((h3 k').2 h2).symm) s a b v
  | @extra fresh p a b k v hw =>
    cases p with
    | data => exact rfl
    | segments => exact rfl
    | _ =>
      refine reads_all hp ?_ (by simp) (by simp)
      intro σ P s hn _
      exact (P.all_extra (hn.unknown hw) s a b v).symm
  | @null p a b k w hw hs ha =>
    cases p with
    | data => exact rfl
    | segments => exact rfl
    | _ =>
      refine reads_all hp ?_ (by simp) (by simp)
      intro σ P s hn h0
      obtain ⟨i, h1, h2⟩ := hn.meant w hw
      exact (P.all_null ((h2 k).2 hs) s (h0 rfl i ⟨w, h1⟩) a b fun kv hkv h => ha kv hkv ((h2 kv.1).1 h)).symm
  | @element fresh p q a b v v' he _ ih =>
    have ih := ih (clientElement_good he)
    cases he with
    | record => exact decodeAll_element ih a b
    | segment k => exact decodeAll_element (ih _ fun _ => rfl) a b
  | @member fresh inner p q a b k w v v' hi hs ha hal ih =>
    have ih := ih (clientInside_good hi)
    have hnull := clientAlike_null hal
    have hkeys : ∀ {σ : Type} (P : Parts σ) (s : σ) (i : P.ι), Named P (Spec.clientWords p) → w.toUTF8.data.toList ∈ Spec.clientWords p →
        P.part w.toUTF8.data.toList = some i →
        (∀ x, (inner = true → x = P.get s i) → P.step i v x = P.step i v' x) → P.all s (a ++ (k, v) :: b) = P.all s (a ++ (k, v') :: b) := by
      intro σ P s i hn hw hpi hstep
      obtain ⟨i', h1, h2⟩ := hn.meant _ hw
      rw [hpi] at h1
      cases h1
      refine P.all_member ((h2 k).2 hs) s v v' a b ?_
      cases inner with
      | false => exact Or.inl fun x => hstep x (fun h => by cases h)
      | true => exact Or.inr ⟨hstep _ fun _ => rfl, fun kv hkv h => ha rfl kv hkv ((h2 kv.1).1 h)⟩
    have hptr : ∀ (kk : SegKind), (∀ c, (inner = true → c = .zero (clientSegment kk)) → decodeClient zone (clientSegment kk) c v =
        decodeClient zone (clientSegment kk) c v') → ∀ x : Option ClientRec, (inner = true → x = none) →
        decodePointer zone kk x v = decodePointer zone kk x v' := by
      intro kk h x hx
      refine decodePointer_alike hnull (h _ fun hin => ?_)
      rw [hx hin]
      rfl
    cases hi with
    | header =>
      show decodeClientFile zone _ = decodeClientFile zone _
      rw [fileParts_all, fileParts_all]
      exact hkeys (fileParts zone) newClientFile .header (named_file zone) (by decide +kernel)
        (show (keyOf clientFileKeys "header".toUTF8.data.toList).map FilePart.of = some .header by decide +kernel) fun x hx => ih x hx
    | data =>
      show decodeClientFile zone _ = decodeClientFile zone _
      rw [fileParts_all, fileParts_all]
      exact hkeys (fileParts zone) newClientFile .data (named_file zone) (by decide +kernel)
        (show (keyOf clientFileKeys "data".toUTF8.data.toList).map FilePart.of = some .data by decide +kernel) fun x hx => ih
    | trailer =>
      show decodeClientFile zone _ = decodeClientFile zone _
      rw [fileParts_all, fileParts_all]
      exact hkeys (fileParts zone) newClientFile .trailer (named_file zone) (by decide +kernel)
        (show (keyOf clientFileKeys "trailer".toUTF8.data.toList).map FilePart.of = some .trailer by decide +kernel) fun x hx => ih x hx
    | base =>
      show decodeClientData zone _ = decodeClientData zone _
      rw [dataParts_all, dataParts_all]
      exact hkeys (dataParts zone) newClientData .base (named_data zone) (by decide +kernel)
        (show (keyOf clientDataKeys "base".toUTF8.data.toList).map DataPart.of = some .base by decide +kernel) fun x hx => ih x hx
    | j1 =>
      show decodeClientData zone _ = decodeClientData zone _
      rw [dataParts_all, dataParts_all]
      exact hkeys (dataParts zone) newClientData .j1 (named_data zone) (by decide +kernel)
        (show (keyOf clientDataKeys "j1".toUTF8.data.toList).map DataPart.of = some .j1 by decide +kernel) fun x hx => ih
    | j2 =>
      show decodeClientData zone _ = decodeClientData zone _
      rw [dataParts_all, dataParts_all]
      exact hkeys (dataParts zone) newClientData .j2 (named_data zone) (by decide +kernel)
        (show (keyOf clientDataKeys "j2".toUTF8.data.toList).map DataPart.of = some .j2 by decide +kernel) fun x hx => ih
    | k1 =>
      show decodeClientData zone _ = decodeClientData zone _
      rw [dataParts_all, dataParts_all]
      exact hkeys (dataParts zone) newClientData .k1 (named_data zone) (by decide +kernel)
        (show (keyOf clientDataKeys "k1".toUTF8.data.toList).map DataPart.of = some .k1 by decide +kernel) (hptr .k1 ih)
    | k2 =>
      show decodeClientData zone _ = decodeClientData zone _
      rw [dataParts_all, dataParts_all]
      exact hkeys (dataParts zone) newClientData .k2 (named_data zone) (by decide +kernel)
        (show (keyOf clientDataKeys "k2".toUTF8.data.toList).map DataPart.of = some .k2 by decide +kernel) (hptr .k2 ih)
    | k3 =>
      show decodeClientData zone _ = decodeClientData zone _
      rw [dataParts_all, dataParts_all]
      exact hkeys (dataParts zone) newClientData .k3 (named_data zone) (by decide +kernel)
        (show (keyOf clientDataKeys "k3".toUTF8.data.toList).map DataPart.of = some .k3 by decide +kernel) (hptr .k3 ih)
    | k4 =>
      show decodeClientData zone _ = decodeClientData zone _
      rw [dataParts_all, dataParts_all]
      exact hkeys (dataParts zone) newClientData .k4 (named_data zone) (by decide +kernel)
        (show (keyOf clientDataKeys "k4".toUTF8.data.toList).map DataPart.of = some .k4 by decide +kernel) (hptr .k4 ih)
    | l1 =>
      show decodeClientData zone _ = decodeClientData zone _
      rw [dataParts_all, dataParts_all]
      exact hkeys (dataParts zone) newClientData .l1 (named_data zone) (by decide +kernel)
        (show (keyOf clientDataKeys "l1".toUTF8.data.toList).map DataPart.of = some .l1 by decide +kernel) (hptr .l1 ih)
    | n1 =>
      show decodeClientData zone _ = decodeClientData zone _
      rw [dataParts_all, dataParts_all]
      exact hkeys (dataParts zone) newClientData .n1 (named_data zone) (by decide +kernel)
        (show (keyOf clientDataKeys "n1".toUTF8.data.toList).map DataPart.of = some .n1 by decide +kernel) (hptr .n1 ih)

end Metro2
