import Verif.Spec.JsonState
import Verif.Lemmas.ClientExtra
import Verif.Props.Reading
import Verif.Lemmas.JsonOrder

/-! C103: what a JSON document leaves behind when it is refused. -/

namespace Metro2

open Samples

/-! ### One member -/

theorem folded_header : FoldedOk headerRecordStruct := by decide +kernel
theorem folded_trailer : FoldedOk trailerRecordStruct := by decide +kernel

theorem namesField_iff {decl : List (F × FieldDecl)} (hd : FoldedOk decl) {p : F × FieldDecl} (hp : p ∈ decl) (k : Bytes) :
    Spec.NamesField p k ↔ fieldOf decl k = some p.1 := by
  obtain ⟨h1, h2⟩ := smallWord_fold p.2.json (hd.1 p hp)
  rw [fieldOf_folded hd hp, Spec.NamesField, spells_iff h2, h1]

theorem decodeVal_suits {env : JsonEnv} {old v : Val} {k : Kind} {j : Json} (ho : old.hasKind k = true) (h : Spec.Suits env k j v) :
    decodeVal env old j = some v := by
  cases h with
  | int h => cases old <;> simp_all [Val.hasKind, decodeVal]
  | int64 h => cases old <;> simp_all [Val.hasKind, decodeVal]
  | str s => cases old <;> simp_all [Val.hasKind, decodeVal]
  | time h => cases old <;> simp_all [Val.hasKind, decodeVal]

theorem decodeVal_passes {env : JsonEnv} {old : Val} {k : Kind} {j : Json} (ho : old.hasKind k = true) (h : Spec.Passes k j) :
    decodeVal env old j = some old := by
  cases h <;> cases old <;> simp_all [Val.hasKind, decodeVal]

theorem decodeVal_inv {env : JsonEnv} {old v : Val} {k : Kind} {j : Json} (ho : old.hasKind k = true) (h : decodeVal env old j = some v) :
    Spec.Suits env k j v ∨ Spec.Passes k j := by
  cases old with
  | int i =>
    cases j with
    | num lit =>
      simp only [decodeVal] at h
      split at h
      · next w hw =>
        cases h
        cases k with
        | int => exact .inl (.int hw)
        | int64 => exact .inl (.int64 hw)
        | str => cases ho
        | time => cases ho
      · cases h
    | null =>
      cases k with
      | int => exact .inr .int
      | int64 => exact .inr .int64
      | str => cases ho
      | time => cases ho
    | _ => cases h
  | str s =>
    cases k with
    | str =>
      cases j with
      | str x => cases h; exact .inl (.str x)
      | null => exact .inr .str
      | _ => cases h
    | _ => cases ho
  | time t =>
    cases k with
    | time =>
      simp only [decodeVal, Option.map_eq_some_iff] at h
      obtain ⟨t', h, rfl⟩ := h
      exact .inl (.time h)
    | _ => cases ho

theorem suits_kind {env : JsonEnv} {v : Val} {k : Kind} {j : Json} (h : Spec.Suits env k j v) : v.hasKind k = true := by
  cases h <;> rfl

theorem decodeVal_refuses {env : JsonEnv} {old : Val} {k : Kind} {j : Json} (ho : old.hasKind k = true) :
    decodeVal env old j = none ↔ Spec.Refuses env k j := by
  constructor
  · intro h
    constructor
    · intro hp
      rw [decodeVal_passes ho hp] at h
      cases h
    · intro v hs
      rw [decodeVal_suits ho hs] at h
      cases h
  · rintro ⟨h1, h2⟩
    cases hv : decodeVal env old j with
    | none => rfl
    | some v =>
      rcases decodeVal_inv ho hv with h | h
      · exact absurd h (h2 v)
      · exact absurd h h1

/-- What a member does to a struct. -/
inductive Did (env : JsonEnv) (decl : List (F × FieldDecl)) (fs : Fields) (kv : Bytes × Json) : MemberStep → Prop
  | unknown (h : ∀ p ∈ decl, ¬ Spec.NamesField p kv.1) : Did env decl fs kv (.done fs)
  | puts {p : F × FieldDecl} {v : Val} (hp : p ∈ decl) (hn : Spec.NamesField p kv.1) (h : Spec.Suits env p.2.kind kv.2 v) : Did env decl fs kv (.done (fs.set p.1 v))
  | passes {p : F × FieldDecl} {v : Val} (hp : p ∈ decl) (hn : Spec.NamesField p kv.1) (h : Spec.Passes p.2.kind kv.2) (hv : fs.get p.1 = some v) :
      Did env decl fs kv (.done (fs.set p.1 v))
  | wrong {p : F × FieldDecl} (hp : p ∈ decl) (hn : Spec.NamesField p kv.1) (hk : p.2.kind ≠ .time) (h : Spec.Refuses env p.2.kind kv.2) : Did env decl fs kv .wrong
  | stop {p : F × FieldDecl} (hp : p ∈ decl) (hn : Spec.NamesField p kv.1) (hk : p.2.kind = .time) (h : Spec.Refuses env .time kv.2) :
      Did env decl fs kv (.stop (fs.set p.1 (.time Time.zero)))

theorem fieldOf_mem {decl : List (F × FieldDecl)} {k : Bytes} {f : F} (h : fieldOf decl k = some f) : ∃ p ∈ decl, p.1 = f := by
  unfold fieldOf at h
  split at h
  · next q hq => cases h; exact ⟨q, List.mem_of_find?_eq_some hq, rfl⟩
  · simp only [Option.map_eq_some_iff] at h
    obtain ⟨q, hq, rfl⟩ := h
    exact ⟨q, List.mem_of_find?_eq_some hq, rfl⟩

theorem memberStep_did {env : JsonEnv} {decl : List (F × FieldDecl)} (hd : FoldedOk decl) {fs : Fields} (ht : fs.Typed decl) (kv : Bytes × Json) :
    Did env decl fs kv (memberStep env decl fs kv) := by
  unfold memberStep
  cases hf : fieldOf decl kv.1 with
  | none =>
    simp only
    exact .unknown fun p hp hn => by rw [(namesField_iff hd hp _).1 hn] at hf; cases hf
  | some f =>
    obtain ⟨p, hp, rfl⟩ := fieldOf_mem hf
    have hn := (namesField_iff hd hp _).2 hf
    obtain ⟨old, ho, hk⟩ := ht.get hd.2.1 (f := p.1) (d := p.2) hp
    simp only [ho]
    cases hv : decodeVal env old kv.2 with
    | some v =>
      simp only
      rcases decodeVal_inv hk hv with h | h
      · exact .puts hp hn h
      · have := decodeVal_passes (env := env) hk h
        rw [hv] at this
        cases this
        exact .passes hp hn h ho
    | none =>
      have hr := (decodeVal_refuses hk).1 hv
      cases old with
      | time t =>
        have : p.2.kind = .time := by
          revert hk
          cases p.2.kind <;> simp [Val.hasKind]
        exact .stop hp hn this (this ▸ hr)
      | int i => exact .wrong hp hn (fun h => by rw [h] at hk; cases hk) hr
      | str s => exact .wrong hp hn (fun h => by rw [h] at hk; cases hk) hr

theorem memberStep_typed {env : JsonEnv} {decl : List (F × FieldDecl)} (hd : FoldedOk decl) {fs : Fields} (ht : fs.Typed decl) (kv : Bytes × Json) :
    match memberStep env decl fs kv with
    | .done gs => gs.Typed decl
    | .wrong => True
    | .stop gs => gs.Typed decl := by
  have hset : ∀ p ∈ decl, ∀ v : Val, v.hasKind p.2.kind = true → (fs.set p.1 v).Typed decl := by
    intro p hp v hv
    refine ht.set fun d hd' => ?_
    have : d = p.2 := congrArg Prod.snd (inj_of_nodup hd.2.1 hd' hp rfl)
    rw [this]; exact hv
  have h := memberStep_did (env := env) hd ht kv
  generalize memberStep env decl fs kv = s at h
  cases h with
  | unknown h => exact ht
  | @puts p v hp hn h =>
    exact hset p hp v (suits_kind h)
  | @passes p v hp hn h hv =>
    obtain ⟨w, hw, hk⟩ := ht.get hd.2.1 (f := p.1) (d := p.2) hp
    rw [hv] at hw
    cases hw
    exact hset p hp v hk
  | wrong => trivial
  | @stop p hp hn hk h => exact hset p hp _ (by rw [hk]; rfl)

theorem membersState_typed {env : JsonEnv} {decl : List (F × FieldDecl)} (hd : FoldedOk decl) (kvs : List (Bytes × Json)) :
    ∀ {fs : Fields}, fs.Typed decl → ∀ b, (membersState env decl fs b kvs).1.Typed decl := by
  induction kvs with
  | nil => intro fs ht b; exact ht
  | cons kv kvs ih =>
    intro fs ht b
    have h := memberStep_typed (env := env) hd ht kv
    rw [membersState]
    split <;> rename_i hs <;> rw [hs] at h
    · exact ih h b
    · exact ih ht true
    · exact h

theorem structState_typed {env : JsonEnv} {decl : List (F × FieldDecl)} (hd : FoldedOk decl) {fs : Fields} (ht : fs.Typed decl) (j : Json) :
    (structState env decl fs j).1.Typed decl := by
  cases j with
  | obj kvs => exact membersState_typed hd kvs ht false
  | _ => exact ht

/-! ### Success -/

theorem memberStep_decode (env : JsonEnv) (decl : List (F × FieldDecl)) (fs : Fields) (kv : Bytes × Json) :
    (∀ gs, memberStep env decl fs kv = .done gs ↔ decodeMember env decl fs kv = some gs) ∧
    ((memberStep env decl fs kv = .wrong ∨ ∃ gs, memberStep env decl fs kv = .stop gs) ↔ decodeMember env decl fs kv = none) := by
  unfold memberStep decodeMember
  cases fieldOf decl kv.1 with
  | none => simp
  | some f =>
    simp only
    cases fs.get f with
    | none => simp
    | some old =>
      simp only
      cases decodeVal env old kv.2 with
      | some v => simp
      | none => cases old <;> simp

theorem membersState_failed (env : JsonEnv) (decl : List (F × FieldDecl)) (kvs : List (Bytes × Json)) :
    ∀ fs, (membersState env decl fs true kvs).2 = true := by
  induction kvs with
  | nil => intro fs; rfl
  | cons kv kvs ih => intro fs; rw [membersState]; split <;> first | exact ih _ | rfl

theorem membersState_ok (env : JsonEnv) (decl : List (F × FieldDecl)) (kvs : List (Bytes × Json)) :
    ∀ fs gs, membersState env decl fs false kvs = (gs, false) ↔ kvs.foldlM (decodeMember env decl) fs = some gs := by
  induction kvs with
  | nil => intro fs gs; simp [membersState]
  | cons kv kvs ih =>
    intro fs gs
    obtain ⟨h1, h2⟩ := memberStep_decode env decl fs kv
    rw [membersState, List.foldlM_cons]
    cases hs : memberStep env decl fs kv with
    | done fs' =>
      rw [(h1 fs').1 hs]
      exact ih fs' gs
    | wrong =>
      rw [h2.1 (.inl hs)]
      have := membersState_failed env decl kvs fs
      constructor
      · intro h; simp only at h; rw [h] at this; cases this
      · intro h; cases h
    | stop fs' =>
      rw [h2.1 (.inr ⟨_, hs⟩)]
      constructor
      · intro h; cases h
      · intro h; cases h

theorem structState_ok (env : JsonEnv) (decl : List (F × FieldDecl)) (fs gs : Fields) (j : Json) :
    structState env decl fs j = (gs, false) ↔ decodeStruct env decl fs j = some gs := by
  cases j with
  | obj kvs => exact membersState_ok env decl kvs fs gs
  | null => simp [structState, decodeStruct]
  | _ => simp [structState, decodeStruct]

theorem segsState_ok (env : JsonEnv) (name : Bytes) (xs : List Json) :
    ∀ g g', segsState env name g xs = (g', false) ↔ xs.foldlM (decodeSeg env name) g = some g' := by
  induction xs with
  | nil => intro g g'; simp [segsState]
  | cons x xs ih =>
    intro g g'
    rw [segsState, List.foldlM_cons]
    cases decodeSeg env name g x with
    | none => simp
    | some g1 => exact ih g1 g'

theorem baseEntryState_ok (env : JsonEnv) (r r' : Fields × Segs) (kv : Bytes × Json) :
    baseEntryState env r kv = (r', false) ↔ decodeBaseEntry env r kv = some r' := by
  unfold baseEntryState decodeBaseEntry
  split
  · cases decodeStruct env baseSegmentStruct (zeroFields baseSegmentStruct) kv.2 <;> simp
  · split
    · cases decodeList env kv.2 with
      | none => simp
      | some xs =>
        simp only [Option.map_eq_some_iff]
        constructor
        · intro h
          have h' := Prod.mk.inj h
          refine ⟨(segsState env kv.1 r.2 xs).1, (segsState_ok env kv.1 xs r.2 _).1 (Prod.ext rfl h'.2), h'.1⟩
        · rintro ⟨g, hg, rfl⟩
          rw [(segsState_ok env kv.1 xs r.2 g).2 hg]
    · cases decodeSeg env kv.1 r.2 kv.2 <;> simp

theorem baseEntriesState_ok (env : JsonEnv) (kvs : List (Bytes × Json)) :
    ∀ r r', baseEntriesState env r kvs = (r', false) ↔ kvs.foldlM (decodeBaseEntry env) r = some r' := by
  induction kvs with
  | nil => intro r r'; simp [baseEntriesState]
  | cons kv kvs ih =>
    intro r r'
    rw [baseEntriesState, List.foldlM_cons]
    cases hs : baseEntryState env r kv with
    | mk r1 b =>
      cases b with
      | true =>
        have : decodeBaseEntry env r kv = none := by
          cases hd : decodeBaseEntry env r kv with
          | none => rfl
          | some r2 => rw [(baseEntryState_ok env r r2 kv).2 hd] at hs; cases hs
        rw [this]
        simp
      | false =>
        rw [(baseEntryState_ok env r r1 kv).1 hs]
        exact ih r1 r'

theorem basesState_ok (env : JsonEnv) (visits : Nat → List (Bytes × Json) → List (Bytes × Json)) (enc : Enc) (xs : List Json) :
    ∀ n acc bs, basesState env visits enc n xs acc = (bs, false) ↔ decodeBases env visits enc n xs acc = some bs := by
  induction xs with
  | nil => intro n acc bs; simp [basesState, decodeBases]
  | cons x xs ih =>
    intro n acc bs
    rw [basesState, decodeBases]
    cases (newBase enc).ofJson env (visits n) x with
    | none => simp
    | some b => exact ih (n + 1) (acc ++ [b]) bs

/-- C103, records: a record is read without error if and only if the document is accepted, and then it holds what it should. -/
theorem C103_success_record (env : JsonEnv) (visit : List (Bytes × Json) → List (Bytes × Json)) (r r' : Record) (j : Json) :
    r.jsonState env visit j = (r', false) ↔ r.ofJson env visit j = some r' := by
  cases r with
  | header e fs =>
    simp only [Record.jsonState, Record.ofJson, Option.map_eq_some_iff]
    constructor
    · intro h
      have h' := Prod.mk.inj h
      exact ⟨_, (structState_ok env _ fs _ j).1 (Prod.ext rfl h'.2), h'.1⟩
    · rintro ⟨gs, hg, rfl⟩
      rw [(structState_ok env _ fs gs j).2 hg]
  | trailer e fs =>
    simp only [Record.jsonState, Record.ofJson, Option.map_eq_some_iff]
    constructor
    · intro h
      have h' := Prod.mk.inj h
      exact ⟨_, (structState_ok env _ fs _ j).1 (Prod.ext rfl h'.2), h'.1⟩
    · rintro ⟨gs, hg, rfl⟩
      rw [(structState_ok env _ fs gs j).2 hg]
  | base e fs g =>
    simp only [Record.jsonState, Record.ofJson, decodeBase]
    cases decodeMap env j with
    | none => simp
    | some kvs =>
      simp only [Option.map_eq_some_iff]
      constructor
      · intro h
        have h' := Prod.mk.inj h
        exact ⟨_, (baseEntriesState_ok env (visit kvs) _ _).1 (Prod.ext rfl h'.2), h'.1⟩
      · rintro ⟨p, hp, rfl⟩
        rw [(baseEntriesState_ok env (visit kvs) _ p).2 hp]

theorem fileEntryState_ok (env : JsonEnv) (visits : Nat → List (Bytes × Json) → List (Bytes × Json)) (f g : File) (kv : Bytes × Json) :
    fileEntryState env visits f kv = (g, false) ↔ decodeFileEntry env visits f kv = some g := by
  unfold fileEntryState decodeFileEntry
  split
  · simp only [Option.map_eq_some_iff]
    constructor
    · intro h
      have h' := Prod.mk.inj h
      exact ⟨_, (C103_success_record env _ f.header _ _).1 (Prod.ext rfl h'.2), h'.1⟩
    · rintro ⟨r, hr, rfl⟩
      rw [(C103_success_record env _ f.header r _).2 hr]
  · split
    · simp only [Option.map_eq_some_iff]
      constructor
      · intro h
        have h' := Prod.mk.inj h
        exact ⟨_, (C103_success_record env _ f.trailer _ _).1 (Prod.ext rfl h'.2), h'.1⟩
      · rintro ⟨r, hr, rfl⟩
        rw [(C103_success_record env _ f.trailer r _).2 hr]
    · split
      · cases decodeList env kv.2 with
        | none => simp
        | some xs =>
          simp only [Option.map_eq_some_iff]
          constructor
          · intro h
            have h' := Prod.mk.inj h
            exact ⟨_, (basesState_ok env visits _ xs _ _ _).1 (Prod.ext rfl h'.2), h'.1⟩
          · rintro ⟨bs, hb, rfl⟩
            rw [(basesState_ok env visits _ xs _ _ bs).2 hb]
      · simp

theorem fileEntriesState_ok (env : JsonEnv) (visits : Nat → List (Bytes × Json) → List (Bytes × Json)) (kvs : List (Bytes × Json)) :
    ∀ f g, fileEntriesState env visits f kvs = (g, false) ↔ kvs.foldlM (decodeFileEntry env visits) f = some g := by
  induction kvs with
  | nil => intro f g; simp [fileEntriesState]
  | cons kv kvs ih =>
    intro f g
    rw [fileEntriesState, List.foldlM_cons]
    cases hs : fileEntryState env visits f kv with
    | mk f1 b =>
      cases b with
      | true =>
        have : decodeFileEntry env visits f kv = none := by
          cases hd : decodeFileEntry env visits f kv with
          | none => rfl
          | some f2 => rw [(fileEntryState_ok env visits f f2 kv).2 hd] at hs; cases hs
        rw [this]
        simp
      | false =>
        rw [(fileEntryState_ok env visits f f1 kv).1 hs]
        exact ih f1 g

/-- C103, files: a file is read without error if and only if the document is accepted, and then it holds what it should. -/
theorem C103_success (env : JsonEnv) (visits : Nat → List (Bytes × Json) → List (Bytes × Json)) (f g : File) (j : Json) :
    f.jsonState env visits j = (g, false) ↔ f.ofJson env visits j = some g := by
  unfold File.jsonState File.ofJson
  cases decodeMap env j with
  | none => simp
  | some kvs => exact fileEntriesState_ok env visits (visits 0 kvs) f g

/-! ### Verdict and values -/

theorem namesField_unique {decl : List (F × FieldDecl)} (hd : FoldedOk decl) {p q : F × FieldDecl} (hp : p ∈ decl) (hq : q ∈ decl) {k : Bytes}
    (h : Spec.NamesField p k) (h' : Spec.NamesField q k) : p = q := by
  have h1 := (namesField_iff hd hp k).1 h
  rw [(namesField_iff hd hq k).1 h'] at h1
  exact inj_of_nodup hd.2.1 hp hq (Option.some.inj h1).symm

theorem passes_suits {env : JsonEnv} {k : Kind} {j : Json} {v : Val} (h : Spec.Passes k j) (h' : Spec.Suits env k j v) : False := by
  cases h <;> cases h'

theorem suits_refuses {env : JsonEnv} {k : Kind} {j : Json} {v : Val} (h : Spec.Suits env k j v) : ¬ Spec.Refuses env k j := fun hr => hr.2 v h

theorem membersState_verdict {env : JsonEnv} {decl : List (F × FieldDecl)} (hd : FoldedOk decl) (kvs : List (Bytes × Json)) :
    ∀ {fs : Fields}, fs.Typed decl → ((membersState env decl fs false kvs).2 = true ↔ ∃ kv ∈ kvs, Spec.BadMember env decl kv) := by
  induction kvs with
  | nil => intro fs ht; simp [membersState]
  | cons kv kvs ih =>
    intro fs ht
    have h := memberStep_did (env := env) hd ht kv
    have h2 := memberStep_typed (env := env) hd ht kv
    have good : ¬ Spec.BadMember env decl kv → ∀ gs : Fields, gs.Typed decl →
        ((membersState env decl gs false kvs).2 = true ↔ ∃ x ∈ kv :: kvs, Spec.BadMember env decl x) := by
      intro hb gs hg
      rw [ih hg]
      constructor
      · rintro ⟨x, hx, h⟩; exact ⟨x, List.mem_cons_of_mem _ hx, h⟩
      · rintro ⟨x, hx, hx'⟩
        rcases List.mem_cons.1 hx with e | hx
        · exact absurd (e ▸ hx') hb
        · exact ⟨x, hx, hx'⟩
    rw [membersState]
    generalize memberStep env decl fs kv = s at h h2
    cases h with
    | unknown h => exact good (fun ⟨p, hp, hn, _⟩ => h p hp hn) _ h2
    | @puts p v hp hn h =>
      refine good (fun ⟨q, hq, hn', hr⟩ => ?_) _ h2
      cases namesField_unique hd hp hq hn hn'
      exact suits_refuses h hr
    | @passes p v hp hn h hv =>
      refine good (fun ⟨q, hq, hn', hr⟩ => ?_) _ h2
      cases namesField_unique hd hp hq hn hn'
      exact hr.1 h
    | @wrong p hp hn hk h => exact ⟨fun _ => ⟨kv, List.mem_cons_self, p, hp, hn, h⟩, fun _ => membersState_failed env decl kvs fs⟩
    | @stop p hp hn hk h => exact ⟨fun _ => ⟨kv, List.mem_cons_self, p, hp, hn, hk ▸ h⟩, fun _ => rfl⟩

/-- The members before an error in a date, for one field. -/
theorem membersState_pre {env : JsonEnv} {decl : List (F × FieldDecl)} (hd : FoldedOk decl) (rest pre : List (Bytes × Json)) :
    ∀ {fs : Fields} (b : Bool), fs.Typed decl → (∀ kv ∈ pre, ¬ Spec.BadDate env decl kv) →
    ∃ gs b', gs.Typed decl ∧ membersState env decl fs b (pre ++ rest) = membersState env decl gs b' rest ∧
      ∀ p ∈ decl, ((∀ kv ∈ pre, ∀ v, ¬ Spec.Puts env p kv v) → gs.get p.1 = fs.get p.1) ∧
        ∀ l kv m v, pre = l ++ kv :: m → Spec.Puts env p kv v → (∀ kv ∈ m, ∀ v, ¬ Spec.Puts env p kv v) → gs.get p.1 = some v := by
  induction pre with
  | nil =>
    intro fs b ht _
    exact ⟨fs, b, ht, rfl, fun p hp => ⟨fun _ => rfl, fun l kv m v h => by simp at h⟩⟩
  | cons kv pre ih =>
    intro fs b ht hb
    have hb' : ∀ kv ∈ pre, ¬ Spec.BadDate env decl kv := fun x hx => hb x (List.mem_cons_of_mem _ hx)
    have h := memberStep_did (env := env) hd ht kv
    have h2 := memberStep_typed (env := env) hd ht kv
    rw [List.cons_append, membersState]
    -- the first member leaves `fs1`, in which `p` has its old value or that of the member
    have key : ∀ (fs1 : Fields) (b1 : Bool), fs1.Typed decl →
        (∀ p ∈ decl, (∀ v, ¬ Spec.Puts env p kv v) → fs1.get p.1 = fs.get p.1) →
        (∀ p ∈ decl, ∀ v, Spec.Puts env p kv v → fs1.get p.1 = some v) →
        ∃ gs b', gs.Typed decl ∧ membersState env decl fs1 b1 (pre ++ rest) = membersState env decl gs b' rest ∧
          ∀ p ∈ decl, ((∀ x ∈ kv :: pre, ∀ v, ¬ Spec.Puts env p x v) → gs.get p.1 = fs.get p.1) ∧
            ∀ l x m v, kv :: pre = l ++ x :: m → Spec.Puts env p x v → (∀ y ∈ m, ∀ v, ¬ Spec.Puts env p y v) → gs.get p.1 = some v := by
      intro fs1 b1 ht1 hk hv
      obtain ⟨gs, b', hg, he, hx⟩ := ih b1 ht1 hb'
      refine ⟨gs, b', hg, he, fun p hp => ⟨fun hno => ?_, fun l x m v hl hpx hm => ?_⟩⟩
      · rw [(hx p hp).1 fun y hy => hno y (List.mem_cons_of_mem _ hy)]
        exact hk p hp (hno kv List.mem_cons_self)
      · cases l with
        | nil =>
          rw [List.nil_append] at hl
          obtain ⟨h1, h2⟩ := List.cons.inj hl
          subst h1 h2
          rw [(hx p hp).1 hm]
          exact hv p hp v hpx
        | cons y l =>
          rw [List.cons_append] at hl
          exact (hx p hp).2 l x m v (List.cons.inj hl).2 hpx hm
    have other : ∀ {p q : F × FieldDecl} (w : Val), p ∈ decl → q ∈ decl → p ≠ q → (fs.set p.1 w).get q.1 = fs.get q.1 := by
      intro p q w hp hq hne
      rw [Fields.get_set, if_neg fun h => hne (inj_of_nodup hd.2.1 hp hq h.symm)]
    have same : ∀ {p : F × FieldDecl} (w : Val), p ∈ decl → (fs.set p.1 w).get p.1 = some w := by
      intro p w hp
      obtain ⟨o, ho, -⟩ := ht.get hd.2.1 (f := p.1) (d := p.2) hp
      rw [Fields.get_set, if_pos rfl, ho]; rfl
    generalize memberStep env decl fs kv = s at h h2
    cases h with
    | unknown h => exact key fs b ht (fun p hp _ => rfl) (fun p hp v hpv => absurd hpv.1 (h p hp))
    | @puts p v hp hn h =>
      refine key _ b h2 (fun q hq hno => ?_) (fun q hq w hw => ?_)
      · by_cases e : p = q
        · subst e; exact absurd ⟨hn, h⟩ (hno v)
        · exact other v hp hq e
      · cases namesField_unique hd hp hq hn hw.1
        rw [same v hp]
        obtain ⟨o, ho, hk⟩ := ht.get hd.2.1 (f := p.1) (d := p.2) hp
        rw [← decodeVal_suits hk h, decodeVal_suits hk hw.2]
    | @passes p v hp hn h hv =>
      refine key _ b h2 (fun q hq _ => ?_) (fun q hq w hw => ?_)
      · by_cases e : p = q
        · subst e; rw [same v hp, hv]
        · exact other v hp hq e
      · cases namesField_unique hd hp hq hn hw.1
        exact (passes_suits h hw.2).elim
    | @wrong p hp hn hk h =>
      refine key fs true ht (fun q hq _ => rfl) (fun q hq w hw => ?_)
      cases namesField_unique hd hp hq hn hw.1
      exact absurd h (suits_refuses hw.2)
    | @stop p hp hn hk h => exact absurd ⟨p, hp, hk, hn, h⟩ (hb kv List.mem_cons_self)

/-- C103, the verdict: a header or trailer is refused if and only if some member that names a field has a value that the field cannot take. -/
theorem C103_verdict (env : JsonEnv) (decl : List (F × FieldDecl)) (h : decl = headerRecordStruct ∨ decl = trailerRecordStruct) (fs : Fields)
    (ht : fs.Typed decl) (kvs : List (Bytes × Json)) :
    (structState env decl fs (.obj kvs)).2 = true ↔ ∃ kv ∈ kvs, Spec.BadMember env decl kv := by
  rcases h with rfl | rfl
  · exact membersState_verdict folded_header kvs ht
  · exact membersState_verdict folded_trailer kvs ht

/-- C103, the values: exactly what a document leaves in a header or trailer, accepted or not. The members count up to the first error in a date. Of these, the last one
with a value that suits a field sets it, whatever errors there are in other members; a field without such a member keeps its value. The date with the error becomes the
zero time. -/
theorem C103_values (env : JsonEnv) (decl : List (F × FieldDecl)) (h : decl = headerRecordStruct ∨ decl = trailerRecordStruct) (fs : Fields)
    (ht : fs.Typed decl) (pre rest : List (Bytes × Json)) (hpre : ∀ kv ∈ pre, ¬ Spec.BadDate env decl kv)
    (hrest : rest = [] ∨ ∃ kv post, rest = kv :: post ∧ Spec.BadDate env decl kv) (p : F × FieldDecl) (hp : p ∈ decl) :
    ((∃ kv post, rest = kv :: post ∧ Spec.NamesField p kv.1) → (structState env decl fs (.obj (pre ++ rest))).1.get p.1 = some (.time Time.zero)) ∧
    ((¬ ∃ kv post, rest = kv :: post ∧ Spec.NamesField p kv.1) →
      ((∀ kv ∈ pre, ∀ v, ¬ Spec.Puts env p kv v) → (structState env decl fs (.obj (pre ++ rest))).1.get p.1 = fs.get p.1) ∧
      ∀ l kv m v, pre = l ++ kv :: m → Spec.Puts env p kv v → (∀ kv ∈ m, ∀ v, ¬ Spec.Puts env p kv v) →
        (structState env decl fs (.obj (pre ++ rest))).1.get p.1 = some v) := by
  have hd : FoldedOk decl := by
    rcases h with rfl | rfl
    · exact folded_header
    · exact folded_trailer
  obtain ⟨gs, b, hg, he, hx⟩ := membersState_pre hd rest pre false ht hpre
  have he : structState env decl fs (.obj (pre ++ rest)) = membersState env decl gs b rest := he
  rw [he]
  rcases hrest with rfl | ⟨kv, post, rfl, hbad⟩
  · refine ⟨fun ⟨kv, post, h, _⟩ => (nomatch h), fun _ => hx p hp⟩
  · obtain ⟨q, hq, hk, hn, hr⟩ := hbad
    have hs := memberStep_did (env := env) hd hg kv
    have hstop : memberStep env decl gs kv = .stop (gs.set q.1 (.time Time.zero)) := by
      generalize memberStep env decl gs kv = s at hs
      cases hs with
      | unknown h => exact absurd hn (h q hq)
      | puts hp' hn' h => cases namesField_unique hd hq hp' hn hn'; rw [hk] at h; exact absurd hr (suits_refuses h)
      | passes hp' hn' h => cases namesField_unique hd hq hp' hn hn'; rw [hk] at h; exact absurd h hr.1
      | wrong hp' hn' hk' => cases namesField_unique hd hq hp' hn hn'; exact absurd hk hk'
      | stop hp' hn' => cases namesField_unique hd hq hp' hn hn'; rfl
    rw [membersState, hstop]
    simp only
    constructor
    · rintro ⟨kv', post', h, hn'⟩
      obtain ⟨rfl, rfl⟩ := List.cons.inj h
      cases namesField_unique hd hq hp hn hn'
      obtain ⟨o, ho, -⟩ := hg.get hd.2.1 (f := p.1) (d := p.2) hp
      rw [Fields.get_set, if_pos rfl, ho]; rfl
    · intro hno
      rw [Fields.get_set, if_neg ?_]
      · exact hx p hp
      · intro e
        cases inj_of_nodup hd.2.1 hp hq e
        exact hno ⟨kv, post, rfl, hn⟩

/-! ### Files -/

theorem basesState_eq (env : JsonEnv) (visits : Nat → List (Bytes × Json) → List (Bytes × Json)) (enc : Enc) (xs : List Json) :
    ∀ n acc, ∃ new, (basesState env visits enc n xs acc).1 = acc ++ new ∧ new.length ≤ xs.length ∧
      (∀ i x r, xs[i]? = some x → new[i]? = some r → (newBase enc).ofJson env (visits (n + i)) x = some r) ∧
      ((basesState env visits enc n xs acc).2 = true ↔
        ∃ x, xs[new.length]? = some x ∧ (newBase enc).ofJson env (visits (n + new.length)) x = none) ∧
      ((basesState env visits enc n xs acc).2 = false → new.length = xs.length) := by
  induction xs with
  | nil => intro n acc; exact ⟨[], by simp [basesState]⟩
  | cons x xs ih =>
    intro n acc
    rw [basesState]
    cases hx : (newBase enc).ofJson env (visits n) x with
    | none => exact ⟨[], by simp, by simp, by simp, by simp [hx], by simp⟩
    | some b =>
      obtain ⟨new, h1, h2, h3, h4, h5⟩ := ih (n + 1) (acc ++ [b])
      refine ⟨b :: new, ?_, ?_, ?_, ?_, ?_⟩
      · simp only [h1, List.append_assoc, List.singleton_append]
      · simp only [List.length_cons]; omega
      · intro i y r hy hr
        cases i with
        | zero => simp only [List.getElem?_cons_zero, Option.some.injEq] at hy hr; subst hy hr; exact hx
        | succ i =>
          simp only [List.getElem?_cons_succ] at hy hr
          have := h3 i y r hy hr
          rwa [show n + 1 + i = n + (i + 1) by omega] at this
      · simp only [List.length_cons, List.getElem?_cons_succ]
        rw [h4, show n + 1 + new.length = n + (new.length + 1) by omega]
      · intro h
        simp only [List.length_cons, h5 h]

theorem fileEntryState_same (env : JsonEnv) (visits : Nat → List (Bytes × Json) → List (Bytes × Json)) (f : File) (kv : Bytes × Json) :
    (fileEntryState env visits f kv).1.format = f.format ∧
    (kv.1 ≠ b! "header" → (fileEntryState env visits f kv).1.header = f.header) ∧
    (kv.1 ≠ b! "trailer" → (fileEntryState env visits f kv).1.trailer = f.trailer) ∧
    (kv.1 ≠ b! "data" → (fileEntryState env visits f kv).1.bases = f.bases) := by
  unfold fileEntryState
  split
  · next h => exact ⟨rfl, fun h' => absurd h h', fun _ => rfl, fun _ => rfl⟩
  · split
    · next h => exact ⟨rfl, fun _ => rfl, fun h' => absurd h h', fun _ => rfl⟩
    · split
      · next h =>
        cases decodeList env kv.2 with
        | none => exact ⟨rfl, fun _ => rfl, fun _ => rfl, fun _ => rfl⟩
        | some xs => exact ⟨rfl, fun _ => rfl, fun _ => rfl, fun h' => absurd h h'⟩
      · exact ⟨rfl, fun _ => rfl, fun _ => rfl, fun _ => rfl⟩

theorem fileEntriesState_same (env : JsonEnv) (visits : Nat → List (Bytes × Json) → List (Bytes × Json)) (kvs : List (Bytes × Json)) :
    ∀ f, (fileEntriesState env visits f kvs).1.format = f.format ∧
    ((∀ kv ∈ kvs, kv.1 ≠ b! "header") → (fileEntriesState env visits f kvs).1.header = f.header) ∧
    ((∀ kv ∈ kvs, kv.1 ≠ b! "trailer") → (fileEntriesState env visits f kvs).1.trailer = f.trailer) ∧
    ((∀ kv ∈ kvs, kv.1 ≠ b! "data") → (fileEntriesState env visits f kvs).1.bases = f.bases) := by
  induction kvs with
  | nil => intro f; exact ⟨rfl, fun _ => rfl, fun _ => rfl, fun _ => rfl⟩
  | cons kv kvs ih =>
    intro f
    obtain ⟨h1, h2, h3, h4⟩ := fileEntryState_same env visits f kv
    rw [fileEntriesState]
    cases hs : fileEntryState env visits f kv with
    | mk f1 b =>
      rw [hs] at h1 h2 h3 h4
      cases b with
      | true =>
        exact ⟨h1, fun h => h2 (h kv List.mem_cons_self), fun h => h3 (h kv List.mem_cons_self), fun h => h4 (h kv List.mem_cons_self)⟩
      | false =>
        obtain ⟨g1, g2, g3, g4⟩ := ih f1
        exact ⟨g1.trans h1, fun h => (g2 fun x hx => h x (List.mem_cons_of_mem _ hx)).trans (h2 (h kv List.mem_cons_self)),
          fun h => (g3 fun x hx => h x (List.mem_cons_of_mem _ hx)).trans (h3 (h kv List.mem_cons_self)),
          fun h => (g4 fun x hx => h x (List.mem_cons_of_mem _ hx)).trans (h4 (h kv List.mem_cons_self))⟩

theorem fileEntriesState_data (env : JsonEnv) (visits : Nat → List (Bytes × Json) → List (Bytes × Json)) (kvs : List (Bytes × Json)) :
    ∀ f : File, (kvs.Pairwise fun a b => a.1 ≠ b.1) →
    ∃ xs new, (xs = [] ∨ ∃ d, (b! "data", d) ∈ kvs ∧ decodeList env d = some xs) ∧ (fileEntriesState env visits f kvs).1.bases = f.bases ++ new ∧
      new.length ≤ xs.length ∧
      (∀ i x r, xs[i]? = some x → new[i]? = some r → (newBase f.format).ofJson env (visits (i + 1)) x = some r) := by
  induction kvs with
  | nil => intro f _; exact ⟨[], [], .inl rfl, by simp [fileEntriesState], by simp, by simp⟩
  | cons kv kvs ih =>
    intro f hk
    rw [List.pairwise_cons] at hk
    by_cases hd : kv.1 = b! "data"
    · -- the data records: no other member changes them
      have hno : ∀ x ∈ kvs, x.1 ≠ b! "data" := fun x hx h => hk.1 x hx (hd.trans h.symm)
      have hrest : (fileEntriesState env visits f (kv :: kvs)).1.bases = (fileEntryState env visits f kv).1.bases := by
        rw [fileEntriesState]
        cases fileEntryState env visits f kv with
        | mk f1 b =>
          cases b with
          | true => rfl
          | false => exact (fileEntriesState_same env visits kvs f1).2.2.2 hno
      rw [hrest]
      unfold fileEntryState
      rw [if_neg (by rw [hd]; decide), if_neg (by rw [hd]; decide), if_pos hd]
      cases hl : decodeList env kv.2 with
      | none => exact ⟨[], [], .inl rfl, by simp, by simp, by simp⟩
      | some xs =>
        obtain ⟨new, h1, h2, h3, -, -⟩ := basesState_eq env visits f.format xs 1 f.bases
        refine ⟨xs, new, .inr ⟨kv.2, ?_, hl⟩, h1, h2, fun i x r hx hr => ?_⟩
        · rw [← hd]; exact List.mem_cons_self
        · rw [Nat.add_comm i 1]; exact h3 i x r hx hr
    · obtain ⟨g1, -, -, g4⟩ := fileEntryState_same env visits f kv
      have g4 := g4 hd
      rw [fileEntriesState]
      cases hs : fileEntryState env visits f kv with
      | mk f1 b =>
        rw [hs] at g1 g4
        have g1 : f1.format = f.format := g1
        have g4 : f1.bases = f.bases := g4
        cases b with
        | true => exact ⟨[], [], .inl rfl, g4.trans (List.append_nil _).symm, by simp, by simp⟩
        | false =>
          obtain ⟨xs, new, h1, h2, h3, h4⟩ := ih f1 hk.2
          refine ⟨xs, new, ?_, by rw [← g4]; exact h2, h3, fun i x r hx hr => g1 ▸ h4 i x r hx hr⟩
          rcases h1 with h1 | ⟨d, h1, h1'⟩
          · exact .inl h1
          · exact .inr ⟨d, List.mem_cons_of_mem _ h1, h1'⟩

/-- C103, data records: accepted or not, a document takes no data record away and changes none. It adds the first records of its list, each read whole. -/
theorem C103_appends (env : JsonEnv) (visits : Nat → List (Bytes × Json) → List (Bytes × Json)) (hv : Spec.MapOrders visits) (f : File) (j : Json) :
    ∃ xs new, (xs = [] ∨ Spec.DataOf env j xs) ∧ (f.jsonState env visits j).1.bases = f.bases ++ new ∧ new.length ≤ xs.length ∧
      ∀ i x r, xs[i]? = some x → new[i]? = some r → (newBase f.format).ofJson env (visits (i + 1)) x = some r := by
  unfold File.jsonState
  cases hm : decodeMap env j with
  | none => exact ⟨[], [], .inl rfl, by simp, by simp, by simp⟩
  | some kvs =>
    have hk : (visits 0 kvs).Pairwise fun a b => a.1 ≠ b.1 :=
      ((hv 0 kvs).pairwise_iff (fun {_ _} h => Ne.symm h)).2 (decodeMap_keys hm)
    obtain ⟨xs, new, h1, h2, h3, h4⟩ := fileEntriesState_data env visits (visits 0 kvs) f hk
    refine ⟨xs, new, ?_, h2, h3, h4⟩
    rcases h1 with h1 | ⟨d, h1, h1'⟩
    · exact .inl h1
    · exact .inr ⟨kvs, d, hm, (hv 0 kvs).mem_iff.1 h1, h1'⟩

/-- C103, what is not named: a document without a header, trailer or list of data records leaves that part alone, and no document changes the format. -/
theorem C103_untouched (env : JsonEnv) (visits : Nat → List (Bytes × Json) → List (Bytes × Json)) (hv : Spec.MapOrders visits) (f : File) (j : Json) :
    (f.jsonState env visits j).1.format = f.format ∧
    (¬ Spec.Has env j "header" → (f.jsonState env visits j).1.header = f.header) ∧
    (¬ Spec.Has env j "trailer" → (f.jsonState env visits j).1.trailer = f.trailer) ∧
    (¬ Spec.Has env j "data" → (f.jsonState env visits j).1.bases = f.bases) := by
  unfold File.jsonState
  cases hm : decodeMap env j with
  | none => exact ⟨rfl, fun _ => rfl, fun _ => rfl, fun _ => rfl⟩
  | some kvs =>
    obtain ⟨h1, h2, h3, h4⟩ := fileEntriesState_same env visits (visits 0 kvs) f
    have key : ∀ name : String, ¬ Spec.Has env j name → ∀ kv ∈ visits 0 kvs, kv.1 ≠ name.toUTF8.data.toList := by
      intro name hn kv hkv e
      exact hn ⟨kvs, kv.2, hm, (hv 0 kvs).mem_iff.1 (e ▸ hkv)⟩
    exact ⟨h1, fun h => h2 (key _ h), fun h => h3 (key _ h), fun h => h4 (key _ h)⟩

/-! ### Data records -/

theorem store_get (g : Segs) (s : Seg) {n : Bytes} (h : n ≠ s.kind.name) : (g.store s).get n = g.get n := by
  obtain ⟨k, fs⟩ := s
  cases k <;> simp only [SegKind.name] at h <;> simp only [Segs.store, Segs.get] <;> (repeat' split) <;> first | rfl | contradiction

theorem name_of_segKind {name : Bytes} {k : SegKind} (h : segKindOfName name = some k) : name = k.name := by
  unfold segKindOfName at h
  repeat' split at h
  all_goals first | (cases h; assumption) | cases h

theorem decodeSeg_get {env : JsonEnv} {name : Bytes} {g g' : Segs} {j : Json} (h : decodeSeg env name g j = some g') {n : Bytes} (hn : n ≠ name) :
    g'.get n = g.get n := by
  unfold decodeSeg at h
  cases hk : segKindOfName name with
  | none => rw [hk] at h; cases h; rfl
  | some k =>
    rw [hk] at h
    simp only at h
    split at h
    · cases h
    · split at h
      · cases h
      · next ha =>
        cases h
        unfold Segs.add at ha
        split at ha
        · cases ha
        · cases ha
          exact store_get _ _ (by rw [← name_of_segKind hk]; exact hn)

theorem segsState_get {env : JsonEnv} {name n : Bytes} (hn : n ≠ name) (xs : List Json) : ∀ g : Segs,
    (segsState env name g xs).1.get n = g.get n := by
  induction xs with
  | nil => intro g; rfl
  | cons x xs ih =>
    intro g
    rw [segsState]
    cases h : decodeSeg env name g x with
    | none => rfl
    | some g' => exact (ih g').trans (decodeSeg_get h hn)

theorem baseEntryState_same (env : JsonEnv) (r : Fields × Segs) (kv : Bytes × Json) :
    (kv.1 ≠ b! "base" → (baseEntryState env r kv).1.1 = r.1) ∧ ∀ n, n ≠ kv.1 → (baseEntryState env r kv).1.2.get n = r.2.get n := by
  unfold baseEntryState
  split
  · next hb => exact ⟨fun h => absurd hb h, fun n hn => by split <;> rfl⟩
  · split
    · split
      · exact ⟨fun _ => rfl, fun _ _ => rfl⟩
      · exact ⟨fun _ => rfl, fun n hn => segsState_get hn _ _⟩
    · split
      · exact ⟨fun _ => rfl, fun _ _ => rfl⟩
      · next hd => exact ⟨fun _ => rfl, fun n hn => decodeSeg_get hd hn⟩

theorem baseEntriesState_same (env : JsonEnv) (kvs : List (Bytes × Json)) : ∀ r : Fields × Segs,
    ((∀ kv ∈ kvs, kv.1 ≠ b! "base") → (baseEntriesState env r kvs).1.1 = r.1) ∧
    ∀ n, (∀ kv ∈ kvs, kv.1 ≠ n) → (baseEntriesState env r kvs).1.2.get n = r.2.get n := by
  induction kvs with
  | nil => intro r; exact ⟨fun _ => rfl, fun _ _ => rfl⟩
  | cons kv kvs ih =>
    intro r
    obtain ⟨h1, h2⟩ := baseEntryState_same env r kv
    rw [baseEntriesState]
    generalize baseEntryState env r kv = q at h1 h2
    obtain ⟨r', b⟩ := q
    have k1 : (∀ kv' ∈ kv :: kvs, kv'.1 ≠ b! "base") → r'.1 = r.1 := fun h => h1 (h kv List.mem_cons_self)
    have k2 : ∀ n, (∀ kv' ∈ kv :: kvs, kv'.1 ≠ n) → r'.2.get n = r.2.get n := fun n h => h2 n (h kv List.mem_cons_self).symm
    cases b with
    | true => exact ⟨k1, k2⟩
    | false =>
      exact ⟨fun h => ((ih r').1 fun kv' hm => h kv' (List.mem_cons_of_mem _ hm)).trans (k1 h),
        fun n h => ((ih r').2 n fun kv' hm => h kv' (List.mem_cons_of_mem _ hm)).trans (k2 n h)⟩

/-- C103, data records: accepted or not, a document without base segment leaves the fields alone, and one without a segment of a name leaves that segment alone,
but the J1 and J2 segments, which any object and `null` remove. -/
theorem C103_untouched_record (env : JsonEnv) (visit : List (Bytes × Json) → List (Bytes × Json)) (hv : ∀ kvs, (visit kvs).Perm kvs)
    (enc : Enc) (fs : Fields) (g : Segs) (j : Json) :
    ∃ fs' g', (Record.jsonState env visit (.base enc fs g) j).1 = .base enc fs' g' ∧
    (¬ Spec.Has env j "base" → fs' = fs) ∧
    (∀ name ∈ ["k1", "k2", "k3", "k4", "l1", "n1"], ¬ Spec.Has env j name → g'.get name.toUTF8.data.toList = g.get name.toUTF8.data.toList) ∧
    ∀ name ∈ ["j1", "j2"], ¬ Spec.Has env j name → g'.get name.toUTF8.data.toList = [] ∨
      (Record.jsonState env visit (.base enc fs g) j) = (.base enc fs g, true) := by
  unfold Record.jsonState
  cases hm : decodeMap env j with
  | none => exact ⟨fs, g, rfl, fun _ => rfl, fun _ _ _ => rfl, fun _ _ _ => .inr rfl⟩
  | some kvs =>
    have key : ∀ name : String, ¬ Spec.Has env j name → ∀ kv ∈ visit kvs, kv.1 ≠ name.toUTF8.data.toList := by
      intro name hn kv hkv e
      exact hn ⟨kvs, kv.2, hm, (hv kvs).mem_iff.1 (e ▸ hkv)⟩
    obtain ⟨h1, h2⟩ := baseEntriesState_same env (visit kvs) (fs, { g with j1 := [], j2 := [] })
    refine ⟨_, _, rfl, fun h => h1 (key _ h), fun name hn h => (h2 _ (key _ h)).trans ?_, fun name hn h => .inl ((h2 _ (key _ h)).trans ?_)⟩
    · simp only [List.mem_cons, List.not_mem_nil, or_false] at hn
      rcases hn with rfl | rfl | rfl | rfl | rfl | rfl <;> rfl
    · simp only [List.mem_cons, List.not_mem_nil, or_false] at hn
      rcases hn with rfl | rfl <;> rfl

/-- C103. A document that is no object and not `null` is refused and changes nothing, in records and in files. -/
theorem C103_no_object (env : JsonEnv) (visit : List (Bytes × Json) → List (Bytes × Json)) (visits : Nat → List (Bytes × Json) → List (Bytes × Json))
    (r : Record) (f : File) (j : Json) (h1 : ∀ kvs, j ≠ .obj kvs) (h2 : j ≠ .null) :
    r.jsonState env visit j = (r, true) ∧ f.jsonState env visits j = (f, true) := by
  cases j with
  | obj kvs => exact absurd rfl (h1 kvs)
  | null => exact absurd rfl h2
  | _ => exact ⟨by cases r <;> rfl, rfl⟩

/-- Case of `C103_no_object` and of `C103_untouched_record`: a list changes nothing; an empty object removes the J1 segments and keeps the K1 segment. -/
example : Record.jsonState isoEnv id (.base .packed (base 0 426) { j1 := [j1], k1 := some k1 }) (.arr []) =
      (.base .packed (base 0 426) { j1 := [j1], k1 := some k1 }, true) ∧
    Record.jsonState isoEnv id (.base .packed (base 0 426) { j1 := [j1], k1 := some k1 }) (.obj []) =
      (.base .packed (base 0 426) { k1 := some k1 }, false) := ⟨rfl, rfl⟩

/-! ### What stays true -/

theorem basesState_sound {env : JsonEnv} {visits : Nat → List (Bytes × Json) → List (Bytes × Json)} {enc : Enc} (xs : List Json) :
    ∀ {n : Nat} {acc : List Record},
    (∀ r ∈ acc, Spec.IsBase enc r ∧ Spec.WellTyped r ∧ ∀ e fs g, r = .base e fs g → Spec.SoundSegs g) →
    ∀ r ∈ (basesState env visits enc n xs acc).1, Spec.IsBase enc r ∧ Spec.WellTyped r ∧ ∀ e fs g, r = .base e fs g → Spec.SoundSegs g := by
  induction xs with
  | nil => intro n acc ha; exact ha
  | cons x xs ih =>
    intro n acc ha
    rw [basesState]
    cases hb : (newBase enc).ofJson env (visits n) x with
    | none => exact ha
    | some b =>
      refine ih ?_
      exact decodeBases_sound (env := env) (visits := visits) [x] (n := n) ha (by simp only [decodeBases, hb])

theorem fileEntryState_sound {env : JsonEnv} {visits : Nat → List (Bytes × Json) → List (Bytes × Json)} {f : File} (kv : Bytes × Json)
    (h : Spec.Uniform f ∧ Spec.TypedFile f ∧ Spec.SoundSegments f) :
    Spec.Uniform (fileEntryState env visits f kv).1 ∧ Spec.TypedFile (fileEntryState env visits f kv).1 ∧
      Spec.SoundSegments (fileEntryState env visits f kv).1 := by
  obtain ⟨hu, ht, hs⟩ := h
  obtain ⟨fmt, hfs, bs, tfs, rfl, hb⟩ := hu.elim
  unfold fileEntryState
  split
  · exact ⟨⟨⟨_, rfl⟩, hu.bases, hu.trailer⟩, ⟨structState_typed folded_header ht.header _, ht.bases, ht.trailer⟩, hs⟩
  · split
    · exact ⟨⟨hu.header, hu.bases, ⟨_, rfl⟩⟩, ⟨ht.header, ht.bases, structState_typed folded_trailer ht.trailer _⟩, hs⟩
    · split
      · cases decodeList env kv.2 with
        | none => exact ⟨hu, ht, hs⟩
        | some xs =>
          have := basesState_sound (env := env) (visits := visits) (enc := fmt) xs (n := 1)
            (fun r hr => ⟨hu.bases r hr, ht.bases r hr, fun e fs g he => hs e fs g (he ▸ hr)⟩)
          exact ⟨⟨hu.header, fun r hr => (this r hr).1, hu.trailer⟩, ⟨ht.header, fun r hr => (this r hr).2.1, ht.trailer⟩,
            fun e fs g hr => (this _ hr).2.2 e fs g rfl⟩
      · exact ⟨hu, ht, hs⟩

/-- C103, what stays true: accepted or not, a document leaves a file of one format throughout, whose records have the types of their structs and whose segments are
in their places and valid, if it was so before. -/
theorem C103_invariant (env : JsonEnv) (visits : Nat → List (Bytes × Json) → List (Bytes × Json)) (f : File) (j : Json)
    (h : Spec.Uniform f ∧ Spec.TypedFile f ∧ Spec.SoundSegments f) :
    Spec.Uniform (f.jsonState env visits j).1 ∧ Spec.TypedFile (f.jsonState env visits j).1 ∧ Spec.SoundSegments (f.jsonState env visits j).1 := by
  unfold File.jsonState
  cases decodeMap env j with
  | none => exact h
  | some kvs =>
    simp only
    generalize visits 0 kvs = l
    induction l generalizing f with
    | nil => exact h
    | cons kv l ih =>
      have h1 := fileEntryState_sound (env := env) (visits := visits) kv h
      rw [fileEntriesState]
      cases hs : fileEntryState env visits f kv with
      | mk f1 b =>
        rw [hs] at h1
        cases b with
        | true => exact h1
        | false => exact ih f1 h1

/-- C103, `NewFileFromReader`: no error comes with a file exactly if the JSON is accepted, and a file that comes with an error is still of one format, with the types
of its structs and valid segments. -/
theorem C103_reader (env : JsonEnv) (visits : Nat → List (Bytes × Json) → List (Bytes × Json)) (first : Bytes → Option Json) (data : Bytes) :
    (∀ f, readJsonState env visits first data = (some f, false) ↔ readJson env visits first data = .ok f) ∧
    (∀ b, readJsonState env visits first data = (none, b) → b = true) ∧
    ∀ f b, readJsonState env visits first data = (some f, b) → Spec.Uniform f ∧ Spec.TypedFile f ∧ Spec.SoundSegments f := by
  unfold readJsonState readJson
  cases first data with
  | none => simp
  | some j =>
    simp only
    cases decodeDummy env j with
    | none => simp
    | some h =>
      simp only
      refine ⟨fun f => ?_, fun b hb => (nomatch hb), fun f b hb => ?_⟩
      · constructor
        · intro e
          obtain ⟨e1, e2⟩ := Prod.mk.inj e
          have := (C103_success env visits (newFile (detectFormat h)) f j).1 (Prod.ext (Option.some.inj e1) e2)
          rw [this]
        · intro e
          cases ho : (newFile (detectFormat h)).ofJson env visits j with
          | none => rw [ho] at e; cases e
          | some g =>
            rw [ho] at e
            cases e
            rw [(C103_success env visits _ f j).2 ho]
      · obtain ⟨e1, -⟩ := Prod.mk.inj hb
        rw [← Option.some.inj e1]
        obtain ⟨hu, ht⟩ := C32_reachable (.new (detectFormat h))
        exact C103_invariant env visits _ j ⟨hu, ht, fun e fs g hr => by cases hr⟩

/-! ### All or nothing -/

/-- C103, as far as it holds: a document leaves the file as it was if it is no object or holds a number out of range, or if it has no header and no trailer and the first
of its data records is refused. Missing: any other document that is refused may leave a part of it in the file (`C103_violated`). -/
theorem C103_atomic_partial (env : JsonEnv) (visits : Nat → List (Bytes × Json) → List (Bytes × Json)) (hv : Spec.MapOrders visits) (f : File) (j : Json)
    (h : decodeMap env j = none ∨ (¬ Spec.Has env j "header" ∧ ¬ Spec.Has env j "trailer" ∧
      ∀ xs, Spec.DataOf env j xs → ∃ x, xs[0]? = some x ∧ (newBase f.format).ofJson env (visits 1) x = none)) :
    (f.jsonState env visits j).1 = f := by
  rcases h with h | ⟨h1, h2, h3⟩
  · unfold File.jsonState
    rw [h]
  · obtain ⟨g1, g2, g3, -⟩ := C103_untouched env visits hv f j
    obtain ⟨xs, new, k1, k2, k3, k4⟩ := C103_appends env visits hv f j
    have hnew : new = [] := by
      rcases k1 with rfl | k1
      · exact List.eq_nil_of_length_eq_zero (by simpa using k3)
      · obtain ⟨x, hx, hr⟩ := h3 xs k1
        cases new with
        | nil => rfl
        | cons r new =>
          have := k4 0 x r hx rfl
          rw [hr] at this
          cases this
    rw [hnew, List.append_nil] at k2
    have g2 := g2 h1
    have g3 := g3 h2
    generalize (f.jsonState env visits j).1 = g at g1 g2 g3 k2
    obtain ⟨a, b, c, d⟩ := g
    obtain ⟨a', b', c', d'⟩ := f
    simp only at g1 g2 g3 k2
    rw [g1, g2, g3, k2]

/-! ### Cases -/

namespace Samples

/-- A header with a name, and a text where a number should be. -/
def halfHeader : List (Bytes × Json) := [(b! "recordDescriptorWord", .str (b! "x")), (b! "reporterName", .str (b! "ACME"))]

/-- A header with an error in a date, and a name behind it. -/
def lateHeader : List (Bytes × Json) := [(b! "activityDate", .str (b! "x")), (b! "reporterName", .str (b! "ACME"))]

/-- Two data records, of which the second is refused. -/
def twoRecords : Json := .obj [(b! "data", .arr [.obj [], .bool true])]

end Samples

theorem halfHeader_bad : Spec.BadMember isoEnv headerRecordStruct (b! "recordDescriptorWord", .str (b! "x")) :=
  ⟨(.RecordDescriptorWord, ⟨.int, b! "recordDescriptorWord", false⟩), by decide +kernel,
    (namesField_iff folded_header (by decide +kernel) _).2 (by decide +kernel), by
      refine ⟨fun h => ?_, fun v h => ?_⟩
      · cases h
      · cases h⟩

example : ∃ kv ∈ halfHeader, Spec.BadMember isoEnv headerRecordStruct kv := ⟨_, List.mem_cons_self, halfHeader_bad⟩

example : (structState isoEnv headerRecordStruct (zeroFields headerRecordStruct) (.obj halfHeader)).2 = true :=
  (C103_verdict isoEnv _ (.inl rfl) _ (zeroFields_typed _) halfHeader).2 ⟨_, List.mem_cons_self, halfHeader_bad⟩

/-- The name is stored, though the document is refused. -/
example : (structState isoEnv headerRecordStruct (zeroFields headerRecordStruct) (.obj halfHeader)).1.get .ReporterName = some (.str (b! "ACME")) := by
  have hp : (F.ReporterName, (⟨.str, b! "reporterName", false⟩ : FieldDecl)) ∈ headerRecordStruct := by decide +kernel
  have := (C103_values isoEnv headerRecordStruct (.inl rfl) (zeroFields headerRecordStruct) (zeroFields_typed _) halfHeader [] (by
    rintro kv hkv ⟨p, hp, hk, hn, -⟩
    have h1 := (namesField_iff folded_header hp _).1 hn
    have h2 : ∀ kv ∈ halfHeader, ∀ p ∈ headerRecordStruct, p.2.kind = .time → fieldOf headerRecordStruct kv.1 ≠ some p.1 := by
      intro kv hkv
      simp only [halfHeader, List.mem_cons, List.not_mem_nil, or_false] at hkv
      rcases hkv with rfl | rfl
      · decide +kernel
      · decide +kernel
    exact h2 kv hkv p hp hk h1) (.inl rfl) _ hp).2 (fun ⟨kv, post, h, _⟩ => (nomatch h))
  refine this.2 [_] _ [] _ rfl ⟨(namesField_iff folded_header hp _).2 (by decide +kernel), .str _⟩ (fun kv hkv => (nomatch hkv))

/-- Behind an error in a date nothing is stored. -/
example : (structState isoEnv headerRecordStruct (zeroFields headerRecordStruct) (.obj lateHeader)).1.get .ReporterName = some (.str []) := by
  decide +kernel

/-- C103, violated: a document that is refused leaves values in the file, whatever the order of the maps. -/
theorem C103_violated : ∃ (f : File) (j : Json), ∀ visits, Spec.MapOrders visits →
    (f.jsonState isoEnv visits j).2 = true ∧ (f.jsonState isoEnv visits j).1 ≠ f := by
  refine ⟨newFile .character, .obj [(b! "header", .obj halfHeader)], fun visits hv => ?_⟩
  have hl : visits 0 [(b! "header", .obj halfHeader)] = [(b! "header", .obj halfHeader)] := List.perm_singleton.1 (hv 0 _)
  have hm : decodeMap isoEnv (.obj [(b! "header", .obj halfHeader)]) = some [(b! "header", .obj halfHeader)] := rfl
  unfold File.jsonState
  rw [hm]
  simp only
  rw [hl]
  constructor
  · rfl
  · intro h
    have h1 : (fileEntriesState isoEnv visits (newFile .character) [(b! "header", .obj halfHeader)]).1.header.fields.get .ReporterName = some (.str (b! "ACME")) := rfl
    rw [h] at h1
    exact absurd h1 (by decide +kernel)

/-- C103, violated: what a refused document leaves depends on the order in which Go happens to visit the map. -/
theorem C103_order_violated : ∃ (f : File) (j : Json) (v v' : Nat → List (Bytes × Json) → List (Bytes × Json)), Spec.MapOrders v ∧ Spec.MapOrders v' ∧
    (f.jsonState isoEnv v j).2 = true ∧ (f.jsonState isoEnv v' j).2 = true ∧ (f.jsonState isoEnv v j).1 ≠ (f.jsonState isoEnv v' j).1 := by
  refine ⟨newFile .character, .obj [(b! "data", .bool true), (b! "header", .obj [(b! "reporterName", .str (b! "ACME"))])], fun _ l => l, backwards,
    fun _ _ => .refl _, backwards_ok, rfl, rfl, ?_⟩
  intro h
  have h1 : ((newFile .character).jsonState isoEnv backwards (.obj [(b! "data", .bool true), (b! "header", .obj [(b! "reporterName", .str (b! "ACME"))])])).1.header.fields.get
      .ReporterName = some (.str (b! "ACME")) := rfl
  rw [← h] at h1
  exact absurd h1 (by decide +kernel)

/-- C103, violated: after a document that is refused, the corrected one gives another file than at once; the data records before the error are there twice. -/
theorem C103_retry_violated : ∃ (f g g' : File) (j j' : Json), ∀ visits, Spec.MapOrders visits →
    (f.jsonState isoEnv visits j).2 = true ∧ f.ofJson isoEnv visits j' = some g ∧ (f.jsonState isoEnv visits j).1.ofJson isoEnv visits j' = some g' ∧
    g.bases.length = 2 ∧ g'.bases.length = 3 := by
  refine ⟨newFile .character, { newFile .character with bases := [newBase .character, newBase .character] },
    { newFile .character with bases := [newBase .character, newBase .character, newBase .character] }, twoRecords,
    .obj [(b! "data", .arr [.obj [], .obj []])], fun visits hv => ?_⟩
  have hl : ∀ x, visits 0 [(b! "data", x)] = [(b! "data", x)] := fun x => List.perm_singleton.1 (hv 0 _)
  have hn : ∀ n, visits n [] = [] := fun n => List.perm_nil.1 (hv n [])
  have hb : ∀ n, (newBase .character).ofJson isoEnv (visits n) (.obj []) = some (newBase .character) := by
    intro n
    show (((visits n []).foldlM (decodeBaseEntry isoEnv) (zeroFields baseSegmentStruct, ({} : Segs))).map fun p => Record.base .character p.1 p.2) = _
    rw [hn n]
    rfl
  have hs : ∀ (f : File) (xs : List Json), reList isoEnv xs = some xs → f.jsonState isoEnv visits (.obj [(b! "data", .arr xs)]) =
      ({ f with bases := (basesState isoEnv visits f.format 1 xs f.bases).1 }, (basesState isoEnv visits f.format 1 xs f.bases).2) := by
    intro f xs hx
    have hm : decodeMap isoEnv (.obj [(b! "data", .arr xs)]) = some [(b! "data", .arr xs)] := by
      simp only [decodeMap, reObj, reJson, hx, Option.map_some]
      rfl
    have hd : decodeList isoEnv (.arr xs) = some xs := hx
    unfold File.jsonState
    rw [hm]
    simp only
    rw [hl, fileEntriesState, fileEntryState, if_neg (show b! "data" ≠ b! "header" by decide), if_neg (show b! "data" ≠ b! "trailer" by decide), if_pos rfl]
    simp only [hd]
    cases (basesState isoEnv visits f.format 1 xs f.bases).2 <;> rfl
  have ht : (newFile .character).jsonState isoEnv visits twoRecords = ({ newFile .character with bases := [newBase .character] }, true) := by
    rw [twoRecords, hs _ _ rfl]
    have : basesState isoEnv visits (newFile .character).format 1 [.obj [], .bool true] (newFile .character).bases = ([newBase .character], true) := by
      show basesState isoEnv visits .character 1 [.obj [], .bool true] [] = _
      rw [basesState, hb]
      rfl
    rw [this]
  have htwo : ∀ acc, basesState isoEnv visits .character 1 [.obj [], .obj []] acc = (acc ++ [newBase .character] ++ [newBase .character], false) := by
    intro acc
    rw [basesState, hb]
    simp only
    rw [basesState, hb]
    rfl
  rw [ht]
  refine ⟨rfl, (C103_success _ _ _ _ _).1 ?_, (C103_success _ _ _ _ _).1 ?_, rfl, rfl⟩
  · rw [hs _ _ rfl, show (newFile .character).format = .character from rfl, htwo]
    rfl
  · rw [hs _ _ rfl]
    simp only [show (newFile .character).format = .character from rfl]
    rw [htwo]
    rfl

example : Spec.MapOrders backwards := backwards_ok

/-- Case of `C103_untouched`. A first data record that is refused leaves nothing. -/
example : ((newFile .character).jsonState isoEnv backwards (.obj [(b! "data", .arr [.bool true, .obj []])])).1 = newFile .character := by
  have hone : ∀ (kvs : List (Bytes × Json)) (x : Bytes × Json), decodeMap isoEnv (.obj [(b! "data", .arr [.bool true, .obj []])]) = some kvs → x ∈ kvs →
      x = (b! "data", .arr [.bool true, .obj []]) := by
    intro kvs x h hm
    have h : some [(b! "data", Json.arr [.bool true, .obj []])] = some kvs := h
    rw [← Option.some.inj h] at hm
    exact List.mem_singleton.1 hm
  refine C103_atomic_partial isoEnv backwards backwards_ok _ _ (.inr ⟨?_, ?_, ?_⟩)
  · rintro ⟨kvs, d, h, hm⟩
    exact absurd (congrArg Prod.fst (hone kvs _ h hm)) (show b! "header" ≠ b! "data" by decide)
  · rintro ⟨kvs, d, h, hm⟩
    exact absurd (congrArg Prod.fst (hone kvs _ h hm)) (show b! "trailer" ≠ b! "data" by decide)
  · rintro xs ⟨kvs, d, h, hm, hd⟩
    have e : d = _ := congrArg Prod.snd (hone kvs _ h hm)
    rw [e] at hd
    have hd : some [Json.bool true, .obj []] = some xs := hd
    rw [← Option.some.inj hd]
    exact ⟨_, rfl, rfl⟩

/-- Case of `C103_appends`. -/
example : ((newFile .character).jsonState isoEnv backwards twoRecords).1.bases = [newBase .character] := rfl

/-- Case of `C103_invariant`. -/
example : Spec.Uniform (newFile .packed) ∧ Spec.TypedFile (newFile .packed) ∧ Spec.SoundSegments (newFile .packed) :=
  ⟨(C32_reachable (.new .packed)).1, (C32_reachable (.new .packed)).2, fun e fs g hr => by cases hr⟩

/-- Case of `C103_reader`. -/
example : ∃ f, readJsonState isoEnv backwards (fun _ => some twoRecords) [] = (some f, true) ∧ f.bases = [newBase .character] := ⟨_, rfl, rfl⟩

/-- Cases of `C103_success` and `C103_success_record`. -/
example : (newFile .packed).jsonState isoEnv backwards (jsonSample .packed 600 596).toJson = (jsonSample .packed 600 596, false) ∧
    (newBase .packed).jsonState isoEnv (backwards 0) (Record.base .packed (base 600 596) segs).toJson = (.base .packed (base 600 596) segs, false) :=
  ⟨(C103_success _ _ _ _ _).2 (C47_tree _ isoEnv_ok _ backwards_ok _ _
      (jsonSample_ok _ _ _ (by decide +kernel) (by decide +kernel) (by decide +kernel))),
    (C103_success_record _ _ _ _ _).2 (C47_record _ isoEnv_ok _ (backwards_ok 0) _ _ _ (jsonFields_of (by decide +kernel)) segs_json)⟩

end Metro2
