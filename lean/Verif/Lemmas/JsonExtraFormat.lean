import Verif.Lemmas.JsonExtra

/-! The format of a document with members that are not known. -/

namespace Metro2

/-- The place of the member with this key. -/
def insideOf : Spec.Place → Bytes → Option Spec.Place
  | .file, k =>
    if k = b! "header" then some (.fields headerRecordStruct)
    else if k = b! "data" then some .data
    else if k = b! "trailer" then some (.fields trailerRecordStruct) else none
  | .record, k =>
    if k = b! "base" then some (.fields baseSegmentStruct)
    else if k = b! "j1" then some (.segments .j1)
    else if k = b! "j2" then some (.segments .j2)
    else match segKindOfName k with
      | some s => some (.fields s.struct)
      | none => none
  | _, _ => none

theorem insideOf_eq {p q : Spec.Place} {k : Bytes} (h : Spec.Inside p k q) : insideOf p k = some q := by
  cases h <;> rfl

theorem inside_fun {p q q' : Spec.Place} {k : Bytes} (h : Spec.Inside p k q) (h' : Spec.Inside p k q') : q = q' := by
  have := insideOf_eq h
  rw [insideOf_eq h'] at this
  exact (Option.some.inj this).symm

/-- The values of a member in the two documents. -/
def RelKey (env : JsonEnv) (p : Spec.Place) (k : Bytes) (v v' : Json) : Prop :=
  Spec.SameDoc env v v' ∨ ∃ q, Spec.Inside p k q ∧ Spec.AddsTo env q v v'

theorem RelKey.trans {env : JsonEnv} {p : Spec.Place} {k : Bytes} {v v' v'' : Json} (h : RelKey env p k v v') (h' : RelKey env p k v' v'') :
    RelKey env p k v v'' := by
  rcases h with h | ⟨q, hq, h⟩
  · rcases h' with h' | ⟨q', hq', h'⟩
    · exact .inl (h.trans h')
    · exact .inr ⟨q', hq', .trans (.same h) h'⟩
  · rcases h' with h' | ⟨q', hq', h'⟩
    · exact .inr ⟨q, hq, .trans h (.same h')⟩
    · cases inside_fun hq hq'
      exact .inr ⟨q, hq, .trans h h'⟩

/-- Both are missing, or they are related. -/
inductive OptRel (R : Json → Json → Prop) : Option Json → Option Json → Prop
  | none : OptRel R none none
  | some {v v' : Json} : R v v' → OptRel R (some v) (some v')

theorem OptRel.refl {R : Json → Json → Prop} (h : ∀ v, R v v) (o : Option Json) : OptRel R o o := by
  cases o with
  | none => exact .none
  | some v => exact .some (h v)

theorem OptRel.trans {R : Json → Json → Prop} (h : ∀ {a b c}, R a b → R b c → R a c) {o o' o'' : Option Json} (h1 : OptRel R o o') (h2 : OptRel R o' o'') :
    OptRel R o o'' := by
  cases h1 with
  | none => exact h2
  | some r => cases h2 with | some r' => exact .some (h r r')

theorem OptRel.or {R : Json → Json → Prop} {o o' p p' : Option Json} (h : OptRel R o o') (h' : OptRel R p p') : OptRel R (o.or p) (o'.or p') := by
  cases h with
  | none => exact h'
  | some r => exact .some r

theorem optRel_of_same {env : JsonEnv} {p : Spec.Place} {k : Bytes} {o o' : Option Json} (h : SameOpt env o o') : OptRel (RelKey env p k) o o' := by
  cases o <;> cases o'
  · exact .none
  · exact h.elim
  · exact h.elim
  · exact .some (.inl h)

/-- The two documents are of one kind. -/
inductive AddKinds (env : JsonEnv) (p : Spec.Place) : Json → Json → Prop
  | same (j : Json) : AddKinds env p j j
  | arr (xs ys : List Json) : AddKinds env p (.arr xs) (.arr ys)
  | obj {kvs kvs' : List (Bytes × Json)} : (∀ k, ¬ Spec.UnknownKey p k → OptRel (RelKey env p k) (lastVal k kvs) (lastVal k kvs')) →
      AddKinds env p (.obj kvs) (.obj kvs')

theorem addKinds_of {env : JsonEnv} {p : Spec.Place} {j j' : Json} (h : Spec.AddsTo env p j j') : AddKinds env p j j' := by
  induction h with
  | same hs =>
    cases kinds_of hs with
    | same => exact .same _
    | arr => exact .arr _ _
    | obj h => exact .obj fun k _ => optRel_of_same (h k)
  | trans _ _ ih1 ih2 =>
    cases ih1 with
    | same => exact ih2
    | arr =>
      cases ih2 with
      | same => exact .arr _ _
      | arr => exact .arr _ _
    | obj h =>
      cases ih2 with
      | same => exact .obj h
      | obj h' => exact .obj fun k hk => OptRel.trans (R := RelKey env _ k) (fun h h' => RelKey.trans h h') (h k hk) (h' k hk)
  | extra a b hk hv =>
    rename_i p k v
    refine .obj fun q hq => ?_
    have hne : q ≠ k := fun e => hq (e ▸ hk)
    rw [lastVal_append, lastVal_append, lastVal_cons, if_neg hne]
    simp only [Option.or_none]
    exact OptRel.refl (fun v => .inl (.refl v)) _
  | member a b hin hadd _ =>
    rename_i p q k v v' _
    refine .obj fun x _ => ?_
    rw [lastVal_append, lastVal_append, lastVal_cons, lastVal_cons]
    refine OptRel.or (OptRel.or (OptRel.refl (fun v => .inl (.refl v)) _) ?_) (OptRel.refl (fun v => .inl (.refl v)) _)
    by_cases hx : x = k
    · subst hx
      rw [if_pos rfl, if_pos rfl]
      exact .some (.inr ⟨q, hin, hadd⟩)
    · rw [if_neg hx, if_neg hx]
      exact .none
  | element a b _ _ _ => exact .arr _ _

/-- The only member of its kind in both objects. -/
theorem find_rel {R : Bytes → Json → Json → Prop} {p : Bytes × Json → Bool} (hpk : ∀ k v v', p (k, v) = p (k, v')) {l l' : List (Bytes × Json)}
    (hs : ∀ k, p (k, .null) = true → OptRel (R k) (lastVal k l) (lastVal k l')) (h : l.Pairwise fun a b => ¬ (p a = true ∧ p b = true))
    (h' : l'.Pairwise fun a b => ¬ (p a = true ∧ p b = true)) :
    (l.find? p = none ∧ l'.find? p = none) ∨ ∃ k v v', l.find? p = some (k, v) ∧ l'.find? p = some (k, v') ∧ R k v v' := by
  by_cases hex : ∃ kv ∈ l, p kv = true
  · obtain ⟨kv, hm, hp⟩ := hex
    obtain ⟨i1, i2, i3⟩ := find_once h hm hp
    obtain ⟨v, hv⟩ := Option.ne_none_iff_exists'.1 i2
    have hkv : (kv.1, v) = kv := i3 _ (lastVal_mem hv) (by rw [hpk _ v kv.2]; exact hp)
    have hs1 := hs kv.1 (by rw [hpk _ .null kv.2]; exact hp)
    rw [hv] at hs1
    cases hv' : lastVal kv.1 l' with
    | none => rw [hv'] at hs1; cases hs1
    | some v' =>
      rw [hv'] at hs1
      cases hs1 with
      | some r =>
        have hp' : p (kv.1, v') = true := by rw [hpk _ v' kv.2]; exact hp
        exact .inr ⟨kv.1, v, v', by rw [i1, hkv], (find_once h' (lastVal_mem hv') hp').1, r⟩
  · left
    refine ⟨?_, ?_⟩
    · rw [List.find?_eq_none]
      exact fun x hx hp => hex ⟨x, hx, hp⟩
    · rw [List.find?_eq_none]
      intro x hx hp
      obtain ⟨-, i2, -⟩ := find_once h' hx hp
      have hs1 := hs x.1 (by rw [hpk _ .null x.2]; exact hp)
      cases hl : lastVal x.1 l with
      | none =>
        rw [hl] at hs1
        cases hs' : lastVal x.1 l' with
        | none => exact i2 hs'
        | some v' => rw [hs'] at hs1; cases hs1
      | some v =>
        exact hex ⟨_, lastVal_mem hl, by rw [hpk _ v x.2]; exact hp⟩

theorem foundVal_adds {env : JsonEnv} {decl : List (F × FieldDecl)} {l l' : List (Bytes × Json)} {name : Bytes}
    (hs : ∀ k, ¬ Spec.UnknownKey (.fields decl) k → OptRel (RelKey env (.fields decl) k) (lastVal k l) (lastVal k l'))
    (hn : ∀ k, foldKey k = foldKey name → ¬ Spec.UnknownKey (.fields decl) k)
    (h : OnceKey name l) (h' : OnceKey name l') (old : Val) (ht : ∀ t, old ≠ .time t) : foundVal env name old l = foundVal env name old l' := by
  unfold foundVal
  rcases find_rel (R := RelKey env (.fields decl)) (keyIs_value name)
    (fun k hk => hs k (hn k (by rw [keyIs_iff, decide_eq_true_iff] at hk; exact hk))) h h' with ⟨a, b⟩ | ⟨k, v, v', a, b, c⟩
  · rw [a, b]
  · rw [a, b]
    rcases c with c | ⟨q, hq, -⟩
    · exact decodeVal_same c old ht
    · cases hq

theorem known_of {decl : List (F × FieldDecl)} (hl : Lettered decl) {p : F × FieldDecl} (hp : p ∈ decl) {k : Bytes} (h : foldKey k = foldKey p.2.json) :
    ¬ Spec.UnknownKey (.fields decl) k := by
  intro hu
  obtain ⟨h1, h2⟩ := smallWord_fold p.2.json (hl p hp)
  exact hu p hp (spells_digits _ h2 k (h.trans h1.symm))

theorem known_info (name : Bytes) (hn : name ∈ [b! "blockDescriptorWord", b! "recordDescriptorWord", b! "recordIdentifier"]) (k : Bytes)
    (h : foldKey k = foldKey name) : ¬ Spec.UnknownKey (.fields headerRecordStruct) k := by
  have hm : ∃ p ∈ headerRecordStruct, p.2.json = name := by
    simp only [List.mem_cons, List.not_mem_nil, or_false] at hn
    rcases hn with rfl | rfl | rfl <;> decide +kernel
  obtain ⟨p, hp, rfl⟩ := hm
  exact known_of lettered_header hp h

/-- The format is found alike in plain documents. -/
theorem decodeDummy_adds {env : JsonEnv} {j j' : Json} (h : Spec.AddsTo env .file j j') (hp : Spec.PlainFile j) (hp' : Spec.PlainFile j') :
    decodeDummy env j = decodeDummy env j' := by
  cases addKinds_of h with
  | same => rfl
  | arr => rfl
  | obj hs =>
    rename_i kvs kvs'
    show kvs.foldlM (decodeDummyMember env) none = kvs'.foldlM (decodeDummyMember env) none
    rw [foldlM_once (dummyMember_skip env) (onceKey_header hp.1), foldlM_once (dummyMember_skip env) (onceKey_header hp'.1)]
    have hsp : ∀ (k : Bytes) (v : Json), keyIs (b! "header") (k, v) = true → Spec.Spells Spec.foldOthers "header".toUTF8.data.toList k := by
      intro k v hk
      rw [← spells_fold _ headerWord_small, headerWord_eq]
      exact hk
    rcases find_rel (R := RelKey env .file) (keyIs_value (b! "header")) (fun k hk => hs k fun hu => hu.2.2 (hsp k _ hk)) (onceKey_header hp.1)
      (onceKey_header hp'.1) with ⟨a, b⟩ | ⟨k, v, v', a, b, c⟩
    · rw [a, b]
    · rw [a, b]
      have hk : keyIs (b! "header") (k, v) = true := List.find?_some a
      simp only [dummyMember_here env (k, v) hk, dummyMember_here env (k, v') hk]
      have p1 := hp.2 _ (List.mem_of_find?_eq_some a) (hsp k v hk)
      have p2 := hp'.2 _ (List.mem_of_find?_eq_some b) (hsp k v hk)
      have hadd : Spec.AddsTo env (.fields headerRecordStruct) v v' := by
        rcases c with c | ⟨q, hq, c⟩
        · exact .same c
        · have hq' := insideOf_eq hq
          have hq2 : q = .fields headerRecordStruct := by
            rw [keyIs_iff, decide_eq_true_iff] at hk
            simp only [insideOf] at hq'
            by_cases e : k = b! "header"
            · simp only [e, if_true] at hq'
              exact (Option.some.inj hq').symm
            · rw [if_neg e] at hq'
              by_cases e2 : k = b! "data"
              · rw [e2] at hk
                exact absurd hk (by show ¬ foldKey (b! "data") = foldKey (b! "header"); decide +kernel)
              · rw [if_neg e2] at hq'
                by_cases e3 : k = b! "trailer"
                · rw [e3] at hk
                  exact absurd hk (by show ¬ foldKey (b! "trailer") = foldKey (b! "header"); decide +kernel)
                · rw [if_neg e3] at hq'
                  cases hq'
          rw [← hq2]
          exact c
      cases addKinds_of hadd with
      | same => rfl
      | arr => rfl
      | obj hin =>
        rename_i l l'
        obtain ⟨q1, q2, q3⟩ := p1
        obtain ⟨q1', q2', q3'⟩ := p2
        show ((l.foldlM (decodeMember env headerInfoStruct) ([(.BlockDescriptorWord, .int 0), (.RecordDescriptorWord, .int 0), (.RecordIdentifier, .str [])] : Fields)).map some) =
          ((l'.foldlM (decodeMember env headerInfoStruct) ([(.BlockDescriptorWord, .int 0), (.RecordDescriptorWord, .int 0), (.RecordIdentifier, .str [])] : Fields)).map some)
        rw [info_once env (onceKey_block q1) (onceKey_record q2) (onceKey_ident q3),
          info_once env (onceKey_block q1') (onceKey_record q2') (onceKey_ident q3')]
        unfold infoFound
        rw [foundVal_adds hin (known_info _ (by simp)) (onceKey_block q1) (onceKey_block q1') _ (by intro t h; cases h),
          foundVal_adds hin (known_info _ (by simp)) (onceKey_record q2) (onceKey_record q2') _ (by intro t h; cases h),
          foundVal_adds hin (known_info _ (by simp)) (onceKey_ident q3) (onceKey_ident q3') _ (by intro t h; cases h)]

end Metro2
