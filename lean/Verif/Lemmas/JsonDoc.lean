import Verif.Spec.JsonDoc
import Verif.Lemmas.JsonOrder
import Verif.Lemmas.Server

/-! Documents that say the same are read with the same result. -/

namespace Metro2

/-! ### Sorted lists -/

theorem lookup_mapSet (k k' : Bytes) (v : Json) (l : List (Bytes × Json)) :
    (mapSet k v l).lookup k' = if k' = k then some v else l.lookup k' := by
  induction l with
  | nil =>
    simp only [mapSet, List.lookup]
    by_cases h : k' = k
    · subst h; simp
    · rw [if_neg h, beq_eq_false_iff_ne.2 h]
  | cons q rest ih =>
    obtain ⟨k2, v2⟩ := q
    simp only [mapSet]
    by_cases h1 : k = k2
    · subst h1
      rw [if_pos rfl]
      simp only [List.lookup_cons]
      by_cases h : k' = k
      · subst h; simp
      · rw [if_neg h, beq_eq_false_iff_ne.2 h]
    · rw [if_neg h1]
      by_cases h2 : keyLt k k2 = true
      · rw [if_pos h2]
        simp only [List.lookup_cons]
        by_cases h : k' = k
        · subst h; simp
        · rw [if_neg h, beq_eq_false_iff_ne.2 h]
      · rw [if_neg h2]
        simp only [List.lookup_cons, ih]
        by_cases h : k' = k
        · subst h
          simp [beq_eq_false_iff_ne.2 h1]
        · simp only [h, if_false]

theorem keyLt_asymm {a b : Bytes} (h : keyLt a b = true) : keyLt b a = false := by
  cases hb : keyLt b a with
  | false => rfl
  | true => exact absurd rfl (keyLt_ne (keyLt_trans h hb))

theorem lookup_none_of_lt {k : Bytes} {l : List (Bytes × Json)} (h : ∀ p ∈ l, keyLt k p.1 = true) : l.lookup k = none := by
  induction l with
  | nil => rfl
  | cons q rest ih =>
    rw [List.lookup_cons, beq_eq_false_iff_ne.2 (keyLt_ne (h q (by simp)))]
    exact ih fun p hp => h p (by simp [hp])

theorem Sorted.ext {l m : List (Bytes × Json)} (hl : Sorted l) (hm : Sorted m) (h : ∀ k, l.lookup k = m.lookup k) : l = m := by
  induction l generalizing m with
  | nil =>
    cases m with
    | nil => rfl
    | cons q m =>
      have := h q.1
      rw [List.lookup_cons, beq_self_eq_true] at this
      cases this
  | cons p l ih =>
    cases m with
    | nil =>
      have := h p.1
      rw [List.lookup_cons, beq_self_eq_true] at this
      cases this
    | cons q m =>
      obtain ⟨hl1, hl2⟩ := List.pairwise_cons.1 hl
      obtain ⟨hm1, hm2⟩ := List.pairwise_cons.1 hm
      have hk : p.1 = q.1 := by
        by_cases hpq : p.1 = q.1
        · exact hpq
        · have h1 := h p.1
          have h2 := h q.1
          rw [List.lookup_cons, List.lookup_cons, beq_self_eq_true, beq_eq_false_iff_ne.2 hpq] at h1
          rw [List.lookup_cons, List.lookup_cons, beq_self_eq_true, beq_eq_false_iff_ne.2 (Ne.symm hpq)] at h2
          simp only at h1 h2
          rcases Bool.eq_false_or_eq_true (keyLt p.1 q.1) with hlt | hlt
          · rw [lookup_none_of_lt (k := p.1) (l := m) fun x hx => keyLt_trans hlt (hm1 x hx)] at h1
            cases h1
          · have hlt' := keyLt_total hpq hlt
            rw [lookup_none_of_lt (k := q.1) (l := l) fun x hx => keyLt_trans hlt' (hl1 x hx)] at h2
            cases h2
      have hv : p.2 = q.2 := by
        have h1 := h p.1
        rw [List.lookup_cons, List.lookup_cons, beq_self_eq_true, hk, beq_self_eq_true] at h1
        exact Option.some.inj h1
      have hpq : p = q := Prod.ext hk hv
      subst hpq
      congr 1
      apply ih hl2 hm2
      intro k
      by_cases hkp : k = p.1
      · subst hkp
        rw [lookup_none_of_lt hl1, lookup_none_of_lt hm1]
      · have := h k
        rwa [List.lookup_cons, List.lookup_cons, beq_eq_false_iff_ne.2 hkp] at this

/-! ### The members of a map -/

/-- All members set in turn. -/
def setAll (ws acc : List (Bytes × Json)) : List (Bytes × Json) := ws.foldl (fun acc kv => mapSet kv.1 kv.2 acc) acc

/-- One member read. -/
def reEntry (env : JsonEnv) (kv : Bytes × Json) : Option (Bytes × Json) := (reJson env kv.2).map fun w => (kv.1, w)

theorem reObj_eq (env : JsonEnv) (kvs acc : List (Bytes × Json)) :
    reObj env kvs acc = (kvs.mapM (reEntry env)).map fun ws => setAll ws acc := by
  induction kvs generalizing acc with
  | nil => rfl
  | cons q kvs ih =>
    obtain ⟨k, v⟩ := q
    rw [List.mapM_cons]
    simp only [reObj, reEntry]
    cases reJson env v with
    | none => rfl
    | some w =>
      simp only [ih, Option.map_some, Option.bind_eq_bind, Option.bind_some]
      cases kvs.mapM (reEntry env) <;> rfl

/-- The last value of a key. -/
def lastVal (k : Bytes) : List (Bytes × Json) → Option Json
  | [] => none
  | (k', v) :: rest =>
    match lastVal k rest with
    | some w => some w
    | none => if k = k' then some v else none

theorem lastVal_append (k : Bytes) (a b : List (Bytes × Json)) : lastVal k (a ++ b) = (lastVal k b).or (lastVal k a) := by
  induction a with
  | nil => simp [lastVal]
  | cons q a ih =>
    obtain ⟨k', v⟩ := q
    rw [List.cons_append, lastVal, ih, lastVal]
    cases lastVal k b <;> simp

theorem sorted_setAll {ws acc : List (Bytes × Json)} (h : Sorted acc) : Sorted (setAll ws acc) := by
  induction ws generalizing acc with
  | nil => exact h
  | cons q ws ih => exact ih (sorted_mapSet h)

theorem lookup_setAll (k : Bytes) (ws acc : List (Bytes × Json)) : (setAll ws acc).lookup k = (lastVal k ws).or (acc.lookup k) := by
  induction ws generalizing acc with
  | nil => simp [setAll, lastVal]
  | cons q ws ih =>
    obtain ⟨k', v⟩ := q
    show (setAll ws (mapSet k' v acc)).lookup k = _
    rw [ih, lookup_mapSet, lastVal]
    cases lastVal k ws with
    | some w => rfl
    | none =>
      by_cases h : k = k'
      · rw [if_pos h, if_pos h]; rfl
      · rw [if_neg h, if_neg h]

theorem setAll_ext {ws ws' : List (Bytes × Json)} (h : ∀ k, lastVal k ws = lastVal k ws') : setAll ws [] = setAll ws' [] := by
  refine Sorted.ext (sorted_setAll List.Pairwise.nil) (sorted_setAll List.Pairwise.nil) fun k => ?_
  rw [lookup_setAll, lookup_setAll, h k]

theorem mapM_append {α β : Type} (f : α → Option β) (a b : List α) :
    (a ++ b).mapM f = (a.mapM f).bind fun x => (b.mapM f).map fun y => x ++ y := by
  rw [List.mapM_append]
  cases a.mapM f with
  | none => rfl
  | some x =>
    simp only [Option.bind_eq_bind, Option.bind_some]
    cases b.mapM f <;> rfl

theorem mapM_cons' {α β : Type} (f : α → Option β) (a : α) (l : List α) : (a :: l).mapM f = (f a).bind fun x => (l.mapM f).map fun y => x :: y := by
  rw [List.mapM_cons]
  cases f a with
  | none => rfl
  | some x =>
    simp only [Option.bind_eq_bind, Option.bind_some]
    cases l.mapM f <;> rfl

theorem reJson_numbersOk {env : JsonEnv} {j : Json} (h : Spec.NumbersOk env j) : ∃ w, reJson env j = some w := by
  induction h with
  | null => exact ⟨_, rfl⟩
  | bool b => exact ⟨_, rfl⟩
  | num h =>
    rename_i lit
    obtain ⟨w, hw⟩ := Option.ne_none_iff_exists'.1 h
    exact ⟨.num w, by rw [reJson, hw]; rfl⟩
  | str s => exact ⟨_, rfl⟩
  | arr hn ih =>
    rename_i xs
    have : ∃ ys, reList env xs = some ys := by
      induction xs with
      | nil => exact ⟨[], rfl⟩
      | cons x xs ih2 =>
        obtain ⟨y, hy⟩ := ih x (by simp)
        obtain ⟨ys, hys⟩ := ih2 (fun x hx => hn x (by simp [hx])) fun x hx => ih x (by simp [hx])
        exact ⟨y :: ys, by rw [reList, hy]; simp only [hys]; rfl⟩
    obtain ⟨ys, h⟩ := this
    exact ⟨.arr ys, by rw [reJson, h]; rfl⟩
  | obj hn ih =>
    rename_i kvs
    have : ∀ acc, ∃ l, reObj env kvs acc = some l := by
      induction kvs with
      | nil => intro acc; exact ⟨acc, rfl⟩
      | cons q kvs ih2 =>
        intro acc
        obtain ⟨k, v⟩ := q
        obtain ⟨y, hy⟩ := ih (k, v) (by simp)
        obtain ⟨l, hl⟩ := ih2 (fun x hx => hn x (by simp [hx])) (fun x hx => ih x (by simp [hx])) (mapSet k y acc)
        exact ⟨l, by rw [reObj, hy]; exact hl⟩
    obtain ⟨l, h⟩ := this []
    exact ⟨.obj l, by rw [reJson, h]; rfl⟩

theorem reList_eq (env : JsonEnv) (xs : List Json) : reList env xs = xs.mapM (reJson env) := by
  induction xs with
  | nil => rfl
  | cons x xs ih =>
    rw [List.mapM_cons, reList, ih]
    cases reJson env x with
    | none => rfl
    | some y => cases xs.mapM (reJson env) <;> rfl

theorem reJson_obj (env : JsonEnv) (kvs : List (Bytes × Json)) :
    reJson env (.obj kvs) = (kvs.mapM (reEntry env)).map fun ws => .obj (setAll ws []) := by
  rw [reJson, reObj_eq, Option.map_map]
  rfl

/-- Documents that say the same are the same after reading. -/
theorem reJson_same {env : JsonEnv} {j j' : Json} (h : Spec.SameDoc env j j') : reJson env j = reJson env j' := by
  induction h with
  | refl => rfl
  | symm _ ih => exact ih.symm
  | trans _ _ ih1 ih2 => exact ih1.trans ih2
  | swap a b v v' hk =>
    rename_i k k'
    rw [reJson_obj, reJson_obj]
    simp only [mapM_append, mapM_cons', reEntry]
    cases a.mapM (reEntry env) with
    | none => rfl
    | some x =>
      cases reJson env v with
      | none =>
        cases reJson env v' with
        | none => rfl
        | some w' => rfl
      | some w =>
        cases reJson env v' with
        | none => rfl
        | some w' =>
          cases b.mapM (reEntry env) with
          | none => rfl
          | some y =>
            simp only [Option.map_some, Option.bind_some, Option.some.injEq, Json.obj.injEq]
            apply setAll_ext
            intro q
            rw [lastVal_append, lastVal_append]
            congr 1
            simp only [lastVal]
            cases lastVal q y with
            | some _ => rfl
            | none =>
              by_cases h1 : q = k
              · subst h1
                simp [hk]
              · by_cases h2 : q = k' <;> simp [h1, h2, Ne.symm hk]
  | repeated a b c k v' hv =>
    rename_i v
    obtain ⟨w, hw⟩ := reJson_numbersOk hv
    rw [reJson_obj, reJson_obj]
    simp only [mapM_append, mapM_cons', reEntry, hw]
    cases a.mapM (reEntry env) with
    | none => rfl
    | some x =>
      cases b.mapM (reEntry env) with
      | none => rfl
      | some y =>
        cases reJson env v' with
        | none => rfl
        | some w' =>
          cases c.mapM (reEntry env) with
          | none => rfl
          | some z =>
            simp only [Option.map_some, Option.bind_some, Option.some.injEq, Json.obj.injEq]
            apply setAll_ext
            intro q
            rw [lastVal_append, lastVal_append]
            congr 1
            rw [lastVal, lastVal_append]
            simp only [lastVal]
            cases lastVal q z with
            | some _ => rfl
            | none =>
              by_cases h1 : q = k
              · simp [h1]
              · simp only [h1, if_false]
                cases (none : Option Json).or (lastVal q y) <;> rfl
  | member a b k _ ih =>
    rw [reJson_obj, reJson_obj]
    simp only [mapM_append, mapM_cons', reEntry, ih]
  | element a b _ ih =>
    rw [reJson, reJson, reList_eq, reList_eq]
    simp only [mapM_append, mapM_cons', ih]

/-! ### What the documents have in common -/

/-- Both values are missing, or they say the same. -/
def SameOpt (env : JsonEnv) : Option Json → Option Json → Prop
  | none, none => True
  | some v, some v' => Spec.SameDoc env v v'
  | _, _ => False

theorem SameOpt.refl (env : JsonEnv) (o : Option Json) : SameOpt env o o := by
  cases o with
  | none => trivial
  | some v => exact Spec.SameDoc.refl v

theorem SameOpt.symm {env : JsonEnv} {o o' : Option Json} (h : SameOpt env o o') : SameOpt env o' o := by
  cases o <;> cases o' <;> first | trivial | exact h.elim | exact Spec.SameDoc.symm h

theorem SameOpt.trans {env : JsonEnv} {o o' o'' : Option Json} (h : SameOpt env o o') (h' : SameOpt env o' o'') : SameOpt env o o'' := by
  cases o <;> cases o' <;> cases o'' <;> first | trivial | exact h.elim | exact h'.elim | exact Spec.SameDoc.trans h h'

theorem SameOpt.or {env : JsonEnv} {o o' p p' : Option Json} (h : SameOpt env o o') (h' : SameOpt env p p') : SameOpt env (o.or p) (o'.or p') := by
  cases o <;> cases o' <;> first | exact h' | exact h.elim | exact h

theorem lastVal_cons (q k : Bytes) (v : Json) (l : List (Bytes × Json)) : lastVal q ((k, v) :: l) = (lastVal q l).or (if q = k then some v else none) := by
  rw [lastVal]
  cases lastVal q l <;> rfl

/-- The kinds of the two documents. -/
inductive Kinds (env : JsonEnv) : Json → Json → Prop
  | same (j : Json) : Kinds env j j
  | arr (xs ys : List Json) : Kinds env (.arr xs) (.arr ys)
  | obj {kvs kvs' : List (Bytes × Json)} : (∀ k, SameOpt env (lastVal k kvs) (lastVal k kvs')) → Kinds env (.obj kvs) (.obj kvs')

theorem kinds_of {env : JsonEnv} {j j' : Json} (h : Spec.SameDoc env j j') : Kinds env j j' := by
  induction h with
  | refl j => exact .same j
  | symm _ ih =>
    cases ih with
    | same => exact .same _
    | arr => exact .arr _ _
    | obj h => exact .obj fun k => (h k).symm
  | trans _ _ ih1 ih2 =>
    cases ih1 with
    | same => exact ih2
    | arr =>
      cases ih2 with
      | same => exact .arr _ _
      | arr => exact .arr _ _
    | obj h =>
      cases ih2 with
      | same => exact .obj h
      | obj h' => exact .obj fun k => (h k).trans (h' k)
  | swap a b v v' hk =>
    rename_i k k'
    refine .obj fun q => ?_
    rw [lastVal_append, lastVal_append]
    refine SameOpt.or ?_ (SameOpt.refl _ _)
    simp only [lastVal_cons]
    have : ((lastVal q b).or (if q = k' then some v' else none)).or (if q = k then some v else none) =
        ((lastVal q b).or (if q = k then some v else none)).or (if q = k' then some v' else none) := by
      cases lastVal q b with
      | some _ => rfl
      | none =>
        by_cases h1 : q = k
        · subst h1; simp [hk]
        · by_cases h2 : q = k' <;> simp [h1, h2, Ne.symm hk]
    rw [this]
    exact SameOpt.refl _ _
  | repeated a b c k v' hv =>
    rename_i v
    refine .obj fun q => ?_
    rw [lastVal_append, lastVal_append]
    refine SameOpt.or ?_ (SameOpt.refl _ _)
    rw [lastVal_cons, lastVal_append, lastVal_cons]
    have : (((lastVal q c).or (if q = k then some v' else none)).or (lastVal q b)).or (if q = k then some v else none) =
        ((lastVal q c).or (if q = k then some v' else none)).or (lastVal q b) := by
      cases lastVal q c with
      | some _ => rfl
      | none =>
        by_cases h1 : q = k
        · simp [h1]
        · simp only [h1, if_false]
          cases lastVal q b <;> rfl
    rw [this]
    exact SameOpt.refl _ _
  | member a b k h _ =>
    refine .obj fun q => ?_
    rw [lastVal_append, lastVal_append, lastVal_cons, lastVal_cons]
    refine SameOpt.or (SameOpt.or (SameOpt.refl _ _) ?_) (SameOpt.refl _ _)
    by_cases hq : q = k
    · rw [if_pos hq, if_pos hq]; exact h
    · rw [if_neg hq, if_neg hq]; trivial
  | element a b _ _ => exact .arr _ _

/-! ### Members that occur once -/

theorem find_once {p : Bytes × Json → Bool} {l : List (Bytes × Json)} (h : l.Pairwise fun a b => ¬ (p a = true ∧ p b = true)) {kv : Bytes × Json}
    (hm : kv ∈ l) (hp : p kv = true) : l.find? p = some kv ∧ lastVal kv.1 l ≠ none ∧ ∀ x ∈ l, p x = true → x = kv := by
  induction l with
  | nil => cases hm
  | cons q l ih =>
    obtain ⟨h1, h2⟩ := List.pairwise_cons.1 h
    rcases List.mem_cons.1 hm with rfl | hm
    · refine ⟨by rw [List.find?_cons_of_pos hp], ?_, ?_⟩
      · obtain ⟨k, v⟩ := kv
        rw [lastVal_cons]
        cases lastVal k l <;> simp
      · intro x hx hpx
        rcases List.mem_cons.1 hx with rfl | hx
        · rfl
        · exact absurd ⟨hp, hpx⟩ (h1 x hx)
    · obtain ⟨i1, i2, i3⟩ := ih h2 hm
      have hq : ¬ p q = true := fun hq => h1 kv hm ⟨hq, hp⟩
      refine ⟨by rw [List.find?_cons_of_neg hq]; exact i1, ?_, ?_⟩
      · obtain ⟨k, v⟩ := q
        rw [lastVal_cons]
        cases hl : lastVal kv.1 l with
        | none => exact absurd hl i2
        | some _ => simp
      · intro x hx hpx
        rcases List.mem_cons.1 hx with rfl | hx
        · exact absurd hpx hq
        · exact i3 x hx hpx

theorem lastVal_mem {k : Bytes} {l : List (Bytes × Json)} {v : Json} (h : lastVal k l = some v) : (k, v) ∈ l := by
  induction l with
  | nil => cases h
  | cons q l ih =>
    obtain ⟨k', v'⟩ := q
    rw [lastVal_cons] at h
    cases hl : lastVal k l with
    | some w =>
      rw [hl] at h
      cases h
      exact List.mem_cons_of_mem _ (ih hl)
    | none =>
      rw [hl] at h
      by_cases hk : k = k'
      · subst hk
        simp at h
        simp [h]
      · simp [hk] at h

/-- The only member of its kind in both objects. -/
theorem find_same {env : JsonEnv} {p : Bytes × Json → Bool} (hpk : ∀ k v v', p (k, v) = p (k, v')) {l l' : List (Bytes × Json)}
    (hs : ∀ k, SameOpt env (lastVal k l) (lastVal k l')) (h : l.Pairwise fun a b => ¬ (p a = true ∧ p b = true))
    (h' : l'.Pairwise fun a b => ¬ (p a = true ∧ p b = true)) :
    (l.find? p = none ∧ l'.find? p = none) ∨ ∃ k v v', l.find? p = some (k, v) ∧ l'.find? p = some (k, v') ∧ Spec.SameDoc env v v' := by
  have go : ∀ {l l' : List (Bytes × Json)}, (∀ k, SameOpt env (lastVal k l) (lastVal k l')) →
      l.Pairwise (fun a b => ¬ (p a = true ∧ p b = true)) → l'.Pairwise (fun a b => ¬ (p a = true ∧ p b = true)) →
      ∀ kv ∈ l, p kv = true → ∃ v', l.find? p = some kv ∧ l'.find? p = some (kv.1, v') ∧ Spec.SameDoc env kv.2 v' := by
    intro l l' hs h h' kv hm hp
    obtain ⟨i1, i2, i3⟩ := find_once h hm hp
    obtain ⟨v, hv⟩ := Option.ne_none_iff_exists'.1 i2
    have hvm := lastVal_mem hv
    have : (kv.1, v) = kv := i3 _ hvm (by rw [hpk _ v kv.2]; exact hp)
    have hs1 := hs kv.1
    rw [hv] at hs1
    cases hv' : lastVal kv.1 l' with
    | none => rw [hv'] at hs1; exact hs1.elim
    | some v' =>
      rw [hv'] at hs1
      have hp' : p (kv.1, v') = true := by rw [hpk _ v' kv.2]; exact hp
      obtain ⟨j1, -, -⟩ := find_once h' (lastVal_mem hv') hp'
      refine ⟨v', i1, j1, ?_⟩
      rw [← this]
      exact hs1
  by_cases hex : ∃ kv ∈ l, p kv = true
  · obtain ⟨kv, hm, hp⟩ := hex
    obtain ⟨v', a, b, c⟩ := go hs h h' kv hm hp
    exact Or.inr ⟨kv.1, kv.2, v', a, b, c⟩
  · left
    refine ⟨?_, ?_⟩
    · rw [List.find?_eq_none]
      exact fun x hx hp => hex ⟨x, hx, hp⟩
    · rw [List.find?_eq_none]
      intro x hx hp
      obtain ⟨v', -, b, -⟩ := go (fun k => (hs k).symm) h' h x hx hp
      have := List.mem_of_find?_eq_some b
      exact hex ⟨_, this, List.find?_some b⟩

theorem foldlM_once {σ : Type} {step : σ → Bytes × Json → Option σ} {p : Bytes × Json → Bool} (hstep : ∀ s a, p a = false → step s a = some s)
    {l : List (Bytes × Json)} (h : l.Pairwise fun a b => ¬ (p a = true ∧ p b = true)) (s : σ) :
    l.foldlM step s = match l.find? p with
      | none => some s
      | some a => step s a := by
  have skip : ∀ (l : List (Bytes × Json)) (s : σ), (∀ a ∈ l, p a = false) → l.foldlM step s = some s := by
    intro l
    induction l with
    | nil => intro s _; rfl
    | cons a l ih =>
      intro s h
      rw [List.foldlM_cons, hstep s a (h a (by simp))]
      exact ih s fun x hx => h x (by simp [hx])
  induction l generalizing s with
  | nil => rfl
  | cons a l ih =>
    obtain ⟨h1, h2⟩ := List.pairwise_cons.1 h
    rw [List.foldlM_cons]
    cases hp : p a with
    | false =>
      rw [hstep s a hp, List.find?_cons_of_neg (by simp [hp])]
      exact ih h2 s
    | true =>
      rw [List.find?_cons_of_pos hp]
      simp only
      cases hs : step s a with
      | none => rfl
      | some s' =>
        exact skip l s' fun x hx => by
          cases hx' : p x with
          | false => rfl
          | true => exact absurd ⟨hp, hx'⟩ (h1 x hx)

/-! ### The format -/

/-- The key is this one, apart from case. -/
def keyIs (name : Bytes) (kv : Bytes × Json) : Bool := equalFold kv.1 name

theorem foldKey_info : foldKey (b! "blockDescriptorWord") ≠ foldKey (b! "recordDescriptorWord") ∧
    foldKey (b! "blockDescriptorWord") ≠ foldKey (b! "recordIdentifier") ∧
    foldKey (b! "recordDescriptorWord") ≠ foldKey (b! "recordIdentifier") := by decide +kernel

theorem fieldOf_info (key : Bytes) : fieldOf headerInfoStruct key =
    if foldKey key = foldKey (b! "blockDescriptorWord") then some .BlockDescriptorWord
    else if foldKey key = foldKey (b! "recordDescriptorWord") then some .RecordDescriptorWord
    else if foldKey key = foldKey (b! "recordIdentifier") then some .RecordIdentifier else none := by
  obtain ⟨h1, h2, h3⟩ := foldKey_info
  unfold fieldOf headerInfoStruct
  generalize b! "blockDescriptorWord" = x at *
  generalize b! "recordDescriptorWord" = y at *
  generalize b! "recordIdentifier" = z at *
  simp only [List.find?]
  by_cases ex : x = key
  · subst ex
    simp
  · by_cases ey : y = key
    · subst ey
      simp [ex, Ne.symm h1]
    · by_cases ez : z = key
      · subst ez
        simp [ex, ey, Ne.symm h2, Ne.symm h3]
      · simp only [ex, ey, ez, decide_false]
        by_cases fx : foldKey x = foldKey key
        · simp [fx]
        · by_cases fy : foldKey y = foldKey key
          · simp [fx, fy, Ne.symm fx]
          · by_cases fz : foldKey z = foldKey key
            · simp [fx, fy, fz, Ne.symm fx, Ne.symm fy]
            · simp [fx, fy, fz, Ne.symm fx, Ne.symm fy, Ne.symm fz]

/-- The value of the only member with this key. -/
def foundVal (env : JsonEnv) (name : Bytes) (old : Val) (l : List (Bytes × Json)) : Option Val :=
  match l.find? (keyIs name) with
  | none => some old
  | some kv => decodeVal env old kv.2

def OnceKey (name : Bytes) (l : List (Bytes × Json)) : Prop := l.Pairwise fun a b => ¬ (keyIs name a = true ∧ keyIs name b = true)

theorem foundVal_skip {env : JsonEnv} {name : Bytes} {old : Val} {kv : Bytes × Json} {l : List (Bytes × Json)} (h : keyIs name kv = false) :
    foundVal env name old (kv :: l) = foundVal env name old l := by
  unfold foundVal
  rw [List.find?_cons_of_neg (by simp [h])]

theorem foundVal_here {env : JsonEnv} {name : Bytes} {old : Val} {kv : Bytes × Json} {l : List (Bytes × Json)} (h : keyIs name kv = true) :
    foundVal env name old (kv :: l) = decodeVal env old kv.2 := by
  unfold foundVal
  rw [List.find?_cons_of_pos h]

theorem foundVal_none {env : JsonEnv} {name : Bytes} {old : Val} {kv : Bytes × Json} {l : List (Bytes × Json)} (ho : OnceKey name (kv :: l))
    (h : keyIs name kv = true) : foundVal env name old l = some old := by
  unfold foundVal
  have : l.find? (keyIs name) = none := by
    rw [List.find?_eq_none]
    exact fun x hx hk => (List.pairwise_cons.1 ho).1 x hx ⟨h, hk⟩
  rw [this]

/-- What the three members give. -/
def infoFound (env : JsonEnv) (b r s : Val) (l : List (Bytes × Json)) : Option Fields :=
  (foundVal env (b! "blockDescriptorWord") b l).bind fun b =>
  (foundVal env (b! "recordDescriptorWord") r l).bind fun r =>
  (foundVal env (b! "recordIdentifier") s l).map fun s =>
    [(.BlockDescriptorWord, b), (.RecordDescriptorWord, r), (.RecordIdentifier, s)]

theorem keyIs_iff (name : Bytes) (kv : Bytes × Json) : keyIs name kv = decide (foldKey kv.1 = foldKey name) := rfl

theorem info_once (env : JsonEnv) {l : List (Bytes × Json)} (hb : OnceKey (b! "blockDescriptorWord") l)
    (hr : OnceKey (b! "recordDescriptorWord") l) (hs : OnceKey (b! "recordIdentifier") l) (b r s : Val) :
    l.foldlM (decodeMember env headerInfoStruct) [(.BlockDescriptorWord, b), (.RecordDescriptorWord, r), (.RecordIdentifier, s)] =
      infoFound env b r s l := by
  induction l generalizing b r s with
  | nil => rfl
  | cons kv l ih =>
    obtain ⟨h1, h2, h3⟩ := foldKey_info
    have ih := ih (List.pairwise_cons.1 hb).2 (List.pairwise_cons.1 hr).2 (List.pairwise_cons.1 hs).2
    rw [List.foldlM_cons]
    unfold decodeMember
    rw [fieldOf_info]
    by_cases fb : foldKey kv.1 = foldKey (b! "blockDescriptorWord")
    · have kb : keyIs (b! "blockDescriptorWord") kv = true := by rw [keyIs_iff, decide_eq_true_iff]; exact fb
      have kr : keyIs (b! "recordDescriptorWord") kv = false := by rw [keyIs_iff, decide_eq_false_iff_not, fb]; exact h1
      have ks : keyIs (b! "recordIdentifier") kv = false := by rw [keyIs_iff, decide_eq_false_iff_not, fb]; exact h2
      rw [if_pos fb]
      unfold infoFound
      rw [foundVal_here kb, foundVal_skip kr, foundVal_skip ks]
      show ((decodeVal env b kv.2).map fun v => _).bind _ = _
      cases decodeVal env b kv.2 with
      | none => rfl
      | some b' =>
        show l.foldlM (decodeMember env headerInfoStruct) ([(.BlockDescriptorWord, b'), (.RecordDescriptorWord, r), (.RecordIdentifier, s)] : Fields) = _
        rw [ih]
        unfold infoFound
        rw [foundVal_none hb kb]
    · have kb : keyIs (b! "blockDescriptorWord") kv = false := by rw [keyIs_iff, decide_eq_false_iff_not]; exact fb
      rw [if_neg fb]
      by_cases fr : foldKey kv.1 = foldKey (b! "recordDescriptorWord")
      · have kr : keyIs (b! "recordDescriptorWord") kv = true := by rw [keyIs_iff, decide_eq_true_iff]; exact fr
        have ks : keyIs (b! "recordIdentifier") kv = false := by rw [keyIs_iff, decide_eq_false_iff_not, fr]; exact h3
        rw [if_pos fr]
        unfold infoFound
        rw [foundVal_skip kb, foundVal_here kr, foundVal_skip ks]
        show ((decodeVal env r kv.2).map fun v => _).bind _ = _
        cases decodeVal env r kv.2 with
        | none => cases foundVal env (b! "blockDescriptorWord") b l <;> rfl
        | some r' =>
          show l.foldlM (decodeMember env headerInfoStruct) ([(.BlockDescriptorWord, b), (.RecordDescriptorWord, r'), (.RecordIdentifier, s)] : Fields) = _
          rw [ih]
          unfold infoFound
          rw [foundVal_none hr kr]
      · have kr : keyIs (b! "recordDescriptorWord") kv = false := by rw [keyIs_iff, decide_eq_false_iff_not]; exact fr
        rw [if_neg fr]
        by_cases fs : foldKey kv.1 = foldKey (b! "recordIdentifier")
        · have ks : keyIs (b! "recordIdentifier") kv = true := by rw [keyIs_iff, decide_eq_true_iff]; exact fs
          rw [if_pos fs]
          unfold infoFound
          rw [foundVal_skip kb, foundVal_skip kr, foundVal_here ks]
          show ((decodeVal env s kv.2).map fun v => _).bind _ = _
          cases decodeVal env s kv.2 with
          | none => cases foundVal env (b! "blockDescriptorWord") b l <;> cases foundVal env (b! "recordDescriptorWord") r l <;> rfl
          | some s' =>
            show l.foldlM (decodeMember env headerInfoStruct) ([(.BlockDescriptorWord, b), (.RecordDescriptorWord, r), (.RecordIdentifier, s')] : Fields) = _
            rw [ih]
            unfold infoFound
            rw [foundVal_none hs ks]
        · have ks : keyIs (b! "recordIdentifier") kv = false := by rw [keyIs_iff, decide_eq_false_iff_not]; exact fs
          rw [if_neg fs]
          unfold infoFound
          rw [foundVal_skip kb, foundVal_skip kr, foundVal_skip ks]
          exact ih b r s

/-- Numbers and texts are read from atoms only. -/
theorem decodeVal_same {env : JsonEnv} {v v' : Json} (h : Spec.SameDoc env v v') (old : Val) (ht : ∀ t, old ≠ .time t) :
    decodeVal env old v = decodeVal env old v' := by
  cases kinds_of h with
  | same => rfl
  | arr xs ys =>
    cases old with
    | int i => rfl
    | str s => rfl
    | time t => exact absurd rfl (ht t)
  | obj _ =>
    cases old with
    | int i => rfl
    | str s => rfl
    | time t => exact absurd rfl (ht t)

theorem keyIs_value (name k : Bytes) (v v' : Json) : keyIs name (k, v) = keyIs name (k, v') := rfl

theorem foundVal_same {env : JsonEnv} {l l' : List (Bytes × Json)} (hs : ∀ k, SameOpt env (lastVal k l) (lastVal k l')) {name : Bytes}
    (h : OnceKey name l) (h' : OnceKey name l') (old : Val) (ht : ∀ t, old ≠ .time t) : foundVal env name old l = foundVal env name old l' := by
  unfold foundVal
  rcases find_same (keyIs_value name) hs h h' with ⟨a, b⟩ | ⟨k, v, v', a, b, c⟩
  · rw [a, b]
  · rw [a, b]
    exact decodeVal_same c old ht

theorem onceKey_of {word : String} {name : Bytes} (hw : ∀ c ∈ word.toUTF8.data.toList, 97 ≤ c ∧ c ≤ 122)
    (hn : foldKey word.toUTF8.data.toList = foldKey name) {l : List (Bytes × Json)} (h : Spec.Once word l) : OnceKey name l := by
  refine List.Pairwise.imp ?_ h
  intro a b hab ⟨ha, hb⟩
  have : ∀ kv : Bytes × Json, keyIs name kv = true → Spec.Spells Spec.foldOthers word.toUTF8.data.toList kv.1 := by
    intro kv hk
    rw [← spells_fold _ hw, equalFold, decide_eq_true_iff, hn]
    rw [keyIs_iff, decide_eq_true_iff] at hk
    exact hk
  exact hab ⟨this a ha, this b hb⟩

theorem onceKey_block {l : List (Bytes × Json)} (h : Spec.Once "blockdescriptorword" l) : OnceKey (b! "blockDescriptorWord") l :=
  onceKey_of (by decide +kernel) (by decide +kernel) h
theorem onceKey_record {l : List (Bytes × Json)} (h : Spec.Once "recorddescriptorword" l) : OnceKey (b! "recordDescriptorWord") l :=
  onceKey_of (by decide +kernel) (by decide +kernel) h
theorem onceKey_ident {l : List (Bytes × Json)} (h : Spec.Once "recordidentifier" l) : OnceKey (b! "recordIdentifier") l :=
  onceKey_of (by decide +kernel) (by decide +kernel) h
theorem onceKey_header {l : List (Bytes × Json)} (h : Spec.Once "header" l) : OnceKey (b! "header") l :=
  onceKey_of (by decide +kernel) (by decide +kernel) h

theorem headerWord_small : ∀ c ∈ "header".toUTF8.data.toList, 97 ≤ c ∧ c ≤ 122 := by decide +kernel
theorem headerWord_eq : "header".toUTF8.data.toList = b! "header" := by decide +kernel

theorem dummyMember_skip (env : JsonEnv) (s : Option Fields) (kv : Bytes × Json) (h : keyIs (b! "header") kv = false) :
    decodeDummyMember env s kv = some s := by
  rw [keyIs_iff, decide_eq_false_iff_not] at h
  unfold decodeDummyMember
  exact if_neg fun hc => h (hc.elim (fun e => congrArg foldKey e) id)

theorem dummyMember_here (env : JsonEnv) (kv : Bytes × Json) (h : keyIs (b! "header") kv = true) :
    decodeDummyMember env none kv = match kv.2 with
      | .null => some none
      | j => (decodeStruct env headerInfoStruct (zeroFields headerInfoStruct) j).map some := by
  rw [keyIs_iff, decide_eq_true_iff] at h
  unfold decodeDummyMember
  rw [if_pos (Or.inr h)]
  cases kv.2 <;> rfl

/-- The format is found alike in plain documents that say the same. -/
theorem decodeDummy_same {env : JsonEnv} {j j' : Json} (h : Spec.SameDoc env j j') (hp : Spec.PlainFile j) (hp' : Spec.PlainFile j') :
    decodeDummy env j = decodeDummy env j' := by
  cases kinds_of h with
  | same => rfl
  | arr => rfl
  | obj hs =>
    rename_i kvs kvs'
    show kvs.foldlM (decodeDummyMember env) none = kvs'.foldlM (decodeDummyMember env) none
    rw [foldlM_once (dummyMember_skip env) (onceKey_header hp.1), foldlM_once (dummyMember_skip env) (onceKey_header hp'.1)]
    rcases find_same (keyIs_value (b! "header")) hs (onceKey_header hp.1) (onceKey_header hp'.1) with ⟨a, b⟩ | ⟨k, v, v', a, b, c⟩
    · rw [a, b]
    · rw [a, b]
      have hk : keyIs (b! "header") (k, v) = true := List.find?_some a
      have hsp : Spec.Spells Spec.foldOthers "header".toUTF8.data.toList k := by
        rw [← spells_fold _ headerWord_small, headerWord_eq]
        exact hk
      simp only [dummyMember_here env (k, v) hk, dummyMember_here env (k, v') hk]
      have p1 := hp.2 _ (List.mem_of_find?_eq_some a) hsp
      have p2 := hp'.2 _ (List.mem_of_find?_eq_some b) hsp
      cases kinds_of c with
      | same => rfl
      | arr => rfl
      | obj hin =>
        rename_i l l'
        obtain ⟨q1, q2, q3⟩ := p1
        obtain ⟨q1', q2', q3'⟩ := p2
        show ((l.foldlM (decodeMember env headerInfoStruct) [(.BlockDescriptorWord, .int 0), (.RecordDescriptorWord, .int 0), (.RecordIdentifier, .str [])]).map some) =
          ((l'.foldlM (decodeMember env headerInfoStruct) [(.BlockDescriptorWord, .int 0), (.RecordDescriptorWord, .int 0), (.RecordIdentifier, .str [])]).map some)
        rw [info_once env (onceKey_block q1) (onceKey_record q2) (onceKey_ident q3),
          info_once env (onceKey_block q1') (onceKey_record q2') (onceKey_ident q3')]
        unfold infoFound
        rw [foundVal_same hin (onceKey_block q1) (onceKey_block q1') _ (by intro t h; cases h),
          foundVal_same hin (onceKey_record q2) (onceKey_record q2') _ (by intro t h; cases h),
          foundVal_same hin (onceKey_ident q3) (onceKey_ident q3') _ (by intro t h; cases h)]

/-- Maps are read alike from documents that say the same. -/
theorem decodeMap_same {env : JsonEnv} {j j' : Json} (h : Spec.SameDoc env j j') : decodeMap env j = decodeMap env j' := by
  have hr := reJson_same h
  cases kinds_of h with
  | same => rfl
  | arr => rfl
  | obj hs =>
    rename_i kvs kvs'
    rw [reJson, reJson] at hr
    show reObj env kvs [] = reObj env kvs' []
    cases h1 : reObj env kvs [] with
    | none =>
      cases h2 : reObj env kvs' [] with
      | none => rfl
      | some y => rw [h1, h2] at hr; cases hr
    | some x =>
      cases h2 : reObj env kvs' [] with
      | none => rw [h1, h2] at hr; cases hr
      | some y => rw [h1, h2] at hr; cases hr; rfl

end Metro2
