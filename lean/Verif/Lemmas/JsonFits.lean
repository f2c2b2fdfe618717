import Verif.Lemmas.JsonExtra
import Verif.Lemmas.ParseInt
import Verif.Props.Answers
import Verif.Spec.JsonFits

/-! Which documents the library can read. -/

namespace Metro2

theorem lastMember_iff {kvs : List (Bytes × Json)} {k : Bytes} {v : Json} : Spec.LastMember kvs k v ↔ lastVal k kvs = some v := by
  constructor
  · rintro ⟨a, b, rfl, hb⟩
    have hn : lastVal k b = none := by
      cases hl : lastVal k b with
      | none => rfl
      | some w => exact absurd rfl (hb _ (lastVal_mem hl))
    rw [lastVal_append, lastVal_cons, hn]
    simp
  · intro h
    induction kvs with
    | nil => cases h
    | cons q l ih =>
      obtain ⟨k', v'⟩ := q
      rw [lastVal_cons] at h
      cases hl : lastVal k l with
      | some w =>
        rw [hl] at h
        cases h
        obtain ⟨a, b, h1, h2⟩ := ih hl
        exact ⟨(k', v') :: a, b, by rw [h1]; rfl, h2⟩
      | none =>
        rw [hl] at h
        by_cases hk : k = k'
        · subst hk
          simp only [if_true, Option.none_or, Option.some.injEq] at h
          subst h
          refine ⟨[], l, rfl, ?_⟩
          intro kv hkv he
          obtain ⟨k2, v2⟩ := kv
          cases he
          clear ih
          induction l with
          | nil => cases hkv
          | cons q l ih =>
            obtain ⟨k3, v3⟩ := q
            rw [lastVal_cons] at hl
            cases hl' : lastVal k2 l with
            | some w => rw [hl'] at hl; cases hl
            | none =>
              rw [hl'] at hl
              rcases List.mem_cons.1 hkv with h | h
              · cases h
                simp at hl
              · exact ih h hl'
        · simp [hk] at h

theorem lastVal_entries {env : JsonEnv} : ∀ {kvs ws : List (Bytes × Json)}, kvs.mapM (reEntry env) = some ws → ∀ k, lastVal k ws = (lastVal k kvs).bind (reJson env)
  | [], _, h, k => by cases h; rfl
  | (k', v) :: kvs, ws, h, k => by
    rw [mapM_cons'] at h
    cases hv : reJson env v with
    | none => simp [reEntry, hv] at h
    | some u =>
      cases hl : kvs.mapM (reEntry env) with
      | none => simp [reEntry, hv, hl] at h
      | some us =>
        simp only [reEntry, hv, hl, Option.map_some, Option.bind_some, Option.some.injEq] at h
        subst h
        rw [lastVal_cons, lastVal_cons, lastVal_entries hl k]
        cases hk : lastVal k kvs with
        | none =>
          by_cases he : k = k' <;> simp [he, hv]
        | some x =>
          have : ∃ y, reJson env x = some y := by
            have hm := lastVal_mem hk
            clear hk
            induction kvs generalizing us with
            | nil => cases hm
            | cons q l ih =>
              rw [mapM_cons'] at hl
              cases hq : reEntry env q with
              | none => rw [hq] at hl; cases hl
              | some p =>
                cases hm' : l.mapM (reEntry env) with
                | none => rw [hq, hm'] at hl; cases hl
                | some ps =>
                  rcases List.mem_cons.1 hm with rfl | hm
                  · unfold reEntry at hq
                    cases hr : reJson env x with
                    | none => rw [hr] at hq; cases hq
                    | some y => exact ⟨y, rfl⟩
                  · exact ih _ hm' hm
          obtain ⟨y, hy⟩ := this
          simp [hy]

/-- An object that was read and written. -/
theorem re_object {env : JsonEnv} {kvs : List (Bytes × Json)} {w : Json} (h : reJson env (.obj kvs) = some w) :
    ∃ m, w = .obj m ∧ Sorted m ∧ ∀ k, lastVal k m = (lastVal k kvs).bind (reJson env) := by
  rw [reJson_obj] at h
  cases hl : kvs.mapM (reEntry env) with
  | none => rw [hl] at h; cases h
  | some ws =>
    rw [hl] at h
    cases h
    have hs : Sorted (setAll ws []) := sorted_setAll List.Pairwise.nil
    refine ⟨_, rfl, hs, fun k => ?_⟩
    rw [lastVal_sorted hs, lookup_setAll, lastVal_entries hl]
    cases (lastVal k kvs).bind (reJson env) <;> rfl

theorem mem_sorted_iff {m : List (Bytes × Json)} (h : Sorted m) {k : Bytes} {v : Json} : (k, v) ∈ m ↔ Spec.LastMember m k v := by
  rw [lastMember_iff]
  refine ⟨fun hm => ?_, lastVal_mem⟩
  obtain ⟨a, b, rfl⟩ := List.append_of_mem hm
  rw [← lastMember_iff]
  refine ⟨a, b, rfl, fun kv hkv he => ?_⟩
  have := (List.pairwise_append.1 h).2.1
  exact keyLt_ne ((List.pairwise_cons.1 this).1 kv hkv) he.symm

/-- A list that was read and written. -/
theorem re_list {env : JsonEnv} {xs : List Json} {w : Json} (h : reJson env (.arr xs) = some w) :
    ∃ ys, w = .arr ys ∧ (∀ x ∈ xs, ∃ y ∈ ys, reJson env x = some y) ∧ ∀ y ∈ ys, ∃ x ∈ xs, reJson env x = some y := by
  rw [reJson, reList_eq] at h
  cases hl : xs.mapM (reJson env) with
  | none => rw [hl] at h; cases h
  | some ys =>
    rw [hl] at h
    cases h
    refine ⟨ys, rfl, ?_, fun y hy => mapM_mem hl hy⟩
    induction xs generalizing ys with
    | nil => exact fun x hx => nomatch hx
    | cons a l ih =>
      rw [mapM_cons'] at hl
      cases ha : reJson env a with
      | none => rw [ha] at hl; cases hl
      | some b =>
        cases hm : l.mapM (reJson env) with
        | none => rw [ha, hm] at hl; cases hl
        | some bs =>
          rw [ha, hm] at hl
          cases hl
          intro x hx
          rcases List.mem_cons.1 hx with rfl | hx
          · exact ⟨b, List.mem_cons_self, ha⟩
          · obtain ⟨y, hy, he⟩ := ih bs hm x hx
            exact ⟨y, List.mem_cons_of_mem _ hy, he⟩

theorem numbersOk_of_re {env : JsonEnv} : ∀ (j w : Json), reJson env j = some w → Spec.NumbersOk env j
  | .null, _, _ => .null
  | .bool b, _, _ => .bool b
  | .str s, _, _ => .str s
  | .num lit, w, h => by
    refine .num ?_
    intro hn
    rw [reJson, hn] at h
    cases h
  | .arr xs, w, h => by
    obtain ⟨ys, -, h1, -⟩ := re_list h
    refine .arr fun x hx => ?_
    obtain ⟨y, -, he⟩ := h1 x hx
    exact numbersOk_of_re x y he
  | .obj kvs, w, h => by
    rw [reJson_obj] at h
    cases hl : kvs.mapM (reEntry env) with
    | none => rw [hl] at h; cases h
    | some ws =>
      have key : ∀ {kvs ws : List (Bytes × Json)}, kvs.mapM (reEntry env) = some ws → ∀ kv ∈ kvs, ∃ y, reJson env kv.2 = some y := by
        intro kvs
        induction kvs with
        | nil => exact fun _ kv hkv => nomatch hkv
        | cons q l ih =>
          intro ws hl kv hkv
          rw [mapM_cons'] at hl
          cases hq : reEntry env q with
          | none => rw [hq] at hl; cases hl
          | some p =>
            cases hm' : l.mapM (reEntry env) with
            | none => rw [hq, hm'] at hl; cases hl
            | some ps =>
              rcases List.mem_cons.1 hkv with rfl | hm
              · unfold reEntry at hq
                cases hr : reJson env kv.2 with
                | none => rw [hr] at hq; cases hq
                | some y => exact ⟨y, rfl⟩
              · exact ih hm' kv hm
      refine .obj fun kv hkv => ?_
      obtain ⟨y, he⟩ := key hl kv hkv
      exact numbersOk_of_re kv.2 y he
termination_by j => sizeOf j
decreasing_by
  · simp_wf
    have := List.sizeOf_lt_of_mem hx
    omega
  · simp_wf
    have := List.sizeOf_lt_of_mem hkv
    cases kv
    simp at this ⊢
    omega

/-! ### Reading and writing changes nothing -/

theorem takenBy_re {env : JsonEnv} (hst : Spec.FloatsStable env) {Timed : Bytes → Prop} {k : Kind} {j w : Json} (h : reJson env j = some w) :
    Spec.TakenBy env Timed k j ↔ Spec.TakenBy env Timed k w := by
  have scalar : ∀ (hj : j = w), (Spec.TakenBy env Timed k j ↔ Spec.TakenBy env Timed k w) := fun hj => by rw [hj]
  cases j with
  | null => cases h; rfl
  | bool b => cases h; rfl
  | str s => cases h; rfl
  | num lit =>
    rw [reJson] at h
    cases hl : env.refloat lit with
    | none => rw [hl] at h; cases h
    | some l =>
      rw [hl] at h
      cases h
      have h2 := hst lit l hl
      cases k <;> simp [Spec.TakenBy, hl, h2]
  | arr xs =>
    obtain ⟨ys, rfl, -⟩ := re_list h
    cases k <;> simp [Spec.TakenBy]
  | obj kvs =>
    obtain ⟨m, rfl, -⟩ := re_object h
    cases k <;> simp [Spec.TakenBy]

theorem validRead_re {env : JsonEnv} (hst : Spec.FloatsStable env) {k : SegKind} {j w : Json} (h : reJson env j = some w) :
    Spec.ValidRead env k j ↔ Spec.ValidRead env k w := by
  unfold Spec.ValidRead
  rw [h, reJson_idem hst j w h]

theorem readAt_re {env : JsonEnv} (hst : Spec.FloatsStable env) {Timed : Bytes → Prop} {p : Spec.Place} {j : Json}
    (h : Spec.ReadAt env Timed (Spec.ValidRead env) p j) : ∀ {w : Json}, reJson env j = some w → Spec.ReadAt env Timed (Spec.ValidRead env) p w := by
  induction h with
  | null p => intro w h; cases h; exact .null p
  | fields decl kvs hf =>
    intro w h
    obtain ⟨m, rfl, -, hm⟩ := re_object h
    refine .fields decl m fun k v hl x hx hn => ?_
    rw [lastMember_iff, hm, Option.bind_eq_some_iff] at hl
    obtain ⟨u, hu, hr⟩ := hl
    exact (takenBy_re hst hr).1 (hf k u (lastMember_iff.2 hu) x hx hn)
  | list xs he hx hv ih =>
    intro w h
    obtain ⟨ys, rfl, -, hy⟩ := re_list h
    refine .list ys he (fun y hyy => ?_) fun s hs y hyy => ?_
    · obtain ⟨x, hxx, hr⟩ := hy y hyy
      exact ih x hxx hr
    · obtain ⟨x, hxx, hr⟩ := hy y hyy
      exact (validRead_re hst hr).1 (hv s hs x hxx)
  | members kvs hp hi hv ih =>
    intro w h
    obtain ⟨m, rfl, -, hm⟩ := re_object h
    refine .members m hp (fun k v q hl hin => ?_) fun s v hs h1 h2 hl => ?_
    · rw [lastMember_iff, hm, Option.bind_eq_some_iff] at hl
      obtain ⟨u, hu, hr⟩ := hl
      exact ih k u q (lastMember_iff.2 hu) hin hr
    · rw [lastMember_iff, hm, Option.bind_eq_some_iff] at hl
      obtain ⟨u, hu, hr⟩ := hl
      exact (validRead_re hst hr).1 (hv s u hs h1 h2 (lastMember_iff.2 hu))

theorem null_of_re {env : JsonEnv} {j : Json} (h : reJson env j = some .null) : j = .null := by
  cases j with
  | null => rfl
  | bool b => cases h
  | str s => cases h
  | num lit =>
    rw [reJson] at h
    cases hl : env.refloat lit <;> rw [hl] at h <;> cases h
  | arr xs =>
    obtain ⟨ys, h', -⟩ := re_list h
    cases h'
  | obj kvs =>
    obtain ⟨ys, h', -⟩ := re_object h
    cases h'

theorem obj_of_re {env : JsonEnv} {j : Json} {m : List (Bytes × Json)} (h : reJson env j = some (.obj m)) : ∃ kvs, j = .obj kvs := by
  cases j with
  | obj kvs => exact ⟨kvs, rfl⟩
  | null => cases h
  | bool b => cases h
  | str s => cases h
  | num lit =>
    rw [reJson] at h
    cases hl : env.refloat lit <;> rw [hl] at h <;> cases h
  | arr xs =>
    obtain ⟨ys, h', -⟩ := re_list h
    cases h'

theorem arr_of_re {env : JsonEnv} {j : Json} {m : List Json} (h : reJson env j = some (.arr m)) : ∃ xs, j = .arr xs := by
  cases j with
  | arr kvs => exact ⟨kvs, rfl⟩
  | null => cases h
  | bool b => cases h
  | str s => cases h
  | num lit =>
    rw [reJson] at h
    cases hl : env.refloat lit <;> rw [hl] at h <;> cases h
  | obj xs =>
    obtain ⟨ys, h', -⟩ := re_object h
    cases h'

theorem last_re {env : JsonEnv} {kvs m : List (Bytes × Json)} (h : reJson env (.obj kvs) = some (.obj m)) {k : Bytes} {v : Json}
    (hl : Spec.LastMember kvs k v) : ∃ u, reJson env v = some u ∧ Spec.LastMember m k u := by
  obtain ⟨m', hm', -, hm⟩ := re_object h
  cases hm'
  have hv : ∃ u, reJson env v = some u := by
    have ho := numbersOk_of_re _ _ h
    cases ho with
    | obj ho => exact reJson_numbersOk (ho (k, v) (lastVal_mem (lastMember_iff.1 hl)))
  obtain ⟨u, hu⟩ := hv
  refine ⟨u, hu, ?_⟩
  rw [lastMember_iff, hm, lastMember_iff.1 hl]
  exact hu

theorem readAt_of_re {env : JsonEnv} (hst : Spec.FloatsStable env) {Timed : Bytes → Prop} {p : Spec.Place} {w : Json}
    (h : Spec.ReadAt env Timed (Spec.ValidRead env) p w) : ∀ {j : Json}, reJson env j = some w → Spec.ReadAt env Timed (Spec.ValidRead env) p j := by
  induction h with
  | null p => intro j h; rw [null_of_re h]; exact .null p
  | fields decl m hf =>
    intro j h
    obtain ⟨kvs, rfl⟩ := obj_of_re h
    refine .fields decl kvs fun k v hl x hx hn => ?_
    obtain ⟨u, hr, hu⟩ := last_re h hl
    exact (takenBy_re hst hr).2 (hf k u hu x hx hn)
  | list ys he hx hv ih =>
    intro j h
    obtain ⟨xs, rfl⟩ := arr_of_re h
    obtain ⟨ys', hys, hxy, -⟩ := re_list h
    cases hys
    refine .list xs he (fun x hxx => ?_) fun s hs x hxx => ?_
    · obtain ⟨y, hy, hr⟩ := hxy x hxx
      exact ih y hy hr
    · obtain ⟨y, hy, hr⟩ := hxy x hxx
      exact (validRead_re hst hr).2 (hv s hs y hy)
  | members m hp hi hv ih =>
    intro j h
    obtain ⟨kvs, rfl⟩ := obj_of_re h
    refine .members kvs hp (fun k v q hl hin => ?_) fun s v hs h1 h2 hl => ?_
    · obtain ⟨u, hr, hu⟩ := last_re h hl
      exact ih k u q hu hin hr
    · obtain ⟨u, hr, hu⟩ := last_re h hl
      exact (validRead_re hst hr).2 (hv s u hs h1 h2 hu)

/-! ### Reading -/

theorem re_members {env : JsonEnv} {m : List (Bytes × Json)} (h : reJson env (.obj m) = some (.obj m)) :
    Sorted m ∧ ∀ kv ∈ m, reJson env kv.2 = some kv.2 := by
  obtain ⟨m', hm', hs, hm⟩ := re_object h
  cases hm'
  refine ⟨hs, fun kv hkv => ?_⟩
  have h1 := lastMember_iff.1 ((mem_sorted_iff hs).1 (show (kv.1, kv.2) ∈ m from hkv))
  have h2 := hm kv.1
  rw [h1] at h2
  exact h2.symm

theorem re_elements {env : JsonEnv} (hst : Spec.FloatsStable env) {xs : List Json} (h : reJson env (.arr xs) = some (.arr xs)) :
    ∀ x ∈ xs, reJson env x = some x := by
  obtain ⟨ys, hys, -, hm⟩ := re_list h
  cases hys
  intro x hx
  obtain ⟨y, -, hr⟩ := hm x hx
  exact reJson_idem hst y x hr

theorem takenBy_iff {env : JsonEnv} {k : Kind} {j : Json} (h : reJson env j = some j) :
    Spec.TakenBy env (Spec.LibraryDate env) k j ↔ ¬ Spec.Refuses env k j := by
  have hnum : ∀ lit, j = .num lit → env.refloat lit = some lit := by
    rintro lit rfl
    rw [reJson] at h
    cases hl : env.refloat lit with
    | none => rw [hl] at h; cases h
    | some l => rw [hl] at h; cases h; rfl
  have key : ¬ Spec.Refuses env k j ↔ Spec.Passes k j ∨ ∃ v, Spec.Suits env k j v := by
    unfold Spec.Refuses
    rw [not_and_or, not_not]
    simp
  rw [key]
  cases k with
  | str =>
    constructor
    · rintro (rfl | ⟨s, rfl⟩)
      · exact .inl .str
      · exact .inr ⟨_, .str s⟩
    · rintro (h | ⟨v, h⟩)
      · cases h; exact .inl rfl
      · cases h; exact .inr ⟨_, rfl⟩
  | time =>
    constructor
    · rintro ⟨s, rfl, t, ht⟩
      exact .inr ⟨_, .time ht⟩
    · rintro (h | ⟨v, h⟩)
      · cases h
      · cases h with
        | time h =>
          cases j with
          | str s => exact ⟨s, rfl, _, h⟩
          | _ => cases h
  | int =>
    constructor
    · rintro (rfl | ⟨lit, lit', v, rfl, h1, h2⟩)
      · exact .inl .int
      · rw [hnum lit rfl] at h1
        cases h1
        exact .inr ⟨_, .int (parseInt_ok_iff.2 h2)⟩
    · rintro (h | ⟨v, h⟩)
      · cases h; exact .inl rfl
      · cases h with
        | int hp => exact .inr ⟨_, _, _, rfl, hnum _ rfl, parseInt_ok_iff.1 hp⟩
  | int64 =>
    constructor
    · rintro (rfl | ⟨lit, lit', v, rfl, h1, h2⟩)
      · exact .inl .int64
      · rw [hnum lit rfl] at h1
        cases h1
        exact .inr ⟨_, .int64 (parseInt_ok_iff.2 h2)⟩
    · rintro (h | ⟨v, h⟩)
      · cases h; exact .inl rfl
      · cases h with
        | int64 hp => exact .inr ⟨_, _, _, rfl, hnum _ rfl, parseInt_ok_iff.1 hp⟩

/-- What can be read at a place. -/
abbrev ReadHere (env : JsonEnv) (p : Spec.Place) (j : Json) : Prop := Spec.ReadAt env (Spec.LibraryDate env) (Spec.ValidRead env) p j

theorem decodeStruct_isSome {env : JsonEnv} {decl : List (F × FieldDecl)} (hd : FoldedOk decl) {fs : Fields} (ht : fs.Typed decl) {w : Json}
    (h : reJson env w = some w) : (decodeStruct env decl fs w).isSome = true ↔ ReadHere env (.fields decl) w := by
  cases w with
  | obj m =>
    obtain ⟨hs, hv⟩ := re_members h
    have hb := decodeStruct_bad (env := env) hd ht m
    rw [Option.isSome_iff_ne_none, ne_eq, hb]
    constructor
    · intro hn
      refine .fields decl m fun k v hl x hx hx' => ?_
      have hm := (mem_sorted_iff hs).2 hl
      rw [takenBy_iff (hv _ hm)]
      exact fun hr => hn ⟨(k, v), hm, x, hx, hx', hr⟩
    · rintro hr ⟨kv, hm, x, hx, hn, hbad⟩
      cases hr with
      | fields _ _ hr =>
        exact (takenBy_iff (hv _ hm)).1 (hr kv.1 kv.2 ((mem_sorted_iff hs).1 hm) x hx hn) hbad
      | members _ hp => rcases hp with hp | hp <;> cases hp
  | null => exact ⟨fun _ => .null _, fun _ => rfl⟩
  | arr xs =>
    refine ⟨fun hh => (by simp [decodeStruct] at hh), fun hh => ?_⟩
    cases hh with
    | list _ he _ _ => cases he
  | bool _ => exact ⟨fun hh => (by simp [decodeStruct] at hh), fun hh => by cases hh⟩
  | num _ => exact ⟨fun hh => (by simp [decodeStruct] at hh), fun hh => by cases hh⟩
  | str _ => exact ⟨fun hh => (by simp [decodeStruct] at hh), fun hh => by cases hh⟩

theorem folded_segment (k : SegKind) : FoldedOk k.struct := by cases k <;> decide +kernel
theorem folded_base : FoldedOk baseSegmentStruct := by decide +kernel

theorem segOf_isSome {env : JsonEnv} {name : Bytes} {k : SegKind} (hk : segKindOfName name = some k) {w : Json} (h : reJson env w = some w) :
    (segOf env name w).isSome = true ↔ ReadHere env (.fields k.struct) w ∧ Spec.ValidRead env k w := by
  have h1 := decodeStruct_isSome (folded_segment k) (Seg.new_typed k) h
  unfold segOf Spec.ValidRead
  rw [hk, ← h1, h]
  cases hd : decodeStruct env k.struct (Seg.new k).fields w with
  | none => simp [hd]
  | some fs =>
    cases hv : Seg.validate ⟨k, fs⟩ <;> simp [hd, hv]

theorem foldlM_isSome {σ α : Type} (step : σ → α → Option σ) (P : σ → Prop) (ok : α → Prop) (h1 : ∀ s a, P s → ((step s a).isSome = true ↔ ok a))
    (h2 : ∀ s a s', P s → step s a = some s' → P s') (l : List α) (s : σ) (hs : P s) : (l.foldlM step s).isSome = true ↔ ∀ a ∈ l, ok a := by
  induction l generalizing s with
  | nil => simp [pure]
  | cons a l ih =>
    rw [List.foldlM_cons, List.forall_mem_cons, ← h1 s a hs]
    cases ha : step s a with
    | none => simp
    | some s' =>
      simp only [Option.isSome_some, true_and]
      exact ih s' (h2 s a s' hs ha)

theorem segsOf_isSome {env : JsonEnv} {name : Bytes} (xs : List Json) :
    (segsOf env name xs).isSome = true ↔ ∀ x ∈ xs, (segOf env name x).isSome = true := by
  induction xs with
  | nil => simp [segsOf]
  | cons x xs ih =>
    rw [segsOf, List.forall_mem_cons, ← ih]
    cases segOf env name x <;> cases segsOf env name xs <;> simp

theorem segments_isSome' {env : JsonEnv} (hst : Spec.FloatsStable env) {name : Bytes} {k : SegKind} (hk : segKindOfName name = some k) {w : Json}
    (h : reJson env w = some w) : ((decodeList env w).bind (segsOf env name)).isSome = true ↔ ReadHere env (.segments k) w := by
  cases w with
  | arr xs =>
    rw [decodeList_re h, Option.bind_some, segsOf_isSome]
    have hx := re_elements hst h
    constructor
    · intro hh
      refine .list xs (.segment k) (fun x hxx => ((segOf_isSome hk (hx x hxx)).1 (hh x hxx)).1) ?_
      rintro s hs x hxx
      cases hs
      exact ((segOf_isSome hk (hx x hxx)).1 (hh x hxx)).2
    · intro hr x hxx
      cases hr with
      | list _ he h1 h2 =>
        cases he
        exact (segOf_isSome hk (hx x hxx)).2 ⟨h1 x hxx, h2 k rfl x hxx⟩
  | null => exact ⟨fun _ => .null _, fun _ => rfl⟩
  | obj m =>
    refine ⟨fun hh => (by simp [decodeList] at hh), fun hh => ?_⟩
    cases hh with
    | members _ hp => rcases hp with hp | hp <;> cases hp
  | bool _ => exact ⟨fun hh => (by simp [decodeList] at hh), fun hh => by cases hh⟩
  | num _ => exact ⟨fun hh => (by simp [decodeList] at hh), fun hh => by cases hh⟩
  | str _ => exact ⟨fun hh => (by simp [decodeList] at hh), fun hh => by cases hh⟩

/-- What a member of a data record must be. -/
def BaseMember (env : JsonEnv) (kv : Bytes × Json) : Prop :=
  (∀ q, Spec.Inside .record kv.1 q → ReadHere env q kv.2) ∧
    ∀ s : SegKind, s ≠ .j1 → s ≠ .j2 → kv.1 = Spec.smallWord (Spec.segmentIdent s) → Spec.ValidRead env s kv.2

theorem name_small (s : SegKind) : Spec.smallWord (Spec.segmentIdent s) = s.name ∧ segKindOfName s.name = some s := by
  cases s <;> decide +kernel

theorem inside_record {k : Bytes} {q : Spec.Place} (h : Spec.Inside .record k q) :
    (k = b! "base" ∧ q = .fields baseSegmentStruct) ∨ (k = SegKind.j1.name ∧ q = .segments .j1) ∨ (k = SegKind.j2.name ∧ q = .segments .j2) ∨
      ∃ s : SegKind, s ≠ .j1 ∧ s ≠ .j2 ∧ k = s.name ∧ q = .fields s.struct := by
  cases h with
  | base => exact .inl ⟨by decide +kernel, rfl⟩
  | j1 => exact .inr (.inl ⟨by decide +kernel, rfl⟩)
  | j2 => exact .inr (.inr (.inl ⟨by decide +kernel, rfl⟩))
  | k1 => exact .inr (.inr (.inr ⟨.k1, by decide, by decide, by decide +kernel, rfl⟩))
  | k2 => exact .inr (.inr (.inr ⟨.k2, by decide, by decide, by decide +kernel, rfl⟩))
  | k3 => exact .inr (.inr (.inr ⟨.k3, by decide, by decide, by decide +kernel, rfl⟩))
  | k4 => exact .inr (.inr (.inr ⟨.k4, by decide, by decide, by decide +kernel, rfl⟩))
  | l1 => exact .inr (.inr (.inr ⟨.l1, by decide, by decide, by decide +kernel, rfl⟩))
  | n1 => exact .inr (.inr (.inr ⟨.n1, by decide, by decide, by decide +kernel, rfl⟩))

theorem inside_base {k : Bytes} (h : k = b! "base") : Spec.Inside .record k (.fields baseSegmentStruct) := by
  rw [h, show (b! "base") = "base".toUTF8.data.toList from by decide +kernel]; exact .base

theorem inside_j1 {k : Bytes} (h : k = SegKind.j1.name) : Spec.Inside .record k (.segments .j1) := by
  rw [h, show SegKind.j1.name = "j1".toUTF8.data.toList from by decide +kernel]; exact .j1

theorem inside_j2 {k : Bytes} (h : k = SegKind.j2.name) : Spec.Inside .record k (.segments .j2) := by
  rw [h, show SegKind.j2.name = "j2".toUTF8.data.toList from by decide +kernel]; exact .j2

theorem inside_seg {s : SegKind} (h1 : s ≠ .j1) (h2 : s ≠ .j2) : Spec.Inside .record s.name (.fields s.struct) := by
  cases s with
  | j1 => exact absurd rfl h1
  | j2 => exact absurd rfl h2
  | k1 => rw [show SegKind.k1.name = "k1".toUTF8.data.toList from by decide +kernel]; exact .k1
  | k2 => rw [show SegKind.k2.name = "k2".toUTF8.data.toList from by decide +kernel]; exact .k2
  | k3 => rw [show SegKind.k3.name = "k3".toUTF8.data.toList from by decide +kernel]; exact .k3
  | k4 => rw [show SegKind.k4.name = "k4".toUTF8.data.toList from by decide +kernel]; exact .k4
  | l1 => rw [show SegKind.l1.name = "l1".toUTF8.data.toList from by decide +kernel]; exact .l1
  | n1 => rw [show SegKind.n1.name = "n1".toUTF8.data.toList from by decide +kernel]; exact .n1

theorem names_apart : (∀ s : SegKind, s.name ≠ b! "base") ∧ (∀ s t : SegKind, s.name = t.name → s = t) ∧ (b! "j1") = SegKind.j1.name ∧
    (b! "j2") = SegKind.j2.name := by
  refine ⟨fun s => by cases s <;> decide +kernel, fun s t h => ?_, by decide +kernel, by decide +kernel⟩
  have h1 := (name_small s).2
  rw [h, (name_small t).2] at h1
  exact (Option.some.inj h1).symm

theorem entryEffect_isSome {env : JsonEnv} (hst : Spec.FloatsStable env) {kv : Bytes × Json} (h : reJson env kv.2 = some kv.2) :
    (entryEffect env kv).isSome = true ↔ BaseMember env kv := by
  obtain ⟨k, w⟩ := kv
  obtain ⟨n1, n2, n3, n4⟩ := names_apart
  unfold entryEffect BaseMember
  simp only at h ⊢
  by_cases hb : k = b! "base"
  · rw [if_pos hb, Option.isSome_map, decodeStruct_isSome folded_base (zeroFields_typed _) h]
    constructor
    · intro hr
      refine ⟨fun q hq => ?_, fun s _ _ hs => ?_⟩
      · rcases inside_record hq with ⟨-, rfl⟩ | ⟨h', -⟩ | ⟨h', -⟩ | ⟨s, -, -, h', -⟩
        · exact hr
        · exact absurd (h'.symm.trans hb) (n1 _)
        · exact absurd (h'.symm.trans hb) (n1 _)
        · exact absurd (h'.symm.trans hb) (n1 _)
      · rw [(name_small s).1] at hs
        exact absurd (hs.symm.trans hb) (n1 _)
    · exact fun hr => hr.1 _ (inside_base hb)
  · rw [if_neg hb]
    by_cases hj : k = b! "j1" ∨ k = b! "j2"
    · rw [if_pos hj, Option.isSome_map]
      obtain ⟨t, ht, hk, hin⟩ : ∃ t : SegKind, (t = .j1 ∨ t = .j2) ∧ k = t.name ∧ Spec.Inside .record k (.segments t) := by
        rcases hj with hj | hj
        · exact ⟨.j1, .inl rfl, hj.trans n3, inside_j1 (hj.trans n3)⟩
        · exact ⟨.j2, .inr rfl, hj.trans n4, inside_j2 (hj.trans n4)⟩
      rw [segments_isSome' hst (k := t) (by rw [hk]; exact (name_small t).2) h]
      constructor
      · intro hr
        refine ⟨fun q hq => ?_, fun s h1 h2 hs => ?_⟩
        · rcases inside_record hq with ⟨h', -⟩ | ⟨h', rfl⟩ | ⟨h', rfl⟩ | ⟨s, h1, h2, h', -⟩
          · exact absurd h' hb
          · rw [n2 t .j1 (hk.symm.trans h')] at hr; exact hr
          · rw [n2 t .j2 (hk.symm.trans h')] at hr; exact hr
          · have := n2 t s (hk.symm.trans h')
            subst this
            rcases ht with rfl | rfl
            · exact absurd rfl h1
            · exact absurd rfl h2
        · rw [(name_small s).1] at hs
          have := n2 t s (hk.symm.trans hs)
          subst this
          rcases ht with rfl | rfl
          · exact absurd rfl h1
          · exact absurd rfl h2
      · exact fun hr => hr.1 _ hin
    · rw [if_neg hj, Option.isSome_map]
      cases hk : segKindOfName k with
      | none =>
        have hno : ∀ s : SegKind, k ≠ s.name := by
          rintro s rfl
          rw [(name_small s).2] at hk
          cases hk
        constructor
        · intro _
          refine ⟨fun q hq => ?_, fun s _ _ hs => ?_⟩
          · rcases inside_record hq with ⟨h', -⟩ | ⟨h', -⟩ | ⟨h', -⟩ | ⟨s, -, -, h', -⟩
            · exact absurd h' hb
            · exact absurd h' (hno _)
            · exact absurd h' (hno _)
            · exact absurd h' (hno _)
          · rw [(name_small s).1] at hs
            exact absurd hs (hno _)
        · intro _
          unfold segOf
          rw [hk]
          rfl
      | some t =>
        have hkn := segKindOfName_eq hk
        have t1 : t ≠ .j1 := fun e => hj (.inl (by rw [hkn, e, n3]))
        have t2 : t ≠ .j2 := fun e => hj (.inr (by rw [hkn, e, n4]))
        rw [segOf_isSome hk h]
        constructor
        · rintro ⟨h1, h2⟩
          refine ⟨fun q hq => ?_, fun s _ _ hs => ?_⟩
          · rcases inside_record hq with ⟨h', -⟩ | ⟨h', -⟩ | ⟨h', -⟩ | ⟨s, -, -, h', rfl⟩
            · exact absurd h' hb
            · exact absurd (n2 _ _ (hkn.symm.trans h')) t1
            · exact absurd (n2 _ _ (hkn.symm.trans h')) t2
            · rw [← n2 _ _ (hkn.symm.trans h')]; exact h1
          · rw [(name_small s).1] at hs
            rw [← n2 _ _ (hkn.symm.trans hs)]; exact h2
        · rintro ⟨h1, h2⟩
          refine ⟨h1 _ ?_, h2 t t1 t2 ?_⟩
          · rw [hkn]; exact inside_seg t1 t2
          · rw [(name_small t).1]; exact hkn

theorem decodeBase_isSome {env : JsonEnv} (hst : Spec.FloatsStable env) (fs : Fields) (g : Segs) {w : Json} (h : reJson env w = some w) :
    (decodeBase env (fun l => l) fs g w).isSome = true ↔ ReadHere env .record w := by
  cases w with
  | obj m =>
    obtain ⟨hs, hv⟩ := re_members h
    unfold decodeBase
    rw [decodeMap_re h]
    simp only
    have key : (m.foldlM (decodeBaseEntry env) (fs, { g with j1 := [], j2 := [] })).isSome = true ↔ ∀ kv ∈ m, (entryEffect env kv).isSome = true :=
      foldlM_isSome (decodeBaseEntry env) (fun _ => True) (fun kv => (entryEffect env kv).isSome = true)
        (fun s a _ => by rw [decodeBaseEntry_eq, Option.isSome_map]) (fun _ _ _ _ _ => trivial) m _ trivial
    rw [key]
    constructor
    · intro hh
      have hb : ∀ kv ∈ m, BaseMember env kv := fun kv hkv => (entryEffect_isSome hst (hv kv hkv)).1 (hh kv hkv)
      refine .members m (.inr rfl) (fun k v q hl hq => ?_) fun s v _ h1 h2 hl => ?_
      · exact (hb (k, v) ((mem_sorted_iff hs).2 hl)).1 q hq
      · exact (hb (_, v) ((mem_sorted_iff hs).2 hl)).2 s h1 h2 rfl
    · intro hr kv hkv
      rw [entryEffect_isSome hst (hv kv hkv)]
      have hl := (mem_sorted_iff hs).1 (show (kv.1, kv.2) ∈ m from hkv)
      cases hr with
      | members _ _ h1 h2 =>
        refine ⟨fun q hq => h1 _ _ q hl hq, fun s s1 s2 hk => ?_⟩
        rw [hk] at hl
        exact h2 s _ rfl s1 s2 hl
  | null => exact ⟨fun _ => .null _, fun _ => rfl⟩
  | arr xs =>
    refine ⟨fun hh => (by simp [decodeBase, decodeMap] at hh), fun hh => ?_⟩
    cases hh with
    | list _ he _ _ => cases he
  | bool _ => exact ⟨fun hh => (by simp [decodeBase, decodeMap] at hh), fun hh => by cases hh⟩
  | num _ => exact ⟨fun hh => (by simp [decodeBase, decodeMap] at hh), fun hh => by cases hh⟩
  | str _ => exact ⟨fun hh => (by simp [decodeBase, decodeMap] at hh), fun hh => by cases hh⟩

theorem decodeBases_isSome {env : JsonEnv} (hst : Spec.FloatsStable env) (enc : Enc) : ∀ (xs : List Json) (n : Nat) (acc : List Record),
    (∀ x ∈ xs, reJson env x = some x) → ((decodeBases env inOrder enc n xs acc).isSome = true ↔ ∀ x ∈ xs, ReadHere env .record x)
  | [], n, acc, _ => by simp [decodeBases]
  | x :: xs, n, acc, h => by
    have h1 : ((newBase enc).ofJson env (inOrder n) x).isSome = true ↔ ReadHere env .record x := by
      rw [← decodeBase_isSome hst (zeroFields baseSegmentStruct) {} (h x List.mem_cons_self)]
      show ((decodeBase env (fun l => l) _ _ x).map _).isSome = true ↔ _
      rw [Option.isSome_map]
    rw [decodeBases, List.forall_mem_cons, ← h1]
    cases (newBase enc).ofJson env (inOrder n) x with
    | none => simp
    | some b =>
      simp only [Option.isSome_some, true_and]
      exact decodeBases_isSome hst enc xs (n + 1) (acc ++ [b]) fun y hy => h y (List.mem_cons_of_mem _ hy)

theorem dataOf_isSome {env : JsonEnv} (hst : Spec.FloatsStable env) (enc : Enc) (acc : List Record) {w : Json} (h : reJson env w = some w) :
    (dataOf env inOrder enc acc w).isSome = true ↔ ReadHere env .data w := by
  unfold dataOf
  cases w with
  | arr xs =>
    rw [decodeList_re h]
    simp only
    rw [decodeBases_isSome hst enc xs 1 acc (re_elements hst h)]
    constructor
    · exact fun hh => .list xs .record hh (fun s hs => nomatch hs)
    · intro hr
      cases hr with
      | list _ he h1 h2 =>
        cases he
        exact h1
  | null => exact ⟨fun _ => .null _, fun _ => rfl⟩
  | obj m =>
    refine ⟨fun hh => (by simp [decodeList] at hh), fun hh => ?_⟩
    cases hh with
    | members _ hp => rcases hp with hp | hp <;> cases hp
  | bool _ => exact ⟨fun hh => (by simp [decodeList] at hh), fun hh => by cases hh⟩
  | num _ => exact ⟨fun hh => (by simp [decodeList] at hh), fun hh => by cases hh⟩
  | str _ => exact ⟨fun hh => (by simp [decodeList] at hh), fun hh => by cases hh⟩

/-- Header and trailer are what they are. -/
def FramedTyped (f : File) : Prop :=
  (∃ e fs, f.header = .header e fs ∧ fs.Typed headerRecordStruct) ∧ ∃ e fs, f.trailer = .trailer e fs ∧ fs.Typed trailerRecordStruct

theorem inside_file {k : Bytes} {q : Spec.Place} (h : Spec.Inside .file k q) :
    (k = b! "header" ∧ q = .fields headerRecordStruct) ∨ (k = b! "data" ∧ q = .data) ∨ (k = b! "trailer" ∧ q = .fields trailerRecordStruct) := by
  cases h with
  | header => exact .inl ⟨by decide +kernel, rfl⟩
  | data => exact .inr (.inl ⟨by decide +kernel, rfl⟩)
  | trailer => exact .inr (.inr ⟨by decide +kernel, rfl⟩)

theorem fileEntry_isSome {env : JsonEnv} (hst : Spec.FloatsStable env) {f : File} (hf : FramedTyped f) {kv : Bytes × Json} (h : reJson env kv.2 = some kv.2) :
    ((decodeFileEntry env inOrder f kv).isSome = true ↔ ∀ q, Spec.Inside .file kv.1 q → ReadHere env q kv.2) ∧
      ∀ g, decodeFileEntry env inOrder f kv = some g → FramedTyped g := by
  obtain ⟨k, w⟩ := kv
  obtain ⟨⟨e, fs, hh, hft⟩, e', fs', hh', hft'⟩ := hf
  have d1 : (b! "header") ≠ b! "data" := by decide
  have d2 : (b! "header") ≠ b! "trailer" := by decide
  have d3 : (b! "data") ≠ b! "trailer" := by decide
  by_cases h1 : k = b! "header"
  · subst h1
    rw [entry_header, hh]
    simp only [Record.ofJson, Option.isSome_map]
    constructor
    · rw [decodeStruct_isSome folded_header hft h]
      constructor
      · intro hr q hq
        rcases inside_file hq with ⟨-, rfl⟩ | ⟨h', -⟩ | ⟨h', -⟩
        · exact hr
        · exact absurd h' d1
        · exact absurd h' d2
      · intro hr
        exact hr _ (by rw [show (b! "header") = "header".toUTF8.data.toList from by decide +kernel]; exact .header)
    · intro g hg
      rw [Option.map_map, Option.map_eq_some_iff] at hg
      obtain ⟨gs, hgs, rfl⟩ := hg
      exact ⟨⟨e, gs, rfl, decodeStruct_keeps folded_header hft hgs⟩, e', fs', hh', hft'⟩
  · by_cases h2 : k = b! "trailer"
    · subst h2
      rw [entry_trailer, hh']
      simp only [Record.ofJson, Option.isSome_map]
      constructor
      · rw [decodeStruct_isSome folded_trailer hft' h]
        constructor
        · intro hr q hq
          rcases inside_file hq with ⟨h', -⟩ | ⟨h', -⟩ | ⟨-, rfl⟩
          · exact absurd h'.symm d2
          · exact absurd h'.symm d3
          · exact hr
        · intro hr
          exact hr _ (by rw [show (b! "trailer") = "trailer".toUTF8.data.toList from by decide +kernel]; exact .trailer)
      · intro g hg
        rw [Option.map_map, Option.map_eq_some_iff] at hg
        obtain ⟨gs, hgs, rfl⟩ := hg
        exact ⟨⟨e, fs, hh, hft⟩, e', gs, rfl, decodeStruct_keeps folded_trailer hft' hgs⟩
    · by_cases h3 : k = b! "data"
      · subst h3
        rw [entry_data, Option.isSome_map]
        constructor
        · rw [dataOf_isSome hst _ _ h]
          constructor
          · intro hr q hq
            rcases inside_file hq with ⟨h', -⟩ | ⟨-, rfl⟩ | ⟨h', -⟩
            · exact absurd h'.symm d1
            · exact hr
            · exact absurd h' d3
          · intro hr
            exact hr _ (by rw [show (b! "data") = "data".toUTF8.data.toList from by decide +kernel]; exact .data)
        · intro g hg
          rw [Option.map_eq_some_iff] at hg
          obtain ⟨bs, -, rfl⟩ := hg
          exact ⟨⟨e, fs, hh, hft⟩, e', fs', hh', hft'⟩
      · rw [entry_other env inOrder f w h1 h2 h3]
        refine ⟨⟨fun _ q hq => ?_, fun _ => rfl⟩, fun g hg => ?_⟩
        · rcases inside_file hq with ⟨h', -⟩ | ⟨h', -⟩ | ⟨h', -⟩
          · exact absurd h' h1
          · exact absurd h' h3
          · exact absurd h' h2
        · cases hg
          exact ⟨⟨e, fs, hh, hft⟩, e', fs', hh', hft'⟩

theorem ofJson_isSome_re {env : JsonEnv} (hst : Spec.FloatsStable env) {f : File} (hf : FramedTyped f) {w : Json} (h : reJson env w = some w) :
    (f.ofJson env inOrder w).isSome = true ↔ ReadHere env .file w := by
  cases w with
  | obj m =>
    obtain ⟨hs, hv⟩ := re_members h
    unfold File.ofJson
    rw [decodeMap_re h]
    simp only
    have key : ∀ (l : List (Bytes × Json)) (f : File), FramedTyped f → (∀ kv ∈ l, reJson env kv.2 = some kv.2) →
        ((l.foldlM (decodeFileEntry env inOrder) f).isSome = true ↔ ∀ kv ∈ l, ∀ q, Spec.Inside .file kv.1 q → ReadHere env q kv.2) := by
      intro l
      induction l with
      | nil => intro f _ _; simp [pure]
      | cons kv l ih =>
        intro f hf hl
        obtain ⟨h1, h2⟩ := fileEntry_isSome hst hf (hl kv List.mem_cons_self)
        rw [List.foldlM_cons, List.forall_mem_cons, ← h1]
        cases hd : decodeFileEntry env inOrder f kv with
        | none => simp
        | some g =>
          simp only [Option.isSome_some, true_and]
          exact ih g (h2 g hd) fun x hx => hl x (List.mem_cons_of_mem _ hx)
    refine (key m f hf hv).trans ⟨fun hh => ?_, fun hr kv hkv q hq => ?_⟩
    · refine .members m (.inl rfl) (fun k v q hl hq => ?_) fun s v hp => nomatch hp
      exact hh (k, v) ((mem_sorted_iff hs).2 hl) q hq
    · cases hr with
      | members _ _ h1 h2 => exact h1 _ _ q ((mem_sorted_iff hs).1 hkv) hq
  | null => exact ⟨fun _ => .null _, fun _ => rfl⟩
  | arr xs =>
    refine ⟨fun hh => (by simp [File.ofJson, decodeMap] at hh), fun hh => ?_⟩
    cases hh with
    | list _ he _ _ => cases he
  | bool _ => exact ⟨fun hh => (by simp [File.ofJson, decodeMap] at hh), fun hh => by cases hh⟩
  | num _ => exact ⟨fun hh => (by simp [File.ofJson, decodeMap] at hh), fun hh => by cases hh⟩
  | str _ => exact ⟨fun hh => (by simp [File.ofJson, decodeMap] at hh), fun hh => by cases hh⟩

theorem ofJson_isSome {env : JsonEnv} (hst : Spec.FloatsStable env) {f : File} (hf : FramedTyped f) (j : Json) :
    (f.ofJson env inOrder j).isSome = true ↔ Spec.NumbersOk env j ∧ ReadHere env .file j := by
  rw [ofJson_re hst]
  constructor
  · intro h
    cases hr : reJson env j with
    | none => rw [hr] at h; cases h
    | some w =>
      rw [hr, Option.bind_some, ofJson_isSome_re hst hf (reJson_idem hst j w hr)] at h
      exact ⟨numbersOk_of_re j w hr, readAt_of_re hst h hr⟩
  · rintro ⟨hn, h⟩
    obtain ⟨w, hr⟩ := reJson_numbersOk hn
    rw [hr, Option.bind_some, ofJson_isSome_re hst hf (reJson_idem hst j w hr)]
    exact readAt_re hst h hr

end Metro2
