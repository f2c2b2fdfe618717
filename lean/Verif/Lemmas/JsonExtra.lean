import Verif.Spec.JsonExtra
import Verif.Lemmas.JsonDoc

/-! Members that are not known do not matter. -/

namespace Metro2

/-! ### Reading twice -/

theorem mem_setAll {ws acc : List (Bytes × Json)} {p : Bytes × Json} (h : p ∈ setAll ws acc) : p ∈ ws ∨ p ∈ acc := by
  induction ws generalizing acc with
  | nil => exact .inr h
  | cons q ws ih =>
    rcases ih (acc := mapSet q.1 q.2 acc) h with h | h
    · exact .inl (List.mem_cons_of_mem _ h)
    · rcases mem_mapSet h with rfl | ⟨h, -⟩ | h
      · exact .inl List.mem_cons_self
      · exact .inr h
      · exact .inr h

theorem lastVal_sorted {m : List (Bytes × Json)} (h : Sorted m) (k : Bytes) : lastVal k m = m.lookup k := by
  induction m with
  | nil => rfl
  | cons q m ih =>
    obtain ⟨k', v⟩ := q
    obtain ⟨h1, h2⟩ := List.pairwise_cons.1 h
    rw [lastVal_cons, ih h2, List.lookup_cons]
    by_cases hk : k = k'
    · subst hk
      rw [if_pos rfl, lookup_none_of_lt h1]
      simp
    · rw [if_neg hk, beq_eq_false_iff_ne.2 hk]
      simp

theorem setAll_sorted {m : List (Bytes × Json)} (h : Sorted m) : setAll m [] = m := by
  refine Sorted.ext (sorted_setAll List.Pairwise.nil) h fun k => ?_
  rw [lookup_setAll, lastVal_sorted h]
  simp

theorem mapM_mem {α β : Type} {f : α → Option β} {l : List α} {ys : List β} (h : l.mapM f = some ys) {y : β} (hy : y ∈ ys) :
    ∃ x ∈ l, f x = some y := by
  induction l generalizing ys with
  | nil =>
    cases h
    cases hy
  | cons a l ih =>
    rw [mapM_cons'] at h
    cases ha : f a with
    | none => rw [ha] at h; cases h
    | some b =>
      rw [ha] at h
      cases hl : l.mapM f with
      | none => rw [hl] at h; cases h
      | some bs =>
        rw [hl] at h
        cases h
        rcases List.mem_cons.1 hy with rfl | hy
        · exact ⟨a, List.mem_cons_self, ha⟩
        · obtain ⟨x, hx, he⟩ := ih hl hy
          exact ⟨x, List.mem_cons_of_mem _ hx, he⟩

theorem mapM_fixed {α : Type} {f : α → Option α} {l : List α} (h : ∀ x ∈ l, f x = some x) : l.mapM f = some l := by
  induction l with
  | nil => rfl
  | cons a l ih =>
    rw [mapM_cons', h a List.mem_cons_self, ih fun x hx => h x (List.mem_cons_of_mem _ hx)]
    rfl

/-- What was read and written is read and written alike. -/
theorem reJson_idem {env : JsonEnv} (hs : Spec.FloatsStable env) : ∀ (j w : Json), reJson env j = some w → reJson env w = some w
  | .null, w, h => by cases h; rfl
  | .bool b, w, h => by cases h; rfl
  | .str s, w, h => by cases h; rfl
  | .num lit, w, h => by
    rw [reJson] at h
    cases hl : env.refloat lit with
    | none => rw [hl] at h; cases h
    | some l =>
      rw [hl] at h
      cases h
      rw [reJson, hs lit l hl]
      rfl
  | .arr xs, w, h => by
    rw [reJson, reList_eq] at h
    cases hl : xs.mapM (reJson env) with
    | none => rw [hl] at h; cases h
    | some ys =>
      rw [hl] at h
      cases h
      rw [reJson, reList_eq, mapM_fixed]
      · rfl
      · intro y hy
        obtain ⟨x, hx, he⟩ := mapM_mem hl hy
        exact reJson_idem hs x y he
  | .obj kvs, w, h => by
    rw [reJson_obj] at h
    cases hl : kvs.mapM (reEntry env) with
    | none => rw [hl] at h; cases h
    | some ws =>
      rw [hl] at h
      cases h
      have hm : (setAll ws []).mapM (reEntry env) = some (setAll ws []) := by
        apply mapM_fixed
        intro y hy
        rcases mem_setAll hy with hy | hy
        · obtain ⟨x, hx, he⟩ := mapM_mem hl hy
          unfold reEntry at he
          cases hr : reJson env x.2 with
          | none => rw [hr] at he; cases he
          | some u =>
            rw [hr] at he
            cases he
            unfold reEntry
            rw [reJson_idem hs x.2 u hr]
            rfl
        · cases hy
      rw [reJson_obj, hm, Option.map_some, setAll_sorted (sorted_setAll List.Pairwise.nil)]
termination_by j => sizeOf j
decreasing_by
  · simp_wf
    have := List.sizeOf_lt_of_mem hx
    omega
  · simp_wf
    have := List.sizeOf_lt_of_mem hx
    cases x
    simp at this ⊢
    omega

/-! ### Folding over maps -/

theorem lookup_filter_ne (k q : Bytes) (m : List (Bytes × Json)) :
    (m.filter fun p => p.1 ≠ k).lookup q = if q = k then none else m.lookup q := by
  induction m with
  | nil => simp
  | cons p m ih =>
    by_cases hp : p.1 = k
    · rw [List.filter_cons_of_neg (by simp [hp]), ih, List.lookup_cons]
      by_cases hq : q = k
      · rw [if_pos hq, if_pos hq]
      · rw [if_neg hq, if_neg hq, beq_eq_false_iff_ne.2 (fun h => hq (h.trans hp))]
    · rw [List.filter_cons_of_pos (by simp [hp]), List.lookup_cons, ih, List.lookup_cons]
      by_cases hq : q = k
      · rw [if_pos hq, if_pos hq, beq_eq_false_iff_ne.2 (fun h => hp (h.symm.trans hq))]
      · rw [if_neg hq, if_neg hq]

theorem foldlM_skip {σ : Type} {step : σ → Bytes × Json → Option σ} {k : Bytes} (h : ∀ s v, step s (k, v) = some s) (m : List (Bytes × Json)) (s : σ) :
    m.foldlM step s = (m.filter fun p => p.1 ≠ k).foldlM step s := by
  induction m generalizing s with
  | nil => rfl
  | cons p m ih =>
    obtain ⟨k', v⟩ := p
    by_cases hp : k' = k
    · subst hp
      rw [List.filter_cons_of_neg (by simp), List.foldlM_cons, h]
      exact ih s
    · rw [List.filter_cons_of_pos (by simp [hp]), List.foldlM_cons, List.foldlM_cons]
      congr 1
      funext s'
      exact ih s'

theorem foldlM_extra {σ : Type} {step : σ → Bytes × Json → Option σ} {k : Bytes} (h : ∀ s v, step s (k, v) = some s) (x y : List (Bytes × Json)) (u : Json)
    (s : σ) : (setAll (x ++ y) []).foldlM step s = (setAll (x ++ (k, u) :: y) []).foldlM step s := by
  rw [foldlM_skip h, foldlM_skip h (setAll (x ++ (k, u) :: y) [])]
  congr 1
  refine Sorted.ext ((sorted_setAll List.Pairwise.nil).filter _) ((sorted_setAll List.Pairwise.nil).filter _) fun q => ?_
  rw [lookup_filter_ne, lookup_filter_ne]
  by_cases hq : q = k
  · rw [if_pos hq, if_pos hq]
  · rw [if_neg hq, if_neg hq, lookup_setAll, lookup_setAll, lastVal_append, lastVal_append, lastVal_cons, if_neg hq]
    simp

theorem foldlM_exchange {σ : Type} {step : σ → Bytes × Json → Option σ} (P : σ → Prop) (hP : ∀ s a s', P s → step s a = some s' → P s')
    {k : Bytes} {w w' : Json} (h : ∀ s, P s → step s (k, w) = step s (k, w')) (x y : List (Bytes × Json)) (s : σ) (hs : P s) :
    (setAll (x ++ (k, w) :: y) []).foldlM step s = (setAll (x ++ (k, w') :: y) []).foldlM step s := by
  have look : ∀ (w : Json) (q : Bytes), (setAll (x ++ (k, w) :: y) []).lookup q =
      ((lastVal q y).or (if q = k then some w else none)).or (lastVal q x) := by
    intro w q
    rw [lookup_setAll, lastVal_append, lastVal_cons]
    simp
  cases hy : lastVal k y with
  | some u =>
    congr 1
    refine Sorted.ext (sorted_setAll List.Pairwise.nil) (sorted_setAll List.Pairwise.nil) fun q => ?_
    rw [look, look]
    by_cases hq : q = k
    · subst hq
      rw [hy]
      rfl
    · rw [if_neg hq, if_neg hq]
  | none =>
    have hmap : ∀ m : List (Bytes × Json), Sorted m → m.lookup k = some w → ∀ m', Sorted m' → m'.lookup k = some w' →
        (∀ q, q ≠ k → m.lookup q = m'.lookup q) → ∀ s, P s → m.foldlM step s = m'.foldlM step s := by
      intro m
      induction m with
      | nil => intro _ h; cases h
      | cons p m ih =>
        intro hm hk m' hm' hk' hq s hs
        obtain ⟨h1, h2⟩ := List.pairwise_cons.1 hm
        cases m' with
        | nil => cases hk'
        | cons p' m' =>
          obtain ⟨h1', h2'⟩ := List.pairwise_cons.1 hm'
          by_cases hp : p.1 = k
          · have hp' : p'.1 = k := by
              by_cases hp' : p'.1 = k
              · exact hp'
              · exfalso
                have hlt' : keyLt p'.1 k = true := by
                  rw [List.lookup_cons, beq_eq_false_iff_ne.2 (Ne.symm hp')] at hk'
                  cases hlt : keyLt p'.1 k with
                  | true => rfl
                  | false =>
                    have := keyLt_total hp' hlt
                    rw [lookup_none_of_lt fun z hz => keyLt_trans this (h1' z hz)] at hk'
                    cases hk'
                have h3 := hq p'.1 hp'
                rw [lookup_none_of_lt (l := p :: m) (k := p'.1)] at h3
                · rw [List.lookup_cons, beq_self_eq_true] at h3
                  cases h3
                · intro z hz
                  rcases List.mem_cons.1 hz with rfl | hz
                  · rw [hp]; exact hlt'
                  · exact keyLt_trans (by rw [hp]; exact hlt') (h1 z hz)
            have e1 : p = (k, w) := by
              rw [List.lookup_cons, hp, beq_self_eq_true] at hk
              exact Prod.ext hp (Option.some.inj hk)
            have e2 : p' = (k, w') := by
              rw [List.lookup_cons, hp', beq_self_eq_true] at hk'
              exact Prod.ext hp' (Option.some.inj hk')
            have e3 : m = m' := by
              refine Sorted.ext h2 h2' fun q => ?_
              by_cases hqk : q = k
              · subst hqk
                rw [lookup_none_of_lt (by rw [← hp]; exact h1), lookup_none_of_lt (by rw [← hp']; exact h1')]
              · have := hq q hqk
                rwa [List.lookup_cons, List.lookup_cons, hp, hp', beq_eq_false_iff_ne.2 hqk] at this
            rw [e1, e2, e3, List.foldlM_cons, List.foldlM_cons, h s hs]
          · have hp' : p'.1 ≠ k := by
              intro hp'
              have hlt : keyLt p.1 k = true := by
                rw [List.lookup_cons, beq_eq_false_iff_ne.2 (Ne.symm hp)] at hk
                cases hlt : keyLt p.1 k with
                | true => rfl
                | false =>
                  have := keyLt_total hp hlt
                  rw [lookup_none_of_lt fun z hz => keyLt_trans this (h1 z hz)] at hk
                  cases hk
              have h3 := hq p.1 hp
              rw [lookup_none_of_lt (l := p' :: m') (k := p.1)] at h3
              · rw [List.lookup_cons, beq_self_eq_true] at h3
                cases h3
              · intro z hz
                rcases List.mem_cons.1 hz with rfl | hz
                · rw [hp']; exact hlt
                · exact keyLt_trans (by rw [hp']; exact hlt) (h1' z hz)
            have hpp : p.1 = p'.1 := by
              by_cases hpp : p.1 = p'.1
              · exact hpp
              · exfalso
                have h3 := hq p.1 hp
                have h4 := hq p'.1 hp'
                rw [List.lookup_cons, List.lookup_cons, beq_self_eq_true, beq_eq_false_iff_ne.2 hpp] at h3
                rw [List.lookup_cons, List.lookup_cons, beq_self_eq_true, beq_eq_false_iff_ne.2 (Ne.symm hpp)] at h4
                simp only at h3 h4
                rcases Bool.eq_false_or_eq_true (keyLt p.1 p'.1) with hlt | hlt
                · rw [lookup_none_of_lt fun z hz => keyLt_trans hlt (h1' z hz)] at h3
                  cases h3
                · rw [lookup_none_of_lt fun z hz => keyLt_trans (keyLt_total hpp hlt) (h1 z hz)] at h4
                  cases h4
            have hv : p.2 = p'.2 := by
              have h3 := hq p.1 hp
              rw [List.lookup_cons, List.lookup_cons, beq_self_eq_true, hpp, beq_self_eq_true] at h3
              exact Option.some.inj h3
            have e : p = p' := Prod.ext hpp hv
            subst e
            rw [List.foldlM_cons, List.foldlM_cons]
            cases hst : step s p with
            | none => rfl
            | some s' =>
              refine ih h2 ?_ m' h2' ?_ ?_ s' (hP s p s' hs hst)
              · rwa [List.lookup_cons, beq_eq_false_iff_ne.2 (Ne.symm hp)] at hk
              · rwa [List.lookup_cons, beq_eq_false_iff_ne.2 (Ne.symm hp)] at hk'
              · intro q hqk
                by_cases hqp : q = p.1
                · subst hqp
                  rw [lookup_none_of_lt h1, lookup_none_of_lt h1']
                · have := hq q hqk
                  rwa [List.lookup_cons, List.lookup_cons, beq_eq_false_iff_ne.2 hqp] at this
    refine hmap _ (sorted_setAll List.Pairwise.nil) ?_ _ (sorted_setAll List.Pairwise.nil) ?_ ?_ s hs
    · rw [look, hy]; simp
    · rw [look, hy]; simp
    · intro q hq
      rw [look, look, if_neg hq, if_neg hq]

/-! ### What is read at a place -/

/-- Maps in the order of their keys. -/
def inOrder : Nat → List (Bytes × Json) → List (Bytes × Json) := fun _ l => l

/-- The header is a header and the trailer is a trailer. -/
def Framed (f : File) : Prop := (∃ e fs, f.header = .header e fs) ∧ ∃ e fs, f.trailer = .trailer e fs

/-- Nothing read at this place tells the two values apart. -/
def ReadAlike (env : JsonEnv) : Spec.Place → Json → Json → Prop
  | .file, w, w' => ∀ f, Framed f → f.ofJson env inOrder w = f.ofJson env inOrder w'
  | .data, w, w' => ∀ enc n acc, ((decodeList env w).bind fun xs => decodeBases env inOrder enc n xs acc) =
      (decodeList env w').bind fun xs => decodeBases env inOrder enc n xs acc
  | .record, w, w' => ∀ fs g, decodeBase env (fun l => l) fs g w = decodeBase env (fun l => l) fs g w'
  | .segments k, w, w' => ∀ name g, segKindOfName name = some k →
      ((decodeList env w).bind fun xs => xs.foldlM (decodeSeg env name) g) = (decodeList env w').bind fun xs => xs.foldlM (decodeSeg env name) g
  | .fields decl, w, w' => ∀ fs, decodeStruct env decl fs w = decodeStruct env decl fs w'

theorem ReadAlike.refl (env : JsonEnv) (p : Spec.Place) (w : Json) : ReadAlike env p w w := by
  cases p with
  | file => exact fun _ _ => rfl
  | data => exact fun _ _ _ => rfl
  | record => exact fun _ _ => rfl
  | segments k => exact fun _ _ _ => rfl
  | fields decl => exact fun _ => rfl

theorem ReadAlike.trans {env : JsonEnv} {p : Spec.Place} {w w' w'' : Json} (h : ReadAlike env p w w') (h' : ReadAlike env p w' w'') :
    ReadAlike env p w w'' := by
  cases p with
  | file => exact fun f hf => (h f hf).trans (h' f hf)
  | data => exact fun a b c => (h a b c).trans (h' a b c)
  | record => exact fun a b => (h a b).trans (h' a b)
  | segments k => exact fun a b c => (h a b c).trans (h' a b c)
  | fields decl => exact fun a => (h a).trans (h' a)

/-- The values read are not told apart. -/
def ReAlike (env : JsonEnv) (p : Spec.Place) (v v' : Json) : Prop :=
  (reJson env v = none ∧ reJson env v' = none) ∨ ∃ w w', reJson env v = some w ∧ reJson env v' = some w' ∧ ReadAlike env p w w'

/-! ### One step -/

theorem decodeMap_re {env : JsonEnv} {m : List (Bytes × Json)} (h : reJson env (.obj m) = some (.obj m)) : decodeMap env (.obj m) = some m := by
  rw [reJson] at h
  show reObj env m [] = some m
  cases hr : reObj env m [] with
  | none => rw [hr] at h; cases h
  | some x => rw [hr] at h; cases h; rfl

theorem decodeList_re {env : JsonEnv} {m : List Json} (h : reJson env (.arr m) = some (.arr m)) : decodeList env (.arr m) = some m := by
  rw [reJson] at h
  show reList env m = some m
  cases hr : reList env m with
  | none => rw [hr] at h; cases h
  | some x => rw [hr] at h; cases h; rfl

/-- Letters and digits. -/
def wordByte (c : UInt8) : Bool := (97 ≤ c && c ≤ 122) || (65 ≤ c && c ≤ 90) || (48 ≤ c && c ≤ 57)

theorem small_byte (c : UInt8) (h : wordByte c = true) :
    upperByte (if 65 ≤ c ∧ c ≤ 90 then c + 32 else c) = upperByte c ∧ c < 0x80 ∧ (if 65 ≤ c ∧ c ≤ 90 then c + 32 else c) < 0x80 ∧
    ((97 ≤ (if 65 ≤ c ∧ c ≤ 90 then c + 32 else c) ∧ (if 65 ≤ c ∧ c ≤ 90 then c + 32 else c) ≤ 122) ∨
      (48 ≤ (if 65 ≤ c ∧ c ≤ 90 then c + 32 else c) ∧ (if 65 ≤ c ∧ c ≤ 90 then c + 32 else c) ≤ 57)) := by
  have : ∀ n : Fin 256, (fun c : UInt8 => wordByte c = true →
    upperByte (if 65 ≤ c ∧ c ≤ 90 then c + 32 else c) = upperByte c ∧ c < 0x80 ∧ (if 65 ≤ c ∧ c ≤ 90 then c + 32 else c) < 0x80 ∧
    ((97 ≤ (if 65 ≤ c ∧ c ≤ 90 then c + 32 else c) ∧ (if 65 ≤ c ∧ c ≤ 90 then c + 32 else c) ≤ 122) ∨
      (48 ≤ (if 65 ≤ c ∧ c ≤ 90 then c + 32 else c) ∧ (if 65 ≤ c ∧ c ≤ 90 then c + 32 else c) ≤ 57))) ⟨⟨n⟩⟩ := by decide +kernel
  exact this c.toFin h

theorem digit_byte (c : UInt8) (h1 : 48 ≤ c) (h2 : c ≤ 57) : upperByte c = c ∧ c < 0x80 ∧ c ≠ 75 ∧ c ≠ 83 ∧ ¬ 97 ≤ c ∧ ∀ d, upperByte d = c → d = c := by
  have : ∀ n : Fin 256, (fun c : UInt8 => 48 ≤ c → c ≤ 57 → upperByte c = c ∧ c < 0x80 ∧ c ≠ 75 ∧ c ≠ 83 ∧ ¬ 97 ≤ c) ⟨⟨n⟩⟩ := by decide +kernel
  obtain ⟨a, b, c1, d1, e⟩ := this c.toFin h1 h2
  refine ⟨a, b, c1, d1, e, ?_⟩
  have hd : ∀ n : Fin 256, (fun d : UInt8 => upperByte d ≤ 57 → upperByte d = d) ⟨⟨n⟩⟩ := by decide +kernel
  intro d hd'
  have := hd d.toFin (by show upperByte d ≤ 57; rw [hd']; exact h2)
  rw [← hd']
  exact this.symm

/-- Comparison with a word of small letters and digits. -/
theorem spells_digits (w : Bytes) (hw : ∀ c ∈ w, (97 ≤ c ∧ c ≤ 122) ∨ (48 ≤ c ∧ c ≤ 57)) (s : Bytes) (h : foldKey s = foldKey w) :
    Spec.Spells Spec.foldOthers w s := by
  induction w generalizing s with
  | nil =>
    rcases foldKey_step s with rfl | ⟨rest, rfl, h1⟩ | ⟨rest, rfl, h1⟩ | ⟨x, rest, rfl, h1⟩
    · exact .nil
    all_goals rw [h1, foldKey] at h; cases h
  | cons c w ih =>
    have ih := ih fun c hc => hw c (List.mem_cons_of_mem _ hc)
    rcases hw c List.mem_cons_self with ⟨h1, h2⟩ | ⟨h1, h2⟩
    · have hc : c < 0x80 := by
        rw [UInt8.le_iff_toNat_le] at h2
        rw [UInt8.lt_iff_toNat_lt]
        simp only [UInt8.reduceToNat] at *
        omega
      rw [foldKey_ascii hc] at h
      rcases foldKey_step s with rfl | ⟨rest, rfl, h6⟩ | ⟨rest, rfl, h6⟩ | ⟨x, rest, rfl, h6⟩
      · rw [foldKey] at h; cases h
      all_goals
        rw [h6, List.cons.injEq] at h
        have hs := ih rest h.2
        obtain ⟨h, -⟩ := h
      · rw [show c = 107 from small_of_upper h1 h2 h.symm]
        exact .other (t := [0xE2, 0x84, 0xAA]) (by decide) hs
      · rw [show c = 115 from small_of_upper h1 h2 h.symm]
        exact .other (t := [0xC5, 0xBF]) (by decide) hs
      · rcases upperByte_small h1 h2 h with rfl | rfl
        · exact .small hs
        · exact .large h1 h2 hs
    · obtain ⟨u, hc, n1, n2, -, inj⟩ := digit_byte c h1 h2
      rw [foldKey_ascii hc, u] at h
      rcases foldKey_step s with rfl | ⟨rest, rfl, h6⟩ | ⟨rest, rfl, h6⟩ | ⟨x, rest, rfl, h6⟩
      · rw [foldKey] at h; cases h
      all_goals
        rw [h6, List.cons.injEq] at h
        have hs := ih rest h.2
        obtain ⟨h, -⟩ := h
      · exact absurd h.symm n1
      · exact absurd h.symm n2
      · rw [inj x h]
        exact .small hs

theorem smallWord_fold : ∀ (w : Bytes), (∀ c ∈ w, wordByte c = true) → foldKey (Spec.smallWord w) = foldKey w ∧
    ∀ c ∈ Spec.smallWord w, (97 ≤ c ∧ c ≤ 122) ∨ (48 ≤ c ∧ c ≤ 57)
  | [], _ => ⟨rfl, fun c h => by cases h⟩
  | c :: w, h => by
    obtain ⟨h1, h2⟩ := smallWord_fold w fun c hc => h c (List.mem_cons_of_mem _ hc)
    obtain ⟨a1, a2, a3, a4⟩ := small_byte c (h c List.mem_cons_self)
    refine ⟨?_, ?_⟩
    · show foldKey ((if 65 ≤ c ∧ c ≤ 90 then c + 32 else c) :: Spec.smallWord w) = _
      rw [foldKey_ascii a3, foldKey_ascii a2, a1, h1]
    · intro x hx
      rcases List.mem_cons.1 (show x ∈ (if 65 ≤ c ∧ c ≤ 90 then c + 32 else c) :: Spec.smallWord w from hx) with rfl | hx
      · exact a4
      · exact h2 x hx

/-- All names are made of letters and digits. -/
def Lettered (decl : List (F × FieldDecl)) : Prop := ∀ p ∈ decl, ∀ c ∈ p.2.json, wordByte c = true

instance (decl : List (F × FieldDecl)) : Decidable (Lettered decl) := by unfold Lettered; infer_instance

theorem lettered_header : Lettered headerRecordStruct := by decide +kernel
theorem lettered_trailer : Lettered trailerRecordStruct := by decide +kernel
theorem lettered_base : Lettered baseSegmentStruct := by decide +kernel
theorem lettered_seg (k : SegKind) : Lettered k.struct := by cases k <;> decide +kernel

/-- The places of fields have names made of letters and digits. -/
def GoodPlace : Spec.Place → Prop
  | .fields decl => Lettered decl
  | _ => True

theorem fieldOf_unknown {decl : List (F × FieldDecl)} (hl : Lettered decl) {k : Bytes} (h : Spec.UnknownKey (.fields decl) k) : fieldOf decl k = none := by
  have hk : ∀ p ∈ decl, foldKey p.2.json ≠ foldKey k := by
    intro p hp hf
    obtain ⟨h1, h2⟩ := smallWord_fold p.2.json (hl p hp)
    apply h p hp
    exact spells_digits _ h2 k (hf.symm.trans h1.symm)
  unfold fieldOf
  have e1 : decl.find? (fun p => p.2.json = k) = none := by
    rw [List.find?_eq_none]
    intro p hp hpk
    exact hk p hp (congrArg foldKey (of_decide_eq_true hpk))
  have e2 : decl.find? (fun p => foldKey p.2.json = foldKey k) = none := by
    rw [List.find?_eq_none]
    intro p hp hpk
    exact hk p hp (of_decide_eq_true hpk)
  rw [e1, e2]
  rfl

theorem fileEntry_unknown (env : JsonEnv) {k : Bytes} (h : Spec.UnknownKey .file k) (f : File) (v : Json) :
    decodeFileEntry env inOrder f (k, v) = some f := by
  obtain ⟨h1, h2, h3⟩ := h
  have hh : k ≠ b! "header" := by
    intro hk
    apply h3
    rw [← spells_fold _ headerWord_small, headerWord_eq, hk]
    decide +kernel
  have hd : k ≠ b! "data" := fun hk => h1 (by rw [hk]; decide +kernel)
  have ht : k ≠ b! "trailer" := fun hk => h2 (by rw [hk]; decide +kernel)
  unfold decodeFileEntry
  rw [if_neg hh, if_neg ht, if_neg hd]

theorem baseEntry_unknown (env : JsonEnv) {k : Bytes} (h : Spec.UnknownKey .record k) (r : Fields × Segs) (v : Json) :
    decodeBaseEntry env r (k, v) = some r := by
  have ne : ∀ s ∈ Spec.recordKeys, ∀ b : Bytes, s.toUTF8.data.toList = b → k ≠ b := fun s hs b hb hk => h s hs (hk.trans hb.symm)
  unfold decodeBaseEntry decodeSeg segKindOfName
  have n0 := ne "base" (by decide) (b! "base") (by decide +kernel)
  have n1 := ne "j1" (by decide) (b! "j1") (by decide +kernel)
  have n2 := ne "j2" (by decide) (b! "j2") (by decide +kernel)
  have n3 := ne "k1" (by decide) (b! "k1") (by decide +kernel)
  have n4 := ne "k2" (by decide) (b! "k2") (by decide +kernel)
  have n5 := ne "k3" (by decide) (b! "k3") (by decide +kernel)
  have n6 := ne "k4" (by decide) (b! "k4") (by decide +kernel)
  have n7 := ne "l1" (by decide) (b! "l1") (by decide +kernel)
  have n8 := ne "n1" (by decide) (b! "n1") (by decide +kernel)
  simp only [n0, n1, n2, n3, n4, n5, n6, n7, n8, if_false, or_self, Option.map_some]

theorem fileEntry_framed {env : JsonEnv} {f f' : File} {kv : Bytes × Json} (hf : Framed f) (h : decodeFileEntry env inOrder f kv = some f') : Framed f' := by
  obtain ⟨⟨e, fs, hh⟩, ⟨e', fs', ht⟩⟩ := hf
  unfold decodeFileEntry at h
  by_cases h1 : kv.1 = b! "header"
  · rw [if_pos h1, hh] at h
    simp only [Record.ofJson, Option.map_map, Option.map_eq_some_iff] at h
    obtain ⟨a, -, rfl⟩ := h
    exact ⟨⟨_, _, rfl⟩, ⟨_, _, ht⟩⟩
  · rw [if_neg h1] at h
    by_cases h2 : kv.1 = b! "trailer"
    · rw [if_pos h2, ht] at h
      simp only [Record.ofJson, Option.map_map, Option.map_eq_some_iff] at h
      obtain ⟨a, -, rfl⟩ := h
      exact ⟨⟨_, _, hh⟩, ⟨_, _, rfl⟩⟩
    · rw [if_neg h2] at h
      by_cases h3 : kv.1 = b! "data"
      · rw [if_pos h3] at h
        cases hd : decodeList env kv.2 with
        | none => rw [hd] at h; cases h
        | some xs =>
          simp only [hd, Option.map_eq_some_iff] at h
          obtain ⟨a, -, rfl⟩ := h
          exact ⟨⟨_, _, hh⟩, ⟨_, _, ht⟩⟩
      · rw [if_neg h3] at h
        cases h
        exact ⟨⟨_, _, hh⟩, ⟨_, _, ht⟩⟩

/-- A member that is not known. -/
theorem readAlike_extra {env : JsonEnv} {p : Spec.Place} (hp : GoodPlace p) {k : Bytes} (h : Spec.UnknownKey p k) {x y : List (Bytes × Json)} {u : Json}
    (h1 : reJson env (.obj (setAll (x ++ y) [])) = some (.obj (setAll (x ++ y) [])))
    (h2 : reJson env (.obj (setAll (x ++ (k, u) :: y) [])) = some (.obj (setAll (x ++ (k, u) :: y) []))) :
    ReadAlike env p (.obj (setAll (x ++ y) [])) (.obj (setAll (x ++ (k, u) :: y) [])) := by
  cases p with
  | file =>
    intro f _
    unfold File.ofJson
    rw [decodeMap_re h1, decodeMap_re h2]
    exact foldlM_extra (fileEntry_unknown env h) x y u f
  | data => exact h.elim
  | record =>
    intro fs g
    unfold decodeBase
    rw [decodeMap_re h1, decodeMap_re h2]
    exact foldlM_extra (baseEntry_unknown env h) x y u _
  | segments _ => exact h.elim
  | fields decl =>
    intro fs
    refine foldlM_extra (step := decodeMember env decl) (k := k) ?_ x y u fs
    intro s v
    unfold decodeMember
    rw [fieldOf_unknown hp h]

theorem fileEntry_header {env : JsonEnv} {w w' : Json} (h : ReadAlike env (.fields headerRecordStruct) w w') (f : File) (hf : Framed f) :
    decodeFileEntry env inOrder f (b! "header", w) = decodeFileEntry env inOrder f (b! "header", w') := by
  obtain ⟨⟨e, fs, hh⟩, -⟩ := hf
  unfold decodeFileEntry
  rw [if_pos rfl, if_pos rfl, hh]
  simp only [Record.ofJson]
  rw [h fs]

theorem fileEntry_trailer {env : JsonEnv} {w w' : Json} (h : ReadAlike env (.fields trailerRecordStruct) w w') (f : File) (hf : Framed f) :
    decodeFileEntry env inOrder f (b! "trailer", w) = decodeFileEntry env inOrder f (b! "trailer", w') := by
  obtain ⟨-, ⟨e, fs, hh⟩⟩ := hf
  have hn : ¬ b! "trailer" = b! "header" := by decide +kernel
  unfold decodeFileEntry
  rw [if_neg hn, if_neg hn, if_pos rfl, if_pos rfl, hh]
  simp only [Record.ofJson]
  rw [h fs]

theorem fileEntry_data {env : JsonEnv} {w w' : Json} (h : ReadAlike env .data w w') (f : File) :
    decodeFileEntry env inOrder f (b! "data", w) = decodeFileEntry env inOrder f (b! "data", w') := by
  have hn : ¬ b! "data" = b! "header" := by decide +kernel
  have hn' : ¬ b! "data" = b! "trailer" := by decide +kernel
  have key : ∀ w : Json, decodeFileEntry env inOrder f (b! "data", w) =
      ((decodeList env w).bind fun xs => decodeBases env inOrder f.format 1 xs f.bases).map fun bs => { f with bases := bs } := by
    intro w
    unfold decodeFileEntry
    rw [if_neg hn, if_neg hn', if_pos rfl]
    cases decodeList env w <;> rfl
  rw [key, key, h f.format 1 f.bases]

theorem baseEntry_base {env : JsonEnv} {w w' : Json} (h : ReadAlike env (.fields baseSegmentStruct) w w') (r : Fields × Segs) :
    decodeBaseEntry env r (b! "base", w) = decodeBaseEntry env r (b! "base", w') := by
  unfold decodeBaseEntry
  rw [if_pos rfl, if_pos rfl, h]

theorem baseEntry_list {env : JsonEnv} {name : Bytes} {k : SegKind} (hn : name ≠ b! "base") (hj : name = b! "j1" ∨ name = b! "j2")
    (hk : segKindOfName name = some k) {w w' : Json} (h : ReadAlike env (.segments k) w w') (r : Fields × Segs) :
    decodeBaseEntry env r (name, w) = decodeBaseEntry env r (name, w') := by
  have key : ∀ w : Json, decodeBaseEntry env r (name, w) =
      ((decodeList env w).bind fun xs => xs.foldlM (decodeSeg env name) r.2).map fun g => (r.1, g) := by
    intro w
    unfold decodeBaseEntry
    rw [if_neg hn, if_pos hj]
    cases decodeList env w <;> rfl
  rw [key, key, h name r.2 hk]

theorem decodeSeg_alike {env : JsonEnv} {name : Bytes} {k : SegKind} (hk : segKindOfName name = some k) {w w' : Json}
    (h : ReadAlike env (.fields k.struct) w w') (g : Segs) : decodeSeg env name g w = decodeSeg env name g w' := by
  unfold decodeSeg
  simp only [hk]
  rw [h]

theorem baseEntry_single {env : JsonEnv} {name : Bytes} {k : SegKind} (hn : name ≠ b! "base") (hj : ¬ (name = b! "j1" ∨ name = b! "j2"))
    (hk : segKindOfName name = some k) {w w' : Json} (h : ReadAlike env (.fields k.struct) w w') (r : Fields × Segs) :
    decodeBaseEntry env r (name, w) = decodeBaseEntry env r (name, w') := by
  unfold decodeBaseEntry
  rw [if_neg hn, if_neg hn, if_neg hj, if_neg hj, decodeSeg_alike hk h]

/-- Inside a member. -/
theorem readAlike_member {env : JsonEnv} {p q : Spec.Place} {k : Bytes} (h : Spec.Inside p k q) {x y : List (Bytes × Json)} {w w' : Json}
    (h1 : reJson env (.obj (setAll (x ++ (k, w) :: y) [])) = some (.obj (setAll (x ++ (k, w) :: y) [])))
    (h2 : reJson env (.obj (setAll (x ++ (k, w') :: y) [])) = some (.obj (setAll (x ++ (k, w') :: y) [])))
    (ha : ReadAlike env q w w') : ReadAlike env p (.obj (setAll (x ++ (k, w) :: y) [])) (.obj (setAll (x ++ (k, w') :: y) [])) := by
  have file : (∀ f, Framed f → decodeFileEntry env inOrder f (k, w) = decodeFileEntry env inOrder f (k, w')) →
      ReadAlike env .file (.obj (setAll (x ++ (k, w) :: y) [])) (.obj (setAll (x ++ (k, w') :: y) [])) := by
    intro hs f hf
    unfold File.ofJson
    rw [decodeMap_re h1, decodeMap_re h2]
    exact foldlM_exchange Framed (fun _ _ _ => fileEntry_framed) hs x y f hf
  have record : (∀ r, decodeBaseEntry env r (k, w) = decodeBaseEntry env r (k, w')) →
      ReadAlike env .record (.obj (setAll (x ++ (k, w) :: y) [])) (.obj (setAll (x ++ (k, w') :: y) [])) := by
    intro hs fs g
    unfold decodeBase
    rw [decodeMap_re h1, decodeMap_re h2]
    exact foldlM_exchange (fun _ => True) (fun _ _ _ _ _ => trivial) (fun s _ => hs s) x y _ trivial
  cases h with
  | header => exact file (fileEntry_header ha)
  | data => exact file fun f _ => fileEntry_data ha f
  | trailer => exact file (fileEntry_trailer ha)
  | base => exact record (baseEntry_base ha)
  | j1 => exact record (baseEntry_list (by decide +kernel) (by decide +kernel) (by decide +kernel) ha)
  | j2 => exact record (baseEntry_list (by decide +kernel) (by decide +kernel) (by decide +kernel) ha)
  | k1 => exact record (baseEntry_single (by decide +kernel) (by decide +kernel) (by decide +kernel) ha)
  | k2 => exact record (baseEntry_single (by decide +kernel) (by decide +kernel) (by decide +kernel) ha)
  | k3 => exact record (baseEntry_single (by decide +kernel) (by decide +kernel) (by decide +kernel) ha)
  | k4 => exact record (baseEntry_single (by decide +kernel) (by decide +kernel) (by decide +kernel) ha)
  | l1 => exact record (baseEntry_single (by decide +kernel) (by decide +kernel) (by decide +kernel) ha)
  | n1 => exact record (baseEntry_single (by decide +kernel) (by decide +kernel) (by decide +kernel) ha)

theorem decodeBases_exchange {env : JsonEnv} {w w' : Json} (ha : ReadAlike env .record w w') (enc : Enc) (x y : List Json) (n : Nat) (acc : List Record) :
    decodeBases env inOrder enc n (x ++ w :: y) acc = decodeBases env inOrder enc n (x ++ w' :: y) acc := by
  induction x generalizing n acc with
  | nil =>
    have : (newBase enc).ofJson env (inOrder n) w = (newBase enc).ofJson env (inOrder n) w' := by
      simp only [newBase, Record.ofJson]
      exact congrArg _ (ha _ _)
    simp only [List.nil_append, decodeBases, this]
  | cons v x ih =>
    simp only [List.cons_append, decodeBases]
    cases (newBase enc).ofJson env (inOrder n) v with
    | none => rfl
    | some b => exact ih _ _

/-- Inside an element. -/
theorem readAlike_element {env : JsonEnv} {p q : Spec.Place} (h : Spec.Element p q) {x y : List Json} {w w' : Json}
    (h1 : reJson env (.arr (x ++ w :: y)) = some (.arr (x ++ w :: y))) (h2 : reJson env (.arr (x ++ w' :: y)) = some (.arr (x ++ w' :: y)))
    (ha : ReadAlike env q w w') : ReadAlike env p (.arr (x ++ w :: y)) (.arr (x ++ w' :: y)) := by
  cases h with
  | record =>
    intro enc n acc
    rw [decodeList_re h1, decodeList_re h2]
    exact decodeBases_exchange ha enc x y n acc
  | segment k =>
    intro name g hk
    rw [decodeList_re h1, decodeList_re h2]
    show (x ++ w :: y).foldlM (decodeSeg env name) g = (x ++ w' :: y).foldlM (decodeSeg env name) g
    rw [List.foldlM_append, List.foldlM_append]
    congr 1
    funext g'
    rw [List.foldlM_cons, List.foldlM_cons, decodeSeg_alike hk ha]

theorem inside_good {p q : Spec.Place} {k : Bytes} (h : Spec.Inside p k q) : GoodPlace q := by
  cases h with
  | header => exact lettered_header
  | trailer => exact lettered_trailer
  | base => exact lettered_base
  | data => trivial
  | j1 => trivial
  | j2 => trivial
  | k1 => exact lettered_seg _
  | k2 => exact lettered_seg _
  | k3 => exact lettered_seg _
  | k4 => exact lettered_seg _
  | l1 => exact lettered_seg _
  | n1 => exact lettered_seg _

theorem element_good {p q : Spec.Place} (h : Spec.Element p q) : GoodPlace q := by
  cases h with
  | record => trivial
  | segment k => exact lettered_seg k

/-- Members that are not known do not matter. -/
theorem reAlike_adds {env : JsonEnv} (hst : Spec.FloatsStable env) {p : Spec.Place} {j j' : Json} (h : Spec.AddsTo env p j j') (hp : GoodPlace p) :
    ReAlike env p j j' := by
  induction h with
  | same hs =>
    rename_i q j j'
    have := reJson_same hs
    cases hj : reJson env j with
    | none => exact .inl ⟨hj, this ▸ hj⟩
    | some w => exact .inr ⟨w, w, hj, this ▸ hj, ReadAlike.refl _ _ _⟩
  | trans _ _ ih1 ih2 =>
    rcases ih1 hp with ⟨a, b⟩ | ⟨w, w', a, b, c⟩
    · rcases ih2 hp with ⟨a', b'⟩ | ⟨u, u', a', b', c'⟩
      · exact .inl ⟨a, b'⟩
      · rw [b] at a'; cases a'
    · rcases ih2 hp with ⟨a', b'⟩ | ⟨u, u', a', b', c'⟩
      · rw [b] at a'; cases a'
      · rw [b] at a'
        cases a'
        exact .inr ⟨w, u', a, b', c.trans c'⟩
  | extra a b hk hv =>
    rename_i p k v
    obtain ⟨u, hu⟩ := reJson_numbersOk hv
    have e1 := reJson_obj env (a ++ b)
    have e2 := reJson_obj env (a ++ (k, v) :: b)
    rw [mapM_append] at e1 e2
    rw [mapM_cons', reEntry, hu] at e2
    cases hx : a.mapM (reEntry env) with
    | none =>
      rw [hx] at e1 e2
      exact .inl ⟨e1, e2⟩
    | some x =>
      rw [hx] at e1 e2
      cases hy : b.mapM (reEntry env) with
      | none =>
        rw [hy] at e1 e2
        exact .inl ⟨e1, e2⟩
      | some y =>
        rw [hy] at e1 e2
        exact .inr ⟨_, _, e1, e2, readAlike_extra hp hk (reJson_idem hst _ _ e1) (reJson_idem hst _ _ e2)⟩
  | member a b hin _ ih =>
    rename_i p q k v v' _
    have e1 := reJson_obj env (a ++ (k, v) :: b)
    have e2 := reJson_obj env (a ++ (k, v') :: b)
    rw [mapM_append, mapM_cons', reEntry] at e1 e2
    rcases ih (inside_good hin) with ⟨n1, n2⟩ | ⟨w, w', s1, s2, s3⟩
    · simp only [n1] at e1
      simp only [n2] at e2
      cases hx : a.mapM (reEntry env) with
      | none => rw [hx] at e1 e2; exact .inl ⟨e1, e2⟩
      | some x => rw [hx] at e1 e2; exact .inl ⟨e1, e2⟩
    · simp only [s1] at e1
      simp only [s2] at e2
      cases hx : a.mapM (reEntry env) with
      | none => rw [hx] at e1 e2; exact .inl ⟨e1, e2⟩
      | some x =>
        rw [hx] at e1 e2
        cases hy : b.mapM (reEntry env) with
        | none => rw [hy] at e1 e2; exact .inl ⟨e1, e2⟩
        | some y =>
          rw [hy] at e1 e2
          exact .inr ⟨_, _, e1, e2, readAlike_member hin (reJson_idem hst _ _ e1) (reJson_idem hst _ _ e2) s3⟩
  | element a b hel _ ih =>
    rename_i p q v v' _
    have e1 : reJson env (.arr (a ++ v :: b)) = ((a ++ v :: b).mapM (reJson env)).map .arr := by rw [reJson, reList_eq]
    have e2 : reJson env (.arr (a ++ v' :: b)) = ((a ++ v' :: b).mapM (reJson env)).map .arr := by rw [reJson, reList_eq]
    rw [mapM_append, mapM_cons'] at e1 e2
    rcases ih (element_good hel) with ⟨n1, n2⟩ | ⟨w, w', s1, s2, s3⟩
    · rw [n1] at e1
      rw [n2] at e2
      cases hx : a.mapM (reJson env) with
      | none => rw [hx] at e1 e2; exact .inl ⟨e1, e2⟩
      | some x => rw [hx] at e1 e2; exact .inl ⟨e1, e2⟩
    · rw [s1] at e1
      rw [s2] at e2
      cases hx : a.mapM (reJson env) with
      | none => rw [hx] at e1 e2; exact .inl ⟨e1, e2⟩
      | some x =>
        rw [hx] at e1 e2
        cases hy : b.mapM (reJson env) with
        | none => rw [hy] at e1 e2; exact .inl ⟨e1, e2⟩
        | some y =>
          rw [hy] at e1 e2
          exact .inr ⟨_, _, e1, e2, readAlike_element hel (reJson_idem hst _ _ e1) (reJson_idem hst _ _ e2) s3⟩

/-- A file is read from what was read and written. -/
theorem ofJson_re {env : JsonEnv} (hst : Spec.FloatsStable env) (f : File) (j : Json) :
    f.ofJson env inOrder j = (reJson env j).bind fun w => f.ofJson env inOrder w := by
  cases j with
  | null => rfl
  | bool b => rfl
  | str s => rfl
  | num lit =>
    rw [reJson]
    cases env.refloat lit <;> rfl
  | arr xs =>
    rw [reJson]
    cases reList env xs <;> rfl
  | obj kvs =>
    cases hr : reObj env kvs [] with
    | none =>
      rw [reJson, hr]
      unfold File.ofJson
      rw [show decodeMap env (.obj kvs) = none from hr]
      rfl
    | some m =>
      have h1 : reJson env (.obj kvs) = some (.obj m) := by rw [reJson, hr]; rfl
      rw [h1]
      show f.ofJson env inOrder (.obj kvs) = f.ofJson env inOrder (.obj m)
      unfold File.ofJson
      rw [decodeMap_re (reJson_idem hst _ _ h1), show decodeMap env (.obj kvs) = some m from hr]

theorem ofJson_adds {env : JsonEnv} (hst : Spec.FloatsStable env) {j j' : Json} (h : Spec.AddsTo env .file j j') (f : File) (hf : Framed f) :
    f.ofJson env inOrder j = f.ofJson env inOrder j' := by
  rw [ofJson_re hst, ofJson_re hst f j']
  rcases reAlike_adds hst h trivial with ⟨a, b⟩ | ⟨w, w', a, b, c⟩
  · rw [a, b]
  · rw [a, b]
    exact c f hf

end Metro2
