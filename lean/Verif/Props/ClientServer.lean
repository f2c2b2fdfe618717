import Verif.Spec.ClientServer

/-! Property C105: the address that a call of the client goes to. -/

namespace Metro2

/-! ### Replacing -/

theorem replaceFrom_clear {old new : Bytes} (hold : old.head? = some 123) (t rest : Bytes) (ht : (123 : UInt8) ∉ t) :
    replaceFrom old new 0 (t ++ rest) = t ++ replaceFrom old new 0 rest := by
  induction t with
  | nil => rfl
  | cons c t ih =>
    rw [List.mem_cons, not_or] at ht
    have hp : old.isPrefixOf (c :: (t ++ rest)) = false := by
      cases old with
      | nil => cases hold
      | cons o old =>
        cases hold
        rw [List.isPrefixOf_cons_cons, beq_eq_false_iff_ne.2 ht.1, Bool.false_and]
    rw [List.cons_append, replaceFrom, hp, if_neg (by decide), ih ht.2, List.cons_append]

theorem replaceFrom_skip (old new xs rest : Bytes) : replaceFrom old new xs.length (xs ++ rest) = replaceFrom old new 0 rest := by
  induction xs with
  | nil => rfl
  | cons c xs ih => rw [List.cons_append, List.length_cons, replaceFrom, ih]

theorem closed_prefix {name m rest : Bytes} (h1 : (125 : UInt8) ∉ name) (h2 : (125 : UInt8) ∉ m) (h : (name ++ [125]).isPrefixOf (m ++ 125 :: rest) = true) :
    name = m := by
  induction name generalizing m with
  | nil =>
    cases m with
    | nil => rfl
    | cons c m =>
      rw [List.nil_append, List.cons_append, List.isPrefixOf_cons_cons, Bool.and_eq_true, beq_iff_eq] at h
      exact absurd (h.1 ▸ List.mem_cons_self) h2
  | cons c name ih =>
    rw [List.mem_cons, not_or] at h1
    cases m with
    | nil =>
      rw [List.cons_append, List.nil_append, List.isPrefixOf_cons_cons, Bool.and_eq_true, beq_iff_eq] at h
      exact absurd h.1.symm h1.1
    | cons d m =>
      rw [List.mem_cons, not_or] at h2
      rw [List.cons_append, List.cons_append, List.isPrefixOf_cons_cons, Bool.and_eq_true, beq_iff_eq] at h
      rw [h.1, ih h1.2 h2.2 h.2]

theorem replaceFrom_place {name : Bytes} (hn : (125 : UInt8) ∉ name) (value m rest : Bytes) (h1 : (123 : UInt8) ∉ m) (h2 : (125 : UInt8) ∉ m) :
    replaceFrom (123 :: name ++ [125]) value 0 (123 :: m ++ [125] ++ rest) =
      (if m = name then value else 123 :: m ++ [125]) ++ replaceFrom (123 :: name ++ [125]) value 0 rest := by
  by_cases h : m = name
  · subst h
    rw [if_pos rfl, List.cons_append, List.cons_append, replaceFrom, if_pos]
    · congr 1
      exact (congrArg (fun k => replaceFrom (123 :: (m ++ [125])) value k (m ++ [125] ++ rest)) (by simp)).trans
        (replaceFrom_skip (123 :: (m ++ [125])) value (m ++ [125]) rest)
    · rw [List.isPrefixOf_iff_prefix]
      exact ⟨rest, by simp⟩
  · rw [if_neg h]
    show replaceFrom (123 :: name ++ [125]) value 0 (123 :: (m ++ [125] ++ rest)) = _
    rw [replaceFrom, if_neg]
    · rw [replaceFrom_clear rfl (m ++ [125]) rest]
      · rfl
      intro hm
      rw [List.mem_append, List.mem_singleton] at hm
      exact hm.elim h1 (by decide)
    · intro hp
      rw [List.cons_append, List.isPrefixOf_cons_cons, Bool.and_eq_true, List.append_assoc, List.singleton_append] at hp
      exact h (closed_prefix hn h2 hp.2).symm

/-- A part after one variable is replaced. -/
def putPart (name value : Bytes) : Spec.Part → Spec.Part
  | .text t => .text t
  | .place m => if m = name then .text value else .place m

theorem replacePlace_parts {name value : Bytes} (hn : (125 : UInt8) ∉ name) (ps : List Spec.Part) (hc : ∀ p ∈ ps, p.Clear) :
    replacePlace name value (ps.flatMap Spec.Part.spelled) = (ps.map (putPart name value)).flatMap Spec.Part.spelled := by
  induction ps with
  | nil => rfl
  | cons p ps ih =>
    have ih' := ih fun q hq => hc q (List.mem_cons_of_mem _ hq)
    have hp := hc p List.mem_cons_self
    rw [List.flatMap_cons, List.map_cons, List.flatMap_cons, ← ih']
    cases p with
    | text t => exact replaceFrom_clear rfl t _ hp
    | place m =>
      refine (replaceFrom_place hn value m _ hp.1 hp.2).trans ?_
      rw [putPart]
      by_cases h : m = name
      · rw [if_pos h, if_pos h]; rfl
      · rw [if_neg h, if_neg h]; rfl

theorem putPart_clear {name value : Bytes} (hv : (123 : UInt8) ∉ value) {p : Spec.Part} (hp : p.Clear) : (putPart name value p).Clear := by
  cases p with
  | text t => exact hp
  | place m =>
    rw [putPart]
    by_cases h : m = name
    · rw [if_pos h]; exact hv
    · rw [if_neg h]; exact hp

/-! ### The variables of a server -/

theorem valueOf_cons {given : List (Bytes × Bytes)} {n : Bytes} {w : ServerVariable} {vs : List (Bytes × ServerVariable)} {name v : Bytes}
    (h : Spec.ValueOf given vs name v) : Spec.ValueOf given ((n, w) :: vs) name v := by
  cases h with
  | given h1 h2 => exact .given (List.mem_cons_of_mem _ h1) h2
  | default h1 h2 => exact .default (List.mem_cons_of_mem _ h1) h2

theorem valueOf_mem {given : List (Bytes × Bytes)} {vs : List (Bytes × ServerVariable)} {name v : Bytes} (h : Spec.ValueOf given vs name v) :
    name ∈ vs.map Prod.fst := by
  cases h with
  | given h1 h2 => exact List.mem_map.2 ⟨_, h1, rfl⟩
  | default h1 h2 => exact List.mem_map.2 ⟨_, h1, rfl⟩

/-- One variable. -/
theorem fillVariables_cons {given : List (Bytes × Bytes)} {name : Bytes} {v : ServerVariable} {rest : List (Bytes × ServerVariable)} (url : Bytes)
    (hf : ∀ value, ¬ Spec.Forbidden given (name, v) value) :
    ∃ value, Spec.ValueOf given ((name, v) :: rest) name value ∧
      fillVariables given ((name, v) :: rest) url = fillVariables given rest (replacePlace name value url) := by
  rw [fillVariables]
  cases h : given.lookup name with
  | none => exact ⟨_, .default List.mem_cons_self h, rfl⟩
  | some value =>
    refine ⟨value, .given List.mem_cons_self h, ?_⟩
    have hc : (v.enumValues.isEmpty || v.enumValues.contains value) = true := by
      rw [Bool.or_eq_true, List.isEmpty_iff, List.contains_iff_mem]
      by_cases he : v.enumValues = []
      · exact .inl he
      · exact .inr (Decidable.byContradiction fun hm => hf value ⟨h, he, hm⟩)
    simp only [hc, if_true]

theorem fillVariables_error {given : List (Bytes × Bytes)} {vs : List (Bytes × ServerVariable)} (url : Bytes) :
    (∀ e, fillVariables given vs url = .error e → ∃ nv ∈ vs, ∃ value, Spec.Forbidden given nv value ∧ e = variableError nv.1 value nv.2) ∧
    ((∃ nv ∈ vs, ∃ value, Spec.Forbidden given nv value) → ∃ e, fillVariables given vs url = .error e) := by
  induction vs generalizing url with
  | nil => exact ⟨fun e h => by simp [fillVariables] at h, fun ⟨_, h, _⟩ => nomatch h⟩
  | cons nv vs ih =>
    obtain ⟨name, v⟩ := nv
    by_cases hf : ∃ value, Spec.Forbidden given (name, v) value
    · obtain ⟨value, h1, h2, h3⟩ := hf
      have he : fillVariables given ((name, v) :: vs) url = .error (variableError name value v) := by
        rw [fillVariables, h1]
        have hc : (v.enumValues.isEmpty || v.enumValues.contains value) = false := by
          rw [Bool.or_eq_false_iff, List.isEmpty_eq_false_iff]
          refine ⟨h2, ?_⟩
          cases hx : v.enumValues.contains value with
          | false => rfl
          | true => exact absurd (List.contains_iff_mem.1 hx) h3
        simp only [hc, if_neg (show ¬ (false = true) by decide)]
      refine ⟨fun e h => ?_, fun _ => ⟨_, he⟩⟩
      rw [he] at h
      cases h
      exact ⟨_, List.mem_cons_self, value, ⟨h1, h2, h3⟩, rfl⟩
    · obtain ⟨value, -, he⟩ := fillVariables_cons (rest := vs) url fun w hw => hf ⟨w, hw⟩
      obtain ⟨ih1, ih2⟩ := ih (replacePlace name value url)
      rw [he]
      refine ⟨fun e h => ?_, fun ⟨nv, hm, w, hw⟩ => ?_⟩
      · obtain ⟨nv, hm, h⟩ := ih1 e h
        exact ⟨nv, List.mem_cons_of_mem _ hm, h⟩
      · rcases List.mem_cons.1 hm with rfl | hm
        · exact absurd ⟨w, hw⟩ hf
        · exact ih2 ⟨nv, hm, w, hw⟩

/-- All variables. -/
theorem fillVariables_parts {given : List (Bytes × Bytes)} (vs : List (Bytes × ServerVariable)) (hd : (vs.map Prod.fst).Nodup)
    (hn : ∀ nv ∈ vs, (125 : UInt8) ∉ nv.1) (hv : ∀ name v, Spec.ValueOf given vs name v → (123 : UInt8) ∉ v)
    (hf : ∀ nv ∈ vs, ∀ value, ¬ Spec.Forbidden given nv value) (value : Bytes → Option Bytes)
    (hval : ∀ name v, value name = some v ↔ Spec.ValueOf given vs name v) (ps : List Spec.Part) (hc : ∀ p ∈ ps, p.Clear) :
    fillVariables given vs (ps.flatMap Spec.Part.spelled) = .ok (ps.flatMap (Spec.Part.filled value)) := by
  induction vs generalizing ps value with
  | nil =>
    have hnone : ∀ name, value name = none := fun name => by
      cases h : value name with
      | none => rfl
      | some v => exact absurd (valueOf_mem ((hval name v).1 h)) (by simp)
    have he : Spec.Part.filled value = Spec.Part.spelled := by
      funext p
      cases p with
      | text t => rfl
      | place m => rw [Spec.Part.filled, hnone m]; rfl
    rw [fillVariables, he]
  | cons nv vs ih =>
    obtain ⟨name, w⟩ := nv
    obtain ⟨x, hx, he⟩ := fillVariables_cons (rest := vs) (ps.flatMap Spec.Part.spelled) (hf _ List.mem_cons_self)
    have hx' := hv _ _ hx
    rw [List.map_cons, List.nodup_cons] at hd
    have hmem : ∀ p ∈ ps.map (putPart name x), p.Clear := by
      intro p hp
      obtain ⟨q, hq, rfl⟩ := List.mem_map.1 hp
      exact putPart_clear hx' (hc q hq)
    have hval' : ∀ n v, (if n = name then none else value n) = some v ↔ Spec.ValueOf given vs n v := by
      intro n v
      by_cases h : n = name
      · subst h
        rw [if_pos rfl]
        exact ⟨fun h => (nomatch h), fun h => absurd (valueOf_mem h) hd.1⟩
      · rw [if_neg h, hval]
        refine ⟨fun hv => ?_, valueOf_cons⟩
        cases hv with
        | given h1 h2 =>
          rcases List.mem_cons.1 h1 with e | h1
          · cases e; exact absurd rfl h
          · exact .given h1 h2
        | default h1 h2 =>
          rcases List.mem_cons.1 h1 with e | h1
          · cases e; exact absurd rfl h
          · exact .default h1 h2
    rw [he, replacePlace_parts (hn _ List.mem_cons_self) ps hc,
      ih hd.2 (fun nv h => hn nv (List.mem_cons_of_mem _ h)) (fun n v h => hv n v (valueOf_cons h)) (fun nv h => hf nv (List.mem_cons_of_mem _ h)) _ hval' _
        hmem, List.flatMap_map]
    congr 2
    funext p
    cases p with
    | text t => rfl
    | place m =>
      rw [putPart]
      by_cases h : m = name
      · rw [if_pos h, Spec.Part.filled, Spec.Part.filled, h, (hval name x).2 hx]
      · rw [if_neg h, Spec.Part.filled, Spec.Part.filled, if_neg h]

theorem serversURL_at {servers : List ServerConfiguration} {index : Nat} {server : ServerConfiguration} (h : servers[index]? = some server)
    (given : List (Bytes × Bytes)) : serversURL servers index given = fillVariables given server.variables server.url := by
  rw [serversURL, if_pos (Int.natCast_nonneg index), Int.toNat_natCast, h]

/-! ### Theorems -/

/-- C105. The address has the values of the variables in their places. Missing for the full property: addresses with braces elsewhere, names with a closing
and values with an opening brace. -/
theorem C105_filled_partial (servers : List ServerConfiguration) (index : Nat) (server : ServerConfiguration) (hs : servers[index]? = some server)
    (given : List (Bytes × Bytes)) (hd : (server.variables.map Prod.fst).Nodup) (hn : ∀ nv ∈ server.variables, (125 : UInt8) ∉ nv.1)
    (hv : ∀ name v, Spec.ValueOf given server.variables name v → (123 : UInt8) ∉ v)
    (hf : ∀ nv ∈ server.variables, ∀ value, ¬ Spec.Forbidden given nv value) (value : Bytes → Option Bytes)
    (hval : ∀ name v, value name = some v ↔ Spec.ValueOf given server.variables name v) (ps : List Spec.Part) (hc : ∀ p ∈ ps, p.Clear)
    (hu : server.url = ps.flatMap Spec.Part.spelled) : serversURL servers index given = .ok (ps.flatMap (Spec.Part.filled value)) := by
  rw [serversURL_at hs, hu, fillVariables_parts server.variables hd hn hv hf value hval ps hc]

theorem lookup_names {vs : List (Bytes × ServerVariable)} (hd : (vs.map Prod.fst).Nodup) (name : Bytes) (w : ServerVariable) :
    vs.lookup name = some w ↔ (name, w) ∈ vs := by
  induction vs with
  | nil => simp
  | cons nv vs ih =>
    obtain ⟨n, x⟩ := nv
    rw [List.map_cons, List.nodup_cons] at hd
    rw [List.lookup_cons, List.mem_cons]
    by_cases h : name = n
    · subst h
      simp only [beq_self_eq_true]
      refine ⟨fun h => .inl (by cases h; rfl), fun h => ?_⟩
      rcases h with h | h
      · cases h; rfl
      · exact absurd (List.mem_map.2 ⟨_, h, rfl⟩) hd.1
    · simp only [beq_eq_false_iff_ne.2 h, ih hd.2]
      exact ⟨.inr, fun h' => h'.elim (fun e => by cases e; exact absurd rfl h) id⟩

/-- There is at most one value for each variable. -/
theorem valueOf_function (given : List (Bytes × Bytes)) {vs : List (Bytes × ServerVariable)} (hd : (vs.map Prod.fst).Nodup) :
    ∃ value : Bytes → Option Bytes, ∀ name v, value name = some v ↔ Spec.ValueOf given vs name v := by
  refine ⟨fun name => match vs.lookup name with
    | none => none
    | some w => match given.lookup name with
      | some x => some x
      | none => some w.defaultValue, fun name v => ?_⟩
  show (match vs.lookup name with
    | none => none
    | some w => match given.lookup name with
      | some x => some x
      | none => some w.defaultValue) = some v ↔ _
  cases h : vs.lookup name with
  | none =>
    refine ⟨fun h => (nomatch h), fun hv => ?_⟩
    cases hv with
    | given h1 h2 => rw [(lookup_names hd _ _).2 h1] at h; cases h
    | default h1 h2 => rw [(lookup_names hd _ _).2 h1] at h; cases h
  | some w =>
    have hw := (lookup_names hd _ _).1 h
    cases hg : given.lookup name with
    | none =>
      refine ⟨fun e => by cases e; exact .default hw hg, fun hv => ?_⟩
      cases hv with
      | given h1 h2 => rw [hg] at h2; cases h2
      | default h1 h2 =>
        have e := (lookup_names hd _ _).2 h1
        rw [h] at e
        cases e
        rfl
    | some x =>
      refine ⟨fun e => by cases e; exact .given hw hg, fun hv => ?_⟩
      cases hv with
      | given h1 h2 => rw [hg] at h2; cases h2; rfl
      | default h1 h2 => rw [hg] at h2; cases h2

theorem valueOf_perm {given : List (Bytes × Bytes)} {vs vs' : List (Bytes × ServerVariable)} (hp : vs.Perm vs') (name v : Bytes) :
    Spec.ValueOf given vs' name v ↔ Spec.ValueOf given vs name v := by
  constructor
  · intro h
    cases h with
    | given h1 h2 => exact .given (hp.mem_iff.2 h1) h2
    | default h1 h2 => exact .default (hp.mem_iff.2 h1) h2
  · intro h
    cases h with
    | given h1 h2 => exact .given (hp.mem_iff.1 h1) h2
    | default h1 h2 => exact .default (hp.mem_iff.1 h1) h2

/-- C105. The order in which the variables are visited does not matter. Missing: as in `C105_filled_partial`. -/
theorem C105_order_partial (url : Bytes) (vs vs' : List (Bytes × ServerVariable)) (hp : vs.Perm vs') (given : List (Bytes × Bytes))
    (hd : (vs.map Prod.fst).Nodup) (hn : ∀ nv ∈ vs, (125 : UInt8) ∉ nv.1) (hv : ∀ name v, Spec.ValueOf given vs name v → (123 : UInt8) ∉ v)
    (hf : ∀ nv ∈ vs, ∀ value, ¬ Spec.Forbidden given nv value) (ps : List Spec.Part) (hc : ∀ p ∈ ps, p.Clear)
    (hu : url = ps.flatMap Spec.Part.spelled) : serversURL [⟨url, vs⟩] 0 given = serversURL [⟨url, vs'⟩] 0 given := by
  obtain ⟨value, hval⟩ := valueOf_function given hd
  refine (C105_filled_partial [⟨url, vs⟩] 0 _ rfl given hd hn hv hf value hval ps hc hu).trans
    (C105_filled_partial [⟨url, vs'⟩] 0 _ rfl given ((hp.map Prod.fst).nodup_iff.1 hd) (fun nv h => hn nv (hp.mem_iff.2 h))
      (fun n v h => hv n v ((valueOf_perm hp n v).1 h)) (fun nv h => hf nv (hp.mem_iff.2 h)) value
      (fun n v => (hval n v).trans (valueOf_perm hp n v).symm) ps hc hu).symm

/-- C105. Exactly when there is no address, and what is said then. -/
theorem C105_refused (servers : List ServerConfiguration) (index : Int) (given : List (Bytes × Bytes)) :
    ((∃ e, serversURL servers index given = .error e) ↔
      index < 0 ∨ servers.length ≤ index ∨
        ∃ i server, index = ↑(i : Nat) ∧ servers[i]? = some server ∧ ∃ nv ∈ server.variables, ∃ value, Spec.Forbidden given nv value) ∧
    ∀ e, serversURL servers index given = .error e →
      (index < 0 ∨ servers.length ≤ index) ∧
        e = "index ".toUTF8.data.toList ++ fmtInt index ++ " out of range ".toUTF8.data.toList ++ fmtInt ((servers.length : Int) - 1) ∨
      ∃ server ∈ servers, ∃ nv ∈ server.variables, ∃ value, Spec.Forbidden given nv value ∧
        e = "the variable ".toUTF8.data.toList ++ nv.1 ++ " in the server URL has invalid value ".toUTF8.data.toList ++ value ++
          ". Must be ".toUTF8.data.toList ++ fmtStrings nv.2.enumValues := by
  by_cases h0 : index < 0
  · have he : serversURL servers index given =
        .error (b! "index " ++ fmtInt index ++ b! " out of range " ++ fmtInt ((servers.length : Int) - 1)) := by
      rw [serversURL, if_neg (by omega)]
    rw [he]
    refine ⟨⟨fun _ => .inl h0, fun _ => ⟨_, rfl⟩⟩, fun e h => .inl ⟨.inl h0, ?_⟩⟩
    cases h
    rfl
  · obtain ⟨i, rfl⟩ : ∃ i : Nat, index = i := ⟨index.toNat, by omega⟩
    cases hs : servers[i]? with
    | none =>
      have hl := List.getElem?_eq_none_iff.1 hs
      have he : serversURL servers i given =
          .error (b! "index " ++ fmtInt i ++ b! " out of range " ++ fmtInt ((servers.length : Int) - 1)) := by
        rw [serversURL, if_pos (by omega), Int.toNat_natCast, hs]
      rw [he]
      refine ⟨⟨fun _ => .inr (.inl (by omega)), fun _ => ⟨_, rfl⟩⟩, fun e h => .inl ⟨.inr (by omega), ?_⟩⟩
      cases h
      rfl
    | some server =>
      rw [serversURL_at hs]
      obtain ⟨h1, h2⟩ := fillVariables_error (given := given) (vs := server.variables) server.url
      have hm := List.mem_of_getElem? hs
      have hl : i < servers.length := (List.getElem?_eq_some_iff.1 hs).1
      refine ⟨⟨fun ⟨e, h⟩ => ?_, fun h => ?_⟩, fun e h => ?_⟩
      · obtain ⟨nv, hnv, value, hf, -⟩ := h1 e h
        exact .inr (.inr ⟨i, server, rfl, hs, nv, hnv, value, hf⟩)
      · rcases h with h | h | ⟨j, server', hj, hs', h⟩
        · omega
        · omega
        · cases Int.ofNat_inj.1 hj
          rw [hs] at hs'
          cases hs'
          exact h2 h
      · obtain ⟨nv, hnv, value, hf, rfl⟩ := h1 e h
        exact .inr ⟨server, hm, nv, hnv, value, hf, rfl⟩

theorem counts_index {ctx : ClientContext} {endpoint : Bytes} {o : Option Int} (h : Spec.Counts ctx.indices ctx.index endpoint o) (index : Int)
    (hx : o = some index ∨ o = none ∧ index = 0) : getServerOperationIndex ctx endpoint = .ok index := by
  unfold getServerOperationIndex getServerIndex
  cases h with
  | own h1 h2 =>
    rcases hx with hx | hx
    · cases hx; rw [h1]; simp only [h2]
    · cases hx.1
  | general h1 h2 =>
    rcases hx with hx | hx
    · cases hx
      rcases h1 with h1 | ⟨m, h1, h3⟩
      · rw [h1, h2]
      · rw [h1, h2]; simp only [h3]
    · cases hx.1
  | nothing h1 h2 =>
    rcases hx with hx | hx
    · cases hx
    · rw [hx.2]
      rcases h1 with h1 | ⟨m, h1, h3⟩
      · rw [h1, h2]
      · rw [h1, h2]; simp only [h3]

theorem counts_variables {ctx : ClientContext} {endpoint : Bytes} {o : Option (List (Bytes × Bytes))}
    (h : Spec.Counts ctx.operationVariables ctx.variables endpoint o) (given : List (Bytes × Bytes)) (hx : o = some given ∨ o = none ∧ given = []) :
    getServerOperationVariables ctx endpoint = .ok given := by
  unfold getServerOperationVariables getServerVariables
  cases h with
  | own h1 h2 =>
    rcases hx with hx | hx
    · cases hx; rw [h1]; simp only [h2]
    · cases hx.1
  | general h1 h2 =>
    rcases hx with hx | hx
    · cases hx
      rcases h1 with h1 | ⟨m, h1, h3⟩
      · rw [h1, h2]
      · rw [h1, h2]; simp only [h3]
    · cases hx.1
  | nothing h1 h2 =>
    rcases hx with hx | hx
    · cases hx
    · rw [hx.2]
      rcases h1 with h1 | ⟨m, h1, h3⟩
      · rw [h1, h2]
      · rw [h1, h2]; simp only [h3]

theorem option_choice {α : Type} (o : Option α) (d : α) : ∃ a, o = some a ∨ o = none ∧ a = d := by
  cases o with
  | none => exact ⟨d, .inr ⟨rfl, rfl⟩⟩
  | some a => exact ⟨a, .inl rfl⟩

/-- C105. The servers of an endpoint come before the general ones, and so do the index and the variables in the context; without them it is the first server
and no variable is given. -/
theorem C105_chosen (c : ClientConfiguration) (ctx : ClientContext) (endpoint : Bytes) (i : Option Int) (m : Option (List (Bytes × Bytes)))
    (hi : Spec.Counts ctx.indices ctx.index endpoint i) (hm : Spec.Counts ctx.operationVariables ctx.variables endpoint m)
    (index : Int) (given : List (Bytes × Bytes)) (hx : i = some index ∨ i = none ∧ index = 0) (hg : m = some given ∨ m = none ∧ given = []) :
    (∀ servers, c.operationServers.lookup endpoint = some servers → c.serverURL (some ctx) endpoint = serversURL servers index given) ∧
    (c.operationServers.lookup endpoint = none → c.serverURL (some ctx) endpoint = serversURL c.servers index given) := by
  have h1 := counts_index hi index hx
  have h2 := counts_variables hm given hg
  unfold ClientConfiguration.serverURL
  simp only [h1, h2]
  exact ⟨fun servers h => by rw [h], fun h => by rw [h]⟩

/-- C105. Without a context it is the first server with its defaults. -/
theorem C105_no_context (c : ClientConfiguration) (endpoint : Bytes) :
    (∀ servers, c.operationServers.lookup endpoint = some servers → c.serverURL none endpoint = serversURL servers 0 []) ∧
    (c.operationServers.lookup endpoint = none → c.serverURL none endpoint = serversURL c.servers 0 []) :=
  ⟨fun servers h => by unfold ClientConfiguration.serverURL; rw [h], fun h => by unfold ClientConfiguration.serverURL; rw [h]⟩

/-- C105. A value of a wrong type is an error, which tells the type. -/
theorem C105_wrong_type (c : ClientConfiguration) (ctx : ClientContext) (endpoint : Bytes)
    (h : ¬ Spec.RightType ctx.indices ctx.index endpoint ∨ ¬ Spec.RightType ctx.operationVariables ctx.variables endpoint) :
    ∃ t before behind, (ctx.indices = .other t ∨ ctx.index = .other t ∨ ctx.operationVariables = .other t ∨ ctx.variables = .other t) ∧
      c.serverURL (some ctx) endpoint = .error (before ++ t ++ behind) ∧
      (before, behind) ∈ [("Invalid type ".toUTF8.data.toList, " should be int".toUTF8.data.toList),
        ("Invalid type ".toUTF8.data.toList, " should be map[string]int".toUTF8.data.toList),
        ("ctx value of ContextServerVariables has invalid type ".toUTF8.data.toList, " should be map[string]string".toUTF8.data.toList),
        ("ctx value of ContextOperationServerVariables has invalid type ".toUTF8.data.toList,
          " should be map[string]map[string]string".toUTF8.data.toList)] := by
  have key : (∃ i, Spec.Counts ctx.indices ctx.index endpoint i) ∨
      ∃ t, (ctx.indices = .other t ∧ getServerOperationIndex ctx endpoint = .error (b! "Invalid type " ++ t ++ b! " should be map[string]int")) ∨
        (ctx.index = .other t ∧ getServerOperationIndex ctx endpoint = .error (b! "Invalid type " ++ t ++ b! " should be int")) := by
    unfold getServerOperationIndex getServerIndex
    cases h1 : ctx.indices with
    | other t => exact .inr ⟨t, .inl ⟨rfl, rfl⟩⟩
    | missing =>
      cases h2 : ctx.index with
      | other t => exact .inr ⟨t, .inr ⟨rfl, rfl⟩⟩
      | missing => exact .inl ⟨_, .nothing (.inl rfl) rfl⟩
      | value a => exact .inl ⟨_, .general (.inl rfl) rfl⟩
    | value m =>
      cases h3 : m.lookup endpoint with
      | some i => exact .inl ⟨_, .own rfl h3⟩
      | none =>
        cases h2 : ctx.index with
        | other t => exact .inr ⟨t, .inr ⟨rfl, by simp only [h3]⟩⟩
        | missing => exact .inl ⟨_, .nothing (.inr ⟨m, rfl, h3⟩) rfl⟩
        | value a => exact .inl ⟨_, .general (.inr ⟨m, rfl, h3⟩) rfl⟩
  have key' : (∃ i, Spec.Counts ctx.operationVariables ctx.variables endpoint i) ∨
      ∃ t, (ctx.operationVariables = .other t ∧ getServerOperationVariables ctx endpoint =
          .error (b! "ctx value of ContextOperationServerVariables has invalid type " ++ t ++ b! " should be map[string]map[string]string")) ∨
        (ctx.variables = .other t ∧ getServerOperationVariables ctx endpoint =
          .error (b! "ctx value of ContextServerVariables has invalid type " ++ t ++ b! " should be map[string]string")) := by
    unfold getServerOperationVariables getServerVariables
    cases h1 : ctx.operationVariables with
    | other t => exact .inr ⟨t, .inl ⟨rfl, rfl⟩⟩
    | missing =>
      cases h2 : ctx.variables with
      | other t => exact .inr ⟨t, .inr ⟨rfl, rfl⟩⟩
      | missing => exact .inl ⟨_, .nothing (.inl rfl) rfl⟩
      | value a => exact .inl ⟨_, .general (.inl rfl) rfl⟩
    | value m =>
      cases h3 : m.lookup endpoint with
      | some i => exact .inl ⟨_, .own rfl h3⟩
      | none =>
        cases h2 : ctx.variables with
        | other t => exact .inr ⟨t, .inr ⟨rfl, by simp only [h3]⟩⟩
        | missing => exact .inl ⟨_, .nothing (.inr ⟨m, rfl, h3⟩) rfl⟩
        | value a => exact .inl ⟨_, .general (.inr ⟨m, rfl, h3⟩) rfl⟩
  unfold ClientConfiguration.serverURL
  rcases key with ⟨i, hi⟩ | ⟨t, ⟨h1, h2⟩ | ⟨h1, h2⟩⟩
  · obtain ⟨index, hx⟩ := option_choice i 0
    rcases key' with ⟨v, hv⟩ | ⟨t, ⟨h1, h2⟩ | ⟨h1, h2⟩⟩
    · exact (h.elim (fun h => h ⟨i, hi⟩) fun h => h ⟨v, hv⟩).elim
    · refine ⟨t, _, _, .inr (.inr (.inl h1)), ?_, List.mem_cons_of_mem _ (List.mem_cons_of_mem _ (List.mem_cons_of_mem _ List.mem_cons_self))⟩
      simp only [counts_index hi index hx, h2]
      rfl
    · refine ⟨t, _, _, .inr (.inr (.inr h1)), ?_, List.mem_cons_of_mem _ (List.mem_cons_of_mem _ List.mem_cons_self)⟩
      simp only [counts_index hi index hx, h2]
      rfl
  · refine ⟨t, _, _, .inl h1, ?_, List.mem_cons_of_mem _ List.mem_cons_self⟩
    simp only [h2]
    rfl
  · refine ⟨t, _, _, .inr (.inl h1), ?_, List.mem_cons_self⟩
    simp only [h2]
    rfl

/-- C105. A client as it comes goes to the local server, for every endpoint. -/
theorem C105_local (endpoint : Bytes) : newConfiguration.serverURL none endpoint = .ok "http://localhost:8080".toUTF8.data.toList ∧
    newConfiguration.serverURL (some {}) endpoint = .ok "http://localhost:8080".toUTF8.data.toList :=
  ⟨rfl, rfl⟩

/-- Cases of `C105_local` and `C105_no_context`. -/
example : newConfiguration.operationServers.lookup (b! "Metro2FilesApiService.Convert") = none ∧
    newConfiguration.serverURL none (b! "Metro2FilesApiService.Convert") = .ok (b! "http://localhost:8080") := ⟨rfl, rfl⟩

/-! ### Witnesses -/

namespace Samples

/-- A server with two variables. -/
def twoPlaces : ServerConfiguration :=
  ⟨b! "http://{host}:{port}/{host}", [(b! "host", ⟨b! "localhost", []⟩), (b! "port", ⟨b! "8080", [b! "8080", b! "80"]⟩)]⟩

/-- Its parts. -/
def twoParts : List Spec.Part :=
  [.text (b! "http://"), .place (b! "host"), .text (b! ":"), .place (b! "port"), .text (b! "/"), .place (b! "host")]

/-- The value of `host` has the place of `port`. -/
def nested : List (Bytes × ServerVariable) := [(b! "host", ⟨b! "{port}", []⟩), (b! "port", ⟨b! "80", []⟩)]

/-- Two variables that are both given wrong. -/
def twoWrong : List (Bytes × ServerVariable) := [(b! "host", ⟨b! "a", [b! "a"]⟩), (b! "port", ⟨b! "80", [b! "80"]⟩)]

end Samples

open Samples

/-- C105, the full statement: the address has the values of the variables in their places, and does not depend on the order in which they are visited. -/
def C105_statement : Prop :=
  ∀ (url : Bytes) (vs vs' : List (Bytes × ServerVariable)), vs.Perm vs' → (vs.map Prod.fst).Nodup → ∀ given,
    serversURL [⟨url, vs⟩] 0 given = serversURL [⟨url, vs'⟩] 0 given

/-- C105 does not hold: a value with a place in it. -/
theorem C105_violated : ¬ C105_statement := by
  intro h
  have e := h (b! "http://{host}") nested nested.reverse (List.reverse_perm nested).symm (by decide +kernel) []
  have e1 : serversURL [⟨b! "http://{host}", nested⟩] 0 [] = .ok (b! "http://80") := rfl
  have e2 : serversURL [⟨b! "http://{host}", nested.reverse⟩] 0 [] = .ok (b! "http://{port}") := rfl
  rw [e1, e2] at e
  injection e with e
  revert e
  decide +kernel

/-- C105 does not hold for errors either: which of two wrong values is told depends on the order. -/
theorem C105_error_violated : ∃ e e', e ≠ e' ∧ serversURL [⟨b! "{host}:{port}", twoWrong⟩] 0 [(b! "host", b! "b"), (b! "port", b! "81")] = .error e ∧
    serversURL [⟨b! "{host}:{port}", twoWrong.reverse⟩] 0 [(b! "host", b! "b"), (b! "port", b! "81")] = .error e' :=
  ⟨_, _, by decide +kernel, rfl, rfl⟩

/-- A default is taken even if it is not one of the values that the variable may have. -/
theorem C105_default_violated : serversURL [⟨b! "{port}", [(b! "port", ⟨b! "1", [b! "80"]⟩)]⟩] 0 [] = .ok (b! "1") ∧
    ∃ e, serversURL [⟨b! "{port}", [(b! "port", ⟨b! "1", [b! "80"]⟩)]⟩] 0 [(b! "port", b! "1")] = .error e :=
  ⟨rfl, _, rfl⟩

theorem twoPlaces_value (name v : Bytes) : Spec.ValueOf [(b! "port", b! "80")] twoPlaces.variables name v ↔
    name = b! "host" ∧ v = b! "localhost" ∨ name = b! "port" ∧ v = b! "80" := by
  constructor
  · intro h
    cases h with
    | given h1 h2 =>
      rcases List.mem_cons.1 h1 with e | h1
      · cases e
        have h3 : ([(b! "port", b! "80")] : List (Bytes × Bytes)).lookup (b! "host") = none := by decide +kernel
        rw [h3] at h2
        cases h2
      · cases List.mem_singleton.1 h1
        have h3 : ([(b! "port", b! "80")] : List (Bytes × Bytes)).lookup (b! "port") = some (b! "80") := by decide +kernel
        rw [h3] at h2
        cases h2
        exact .inr ⟨rfl, rfl⟩
    | default h1 h2 =>
      rcases List.mem_cons.1 h1 with e | h1
      · cases e
        exact .inl ⟨rfl, rfl⟩
      · cases List.mem_singleton.1 h1
        exact absurd h2 (by decide +kernel)
  · rintro (⟨rfl, rfl⟩ | ⟨rfl, rfl⟩)
    · exact .default (v := ⟨b! "localhost", []⟩) List.mem_cons_self (by decide +kernel)
    · exact .given (List.mem_cons_of_mem _ List.mem_cons_self) (by decide +kernel)

theorem twoPlaces_names : ∀ nv ∈ twoPlaces.variables, (125 : UInt8) ∉ nv.1 := by
  intro nv h
  rcases List.mem_cons.1 h with rfl | h
  · decide +kernel
  · cases List.mem_singleton.1 h
    decide +kernel

theorem twoPlaces_values (n v : Bytes) (h : Spec.ValueOf [(b! "port", b! "80")] twoPlaces.variables n v) : (123 : UInt8) ∉ v := by
  rcases (twoPlaces_value n v).1 h with ⟨-, rfl⟩ | ⟨-, rfl⟩ <;> decide +kernel

theorem twoPlaces_allowed : ∀ nv ∈ twoPlaces.variables, ∀ value, ¬ Spec.Forbidden [(b! "port", b! "80")] nv value := by
  intro nv h value hf
  rcases List.mem_cons.1 h with rfl | h
  · exact hf.2.1 rfl
  · cases List.mem_singleton.1 h
    obtain ⟨h1, -, h3⟩ := hf
    have h2 : ([(b! "port", b! "80")] : List (Bytes × Bytes)).lookup (b! "port") = some (b! "80") := by decide +kernel
    rw [h2] at h1
    cases h1
    exact h3 (by decide +kernel)

theorem twoParts_clear : ∀ p ∈ twoParts, p.Clear := by
  intro p hp
  simp only [twoParts, List.mem_cons, List.not_mem_nil, or_false] at hp
  rcases hp with rfl | rfl | rfl | rfl | rfl | rfl <;> simp only [Spec.Part.Clear] <;> decide +kernel

/-- Case of `C105_filled_partial`. -/
example : serversURL [⟨[], []⟩, twoPlaces] 1 [(b! "port", b! "80")] = .ok (b! "http://localhost:80/localhost") := by
  refine (C105_filled_partial [⟨[], []⟩, twoPlaces] 1 twoPlaces rfl _ (by decide +kernel) twoPlaces_names twoPlaces_values twoPlaces_allowed
    (fun n => if n = b! "host" then some (b! "localhost") else if n = b! "port" then some (b! "80") else none) ?_ twoParts twoParts_clear rfl).trans rfl
  intro n v
  rw [twoPlaces_value]
  by_cases h : n = b! "host"
  · subst h
    rw [if_pos rfl]
    exact ⟨fun e => by cases e; exact .inl ⟨rfl, rfl⟩, fun e => e.elim (fun e => by rw [e.2]) fun e => absurd e.1 (by decide +kernel)⟩
  · rw [if_neg h]
    by_cases h' : n = b! "port"
    · subst h'
      rw [if_pos rfl]
      exact ⟨fun e => by cases e; exact .inr ⟨rfl, rfl⟩, fun e => e.elim (fun e => absurd e.1 h) fun e => by rw [e.2]⟩
    · rw [if_neg h']
      exact ⟨fun e => (nomatch e), fun e => (e.elim (fun e => h e.1) fun e => h' e.1).elim⟩

/-- Case of `C105_order_partial`. -/
example : serversURL [⟨twoPlaces.url, twoPlaces.variables⟩] 0 [(b! "port", b! "80")] =
    serversURL [⟨twoPlaces.url, twoPlaces.variables.reverse⟩] 0 [(b! "port", b! "80")] :=
  C105_order_partial _ _ _ (List.reverse_perm _).symm _ (by decide +kernel) twoPlaces_names twoPlaces_values twoPlaces_allowed twoParts twoParts_clear rfl

/-- Case of `C105_refused`. -/
example : serversURL [twoPlaces] 1 [] = .error (b! "index 1 out of range 0") ∧ serversURL [] (-1) [] = .error (b! "index -1 out of range -1") ∧
    serversURL [twoPlaces] 0 [(b! "port", b! "22")] =
      .error (b! "the variable port in the server URL has invalid value 22. Must be [8080 80]") :=
  ⟨rfl, rfl, rfl⟩

/-- Case of `C105_chosen`: an endpoint with its own index. -/
example : ClientConfiguration.serverURL ⟨[twoPlaces, ⟨b! "b", []⟩], []⟩ (some { index := .value 0, indices := .value [(b! "x", 1)] }) (b! "x") = .ok (b! "b") :=
  (C105_chosen ⟨[twoPlaces, ⟨b! "b", []⟩], []⟩ { index := .value 0, indices := .value [(b! "x", 1)] } (b! "x") _ _ (.own rfl rfl) (.nothing (.inl rfl) rfl) 1 []
    (.inl rfl) (.inr ⟨rfl, rfl⟩)).2 rfl

/-- Case of `C105_wrong_type`. -/
example : ¬ Spec.RightType (α := Int) (.value []) (.other (b! "string")) (b! "x") := by
  rintro ⟨o, h⟩
  cases h with
  | own h1 h2 => cases h1; cases h2
  | general _ h => cases h
  | nothing _ h => cases h

end Metro2
