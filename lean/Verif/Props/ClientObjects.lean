import Verif.Lemmas.ClientMembers

/-! Property C110: the accessors of the generated client. -/

namespace Metro2

variable {α : Type}

/-- C110, `SetX`: for every object that a caller can have made, `SetX` succeeds; afterwards `GetX` gives the value and `HasX` is true (a nil slice counts as
not set), and every method of every other field and of every other object gives what it gave before. -/
theorem C110_set (g : GoValues α) (ops : List (ClientOp α)) (m : ClientMemory α) (hm : ClientMemory.empty.steps g ops = some m) (o : Nat) (x : ClientObject α)
    (hx : m.objects o = some x) (f : ClientField) (hf : f ∈ x.type.fields) (v : α) :
    ∃ m', m.step g (.set o f v) = some m' ∧
      m'.get g x.type f (some o) = some (if f.kind = .list ∧ g.isNil v = true then g.zero x.type f else v) ∧
      m'.has g f (some o) = some (!(f.kind = .list && g.isNil v)) ∧
      ∀ o' x', m.objects o' = some x' → ∀ f' ∈ x'.type.fields, ¬ (o' = o ∧ f' = f) →
        m'.get g x'.type f' (some o') = m.get g x'.type f' (some o') ∧ m'.has g f' (some o') = m.has g f' (some o') ∧
        m'.ref g f' (some o') = m.ref g f' (some o') := by
  have ok := memOk_steps memOk_empty hm
  have ht := (ok.object o x hx).2.1
  obtain ⟨e1, e2, e3, e4⟩ := field_ok ht hf
  refine ⟨if f.kind = .optional then m.point o f.name v else m.assign o f.name (.value v), ?_, ?_, ?_, ?_⟩
  · simp only [ClientMemory.step, hx, hf, if_true]
    rw [set_eq ht hf]
  · show Option.map _ (ClientMemory.held _ _ _ _ _) = _
    rw [e1]
    unfold ClientMemory.held
    cases hk : f.kind with
    | optional =>
      simp only [if_true, slot_point hx, and_self, cells_point, Option.map_some]
      simp
    | required =>
      simp only [reduceCtorEq, if_false, slot_assign hx, and_self, if_true, Option.map_some]
      simp
    | list =>
      simp only [reduceCtorEq, if_false, slot_assign hx, and_self, if_true, Option.map_some]
      cases g.isNil v <;> simp
  · show Option.map _ (ClientMemory.held _ _ _ _ _) = _
    rw [e3]
    unfold ClientMemory.held
    cases hk : f.kind with
    | optional =>
      simp only [if_true, slot_point hx, and_self, cells_point, Option.map_some]
      simp
    | required =>
      simp only [reduceCtorEq, if_false, slot_assign hx, and_self, if_true, Option.map_some]
      simp
    | list =>
      simp only [reduceCtorEq, if_false, slot_assign hx, and_self, if_true, Option.map_some]
      cases g.isNil v <;> simp
  · intro o' x' hx' f' hf' hne
    have ht' := (ok.object o' x' hx').2.1
    have hs : ∀ m', (m' = if f.kind = .optional then m.point o f.name v else m.assign o f.name (.value v)) → m'.slot o' f'.name = m.slot o' f'.name := by
      intro m' e
      subst e
      have : ¬ (o' = o ∧ f'.name = f.name) := by
        rintro ⟨rfl, e⟩
        rw [hx] at hx'
        cases hx'
        exact hne ⟨rfl, name_inj ht hf' hf e⟩
      split
      · rw [slot_point hx, if_neg this]
      · rw [slot_assign hx, if_neg this]
    have hs := hs _ rfl
    have hg := get_of_slot (g := g) ht' hf' o' o' hs (fun p hp => by
      split
      · rw [cells_point, if_neg (Nat.ne_of_lt (slot_lt ok hx' hf' hp))]
      · rfl)
    refine ⟨hg.1, hg.2, ref_of_slot o' ?_⟩
    rw [(field_ok ht' hf').2.1]
    exact hs

/-- C110, constructors: the required fields of a new object have, in order, the values of the arguments; optional ones have the zero value and are not
set, and the same is read from a nil pointer. Nothing else changes. -/
theorem C110_new (g : GoValues α) (hg : ∀ t f, f.kind = .list → g.isNil (g.zero t f) = true) (ops : List (ClientOp α)) (m : ClientMemory α)
    (hm : ClientMemory.empty.steps g ops = some m) (t : ClientType) (ht : t ∈ clientTypes) (args : List α)
    (ha : args.length = (t.fields.filter (fun f => f.kind = .required)).length) :
    ∃ m', m.step g (.new t args) = some m' ∧
      (t.fields.filter (fun f => f.kind = .required)).map (fun f => m'.get g t f (some m.next)) = args.map some ∧
      (∀ f ∈ t.fields, f.kind ≠ .required → m'.get g t f (some m.next) = some (g.zero t f) ∧ m'.has g f (some m.next) = some false ∧
        m'.ref g f (some m.next) = none) ∧
      (∀ f ∈ t.fields, m'.get g t f none = some (g.zero t f) ∧ m'.has g f none = some false ∧ m'.ref g f none = none) ∧
      ∀ o x, m.objects o = some x → m'.objects o = some x ∧ ∀ f ∈ x.type.fields,
        m'.get g x.type f (some o) = m.get g x.type f (some o) ∧ m'.has g f (some o) = m.has g f (some o) ∧ m'.ref g f (some o) = m.ref g f (some o) := by
  have ok := memOk_steps memOk_empty hm
  have ha' : args.length = t.parameters := by rw [parameters_eq ht, ha]
  refine ⟨m.new g t args, by simp [ClientMemory.step, ht, ha'], ?_, ?_, fun f _ => ⟨rfl, rfl, rfl⟩, ?_⟩
  · rw [new_eq]
    apply List.ext_getElem?
    intro i
    rw [List.getElem?_map, List.getElem?_map]
    cases hi : (t.fields.filter (fun f => f.kind = .required))[i]? with
    | none =>
      rw [List.getElem?_eq_none_iff] at hi
      rw [List.getElem?_eq_none (by omega)]
      rfl
    | some f =>
      have hlt : i < args.length := by
        rw [ha]
        exact (List.getElem?_eq_some_iff.1 hi).1
      rw [List.getElem?_eq_getElem hlt]
      have hmem := List.mem_filter.1 (List.mem_of_getElem? hi)
      obtain ⟨e1, _, _, _⟩ := field_ok ht hmem.1
      have hk : f.kind = .required := of_decide_eq_true hmem.2
      simp only [Option.map_some, Option.some.injEq]
      show Option.map _ (ClientMemory.held _ _ _ _ _) = _
      rw [e1, hk]
      unfold ClientMemory.held
      rw [slot_place, if_pos rfl]
      simp only [new_required g ht args hi (List.getElem?_eq_getElem hlt)]
      rfl
  · intro f hf hk
    rw [new_eq]
    obtain ⟨e1, e2, e3, _⟩ := field_ok ht hf
    have hs : (m.place ⟨t, assignSlots args t.assigns (zeroObject g t).slots⟩).slot m.next f.name = some (match f.kind with
        | .optional => .pointer none
        | _ => .value (g.zero t f)) := by
      rw [slot_place, if_pos rfl]
      show assignSlots args t.assigns (zeroObject g t).slots f.name = _
      rw [new_other g ht args hf hk, zero_slot g ht hf]
      cases f.kind <;> rfl
    refine ⟨?_, ?_, ?_⟩
    · show Option.map _ (ClientMemory.held _ _ _ _ _) = _
      rw [e1]
      unfold ClientMemory.held
      rw [hs]
      cases hk' : f.kind with
      | required => exact absurd hk' hk
      | optional => rfl
      | list => simp only [hg t f hk', if_true]; rfl
    · show Option.map _ (ClientMemory.held _ _ _ _ _) = _
      rw [e3]
      unfold ClientMemory.held
      rw [hs]
      cases hk' : f.kind with
      | required => exact absurd hk' hk
      | optional => rfl
      | list => simp only [hg t f hk', if_true]; rfl
    · simp only [ClientMemory.ref, e2, hs]
      cases hk' : f.kind with
      | required => exact absurd hk' hk
      | optional => rfl
      | list => simp only [hg t f hk', if_true]
  · intro o x hx
    have hlt := (ok.object o x hx).1
    rw [new_eq]
    refine ⟨by simp only [ClientMemory.place, if_neg (Nat.ne_of_lt hlt), hx], fun f hf => ?_⟩
    have hs : ∀ n, (m.place ⟨t, assignSlots args t.assigns (zeroObject g t).slots⟩).slot o n = m.slot o n := by
      intro n
      rw [slot_place, if_neg (Nat.ne_of_lt hlt)]
    have h1 := get_of_slot (g := g) (ok.object o x hx).2.1 hf o o (hs f.name) (fun p _ => rfl)
    exact ⟨h1.1, h1.2, ref_of_slot o (hs _)⟩

/-- C110, copies: a copy of an object gives the same values; an optional field that is set is held by both through the same pointer, all other
references differ. Nothing else changes. -/
theorem C110_copy (g : GoValues α) (ops : List (ClientOp α)) (m : ClientMemory α) (hm : ClientMemory.empty.steps g ops = some m) (o : Nat) (x : ClientObject α)
    (hx : m.objects o = some x) :
    ∃ m', m.step g (.copy o) = some m' ∧ (∃ y, m'.objects m.next = some y ∧ y.type = x.type) ∧
      (∀ f ∈ x.type.fields, m'.get g x.type f (some m.next) = m.get g x.type f (some o) ∧ m'.has g f (some m.next) = m.has g f (some o) ∧
        (f.kind = .optional → m'.ref g f (some m.next) = m.ref g f (some o)) ∧
        (f.kind ≠ .optional → ∀ r, m'.ref g f (some m.next) = some r → m.ref g f (some o) ≠ some r)) ∧
      ∀ o' x', m.objects o' = some x' → m'.objects o' = some x' ∧ ∀ f' ∈ x'.type.fields,
        m'.get g x'.type f' (some o') = m.get g x'.type f' (some o') ∧ m'.has g f' (some o') = m.has g f' (some o') ∧
        m'.ref g f' (some o') = m.ref g f' (some o') := by
  have ok := memOk_steps memOk_empty hm
  obtain ⟨hlt, ht, hso⟩ := ok.object o x hx
  have hsame : ∀ n, (m.place x).slot m.next n = m.slot o n := by
    intro n
    rw [slot_place, if_pos rfl]
    unfold ClientMemory.slot
    rw [hx]
    rfl
  refine ⟨m.place x, ?_, ⟨x, by simp [ClientMemory.place], rfl⟩, ?_, ?_⟩
  · simp only [ClientMemory.step, hx]
    rw [copy_eq hx]
  · intro f hf
    have h1 := get_of_slot (g := g) (m := m) (m' := m.place x) ht hf o m.next (hsame _) (fun p _ => rfl)
    refine ⟨h1.1, h1.2, fun hk => ?_, fun hk r h2 h3 => ?_⟩
    · simp only [ClientMemory.ref, hk, hsame]
      cases m.slot o f.getOk with
      | none => rfl
      | some s =>
        cases s with
        | value v => rfl
        | pointer p => cases p <;> rfl
    · simp only [ClientMemory.ref, hsame] at h2 h3
      cases hk' : f.kind with
      | optional => exact hk hk'
      | required =>
        rw [hk'] at h2 h3
        cases hs : m.slot o f.getOk with
        | none => rw [hs] at h2; cases h2
        | some s =>
          rw [hs] at h2 h3
          cases s with
          | pointer p => cases h2
          | value v => cases h2; cases h3; omega
      | list =>
        rw [hk'] at h2 h3
        cases hs : m.slot o f.getOk with
        | none => rw [hs] at h2; cases h2
        | some s =>
          rw [hs] at h2 h3
          cases s with
          | pointer p => cases h2
          | value v =>
            simp only at h2 h3
            split at h2
            · cases h2
            · rename_i hn
              rw [if_neg hn] at h3
              cases h2
              cases h3
              omega
  · intro o' x' hx'
    have hlt' := (ok.object o' x' hx').1
    refine ⟨by simp only [ClientMemory.place, if_neg (Nat.ne_of_lt hlt'), hx'], fun f hf => ?_⟩
    have hs : ∀ n, (m.place x).slot o' n = m.slot o' n := fun n => by rw [slot_place, if_neg (Nat.ne_of_lt hlt')]
    have h1 := get_of_slot (g := g) (ok.object o' x' hx').2.1 hf o' o' (hs f.name) (fun p _ => rfl)
    exact ⟨h1.1, h1.2, ref_of_slot o' (hs _)⟩

/-- C110, writing through the pointer that `GetXOk` returns: exactly those fields change, of whatever object, for which `GetXOk` returns the same pointer. Which
fields are set does not change. -/
theorem C110_write (g : GoValues α) (ops : List (ClientOp α)) (m : ClientMemory α) (hm : ClientMemory.empty.steps g ops = some m) (o : Nat) (x : ClientObject α)
    (hx : m.objects o = some x) (f : ClientField) (hf : f ∈ x.type.fields) (hk : f.kind ≠ .list) (r : Ref) (hr : m.ref g f (some o) = some r) (v : α) :
    ∃ m', m.step g (.write o f v) = some m' ∧
      ∀ o' x', m.objects o' = some x' → ∀ f' ∈ x'.type.fields,
        m'.get g x'.type f' (some o') = (if m.ref g f' (some o') = some r then some v else m.get g x'.type f' (some o')) ∧
        m'.has g f' (some o') = m.has g f' (some o') ∧ m'.ref g f' (some o') = m.ref g f' (some o') := by
  have ok := memOk_steps memOk_empty hm
  obtain ⟨hlt, ht, hso⟩ := ok.object o x hx
  obtain ⟨e1, e2, e3, e4⟩ := field_ok ht hf
  refine ⟨m.write r v, by simp only [ClientMemory.step, hx, hf, hk, ne_eq, not_false_eq_true, and_self, if_true, hr, Option.map_some], ?_⟩
  intro o' x' hx' f' hf'
  obtain ⟨hlt', ht', hso'⟩ := ok.object o' x' hx'
  obtain ⟨e1', e2', e3', e4'⟩ := field_ok ht' hf'
  have hr0 := hr
  simp only [ClientMemory.ref, e2] at hr
  split at hr
  · -- a required field
    rename_i w hk1 hs1
    cases hr
    show (m.assign o f.name (.value v)).get g x'.type f' (some o') = _ ∧ (m.assign o f.name (.value v)).has g f' (some o') = _ ∧
      (m.assign o f.name (.value v)).ref g f' (some o') = _
    by_cases he : o' = o ∧ f' = f
    · obtain ⟨rfl, rfl⟩ := he
      rw [hx] at hx'
      cases hx'
      rw [if_pos hr0]
      have hs2 : (m.assign o' f'.name (.value v)).slot o' f'.name = some (.value v) := by rw [slot_assign hx, if_pos ⟨rfl, rfl⟩]
      refine ⟨?_, ?_, ?_⟩
      · show Option.map _ (ClientMemory.held _ _ _ _ _) = _
        rw [e1]
        unfold ClientMemory.held
        rw [hs2, hk1]
        rfl
      · show Option.map _ (ClientMemory.held _ _ _ _ _) = Option.map _ (ClientMemory.held _ _ _ _ _)
        rw [e3]
        unfold ClientMemory.held
        rw [hs2, hs1, hk1]
        rfl
      · simp only [ClientMemory.ref, e2, hs2, hs1, hk1]
    · have hne : ¬ (o' = o ∧ f'.name = f.name) := by
        rintro ⟨rfl, e⟩
        rw [hx] at hx'
        cases hx'
        exact he ⟨rfl, name_inj ht hf' hf e⟩
      have hs2 : (m.assign o f.name (.value v)).slot o' f'.name = m.slot o' f'.name := by rw [slot_assign hx, if_neg hne]
      have h1 := get_of_slot (g := g) ht' hf' o' o' hs2 (fun p _ => rfl)
      have hnr : m.ref g f' (some o') ≠ some (.field o f.name) := by
        intro h
        simp only [ClientMemory.ref, e2'] at h
        split at h
        · simp only [Option.some.injEq, Ref.field.injEq] at h
          exact hne h
        · cases h
        · split at h
          · cases h
          · simp only [Option.some.injEq, Ref.field.injEq] at h
            exact hne h
        · cases h
      rw [if_neg hnr]
      exact ⟨h1.1, h1.2, ref_of_slot o' (by rw [e2']; exact hs2)⟩
  · -- an optional field
    rename_i p hk1 hs1
    cases hr
    have hs2 : ∀ n, (m.write (.cell p) v).slot o' n = m.slot o' n := fun n => rfl
    by_cases he : m.ref g f' (some o') = some (.cell p)
    · rw [if_pos he]
      have he0 := he
      simp only [ClientMemory.ref, e2'] at he
      split at he
      · cases he
      · rename_i q hk2 hs3
        cases he
        refine ⟨?_, ?_, ref_of_slot o' (hs2 _)⟩
        · show Option.map _ (ClientMemory.held _ _ _ _ _) = _
          rw [e1']
          unfold ClientMemory.held
          rw [hs2, hs3, hk2]
          simp [ClientMemory.write]
        · show Option.map _ (ClientMemory.held _ _ _ _ _) = Option.map _ (ClientMemory.held _ _ _ _ _)
          have hc := hso' f' hf'
          rw [hs3] at hc
          obtain ⟨w, hw⟩ := (hc.2 p rfl).2
          rw [e3']
          unfold ClientMemory.held
          rw [hs2, hs3, hk2]
          simp [ClientMemory.write, hw]
      · split at he <;> cases he
      · cases he
    · rw [if_neg he]
      have h1 := get_of_slot (g := g) (m := m) (m' := m.write (.cell p) v) ht' hf' o' o' rfl (fun q hq => by
        have : q ≠ p := by
          rintro rfl
          apply he
          have hc := hso' f' hf'
          rw [hq] at hc
          simp only [ClientMemory.ref, e2', hq, hc.1]
        simp [ClientMemory.write, this])
      exact ⟨h1.1, h1.2, ref_of_slot o' rfl⟩
  · rename_i hk1 _
    exact absurd hk1 hk
  · cases hr

/-- C110, sharing: two fields for which `GetXOk` returns the same pointer are the same field of objects of one type. -/
theorem C110_shared (g : GoValues α) (ops : List (ClientOp α)) (m : ClientMemory α) (hm : ClientMemory.empty.steps g ops = some m) (o o' : Nat)
    (x x' : ClientObject α) (hx : m.objects o = some x) (hx' : m.objects o' = some x') (f f' : ClientField) (hf : f ∈ x.type.fields) (hf' : f' ∈ x'.type.fields)
    (r : Ref) (h : m.ref g f (some o) = some r) (h' : m.ref g f' (some o') = some r) :
    x.type = x'.type ∧ f = f' ∧ (f.kind = .optional ∨ o = o') := by
  have ok := memOk_steps memOk_empty hm
  obtain ⟨_, ht, _⟩ := ok.object o x hx
  obtain ⟨_, ht', _⟩ := ok.object o' x' hx'
  have e2 := (field_ok ht hf).2.1
  have e2' := (field_ok ht' hf').2.1
  rcases ref_cases h with ⟨p, hk, hs, rfl⟩ | ⟨hk, rfl⟩
  · rcases ref_cases h' with ⟨p', hk', hs', e⟩ | ⟨_, e⟩
    · cases e
      rw [e2] at hs
      rw [e2'] at hs'
      obtain ⟨h1, h2⟩ := ok.shared o x o' x' p hx hx' f hf f' hf' hs hs'
      exact ⟨h1, h2, .inl hk⟩
    · cases e
  · rcases ref_cases h' with ⟨p', hk', hs', e⟩ | ⟨_, e⟩
    · cases e
    · simp only [Ref.field.injEq] at e
      obtain ⟨rfl, e⟩ := e
      rw [hx] at hx'
      cases hx'
      rw [e2, e2'] at e
      exact ⟨rfl, name_inj ht hf hf' e, .inr rfl⟩

/-- C110, independence, for callers that do not copy structs: no two fields share a pointer, so that writing through one changes that field only. Partial,
because copies share (`C110_violated`). -/
theorem C110_independent_partial (g : GoValues α) (ops : List (ClientOp α)) (hc : ∀ o, .copy o ∉ ops) (m : ClientMemory α)
    (hm : ClientMemory.empty.steps g ops = some m) (o : Nat) (x : ClientObject α) (hx : m.objects o = some x) (f : ClientField) (hf : f ∈ x.type.fields)
    (v : α) (m' : ClientMemory α) (hw : m.step g (.write o f v) = some m') :
    m'.get g x.type f (some o) = some v ∧
    ∀ o' x', m.objects o' = some x' → ∀ f' ∈ x'.type.fields, ¬ (o' = o ∧ f' = f) → m'.get g x'.type f' (some o') = m.get g x'.type f' (some o') := by
  have ok := memOk_steps memOk_empty hm
  have un := unshared_steps memOk_empty unshared_empty hc hm
  have hw0 := hw
  simp only [ClientMemory.step, hx] at hw
  split at hw
  · rename_i hfk
    cases hr : m.ref g f (some o) with
    | none => rw [hr] at hw; cases hw
    | some r =>
      obtain ⟨m1, h1, h2⟩ := C110_write g ops m hm o x hx f hf hfk.2 r hr v
      rw [h1] at hw0
      cases hw0
      refine ⟨by rw [(h2 o x hx f hf).1, if_pos hr], fun o' x' hx' f' hf' hne => ?_⟩
      rw [(h2 o' x' hx' f' hf').1, if_neg]
      intro hr'
      obtain ⟨_, rfl, _⟩ := C110_shared g ops m hm o' o x' x hx' hx f' f hf' hf r hr' hr
      apply hne
      refine ⟨?_, rfl⟩
      rcases ref_cases hr with ⟨p, hk, hs, rfl⟩ | ⟨hk, rfl⟩
      · rcases ref_cases hr' with ⟨p', hk', hs', e⟩ | ⟨_, e⟩
        · cases e
          exact un o' o x' x p hx' hx f' hf' f' hf (by rw [← (field_ok (ok.object o' x' hx').2.1 hf').2.1]; exact hs')
            (by rw [← (field_ok (ok.object o x hx).2.1 hf).2.1]; exact hs)
        · cases e
      · rcases ref_cases hr' with ⟨p', hk', hs', e⟩ | ⟨_, e⟩
        · cases e
        · simp only [Ref.field.injEq] at e
          exact e.1.symm
  · cases hw

/-- C110, nullable values: `Get` and `IsSet` after `Set`, `Unset` and the constructor; a value that is written and read again is the same, and set. So it comes
back as it was exactly if it was set. -/
theorem C110_nullable {β : Type} (null : β) (enc : α → β) (isNull : β → Bool) (dec : Option α → β → α × Bool) (hnull : isNull null = true)
    (henc : ∀ v, isNull (enc v) = false) (hdec : ∀ old v, dec old (enc v) = (v, false)) (n start : ClientNullable α) (v : Option α) :
    ((n.set v).value = v ∧ (n.set v).isSet = true) ∧ ((ClientNullable.new v).value = v ∧ (ClientNullable.new v).isSet = true) ∧
    (n.unset.value = none ∧ n.unset.isSet = false) ∧
    start.unmarshal isNull dec (n.marshal null enc) = (⟨n.value, true⟩, false) ∧
    ((start.unmarshal isNull dec (n.marshal null enc)).1 = n ↔ n.isSet = true) ∧
    (n.marshalTime enc = if n.value.isSome then some (n.marshal null enc) else none) := by
  have h : start.unmarshal isNull dec (n.marshal null enc) = (⟨n.value, true⟩, false) := by
    unfold ClientNullable.unmarshal ClientNullable.marshal
    cases hv : n.value with
    | none => simp [hnull]
    | some w => simp [henc, hdec]
  refine ⟨⟨rfl, rfl⟩, ⟨rfl, rfl⟩, ⟨rfl, rfl⟩, h, ?_, ?_⟩
  · rw [h]
    cases n with
    | mk w s => cases s <;> simp
  · unfold ClientNullable.marshalTime ClientNullable.marshal
    cases n.value <;> rfl

/-- C110, documents: the document of a record or segment has the member of a field exactly if the field is required or `HasX` is true, with what `GetX` returns,
and no other members. -/
theorem C110_json (g : GoValues Val) (ops : List (ClientOp Val)) (m : ClientMemory Val) (hm : ClientMemory.empty.steps g ops = some m) (o : Nat)
    (x : ClientObject Val) (hx : m.objects o = some x) (decl : List (F × FieldDecl)) (hd : (x.type, decl) ∈ Spec.clientDecls) (kvs : List (Bytes × Json))
    (h : encodeClient decl (Spec.recordOf g m o x.type decl) = some (.obj kvs)) :
    (∀ f ∈ x.type.fields, kvs.lookup (Spec.memberKey f.name) =
      if f.kind = .required ∨ m.has g f (some o) = some true then (m.get g x.type f (some o)).bind encodeClientVal else none) ∧
    ∀ k, (∀ f ∈ x.type.fields, k ≠ Spec.memberKey f.name) → kvs.lookup k = none := by
  have ok := memOk_steps memOk_empty hm
  obtain ⟨_, ht, hso⟩ := ok.object o x hx
  unfold encodeClient at h
  cases he : encodeClientMembers (Spec.recordOf g m o x.type decl) decl with
  | none => rw [he] at h; cases h
  | some l =>
    rw [he] at h
    simp only [Option.map_some, Option.some.injEq, Json.obj.injEq] at h
    subst h
    obtain ⟨h1, h2⟩ := lookup_members _ (decl_ok hd).2.2.1 he
    refine ⟨fun f hf => ?_, fun k hk => h2 k fun hk' => ?_⟩
    · obtain ⟨p, hp, e⟩ := key_row hd hf
      obtain ⟨e1, _, e3, _⟩ := field_ok ht hf
      rw [← e, h1 p hp, recordOf_eq hd g m o hf hp e]
      have hget : m.get g x.type f (some o) = (m.held g o f.kind f.name).map fun v => v.getD (g.zero x.type f) := by rw [← e1]; rfl
      have hhas : m.has g f (some o) = (m.held g o f.kind f.name).map (·.isSome) := by rw [← e3]; rfl
      rw [hget, hhas]
      cases hh : m.held g o f.kind f.name with
      | none => simp
      | some w =>
        cases w with
        | some v => simp
        | none =>
          have : f.kind ≠ .required := by
            intro hk
            rw [hk] at hh
            unfold ClientMemory.held at hh
            split at hh <;> simp_all
          simp [this]
    · obtain ⟨p, hp, rfl⟩ := List.mem_map.1 hk'
      obtain ⟨f, hf, e⟩ := row_key hd hp
      exact hk f hf e

/-! ### Examples -/

namespace Samples

/-- Numbers as values; 0 is the zero value, and stands for a nil slice. -/
def numbers : GoValues Int := ⟨fun _ _ => 0, (· == 0)⟩

/-- The field of an object that the accessors of the example use: `BlockDescriptorWord`. -/
def blockField : ClientField :=
  ⟨b! "BlockDescriptorWord", .optional, b! "BlockDescriptorWord", b! "BlockDescriptorWord", b! "BlockDescriptorWord", b! "BlockDescriptorWord"⟩

/-- `DataRecord.J1`, a slice. -/
def j1Field : ClientField := ⟨b! "J1", .list, b! "J1", b! "J1", b! "J1", b! "J1"⟩

/-- A header with `SetBlockDescriptorWord(426)`, and a copy of it. -/
def copied : List (ClientOp Int) := [.new accessorsHeaderRecord [1, 2, 3, 4, 5, 6], .set 0 blockField 426, .copy 0]

/-- A header, and another with its own block descriptor. -/
def separate : List (ClientOp Int) := [.new accessorsHeaderRecord [1, 2, 3, 4, 5, 6], .set 0 blockField 426,
  .newWithDefaults accessorsHeaderRecord, .set 2 blockField 370]

/-- A data record, `SetJ1` with a slice that is not nil. -/
def withList : List (ClientOp Int) := [.new accessorsDataRecord [1], .set 0 j1Field 5]

theorem copied_some : (ClientMemory.empty.steps numbers copied).isSome = true := by decide +kernel

theorem separate_some : (ClientMemory.empty.steps numbers separate).isSome = true := by decide +kernel

theorem withList_some : (ClientMemory.empty.steps numbers withList).isSome = true := by decide +kernel

/-- The memory after the steps. -/
def after (ops : List (ClientOp Int)) (h : (ClientMemory.empty.steps numbers ops).isSome = true) : ClientMemory Int := (ClientMemory.empty.steps numbers ops).get h

theorem after_eq (ops : List (ClientOp Int)) (h : (ClientMemory.empty.steps numbers ops).isSome = true) : ClientMemory.empty.steps numbers ops = some (after ops h) :=
  (Option.some_get h).symm

/-- An object in the memory. -/
def object (m : ClientMemory Int) (o : Nat) (h : (m.objects o).isSome = true) : ClientObject Int := (m.objects o).get h

theorem object_eq (m : ClientMemory Int) (o : Nat) (h : (m.objects o).isSome = true) : m.objects o = some (object m o h) := (Option.some_get h).symm

end Samples

/-- C110, the negation of independence: writing through what `GetBlockDescriptorWordOk` of a copy returns changes the original. -/
theorem C110_violated : ¬ Spec.Independent := by
  intro h
  have hs : (ClientMemory.empty.steps Samples.numbers Samples.copied).isSome = true := by decide +kernel
  obtain ⟨m, hm⟩ := Option.isSome_iff_exists.1 hs
  have hw : ((ClientMemory.empty.steps Samples.numbers Samples.copied).bind fun m => m.step Samples.numbers (.write 2 Samples.blockField 370)).isSome = true := by
    decide +kernel
  rw [hm, Option.bind_some] at hw
  obtain ⟨m', hm'⟩ := Option.isSome_iff_exists.1 hw
  have ho : ((ClientMemory.empty.steps Samples.numbers Samples.copied).bind fun m => (m.objects 0).map fun x => x.type) = some accessorsHeaderRecord := by
    decide +kernel
  rw [hm, Option.bind_some] at ho
  obtain ⟨x, hx, ht⟩ := Option.map_eq_some_iff.1 ho
  have h1 := h Samples.numbers Samples.copied m m' 2 Samples.blockField 370 (.write 2 Samples.blockField 370) hm (.inr rfl) hm' 0 x (by decide) hx
    Samples.blockField (by rw [ht]; decide +kernel)
  rw [ht] at h1
  have h2 : ((ClientMemory.empty.steps Samples.numbers Samples.copied).bind fun m =>
      (m.step Samples.numbers (.write 2 Samples.blockField 370)).bind fun m' => m'.get Samples.numbers accessorsHeaderRecord Samples.blockField (some 0)) = some 370 := by
    decide +kernel
  have h3 : ((ClientMemory.empty.steps Samples.numbers Samples.copied).bind fun m => m.get Samples.numbers accessorsHeaderRecord Samples.blockField (some 0)) =
      some 426 := by decide +kernel
  rw [hm, Option.bind_some] at h2 h3
  rw [hm', Option.bind_some] at h2
  rw [h2, h3] at h1
  exact absurd h1 (by decide)

/-- Case of `C110_set`: another value for the block descriptor of the original. The copy has the old one. -/
example : ∃ m m', ClientMemory.empty.steps Samples.numbers Samples.copied = some m ∧ m.step Samples.numbers (.set 0 Samples.blockField 430) = some m' ∧
    m'.get Samples.numbers accessorsHeaderRecord Samples.blockField (some 0) = some 430 ∧
    m'.get Samples.numbers accessorsHeaderRecord Samples.blockField (some 2) = some 426 := by
  obtain ⟨m', h1, h2, h3, h4⟩ := C110_set Samples.numbers Samples.copied _ (Samples.after_eq _ Samples.copied_some) 0 _ (Samples.object_eq _ 0 (by decide +kernel))
    Samples.blockField (by decide +kernel) 430
  refine ⟨_, m', Samples.after_eq _ Samples.copied_some, h1, h2, ?_⟩
  have := (h4 2 _ (Samples.object_eq _ 2 (by decide +kernel)) Samples.blockField (by decide +kernel) (by decide)).1
  exact this.trans (by decide +kernel)

/-- Case of `C110_set`: a slice. A nil slice is not set. -/
example : ∃ m m' m'', ClientMemory.empty.steps Samples.numbers Samples.withList = some m ∧ m.step Samples.numbers (.set 0 Samples.j1Field 7) = some m' ∧
    m'.has Samples.numbers Samples.j1Field (some 0) = some true ∧ m.step Samples.numbers (.set 0 Samples.j1Field 0) = some m'' ∧
    m''.has Samples.numbers Samples.j1Field (some 0) = some false := by
  have hx := Samples.object_eq (Samples.after _ Samples.withList_some) 0 (by decide +kernel)
  obtain ⟨m', h1, _, h2, _⟩ := C110_set Samples.numbers Samples.withList _ (Samples.after_eq _ Samples.withList_some) 0 _ hx Samples.j1Field (by decide +kernel) 7
  obtain ⟨m'', h3, _, h4, _⟩ := C110_set Samples.numbers Samples.withList _ (Samples.after_eq _ Samples.withList_some) 0 _ hx Samples.j1Field (by decide +kernel) 0
  exact ⟨_, m', m'', Samples.after_eq _ Samples.withList_some, h1, h2, h3, h4⟩

/-- Case of `C110_new`: a K1 segment beside a header and its copy; its three fields are required. -/
example : ∃ m m', ClientMemory.empty.steps Samples.numbers Samples.copied = some m ∧ m.step Samples.numbers (.new accessorsK1Segment [7, 8, 9]) = some m' ∧
    accessorsK1Segment.fields.map (fun f => m'.get Samples.numbers accessorsK1Segment f (some m.next)) = [some 7, some 8, some 9] := by
  obtain ⟨m', h1, h2, _⟩ := C110_new Samples.numbers (fun _ _ _ => rfl) Samples.copied _ (Samples.after_eq _ Samples.copied_some) accessorsK1Segment (by decide +kernel) [7, 8, 9]
    (by decide +kernel)
  exact ⟨_, m', Samples.after_eq _ Samples.copied_some, h1, h2⟩

/-- Case of `C110_copy`: the copy of a header with a block descriptor gives out the same pointer. -/
example : ∃ m m', ClientMemory.empty.steps Samples.numbers Samples.separate = some m ∧ m.step Samples.numbers (.copy 0) = some m' ∧
    m'.get Samples.numbers accessorsHeaderRecord Samples.blockField (some m.next) = some 426 ∧
    m'.ref Samples.numbers Samples.blockField (some m.next) = some (.cell 1) := by
  obtain ⟨m', h1, _, h2, _⟩ := C110_copy Samples.numbers Samples.separate _ (Samples.after_eq _ Samples.separate_some) 0 _ (Samples.object_eq _ 0 (by decide +kernel))
  obtain ⟨h3, _, h4, _⟩ := h2 Samples.blockField (by decide +kernel)
  exact ⟨_, m', Samples.after_eq _ Samples.separate_some, h1, h3.trans (by decide +kernel), (h4 rfl).trans (by decide +kernel)⟩

/-- Case of `C110_write`: writing through the pointer of the copy changes both objects. -/
example : ∃ m m', ClientMemory.empty.steps Samples.numbers Samples.copied = some m ∧ m.step Samples.numbers (.write 2 Samples.blockField 370) = some m' ∧
    m'.get Samples.numbers accessorsHeaderRecord Samples.blockField (some 2) = some 370 ∧
    m'.get Samples.numbers accessorsHeaderRecord Samples.blockField (some 0) = some 370 := by
  obtain ⟨m', h1, h2⟩ := C110_write Samples.numbers Samples.copied _ (Samples.after_eq _ Samples.copied_some) 2 _ (Samples.object_eq _ 2 (by decide +kernel)) Samples.blockField
    (by decide +kernel) (by decide) (.cell 1) (by decide +kernel) 370
  exact ⟨_, m', Samples.after_eq _ Samples.copied_some, h1, (h2 2 _ (Samples.object_eq _ 2 (by decide +kernel)) _ (by decide +kernel)).1.trans (by decide +kernel),
    (h2 0 _ (Samples.object_eq _ 0 (by decide +kernel)) _ (by decide +kernel)).1.trans (by decide +kernel)⟩

/-- Case of `C110_shared`: the original and its copy. -/
example : accessorsHeaderRecord = accessorsHeaderRecord ∧ Samples.blockField = Samples.blockField ∧ (Samples.blockField.kind = .optional ∨ 0 = 2) :=
  C110_shared Samples.numbers Samples.copied (Samples.after Samples.copied (by decide +kernel)) (Samples.after_eq _ _) 0 2 (Samples.object _ 0 (by decide +kernel))
    (Samples.object _ 2 (by decide +kernel)) (Samples.object_eq _ 0 _) (Samples.object_eq _ 2 _) Samples.blockField Samples.blockField (by decide +kernel)
    (by decide +kernel) (.cell 1) (by decide +kernel) (by decide +kernel)

/-- Case of `C110_independent_partial`: two headers, each with its own block descriptor. -/
example : ∃ m m', ClientMemory.empty.steps Samples.numbers Samples.separate = some m ∧ m.step Samples.numbers (.write 2 Samples.blockField 999) = some m' ∧
    m'.get Samples.numbers accessorsHeaderRecord Samples.blockField (some 2) = some 999 ∧
    m'.get Samples.numbers accessorsHeaderRecord Samples.blockField (some 0) = some 426 := by
  have hw : ((Samples.after _ Samples.separate_some).step Samples.numbers (.write 2 Samples.blockField 999)).isSome = true := by decide +kernel
  obtain ⟨h1, h2⟩ := C110_independent_partial Samples.numbers Samples.separate (fun o h => by simp [Samples.separate] at h) _ (Samples.after_eq _ Samples.separate_some) 2 _
    (Samples.object_eq _ 2 (by decide +kernel)) Samples.blockField (by decide +kernel) 999 _ (Option.some_get hw).symm
  exact ⟨_, _, Samples.after_eq _ Samples.separate_some, (Option.some_get hw).symm, h1,
    (h2 0 _ (Samples.object_eq _ 0 (by decide +kernel)) Samples.blockField (by decide +kernel) (by decide)).trans (by decide +kernel)⟩

/-- Case of `C110_nullable`: numbers with `null`. A value that is not set comes back as set. -/
example : ((⟨none, true⟩ : ClientNullable Nat).unmarshal Option.isNone (fun _ j => (j.getD 0, false)) ((⟨none, false⟩ : ClientNullable Nat).marshal none some)).1 ≠ ⟨none, false⟩ :=
  fun h => absurd ((C110_nullable (none : Option Nat) some Option.isNone (fun _ j => (j.getD 0, false)) rfl (fun _ => rfl) (fun _ _ => rfl) ⟨none, false⟩ ⟨none, true⟩
    none).2.2.2.2.1.1 h) (by decide)

namespace Samples

/-- Values of the JSON model. -/
def vals : GoValues Val := ⟨fun _ _ => .str [], fun _ => false⟩

/-- A K3 segment: `NewK3Segment("K3")` and `SetAccountNumber("12")`. -/
def k3Ops : List (ClientOp Val) := [.new accessorsK3Segment [.str (b! "K3")],
  .set 0 ⟨b! "AccountNumber", .optional, b! "AccountNumber", b! "AccountNumber", b! "AccountNumber", b! "AccountNumber"⟩ (.str (b! "12"))]

end Samples

/-- Case of `C110_json`: the document of a K3 segment with one optional field. -/
example : ∃ m kvs, ClientMemory.empty.steps Samples.vals Samples.k3Ops = some m ∧
    encodeClient clientK3Segment (Spec.recordOf Samples.vals m 0 accessorsK3Segment clientK3Segment) = some (.obj kvs) ∧
    kvs.lookup (b! "accountNumber") = some (.str (b! "12")) ∧ kvs.lookup (b! "mortgageIdentificationNumber") = none ∧ kvs.lookup (b! "AccountNumber") = none := by
  have hs : (ClientMemory.empty.steps Samples.vals Samples.k3Ops).isSome = true := by decide +kernel
  obtain ⟨m, hm⟩ := Option.isSome_iff_exists.1 hs
  have ho : ((ClientMemory.empty.steps Samples.vals Samples.k3Ops).bind fun m => (m.objects 0).map fun x => x.type) = some accessorsK3Segment := by decide +kernel
  rw [hm, Option.bind_some] at ho
  obtain ⟨x, hx, ht⟩ := Option.map_eq_some_iff.1 ho
  have he : ((ClientMemory.empty.steps Samples.vals Samples.k3Ops).map fun m =>
      (encodeClientMembers (Spec.recordOf Samples.vals m 0 accessorsK3Segment clientK3Segment) clientK3Segment).isSome) = some true := by decide +kernel
  rw [hm, Option.map_some, Option.some.injEq] at he
  obtain ⟨kvs, hk⟩ := Option.isSome_iff_exists.1 he
  have hk' : encodeClient clientK3Segment (Spec.recordOf Samples.vals m 0 accessorsK3Segment clientK3Segment) = some (.obj kvs) := by
    unfold encodeClient
    rw [hk]
    rfl
  obtain ⟨h1, h2⟩ := C110_json Samples.vals Samples.k3Ops m hm 0 x hx clientK3Segment (by rw [ht]; simp [Spec.clientDecls]) kvs (by rw [ht]; exact hk')
  rw [ht] at h1 h2
  refine ⟨m, kvs, hm, hk', ?_, ?_, h2 _ (by decide +kernel)⟩
  · have := h1 ⟨b! "AccountNumber", .optional, b! "AccountNumber", b! "AccountNumber", b! "AccountNumber", b! "AccountNumber"⟩ (by decide +kernel)
    have hh : ((ClientMemory.empty.steps Samples.vals Samples.k3Ops).map fun m => (m.has Samples.vals
      ⟨b! "AccountNumber", .optional, b! "AccountNumber", b! "AccountNumber", b! "AccountNumber", b! "AccountNumber"⟩ (some 0), m.get Samples.vals accessorsK3Segment
      ⟨b! "AccountNumber", .optional, b! "AccountNumber", b! "AccountNumber", b! "AccountNumber", b! "AccountNumber"⟩ (some 0))) =
        some (some true, some (.str (b! "12"))) := by decide +kernel
    rw [hm, Option.map_some, Option.some.injEq, Prod.mk.injEq] at hh
    rw [hh.1, hh.2, if_pos (.inr rfl)] at this
    exact this
  · have := h1 ⟨b! "MortgageIdentificationNumber", .optional, b! "MortgageIdentificationNumber", b! "MortgageIdentificationNumber", b! "MortgageIdentificationNumber",
      b! "MortgageIdentificationNumber"⟩ (by decide +kernel)
    have hh : ((ClientMemory.empty.steps Samples.vals Samples.k3Ops).map fun m => m.has Samples.vals
      ⟨b! "MortgageIdentificationNumber", .optional, b! "MortgageIdentificationNumber", b! "MortgageIdentificationNumber", b! "MortgageIdentificationNumber",
      b! "MortgageIdentificationNumber"⟩ (some 0)) = some (some false) := by decide +kernel
    rw [hm, Option.map_some, Option.some.injEq] at hh
    rw [hh, if_neg (by decide)] at this
    exact this

end Metro2
