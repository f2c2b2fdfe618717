import Verif.Model.ClientObjects

/-! Lemmas about the accessors of the client types (C110). -/

namespace Metro2

variable {α : Type}

/-- What the table says of one type: every method uses the field that it is named after, the names differ, and the constructor assigns its parameters, in
order, to the required fields. -/
def typeOkB (t : ClientType) : Bool :=
  t.fields.all (fun f => f.get == f.name && f.getOk == f.name && f.has == f.name && f.set == f.name) &&
  decide ((t.fields.map (·.name)).Nodup) &&
  decide (t.assigns = ((t.fields.filter (fun f => f.kind = .required)).map (·.name)).zipIdx) &&
  decide (t.parameters = (t.fields.filter (fun f => f.kind = .required)).length)

theorem types_ok : clientTypes.all typeOkB = true := by decide +kernel

theorem type_ok {t : ClientType} (h : t ∈ clientTypes) : typeOkB t = true := List.all_eq_true.1 types_ok t h

theorem field_ok {t : ClientType} (h : t ∈ clientTypes) {f : ClientField} (hf : f ∈ t.fields) :
    f.get = f.name ∧ f.getOk = f.name ∧ f.has = f.name ∧ f.set = f.name := by
  have h1 := type_ok h
  simp only [typeOkB, Bool.and_eq_true] at h1
  have h2 := List.all_eq_true.1 h1.1.1.1 f hf
  simpa [and_assoc] using h2

theorem names_nodup {t : ClientType} (h : t ∈ clientTypes) : (t.fields.map (·.name)).Nodup := by
  have h1 := type_ok h
  simp only [typeOkB, Bool.and_eq_true] at h1
  exact of_decide_eq_true h1.1.1.2

theorem assigns_eq {t : ClientType} (h : t ∈ clientTypes) :
    t.assigns = ((t.fields.filter (fun f => f.kind = .required)).map (·.name)).zipIdx := by
  have h1 := type_ok h
  simp only [typeOkB, Bool.and_eq_true] at h1
  exact of_decide_eq_true h1.1.2

theorem parameters_eq {t : ClientType} (h : t ∈ clientTypes) : t.parameters = (t.fields.filter (fun f => f.kind = .required)).length := by
  have h1 := type_ok h
  simp only [typeOkB, Bool.and_eq_true] at h1
  exact of_decide_eq_true h1.2

theorem field_inj_of_nodup {l : List ClientField} (h : (l.map (·.name)).Nodup) {f f' : ClientField} (hf : f ∈ l) (hf' : f' ∈ l) (e : f.name = f'.name) : f = f' := by
  induction l with
  | nil => cases hf
  | cons a l ih =>
    simp only [List.map_cons, List.nodup_cons, List.mem_map, not_exists, not_and] at h
    rcases List.mem_cons.1 hf with rfl | h1
    · rcases List.mem_cons.1 hf' with rfl | h2
      · rfl
      · exact absurd e.symm (h.1 f' h2)
    · rcases List.mem_cons.1 hf' with rfl | h2
      · exact absurd e (h.1 f h1)
      · exact ih h.2 h1 h2

theorem name_inj {t : ClientType} (h : t ∈ clientTypes) {f f' : ClientField} (hf : f ∈ t.fields) (hf' : f' ∈ t.fields) (e : f.name = f'.name) : f = f' :=
  field_inj_of_nodup (names_nodup h) hf hf' e

/-! ### The invariant -/

/-- An object of type `t` holds what a field needs. -/
def SlotOk (m : ClientMemory α) (f : ClientField) : Option (Slot α) → Prop
  | none => False
  | some (.value _) => f.kind ≠ .optional
  | some (.pointer p) => f.kind = .optional ∧ ∀ q, p = some q → q < m.next ∧ ∃ v, m.cells q = some v

structure MemOk (m : ClientMemory α) : Prop where
  object : ∀ o x, m.objects o = some x → o < m.next ∧ x.type ∈ clientTypes ∧ ∀ f ∈ x.type.fields, SlotOk m f (m.slot o f.name)
  shared : ∀ o x o' x' p, m.objects o = some x → m.objects o' = some x' → ∀ f ∈ x.type.fields, ∀ f' ∈ x'.type.fields,
    m.slot o f.name = some (.pointer (some p)) → m.slot o' f'.name = some (.pointer (some p)) → x.type = x'.type ∧ f = f'

theorem memOk_empty : MemOk (ClientMemory.empty : ClientMemory α) :=
  ⟨fun _ _ h => by simp [ClientMemory.empty] at h, fun _ _ _ _ _ h => by simp [ClientMemory.empty] at h⟩

/-! ### Assignments -/

theorem objects_assign (m : ClientMemory α) (o : Nat) (n : Bytes) (s : Slot α) (o' : Nat) (x' : ClientObject α)
    (h : (m.assign o n s).objects o' = some x') : ∃ x, m.objects o' = some x ∧ x'.type = x.type := by
  simp only [ClientMemory.assign] at h
  split at h
  · rename_i e
    subst e
    cases hx : m.objects o' with
    | none => rw [hx] at h; simp at h
    | some x => rw [hx] at h; simp only [Option.map_some, Option.some.injEq] at h; exact ⟨x, rfl, by rw [← h]⟩
  · exact ⟨x', h, rfl⟩

theorem objects_assign_some {m : ClientMemory α} {o' : Nat} {x : ClientObject α} (h : m.objects o' = some x) (o : Nat) (n : Bytes) (s : Slot α) :
    ∃ x', (m.assign o n s).objects o' = some x' ∧ x'.type = x.type := by
  simp only [ClientMemory.assign]
  split
  · rename_i e
    subst e
    rw [h]
    exact ⟨_, rfl, rfl⟩
  · exact ⟨x, h, rfl⟩

theorem slot_assign {m : ClientMemory α} {o : Nat} {x : ClientObject α} (h : m.objects o = some x) (n : Bytes) (s : Slot α) (o' : Nat) (n' : Bytes) :
    (m.assign o n s).slot o' n' = if o' = o ∧ n' = n then some s else m.slot o' n' := by
  unfold ClientMemory.slot ClientMemory.assign
  by_cases e : o' = o
  · subst e
    simp only [if_true, h, Option.map_some, Option.bind_some, true_and]
  · simp [e]

/-! ### What is seen of a field -/

theorem get_of_slot {g : GoValues α} {m m' : ClientMemory α} {f : ClientField} {t : ClientType} (ht : t ∈ clientTypes) (hf : f ∈ t.fields) (o : Nat) (o' : Nat)
    (hs : m'.slot o' f.name = m.slot o f.name) (hc : ∀ p, m.slot o f.name = some (.pointer (some p)) → m'.cells p = m.cells p) :
    m'.get g t f (some o') = m.get g t f (some o) ∧ m'.has g f (some o') = m.has g f (some o) := by
  obtain ⟨h1, h2, h3, h4⟩ := field_ok ht hf
  have hh : m'.held g o' f.kind f.name = m.held g o f.kind f.name := by
    unfold ClientMemory.held
    rw [hs]
    cases hq : m.slot o f.name with
    | none => cases f.kind <;> rfl
    | some s =>
      cases s with
      | value v => cases f.kind <;> rfl
      | pointer p =>
        cases p with
        | none => cases f.kind <;> rfl
        | some p => cases f.kind <;> simp only [hc p hq]
  constructor
  · show (m'.held g o' f.kind f.get).map _ = (m.held g o f.kind f.get).map _
    rw [h1, hh]
  · show (m'.held g o' f.kind f.has).map _ = (m.held g o f.kind f.has).map _
    rw [h3, hh]

theorem ref_of_slot {g : GoValues α} {m m' : ClientMemory α} {f : ClientField} (o : Nat) (hs : m'.slot o f.getOk = m.slot o f.getOk) :
    m'.ref g f (some o) = m.ref g f (some o) := by
  simp only [ClientMemory.ref, hs]

/-! ### Steps keep the invariant -/

theorem slotOk_mono {m m' : ClientMemory α} {f : ClientField} {s : Option (Slot α)} (h : SlotOk m f s) (hn : m.next ≤ m'.next)
    (hc : ∀ q v, q < m.next → m.cells q = some v → ∃ w, m'.cells q = some w) : SlotOk m' f s := by
  match s with
  | none => exact h
  | some (.value _) => exact h
  | some (.pointer p) =>
    refine ⟨h.1, fun q hq => ?_⟩
    obtain ⟨h1, v, h2⟩ := h.2 q hq
    exact ⟨by omega, hc q v h1 h2⟩

theorem memOk_assign_value {m : ClientMemory α} (hm : MemOk m) {o : Nat} {x : ClientObject α} (hx : m.objects o = some x) {f : ClientField} (hf : f ∈ x.type.fields)
    (hk : f.kind ≠ .optional) (v : α) : MemOk (m.assign o f.name (.value v)) := by
  have ht := (hm.object o x hx).2.1
  constructor
  · intro o' x' h'
    obtain ⟨x0, h0, e0⟩ := objects_assign _ _ _ _ _ _ h'
    obtain ⟨h1, h2, h3⟩ := hm.object o' x0 h0
    rw [e0]
    refine ⟨h1, h2, fun f' hf' => ?_⟩
    rw [slot_assign hx]
    split
    · rename_i e
      obtain ⟨rfl, e⟩ := e
      rw [hx] at h0
      cases h0
      rw [name_inj ht hf' hf e]
      exact hk
    · exact slotOk_mono (h3 f' hf') (Nat.le_refl _) (fun q v _ hv => ⟨v, hv⟩)
  · intro o1 x1 o2 x2 p h1 h2 f1 hf1 f2 hf2 hs1 hs2
    obtain ⟨y1, k1, e1⟩ := objects_assign _ _ _ _ _ _ h1
    obtain ⟨y2, k2, e2⟩ := objects_assign _ _ _ _ _ _ h2
    rw [slot_assign hx] at hs1 hs2
    split at hs1
    · cases hs1
    · split at hs2
      · cases hs2
      · rw [e1] at hf1 ⊢
        rw [e2] at hf2 ⊢
        exact hm.shared o1 y1 o2 y2 p k1 k2 f1 hf1 f2 hf2 hs1 hs2

/-- A new variable and a pointer to it. -/
def ClientMemory.point (m : ClientMemory α) (o : Nat) (n : Bytes) (v : α) : ClientMemory α :=
  ClientMemory.assign { m with cells := fun i => if i = m.next then some v else m.cells i, next := m.next + 1 } o n (.pointer (some m.next))

theorem slot_point {m : ClientMemory α} {o : Nat} {x : ClientObject α} (h : m.objects o = some x) (n : Bytes) (v : α) (o' : Nat) (n' : Bytes) :
    (m.point o n v).slot o' n' = if o' = o ∧ n' = n then some (.pointer (some m.next)) else m.slot o' n' := by
  exact slot_assign (m := { m with cells := fun i => if i = m.next then some v else m.cells i, next := m.next + 1 }) (x := x) h n _ o' n'

theorem cells_point (m : ClientMemory α) (o : Nat) (n : Bytes) (v : α) (q : Nat) :
    (m.point o n v).cells q = if q = m.next then some v else m.cells q := rfl

theorem next_point (m : ClientMemory α) (o : Nat) (n : Bytes) (v : α) : (m.point o n v).next = m.next + 1 := rfl

/-- A pointer of a field is below `next`. -/
theorem slot_lt {m : ClientMemory α} (hm : MemOk m) {o : Nat} {x : ClientObject α} (hx : m.objects o = some x) {f : ClientField} (hf : f ∈ x.type.fields) {p : Nat}
    (hs : m.slot o f.name = some (.pointer (some p))) : p < m.next := by
  have h3 := (hm.object o x hx).2.2 f hf
  rw [hs] at h3
  exact (h3.2 p rfl).1

theorem memOk_point {m : ClientMemory α} (hm : MemOk m) {o : Nat} {x : ClientObject α} (hx : m.objects o = some x) {f : ClientField} (hf : f ∈ x.type.fields)
    (hk : f.kind = .optional) (v : α) : MemOk (m.point o f.name v) := by
  have ht := (hm.object o x hx).2.1
  constructor
  · intro o' x' h'
    obtain ⟨x0, h0, e0⟩ := objects_assign _ _ _ _ _ _ h'
    obtain ⟨h1, h2, h3⟩ := hm.object o' x0 h0
    rw [e0]
    refine ⟨by rw [next_point]; omega, h2, fun f' hf' => ?_⟩
    rw [slot_point hx]
    split
    · rename_i e
      obtain ⟨rfl, e⟩ := e
      rw [hx] at h0
      cases h0
      rw [name_inj ht hf' hf e]
      refine ⟨hk, fun q hq => ?_⟩
      cases hq
      exact ⟨by rw [next_point]; omega, v, by rw [cells_point, if_pos rfl]⟩
    · refine slotOk_mono (h3 f' hf') (by rw [next_point]; omega) (fun q w hq hw => ⟨w, ?_⟩)
      rw [cells_point, if_neg (by omega), hw]
  · intro o1 x1 o2 x2 p h1 h2 f1 hf1 f2 hf2 hs1 hs2
    obtain ⟨y1, k1, e1⟩ := objects_assign _ _ _ _ _ _ h1
    obtain ⟨y2, k2, e2⟩ := objects_assign _ _ _ _ _ _ h2
    have k1 : m.objects o1 = some y1 := k1
    have k2 : m.objects o2 = some y2 := k2
    rw [e1] at hf1 ⊢
    rw [e2] at hf2 ⊢
    rw [slot_point hx] at hs1 hs2
    split at hs1
    · rename_i a1
      cases hs1
      split at hs2
      · rename_i a2
        obtain ⟨rfl, a1⟩ := a1
        obtain ⟨rfl, a2⟩ := a2
        rw [hx] at k1 k2
        cases k1
        cases k2
        exact ⟨rfl, name_inj ht hf1 hf2 (a1.trans a2.symm)⟩
      · exact absurd (slot_lt hm k2 hf2 hs2) (by omega)
    · split at hs2
      · cases hs2
        exact absurd (slot_lt hm k1 hf1 hs1) (by omega)
      · exact hm.shared o1 y1 o2 y2 p k1 k2 f1 hf1 f2 hf2 hs1 hs2

theorem memOk_cell {m : ClientMemory α} (hm : MemOk m) (p : Nat) (v : α) : MemOk (m.write (.cell p) v) := by
  constructor
  · intro o x h
    obtain ⟨h1, h2, h3⟩ := hm.object o x h
    refine ⟨h1, h2, fun f hf => slotOk_mono (h3 f hf) (Nat.le_refl _) fun q w _ hw => ?_⟩
    by_cases e : q = p
    · exact ⟨v, by simp [ClientMemory.write, e]⟩
    · exact ⟨w, by simp [ClientMemory.write, e, hw]⟩
  · exact hm.shared

/-- A further object. -/
def ClientMemory.place (m : ClientMemory α) (x : ClientObject α) : ClientMemory α :=
  { m with objects := fun i => if i = m.next then some x else m.objects i, next := m.next + 1 }

theorem slot_place (m : ClientMemory α) (x : ClientObject α) (o : Nat) (n : Bytes) :
    (m.place x).slot o n = if o = m.next then x.slots n else m.slot o n := by
  unfold ClientMemory.slot ClientMemory.place
  by_cases e : o = m.next <;> simp [e]

theorem memOk_place {m : ClientMemory α} (hm : MemOk m) {x : ClientObject α} (ht : x.type ∈ clientTypes) (hs : ∀ f ∈ x.type.fields, SlotOk m f (x.slots f.name))
    (hp : ∀ f ∈ x.type.fields, ∀ p, x.slots f.name = some (.pointer (some p)) → ∃ o y, m.objects o = some y ∧ y.type = x.type ∧
      m.slot o f.name = some (.pointer (some p))) : MemOk (m.place x) := by
  have key : ∀ o y, (m.place x).objects o = some y → ∀ f ∈ y.type.fields, ∀ p, (m.place x).slot o f.name = some (.pointer (some p)) →
      ∃ o' y', m.objects o' = some y' ∧ y'.type = y.type ∧ m.slot o' f.name = some (.pointer (some p)) := by
    intro o y hy f hf p hp'
    rw [slot_place] at hp'
    simp only [ClientMemory.place] at hy
    split at hy
    · rename_i e
      cases hy
      rw [if_pos e] at hp'
      exact hp f hf p hp'
    · rename_i e
      rw [if_neg e] at hp'
      exact ⟨o, y, hy, rfl, hp'⟩
  constructor
  · intro o y hy
    have hy' := hy
    simp only [ClientMemory.place] at hy
    split at hy
    · rename_i e
      cases hy
      refine ⟨by rw [e]; exact Nat.lt_succ_self _, ht, fun f hf => ?_⟩
      rw [slot_place, if_pos e]
      exact slotOk_mono (hs f hf) (Nat.le_succ _) (fun q v _ hv => ⟨v, hv⟩)
    · rename_i e
      obtain ⟨h1, h2, h3⟩ := hm.object o y hy
      refine ⟨Nat.lt_succ_of_lt h1, h2, fun f hf => ?_⟩
      rw [slot_place, if_neg e]
      exact slotOk_mono (h3 f hf) (Nat.le_succ _) (fun q v _ hv => ⟨v, hv⟩)
  · intro o1 x1 o2 x2 p h1 h2 f1 hf1 f2 hf2 hs1 hs2
    obtain ⟨a1, y1, b1, c1, d1⟩ := key o1 x1 h1 f1 hf1 p hs1
    obtain ⟨a2, y2, b2, c2, d2⟩ := key o2 x2 h2 f2 hf2 p hs2
    rw [← c1] at hf1 ⊢
    rw [← c2] at hf2 ⊢
    exact hm.shared a1 y1 a2 y2 p b1 b2 f1 hf1 f2 hf2 d1 d2

theorem copy_eq {m : ClientMemory α} {o : Nat} {x : ClientObject α} (hx : m.objects o = some x) : m.copy o = m.place x := by
  unfold ClientMemory.copy ClientMemory.place
  rw [hx]

theorem memOk_copy {m : ClientMemory α} (hm : MemOk m) {o : Nat} {x : ClientObject α} (hx : m.objects o = some x) : MemOk (m.place x) := by
  obtain ⟨h1, h2, h3⟩ := hm.object o x hx
  have e : ∀ n, m.slot o n = x.slots n := fun n => by unfold ClientMemory.slot; rw [hx]; rfl
  refine memOk_place hm h2 (fun f hf => by rw [← e]; exact h3 f hf) (fun f _ p hp => ⟨o, x, hx, rfl, by rw [e]; exact hp⟩)

/-! ### Constructors -/

/-- The slots after the assignments of a constructor. -/
def assignSlots (args : List α) : List (Bytes × Nat) → (Bytes → Option (Slot α)) → Bytes → Option (Slot α)
  | [], s => s
  | a :: as, s => assignSlots args as (match args[a.2]? with
      | some v => fun n => if n = a.1 then some (.value v) else s n
      | none => s)

theorem fold_assigns (args : List α) (m : ClientMemory α) (t : ClientType) : ∀ (as : List (Bytes × Nat)) (s : Bytes → Option (Slot α)),
    as.foldl (fun m a => match args[a.2]? with
      | some v => m.assign (m.next - 1) a.1 (.value v)
      | none => m) (m.place ⟨t, s⟩) = m.place ⟨t, assignSlots args as s⟩
  | [], s => rfl
  | a :: as, s => by
    rw [List.foldl_cons]
    simp only [assignSlots]
    cases h : args[a.2]? with
    | none => exact fold_assigns args m t as s
    | some v =>
      simp only []
      rw [← fold_assigns args m t as]
      congr 1
      unfold ClientMemory.assign ClientMemory.place
      simp only [Nat.add_sub_cancel, if_true, Option.map_some]
      congr 1
      funext i
      split <;> rfl

theorem new_eq (g : GoValues α) (m : ClientMemory α) (t : ClientType) (args : List α) :
    m.new g t args = m.place ⟨t, assignSlots args t.assigns (zeroObject g t).slots⟩ := fold_assigns args m t t.assigns _

theorem assignSlots_other (args : List α) : ∀ (as : List (Bytes × Nat)) (s : Bytes → Option (Slot α)) (n : Bytes), (∀ a ∈ as, a.1 ≠ n) →
    assignSlots args as s n = s n
  | [], _, _, _ => rfl
  | a :: as, s, n, h => by
    simp only [assignSlots]
    rw [assignSlots_other args as _ n (fun b hb => h b (List.mem_cons_of_mem _ hb))]
    cases args[a.2]? with
    | none => rfl
    | some v => simp only [if_neg (Ne.symm (h a (by simp)))]

theorem assignSlots_mem (args : List α) : ∀ (as : List (Bytes × Nat)) (s : Bytes → Option (Slot α)) (a : Bytes × Nat) (v : α), (as.map (·.1)).Nodup → a ∈ as →
    args[a.2]? = some v → assignSlots args as s a.1 = some (.value v)
  | [], _, _, _, _, h, _ => by cases h
  | b :: as, s, a, v, hn, h, hv => by
    simp only [List.map_cons, List.nodup_cons, List.mem_map, not_exists, not_and] at hn
    simp only [assignSlots]
    rcases List.mem_cons.1 h with rfl | h
    · rw [assignSlots_other args as _ a.1 (fun b hb => hn.1 b hb), hv]
      simp
    · exact assignSlots_mem args as _ a v hn.2 h hv

theorem find_name {l : List ClientField} (h : (l.map (·.name)).Nodup) {f : ClientField} (hf : f ∈ l) : l.find? (fun x => x.name = f.name) = some f := by
  induction l with
  | nil => cases hf
  | cons a l ih =>
    simp only [List.map_cons, List.nodup_cons, List.mem_map, not_exists, not_and] at h
    rcases List.mem_cons.1 hf with rfl | h1
    · simp
    · rw [List.find?_cons, show decide (a.name = f.name) = false from by simpa using fun e => h.1 f h1 e.symm]
      exact ih h.2 h1

theorem zero_slot (g : GoValues α) {t : ClientType} (ht : t ∈ clientTypes) {f : ClientField} (hf : f ∈ t.fields) :
    (zeroObject g t).slots f.name = some (match f.kind with
      | .optional => .pointer none
      | _ => .value (g.zero t f)) := by
  simp only [zeroObject, find_name (names_nodup ht) hf]
  cases f.kind <;> rfl

theorem assign_names {t : ClientType} (ht : t ∈ clientTypes) : t.assigns.map (·.1) = (t.fields.filter (fun f => f.kind = .required)).map (·.name) := by
  rw [assigns_eq ht, List.zipIdx_map_fst]

/-- The slots of a new object. -/
theorem new_required (g : GoValues α) {t : ClientType} (ht : t ∈ clientTypes) (args : List α) {i : Nat} {f : ClientField} {v : α}
    (hf : (t.fields.filter (fun f => f.kind = .required))[i]? = some f) (hv : args[i]? = some v) :
    assignSlots args t.assigns (zeroObject g t).slots f.name = some (.value v) := by
  refine assignSlots_mem args t.assigns _ (f.name, i) v ?_ ?_ hv
  · rw [assign_names ht]
    exact (List.Sublist.map _ List.filter_sublist).nodup (names_nodup ht)
  · rw [assigns_eq ht, List.mem_zipIdx_iff_getElem?]
    simp [hf]

theorem new_other (g : GoValues α) {t : ClientType} (ht : t ∈ clientTypes) (args : List α) {f : ClientField} (hf : f ∈ t.fields) (hk : f.kind ≠ .required) :
    assignSlots args t.assigns (zeroObject g t).slots f.name = (zeroObject g t).slots f.name := by
  refine assignSlots_other args _ _ _ fun a ha e => hk ?_
  have h1 : a.1 ∈ t.assigns.map (·.1) := List.mem_map.2 ⟨a, ha, rfl⟩
  rw [assign_names ht] at h1
  obtain ⟨f', hf', e'⟩ := List.mem_map.1 h1
  rw [List.mem_filter] at hf'
  rw [← name_inj ht hf'.1 hf (e'.trans e)]
  exact of_decide_eq_true hf'.2

theorem memOk_zero (g : GoValues α) {m : ClientMemory α} (hm : MemOk m) {t : ClientType} (ht : t ∈ clientTypes) : MemOk (m.place (zeroObject g t)) := by
  refine memOk_place hm ht (fun f hf => ?_) (fun f hf p hp => ?_)
  · rw [zero_slot g ht hf]
    cases hk : f.kind with
    | optional => exact ⟨hk, fun q hq => by cases hq⟩
    | required => exact fun h => by rw [hk] at h; cases h
    | list => exact fun h => by rw [hk] at h; cases h
  · rw [zero_slot g ht hf] at hp
    cases hk : f.kind <;> rw [hk] at hp <;> cases hp

theorem memOk_new (g : GoValues α) {m : ClientMemory α} (hm : MemOk m) {t : ClientType} (ht : t ∈ clientTypes) {args : List α} (ha : args.length = t.parameters) :
    MemOk (m.new g t args) := by
  rw [new_eq]
  have key : ∀ f ∈ t.fields, (f.kind = .required ∧ ∃ v, assignSlots args t.assigns (zeroObject g t).slots f.name = some (.value v)) ∨
      (f.kind ≠ .required ∧ assignSlots args t.assigns (zeroObject g t).slots f.name = (zeroObject g t).slots f.name) := by
    intro f hf
    by_cases hk : f.kind = .required
    · left
      refine ⟨hk, ?_⟩
      have hmem : f ∈ t.fields.filter (fun f => f.kind = .required) := List.mem_filter.2 ⟨hf, by simp [hk]⟩
      obtain ⟨i, hi⟩ := List.mem_iff_getElem?.1 hmem
      have hlt : i < args.length := by
        rw [ha, parameters_eq ht]
        exact (List.getElem?_eq_some_iff.1 hi).1
      exact ⟨args[i], new_required g ht args hi (List.getElem?_eq_getElem hlt)⟩
    · exact .inr ⟨hk, new_other g ht args hf hk⟩
  refine memOk_place hm ht (fun f hf => ?_) (fun f hf p hp => ?_)
  · show SlotOk m f (assignSlots args t.assigns (zeroObject g t).slots f.name)
    rcases key f hf with ⟨hk, v, h⟩ | ⟨hk, h⟩
    · rw [h]
      exact fun e => by rw [hk] at e; cases e
    · rw [h, zero_slot g ht hf]
      cases hk' : f.kind with
      | optional => exact ⟨hk', fun q hq => by cases hq⟩
      | required => exact absurd hk' hk
      | list => exact fun h => by rw [hk'] at h; cases h
  · have hp : assignSlots args t.assigns (zeroObject g t).slots f.name = some (.pointer (some p)) := hp
    rcases key f hf with ⟨_, v, h⟩ | ⟨_, h⟩
    · rw [h] at hp
      cases hp
    · rw [h, zero_slot g ht hf] at hp
      cases hk : f.kind <;> rw [hk] at hp <;> cases hp

/-! ### Steps -/

/-- `SetX` as assignment or as new variable. -/
theorem set_eq {m : ClientMemory α} {t : ClientType} (ht : t ∈ clientTypes) {f : ClientField} (hf : f ∈ t.fields) (v : α) (o : Nat) :
    m.set f v (some o) = some (if f.kind = .optional then m.point o f.name v else m.assign o f.name (.value v)) := by
  obtain ⟨_, _, _, h4⟩ := field_ok ht hf
  unfold ClientMemory.set ClientMemory.point
  rw [h4]
  cases f.kind <;> rfl

theorem memOk_step {g : GoValues α} {m m' : ClientMemory α} (hm : MemOk m) {op : ClientOp α} (h : m.step g op = some m') : MemOk m' := by
  cases op with
  | new t args =>
    simp only [ClientMemory.step] at h
    split at h
    · rename_i hc
      cases h
      exact memOk_new g hm hc.1 hc.2
    · cases h
  | newWithDefaults t =>
    simp only [ClientMemory.step] at h
    split at h
    · rename_i hc
      cases h
      exact memOk_zero g hm hc
    · cases h
  | set o f v =>
    simp only [ClientMemory.step] at h
    cases hx : m.objects o with
    | none => rw [hx] at h; cases h
    | some x =>
      rw [hx] at h
      simp only at h
      split at h
      · rename_i hf
        rw [set_eq (hm.object o x hx).2.1 hf] at h
        cases h
        split
        · rename_i hk
          exact memOk_point hm hx hf hk v
        · rename_i hk
          exact memOk_assign_value hm hx hf hk v
      · cases h
  | write o f v =>
    simp only [ClientMemory.step] at h
    cases hx : m.objects o with
    | none => rw [hx] at h; cases h
    | some x =>
      rw [hx] at h
      simp only at h
      split at h
      · rename_i hf
        cases hr : m.ref g f (some o) with
        | none => rw [hr] at h; cases h
        | some r =>
          rw [hr] at h
          cases h
          obtain ⟨_, h2, _, _⟩ := field_ok (hm.object o x hx).2.1 hf.1
          simp only [ClientMemory.ref, h2] at hr
          split at hr
          · rename_i hk _
            cases hr
            exact memOk_assign_value hm hx hf.1 (by rw [hk]; simp) v
          · cases hr
            exact memOk_cell hm _ v
          · rename_i hk _
            exact absurd hk hf.2
          · cases hr
      · cases h
  | copy o =>
    simp only [ClientMemory.step] at h
    cases hx : m.objects o with
    | none => rw [hx] at h; cases h
    | some x =>
      rw [hx] at h
      simp only at h
      cases h
      rw [copy_eq hx]
      exact memOk_copy hm hx

theorem memOk_steps {g : GoValues α} : ∀ {ops : List (ClientOp α)} {m m' : ClientMemory α}, MemOk m → m.steps g ops = some m' → MemOk m'
  | [], _, _, hm, h => by cases h; exact hm
  | op :: ops, m, m', hm, h => by
    simp only [ClientMemory.steps] at h
    cases h1 : m.step g op with
    | none => rw [h1] at h; cases h
    | some m1 =>
      rw [h1] at h
      exact memOk_steps (memOk_step hm h1) h

/-! ### Sharing -/

/-- What `GetXOk` returns. -/
theorem ref_cases {g : GoValues α} {m : ClientMemory α} {f : ClientField} {o : Nat} {r : Ref} (h : m.ref g f (some o) = some r) :
    (∃ p, f.kind = .optional ∧ m.slot o f.getOk = some (.pointer (some p)) ∧ r = .cell p) ∨ (f.kind ≠ .optional ∧ r = .field o f.getOk) := by
  simp only [ClientMemory.ref] at h
  split at h
  · rename_i hk _
    cases h
    exact .inr ⟨by rw [hk]; simp, rfl⟩
  · rename_i p hk hs
    cases h
    exact .inl ⟨p, hk, hs, rfl⟩
  · rename_i hk _
    split at h
    · cases h
    · cases h
      exact .inr ⟨by rw [hk]; simp, rfl⟩
  · cases h

/-- No two objects hold the same pointer. -/
def Unshared (m : ClientMemory α) : Prop :=
  ∀ o o' x x' p, m.objects o = some x → m.objects o' = some x' → ∀ f ∈ x.type.fields, ∀ f' ∈ x'.type.fields,
    m.slot o f.name = some (.pointer (some p)) → m.slot o' f'.name = some (.pointer (some p)) → o = o'

theorem unshared_empty : Unshared (ClientMemory.empty : ClientMemory α) := fun _ _ _ _ _ h => by simp [ClientMemory.empty] at h

theorem unshared_place {m : ClientMemory α} (hu : Unshared m) {x : ClientObject α} (hn : ∀ f ∈ x.type.fields, ∀ p, x.slots f.name ≠ some (.pointer (some p))) :
    Unshared (m.place x) := by
  intro o o' y y' p h h' f hf f' hf' hs hs'
  rw [slot_place] at hs hs'
  simp only [ClientMemory.place] at h h'
  split at h
  · rename_i e
    rw [if_pos e] at hs
    cases h
    exact absurd hs (hn f hf p)
  · rename_i e
    rw [if_neg e] at hs
    split at h'
    · rename_i e'
      rw [if_pos e'] at hs'
      cases h'
      exact absurd hs' (hn f' hf' p)
    · rename_i e'
      rw [if_neg e'] at hs'
      exact hu o o' y y' p h h' f hf f' hf' hs hs'

theorem unshared_assign {m : ClientMemory α} (hu : Unshared m) {o : Nat} {x : ClientObject α} (hx : m.objects o = some x) (n : Bytes) (v : α) :
    Unshared (m.assign o n (.value v)) := by
  intro o1 o2 x1 x2 p h1 h2 f1 hf1 f2 hf2 hs1 hs2
  obtain ⟨y1, k1, e1⟩ := objects_assign _ _ _ _ _ _ h1
  obtain ⟨y2, k2, e2⟩ := objects_assign _ _ _ _ _ _ h2
  rw [slot_assign hx] at hs1 hs2
  split at hs1
  · cases hs1
  · split at hs2
    · cases hs2
    · rw [e1] at hf1
      rw [e2] at hf2
      exact hu o1 o2 y1 y2 p k1 k2 f1 hf1 f2 hf2 hs1 hs2

theorem unshared_point {m : ClientMemory α} (hm : MemOk m) (hu : Unshared m) {o : Nat} {x : ClientObject α} (hx : m.objects o = some x) (n : Bytes) (v : α) :
    Unshared (m.point o n v) := by
  intro o1 o2 x1 x2 p h1 h2 f1 hf1 f2 hf2 hs1 hs2
  obtain ⟨y1, k1, e1⟩ := objects_assign _ _ _ _ _ _ h1
  obtain ⟨y2, k2, e2⟩ := objects_assign _ _ _ _ _ _ h2
  have k1 : m.objects o1 = some y1 := k1
  have k2 : m.objects o2 = some y2 := k2
  rw [e1] at hf1
  rw [e2] at hf2
  rw [slot_point hx] at hs1 hs2
  split at hs1
  · rename_i a1
    cases hs1
    split at hs2
    · rename_i a2
      exact a1.1.trans a2.1.symm
    · exact absurd (slot_lt hm k2 hf2 hs2) (by omega)
  · split at hs2
    · cases hs2
      exact absurd (slot_lt hm k1 hf1 hs1) (by omega)
    · exact hu o1 o2 y1 y2 p k1 k2 f1 hf1 f2 hf2 hs1 hs2

theorem unshared_step {g : GoValues α} {m m' : ClientMemory α} (hm : MemOk m) (hu : Unshared m) {op : ClientOp α} (hc : ∀ o, op ≠ .copy o)
    (h : m.step g op = some m') : Unshared m' := by
  cases op with
  | new t args =>
    simp only [ClientMemory.step] at h
    split at h
    · rename_i hc
      cases h
      rw [new_eq]
      refine unshared_place hu fun f hf p hp => ?_
      have hp : assignSlots args t.assigns (zeroObject g t).slots f.name = some (.pointer (some p)) := hp
      by_cases hk : f.kind = .required
      · have hmem : f ∈ t.fields.filter (fun f => f.kind = .required) := List.mem_filter.2 ⟨hf, by simp [hk]⟩
        obtain ⟨i, hi⟩ := List.mem_iff_getElem?.1 hmem
        have hlt : i < args.length := by
          rw [hc.2, parameters_eq hc.1]
          exact (List.getElem?_eq_some_iff.1 hi).1
        rw [new_required g hc.1 args hi (List.getElem?_eq_getElem hlt)] at hp
        cases hp
      · rw [new_other g hc.1 args hf hk, zero_slot g hc.1 hf] at hp
        cases hk : f.kind <;> rw [hk] at hp <;> cases hp
    · cases h
  | newWithDefaults t =>
    simp only [ClientMemory.step] at h
    split at h
    · rename_i hc
      cases h
      refine unshared_place hu fun f hf p hp => ?_
      rw [zero_slot g hc hf] at hp
      cases hk : f.kind <;> rw [hk] at hp <;> cases hp
    · cases h
  | set o f v =>
    simp only [ClientMemory.step] at h
    cases hx : m.objects o with
    | none => rw [hx] at h; cases h
    | some x =>
      rw [hx] at h
      simp only at h
      split at h
      · rename_i hf
        rw [set_eq (hm.object o x hx).2.1 hf] at h
        cases h
        split
        · exact unshared_point hm hu hx _ v
        · exact unshared_assign hu hx _ v
      · cases h
  | write o f v =>
    simp only [ClientMemory.step] at h
    cases hx : m.objects o with
    | none => rw [hx] at h; cases h
    | some x =>
      rw [hx] at h
      simp only at h
      split at h
      · cases hr : m.ref g f (some o) with
        | none => rw [hr] at h; cases h
        | some r =>
          rw [hr] at h
          cases h
          rcases ref_cases hr with ⟨p, _, _, rfl⟩ | ⟨_, rfl⟩
          · exact hu
          · exact unshared_assign hu hx _ v
      · cases h
  | copy o => exact absurd rfl (hc o)

theorem unshared_steps {g : GoValues α} : ∀ {ops : List (ClientOp α)} {m m' : ClientMemory α}, MemOk m → Unshared m → (∀ o, .copy o ∉ ops) →
    m.steps g ops = some m' → Unshared m'
  | [], _, _, _, hu, _, h => by cases h; exact hu
  | op :: ops, m, m', hm, hu, hc, h => by
    simp only [ClientMemory.steps] at h
    cases h1 : m.step g op with
    | none => rw [h1] at h; cases h
    | some m1 =>
      rw [h1] at h
      exact unshared_steps (memOk_step hm h1) (unshared_step hm hu (fun o e => hc o (by simp [e])) h1) (fun o ho => hc o (List.mem_cons_of_mem _ ho)) h

end Metro2
