import Verif.Lemmas.JsonDoc
import Verif.Lemmas.ClientObjects
import Verif.Spec.ClientObjects

/-! The members of the document of a client object. -/

namespace Metro2

def declOkB (p : ClientType × List (F × FieldDecl)) : Bool :=
  decide (p.1 ∈ clientTypes) && decide ((p.1.fields.map fun f => (Spec.memberKey f.name, f.kind)) = p.2.map fun d => (d.2.json, if d.2.omitempty then .optional else .required)) &&
    decide (p.2.map fun d => d.2.json).Nodup && decide (p.2.map fun d => d.1).Nodup

theorem decls_ok : Spec.clientDecls.all declOkB = true := by decide +kernel

theorem decl_ok {t : ClientType} {decl : List (F × FieldDecl)} (h : (t, decl) ∈ Spec.clientDecls) :
    t ∈ clientTypes ∧ ((t.fields.map fun f => (Spec.memberKey f.name, f.kind)) = decl.map fun d => (d.2.json, if d.2.omitempty then .optional else .required)) ∧
      (decl.map fun d => d.2.json).Nodup ∧ (decl.map fun d => d.1).Nodup := by
  have h1 := List.all_eq_true.1 decls_ok _ h
  simp only [declOkB, Bool.and_eq_true, decide_eq_true_eq] at h1
  exact ⟨h1.1.1.1, h1.1.1.2, h1.1.2, h1.2⟩

theorem lookup_of_nodup {decl : List (F × FieldDecl)} (h : (decl.map fun d => d.1).Nodup) {p : F × FieldDecl} (hp : p ∈ decl) : decl.lookup p.1 = some p.2 := by
  induction decl with
  | nil => cases hp
  | cons q ds ih =>
    rw [List.map_cons, List.nodup_cons] at h
    rw [List.lookup_cons]
    rcases List.mem_cons.1 hp with rfl | hp
    · simp
    · rw [beq_eq_false_iff_ne.2, ih h.2 hp]
      intro e
      exact h.1 (List.mem_map.2 ⟨p, hp, e⟩)

theorem lookup_members (c : ClientRec) {decl : List (F × FieldDecl)} (hn : (decl.map fun d => d.2.json).Nodup) {kvs : List (Bytes × Json)}
    (h : encodeClientMembers c decl = some kvs) :
    (∀ p ∈ decl, kvs.lookup p.2.json = (c p.1).bind encodeClientVal) ∧ ∀ k, k ∉ (decl.map fun d => d.2.json) → kvs.lookup k = none := by
  induction decl generalizing kvs with
  | nil =>
    cases h
    exact ⟨(fun p hp => (List.not_mem_nil hp).elim), fun _ _ => rfl⟩
  | cons q ds ih =>
    rw [List.map_cons, List.nodup_cons] at hn
    rw [encodeClientMembers] at h
    cases hm : encodeClientMembers c ds with
    | none => rw [hm] at h; cases h
    | some m =>
      rw [hm] at h
      obtain ⟨i1, i2⟩ := ih hn.2 hm
      simp only at h
      cases hc : c q.1 with
      | none =>
        rw [hc] at h
        cases h
        refine ⟨fun p hp => ?_, fun k hk => i2 k fun h => hk (List.mem_cons_of_mem _ h)⟩
        rcases List.mem_cons.1 hp with rfl | hp
        · rw [i2 _ hn.1, hc]; rfl
        · exact i1 p hp
      | some v =>
        rw [hc] at h
        simp only at h
        cases he : encodeClientVal v with
        | none => rw [he] at h; cases h
        | some j =>
          rw [he] at h
          cases h
          refine ⟨fun p hp => ?_, fun k hk => ?_⟩
          · rw [lookup_mapSet]
            rcases List.mem_cons.1 hp with rfl | hp
            · rw [if_pos rfl, hc]; exact he.symm
            · rw [if_neg, i1 p hp]
              intro e
              exact hn.1 (List.mem_map.2 ⟨p, hp, e⟩)
          · rw [lookup_mapSet, if_neg, i2 k fun h => hk (List.mem_cons_of_mem _ h)]
            rintro rfl
            exact hk (List.mem_cons_self ..)

theorem find_key {l : List ClientField} (h : (l.map fun f => Spec.memberKey f.name).Nodup) {f : ClientField} (hf : f ∈ l) :
    l.find? (fun x => Spec.memberKey x.name = Spec.memberKey f.name) = some f := by
  induction l with
  | nil => cases hf
  | cons q ds ih =>
    rw [List.map_cons, List.nodup_cons] at h
    rw [List.find?_cons]
    rcases List.mem_cons.1 hf with rfl | hf
    · simp
    · have : decide (Spec.memberKey q.name = Spec.memberKey f.name) = false := by
        rw [decide_eq_false_iff_not]
        intro e
        exact h.1 (List.mem_map.2 ⟨f, hf, e.symm⟩)
      rw [this, ih h.2 hf]

theorem recordOf_eq {t : ClientType} {decl : List (F × FieldDecl)} (h : (t, decl) ∈ Spec.clientDecls) (g : GoValues Val) (m : ClientMemory Val) (o : Nat)
    {f : ClientField} (hf : f ∈ t.fields) {p : F × FieldDecl} (hp : p ∈ decl) (e : p.2.json = Spec.memberKey f.name) :
    Spec.recordOf g m o t decl p.1 = (m.held g o f.kind f.name).join := by
  obtain ⟨_, h2, h3, h4⟩ := decl_ok h
  have hk : (t.fields.map fun f => Spec.memberKey f.name) = decl.map fun d => d.2.json := by
    have := congrArg (List.map Prod.fst) h2
    simpa [List.map_map, Function.comp_def] using this
  unfold Spec.recordOf
  rw [lookup_of_nodup h4 hp, Option.bind_some, e, find_key (by rw [hk]; exact h3) hf]
  rfl

theorem key_row {t : ClientType} {decl : List (F × FieldDecl)} (h : (t, decl) ∈ Spec.clientDecls) {f : ClientField} (hf : f ∈ t.fields) :
    ∃ p ∈ decl, p.2.json = Spec.memberKey f.name := by
  obtain ⟨_, h2, _, _⟩ := decl_ok h
  have : (Spec.memberKey f.name, f.kind) ∈ decl.map fun d => (d.2.json, if d.2.omitempty then ClientFieldKind.optional else .required) := by
    rw [← h2]
    exact List.mem_map.2 ⟨f, hf, rfl⟩
  obtain ⟨p, hp, e⟩ := List.mem_map.1 this
  exact ⟨p, hp, (Prod.mk.inj e).1⟩

theorem row_key {t : ClientType} {decl : List (F × FieldDecl)} (h : (t, decl) ∈ Spec.clientDecls) {p : F × FieldDecl} (hp : p ∈ decl) :
    ∃ f ∈ t.fields, p.2.json = Spec.memberKey f.name := by
  obtain ⟨_, h2, _, _⟩ := decl_ok h
  have : (p.2.json, if p.2.omitempty then ClientFieldKind.optional else .required) ∈ t.fields.map fun f => (Spec.memberKey f.name, f.kind) := by
    rw [h2]
    exact List.mem_map.2 ⟨p, hp, rfl⟩
  obtain ⟨f, hf, e⟩ := List.mem_map.1 this
  exact ⟨f, hf, (Prod.mk.inj e).1.symm⟩

end Metro2
