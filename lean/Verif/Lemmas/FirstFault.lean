import Verif.Lemmas.Rules
import Verif.Lemmas.Files

/-! `Validate` reports the first fault. -/

namespace Metro2

variable {decl : List (F × FieldDecl)} {fs : Fields}

theorem segCustom_rule (k : SegKind) (ht : fs.Typed k.struct) (f : F) : segCustom k fs f = none ↔ Spec.segmentRule k fs f := by
  have S : ∀ {f : F}, (k.struct.lookup f).map (·.kind) = some .str → ∀ {s}, (f, .str s) ∈ fs ↔ s = fs.str f :=
    fun hd => str_mem ht (seg_names k) hd
  have I : ∀ {f : F}, (k.struct.lookup f).map (·.kind) = some .int → ∀ {s}, (f, .int s) ∈ fs ↔ s = fs.int f :=
    fun hd => int_mem ht (seg_names k) hd
  have T : ∀ {f : F}, (k.struct.lookup f).map (·.kind) = some .time → ∀ {s}, (f, .time s) ∈ fs ↔ s = fs.time f :=
    fun hd => time_mem ht (seg_names k) hd
  by_cases hf : f ∈ customSeg k
  · cases k with
    | j1 =>
      have hi := identified_iff (fs := fs) (exempt := fun _ => False) (ex := false) (by simp) (I (by decide +kernel)) (T (by decide +kernel))
        (S (by decide +kernel))
      rw [Bool.or_false] at hi
      simp only [customSeg, List.mem_cons, List.not_mem_nil, or_false] at hf
      rcases hf with rfl | rfl | rfl | rfl
      · simp only [segCustom, check_none, Spec.segmentRule, Spec.OneOf, S (f := .GenerationCode) (by decide +kernel), forall_eq]
        exact contains_iff_of_same (by decide +kernel)
      · simp only [segCustom, isPhoneNumber_none, Spec.segmentRule]
      · simp only [segCustom, check_none, Spec.segmentRule]; exact hi
      · simp only [segCustom, check_none, Spec.segmentRule]; exact hi
    | j2 =>
      have hi := identified_iff (fs := fs) (exempt := fun e => e = b! "w" ∨ e = b! "W")
        (ex := decide (toUpper (fs.str .ECOACode) = b! "W")) (by rw [decide_eq_true_eq, upper_w])
        (I (by decide +kernel)) (T (by decide +kernel)) (S (by decide +kernel))
      simp only [customSeg, List.mem_cons, List.not_mem_nil, or_false] at hf
      rcases hf with rfl | rfl | rfl | rfl | rfl | rfl
      · simp only [segCustom, check_none, Spec.segmentRule, Spec.OneOf, S (f := .GenerationCode) (by decide +kernel), forall_eq]
        exact contains_iff_of_same (by decide +kernel)
      · simp only [segCustom, isPhoneNumber_none, Spec.segmentRule]
      · simp only [segCustom, check_none, Spec.segmentRule]; exact hi
      · simp only [segCustom, check_none, Spec.segmentRule]; exact hi
      · simp only [segCustom, check_none, Spec.segmentRule, Spec.OneOf, S (f := .AddressIndicator) (by decide +kernel), forall_eq]
        exact contains_iff_of_same (by decide +kernel)
      · simp only [segCustom, check_none, Spec.segmentRule, Spec.OneOf, S (f := .ResidenceCode) (by decide +kernel), forall_eq]
        exact contains_iff_of_same (by decide +kernel)
    | k1 =>
      simp only [customSeg, List.mem_cons, List.not_mem_nil, or_false] at hf
      subst hf
      simp only [segCustom, check_none, Spec.segmentRule, Spec.Between, I (f := .CreditorClassification) (by decide +kernel), forall_eq,
        List.contains_iff_mem, creditorClassifications, List.mem_cons, List.not_mem_nil, or_false]
      omega
    | k2 =>
      simp only [customSeg, List.mem_cons, List.not_mem_nil, or_false] at hf
      rcases hf with rfl | rfl
      · simp only [segCustom, check_none, Spec.segmentRule, I (f := .PurchasedIndicator) (by decide +kernel), forall_eq,
          List.contains_iff_mem, purchasedIndicators, List.mem_cons, List.not_mem_nil, or_false]
      · simp only [segCustom, check_none, Spec.segmentRule]
        exact fillerIf_iff (ind := .PurchasedIndicator) (f := .PurchasedName) (I (by decide +kernel)) (S (by decide +kernel))
    | k3 =>
      simp only [customSeg, List.mem_cons, List.not_mem_nil, or_false] at hf
      rcases hf with rfl | rfl
      · simp only [segCustom, check_none, Spec.segmentRule, Spec.Between, I (f := .AgencyIdentifier) (by decide +kernel), forall_eq,
          List.contains_iff_mem, agencyIdentifiers, List.mem_cons, List.not_mem_nil, or_false]
        omega
      · simp only [segCustom, check_none, Spec.segmentRule]
        exact fillerIf_iff (ind := .AgencyIdentifier) (f := .AccountNumber) (I (by decide +kernel)) (S (by decide +kernel))
    | k4 =>
      simp only [customSeg, List.mem_cons, List.not_mem_nil, or_false] at hf
      subst hf
      simp only [segCustom, check_none, Spec.segmentRule, Spec.Between, I (f := .SpecializedPaymentIndicator) (by decide +kernel), forall_eq,
        List.contains_iff_mem, specializedPaymentIndicators, List.mem_cons, List.not_mem_nil, or_false]
      omega
    | l1 =>
      simp only [customSeg, List.mem_cons, List.not_mem_nil, or_false] at hf
      rcases hf with rfl | rfl | rfl
      · simp only [segCustom, check_none, Spec.segmentRule, Spec.Between, I (f := .ChangeIndicator) (by decide +kernel), forall_eq,
          List.contains_iff_mem, changeIndicators, List.mem_cons, List.not_mem_nil, or_false]
        omega
      · simp only [segCustom, check_none, Spec.segmentRule]
        exact fillerIf_iff (ind := .ChangeIndicator) (f := .NewConsumerAccountNumber) (I (by decide +kernel)) (S (by decide +kernel))
      · simp only [segCustom, check_none, Spec.segmentRule]
        exact fillerIf_iff (ind := .ChangeIndicator) (f := .NewIdentificationNumber) (I (by decide +kernel)) (S (by decide +kernel))
    | n1 => cases hf
  · rw [segCustom_other k fs hf]
    refine ⟨fun _ => ?_, fun _ => rfl⟩
    unfold Spec.segmentRule
    split <;> first | trivial | exact absurd (by decide) hf

/-- The custom validators complain about the value of their field only. -/
theorem check_some {b : Bool} {f : F} {e : Err} (h : check b f = some e) : e = .invalidValue f := by
  unfold check at h
  split at h
  · cases h
  · exact (Option.some.inj h).symm

theorem baseCustom_some {enc : Enc} {f : F} {e : Err} (h : baseCustom enc fs f = some e) : e = .invalidValue f := by
  unfold baseCustom at h
  split at h <;> first | exact check_some h | skip
  · split at h <;> exact check_some h
  · rw [isPhoneNumber_none] at h; cases h
  · cases h

theorem segCustom_some {k : SegKind} {f : F} {e : Err} (h : segCustom k fs f = some e) : e = .invalidValue f := by
  unfold segCustom at h
  split at h <;> first | exact check_some h | (rw [isPhoneNumber_none] at h; cases h) | cases h

/-- A field is reported as missing exactly if it is mandatory and not present. -/
theorem missing_field_iff {fmt : Format} {names : List F} (hm : marksB fmt decl names = true) {f : F} {v : Val}
    (hd : ∃ d, (f, d) ∈ decl) : missing fmt f v = true ↔ f ∈ names ∧ ¬ Spec.Present v := by
  rw [marksB, Bool.and_eq_true, List.all_eq_true, List.all_eq_true] at hm
  obtain ⟨d, hd⟩ := hd
  have h1 := hm.1 (f, d) hd
  rw [beq_iff_eq] at h1
  have hz : v.isZero = true ↔ ¬ Spec.Present v := by
    rw [← isZero_false_iff]; cases v.isZero <;> simp
  unfold missing
  revert h1
  cases fmt.lookup f with
  | none =>
    intro h1
    have : f ∉ names := by
      intro h
      rw [List.contains_iff_mem.2 h] at h1; cases h1
    simp [this]
  | some e =>
    intro h1
    simp only at h1 ⊢
    rw [Bool.and_eq_true, h1, List.contains_iff_mem, hz]

/-- The validation loop finds the first fault. -/
theorem validateLoop_first {fmt : Format} {names : List F} {custom : F → Option Err} {rule : F → Prop}
    (hm : marksB fmt decl names = true) (hr : ∀ f, custom f = none ↔ rule f) (hc : ∀ f e, custom f = some e → e = .invalidValue f)
    {e : Err} : ∀ fs : Fields, (∀ p ∈ fs, ∃ d, (p.1, d) ∈ decl) →
    (validateLoop fmt custom fs = some e ↔ Spec.FirstFault names rule fs e) := by
  intro fs
  induction fs with
  | nil =>
    intro _
    constructor
    · intro h; cases h
    · rintro ⟨b, f, v, a, h, -⟩; simp at h
  | cons p fs ih =>
    intro hd
    obtain ⟨f, v⟩ := p
    have hmf := missing_field_iff (v := v) hm (hd _ List.mem_cons_self)
    have ih := ih fun q hq => hd q (List.mem_cons_of_mem _ hq)
    rw [validateLoop]
    constructor
    · intro h
      split at h
      · next hmis =>
        obtain ⟨h1, h2⟩ := hmf.1 hmis
        exact ⟨[], f, v, fs, rfl, by simp, .inl ⟨h1, h2, (Option.some.inj h).symm⟩⟩
      · next hmis =>
        have hpres : f ∈ names → Spec.Present v := by
          intro h1
          by_cases h2 : Spec.Present v
          · exact h2
          · exact absurd (hmf.2 ⟨h1, h2⟩) hmis
        split at h
        · next err hcu =>
          have : err = e := Option.some.inj h
          subst this
          refine ⟨[], f, v, fs, rfl, by simp, .inr ⟨hpres, ?_, hc _ _ hcu⟩⟩
          rw [← hr, hcu]; simp
        · next hcu =>
          obtain ⟨b, f', v', a, h1, h2, h3⟩ := ih.1 h
          refine ⟨(f, v) :: b, f', v', a, by rw [h1]; rfl, ?_, h3⟩
          intro q hq
          rcases List.mem_cons.1 hq with rfl | hq
          · exact ⟨hpres, (hr _).1 hcu⟩
          · exact h2 q hq
    · rintro ⟨b, f', v', a, h1, h2, h3⟩
      cases b with
      | nil =>
        simp only [List.nil_append, List.cons.injEq, Prod.mk.injEq] at h1
        obtain ⟨⟨rfl, rfl⟩, rfl⟩ := h1
        rcases h3 with ⟨h4, h5, rfl⟩ | ⟨h4, h5, rfl⟩
        · rw [if_pos (hmf.2 ⟨h4, h5⟩)]
        · rw [if_neg (fun hmis => (hmf.1 hmis).2 (h4 (hmf.1 hmis).1))]
          cases hcu : custom f with
          | none => exact absurd ((hr _).1 hcu) h5
          | some err => rw [hc _ _ hcu]
      | cons q b =>
        simp only [List.cons_append, List.cons.injEq] at h1
        obtain ⟨rfl, rfl⟩ := h1
        obtain ⟨h4, h5⟩ := h2 _ List.mem_cons_self
        rw [if_neg (fun hmis => (hmf.1 hmis).2 (h4 (hmf.1 hmis).1)), (hr _).2 h5]
        exact ih.2 ⟨b, f', v', a, rfl, fun q hq => h2 q (List.mem_cons_of_mem _ hq), h3⟩

theorem firstInvalid_iff (rs : List Record) (e : Err) : firstInvalid rs = some e ↔ Spec.FirstInvalid rs e := by
  induction rs with
  | nil =>
    constructor
    · intro h; cases h
    · rintro ⟨b, f, a, h, -⟩; simp at h
  | cons r rs ih =>
    rw [firstInvalid]
    cases hv : r.validate with
    | some err =>
      constructor
      · intro h; exact ⟨[], r, rs, rfl, by simp, by rw [hv]; exact h⟩
      · rintro ⟨b, r', a, h1, h2, h3⟩
        cases b with
        | nil => simp only [List.nil_append, List.cons.injEq] at h1; rw [← h1.1, hv] at h3; exact h3
        | cons q b =>
          simp only [List.cons_append, List.cons.injEq] at h1
          have := h2 q List.mem_cons_self
          rw [← h1.1, hv] at this; cases this
    | none =>
      simp only
      rw [ih]
      constructor
      · rintro ⟨b, r', a, h1, h2, h3⟩
        refine ⟨r :: b, r', a, by rw [h1]; rfl, ?_, h3⟩
        intro q hq
        rcases List.mem_cons.1 hq with rfl | hq
        · exact hv
        · exact h2 q hq
      · rintro ⟨b, r', a, h1, h2, h3⟩
        cases b with
        | nil => simp only [List.nil_append, List.cons.injEq] at h1; rw [← h1.1, hv] at h3; cases h3
        | cons q b =>
          simp only [List.cons_append, List.cons.injEq] at h1
          exact ⟨b, r', a, h1.2, fun q hq => h2 q (List.mem_cons_of_mem _ hq), h3⟩

/-- The comparison of the totals finds the first wrong one. -/
theorem compareTotals_first {tr : Fields} {val : F → Val} {e : Err} : ∀ info : Fields,
    (∀ p ∈ info, (p.1 ∈ Spec.totals ∧ p.2 = val p.1) ∨ (p.1 ∉ Spec.totals ∧ (p.1 = .RecordDescriptorWord ∨ p.1 = .RecordIdentifier))) →
    (compareTotals tr info = some e ↔ ∃ before t after, info.map Prod.fst = before ++ t :: after ∧ t ∈ Spec.totals ∧
      (∀ t' ∈ before, t' ∈ Spec.totals → tr.get t' = some (val t')) ∧ tr.get t ≠ some (val t) ∧ e = .invalidValue t) := by
  intro info
  induction info with
  | nil =>
    intro _
    constructor
    · intro h; cases h
    · rintro ⟨b, f, a, h, -⟩; simp at h
  | cons p info ih =>
    intro hin
    obtain ⟨f, v⟩ := p
    have ih := ih fun q hq => hin q (List.mem_cons_of_mem _ hq)
    have step : (f ∈ Spec.totals → tr.get f = some (val f)) →
        ((∃ before t after, info.map Prod.fst = before ++ t :: after ∧ t ∈ Spec.totals ∧
          (∀ t' ∈ before, t' ∈ Spec.totals → tr.get t' = some (val t')) ∧ tr.get t ≠ some (val t) ∧ e = .invalidValue t) ↔
        ∃ before t after, ((f, v) :: info).map Prod.fst = before ++ t :: after ∧ t ∈ Spec.totals ∧
          (∀ t' ∈ before, t' ∈ Spec.totals → tr.get t' = some (val t')) ∧ tr.get t ≠ some (val t) ∧ e = .invalidValue t) := by
      intro hf
      constructor
      · rintro ⟨b, t, a, h1, h2, h3, h4⟩
        refine ⟨f :: b, t, a, by rw [List.map_cons, h1]; rfl, h2, ?_, h4⟩
        intro t' ht'
        rcases List.mem_cons.1 ht' with rfl | ht'
        · exact hf
        · exact h3 t' ht'
      · rintro ⟨b, t, a, h1, h2, h3, h4⟩
        cases b with
        | nil =>
          simp only [List.map_cons, List.nil_append, List.cons.injEq] at h1
          obtain ⟨rfl, -⟩ := h1
          exact absurd (hf h2) h4.1
        | cons q b =>
          simp only [List.map_cons, List.cons_append, List.cons.injEq] at h1
          exact ⟨b, t, a, h1.2, h2, fun t' ht' => h3 t' (List.mem_cons_of_mem _ ht'), h4⟩
    rcases hin (f, v) List.mem_cons_self with ⟨h1, h2⟩ | ⟨h1, h2⟩
    · simp only at h1 h2
      obtain ⟨n1, n2, n3⟩ := totals_ne f h1
      have hx : ¬ (f = .BlockDescriptorWord ∨ f = .RecordDescriptorWord ∨ f = .RecordIdentifier) := by simp [n1, n2, n3]
      by_cases hg : tr.get f = some (val f)
      · rw [compareTotals, if_neg hx, hg]
        simp only [h2, if_true]
        rw [ih]
        exact step fun _ => hg
      · have hL : compareTotals tr ((f, v) :: info) = some (.invalidValue f) := by
          rw [compareTotals, if_neg hx]
          cases hw : tr.get f with
          | none => rfl
          | some w =>
            simp only
            rw [if_neg (fun hvw => hg (by rw [hw, ← hvw, h2]))]
        rw [hL]
        constructor
        · intro h
          exact ⟨[], f, info.map Prod.fst, rfl, h1, by simp, hg, (Option.some.inj h).symm⟩
        · rintro ⟨b, t, a, h3, h4, h5, h6, rfl⟩
          cases b with
          | nil =>
            simp only [List.map_cons, List.nil_append, List.cons.injEq] at h3
            rw [h3.1]
          | cons q b =>
            simp only [List.map_cons, List.cons_append, List.cons.injEq] at h3
            obtain ⟨rfl, -⟩ := h3
            exact absurd (h5 _ List.mem_cons_self h1) hg
    · simp only at h1 h2
      rw [compareTotals, if_pos (.inr h2), ih]
      exact step fun h => absurd h h1

end Metro2
