import Verif.Spec.Rules
import Verif.Spec.FirstFault
import Verif.Lemmas.Validate
import Verif.Lemmas.GoodFile
import Verif.Lemmas.ParseInt
import Verif.Lemmas.Files

/-! The field validators in terms of the field rules. -/

namespace Metro2

variable {decl : List (F × FieldDecl)} {fs : Fields}

theorem val_of_typed (ht : fs.Typed decl) (hn : (decl.map Prod.fst).Nodup) {f : F} {k : Kind}
    (hd : (decl.lookup f).map (·.kind) = some k) : ∃ v, fs.get f = some v ∧ v.hasKind k = true := by
  cases hl : decl.lookup f with
  | none => rw [hl] at hd; simp at hd
  | some d =>
    rw [hl] at hd
    simp only [Option.map_some, Option.some.injEq] at hd
    have hd' := lookup_mem hl
    have : f ∈ fs.map Prod.fst := by rw [ht.names]; exact List.mem_map_of_mem (f := Prod.fst) hd'
    obtain ⟨⟨f', v⟩, hm, rfl⟩ := List.mem_map.1 this
    obtain ⟨d', hd'', hk'⟩ := ht.mem hm
    have h2 := lookup_of_mem hn hd''
    rw [hl] at h2
    cases h2
    rw [hd] at hk'
    exact ⟨v, Fields.get_of_mem (by rw [ht.names]; exact hn) hm, hk'⟩

theorem str_mem (ht : fs.Typed decl) (hn : (decl.map Prod.fst).Nodup) {f : F}
    (hd : (decl.lookup f).map (·.kind) = some .str) {s : Bytes} : (f, .str s) ∈ fs ↔ s = fs.str f := by
  obtain ⟨v, h1, h2⟩ := val_of_typed ht hn hd
  cases v with
  | str x =>
    have hx : fs.str f = x := by unfold Fields.str; rw [h1]
    rw [hx]
    constructor
    · intro h
      have := Fields.get_of_mem (by rw [ht.names]; exact hn) h
      rw [h1] at this
      cases this; rfl
    · rintro rfl; exact Fields.mem_of_get h1
  | int x => simp [Val.hasKind] at h2
  | time x => simp [Val.hasKind] at h2

theorem time_mem (ht : fs.Typed decl) (hn : (decl.map Prod.fst).Nodup) {f : F}
    (hd : (decl.lookup f).map (·.kind) = some .time) {s : Time} : (f, .time s) ∈ fs ↔ s = fs.time f := by
  obtain ⟨v, h1, h2⟩ := val_of_typed ht hn hd
  cases v with
  | time x =>
    have hx : fs.time f = x := by unfold Fields.time; rw [h1]
    rw [hx]
    constructor
    · intro h
      have := Fields.get_of_mem (by rw [ht.names]; exact hn) h
      rw [h1] at this
      cases this; rfl
    · rintro rfl; exact Fields.mem_of_get h1
  | int x => simp [Val.hasKind] at h2
  | str x => simp [Val.hasKind] at h2

theorem int_mem (ht : fs.Typed decl) (hn : (decl.map Prod.fst).Nodup) {f : F}
    (hd : (decl.lookup f).map (·.kind) = some .int) {s : Int} : (f, .int s) ∈ fs ↔ s = fs.int f := by
  obtain ⟨v, h1, h2⟩ := val_of_typed ht hn hd
  cases v with
  | int x =>
    have hx : fs.int f = x := by unfold Fields.int; rw [h1]
    rw [hx]
    constructor
    · intro h
      have := Fields.get_of_mem (by rw [ht.names]; exact hn) h
      rw [h1] at this
      cases this; rfl
    · rintro rfl; exact Fields.mem_of_get h1
  | time x => simp [Val.hasKind] at h2
  | str x => simp [Val.hasKind] at h2

theorem isZero_false_iff (v : Val) : v.isZero = false ↔ Spec.Present v := by
  cases v with
  | int i => simp [Val.isZero, Spec.Present]
  | str s => simp [Val.isZero, Spec.Present]
  | time t =>
    simp only [Val.isZero, Spec.Present, Time.reflectZero]
    rw [← Bool.not_eq_true, Bool.and_eq_true, decide_eq_true_eq]

/-- The mandatory names are those marked as required in the table. -/
def marksB (fmt : Format) (decl : List (F × FieldDecl)) (names : List F) : Bool :=
  (decl.all fun p => (match fmt.lookup p.1 with | some e => decide (e.req = .required) | none => false) ==
    names.contains p.1) && names.all fun f => (decl.map Prod.fst).contains f

theorem missing_iff {fmt : Format} {names : List F} (hm : marksB fmt decl names = true) (ht : fs.Typed decl) :
    (∀ p ∈ fs, missing fmt p.1 p.2 = false) ↔ Spec.AllPresent names fs := by
  rw [marksB, Bool.and_eq_true, List.all_eq_true, List.all_eq_true] at hm
  have key : ∀ f v, (f, v) ∈ fs → (missing fmt f v = false ↔ (f ∈ names → Spec.Present v)) := by
    intro f v hp
    obtain ⟨d, hd, -⟩ := ht.mem hp
    have h1 := hm.1 (f, d) hd
    rw [beq_iff_eq] at h1
    unfold missing
    revert h1
    cases fmt.lookup f with
    | none =>
      intro h1
      have : f ∉ names := by
        intro h
        rw [List.contains_iff_mem.2 h] at h1; cases h1
      simp [this]
    | some e =>
      intro h1
      simp only at h1 ⊢
      by_cases hr : e.req = .required
      · have hf : f ∈ names := by
          rw [decide_eq_true hr] at h1
          exact List.contains_iff_mem.1 h1.symm
        rw [decide_eq_true hr, Bool.true_and, isZero_false_iff]
        exact ⟨fun h _ => h, fun h => h hf⟩
      · have hf : f ∉ names := by
          intro h
          rw [List.contains_iff_mem.2 h] at h1
          exact hr (of_decide_eq_true h1)
        rw [decide_eq_false hr, Bool.false_and]
        simp [hf]
  constructor
  · intro h f hf v hv
    exact (key f v hv).1 (h _ hv) hf
  · intro h p hp
    exact (key p.1 p.2 hp).2 fun hf => h _ hf _ hp

theorem check_none {b : Bool} {f : F} : check b f = none ↔ b = true := by
  unfold check
  cases b <;> simp

theorem allByte_all {c : UInt8} {s : Bytes} : allByte c s = true ↔ ∀ x ∈ s, x = c := by
  simp [allByte, List.all_eq_true]

theorem filler_iff {s : Bytes} : validFilledString s = true ↔ Spec.Filler s := by
  unfold validFilledString Spec.Filler
  simp only [Bool.or_eq_true, allByte_all, List.mem_cons, List.not_mem_nil, or_false, exists_eq_or_imp,
    exists_eq_left]
  exact or_assoc

theorem not_filler_iff {s : Bytes} : (!validFilledString s) = true ↔ ¬ Spec.Filler s := by
  rw [Bool.not_eq_true', ← Bool.not_eq_true, filler_iff]

/-- Custom validators over a struct. -/
theorem custom_iff {custom : F → Option Err} {l : List F} (ht : fs.Typed decl)
    (hl : ∀ f ∈ l, f ∈ decl.map Prod.fst) (hc : ∀ f, f ∉ l → custom f = none) :
    (∀ p ∈ fs, custom p.1 = none) ↔ ∀ f ∈ l, custom f = none := by
  constructor
  · intro h f hf
    have : f ∈ fs.map Prod.fst := by rw [ht.names]; exact hl f hf
    obtain ⟨p, hp, rfl⟩ := List.mem_map.1 this
    exact h p hp
  · intro h p hp
    by_cases hf : p.1 ∈ l
    · exact h _ hf
    · exact hc _ hf

theorem contains_iff_of_same {l m : List Bytes} (h : (l.all m.contains && m.all l.contains) = true) {s : Bytes} :
    l.contains s = true ↔ s ∈ m := by
  rw [Bool.and_eq_true, List.all_eq_true, List.all_eq_true] at h
  rw [List.contains_iff_mem]
  exact ⟨fun hs => List.contains_iff_mem.1 (h.1 s hs), fun hs => List.contains_iff_mem.1 (h.2 s hs)⟩

theorem base_names : (baseSegmentStruct.map Prod.fst).Nodup := by decide +kernel

theorem seg_names (k : SegKind) : (k.struct.map Prod.fst).Nodup := by cases k <;> decide +kernel

theorem parses_iff {s : Bytes} : (match parseInt s with | .ok _ => true | .error _ => false) = true ↔
    ∃ v : Int, Spec.SignedDecimal s v ∧ -(2 ^ 63) ≤ v ∧ v < 2 ^ 63 := by
  cases h : parseInt s with
  | ok v => exact ⟨fun _ => ⟨v, parseInt_ok_iff.1 h⟩, fun _ => rfl⟩
  | error e =>
    refine ⟨fun h => by simp at h, ?_⟩
    rintro ⟨v, hv⟩
    rw [parseInt_ok_iff.2 hv] at h
    cases h

/-- The fields of data records with custom validators. -/
def customBase : List F := [.CorrectionIndicator, .IdentificationNumber, .PortfolioType, .TermsDuration,
  .TermsFrequency, .PaymentRating, .PaymentHistoryProfile, .InterestTypeIndicator, .TelephoneNumber,
  .SocialSecurityNumber, .DateBirth, .AccountStatus, .AccountType, .SpecialComment]

theorem baseCustom_other (enc : Enc) (fs : Fields) {f : F} (h : f ∉ customBase) : baseCustom enc fs f = none := by
  unfold baseCustom
  split <;> first | rfl | exact absurd (by decide) h

theorem terms_iff {s : Bytes} : ((termsDurations.contains s ||
      (match parseInt s with | .ok _ => true | .error _ => false)) = true) ↔
    s = b! "LOC" ∨ s = b! "REV" ∨ ∃ v : Int, Spec.SignedDecimal s v ∧ -(2 ^ 63) ≤ v ∧ v < 2 ^ 63 := by
  rw [Bool.or_eq_true, parses_iff, List.contains_iff_mem]
  have h1 : ∃ v : Int, Spec.SignedDecimal (b! "001") v ∧ -(2 ^ 63) ≤ v ∧ v < 2 ^ 63 :=
    ⟨1, parseInt_ok_iff.1 (by decide +kernel)⟩
  constructor
  · rintro (h | h)
    · simp only [termsDurations, List.mem_cons, List.not_mem_nil, or_false] at h
      rcases h with h | h | h
      · exact .inl h
      · exact .inr (.inr (h ▸ h1))
      · exact .inr (.inl h)
    · exact .inr (.inr h)
  · rintro (h | h | h)
    · exact .inl (by subst h; decide)
    · exact .inl (by subst h; decide)
    · exact .inr h

theorem baseCustom_rule {enc : Enc} {history : List UInt8} (hh : ∀ c, c ∈ enc.paymentHistoryCodes ↔ c ∈ history)
    (ht : fs.Typed baseSegmentStruct) (f : F) : baseCustom enc fs f = none ↔ Spec.baseRule history fs f := by
  have S : ∀ {f : F}, (baseSegmentStruct.lookup f).map (·.kind) = some .str → ∀ {s}, (f, .str s) ∈ fs ↔ s = fs.str f :=
    fun hd => str_mem ht base_names hd
  have I : ∀ {f : F}, (baseSegmentStruct.lookup f).map (·.kind) = some .int → ∀ {s}, (f, .int s) ∈ fs ↔ s = fs.int f :=
    fun hd => int_mem ht base_names hd
  have T : ∀ {f : F}, (baseSegmentStruct.lookup f).map (·.kind) = some .time → ∀ {s}, (f, .time s) ∈ fs ↔ s = fs.time f :=
    fun hd => time_mem ht base_names hd
  have c1 : baseCustom enc fs .CorrectionIndicator = none ↔ Spec.Between fs .CorrectionIndicator 0 1 := by
    simp only [baseCustom, check_none, Spec.Between, I (f := .CorrectionIndicator) (by decide +kernel), forall_eq,
      List.contains_iff_mem, correctionIndicators, List.mem_cons, List.not_mem_nil, or_false]
    omega
  have c2 : baseCustom enc fs .IdentificationNumber = none ↔
      ∀ s, (.IdentificationNumber, .str s) ∈ fs → ¬ Spec.Filler s := by
    simp only [baseCustom, check_none, S (f := .IdentificationNumber) (by decide +kernel), forall_eq, not_filler_iff]
  have c3 : baseCustom enc fs .PortfolioType = none ↔ Spec.OneOf fs .PortfolioType Spec.portfolioCodes := by
    simp only [baseCustom, check_none, Spec.OneOf, S (f := .PortfolioType) (by decide +kernel), forall_eq]
    exact contains_iff_of_same (by decide +kernel)
  have c4 : baseCustom enc fs .TermsDuration = none ↔ ∀ s, (.TermsDuration, .str s) ∈ fs →
      s = b! "LOC" ∨ s = b! "REV" ∨ ∃ v : Int, Spec.SignedDecimal s v ∧ -(2 ^ 63) ≤ v ∧ v < 2 ^ 63 := by
    simp only [S (f := .TermsDuration) (by decide +kernel), forall_eq]
    rw [← terms_iff, baseCustom, check_none]
    exact Iff.rfl
  have c5 : baseCustom enc fs .TermsFrequency = none ↔ Spec.OneOf fs .TermsFrequency ([] :: Spec.frequencyCodes) := by
    simp only [baseCustom, check_none, Spec.OneOf, S (f := .TermsFrequency) (by decide +kernel), forall_eq]
    exact contains_iff_of_same (by decide +kernel)
  have c6 : baseCustom enc fs .PaymentRating = none ↔
      ∀ st r, (.AccountStatus, .str st) ∈ fs → (.PaymentRating, .str r) ∈ fs →
        (st ∈ Spec.finalStatuses → r ∈ Spec.ratingCodes) ∧ (st ∉ Spec.finalStatuses → r = []) := by
    have hst : ratedStatuses.contains (fs.str .AccountStatus) = true ↔ fs.str .AccountStatus ∈ Spec.finalStatuses :=
      contains_iff_of_same (by decide +kernel)
    have hr : paymentRatings.contains (fs.str .PaymentRating) = true ↔ fs.str .PaymentRating ∈ Spec.ratingCodes :=
      contains_iff_of_same (by decide +kernel)
    rw [baseCustom]
    constructor
    · intro h st r h1 h2
      rw [S (by decide +kernel)] at h1 h2
      subst h1 h2
      by_cases hs : fs.str .AccountStatus ∈ Spec.finalStatuses
      · rw [if_pos (hst.2 hs), check_none, hr] at h
        exact ⟨fun _ => h, fun h' => absurd hs h'⟩
      · rw [if_neg (fun h' => hs (hst.1 h')), check_none, decide_eq_true_eq] at h
        exact ⟨fun h' => absurd h' hs, fun _ => h⟩
    · intro h
      have h' := h _ _ ((S (by decide +kernel)).2 rfl) ((S (by decide +kernel)).2 rfl)
      by_cases hs : fs.str .AccountStatus ∈ Spec.finalStatuses
      · rw [if_pos (hst.2 hs), check_none, hr]; exact h'.1 hs
      · rw [if_neg (fun h' => hs (hst.1 h')), check_none, decide_eq_true_eq]; exact h'.2 hs
  have c7 : baseCustom enc fs .PaymentHistoryProfile = none ↔
      ∀ s, (.PaymentHistoryProfile, .str s) ∈ fs → s.length = 24 ∧ ∀ c ∈ s, c ∈ history := by
    simp only [baseCustom, check_none, S (f := .PaymentHistoryProfile) (by decide +kernel), forall_eq,
      Bool.and_eq_true, decide_eq_true_eq, List.all_eq_true, List.contains_iff_mem, hh]
  have c8 : baseCustom enc fs .InterestTypeIndicator = none ↔
      Spec.OneOf fs .InterestTypeIndicator ([] :: Spec.interestCodes) := by
    simp only [baseCustom, check_none, Spec.OneOf, S (f := .InterestTypeIndicator) (by decide +kernel), forall_eq]
    exact contains_iff_of_same (by decide +kernel)
  have c9 : baseCustom enc fs .TelephoneNumber = none := isPhoneNumber_none _
  have c10 : ∀ f ∈ [F.SocialSecurityNumber, .DateBirth], baseCustom enc fs f = none ↔
      Spec.Identified fs fun e => e = b! "2" ∨ e = b! "5" := by
    have h0 : (!(decide (fs.int .SocialSecurityNumber = 0) && (fs.time .DateBirth).isZero) ||
        (decide (fs.str .ECOACode = b! "2") || decide (fs.str .ECOACode = b! "5"))) = true ↔
        Spec.Identified fs fun e => e = b! "2" ∨ e = b! "5" := by
      constructor
      · intro h n t e h1 h2 h3 h4 h5
        rw [I (by decide +kernel)] at h1
        rw [T (by decide +kernel)] at h2
        rw [S (by decide +kernel)] at h3
        subst h1 h2 h3
        simpa [h4, h5] using h
      · intro h
        have h' := h _ _ _ ((I (by decide +kernel)).2 rfl) ((T (by decide +kernel)).2 rfl) ((S (by decide +kernel)).2 rfl)
        by_cases h4 : fs.int .SocialSecurityNumber = 0
        · cases h5 : (fs.time .DateBirth).isZero with
          | false => simp
          | true => simpa [h4] using h' h4 h5
        · simp [h4]
    intro f hf
    simp only [List.mem_cons, List.not_mem_nil, or_false] at hf
    rw [← h0]
    rcases hf with rfl | rfl <;> simp only [baseCustom, check_none]
  have c11 : baseCustom enc fs .AccountStatus = none ↔ Spec.OneOf fs .AccountStatus Spec.statusCodes := by
    simp only [baseCustom, check_none, Spec.OneOf, S (f := .AccountStatus) (by decide +kernel), forall_eq]
    exact contains_iff_of_same (by decide +kernel)
  have c12 : baseCustom enc fs .AccountType = none ↔ Spec.OneOf fs .AccountType Spec.accountCodes := by
    simp only [baseCustom, check_none, Spec.OneOf, S (f := .AccountType) (by decide +kernel), forall_eq]
    exact contains_iff_of_same (by decide +kernel)
  have c13 : baseCustom enc fs .SpecialComment = none ↔ Spec.OneOf fs .SpecialComment Spec.commentCodes := by
    simp only [baseCustom, check_none, Spec.OneOf, S (f := .SpecialComment) (by decide +kernel), forall_eq]
    exact contains_iff_of_same (by decide +kernel)
  by_cases hf : f ∈ customBase
  · simp only [customBase, List.mem_cons, List.not_mem_nil, or_false] at hf
    rcases hf with rfl | rfl | rfl | rfl | rfl | rfl | rfl | rfl | rfl | rfl | rfl | rfl | rfl | rfl
    · exact c1
    · exact c2
    · exact c3
    · exact c4
    · exact c5
    · exact c6
    · exact c7
    · exact c8
    · exact ⟨fun _ => trivial, fun _ => c9⟩
    · exact c10 _ (by decide)
    · exact c10 _ (by decide)
    · exact c11
    · exact c12
    · exact c13
  · rw [baseCustom_other _ _ hf]
    refine ⟨fun _ => ?_, fun _ => rfl⟩
    unfold Spec.baseRule
    split <;> first | trivial | exact absurd (by decide) hf

theorem baseRules_iff {enc : Enc} {history : List UInt8} (hh : ∀ c, c ∈ enc.paymentHistoryCodes ↔ c ∈ history)
    (ht : fs.Typed baseSegmentStruct) :
    validateLoop enc.baseFormat (baseCustom enc fs) fs = none ↔ Spec.BaseRules history fs := by
  rw [validateLoop_none]
  have split : (∀ p ∈ fs, missing enc.baseFormat p.1 p.2 = false ∧ baseCustom enc fs p.1 = none) ↔
      (∀ p ∈ fs, missing enc.baseFormat p.1 p.2 = false) ∧ ∀ p ∈ fs, baseCustom enc fs p.1 = none :=
    ⟨fun h => ⟨fun p hp => (h p hp).1, fun p hp => (h p hp).2⟩, fun h p hp => ⟨h.1 p hp, h.2 p hp⟩⟩
  rw [split, missing_iff (names := Spec.mandatoryBase) (by cases enc <;> decide +kernel) ht,
    custom_iff (l := customBase) ht (by decide +kernel) (fun f hf => baseCustom_other enc fs hf)]
  simp only [customBase, List.forall_mem_cons, List.not_mem_nil, false_imp_iff, implies_true, and_true, baseCustom_rule hh ht]
  constructor
  · rintro ⟨h, h1, h2, h3, h4, h5, h6, h7, h8, -, h10, -, h11, h12, h13⟩
    exact ⟨h, h1, h2, h3, h4, h5, h6, h7, h8, h10, h11, h12, h13⟩
  · rintro ⟨h, h1, h2, h3, h4, h5, h6, h7, h8, h10, h11, h12, h13⟩
    exact ⟨h, h1, h2, h3, h4, h5, h6, h7, h8, trivial, h10, h10, h11, h12, h13⟩

/-- The fields of segments with custom validators. -/
def customSeg : SegKind → List F
  | .j1 => [.GenerationCode, .TelephoneNumber, .SocialSecurityNumber, .DateBirth]
  | .j2 => [.GenerationCode, .TelephoneNumber, .SocialSecurityNumber, .DateBirth, .AddressIndicator, .ResidenceCode]
  | .k1 => [.CreditorClassification]
  | .k2 => [.PurchasedIndicator, .PurchasedName]
  | .k3 => [.AgencyIdentifier, .AccountNumber]
  | .k4 => [.SpecializedPaymentIndicator]
  | .l1 => [.ChangeIndicator, .NewConsumerAccountNumber, .NewIdentificationNumber]
  | .n1 => []

theorem segCustom_other (k : SegKind) (fs : Fields) {f : F} (h : f ∉ customSeg k) : segCustom k fs f = none := by
  unfold segCustom
  split <;> first | rfl | exact absurd (by decide) h

theorem fillerIf_iff {ind f : F} {value : Int} (hi : ∀ {s}, (ind, .int s) ∈ fs ↔ s = fs.int ind)
    (hs : ∀ {s}, (f, .str s) ∈ fs ↔ s = fs.str f) :
    (!(decide (fs.int ind = value)) || validFilledString (fs.str f)) = true ↔ Spec.FillerIf fs ind value f := by
  unfold Spec.FillerIf
  simp only [hi, hs, forall_eq, Bool.or_eq_true, filler_iff, Bool.not_eq_true', decide_eq_false_iff_not]
  by_cases h : fs.int ind = value
  · simp [h]
  · simp [h, Ne.symm h]

theorem upper_w {s : Bytes} : toUpper s = b! "W" ↔ s = b! "w" ∨ s = b! "W" := by
  constructor
  · intro h
    rw [toUpper] at h
    obtain ⟨c, rfl, hc⟩ : ∃ c, s = [c] ∧ upperByte c = 87 := by
      match s, h with
      | [c], h => exact ⟨c, rfl, by simpa using h⟩
      | a :: b :: l, h => simp at h
    have : ∀ c : UInt8, upperByte c = 87 → c = 119 ∨ c = 87 := by
      intro c
      have : ∀ n : Fin 256, upperByte ⟨⟨n⟩⟩ = 87 → (⟨⟨n⟩⟩ : UInt8) = 119 ∨ (⟨⟨n⟩⟩ : UInt8) = 87 := by decide +kernel
      exact this c.toBitVec.toFin
    rcases this c hc with rfl | rfl
    · exact .inl rfl
    · exact .inr rfl
  · rintro (rfl | rfl) <;> decide

theorem identified_iff {exempt : Bytes → Prop} {ex : Bool} (he : ex = true ↔ exempt (fs.str .ECOACode))
    (hn : ∀ {s}, (.SocialSecurityNumber, .int s) ∈ fs ↔ s = fs.int .SocialSecurityNumber)
    (hd : ∀ {s}, (.DateBirth, .time s) ∈ fs ↔ s = fs.time .DateBirth)
    (hs : ∀ {s}, (.ECOACode, .str s) ∈ fs ↔ s = fs.str .ECOACode) :
    (!(decide (fs.int .SocialSecurityNumber = 0) && (fs.time .DateBirth).isZero) || ex) = true ↔
      Spec.Identified fs exempt := by
  unfold Spec.Identified
  simp only [hn, hd, hs]
  constructor
  · rintro h n t e rfl rfl rfl h4 h5
    rw [← he]
    simpa [h4, h5] using h
  · intro h
    have h' := h _ _ _ rfl rfl rfl
    by_cases h4 : fs.int .SocialSecurityNumber = 0
    · cases h5 : (fs.time .DateBirth).isZero with
      | false => simp
      | true => rw [he.2 (h' h4 h5)]; simp
    · simp [h4]

theorem segCustom_iff (k : SegKind) (ht : fs.Typed k.struct) :
    (∀ f ∈ customSeg k, segCustom k fs f = none) ↔ Spec.SegmentCodes k fs := by
  have S : ∀ {f : F}, (k.struct.lookup f).map (·.kind) = some .str → ∀ {s}, (f, .str s) ∈ fs ↔ s = fs.str f :=
    fun hd => str_mem ht (seg_names k) hd
  have I : ∀ {f : F}, (k.struct.lookup f).map (·.kind) = some .int → ∀ {s}, (f, .int s) ∈ fs ↔ s = fs.int f :=
    fun hd => int_mem ht (seg_names k) hd
  have T : ∀ {f : F}, (k.struct.lookup f).map (·.kind) = some .time → ∀ {s}, (f, .time s) ∈ fs ↔ s = fs.time f :=
    fun hd => time_mem ht (seg_names k) hd
  cases k with
  | j1 =>
    simp only [customSeg, List.forall_mem_cons, List.not_mem_nil, false_imp_iff, implies_true, and_true]
    simp only [segCustom, List.not_mem_nil, and_true, check_none, isPhoneNumber_none, true_and, Spec.SegmentCodes, and_self, Spec.OneOf,
      S (f := .GenerationCode) (by decide +kernel), forall_eq]
    refine and_congr (contains_iff_of_same (by decide +kernel)) ?_
    rw [← identified_iff (ex := false) (by simp) (I (by decide +kernel)) (T (by decide +kernel)) (S (by decide +kernel)),
      Bool.or_false]
  | j2 =>
    simp only [customSeg, List.forall_mem_cons, List.not_mem_nil, false_imp_iff, implies_true, and_true]
    simp only [segCustom, List.not_mem_nil, and_true, check_none, isPhoneNumber_none, true_and, Spec.SegmentCodes, and_self, Spec.OneOf,
      S (f := .GenerationCode) (by decide +kernel), S (f := .AddressIndicator) (by decide +kernel),
      S (f := .ResidenceCode) (by decide +kernel), forall_eq]
    have hi := identified_iff (fs := fs) (exempt := fun e => e = b! "w" ∨ e = b! "W")
      (ex := decide (toUpper (fs.str .ECOACode) = b! "W")) (by rw [decide_eq_true_eq, upper_w])
      (I (by decide +kernel)) (T (by decide +kernel)) (S (by decide +kernel))
    rw [← hi, ← contains_iff_of_same (l := j2GenerationCodes) (by decide +kernel),
      ← contains_iff_of_same (l := addressIndicators) (by decide +kernel),
      ← contains_iff_of_same (l := residenceCodes) (by decide +kernel)]
    exact ⟨fun ⟨a, b, _, c, d⟩ => ⟨a, b, c, d⟩, fun ⟨a, b, c, d⟩ => ⟨a, b, b, c, d⟩⟩
  | k1 =>
    simp only [customSeg, List.forall_mem_cons, List.not_mem_nil, false_imp_iff, implies_true, and_true]
    simp only [segCustom, List.not_mem_nil, and_true, check_none, Spec.SegmentCodes, Spec.Between, I (f := .CreditorClassification) (by decide +kernel), forall_eq,
      List.contains_iff_mem, creditorClassifications, List.mem_cons, or_false]
    omega
  | k2 =>
    simp only [customSeg, List.forall_mem_cons, List.not_mem_nil, false_imp_iff, implies_true, and_true]
    simp only [segCustom, List.not_mem_nil, and_true, check_none, Spec.SegmentCodes, I (f := .PurchasedIndicator) (by decide +kernel), forall_eq,
      List.contains_iff_mem, purchasedIndicators, List.mem_cons, or_false]
    rw [fillerIf_iff (ind := .PurchasedIndicator) (f := .PurchasedName) (I (by decide +kernel)) (S (by decide +kernel))]
  | k3 =>
    simp only [customSeg, List.forall_mem_cons, List.not_mem_nil, false_imp_iff, implies_true, and_true]
    simp only [segCustom, List.not_mem_nil, and_true, check_none, Spec.SegmentCodes, Spec.Between, I (f := .AgencyIdentifier) (by decide +kernel), forall_eq,
      List.contains_iff_mem, agencyIdentifiers, List.mem_cons, or_false]
    rw [fillerIf_iff (ind := .AgencyIdentifier) (f := .AccountNumber) (I (by decide +kernel)) (S (by decide +kernel))]
    refine and_congr ?_ Iff.rfl
    omega
  | k4 =>
    simp only [customSeg, List.forall_mem_cons, List.not_mem_nil, false_imp_iff, implies_true, and_true]
    simp only [segCustom, List.not_mem_nil, and_true, check_none, Spec.SegmentCodes, Spec.Between, I (f := .SpecializedPaymentIndicator) (by decide +kernel), forall_eq,
      List.contains_iff_mem, specializedPaymentIndicators, List.mem_cons, or_false]
    omega
  | l1 =>
    simp only [customSeg, List.forall_mem_cons, List.not_mem_nil, false_imp_iff, implies_true, and_true]
    simp only [segCustom, List.not_mem_nil, and_true, check_none, Spec.SegmentCodes, Spec.Between, I (f := .ChangeIndicator) (by decide +kernel), forall_eq,
      List.contains_iff_mem, changeIndicators, List.mem_cons, or_false]
    rw [fillerIf_iff (ind := .ChangeIndicator) (f := .NewConsumerAccountNumber) (I (by decide +kernel)) (S (by decide +kernel)),
      fillerIf_iff (ind := .ChangeIndicator) (f := .NewIdentificationNumber) (I (by decide +kernel)) (S (by decide +kernel))]
    refine and_congr ?_ Iff.rfl
    omega
  | n1 => simp [customSeg, Spec.SegmentCodes]

theorem segRules_iff {s : Seg} (ht : s.fields.Typed s.kind.struct) :
    s.validate = none ↔ Spec.AllPresent (Spec.mandatorySegment s.kind) s.fields ∧ Spec.SegmentCodes s.kind s.fields := by
  obtain ⟨k, fs⟩ := s
  simp only at ht ⊢
  rw [Seg.validate, validateLoop_none, ← segCustom_iff k ht,
    ← missing_iff (fmt := k.format) (by cases k <;> decide +kernel) ht,
    ← custom_iff (l := customSeg k) ht (by cases k <;> decide +kernel) (fun f hf => segCustom_other k fs hf)]
  exact ⟨fun h => ⟨fun p hp => (h p hp).1, fun p hp => (h p hp).2⟩, fun h p hp => ⟨h.1 p hp, h.2 p hp⟩⟩

theorem plainRules_iff {fmt : Format} {names : List F} (hm : marksB fmt decl names = true) (ht : fs.Typed decl) :
    validateLoop fmt (fun _ => none) fs = none ↔ Spec.AllPresent names fs := by
  rw [validateLoop_none, ← missing_iff hm ht]
  simp

end Metro2
