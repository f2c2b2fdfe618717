import Verif.Spec.Messages

/-! Lemmas about error texts. -/

namespace Metro2

theorem upperLetter_iff (c : UInt8) : upperLetter c = true ↔ Spec.Capital c := by
  simp [upperLetter, Spec.Capital, UInt8.le_iff_toNat_le]

theorem lowerLetter_iff (c : UInt8) : lowerLetter c = true ↔ Spec.Small c := by
  simp [lowerLetter, Spec.Small, UInt8.le_iff_toNat_le]

theorem digit_iff (c : UInt8) : isDigit c = true ↔ Spec.DigitByte c := by
  simp [isDigit, Spec.DigitByte, UInt8.le_iff_toNat_le]

theorem toLowerAscii_eq (s : Bytes) : toLowerAscii s = Spec.lower s := by
  simp only [toLowerAscii, Spec.lower]
  apply List.map_congr_left
  intro c _
  simp only [Spec.lowerByte, ← upperLetter_iff]

theorem capAt_iff (s : Bytes) : capAt s = true ↔ ∃ u t, s = u :: t ∧ Spec.Capital u ∧ ∃ l ∈ t.head?, Spec.Small l := by
  match s with
  | [] => simp [capAt]
  | [u] => simp [capAt]
  | u :: l :: t =>
    simp only [capAt, Bool.and_eq_true, upperLetter_iff, lowerLetter_iff]
    constructor
    · rintro ⟨hu, hl⟩
      exact ⟨u, _, rfl, hu, l, by simp, hl⟩
    · rintro ⟨u', t', he, hu, l', hl, hs⟩
      obtain ⟨rfl, rfl⟩ := List.cons.inj he
      simp only [List.head?_cons, Option.mem_some_iff] at hl
      exact ⟨hu, hl ▸ hs⟩

theorem upperAt_iff (s : Bytes) : upperAt s = true ↔ ∃ u t, s = u :: t ∧ Spec.Capital u := by
  match s with
  | [] => simp [upperAt]
  | u :: t => simp [upperAt, upperLetter_iff]

theorem not_small_of_capital {c : UInt8} (h : Spec.Capital c) : ¬ Spec.Small c := by
  simp only [Spec.Capital, Spec.Small] at *
  omega

theorem not_digitByte_of_capital {c : UInt8} (h : Spec.Capital c) : ¬ Spec.DigitByte c := by
  simp only [Spec.Capital, Spec.DigitByte] at *
  omega

/-- The first byte is not changed. -/
theorem firstCap_cons (st : CapState) (c : UInt8) (s : Bytes) : ∃ t, firstCap st (c :: s) = c :: t := by
  cases st <;> simp only [firstCap] <;> (repeat' split) <;> exact ⟨_, rfl⟩

theorem upperAt_firstCap (st : CapState) (s : Bytes) : upperAt (firstCap st s) = upperAt s := by
  cases s with
  | nil => cases st <;> rfl
  | cons c s =>
    obtain ⟨t, ht⟩ := firstCap_cons st c s
    rw [ht]; rfl

theorem allCap_under (s : Bytes) : allCap (95 :: s) = 95 :: allCap s := by
  have h : (lowerLetter 95 || isDigit 95) = false := by decide
  simp [allCap, h]

theorem lower_cons (c : UInt8) (s : Bytes) : Spec.lower (c :: s) = Spec.lowerByte c :: Spec.lower s := rfl

theorem lowerByte_under : Spec.lowerByte 95 = 95 := by decide

instance (c : UInt8) (s : Bytes) : Decidable (∃ u t, s = u :: t ∧ Spec.NewWord c u t) :=
  match s with
  | [] => .isFalse (by simp)
  | u :: t => decidable_of_iff (Spec.NewWord c u t)
    ⟨fun h => ⟨u, t, rfl, h⟩, fun ⟨_, _, he, h⟩ => by obtain ⟨rfl, rfl⟩ := List.cons.inj he; exact h⟩

theorem snake_cons (c : UInt8) (s : Bytes) :
    Spec.snake (c :: s) = Spec.lowerByte c ::
      (if ∃ u t, s = u :: t ∧ Spec.NewWord c u t then 95 :: Spec.snake s else Spec.snake s) := by
  cases s with
  | nil => simp [Spec.snake]
  | cons u t =>
    simp only [Spec.snake]
    by_cases h : Spec.NewWord c u t
    · simp [h]
    · simp [h]

/-- The two passes insert underscores where the rule says; in state `cap` a small letter follows the first one. -/
theorem twoPass (st : CapState) (s : Bytes) (hst : st = .cap → capAt s = true) :
    Spec.lower (allCap (firstCap st s)) = Spec.snake s := by
  induction s generalizing st with
  | nil => cases st <;> rfl
  | cons c s ih =>
    have ihr := ih .run (by simp)
    have ihs := ih .scan (by simp)
    have scanStep : Spec.lower (allCap (if c != 10 && capAt s then c :: 95 :: firstCap .cap s else c :: firstCap .scan s)) =
        Spec.snake (c :: s) := by
      rw [snake_cons]
      by_cases h : (c != 10 && capAt s) = true
      · rw [if_pos h]
        have h' := h
        simp only [Bool.and_eq_true, bne_iff_ne, ne_eq] at h'
        have hc := ih .cap (fun _ => h'.2)
        obtain ⟨u, t, hs, hu, l, hl, hsm⟩ := (capAt_iff s).1 h'.2
        rw [if_pos ⟨u, t, hs, hu, Or.inr (Or.inr ⟨h'.1, l, hl, hsm⟩)⟩]
        have h2 : upperAt (95 :: firstCap .cap s) = false := by
          simp [upperAt, show upperLetter 95 = false from by decide]
        rw [allCap, h2, Bool.and_false, if_neg (by simp), allCap_under, lower_cons, lower_cons, hc, lowerByte_under]
      · rw [if_neg h]
        rw [allCap, upperAt_firstCap]
        by_cases h3 : ((lowerLetter c || isDigit c) && upperAt s) = true
        · rw [if_pos h3]
          simp only [Bool.and_eq_true, Bool.or_eq_true, lowerLetter_iff, digit_iff, upperAt_iff] at h3
          obtain ⟨h3, u, t, hs, hu⟩ := h3
          rw [if_pos ⟨u, t, hs, hu, h3.elim Or.inl fun h => Or.inr (Or.inl h)⟩, lower_cons, lower_cons, ihs, lowerByte_under]
        · rw [if_neg h3, lower_cons, ihs, if_neg]
          rintro ⟨u, t, hs, hu, hw⟩
          apply h3
          simp only [Bool.and_eq_true, Bool.or_eq_true, lowerLetter_iff, digit_iff, upperAt_iff]
          refine ⟨?_, u, t, hs, hu⟩
          rcases hw with hw | hw | ⟨hne, l, hl, hsm⟩
          · exact Or.inl hw
          · exact Or.inr hw
          · exfalso
            apply h
            simp only [Bool.and_eq_true, bne_iff_ne, ne_eq]
            exact ⟨hne, (capAt_iff s).2 ⟨u, t, hs, hu, l, hl, hsm⟩⟩
    cases st with
    | scan => simpa only [firstCap] using scanStep
    | run =>
      simp only [firstCap]
      by_cases hl : lowerLetter c = true
      · rw [if_pos hl, snake_cons, allCap, upperAt_firstCap]
        by_cases h3 : upperAt s = true
        · rw [hl, h3, if_pos (by simp)]
          obtain ⟨u, t, hs, hu⟩ := (upperAt_iff s).1 h3
          rw [if_pos ⟨u, t, hs, hu, Or.inl ((lowerLetter_iff c).1 hl)⟩, lower_cons, lower_cons, ihr, lowerByte_under]
        · rw [if_neg (by simp [h3]), lower_cons, ihr, if_neg]
          rintro ⟨u, t, hs, hu, _⟩
          exact h3 ((upperAt_iff s).2 ⟨u, t, hs, hu⟩)
      · rw [if_neg hl]; exact scanStep
    | cap =>
      obtain ⟨u, t, hs, hu, l, hl, hsm⟩ := (capAt_iff _).1 (hst rfl)
      obtain ⟨rfl, rfl⟩ := List.cons.inj hs
      simp only [firstCap]
      have h3 : upperAt s = false := by
        cases s with
        | nil => rfl
        | cons x s =>
          simp only [List.head?_cons, Option.mem_some_iff] at hl
          subst hl
          have := not_small_of_capital (c := x)
          rw [← upperLetter_iff] at this
          simp only [upperAt]
          cases hx : upperLetter x
          · rfl
          · exact absurd hsm (this hx)
      rw [allCap, upperAt_firstCap, h3, if_neg (by simp), lower_cons, ihr, snake_cons, if_neg]
      rintro ⟨u, t, hs, hu, _⟩
      rw [(upperAt_iff s).2 ⟨u, t, hs, hu⟩] at h3
      cases h3

theorem bare_lowerByte (c : UInt8) : (Spec.lowerByte c ≠ 95 ∧ Spec.lowerByte c ≠ 32) ↔ (c ≠ 95 ∧ c ≠ 32) := by
  simp only [Spec.lowerByte]
  split
  · rename_i h
    simp only [Spec.Capital] at h
    have h1 : (c + 32).toNat = c.toNat + 32 := by
      rw [UInt8.toNat_add]; simp; omega
    simp only [ne_eq, ← UInt8.toNat_inj, h1]
    simp; omega
  · rfl

theorem bare_snake (s : Bytes) : Spec.bare (Spec.snake s) = Spec.lower (Spec.bare s) := by
  induction s with
  | nil => rfl
  | cons c s ih =>
    rw [snake_cons]
    have h : Spec.bare (if ∃ u t, s = u :: t ∧ Spec.NewWord c u t then 95 :: Spec.snake s else Spec.snake s) =
        Spec.lower (Spec.bare s) := by
      split
      · rw [← ih]; simp [Spec.bare]
      · exact ih
    simp only [Spec.bare, List.filter_cons] at h ⊢
    simp only [decide_eq_true_eq, bare_lowerByte]
    by_cases hc : c ≠ 95 ∧ c ≠ 32
    · rw [if_pos hc, if_pos hc, h]; rfl
    · rw [if_neg hc, if_neg hc, h]

theorem toSnakeCase_eq (s : Bytes) : toSnakeCase s = Spec.snake s := by
  rw [toSnakeCase, toLowerAscii_eq, twoPass _ _ (by simp)]

/-- Within a word and at its end nothing is inserted. -/
theorem snake_append_small (w : Bytes) (hw : ∀ c ∈ w, Spec.Small c ∨ Spec.DigitByte c) (hne : w ≠ []) (u : UInt8) (t : Bytes)
    (hu : Spec.Capital u) : Spec.snake (w ++ u :: t) = w ++ 95 :: Spec.snake (u :: t) := by
  have low : ∀ c : UInt8, Spec.Small c ∨ Spec.DigitByte c → Spec.lowerByte c = c := by
    intro c hc
    rw [Spec.lowerByte, if_neg]
    intro h
    rcases hc with hc | hc
    · exact not_small_of_capital h hc
    · exact not_digitByte_of_capital h hc
  induction w with
  | nil => exact absurd rfl hne
  | cons c w ih =>
    rw [List.cons_append, snake_cons, low c (hw c (by simp))]
    cases w with
    | nil =>
      rw [List.nil_append, if_pos]
      · rfl
      · refine ⟨u, t, rfl, hu, ?_⟩
        exact (hw c (by simp)).elim Or.inl fun h => Or.inr (Or.inl h)
    | cons d w =>
      rw [if_neg, ih (fun x hx => hw x (List.mem_cons_of_mem _ hx)) (by simp)]
      · rfl
      · rintro ⟨u', t', he, hu', _⟩
        obtain ⟨rfl, _⟩ := List.cons.inj he
        rcases hw d (by simp) with hd | hd
        · exact not_small_of_capital hu' hd
        · exact not_digitByte_of_capital hu' hd

theorem lower_small (w : Bytes) (hw : ∀ c ∈ w, Spec.Small c ∨ Spec.DigitByte c) : Spec.lower w = w := by
  induction w with
  | nil => rfl
  | cons c w ih =>
    rw [lower_cons, ih (fun x hx => hw x (List.mem_cons_of_mem _ hx)), Spec.lowerByte, if_neg]
    intro h
    rcases hw c (by simp) with hc | hc
    · exact not_small_of_capital h hc
    · exact not_digitByte_of_capital h hc

theorem snake_small (w : Bytes) (hw : ∀ c ∈ w, Spec.Small c ∨ Spec.DigitByte c) : Spec.snake w = w := by
  induction w with
  | nil => rfl
  | cons c w ih =>
    have hl : Spec.lowerByte c = c := by
      have := lower_small [c] (by simpa using hw c (by simp))
      simpa [Spec.lower] using this
    rw [snake_cons, ih (fun x hx => hw x (List.mem_cons_of_mem _ hx)), hl, if_neg]
    rintro ⟨u', t', he, hu', _⟩
    subst he
    rcases hw u' (by simp) with hd | hd
    · exact not_small_of_capital hu' hd
    · exact not_digitByte_of_capital hu' hd

theorem snake_camel (ws : List Bytes) (h : ∀ w ∈ ws, Spec.CamelWord w) :
    Spec.snake ws.flatten = [95].intercalate (ws.map Spec.lower) := by
  induction ws with
  | nil => rfl
  | cons w ws ih =>
    obtain ⟨u, t, rfl, hu, hne, ht⟩ := h w (by simp)
    have ih := ih (fun x hx => h x (List.mem_cons_of_mem _ hx))
    have nohead : ∀ s, ¬ ∃ u' t', t ++ s = u' :: t' ∧ Spec.NewWord u u' t' := by
      rintro s ⟨u', t', he, hu', _⟩
      obtain ⟨d, t, rfl⟩ := List.exists_cons_of_ne_nil hne
      obtain ⟨rfl, _⟩ := List.cons.inj he
      rcases ht d (by simp) with hd | hd
      · exact not_small_of_capital hu' hd
      · exact not_digitByte_of_capital hu' hd
    cases ws with
    | nil =>
      have := nohead []
      rw [List.append_nil] at this
      rw [show ([u :: t] : List Bytes).flatten = u :: t by simp, snake_cons, if_neg this, snake_small t ht]
      simp [List.intercalate, lower_cons, lower_small t ht]
    | cons w' ws =>
      obtain ⟨u', t', rfl, hu', hne', ht'⟩ := h w' (by simp)
      rw [List.flatten_cons, List.cons_append, snake_cons, if_neg (nohead _)]
      have e : (((u' :: t') :: ws).flatten) = u' :: (t' ++ ws.flatten) := by simp
      rw [e, snake_append_small t ht hne _ _ hu', ← e, ih]
      simp [List.intercalate, lower_cons, lower_small t ht]

/-! ### Names of fields and types -/

theorem name_bare (f : F) : Spec.bare f.name = f.name := by
  cases f <;> decide +kernel

theorem bare_name (f : F) : Spec.bare (toSnakeCase f.name) = Spec.lower f.name := by
  rw [toSnakeCase_eq, bare_snake, name_bare]

theorem text_eq (n : Sort14) : n.text = Spec.ownName n := by
  rcases n with e | e | e | k
  · cases e <;> decide
  · cases e <;> decide
  · cases e <;> decide
  · cases k <;> decide

/-- All field names. -/
def fieldNames : List F :=
  [ .BlockDescriptorWord, .RecordDescriptorWord, .ProcessingIndicator, .TimeStamp, .CorrectionIndicator, .IdentificationNumber,
    .CycleIdentifier, .ConsumerAccountNumber, .PortfolioType, .AccountType, .DateOpened, .CreditLimit, .HighestCredit, .TermsDuration,
    .TermsFrequency, .ScheduledMonthlyPaymentAmount, .ActualPaymentAmount, .AccountStatus, .PaymentRating, .PaymentHistoryProfile,
    .SpecialComment, .ComplianceConditionCode, .CurrentBalance, .AmountPastDue, .OriginalChargeOffAmount, .DateAccountInformation,
    .DateFirstDelinquency, .DateClosed, .DateLastPayment, .InterestTypeIndicator, .Surname, .FirstName, .MiddleName, .GenerationCode,
    .SocialSecurityNumber, .DateBirth, .TelephoneNumber, .ECOACode, .ConsumerInformationIndicator, .CountryCode, .FirstLineAddress,
    .SecondLineAddress, .City, .State, .ZipCode, .AddressIndicator, .ResidenceCode, .RecordIdentifier, .InnovisProgramIdentifier,
    .EquifaxProgramIdentifier, .ExperianProgramIdentifier, .TransUnionProgramIdentifier, .ActivityDate, .DateCreated, .ProgramDate,
    .ProgramRevisionDate, .ReporterName, .ReporterAddress, .ReporterTelephoneNumber, .SoftwareVendorName, .SoftwareVersionNumber,
    .PRBCProgramIdentifier, .TotalBaseRecords, .TotalStatusCodeDF, .TotalConsumerSegmentsJ1, .TotalConsumerSegmentsJ2, .BlockCount,
    .TotalStatusCodeDA, .TotalStatusCode05, .TotalStatusCode11, .TotalStatusCode13, .TotalStatusCode61, .TotalStatusCode62,
    .TotalStatusCode63, .TotalStatusCode64, .TotalStatusCode65, .TotalStatusCode71, .TotalStatusCode78, .TotalStatusCode80,
    .TotalStatusCode82, .TotalStatusCode83, .TotalStatusCode84, .TotalStatusCode88, .TotalStatusCode89, .TotalStatusCode93,
    .TotalStatusCode94, .TotalStatusCode95, .TotalStatusCode96, .TotalStatusCode97, .TotalECOACodeZ, .TotalEmploymentSegments,
    .TotalOriginalCreditorSegments, .TotalPurchasedToSegments, .TotalMortgageInformationSegments, .TotalPaymentInformationSegments,
    .TotalChangeSegments, .TotalSocialNumbersAllSegments, .TotalSocialNumbersBaseSegments, .TotalSocialNumbersJ1Segments,
    .TotalSocialNumbersJ2Segments, .TotalDatesBirthAllSegments, .TotalDatesBirthBaseSegments, .TotalDatesBirthJ1Segments,
    .TotalDatesBirthJ2Segments, .TotalTelephoneNumbersAllSegments, .SegmentIdentifier, .OriginalCreditorName, .CreditorClassification,
    .PurchasedIndicator, .PurchasedName, .AgencyIdentifier, .AccountNumber, .MortgageIdentificationNumber,
    .SpecializedPaymentIndicator, .DeferredPaymentStartDate, .BalloonPaymentDueDate, .BalloonPaymentAmount, .ChangeIndicator,
    .NewConsumerAccountNumber, .NewIdentificationNumber, .EmployerName, .FirstLineEmployerAddress, .SecondLineEmployerAddress,
    .EmployerCity, .EmployerState, .Occupation, .Reserved2, .Reserved, .Reserved1 ]

/-- The field with the given name in small letters. -/
def fieldNamed (s : Bytes) : Option F := fieldNames.find? fun f => decide (Spec.lower f.name = s)

theorem fieldNamed_lower (f : F) : fieldNamed (Spec.lower f.name) = some f := by
  cases f <;> decide +kernel

theorem lower_name_inj {f g : F} (h : Spec.lower f.name = Spec.lower g.name) : f = g := by
  have := fieldNamed_lower f
  rw [h, fieldNamed_lower g] at this
  exact (Option.some.inj this).symm

/-- All types. -/
def allSorts : List Sort14 :=
  [.header .character, .header .packed, .base .character, .base .packed, .trailer .character, .trailer .packed] ++
    SegKind.all.map .seg

theorem mem_allSorts (n : Sort14) : n ∈ allSorts := by
  rcases n with e | e | e | k
  · cases e <;> decide
  · cases e <;> decide
  · cases e <;> decide
  · cases k <;> decide

/-- All faults. -/
def allFaults : List Spec.Fault := [.invalid, .missing, .phone, .numeric, .alphanumeric, .upper]

theorem mem_allFaults (x : Spec.Fault) : x ∈ allFaults := by cases x <;> decide

/-- The end of a text about a field. -/
def ending (n : Sort14) (x : Spec.Fault) : Bytes := b! " in " ++ Spec.ownName n ++ x.words

/-- All endings. -/
def endings : List (Sort14 × Spec.Fault) := allSorts.flatMap fun n => allFaults.map fun x => (n, x)

theorem endings_free : endings.all (fun p => endings.all fun q =>
    p = q || !(ending p.1 p.2).isSuffixOf (ending q.1 q.2)) = true := by
  decide +kernel

theorem ending_inj {n m : Sort14} {x y : Spec.Fault} (h : ending n x <:+ ending m y) : n = m ∧ x = y := by
  have hp : (n, x) ∈ endings := by
    simp only [endings, List.mem_flatMap, List.mem_map]
    exact ⟨n, mem_allSorts n, x, mem_allFaults x, rfl⟩
  have hq : (m, y) ∈ endings := by
    simp only [endings, List.mem_flatMap, List.mem_map]
    exact ⟨m, mem_allSorts m, y, mem_allFaults y, rfl⟩
  have h1 := List.all_eq_true.1 (List.all_eq_true.1 endings_free _ hp) _ hq
  simp only [Bool.or_eq_true, decide_eq_true_eq, Bool.not_eq_true', Prod.mk.injEq] at h1
  rcases h1 with h1 | h1
  · exact h1
  · rw [List.isSuffixOf_iff_suffix.2 h] at h1
    cases h1

theorem says_unique {msg : Bytes} {f g : F} {n m : Sort14} {x y : Spec.Fault} (h1 : Spec.Accuses msg f n x)
    (h2 : Spec.Accuses msg g m y) : f = g ∧ n = m ∧ x = y := by
  obtain ⟨w, e1, b1⟩ := h1
  obtain ⟨v, e2, b2⟩ := h2
  have e1' : msg = w ++ ending n x := by rw [e1]; simp [ending]
  have e2' : msg = v ++ ending m y := by rw [e2]; simp [ending]
  have s1 : ending n x <:+ msg := ⟨w, e1'.symm⟩
  have s2 : ending m y <:+ msg := ⟨v, e2'.symm⟩
  have key : n = m ∧ x = y := by
    rcases List.suffix_or_suffix_of_suffix s1 s2 with h | h
    · exact ending_inj h
    · exact ⟨(ending_inj h).1.symm, (ending_inj h).2.symm⟩
  obtain ⟨rfl, rfl⟩ := key
  have : w = v := List.append_cancel_right (e1'.symm.trans e2')
  subst this
  exact ⟨lower_name_inj (b1.symm.trans b2), rfl, rfl⟩

/-! ### Texts of Validate -/

theorem says_required (f : F) (n : Sort14) : Spec.Accuses (errFieldRequired f.name n.text) f n .missing :=
  ⟨_, by rw [errFieldRequired, text_eq]; rfl, bare_name f⟩

theorem says_invalid (f : F) (n : Sort14) : Spec.Accuses (errInvalidValueOfField f.name n.text) f n .invalid :=
  ⟨_, by rw [errInvalidValueOfField, text_eq]; rfl, bare_name f⟩

theorem says_phone (n : Sort14) : Spec.Accuses (errPhoneNumber n.text) .TelephoneNumber n .phone :=
  ⟨b! "telephone number", by rw [errPhoneNumber, text_eq]; simp [Spec.Fault.words], by decide +kernel⟩

/-- The literals in the custom validators. -/
theorem customNames_says {n : Sort14} {f : F} {p : Bytes × Bytes} (h : customNames n f = some p) :
    if Spec.Misnamed n f then Spec.Accuses (errInvalidValueOfField p.1 p.2) f (.base .character) .invalid
    else Spec.Accuses (errInvalidValueOfField p.1 p.2) f n .invalid := by
  unfold customNames at h
  split at h <;> first
    | (cases h; done)
    | (obtain rfl := Option.some.inj h
       split
       · rename_i hm
         first
           | (refine absurd hm ?_; decide)
           | (refine ⟨_, rfl, ?_⟩; decide +kernel)
       · rename_i hm
         first
           | (refine absurd ?_ hm; decide)
           | (refine ⟨_, rfl, ?_⟩; decide +kernel))

theorem baseCustom_cases {enc : Enc} {fs : Fields} {f : F} {err : Err} (h : baseCustom enc fs f = some err) :
    (err = .phone ∧ f = .TelephoneNumber) ∨ (err = .invalidValue f ∧ (customNames (.base enc) f).isSome = true) := by
  cases enc <;> unfold baseCustom at h <;> (repeat' split at h) <;>
    first
    | (cases h; done)
    | (simp only [check, isPhoneNumber] at h
       split at h
       · cases h
       · obtain rfl := Option.some.inj h
         first
           | exact Or.inl ⟨rfl, rfl⟩
           | exact Or.inr ⟨rfl, rfl⟩)

theorem segCustom_cases {k : SegKind} {fs : Fields} {f : F} {err : Err} (h : segCustom k fs f = some err) :
    (err = .phone ∧ f = .TelephoneNumber) ∨ (err = .invalidValue f ∧ (customNames (.seg k) f).isSome = true) := by
  unfold segCustom at h
  split at h <;>
    first
    | (cases h; done)
    | (simp only [check, isPhoneNumber] at h
       split at h
       · cases h
       · obtain rfl := Option.some.inj h
         first
           | exact Or.inl ⟨rfl, rfl⟩
           | exact Or.inr ⟨rfl, rfl⟩)

theorem validateLoop_cases {fmt : Format} {custom : F → Option Err} {fs : Fields} {err : Err}
    (h : validateLoop fmt custom fs = some err) :
    (∃ p ∈ fs, err = .required p.1 ∧ missing fmt p.1 p.2 = true) ∨ ∃ p ∈ fs, custom p.1 = some err := by
  induction fs with
  | nil => cases h
  | cons p fs ih =>
    obtain ⟨f, v⟩ := p
    simp only [validateLoop] at h
    by_cases hm : missing fmt f v = true
    · rw [if_pos hm] at h
      obtain rfl := Option.some.inj h
      exact Or.inl ⟨(f, v), by simp, rfl, hm⟩
    · rw [if_neg hm] at h
      cases hc : custom f with
      | some e =>
        rw [hc] at h
        obtain rfl := Option.some.inj h
        exact Or.inr ⟨(f, v), by simp, hc⟩
      | none =>
        rw [hc] at h
        rcases ih h with ⟨q, hq, hr⟩ | ⟨q, hq, hr⟩
        · exact Or.inl ⟨q, List.mem_cons_of_mem _ hq, hr⟩
        · exact Or.inr ⟨q, List.mem_cons_of_mem _ hq, hr⟩

/-- What the text says: the truth, apart from the misnamed ones. -/
def TextSays (n : Sort14) (err : Err) (text : Option Bytes) : Prop :=
  ∃ f x msg, Spec.faultOf err = some (f, x) ∧ text = some msg ∧
    if x = .invalid ∧ Spec.Misnamed n f then Spec.Accuses msg f (.base .character) x else Spec.Accuses msg f n x

theorem validateText_required (n : Sort14) (f : F) : TextSays n (.required f) (n.validateText (.required f)) :=
  ⟨f, .missing, _, rfl, rfl, by rw [if_neg (by simp)]; exact says_required f n⟩

theorem validateText_phone (n : Sort14) : TextSays n .phone (n.validateText .phone) :=
  ⟨.TelephoneNumber, .phone, _, rfl, rfl, by rw [if_neg (by simp)]; exact says_phone n⟩

theorem validateText_invalid {n : Sort14} {f : F} (h : (customNames n f).isSome = true) :
    TextSays n (.invalidValue f) (n.validateText (.invalidValue f)) := by
  obtain ⟨p, hp⟩ := Option.isSome_iff_exists.1 h
  refine ⟨f, .invalid, _, rfl, by simp only [Sort14.validateText, hp]; rfl, ?_⟩
  have := customNames_says hp
  simpa using this

theorem record_validate_text {r : Record} {err : Err} (h : r.validate = some err) :
    TextSays r.sort err (r.sort.validateText err) := by
  cases r with
  | header enc fs =>
    rcases validateLoop_cases h with ⟨p, _, rfl, _⟩ | ⟨p, _, hc⟩
    · exact validateText_required _ _
    · cases hc
  | trailer enc fs =>
    rcases validateLoop_cases h with ⟨p, _, rfl, _⟩ | ⟨p, _, hc⟩
    · exact validateText_required _ _
    · cases hc
  | base enc fs g =>
    rcases validateLoop_cases h with ⟨p, _, rfl, _⟩ | ⟨p, _, hc⟩
    · exact validateText_required _ _
    · rcases baseCustom_cases hc with ⟨rfl, _⟩ | ⟨rfl, hs⟩
      · exact validateText_phone _
      · exact validateText_invalid hs

theorem seg_validate_text {s : Seg} {err : Err} (h : s.validate = some err) :
    TextSays (.seg s.kind) err ((Sort14.seg s.kind).validateText err) := by
  rcases validateLoop_cases h with ⟨p, _, rfl, _⟩ | ⟨p, _, hc⟩
  · exact validateText_required _ _
  · rcases segCustom_cases hc with ⟨rfl, _⟩ | ⟨rfl, hs⟩
    · exact validateText_phone _
    · exact validateText_invalid hs

theorem firstInvalid_text {rs : List Record} {err : Err} (h : firstInvalid rs = some err) :
    ∃ r ∈ rs, r.validate = some err ∧ firstInvalidText rs = r.sort.validateText err := by
  induction rs with
  | nil => cases h
  | cons r rs ih =>
    simp only [firstInvalid] at h
    cases hr : r.validate with
    | some e =>
      rw [hr] at h
      obtain rfl := Option.some.inj h
      exact ⟨r, by simp, hr, by simp only [firstInvalidText, hr]⟩
    | none =>
      rw [hr] at h
      obtain ⟨q, hq, hv, ht⟩ := ih h
      exact ⟨q, List.mem_cons_of_mem _ hq, hv, by simp only [firstInvalidText, hr]; exact ht⟩

theorem compareTotals_cases {trailer info : Fields} {err : Err} (h : compareTotals trailer info = some err) :
    ∃ f, err = .invalidValue f := by
  induction info with
  | nil => cases h
  | cons p info ih =>
    obtain ⟨f, v⟩ := p
    simp only [compareTotals] at h
    split at h
    · exact ih h
    · split at h
      · exact ⟨f, (Option.some.inj h).symm⟩
      · split at h
        · exact ih h
        · exact ⟨f, (Option.some.inj h).symm⟩

theorem generatorLoop_panic {enc : Enc} {rs : List Record} {info : Fields} {e : Err} (h : generatorLoop enc rs info = .error e) :
    e = .panic := by
  induction rs generalizing info with
  | nil => cases h
  | cons r rs ih =>
    cases r with
    | base enc' fs g =>
      simp only [generatorLoop] at h
      split at h
      · exact ih h
      · exact (Except.error.inj h).symm
    | header enc' fs => exact (Except.error.inj h).symm
    | trailer enc' fs => exact (Except.error.inj h).symm

theorem generatorTrailer_panic {enc : Enc} {rs : List Record} {e : Err} (h : generatorTrailer enc rs = .error e) : e = .panic :=
  generatorLoop_panic h

/-! ### Texts of Parse -/

theorem isValidType_cases {e : Field} {f : F} {data : Bytes} {err : Err} (h : isValidType e f data = some err) :
    err = .required f ∨ err = .numeric f ∨ err = .nonAlphanumeric f ∨ err = .upperAlpha f := by
  simp only [isValidType] at h
  cases hr : requiredCheck e f data with
  | some e' =>
    rw [hr] at h
    obtain rfl := Option.some.inj h
    simp only [requiredCheck] at hr
    (repeat' split at hr) <;> first | (cases hr; done) | exact Or.inl (Option.some.inj hr).symm
  | none =>
    rw [hr] at h
    simp only [isNumeric, isAlphanumeric, isUpperAlphanumeric] at h
    split at h
    · split at h
      · cases h
      · exact Or.inr (Or.inl (Option.some.inj h).symm)
    · split at h
      · exact Or.inr (Or.inr (Or.inl (Option.some.inj h).symm))
      · cases h
    · split at h
      · exact Or.inr (Or.inr (Or.inr (Option.some.inj h).symm))
      · cases h
    all_goals cases h

end Metro2
