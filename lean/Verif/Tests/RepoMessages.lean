import Verif.Model.Messages

/-!
The error texts that the repository's own tests expect, evaluated on the model. These are tests of the model, not proofs about the code.
-/

namespace Metro2.Tests

/-- /repo/pkg/lib/base_segment_test.go:89, 99, 109, 119, 196, 206, 216, 226, 409, 419, 429, 439, 477, 487; j1_segment_test.go:60; j2_segment_test.go:40, 87, 97; kn_segment_test.go:37, 64, 75, 102, 113, 140; l1_segment_test.go:38, 49, 59. -/
example : ∀ t ∈ ([
    (.base .character, .PortfolioType, b! "portfolio type in base segment has an invalid value"),
    (.base .character, .TermsDuration, b! "terms duration in base segment has an invalid value"),
    (.base .character, .PaymentHistoryProfile, b! "payment history profile in base segment has an invalid value"),
    (.base .character, .InterestTypeIndicator, b! "interest type indicator in base segment has an invalid value"),
    (.base .packed, .PortfolioType, b! "portfolio type in packed base segment has an invalid value"),
    (.base .packed, .TermsDuration, b! "terms duration in packed base segment has an invalid value"),
    (.base .packed, .PaymentHistoryProfile, b! "payment history profile in packed base segment has an invalid value"),
    (.base .packed, .InterestTypeIndicator, b! "interest type indicator in packed base segment has an invalid value"),
    (.base .character, .AccountStatus, b! "account status in base segment has an invalid value"),
    (.base .packed, .AccountStatus, b! "account status in packed base segment has an invalid value"),
    (.base .character, .AccountType, b! "account type in base segment has an invalid value"),
    (.base .packed, .AccountType, b! "account type in packed base segment has an invalid value"),
    (.base .character, .SpecialComment, b! "special comment in base segment has an invalid value"),
    (.base .packed, .SpecialComment, b! "special comment in packed base segment has an invalid value"),
    (.seg .j1, .GenerationCode, b! "generation code in j1 segment has an invalid value"),
    (.seg .j2, .GenerationCode, b! "generation code in j2 segment has an invalid value"),
    (.seg .j2, .AddressIndicator, b! "address indicator in j2 segment has an invalid value"),
    (.seg .j2, .ResidenceCode, b! "residence code in j2 segment has an invalid value"),
    (.seg .k1, .CreditorClassification, b! "creditor classification in k1 segment has an invalid value"),
    (.seg .k2, .PurchasedIndicator, b! "purchased indicator in k2 segment has an invalid value"),
    (.seg .k2, .PurchasedName, b! "purchased name in k2 segment has an invalid value"),
    (.seg .k3, .AgencyIdentifier, b! "agency identifier in k3 segment has an invalid value"),
    (.seg .k3, .AccountNumber, b! "account number in k3 segment has an invalid value"),
    (.seg .k4, .SpecializedPaymentIndicator, b! "specialized payment indicator in k4 segment has an invalid value"),
    (.seg .l1, .NewConsumerAccountNumber, b! "new consumer account number in l1 segment has an invalid value"),
    (.seg .l1, .NewIdentificationNumber, b! "new identification number in l1 segment has an invalid value"),
    (.seg .l1, .ChangeIndicator, b! "change indicator in l1 segment has an invalid value")] : List (Sort14 × F × Bytes)),
    t.1.validateText (.invalidValue t.2.1) = some t.2.2 := by
  decide +kernel

end Metro2.Tests
