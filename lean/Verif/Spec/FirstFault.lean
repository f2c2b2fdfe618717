import Verif.Spec.Rules
import Verif.Spec.Totals

/-! The rules field by field, and what it means that an error is about the first fault. -/

namespace Metro2.Spec

/-- The rule for the value of one field of a data record (the mandatory fields apart). -/
def baseRule (history : List UInt8) (fs : Fields) : F → Prop
  | .CorrectionIndicator => Between fs .CorrectionIndicator 0 1
  | .IdentificationNumber => ∀ s, (.IdentificationNumber, .str s) ∈ fs → ¬ Filler s
  | .PortfolioType => OneOf fs .PortfolioType portfolioCodes
  | .TermsDuration => ∀ s, (.TermsDuration, .str s) ∈ fs →
      s = b! "LOC" ∨ s = b! "REV" ∨ ∃ v : Int, SignedDecimal s v ∧ -(2 ^ 63) ≤ v ∧ v < 2 ^ 63
  | .TermsFrequency => OneOf fs .TermsFrequency ([] :: frequencyCodes)
  | .PaymentRating => ∀ st r, (.AccountStatus, .str st) ∈ fs → (.PaymentRating, .str r) ∈ fs →
      (st ∈ finalStatuses → r ∈ ratingCodes) ∧ (st ∉ finalStatuses → r = [])
  | .PaymentHistoryProfile => ∀ s, (.PaymentHistoryProfile, .str s) ∈ fs → s.length = 24 ∧ ∀ c ∈ s, c ∈ history
  | .InterestTypeIndicator => OneOf fs .InterestTypeIndicator ([] :: interestCodes)
  | .SocialSecurityNumber => Identified fs fun e => e = b! "2" ∨ e = b! "5"
  | .DateBirth => Identified fs fun e => e = b! "2" ∨ e = b! "5"
  | .AccountStatus => OneOf fs .AccountStatus statusCodes
  | .AccountType => OneOf fs .AccountType accountCodes
  | .SpecialComment => OneOf fs .SpecialComment commentCodes
  | _ => True

/-- The rule for the value of one field of a segment. -/
def segmentRule (k : SegKind) (fs : Fields) (f : F) : Prop :=
  match k, f with
  | .j1, .GenerationCode => OneOf fs .GenerationCode ([] :: nameSuffixes)
  | .j1, .SocialSecurityNumber => Identified fs fun _ => False
  | .j1, .DateBirth => Identified fs fun _ => False
  | .j2, .GenerationCode => OneOf fs .GenerationCode ([] :: nameSuffixes)
  | .j2, .SocialSecurityNumber => Identified fs fun e => e = b! "w" ∨ e = b! "W"
  | .j2, .DateBirth => Identified fs fun e => e = b! "w" ∨ e = b! "W"
  | .j2, .AddressIndicator => OneOf fs .AddressIndicator ([] :: b! " " :: addressCodes)
  | .j2, .ResidenceCode => OneOf fs .ResidenceCode ([] :: b! " " :: residences)
  | .k1, .CreditorClassification => Between fs .CreditorClassification 1 15
  | .k2, .PurchasedIndicator => ∀ i, (.PurchasedIndicator, .int i) ∈ fs → i = 1 ∨ i = 2 ∨ i = 9
  | .k2, .PurchasedName => FillerIf fs .PurchasedIndicator 9 .PurchasedName
  | .k3, .AgencyIdentifier => Between fs .AgencyIdentifier 0 2
  | .k3, .AccountNumber => FillerIf fs .AgencyIdentifier 0 .AccountNumber
  | .k4, .SpecializedPaymentIndicator => Between fs .SpecializedPaymentIndicator 1 2
  | .l1, .ChangeIndicator => Between fs .ChangeIndicator 1 3
  | .l1, .NewConsumerAccountNumber => FillerIf fs .ChangeIndicator 2 .NewConsumerAccountNumber
  | .l1, .NewIdentificationNumber => FillerIf fs .ChangeIndicator 1 .NewIdentificationNumber
  | _, _ => True

/-- The error is about the first field, in the order of the declaration, that is mandatory but not present or breaks its rule; it says
which of the two. -/
def FirstFault (mandatory : List F) (rule : F → Prop) (fs : Fields) (e : Err) : Prop :=
  ∃ before f v after, fs = before ++ (f, v) :: after ∧
    (∀ p ∈ before, (p.1 ∈ mandatory → Present p.2) ∧ rule p.1) ∧
    ((f ∈ mandatory ∧ ¬ Present v ∧ e = .required f) ∨ ((f ∈ mandatory → Present v) ∧ ¬ rule f ∧ e = .invalidValue f))

/-- The error is that of the first invalid record. -/
def FirstInvalid (rs : List Record) (e : Err) : Prop :=
  ∃ before r after, rs = before ++ r :: after ∧ (∀ r' ∈ before, r'.validate = none) ∧ r.validate = some e

/-- The error is about the first total, in the order of the declaration, that differs from what is counted. -/
def FirstWrongTotal (trailer : Fields) (bases : List Record) (e : Err) : Prop :=
  ∃ before t after, trailerRecordStruct.map Prod.fst = before ++ t :: after ∧ t ∈ totals ∧
    (∀ t' ∈ before, t' ∈ totals → trailer.get t' = some (.int (total t' bases))) ∧
    trailer.get t ≠ some (.int (total t bases)) ∧ e = .invalidValue t

end Metro2.Spec
