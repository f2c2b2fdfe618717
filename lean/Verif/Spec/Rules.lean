import Verif.Spec.Text
import Verif.Spec.Reread

/-!
Field rules: which fields must be present and which values coded fields may have. The code lists are those of the
constants declared in /repo/pkg/lib/constants.go, grouped by the prefix of their names (extracted by script from the declarations, while
the lists of the model come from the `case` lists of the validators). The mandatory fields are listed by name.
-/

namespace Metro2.Spec

/-- The constants `PortfolioType...`, /repo/pkg/lib/constants.go:14-24. -/
def portfolioCodes : List (List UInt8) := [b! "C", b! "I", b! "M", b! "O", b! "R", b! "L"]

/-- The constants `TermsFrequency...`, /repo/pkg/lib/constants.go:36-56. -/
def frequencyCodes : List (List UInt8) := [b! "D", b! "P", b! "W", b! "B", b! "E", b! "M", b! "L", b! "Q", b! "T",
  b! "S", b! "Y"]

/-- The constants `PaymentRating...`, /repo/pkg/lib/constants.go:59-83. -/
def ratingCodes : List (List UInt8) := [b! "0", b! "1", b! "2", b! "3", b! "4", b! "5", b! "6", b! "G", b! "L"]

/-- The constants `AccountStatus...`, /repo/pkg/lib/constants.go:119-163. -/
def statusCodes : List (List UInt8) := [b! "DF", b! "DA", b! "11", b! "61", b! "62", b! "63", b! "64", b! "71",
  b! "78", b! "80", b! "82", b! "83", b! "84", b! "93", b! "96", b! "97", b! "05", b! "13", b! "65", b! "88",
  b! "89", b! "94", b! "95"]

/-- The constants `AccountType...`, /repo/pkg/lib/constants.go:265-389. -/
def accountCodes : List (List UInt8) := [b! "00", b! "01", b! "02", b! "03", b! "04", b! "05", b! "06", b! "07",
  b! "08", b! "0A", b! "0C", b! "0F", b! "0G", b! "10", b! "11", b! "12", b! "13", b! "15", b! "17", b! "18",
  b! "19", b! "20", b! "25", b! "26", b! "29", b! "2A", b! "2C", b! "37", b! "3A", b! "43", b! "47", b! "48",
  b! "4D", b! "50", b! "5A", b! "5B", b! "65", b! "66", b! "67", b! "68", b! "69", b! "6A", b! "6B", b! "6D",
  b! "70", b! "71", b! "72", b! "73", b! "74", b! "75", b! "77", b! "7A", b! "7B", b! "89", b! "8A", b! "8B",
  b! "90", b! "91", b! "92", b! "93", b! "95", b! "9A", b! "9B"]

/-- The constants `InterestIndicator...`, /repo/pkg/lib/constants.go:165-167. -/
def interestCodes : List (List UInt8) := [b! "F", b! "V"]

/-- The constants `GenerationCode...`, /repo/pkg/lib/constants.go:175-193. -/
def nameSuffixes : List (List UInt8) := [b! "J", b! "S", b! "2", b! "3", b! "4", b! "5", b! "6", b! "7", b! "8",
  b! "9"]

/-- The constants `AddressIndicator...`, /repo/pkg/lib/constants.go:195-211. -/
def addressCodes : List (List UInt8) := [b! "C", b! "Y", b! "N", b! "M", b! "S", b! "B", b! "U", b! "D", b! "P"]

/-- The constants `ResidenceCode...`, /repo/pkg/lib/constants.go:213-215. -/
def residences : List (List UInt8) := [b! "O", b! "R"]

/-- The constants `SpecialCommentCode...`, /repo/pkg/lib/constants.go:391-493. -/
def commentCodes : List (List UInt8) := [[], b! "B", b! "C", b! "H", b! "I", b! "M", b! "O", b! "S", b! "V", b! "AB",
  b! "AC", b! "AH", b! "AI", b! "AM", b! "AN", b! "AO", b! "AP", b! "AS", b! "AT", b! "AU", b! "AV", b! "AW",
  b! "AX", b! "AZ", b! "BA", b! "BB", b! "BC", b! "BD", b! "BE", b! "BF", b! "BG", b! "BH", b! "BI", b! "BJ",
  b! "BK", b! "BL", b! "BN", b! "BO", b! "BP", b! "BS", b! "BT", b! "CH", b! "CI", b! "CJ", b! "CK", b! "CL",
  b! "CM", b! "CN", b! "CO", b! "CP", b! "CS", b! "DE"]

/-- The constants `PaymentHistory...`, /repo/pkg/lib/constants.go:85-117. -/
def historyCodes : List UInt8 := b! "0123456BDEGHJKLZ "

/-- Account statuses of paid, closed or transferred accounts, which come with a payment rating
(/repo/pkg/lib/base_segment.go:180-189). -/
def finalStatuses : List (List UInt8) := [b! "05", b! "13", b! "65", b! "88", b! "89", b! "94", b! "95"]

/-- A value is present: not zero, not empty, not the zero time. -/
def Present : Val → Prop
  | .int i => i ≠ 0
  | .str s => s ≠ []
  | .time t => ¬ (t.isZero = true ∧ t.loc = .utc)

/-- Zeros only, nines only, or blanks only (perhaps nothing at all). -/
def Filler (s : List UInt8) : Prop := ∃ c ∈ ['0', '9', ' '], ∀ x ∈ s, x = c.toNat.toUInt8

/-- Blank if the indicator has the given value. -/
def FillerIf (fs : Fields) (indicator : F) (value : Int) (f : F) : Prop :=
  (indicator, .int value) ∈ fs → ∀ s, (f, .str s) ∈ fs → Filler s

/-- The string field has one of the values. -/
def OneOf (fs : Fields) (f : F) (codes : List (List UInt8)) : Prop := ∀ s, (f, .str s) ∈ fs → s ∈ codes

/-- The number field lies between two values. -/
def Between (fs : Fields) (f : F) (lo hi : Int) : Prop := ∀ i, (f, .int i) ∈ fs → lo ≤ i ∧ i ≤ hi

/-- The mandatory fields are present. -/
def AllPresent (names : List F) (fs : Fields) : Prop := ∀ f ∈ names, ∀ v, (f, v) ∈ fs → Present v

/-- The social security number or the date of birth is reported, unless `exempt` holds of the ECOA code. -/
def Identified (fs : Fields) (exempt : List UInt8 → Prop) : Prop :=
  ∀ n t e, (.SocialSecurityNumber, .int n) ∈ fs → (.DateBirth, .time t) ∈ fs → (.ECOACode, .str e) ∈ fs →
    n = 0 → t.isZero = true → exempt e

/-- Fields with the struct tag `validate:"required"`: /repo/pkg/lib/header_record.go:21-101. -/
def taggedHeader : List F := [.RecordDescriptorWord, .RecordIdentifier, .ActivityDate, .DateCreated, .ReporterName,
  .ReporterAddress]
/-- /repo/pkg/lib/base_segment.go:24-512. -/
def taggedBase : List F := [.RecordDescriptorWord, .IdentificationNumber, .ConsumerAccountNumber, .AccountType,
  .TermsDuration, .AccountStatus, .PaymentHistoryProfile, .DateAccountInformation, .Surname, .FirstName, .ECOACode,
  .FirstLineAddress, .City, .State, .ZipCode]
/-- /repo/pkg/lib/trailer_record.go:21-165. -/
def taggedTrailer : List F := [.RecordDescriptorWord, .RecordIdentifier, .TotalBaseRecords]
/-- The tags of the segments. -/
def taggedSegment : SegKind → List F
  | .j1 => [.SegmentIdentifier, .Surname, .FirstName, .ECOACode]
  | .j2 => [.SegmentIdentifier, .Surname, .FirstName, .ECOACode, .FirstLineAddress, .City, .State, .ZipCode]
  | .k1 => [.SegmentIdentifier, .OriginalCreditorName, .CreditorClassification]
  | .k2 => [.SegmentIdentifier, .PurchasedIndicator, .PurchasedName]
  | .k3 => [.SegmentIdentifier]
  | .k4 => [.SegmentIdentifier, .SpecializedPaymentIndicator]
  | .l1 => [.SegmentIdentifier, .ChangeIndicator]
  | .n1 => [.SegmentIdentifier, .EmployerName]

/-- Mandatory fields of data records: the tagged ones and two more. -/
def mandatoryBase : List F := .PortfolioType :: .DateOpened :: taggedBase
/-- Mandatory fields of trailers: the tagged ones and the block count. -/
def mandatoryTrailer : List F := .BlockCount :: taggedTrailer
/-- Mandatory fields of segments: the tagged ones, but not the first name in J2. -/
def mandatorySegment (k : SegKind) : List F :=
  (taggedSegment k).filter fun f => decide (¬ (k = .j2 ∧ f = .FirstName))

/-- The rules for data records, with the payment history codes as a parameter. -/
structure BaseRules (history : List UInt8) (fs : Fields) : Prop where
  mandatory : AllPresent mandatoryBase fs
  correction : Between fs .CorrectionIndicator 0 1
  identification : ∀ s, (.IdentificationNumber, .str s) ∈ fs → ¬ Filler s
  portfolio : OneOf fs .PortfolioType portfolioCodes
  terms : ∀ s, (.TermsDuration, .str s) ∈ fs →
    s = b! "LOC" ∨ s = b! "REV" ∨ ∃ v : Int, SignedDecimal s v ∧ -(2 ^ 63) ≤ v ∧ v < 2 ^ 63
  frequency : OneOf fs .TermsFrequency ([] :: frequencyCodes)
  rating : ∀ st r, (.AccountStatus, .str st) ∈ fs → (.PaymentRating, .str r) ∈ fs →
    (st ∈ finalStatuses → r ∈ ratingCodes) ∧ (st ∉ finalStatuses → r = [])
  history : ∀ s, (.PaymentHistoryProfile, .str s) ∈ fs → s.length = 24 ∧ ∀ c ∈ s, c ∈ history
  interest : OneOf fs .InterestTypeIndicator ([] :: interestCodes)
  identified : Identified fs fun e => e = b! "2" ∨ e = b! "5"
  status : OneOf fs .AccountStatus statusCodes
  account : OneOf fs .AccountType accountCodes
  comment : OneOf fs .SpecialComment commentCodes

/-- The rules for the coded fields of a segment. -/
def SegmentCodes : SegKind → Fields → Prop
  | .j1, fs => OneOf fs .GenerationCode ([] :: nameSuffixes) ∧ Identified fs fun _ => False
  | .j2, fs => OneOf fs .GenerationCode ([] :: nameSuffixes) ∧
    Identified fs (fun e => e = b! "w" ∨ e = b! "W") ∧
    OneOf fs .AddressIndicator ([] :: b! " " :: addressCodes) ∧ OneOf fs .ResidenceCode ([] :: b! " " :: residences)
  | .k1, fs => Between fs .CreditorClassification 1 15
  | .k2, fs => (∀ i, (.PurchasedIndicator, .int i) ∈ fs → i = 1 ∨ i = 2 ∨ i = 9) ∧
    FillerIf fs .PurchasedIndicator 9 .PurchasedName
  | .k3, fs => Between fs .AgencyIdentifier 0 2 ∧ FillerIf fs .AgencyIdentifier 0 .AccountNumber
  | .k4, fs => Between fs .SpecializedPaymentIndicator 1 2
  | .l1, fs => Between fs .ChangeIndicator 1 3 ∧ FillerIf fs .ChangeIndicator 2 .NewConsumerAccountNumber ∧
    FillerIf fs .ChangeIndicator 1 .NewIdentificationNumber
  | .n1, _ => True

end Metro2.Spec
