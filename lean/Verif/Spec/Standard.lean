import Verif.Model.Record

/-! The fields of the Metro 2 format as the Credit Reporting Resource Guide lists them, in order and with their lengths. Both formats follow from
one list: a packed number, date or time has the bytes of so many half bytes and one for the sign. -/

namespace Metro2.Spec

/-- What stands in a field. -/
inductive Item where
  /-- A descriptor word. -/
  | word
  /-- A text of so many characters. -/
  | text (n : Nat)
  /-- So many digits, in characters in both formats. -/
  | digits (n : Nat)
  /-- A number of so many digits, packed in the packed format. -/
  | number (n : Nat)
  /-- A date, packed in the packed format. -/
  | date
  /-- A date, in characters in both formats. -/
  | plainDate
  /-- A time, packed in the packed format. -/
  | stamp
  /-- Blanks, so many in the character format and so many in the packed one. -/
  | reserved (n m : Nat)

/-- Its length. -/
def Item.width (packed : Bool) : Item → Nat
  | .word => 4
  | .text n => n
  | .digits n => n
  | .number n => if packed then n / 2 + 1 else n
  | .date => if packed then 8 / 2 + 1 else 8
  | .plainDate => 8
  | .stamp => if packed then 14 / 2 + 1 else 14
  | .reserved n m => if packed then m else n

/-- Its type in the tables; reserved places have no value. -/
def Item.type (packed : Bool) : Item → Option FType
  | .word => some (if packed then .descriptor else .numeric)
  | .text _ => some .alphanumeric
  | .digits _ => some .numeric
  | .number _ => some (if packed then .packedNumber else .numeric)
  | .date => some (if packed then .packedDate else .date)
  | .plainDate => some .date
  | .stamp => some (if packed then .packedTimestamp else .timestamp)
  | .reserved _ _ => none

/-- The header record. -/
def headerItems : List (F × Item) := [
  (.RecordDescriptorWord, .word), (.RecordIdentifier, .text 6), (.CycleIdentifier, .text 2),
  (.InnovisProgramIdentifier, .text 10), (.EquifaxProgramIdentifier, .text 10), (.ExperianProgramIdentifier, .text 5),
  (.TransUnionProgramIdentifier, .text 10), (.ActivityDate, .plainDate), (.DateCreated, .plainDate), (.ProgramDate, .plainDate),
  (.ProgramRevisionDate, .plainDate), (.ReporterName, .text 40), (.ReporterAddress, .text 96), (.ReporterTelephoneNumber, .digits 10),
  (.SoftwareVendorName, .text 40), (.SoftwareVersionNumber, .text 5), (.PRBCProgramIdentifier, .text 10), (.Reserved, .reserved 146 86)]

/-- The base segment. -/
def baseItems : List (F × Item) := [
  (.RecordDescriptorWord, .word), (.ProcessingIndicator, .digits 1), (.TimeStamp, .stamp), (.CorrectionIndicator, .digits 1),
  (.IdentificationNumber, .text 20), (.CycleIdentifier, .text 2), (.ConsumerAccountNumber, .text 30), (.PortfolioType, .text 1),
  (.AccountType, .text 2), (.DateOpened, .date), (.CreditLimit, .number 9), (.HighestCredit, .number 9), (.TermsDuration, .text 3),
  (.TermsFrequency, .text 1), (.ScheduledMonthlyPaymentAmount, .number 9), (.ActualPaymentAmount, .number 9), (.AccountStatus, .text 2),
  (.PaymentRating, .text 1), (.PaymentHistoryProfile, .text 24), (.SpecialComment, .text 2), (.ComplianceConditionCode, .text 2),
  (.CurrentBalance, .number 9), (.AmountPastDue, .number 9), (.OriginalChargeOffAmount, .number 9), (.DateAccountInformation, .date),
  (.DateFirstDelinquency, .date), (.DateClosed, .date), (.DateLastPayment, .date), (.InterestTypeIndicator, .text 1),
  (.Reserved2, .reserved 17 17), (.Surname, .text 25), (.FirstName, .text 20), (.MiddleName, .text 20), (.GenerationCode, .text 1),
  (.SocialSecurityNumber, .number 9), (.DateBirth, .date), (.TelephoneNumber, .number 10), (.ECOACode, .text 1),
  (.ConsumerInformationIndicator, .text 2), (.CountryCode, .text 2), (.FirstLineAddress, .text 32), (.SecondLineAddress, .text 32),
  (.City, .text 20), (.State, .text 2), (.ZipCode, .text 9), (.AddressIndicator, .text 1), (.ResidenceCode, .text 1)]

/-- The trailer record: the totals are numbers of nine digits. -/
def trailerItems : List (F × Item) :=
  [(.RecordDescriptorWord, .word), (.RecordIdentifier, .text 7), (.TotalBaseRecords, .number 9), (.Reserved1, .reserved 9 5)] ++
  ([.TotalStatusCodeDF, .TotalConsumerSegmentsJ1, .TotalConsumerSegmentsJ2, .BlockCount, .TotalStatusCodeDA, .TotalStatusCode05,
    .TotalStatusCode11, .TotalStatusCode13, .TotalStatusCode61, .TotalStatusCode62, .TotalStatusCode63, .TotalStatusCode64,
    .TotalStatusCode65, .TotalStatusCode71, .TotalStatusCode78, .TotalStatusCode80, .TotalStatusCode82, .TotalStatusCode83,
    .TotalStatusCode84, .TotalStatusCode88, .TotalStatusCode89, .TotalStatusCode93, .TotalStatusCode94, .TotalStatusCode95,
    .TotalStatusCode96, .TotalStatusCode97, .TotalECOACodeZ, .TotalEmploymentSegments, .TotalOriginalCreditorSegments,
    .TotalPurchasedToSegments, .TotalMortgageInformationSegments, .TotalPaymentInformationSegments, .TotalChangeSegments,
    .TotalSocialNumbersAllSegments, .TotalSocialNumbersBaseSegments, .TotalSocialNumbersJ1Segments, .TotalSocialNumbersJ2Segments,
    .TotalDatesBirthAllSegments, .TotalDatesBirthBaseSegments, .TotalDatesBirthJ1Segments, .TotalDatesBirthJ2Segments,
    .TotalTelephoneNumbersAllSegments].map fun f => (f, .number 9)) ++
  [(.Reserved2, .reserved 19 135)]

/-- A consumer: the common part of both J segments behind the identifier. -/
def consumerItems : List (F × Item) := [
  (.Reserved1, .reserved 1 1), (.Surname, .text 25), (.FirstName, .text 20), (.MiddleName, .text 20), (.GenerationCode, .text 1),
  (.SocialSecurityNumber, .number 9), (.DateBirth, .date), (.TelephoneNumber, .number 10), (.ECOACode, .text 1),
  (.ConsumerInformationIndicator, .text 2)]

/-- The appended segments, which have one format only. -/
def segmentItems : SegKind → List (F × Item)
  | .j1 => (.SegmentIdentifier, .text 2) :: consumerItems ++ [(.Reserved2, .reserved 1 1)]
  | .j2 => (.SegmentIdentifier, .text 2) :: consumerItems ++ [
    (.CountryCode, .text 2), (.FirstLineAddress, .text 32), (.SecondLineAddress, .text 32), (.City, .text 20), (.State, .text 2),
    (.ZipCode, .text 9), (.AddressIndicator, .text 1), (.ResidenceCode, .text 1), (.Reserved2, .reserved 2 2)]
  | .k1 => [(.SegmentIdentifier, .text 2), (.OriginalCreditorName, .text 30), (.CreditorClassification, .digits 2)]
  | .k2 => [(.SegmentIdentifier, .text 2), (.PurchasedIndicator, .digits 1), (.PurchasedName, .text 30), (.Reserved, .reserved 1 1)]
  | .k3 => [(.SegmentIdentifier, .text 2), (.AgencyIdentifier, .digits 2), (.AccountNumber, .text 18), (.MortgageIdentificationNumber, .text 18)]
  | .k4 => [(.SegmentIdentifier, .text 2), (.SpecializedPaymentIndicator, .digits 2), (.DeferredPaymentStartDate, .date),
    (.BalloonPaymentDueDate, .date), (.BalloonPaymentAmount, .number 9), (.Reserved, .reserved 1 1)]
  | .l1 => [(.SegmentIdentifier, .text 2), (.ChangeIndicator, .digits 1), (.NewConsumerAccountNumber, .text 30),
    (.NewIdentificationNumber, .text 20), (.Reserved, .reserved 1 1)]
  | .n1 => [(.SegmentIdentifier, .text 2), (.EmployerName, .text 30), (.FirstLineEmployerAddress, .text 32), (.SecondLineEmployerAddress, .text 32),
    (.EmployerCity, .text 20), (.EmployerState, .text 2), (.ZipCode, .text 9), (.Occupation, .text 18), (.Reserved, .reserved 1 1)]

/-- The fields of a record. -/
def itemsOf : Record → List (F × Item)
  | .header _ _ => headerItems
  | .base _ _ _ => baseItems
  | .trailer _ _ => trailerItems

/-- The format of a record. -/
def packedOf : Record → Bool
  | .header enc _ => enc = .packed
  | .base enc _ _ => enc = .packed
  | .trailer enc _ => enc = .packed

/-- Where the `i`th field of a list begins. -/
def beginOf (packed : Bool) (items : List (F × Item)) (i : Nat) : Nat := ((items.take i).map fun it => it.2.width packed).sum

/-- A table has the fields of a list, each behind those before it, with its length and type, and no other rows but that of the block descriptor. -/
def Follows (packed : Bool) (fmt : Format) (items : List (F × Item)) : Prop :=
  (∀ i (h : i < items.length), ∃ e, (items[i].1, e) ∈ fmt ∧ e.start = beginOf packed items i ∧ e.len = items[i].2.width packed ∧
    ∀ ty, items[i].2.type packed = some ty → e.typ = ty) ∧
  ∀ row ∈ fmt, row.1 = .BlockDescriptorWord ∨ row.1 ∈ items.map (·.1)

end Metro2.Spec
