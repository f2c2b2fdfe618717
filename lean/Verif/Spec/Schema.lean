import Verif.Spec.Server

/-!
The JSON schemas of the published interface description, /repo/api/openapi.yaml, and what it means that a document conforms to them.
-/

namespace Metro2.Spec

/-- A schema, as far as the description uses them. An empty list of values permits all. `whole bits` is `format: int32` or `int64`. -/
inductive Schema where
  | text (values : List (List UInt8))
  | date
  | whole (bits : Nat) (values : List Int)
  | list (items : Schema)
  | object (props : List (List UInt8 × Schema)) (required : List (List UInt8))

/-- `date-time` of RFC 3339, section 5.6, without fractions of a second and without leap seconds. -/
def DateTimeText (s : List UInt8) : Prop :=
  ∃ y mo d h mi se zone : List UInt8, ∃ ny nmo nd nh nmi nse : Nat,
    s = y ++ [45] ++ mo ++ [45] ++ d ++ [84] ++ h ++ [58] ++ mi ++ [58] ++ se ++ zone ∧
    y.length = 4 ∧ mo.length = 2 ∧ d.length = 2 ∧ h.length = 2 ∧ mi.length = 2 ∧ se.length = 2 ∧
    Decimal y ny ∧ Decimal mo nmo ∧ Decimal d nd ∧ Decimal h nh ∧ Decimal mi nmi ∧ Decimal se nse ∧
    DayExists nmo nd ny ∧ nh < 24 ∧ nmi < 60 ∧ nse < 60 ∧
    (zone = [90] ∨ ∃ sign zh zm nzh nzm, zone = sign ++ zh ++ [58] ++ zm ∧ (sign = [43] ∨ sign = [45]) ∧
      zh.length = 2 ∧ zm.length = 2 ∧ Decimal zh nzh ∧ Decimal zm nzm ∧ nzh < 24 ∧ nzm < 60)

/-- `lit` is the JSON number of the integer `i`: no sign but a minus, no leading zeros. -/
def WholeNumber (lit : List UInt8) (i : Int) : Prop :=
  SignedDecimal lit i ∧ (∀ c ∈ lit, c ≠ 43) ∧ (∀ r, lit = 48 :: r → r = []) ∧ (∀ r, lit = 45 :: 48 :: r → r = [])

/-- The document conforms to the schema. Members that are not described are permitted. -/
inductive Conforms : Schema → Json → Prop where
  | text {values s} : (values = [] ∨ s ∈ values) → Conforms (.text values) (.str s)
  | date {s} : DateTimeText s → Conforms .date (.str s)
  | whole {bits values lit} {i : Int} : WholeNumber lit i → -(2 ^ (bits - 1)) ≤ i → i < 2 ^ (bits - 1) → (values = [] ∨ i ∈ values) →
      Conforms (.whole bits values) (.num lit)
  | list {items xs} : (∀ x ∈ xs, Conforms items x) → Conforms (.list items) (.arr xs)
  | object {props required kvs} : (∀ k ∈ required, ∃ v, (k, v) ∈ kvs) →
      (∀ p ∈ props, ∀ v, (p.1, v) ∈ kvs → Conforms p.2 v) → Conforms (.object props required) (.obj kvs)

/-- A described property: the struct field of that name, the key, the schema, if it is required; and if the struct tags leave it out
when it is 0 or empty. -/
structure Row where
  field : F
  key : List UInt8
  schema : Schema
  required : Bool
  omitted : Bool

/-- The schema of an object with these properties. -/
def objectOf (rows : List Row) : Schema :=
  .object (rows.map fun r => (r.key, r.schema)) ((rows.filter (·.required)).map (·.key))

/-- Properties of `HeaderRecord`, /repo/api/openapi.yaml:215-268. -/
def headerRecordRows : List Row := [
  ⟨.BlockDescriptorWord, b! "blockDescriptorWord", .whole 32 [], false, true⟩,
  ⟨.RecordDescriptorWord, b! "recordDescriptorWord", .whole 32 [], true, false⟩,
  ⟨.RecordIdentifier, b! "recordIdentifier", .text [b! "HEADER"], true, false⟩,
  ⟨.CycleIdentifier, b! "cycleIdentifier", .text [], false, true⟩,
  ⟨.InnovisProgramIdentifier, b! "innovisProgramIdentifier", .text [], false, true⟩,
  ⟨.EquifaxProgramIdentifier, b! "equifaxProgramIdentifier", .text [], false, true⟩,
  ⟨.ExperianProgramIdentifier, b! "experianProgramIdentifier", .text [], false, true⟩,
  ⟨.TransUnionProgramIdentifier, b! "transUnionProgramIdentifier", .text [], false, true⟩,
  ⟨.ActivityDate, b! "activityDate", .date, true, false⟩,
  ⟨.DateCreated, b! "dateCreated", .date, true, false⟩,
  ⟨.ProgramDate, b! "programDate", .date, false, false⟩,
  ⟨.ProgramRevisionDate, b! "programRevisionDate", .date, false, false⟩,
  ⟨.ReporterName, b! "reporterName", .text [], true, false⟩,
  ⟨.ReporterAddress, b! "reporterAddress", .text [], true, false⟩,
  ⟨.ReporterTelephoneNumber, b! "reporterTelephoneNumber", .whole 64 [], false, false⟩,
  ⟨.SoftwareVendorName, b! "softwareVendorName", .text [], false, true⟩,
  ⟨.SoftwareVersionNumber, b! "softwareVersionNumber", .text [], false, true⟩,
  ⟨.PRBCProgramIdentifier, b! "prbcProgramIdentifier", .text [], false, true⟩]

/-- Properties of `TrailerRecord`, /repo/api/openapi.yaml:269-412. -/
def trailerRecordRows : List Row := [
  ⟨.BlockDescriptorWord, b! "blockDescriptorWord", .whole 32 [], false, false⟩,
  ⟨.RecordDescriptorWord, b! "recordDescriptorWord", .whole 32 [], true, false⟩,
  ⟨.RecordIdentifier, b! "recordIdentifier", .text [b! "TRAILER"], true, false⟩,
  ⟨.TotalBaseRecords, b! "totalBaseRecords", .whole 32 [], false, false⟩,
  ⟨.TotalStatusCodeDF, b! "totalStatusCodeDF", .whole 32 [], false, false⟩,
  ⟨.TotalConsumerSegmentsJ1, b! "totalConsumerSegmentsJ1", .whole 32 [], false, true⟩,
  ⟨.TotalConsumerSegmentsJ2, b! "totalConsumerSegmentsJ2", .whole 32 [], false, true⟩,
  ⟨.BlockCount, b! "blockCount", .whole 32 [], false, false⟩,
  ⟨.TotalStatusCodeDA, b! "totalStatusCodeDA", .whole 32 [], false, false⟩,
  ⟨.TotalStatusCode05, b! "totalStatusCode05", .whole 32 [], false, false⟩,
  ⟨.TotalStatusCode11, b! "totalStatusCode11", .whole 32 [], false, false⟩,
  ⟨.TotalStatusCode13, b! "totalStatusCode13", .whole 32 [], false, false⟩,
  ⟨.TotalStatusCode61, b! "totalStatusCode61", .whole 32 [], false, false⟩,
  ⟨.TotalStatusCode62, b! "totalStatusCode62", .whole 32 [], false, false⟩,
  ⟨.TotalStatusCode63, b! "totalStatusCode63", .whole 32 [], false, false⟩,
  ⟨.TotalStatusCode64, b! "totalStatusCode64", .whole 32 [], false, false⟩,
  ⟨.TotalStatusCode65, b! "totalStatusCode65", .whole 32 [], false, false⟩,
  ⟨.TotalStatusCode71, b! "totalStatusCode71", .whole 32 [], false, false⟩,
  ⟨.TotalStatusCode78, b! "totalStatusCode78", .whole 32 [], false, false⟩,
  ⟨.TotalStatusCode80, b! "totalStatusCode80", .whole 32 [], false, false⟩,
  ⟨.TotalStatusCode82, b! "totalStatusCode82", .whole 32 [], false, false⟩,
  ⟨.TotalStatusCode83, b! "totalStatusCode83", .whole 32 [], false, false⟩,
  ⟨.TotalStatusCode84, b! "totalStatusCode84", .whole 32 [], false, false⟩,
  ⟨.TotalStatusCode88, b! "totalStatusCode88", .whole 32 [], false, false⟩,
  ⟨.TotalStatusCode89, b! "totalStatusCode89", .whole 32 [], false, false⟩,
  ⟨.TotalStatusCode93, b! "totalStatusCode93", .whole 32 [], false, false⟩,
  ⟨.TotalStatusCode94, b! "totalStatusCode94", .whole 32 [], false, false⟩,
  ⟨.TotalStatusCode95, b! "totalStatusCode95", .whole 32 [], false, false⟩,
  ⟨.TotalStatusCode96, b! "totalStatusCode96", .whole 32 [], false, false⟩,
  ⟨.TotalStatusCode97, b! "totalStatusCode97", .whole 32 [], false, false⟩,
  ⟨.TotalECOACodeZ, b! "totalECOACodeZ", .whole 32 [], false, false⟩,
  ⟨.TotalEmploymentSegments, b! "totalEmploymentSegments", .whole 32 [], false, false⟩,
  ⟨.TotalOriginalCreditorSegments, b! "totalOriginalCreditorSegments", .whole 32 [], false, false⟩,
  ⟨.TotalPurchasedToSegments, b! "totalPurchasedToSegments", .whole 32 [], false, false⟩,
  ⟨.TotalMortgageInformationSegments, b! "totalMortgageInformationSegments", .whole 32 [], false, false⟩,
  ⟨.TotalPaymentInformationSegments, b! "totalPaymentInformationSegments", .whole 32 [], false, false⟩,
  ⟨.TotalChangeSegments, b! "totalChangeSegments", .whole 32 [], false, false⟩,
  ⟨.TotalSocialNumbersAllSegments, b! "totalSocialNumbersAllSegments", .whole 32 [], false, false⟩,
  ⟨.TotalSocialNumbersBaseSegments, b! "totalSocialNumbersBaseSegments", .whole 32 [], false, false⟩,
  ⟨.TotalSocialNumbersJ1Segments, b! "totalSocialNumbersJ1Segments", .whole 32 [], false, false⟩,
  ⟨.TotalSocialNumbersJ2Segments, b! "totalSocialNumbersJ2Segments", .whole 32 [], false, false⟩,
  ⟨.TotalDatesBirthAllSegments, b! "totalDatesBirthAllSegments", .whole 32 [], false, false⟩,
  ⟨.TotalDatesBirthBaseSegments, b! "totalDatesBirthBaseSegments", .whole 32 [], false, false⟩,
  ⟨.TotalDatesBirthJ1Segments, b! "totalDatesBirthJ1Segments", .whole 32 [], false, false⟩,
  ⟨.TotalDatesBirthJ2Segments, b! "totalDatesBirthJ2Segments", .whole 32 [], false, false⟩,
  ⟨.TotalTelephoneNumbersAllSegments, b! "totalTelephoneNumbersAllSegments", .whole 32 [], false, false⟩]

/-- Properties of `BaseSegment`, /repo/api/openapi.yaml:439-658. -/
def baseSegmentRows : List Row := [
  ⟨.BlockDescriptorWord, b! "blockDescriptorWord", .whole 32 [], false, true⟩,
  ⟨.RecordDescriptorWord, b! "recordDescriptorWord", .whole 32 [], true, false⟩,
  ⟨.TimeStamp, b! "timeStamp", .date, false, false⟩,
  ⟨.IdentificationNumber, b! "identificationNumber", .text [], true, false⟩,
  ⟨.CycleIdentifier, b! "cycleIdentifier", .text [], false, true⟩,
  ⟨.ConsumerAccountNumber, b! "consumerAccountNumber", .text [], true, false⟩,
  ⟨.PortfolioType, b! "portfolioType", .text [b! "C", b! "I", b! "M", b! "O", b! "R", b! "L"], false, false⟩,
  ⟨.AccountType, b! "accountType", .text [], true, false⟩,
  ⟨.DateOpened, b! "dateOpened", .date, false, false⟩,
  ⟨.CreditLimit, b! "creditLimit", .whole 32 [], false, true⟩,
  ⟨.HighestCredit, b! "highestCredit", .whole 32 [], true, true⟩,
  ⟨.TermsDuration, b! "termsDuration", .text [], true, false⟩,
  ⟨.TermsFrequency, b! "termsFrequency", .text [b! "D", b! "P", b! "W", b! "B", b! "E", b! "M", b! "L", b! "Q", b! "T",
    b! "S", b! "Y"], false, true⟩,
  ⟨.ScheduledMonthlyPaymentAmount, b! "scheduledMonthlyPaymentAmount", .whole 32 [], false, true⟩,
  ⟨.ActualPaymentAmount, b! "actualPaymentAmount", .whole 32 [], false, true⟩,
  ⟨.AccountStatus, b! "accountStatus", .text [b! "DF", b! "DA", b! "11", b! "61", b! "62", b! "63", b! "64", b! "71",
    b! "78", b! "80", b! "82", b! "83", b! "84", b! "93", b! "96", b! "97", b! "05", b! "13", b! "65", b! "88", b! "89",
    b! "94", b! "95"], true, false⟩,
  ⟨.PaymentRating, b! "paymentRating", .text [b! "0", b! "1", b! "2", b! "3", b! "4", b! "5", b! "6", b! "G", b! "L"],
    false, true⟩,
  ⟨.PaymentHistoryProfile, b! "paymentHistoryProfile", .text [b! "0", b! "1", b! "2", b! "3", b! "4", b! "5", b! "6",
    b! "B", b! "D", b! "E", b! "G", b! "H", b! "J", b! "K", b! "L"], true, false⟩,
  ⟨.SpecialComment, b! "specialComment", .text [], false, true⟩,
  ⟨.ComplianceConditionCode, b! "complianceConditionCode", .text [], false, true⟩,
  ⟨.CurrentBalance, b! "currentBalance", .whole 32 [], true, false⟩,
  ⟨.AmountPastDue, b! "amountPastDue", .whole 32 [], false, true⟩,
  ⟨.OriginalChargeOffAmount, b! "originalChargeOffAmount", .whole 32 [], false, true⟩,
  ⟨.DateAccountInformation, b! "dateAccountInformation", .date, true, false⟩,
  ⟨.DateFirstDelinquency, b! "dateFirstDelinquency", .date, false, true⟩,
  ⟨.DateClosed, b! "dateClosed", .date, false, true⟩,
  ⟨.DateLastPayment, b! "dateLastPayment", .date, false, true⟩,
  ⟨.InterestTypeIndicator, b! "interestTypeIndicator", .text [], false, false⟩,
  ⟨.Surname, b! "surname", .text [], true, false⟩,
  ⟨.FirstName, b! "firstName", .text [], true, false⟩,
  ⟨.MiddleName, b! "middleName", .text [], false, true⟩,
  ⟨.GenerationCode, b! "generationCode", .text [b! "J", b! "3", b! "6", b! "9", b! "S", b! "4", b! "7", b! "2", b! "5",
    b! "8"], false, true⟩,
  ⟨.SocialSecurityNumber, b! "socialSecurityNumber", .whole 32 [], false, true⟩,
  ⟨.DateBirth, b! "dateBirth", .date, false, true⟩,
  ⟨.TelephoneNumber, b! "telephoneNumber", .whole 64 [], false, false⟩,
  ⟨.ECOACode, b! "ecoaCode", .text [], true, false⟩,
  ⟨.ConsumerInformationIndicator, b! "consumerInformationIndicator", .text [], false, true⟩,
  ⟨.CountryCode, b! "countryCode", .text [], false, false⟩,
  ⟨.FirstLineAddress, b! "firstLineAddress", .text [], true, false⟩,
  ⟨.SecondLineAddress, b! "secondLineAddress", .text [], false, true⟩,
  ⟨.City, b! "city", .text [], false, false⟩,
  ⟨.State, b! "state", .text [], true, false⟩,
  ⟨.ZipCode, b! "zipCode", .text [], true, false⟩,
  ⟨.AddressIndicator, b! "addressIndicator", .text [b! "C", b! "Y", b! "N", b! "M", b! "S", b! "B", b! "U", b! "D",
    b! "P"], false, false⟩,
  ⟨.ResidenceCode, b! "residenceCode", .text [b! "O", b! "R"], false, false⟩]

/-- Properties of `J1Segment`, /repo/api/openapi.yaml:659-694. -/
def j1SegmentRows : List Row := [
  ⟨.SegmentIdentifier, b! "segmentIdentifier", .text [b! "J1"], true, false⟩,
  ⟨.Surname, b! "surname", .text [], true, false⟩,
  ⟨.FirstName, b! "firstName", .text [], true, false⟩,
  ⟨.MiddleName, b! "middleName", .text [], false, true⟩,
  ⟨.GenerationCode, b! "generationCode", .text [b! "J", b! "S", b! "2"], false, true⟩,
  ⟨.SocialSecurityNumber, b! "socialSecurityNumber", .whole 32 [], false, true⟩,
  ⟨.DateBirth, b! "dateBirth", .date, false, true⟩,
  ⟨.TelephoneNumber, b! "telephoneNumber", .whole 64 [], false, false⟩,
  ⟨.ECOACode, b! "ecoaCode", .text [], true, false⟩,
  ⟨.ConsumerInformationIndicator, b! "consumerInformationIndicator", .text [], false, true⟩]

/-- Properties of `J2Segment`, /repo/api/openapi.yaml:695-763. -/
def j2SegmentRows : List Row := [
  ⟨.SegmentIdentifier, b! "segmentIdentifier", .text [b! "J2"], true, false⟩,
  ⟨.Surname, b! "surname", .text [], true, false⟩,
  ⟨.FirstName, b! "firstName", .text [], true, false⟩,
  ⟨.MiddleName, b! "middleName", .text [], false, true⟩,
  ⟨.GenerationCode, b! "generationCode", .text [b! "J", b! "S", b! "2"], false, true⟩,
  ⟨.SocialSecurityNumber, b! "socialSecurityNumber", .whole 32 [], false, true⟩,
  ⟨.DateBirth, b! "dateBirth", .date, false, true⟩,
  ⟨.TelephoneNumber, b! "telephoneNumber", .whole 64 [], false, false⟩,
  ⟨.ECOACode, b! "ecoaCode", .text [], true, false⟩,
  ⟨.ConsumerInformationIndicator, b! "consumerInformationIndicator", .text [], false, true⟩,
  ⟨.CountryCode, b! "countryCode", .text [], false, false⟩,
  ⟨.FirstLineAddress, b! "firstLineAddress", .text [], true, false⟩,
  ⟨.SecondLineAddress, b! "secondLineAddress", .text [], false, true⟩,
  ⟨.City, b! "city", .text [], true, false⟩,
  ⟨.State, b! "state", .text [], true, false⟩,
  ⟨.ZipCode, b! "zipCode", .text [], true, false⟩,
  ⟨.AddressIndicator, b! "addressIndicator", .text [b! "C", b! "Y", b! "N", b! "M", b! "S", b! "B", b! "U", b! "D",
    b! "P"], false, false⟩,
  ⟨.ResidenceCode, b! "residenceCode", .text [b! "O", b! "R"], false, false⟩]

/-- Properties of `K1Segment`, /repo/api/openapi.yaml:764-794. -/
def k1SegmentRows : List Row := [
  ⟨.SegmentIdentifier, b! "segmentIdentifier", .text [b! "K1"], true, false⟩,
  ⟨.OriginalCreditorName, b! "originalCreditorName", .text [], true, false⟩,
  ⟨.CreditorClassification, b! "creditorClassification", .whole 32 [1, 2, 3, 4, 5, 6, 7, 8, 9, 10, 11, 12, 13, 14, 15],
    true, false⟩]

/-- Properties of `K2Segment`, /repo/api/openapi.yaml:795-813. -/
def k2SegmentRows : List Row := [
  ⟨.SegmentIdentifier, b! "segmentIdentifier", .text [b! "K2"], true, false⟩,
  ⟨.PurchasedIndicator, b! "purchasedIndicator", .whole 32 [1, 2, 9], true, false⟩,
  ⟨.PurchasedName, b! "purchasedName", .text [], true, false⟩]

/-- Properties of `K3Segment`, /repo/api/openapi.yaml:814-832. -/
def k3SegmentRows : List Row := [
  ⟨.SegmentIdentifier, b! "segmentIdentifier", .text [b! "K3"], true, false⟩,
  ⟨.AgencyIdentifier, b! "agencyIdentifier", .whole 32 [0, 1, 2], false, true⟩,
  ⟨.AccountNumber, b! "accountNumber", .text [], false, true⟩,
  ⟨.MortgageIdentificationNumber, b! "mortgageIdentificationNumber", .text [], false, false⟩]

/-- Properties of `K4Segment`, /repo/api/openapi.yaml:833-856. -/
def k4SegmentRows : List Row := [
  ⟨.SegmentIdentifier, b! "segmentIdentifier", .text [b! "K4"], true, false⟩,
  ⟨.SpecializedPaymentIndicator, b! "specializedPaymentIndicator", .whole 32 [1, 2], true, false⟩,
  ⟨.DeferredPaymentStartDate, b! "deferredPaymentStartDate", .date, false, true⟩,
  ⟨.BalloonPaymentDueDate, b! "balloonPaymentDueDate", .date, false, true⟩,
  ⟨.BalloonPaymentAmount, b! "balloonPaymentAmount", .whole 32 [], false, false⟩]

/-- Properties of `L1Segment`, /repo/api/openapi.yaml:857-872. -/
def l1SegmentRows : List Row := [
  ⟨.SegmentIdentifier, b! "segmentIdentifier", .text [b! "L1"], true, false⟩,
  ⟨.ChangeIndicator, b! "changeIndicator", .whole 32 [], true, false⟩,
  ⟨.NewConsumerAccountNumber, b! "newConsumerAccountNumber", .text [], false, true⟩,
  ⟨.BalloonPaymentDueDate, b! "balloonPaymentDueDate", .text [], false, false⟩]

/-- Properties of `N1Segment`, /repo/api/openapi.yaml:873-895. -/
def n1SegmentRows : List Row := [
  ⟨.SegmentIdentifier, b! "segmentIdentifier", .text [b! "N1"], true, false⟩,
  ⟨.EmployerName, b! "employerName", .text [], true, false⟩,
  ⟨.FirstLineEmployerAddress, b! "firstLineEmployerAddress", .text [], false, false⟩,
  ⟨.SecondLineEmployerAddress, b! "secondLineEmployerAddress", .text [], false, false⟩,
  ⟨.EmployerCity, b! "employerCity", .text [], false, false⟩,
  ⟨.EmployerState, b! "employerState", .text [], false, false⟩,
  ⟨.ZipCode, b! "zipCode", .text [], false, false⟩,
  ⟨.Occupation, b! "occupation", .text [], false, false⟩]

/-- The properties of a segment. -/
def segRows : SegKind → List Row
  | .j1 => j1SegmentRows
  | .j2 => j2SegmentRows
  | .k1 => k1SegmentRows
  | .k2 => k2SegmentRows
  | .k3 => k3SegmentRows
  | .k4 => k4SegmentRows
  | .l1 => l1SegmentRows
  | .n1 => n1SegmentRows

/-- `DataRecord`, /repo/api/openapi.yaml:413-438, with the properties of the base segment and the segments. -/
def recordSchema (base : List Row) (seg : SegKind → List Row) : Schema :=
  .object [(b! "base", objectOf base), (b! "j1", .list (objectOf (seg .j1))), (b! "j2", .list (objectOf (seg .j2))),
    (b! "k1", objectOf (seg .k1)), (b! "k2", objectOf (seg .k2)), (b! "k3", objectOf (seg .k3)), (b! "k4", objectOf (seg .k4)),
    (b! "l1", objectOf (seg .l1)), (b! "n1", objectOf (seg .n1))] [b! "base"]

/-- `File`, /repo/api/openapi.yaml:202-214. -/
def fileSchemaOf (header base trailer : List Row) (seg : SegKind → List Row) : Schema :=
  .object [(b! "header", objectOf header), (b! "data", .list (recordSchema base seg)), (b! "trailer", objectOf trailer)]
    [b! "header", b! "trailer"]

/-- The schema of a file as published. -/
def fileSchema : Schema := fileSchemaOf headerRecordRows baseSegmentRows trailerRecordRows segRows

/-! ### Values -/

/-- The value is one that the schema describes. -/
def Meets : Schema → Val → Prop
  | .text values, .str s => values = [] ∨ s ∈ values
  | .date, .time t => t ≠ noTime
  | .whole bits values, .int i => -(2 ^ (bits - 1)) ≤ i ∧ i < 2 ^ (bits - 1) ∧ (values = [] ∨ i ∈ values)
  | _, _ => False

/-- Zero or an empty text. -/
def Blank : Val → Prop
  | .int i => i = 0
  | .str s => s = []
  | .time _ => False

/-- A field of the record as described: if it is written it is as the schema says, if it is not written it is not required. -/
def RowMet (fs : Fields) (r : Row) : Prop :=
  match fs.lookup r.field with
  | none => r.required = false
  | some v => (r.omitted = true ∧ Blank v → r.required = false) ∧ (¬ (r.omitted = true ∧ Blank v) → Meets r.schema v)

/-- All fields. -/
def RowsMet (rows : List Row) (fs : Fields) : Prop := ∀ r ∈ rows, RowMet fs r

/-- All fields of a segment. -/
def SegMet (seg : SegKind → List Row) (s : Seg) : Prop := RowsMet (seg s.kind) s.fields

/-- All segments of a data record are of the type of their place and their values can be carried by JSON. -/
structure CarriedSegs (g : Segs) : Prop where
  j1 : ∀ s ∈ g.j1, s.kind = .j1 ∧ JsonFields (SegKind.struct .j1) s.fields
  j2 : ∀ s ∈ g.j2, s.kind = .j2 ∧ JsonFields (SegKind.struct .j2) s.fields
  k1 : ∀ s, g.k1 = some s → s.kind = .k1 ∧ JsonFields (SegKind.struct .k1) s.fields
  k2 : ∀ s, g.k2 = some s → s.kind = .k2 ∧ JsonFields (SegKind.struct .k2) s.fields
  k3 : ∀ s, g.k3 = some s → s.kind = .k3 ∧ JsonFields (SegKind.struct .k3) s.fields
  k4 : ∀ s, g.k4 = some s → s.kind = .k4 ∧ JsonFields (SegKind.struct .k4) s.fields
  l1 : ∀ s, g.l1 = some s → s.kind = .l1 ∧ JsonFields (SegKind.struct .l1) s.fields
  n1 : ∀ s, g.n1 = some s → s.kind = .n1 ∧ JsonFields (SegKind.struct .n1) s.fields

/-- A file whose values can be carried by JSON. -/
structure CarriedFile (f : File) : Prop where
  header : ∃ enc fs, f.header = .header enc fs ∧ JsonFields headerRecordStruct fs
  bases : ∀ r ∈ f.bases, ∃ enc fs g, r = .base enc fs g ∧ JsonFields baseSegmentStruct fs ∧ CarriedSegs g
  trailer : ∃ enc fs, f.trailer = .trailer enc fs ∧ JsonFields trailerRecordStruct fs

/-- The segments of a data record in one list. -/
def allSegs (g : Segs) : List Seg :=
  g.j1 ++ g.j2 ++ g.k1.toList ++ g.k2.toList ++ g.k3.toList ++ g.k4.toList ++ g.l1.toList ++ g.n1.toList

/-- All values of the file are as described. -/
structure FileMet (header base trailer : List Row) (seg : SegKind → List Row) (f : File) : Prop where
  header : ∀ enc fs, f.header = .header enc fs → RowsMet header fs
  bases : ∀ enc fs g, Record.base enc fs g ∈ f.bases → RowsMet base fs ∧ ∀ s ∈ allSegs g, SegMet seg s
  trailer : ∀ enc fs, f.trailer = .trailer enc fs → RowsMet trailer fs
  some : f.bases ≠ []

/-! ### The same without lists of values, date formats and small numbers -/

/-- Only the JSON type. -/
def Schema.loose : Schema → Schema
  | .text _ => .text []
  | .date => .text []
  | .whole _ _ => .whole 64 []
  | s => s

/-- Only the JSON type; a member that the struct tags may leave out is not required. -/
def looseRow (r : Row) : Row := { r with schema := r.schema.loose, required := r.required && !r.omitted }

/-- The schema of a file with JSON types and required members only. -/
def looseFileSchema : Schema :=
  fileSchemaOf (headerRecordRows.map looseRow) (baseSegmentRows.map looseRow) (trailerRecordRows.map looseRow)
    fun k => (segRows k).map looseRow

/-! ### Operations -/

/-- An operation of the description: method, path, values of the parameter `format`, statuses of the answers. -/
structure Operation where
  method : List UInt8
  path : List UInt8
  formats : List (List UInt8)
  statuses : List Nat

/-- /repo/api/openapi.yaml:23-36. -/
def healthOperation : Operation := ⟨b! "GET", b! "/health", [], [200]⟩
/-- /repo/api/openapi.yaml:37-89. -/
def printOperation : Operation := ⟨b! "POST", b! "/print", [b! "json", b! "metro2"], [200, 400]⟩
/-- /repo/api/openapi.yaml:90-126. -/
def validatorOperation : Operation := ⟨b! "POST", b! "/validator", [], [200, 400, 501]⟩
/-- /repo/api/openapi.yaml:127-198. -/
def convertOperation : Operation := ⟨b! "POST", b! "/convert", [b! "json", b! "metro2"], [200, 400, 501]⟩

/-- All documented operations. -/
def operations : List Operation := [healthOperation, printOperation, validatorOperation, convertOperation]

/-- The request is for the operation. -/
def Asks (r : Request) (op : Operation) : Prop := r.method = op.method ∧ r.path = op.path

end Metro2.Spec
