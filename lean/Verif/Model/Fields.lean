import Verif.Go.Basic

/-!
Field names. Go identifies struct fields and layout-table rows by name (reflection and
`map[string]field`). The model uses one enumeration of all names that occur in
/repo/pkg/lib/specifications.go:20-340 and in the record and segment structs.
The rows `Reserved`, `Reserved1`, `Reserved2` occur only in the tables.
Produced by a script from the Go text.
-/

namespace Metro2

/-- All field names (struct fields and layout-table keys). -/
inductive F where
  | BlockDescriptorWord
  | RecordDescriptorWord
  | ProcessingIndicator
  | TimeStamp
  | CorrectionIndicator
  | IdentificationNumber
  | CycleIdentifier
  | ConsumerAccountNumber
  | PortfolioType
  | AccountType
  | DateOpened
  | CreditLimit
  | HighestCredit
  | TermsDuration
  | TermsFrequency
  | ScheduledMonthlyPaymentAmount
  | ActualPaymentAmount
  | AccountStatus
  | PaymentRating
  | PaymentHistoryProfile
  | SpecialComment
  | ComplianceConditionCode
  | CurrentBalance
  | AmountPastDue
  | OriginalChargeOffAmount
  | DateAccountInformation
  | DateFirstDelinquency
  | DateClosed
  | DateLastPayment
  | InterestTypeIndicator
  | Surname
  | FirstName
  | MiddleName
  | GenerationCode
  | SocialSecurityNumber
  | DateBirth
  | TelephoneNumber
  | ECOACode
  | ConsumerInformationIndicator
  | CountryCode
  | FirstLineAddress
  | SecondLineAddress
  | City
  | State
  | ZipCode
  | AddressIndicator
  | ResidenceCode
  | RecordIdentifier
  | InnovisProgramIdentifier
  | EquifaxProgramIdentifier
  | ExperianProgramIdentifier
  | TransUnionProgramIdentifier
  | ActivityDate
  | DateCreated
  | ProgramDate
  | ProgramRevisionDate
  | ReporterName
  | ReporterAddress
  | ReporterTelephoneNumber
  | SoftwareVendorName
  | SoftwareVersionNumber
  | PRBCProgramIdentifier
  | TotalBaseRecords
  | TotalStatusCodeDF
  | TotalConsumerSegmentsJ1
  | TotalConsumerSegmentsJ2
  | BlockCount
  | TotalStatusCodeDA
  | TotalStatusCode05
  | TotalStatusCode11
  | TotalStatusCode13
  | TotalStatusCode61
  | TotalStatusCode62
  | TotalStatusCode63
  | TotalStatusCode64
  | TotalStatusCode65
  | TotalStatusCode71
  | TotalStatusCode78
  | TotalStatusCode80
  | TotalStatusCode82
  | TotalStatusCode83
  | TotalStatusCode84
  | TotalStatusCode88
  | TotalStatusCode89
  | TotalStatusCode93
  | TotalStatusCode94
  | TotalStatusCode95
  | TotalStatusCode96
  | TotalStatusCode97
  | TotalECOACodeZ
  | TotalEmploymentSegments
  | TotalOriginalCreditorSegments
  | TotalPurchasedToSegments
  | TotalMortgageInformationSegments
  | TotalPaymentInformationSegments
  | TotalChangeSegments
  | TotalSocialNumbersAllSegments
  | TotalSocialNumbersBaseSegments
  | TotalSocialNumbersJ1Segments
  | TotalSocialNumbersJ2Segments
  | TotalDatesBirthAllSegments
  | TotalDatesBirthBaseSegments
  | TotalDatesBirthJ1Segments
  | TotalDatesBirthJ2Segments
  | TotalTelephoneNumbersAllSegments
  | SegmentIdentifier
  | OriginalCreditorName
  | CreditorClassification
  | PurchasedIndicator
  | PurchasedName
  | AgencyIdentifier
  | AccountNumber
  | MortgageIdentificationNumber
  | SpecializedPaymentIndicator
  | DeferredPaymentStartDate
  | BalloonPaymentDueDate
  | BalloonPaymentAmount
  | ChangeIndicator
  | NewConsumerAccountNumber
  | NewIdentificationNumber
  | EmployerName
  | FirstLineEmployerAddress
  | SecondLineEmployerAddress
  | EmployerCity
  | EmployerState
  | Occupation
  | Reserved2
  | Reserved
  | Reserved1
deriving DecidableEq, Repr

/-- The Go identifier of a field, as bytes (used by the sort in converters.go:104-116). -/
def F.name : F → Bytes
  | .BlockDescriptorWord => b! "BlockDescriptorWord"
  | .RecordDescriptorWord => b! "RecordDescriptorWord"
  | .ProcessingIndicator => b! "ProcessingIndicator"
  | .TimeStamp => b! "TimeStamp"
  | .CorrectionIndicator => b! "CorrectionIndicator"
  | .IdentificationNumber => b! "IdentificationNumber"
  | .CycleIdentifier => b! "CycleIdentifier"
  | .ConsumerAccountNumber => b! "ConsumerAccountNumber"
  | .PortfolioType => b! "PortfolioType"
  | .AccountType => b! "AccountType"
  | .DateOpened => b! "DateOpened"
  | .CreditLimit => b! "CreditLimit"
  | .HighestCredit => b! "HighestCredit"
  | .TermsDuration => b! "TermsDuration"
  | .TermsFrequency => b! "TermsFrequency"
  | .ScheduledMonthlyPaymentAmount => b! "ScheduledMonthlyPaymentAmount"
  | .ActualPaymentAmount => b! "ActualPaymentAmount"
  | .AccountStatus => b! "AccountStatus"
  | .PaymentRating => b! "PaymentRating"
  | .PaymentHistoryProfile => b! "PaymentHistoryProfile"
  | .SpecialComment => b! "SpecialComment"
  | .ComplianceConditionCode => b! "ComplianceConditionCode"
  | .CurrentBalance => b! "CurrentBalance"
  | .AmountPastDue => b! "AmountPastDue"
  | .OriginalChargeOffAmount => b! "OriginalChargeOffAmount"
  | .DateAccountInformation => b! "DateAccountInformation"
  | .DateFirstDelinquency => b! "DateFirstDelinquency"
  | .DateClosed => b! "DateClosed"
  | .DateLastPayment => b! "DateLastPayment"
  | .InterestTypeIndicator => b! "InterestTypeIndicator"
  | .Surname => b! "Surname"
  | .FirstName => b! "FirstName"
  | .MiddleName => b! "MiddleName"
  | .GenerationCode => b! "GenerationCode"
  | .SocialSecurityNumber => b! "SocialSecurityNumber"
  | .DateBirth => b! "DateBirth"
  | .TelephoneNumber => b! "TelephoneNumber"
  | .ECOACode => b! "ECOACode"
  | .ConsumerInformationIndicator => b! "ConsumerInformationIndicator"
  | .CountryCode => b! "CountryCode"
  | .FirstLineAddress => b! "FirstLineAddress"
  | .SecondLineAddress => b! "SecondLineAddress"
  | .City => b! "City"
  | .State => b! "State"
  | .ZipCode => b! "ZipCode"
  | .AddressIndicator => b! "AddressIndicator"
  | .ResidenceCode => b! "ResidenceCode"
  | .RecordIdentifier => b! "RecordIdentifier"
  | .InnovisProgramIdentifier => b! "InnovisProgramIdentifier"
  | .EquifaxProgramIdentifier => b! "EquifaxProgramIdentifier"
  | .ExperianProgramIdentifier => b! "ExperianProgramIdentifier"
  | .TransUnionProgramIdentifier => b! "TransUnionProgramIdentifier"
  | .ActivityDate => b! "ActivityDate"
  | .DateCreated => b! "DateCreated"
  | .ProgramDate => b! "ProgramDate"
  | .ProgramRevisionDate => b! "ProgramRevisionDate"
  | .ReporterName => b! "ReporterName"
  | .ReporterAddress => b! "ReporterAddress"
  | .ReporterTelephoneNumber => b! "ReporterTelephoneNumber"
  | .SoftwareVendorName => b! "SoftwareVendorName"
  | .SoftwareVersionNumber => b! "SoftwareVersionNumber"
  | .PRBCProgramIdentifier => b! "PRBCProgramIdentifier"
  | .TotalBaseRecords => b! "TotalBaseRecords"
  | .TotalStatusCodeDF => b! "TotalStatusCodeDF"
  | .TotalConsumerSegmentsJ1 => b! "TotalConsumerSegmentsJ1"
  | .TotalConsumerSegmentsJ2 => b! "TotalConsumerSegmentsJ2"
  | .BlockCount => b! "BlockCount"
  | .TotalStatusCodeDA => b! "TotalStatusCodeDA"
  | .TotalStatusCode05 => b! "TotalStatusCode05"
  | .TotalStatusCode11 => b! "TotalStatusCode11"
  | .TotalStatusCode13 => b! "TotalStatusCode13"
  | .TotalStatusCode61 => b! "TotalStatusCode61"
  | .TotalStatusCode62 => b! "TotalStatusCode62"
  | .TotalStatusCode63 => b! "TotalStatusCode63"
  | .TotalStatusCode64 => b! "TotalStatusCode64"
  | .TotalStatusCode65 => b! "TotalStatusCode65"
  | .TotalStatusCode71 => b! "TotalStatusCode71"
  | .TotalStatusCode78 => b! "TotalStatusCode78"
  | .TotalStatusCode80 => b! "TotalStatusCode80"
  | .TotalStatusCode82 => b! "TotalStatusCode82"
  | .TotalStatusCode83 => b! "TotalStatusCode83"
  | .TotalStatusCode84 => b! "TotalStatusCode84"
  | .TotalStatusCode88 => b! "TotalStatusCode88"
  | .TotalStatusCode89 => b! "TotalStatusCode89"
  | .TotalStatusCode93 => b! "TotalStatusCode93"
  | .TotalStatusCode94 => b! "TotalStatusCode94"
  | .TotalStatusCode95 => b! "TotalStatusCode95"
  | .TotalStatusCode96 => b! "TotalStatusCode96"
  | .TotalStatusCode97 => b! "TotalStatusCode97"
  | .TotalECOACodeZ => b! "TotalECOACodeZ"
  | .TotalEmploymentSegments => b! "TotalEmploymentSegments"
  | .TotalOriginalCreditorSegments => b! "TotalOriginalCreditorSegments"
  | .TotalPurchasedToSegments => b! "TotalPurchasedToSegments"
  | .TotalMortgageInformationSegments => b! "TotalMortgageInformationSegments"
  | .TotalPaymentInformationSegments => b! "TotalPaymentInformationSegments"
  | .TotalChangeSegments => b! "TotalChangeSegments"
  | .TotalSocialNumbersAllSegments => b! "TotalSocialNumbersAllSegments"
  | .TotalSocialNumbersBaseSegments => b! "TotalSocialNumbersBaseSegments"
  | .TotalSocialNumbersJ1Segments => b! "TotalSocialNumbersJ1Segments"
  | .TotalSocialNumbersJ2Segments => b! "TotalSocialNumbersJ2Segments"
  | .TotalDatesBirthAllSegments => b! "TotalDatesBirthAllSegments"
  | .TotalDatesBirthBaseSegments => b! "TotalDatesBirthBaseSegments"
  | .TotalDatesBirthJ1Segments => b! "TotalDatesBirthJ1Segments"
  | .TotalDatesBirthJ2Segments => b! "TotalDatesBirthJ2Segments"
  | .TotalTelephoneNumbersAllSegments => b! "TotalTelephoneNumbersAllSegments"
  | .SegmentIdentifier => b! "SegmentIdentifier"
  | .OriginalCreditorName => b! "OriginalCreditorName"
  | .CreditorClassification => b! "CreditorClassification"
  | .PurchasedIndicator => b! "PurchasedIndicator"
  | .PurchasedName => b! "PurchasedName"
  | .AgencyIdentifier => b! "AgencyIdentifier"
  | .AccountNumber => b! "AccountNumber"
  | .MortgageIdentificationNumber => b! "MortgageIdentificationNumber"
  | .SpecializedPaymentIndicator => b! "SpecializedPaymentIndicator"
  | .DeferredPaymentStartDate => b! "DeferredPaymentStartDate"
  | .BalloonPaymentDueDate => b! "BalloonPaymentDueDate"
  | .BalloonPaymentAmount => b! "BalloonPaymentAmount"
  | .ChangeIndicator => b! "ChangeIndicator"
  | .NewConsumerAccountNumber => b! "NewConsumerAccountNumber"
  | .NewIdentificationNumber => b! "NewIdentificationNumber"
  | .EmployerName => b! "EmployerName"
  | .FirstLineEmployerAddress => b! "FirstLineEmployerAddress"
  | .SecondLineEmployerAddress => b! "SecondLineEmployerAddress"
  | .EmployerCity => b! "EmployerCity"
  | .EmployerState => b! "EmployerState"
  | .Occupation => b! "Occupation"
  | .Reserved2 => b! "Reserved2"
  | .Reserved => b! "Reserved"
  | .Reserved1 => b! "Reserved1"

end Metro2
