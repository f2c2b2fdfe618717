import Verif.Go.Basic

/-! Generated by tools/client_accessors.py from /repo/pkg/client/model_*.go. -/

namespace Metro2

/-- How a field of a client type is held: by value, by a pointer that may be nil, or as a slice. -/
inductive ClientFieldKind where
  | required
  | optional
  | list
deriving DecidableEq

/-- A field of a client type with its methods `GetX`, `GetXOk`, `HasX` and `SetX`, where `X` is `name`: `get` … `set` are the fields that the
bodies of these methods use. A required field has no method `HasX`; there `has` is the field itself. `GetX` and `GetXOk` of other fields name the field twice; the script that wrote the table requires that both are the same. -/
structure ClientField where
  name : Bytes
  kind : ClientFieldKind
  get : Bytes
  getOk : Bytes
  has : Bytes
  set : Bytes
deriving DecidableEq

/-- A client type: its fields, and the assignments of its constructor `NewT`: the field and the position of the parameter that it gets. -/
structure ClientType where
  name : Bytes
  fields : List ClientField
  assigns : List (Bytes × Nat)
  parameters : Nat
deriving DecidableEq

/-- `BaseSegment` with its constructor and accessors, /repo/pkg/client/model_base_segment.go:22-1565. -/
def accessorsBaseSegment : ClientType := ⟨b! "BaseSegment", [
  ⟨b! "BlockDescriptorWord", .optional, b! "BlockDescriptorWord", b! "BlockDescriptorWord", b! "BlockDescriptorWord", b! "BlockDescriptorWord"⟩,
  ⟨b! "RecordDescriptorWord", .required, b! "RecordDescriptorWord", b! "RecordDescriptorWord", b! "RecordDescriptorWord", b! "RecordDescriptorWord"⟩,
  ⟨b! "TimeStamp", .optional, b! "TimeStamp", b! "TimeStamp", b! "TimeStamp", b! "TimeStamp"⟩,
  ⟨b! "IdentificationNumber", .required, b! "IdentificationNumber", b! "IdentificationNumber", b! "IdentificationNumber", b! "IdentificationNumber"⟩,
  ⟨b! "CycleIdentifier", .optional, b! "CycleIdentifier", b! "CycleIdentifier", b! "CycleIdentifier", b! "CycleIdentifier"⟩,
  ⟨b! "ConsumerAccountNumber", .required, b! "ConsumerAccountNumber", b! "ConsumerAccountNumber", b! "ConsumerAccountNumber", b! "ConsumerAccountNumber"⟩,
  ⟨b! "PortfolioType", .optional, b! "PortfolioType", b! "PortfolioType", b! "PortfolioType", b! "PortfolioType"⟩,
  ⟨b! "AccountType", .required, b! "AccountType", b! "AccountType", b! "AccountType", b! "AccountType"⟩,
  ⟨b! "DateOpened", .optional, b! "DateOpened", b! "DateOpened", b! "DateOpened", b! "DateOpened"⟩,
  ⟨b! "CreditLimit", .optional, b! "CreditLimit", b! "CreditLimit", b! "CreditLimit", b! "CreditLimit"⟩,
  ⟨b! "HighestCredit", .required, b! "HighestCredit", b! "HighestCredit", b! "HighestCredit", b! "HighestCredit"⟩,
  ⟨b! "TermsDuration", .required, b! "TermsDuration", b! "TermsDuration", b! "TermsDuration", b! "TermsDuration"⟩,
  ⟨b! "TermsFrequency", .optional, b! "TermsFrequency", b! "TermsFrequency", b! "TermsFrequency", b! "TermsFrequency"⟩,
  ⟨b! "ScheduledMonthlyPaymentAmount", .optional, b! "ScheduledMonthlyPaymentAmount", b! "ScheduledMonthlyPaymentAmount", b! "ScheduledMonthlyPaymentAmount", b! "ScheduledMonthlyPaymentAmount"⟩,
  ⟨b! "ActualPaymentAmount", .optional, b! "ActualPaymentAmount", b! "ActualPaymentAmount", b! "ActualPaymentAmount", b! "ActualPaymentAmount"⟩,
  ⟨b! "AccountStatus", .required, b! "AccountStatus", b! "AccountStatus", b! "AccountStatus", b! "AccountStatus"⟩,
  ⟨b! "PaymentRating", .optional, b! "PaymentRating", b! "PaymentRating", b! "PaymentRating", b! "PaymentRating"⟩,
  ⟨b! "PaymentHistoryProfile", .required, b! "PaymentHistoryProfile", b! "PaymentHistoryProfile", b! "PaymentHistoryProfile", b! "PaymentHistoryProfile"⟩,
  ⟨b! "SpecialComment", .optional, b! "SpecialComment", b! "SpecialComment", b! "SpecialComment", b! "SpecialComment"⟩,
  ⟨b! "ComplianceConditionCode", .optional, b! "ComplianceConditionCode", b! "ComplianceConditionCode", b! "ComplianceConditionCode", b! "ComplianceConditionCode"⟩,
  ⟨b! "CurrentBalance", .required, b! "CurrentBalance", b! "CurrentBalance", b! "CurrentBalance", b! "CurrentBalance"⟩,
  ⟨b! "AmountPastDue", .optional, b! "AmountPastDue", b! "AmountPastDue", b! "AmountPastDue", b! "AmountPastDue"⟩,
  ⟨b! "OriginalChargeOffAmount", .optional, b! "OriginalChargeOffAmount", b! "OriginalChargeOffAmount", b! "OriginalChargeOffAmount", b! "OriginalChargeOffAmount"⟩,
  ⟨b! "DateAccountInformation", .required, b! "DateAccountInformation", b! "DateAccountInformation", b! "DateAccountInformation", b! "DateAccountInformation"⟩,
  ⟨b! "DateFirstDelinquency", .optional, b! "DateFirstDelinquency", b! "DateFirstDelinquency", b! "DateFirstDelinquency", b! "DateFirstDelinquency"⟩,
  ⟨b! "DateClosed", .optional, b! "DateClosed", b! "DateClosed", b! "DateClosed", b! "DateClosed"⟩,
  ⟨b! "DateLastPayment", .optional, b! "DateLastPayment", b! "DateLastPayment", b! "DateLastPayment", b! "DateLastPayment"⟩,
  ⟨b! "InterestTypeIndicator", .optional, b! "InterestTypeIndicator", b! "InterestTypeIndicator", b! "InterestTypeIndicator", b! "InterestTypeIndicator"⟩,
  ⟨b! "Surname", .required, b! "Surname", b! "Surname", b! "Surname", b! "Surname"⟩,
  ⟨b! "FirstName", .required, b! "FirstName", b! "FirstName", b! "FirstName", b! "FirstName"⟩,
  ⟨b! "MiddleName", .optional, b! "MiddleName", b! "MiddleName", b! "MiddleName", b! "MiddleName"⟩,
  ⟨b! "GenerationCode", .optional, b! "GenerationCode", b! "GenerationCode", b! "GenerationCode", b! "GenerationCode"⟩,
  ⟨b! "SocialSecurityNumber", .optional, b! "SocialSecurityNumber", b! "SocialSecurityNumber", b! "SocialSecurityNumber", b! "SocialSecurityNumber"⟩,
  ⟨b! "DateBirth", .optional, b! "DateBirth", b! "DateBirth", b! "DateBirth", b! "DateBirth"⟩,
  ⟨b! "TelephoneNumber", .optional, b! "TelephoneNumber", b! "TelephoneNumber", b! "TelephoneNumber", b! "TelephoneNumber"⟩,
  ⟨b! "EcoaCode", .required, b! "EcoaCode", b! "EcoaCode", b! "EcoaCode", b! "EcoaCode"⟩,
  ⟨b! "ConsumerInformationIndicator", .optional, b! "ConsumerInformationIndicator", b! "ConsumerInformationIndicator", b! "ConsumerInformationIndicator", b! "ConsumerInformationIndicator"⟩,
  ⟨b! "CountryCode", .optional, b! "CountryCode", b! "CountryCode", b! "CountryCode", b! "CountryCode"⟩,
  ⟨b! "FirstLineAddress", .required, b! "FirstLineAddress", b! "FirstLineAddress", b! "FirstLineAddress", b! "FirstLineAddress"⟩,
  ⟨b! "SecondLineAddress", .optional, b! "SecondLineAddress", b! "SecondLineAddress", b! "SecondLineAddress", b! "SecondLineAddress"⟩,
  ⟨b! "City", .optional, b! "City", b! "City", b! "City", b! "City"⟩,
  ⟨b! "State", .required, b! "State", b! "State", b! "State", b! "State"⟩,
  ⟨b! "ZipCode", .required, b! "ZipCode", b! "ZipCode", b! "ZipCode", b! "ZipCode"⟩,
  ⟨b! "AddressIndicator", .optional, b! "AddressIndicator", b! "AddressIndicator", b! "AddressIndicator", b! "AddressIndicator"⟩,
  ⟨b! "ResidenceCode", .optional, b! "ResidenceCode", b! "ResidenceCode", b! "ResidenceCode", b! "ResidenceCode"⟩],
  [(b! "RecordDescriptorWord", 0), (b! "IdentificationNumber", 1), (b! "ConsumerAccountNumber", 2), (b! "AccountType", 3), (b! "HighestCredit", 4), (b! "TermsDuration", 5), (b! "AccountStatus", 6), (b! "PaymentHistoryProfile", 7), (b! "CurrentBalance", 8), (b! "DateAccountInformation", 9), (b! "Surname", 10), (b! "FirstName", 11), (b! "EcoaCode", 12), (b! "FirstLineAddress", 13), (b! "State", 14), (b! "ZipCode", 15)], 16⟩

/-- `DataRecord` with its constructor and accessors, /repo/pkg/client/model_data_record.go:21-403. -/
def accessorsDataRecord : ClientType := ⟨b! "DataRecord", [
  ⟨b! "Base", .required, b! "Base", b! "Base", b! "Base", b! "Base"⟩,
  ⟨b! "J1", .list, b! "J1", b! "J1", b! "J1", b! "J1"⟩,
  ⟨b! "J2", .list, b! "J2", b! "J2", b! "J2", b! "J2"⟩,
  ⟨b! "K1", .optional, b! "K1", b! "K1", b! "K1", b! "K1"⟩,
  ⟨b! "K2", .optional, b! "K2", b! "K2", b! "K2", b! "K2"⟩,
  ⟨b! "K3", .optional, b! "K3", b! "K3", b! "K3", b! "K3"⟩,
  ⟨b! "K4", .optional, b! "K4", b! "K4", b! "K4", b! "K4"⟩,
  ⟨b! "L1", .optional, b! "L1", b! "L1", b! "L1", b! "L1"⟩,
  ⟨b! "N1", .optional, b! "N1", b! "N1", b! "N1", b! "N1"⟩],
  [(b! "Base", 0)], 1⟩

/-- `File` with its constructor and accessors, /repo/pkg/client/model_file.go:21-178. -/
def accessorsFile : ClientType := ⟨b! "File", [
  ⟨b! "Header", .required, b! "Header", b! "Header", b! "Header", b! "Header"⟩,
  ⟨b! "Data", .list, b! "Data", b! "Data", b! "Data", b! "Data"⟩,
  ⟨b! "Trailer", .required, b! "Trailer", b! "Trailer", b! "Trailer", b! "Trailer"⟩],
  [(b! "Header", 0), (b! "Trailer", 1)], 2⟩

/-- `HeaderRecord` with its constructor and accessors, /repo/pkg/client/model_header_record.go:22-683. -/
def accessorsHeaderRecord : ClientType := ⟨b! "HeaderRecord", [
  ⟨b! "BlockDescriptorWord", .optional, b! "BlockDescriptorWord", b! "BlockDescriptorWord", b! "BlockDescriptorWord", b! "BlockDescriptorWord"⟩,
  ⟨b! "RecordDescriptorWord", .required, b! "RecordDescriptorWord", b! "RecordDescriptorWord", b! "RecordDescriptorWord", b! "RecordDescriptorWord"⟩,
  ⟨b! "RecordIdentifier", .required, b! "RecordIdentifier", b! "RecordIdentifier", b! "RecordIdentifier", b! "RecordIdentifier"⟩,
  ⟨b! "CycleIdentifier", .optional, b! "CycleIdentifier", b! "CycleIdentifier", b! "CycleIdentifier", b! "CycleIdentifier"⟩,
  ⟨b! "InnovisProgramIdentifier", .optional, b! "InnovisProgramIdentifier", b! "InnovisProgramIdentifier", b! "InnovisProgramIdentifier", b! "InnovisProgramIdentifier"⟩,
  ⟨b! "EquifaxProgramIdentifier", .optional, b! "EquifaxProgramIdentifier", b! "EquifaxProgramIdentifier", b! "EquifaxProgramIdentifier", b! "EquifaxProgramIdentifier"⟩,
  ⟨b! "ExperianProgramIdentifier", .optional, b! "ExperianProgramIdentifier", b! "ExperianProgramIdentifier", b! "ExperianProgramIdentifier", b! "ExperianProgramIdentifier"⟩,
  ⟨b! "TransUnionProgramIdentifier", .optional, b! "TransUnionProgramIdentifier", b! "TransUnionProgramIdentifier", b! "TransUnionProgramIdentifier", b! "TransUnionProgramIdentifier"⟩,
  ⟨b! "ActivityDate", .required, b! "ActivityDate", b! "ActivityDate", b! "ActivityDate", b! "ActivityDate"⟩,
  ⟨b! "DateCreated", .required, b! "DateCreated", b! "DateCreated", b! "DateCreated", b! "DateCreated"⟩,
  ⟨b! "ProgramDate", .optional, b! "ProgramDate", b! "ProgramDate", b! "ProgramDate", b! "ProgramDate"⟩,
  ⟨b! "ProgramRevisionDate", .optional, b! "ProgramRevisionDate", b! "ProgramRevisionDate", b! "ProgramRevisionDate", b! "ProgramRevisionDate"⟩,
  ⟨b! "ReporterName", .required, b! "ReporterName", b! "ReporterName", b! "ReporterName", b! "ReporterName"⟩,
  ⟨b! "ReporterAddress", .required, b! "ReporterAddress", b! "ReporterAddress", b! "ReporterAddress", b! "ReporterAddress"⟩,
  ⟨b! "ReporterTelephoneNumber", .optional, b! "ReporterTelephoneNumber", b! "ReporterTelephoneNumber", b! "ReporterTelephoneNumber", b! "ReporterTelephoneNumber"⟩,
  ⟨b! "SoftwareVendorName", .optional, b! "SoftwareVendorName", b! "SoftwareVendorName", b! "SoftwareVendorName", b! "SoftwareVendorName"⟩,
  ⟨b! "SoftwareVersionNumber", .optional, b! "SoftwareVersionNumber", b! "SoftwareVersionNumber", b! "SoftwareVersionNumber", b! "SoftwareVersionNumber"⟩,
  ⟨b! "PrbcProgramIdentifier", .optional, b! "PrbcProgramIdentifier", b! "PrbcProgramIdentifier", b! "PrbcProgramIdentifier", b! "PrbcProgramIdentifier"⟩],
  [(b! "RecordDescriptorWord", 0), (b! "RecordIdentifier", 1), (b! "ActivityDate", 2), (b! "DateCreated", 3), (b! "ReporterName", 4), (b! "ReporterAddress", 5)], 6⟩

/-- `J1Segment` with its constructor and accessors, /repo/pkg/client/model_j1_segment.go:22-413. -/
def accessorsJ1Segment : ClientType := ⟨b! "J1Segment", [
  ⟨b! "SegmentIdentifier", .required, b! "SegmentIdentifier", b! "SegmentIdentifier", b! "SegmentIdentifier", b! "SegmentIdentifier"⟩,
  ⟨b! "Surname", .required, b! "Surname", b! "Surname", b! "Surname", b! "Surname"⟩,
  ⟨b! "FirstName", .required, b! "FirstName", b! "FirstName", b! "FirstName", b! "FirstName"⟩,
  ⟨b! "MiddleName", .optional, b! "MiddleName", b! "MiddleName", b! "MiddleName", b! "MiddleName"⟩,
  ⟨b! "GenerationCode", .optional, b! "GenerationCode", b! "GenerationCode", b! "GenerationCode", b! "GenerationCode"⟩,
  ⟨b! "SocialSecurityNumber", .optional, b! "SocialSecurityNumber", b! "SocialSecurityNumber", b! "SocialSecurityNumber", b! "SocialSecurityNumber"⟩,
  ⟨b! "DateBirth", .optional, b! "DateBirth", b! "DateBirth", b! "DateBirth", b! "DateBirth"⟩,
  ⟨b! "TelephoneNumber", .optional, b! "TelephoneNumber", b! "TelephoneNumber", b! "TelephoneNumber", b! "TelephoneNumber"⟩,
  ⟨b! "EcoaCode", .required, b! "EcoaCode", b! "EcoaCode", b! "EcoaCode", b! "EcoaCode"⟩,
  ⟨b! "ConsumerInformationIndicator", .optional, b! "ConsumerInformationIndicator", b! "ConsumerInformationIndicator", b! "ConsumerInformationIndicator", b! "ConsumerInformationIndicator"⟩],
  [(b! "SegmentIdentifier", 0), (b! "Surname", 1), (b! "FirstName", 2), (b! "EcoaCode", 3)], 4⟩

/-- `J2Segment` with its constructor and accessors, /repo/pkg/client/model_j2_segment.go:22-665. -/
def accessorsJ2Segment : ClientType := ⟨b! "J2Segment", [
  ⟨b! "SegmentIdentifier", .required, b! "SegmentIdentifier", b! "SegmentIdentifier", b! "SegmentIdentifier", b! "SegmentIdentifier"⟩,
  ⟨b! "Surname", .required, b! "Surname", b! "Surname", b! "Surname", b! "Surname"⟩,
  ⟨b! "FirstName", .required, b! "FirstName", b! "FirstName", b! "FirstName", b! "FirstName"⟩,
  ⟨b! "MiddleName", .optional, b! "MiddleName", b! "MiddleName", b! "MiddleName", b! "MiddleName"⟩,
  ⟨b! "GenerationCode", .optional, b! "GenerationCode", b! "GenerationCode", b! "GenerationCode", b! "GenerationCode"⟩,
  ⟨b! "SocialSecurityNumber", .optional, b! "SocialSecurityNumber", b! "SocialSecurityNumber", b! "SocialSecurityNumber", b! "SocialSecurityNumber"⟩,
  ⟨b! "DateBirth", .optional, b! "DateBirth", b! "DateBirth", b! "DateBirth", b! "DateBirth"⟩,
  ⟨b! "TelephoneNumber", .optional, b! "TelephoneNumber", b! "TelephoneNumber", b! "TelephoneNumber", b! "TelephoneNumber"⟩,
  ⟨b! "EcoaCode", .required, b! "EcoaCode", b! "EcoaCode", b! "EcoaCode", b! "EcoaCode"⟩,
  ⟨b! "ConsumerInformationIndicator", .optional, b! "ConsumerInformationIndicator", b! "ConsumerInformationIndicator", b! "ConsumerInformationIndicator", b! "ConsumerInformationIndicator"⟩,
  ⟨b! "CountryCode", .optional, b! "CountryCode", b! "CountryCode", b! "CountryCode", b! "CountryCode"⟩,
  ⟨b! "FirstLineAddress", .required, b! "FirstLineAddress", b! "FirstLineAddress", b! "FirstLineAddress", b! "FirstLineAddress"⟩,
  ⟨b! "SecondLineAddress", .optional, b! "SecondLineAddress", b! "SecondLineAddress", b! "SecondLineAddress", b! "SecondLineAddress"⟩,
  ⟨b! "City", .required, b! "City", b! "City", b! "City", b! "City"⟩,
  ⟨b! "State", .required, b! "State", b! "State", b! "State", b! "State"⟩,
  ⟨b! "ZipCode", .required, b! "ZipCode", b! "ZipCode", b! "ZipCode", b! "ZipCode"⟩,
  ⟨b! "AddressIndicator", .optional, b! "AddressIndicator", b! "AddressIndicator", b! "AddressIndicator", b! "AddressIndicator"⟩,
  ⟨b! "ResidenceCode", .optional, b! "ResidenceCode", b! "ResidenceCode", b! "ResidenceCode", b! "ResidenceCode"⟩],
  [(b! "SegmentIdentifier", 0), (b! "Surname", 1), (b! "FirstName", 2), (b! "EcoaCode", 3), (b! "FirstLineAddress", 4), (b! "City", 5), (b! "State", 6), (b! "ZipCode", 7)], 8⟩

/-- `K1Segment` with its constructor and accessors, /repo/pkg/client/model_k1_segment.go:21-169. -/
def accessorsK1Segment : ClientType := ⟨b! "K1Segment", [
  ⟨b! "SegmentIdentifier", .required, b! "SegmentIdentifier", b! "SegmentIdentifier", b! "SegmentIdentifier", b! "SegmentIdentifier"⟩,
  ⟨b! "OriginalCreditorName", .required, b! "OriginalCreditorName", b! "OriginalCreditorName", b! "OriginalCreditorName", b! "OriginalCreditorName"⟩,
  ⟨b! "CreditorClassification", .required, b! "CreditorClassification", b! "CreditorClassification", b! "CreditorClassification", b! "CreditorClassification"⟩],
  [(b! "SegmentIdentifier", 0), (b! "OriginalCreditorName", 1), (b! "CreditorClassification", 2)], 3⟩

/-- `K2Segment` with its constructor and accessors, /repo/pkg/client/model_k2_segment.go:21-169. -/
def accessorsK2Segment : ClientType := ⟨b! "K2Segment", [
  ⟨b! "SegmentIdentifier", .required, b! "SegmentIdentifier", b! "SegmentIdentifier", b! "SegmentIdentifier", b! "SegmentIdentifier"⟩,
  ⟨b! "PurchasedIndicator", .required, b! "PurchasedIndicator", b! "PurchasedIndicator", b! "PurchasedIndicator", b! "PurchasedIndicator"⟩,
  ⟨b! "PurchasedName", .required, b! "PurchasedName", b! "PurchasedName", b! "PurchasedName", b! "PurchasedName"⟩],
  [(b! "SegmentIdentifier", 0), (b! "PurchasedIndicator", 1), (b! "PurchasedName", 2)], 3⟩

/-- `K3Segment` with its constructor and accessors, /repo/pkg/client/model_k3_segment.go:21-223. -/
def accessorsK3Segment : ClientType := ⟨b! "K3Segment", [
  ⟨b! "SegmentIdentifier", .required, b! "SegmentIdentifier", b! "SegmentIdentifier", b! "SegmentIdentifier", b! "SegmentIdentifier"⟩,
  ⟨b! "AgencyIdentifier", .optional, b! "AgencyIdentifier", b! "AgencyIdentifier", b! "AgencyIdentifier", b! "AgencyIdentifier"⟩,
  ⟨b! "AccountNumber", .optional, b! "AccountNumber", b! "AccountNumber", b! "AccountNumber", b! "AccountNumber"⟩,
  ⟨b! "MortgageIdentificationNumber", .optional, b! "MortgageIdentificationNumber", b! "MortgageIdentificationNumber", b! "MortgageIdentificationNumber", b! "MortgageIdentificationNumber"⟩],
  [(b! "SegmentIdentifier", 0)], 1⟩

/-- `K4Segment` with its constructor and accessors, /repo/pkg/client/model_k4_segment.go:22-251. -/
def accessorsK4Segment : ClientType := ⟨b! "K4Segment", [
  ⟨b! "SegmentIdentifier", .required, b! "SegmentIdentifier", b! "SegmentIdentifier", b! "SegmentIdentifier", b! "SegmentIdentifier"⟩,
  ⟨b! "SpecializedPaymentIndicator", .required, b! "SpecializedPaymentIndicator", b! "SpecializedPaymentIndicator", b! "SpecializedPaymentIndicator", b! "SpecializedPaymentIndicator"⟩,
  ⟨b! "DeferredPaymentStartDate", .optional, b! "DeferredPaymentStartDate", b! "DeferredPaymentStartDate", b! "DeferredPaymentStartDate", b! "DeferredPaymentStartDate"⟩,
  ⟨b! "BalloonPaymentDueDate", .optional, b! "BalloonPaymentDueDate", b! "BalloonPaymentDueDate", b! "BalloonPaymentDueDate", b! "BalloonPaymentDueDate"⟩,
  ⟨b! "BalloonPaymentAmount", .optional, b! "BalloonPaymentAmount", b! "BalloonPaymentAmount", b! "BalloonPaymentAmount", b! "BalloonPaymentAmount"⟩],
  [(b! "SegmentIdentifier", 0), (b! "SpecializedPaymentIndicator", 1)], 2⟩

/-- `L1Segment` with its constructor and accessors, /repo/pkg/client/model_l1_segment.go:21-214. -/
def accessorsL1Segment : ClientType := ⟨b! "L1Segment", [
  ⟨b! "SegmentIdentifier", .required, b! "SegmentIdentifier", b! "SegmentIdentifier", b! "SegmentIdentifier", b! "SegmentIdentifier"⟩,
  ⟨b! "ChangeIndicator", .required, b! "ChangeIndicator", b! "ChangeIndicator", b! "ChangeIndicator", b! "ChangeIndicator"⟩,
  ⟨b! "NewConsumerAccountNumber", .optional, b! "NewConsumerAccountNumber", b! "NewConsumerAccountNumber", b! "NewConsumerAccountNumber", b! "NewConsumerAccountNumber"⟩,
  ⟨b! "BalloonPaymentDueDate", .optional, b! "BalloonPaymentDueDate", b! "BalloonPaymentDueDate", b! "BalloonPaymentDueDate", b! "BalloonPaymentDueDate"⟩],
  [(b! "SegmentIdentifier", 0), (b! "ChangeIndicator", 1)], 2⟩

/-- `N1Segment` with its constructor and accessors, /repo/pkg/client/model_n1_segment.go:21-358. -/
def accessorsN1Segment : ClientType := ⟨b! "N1Segment", [
  ⟨b! "SegmentIdentifier", .required, b! "SegmentIdentifier", b! "SegmentIdentifier", b! "SegmentIdentifier", b! "SegmentIdentifier"⟩,
  ⟨b! "EmployerName", .required, b! "EmployerName", b! "EmployerName", b! "EmployerName", b! "EmployerName"⟩,
  ⟨b! "FirstLineEmployerAddress", .optional, b! "FirstLineEmployerAddress", b! "FirstLineEmployerAddress", b! "FirstLineEmployerAddress", b! "FirstLineEmployerAddress"⟩,
  ⟨b! "SecondLineEmployerAddress", .optional, b! "SecondLineEmployerAddress", b! "SecondLineEmployerAddress", b! "SecondLineEmployerAddress", b! "SecondLineEmployerAddress"⟩,
  ⟨b! "EmployerCity", .optional, b! "EmployerCity", b! "EmployerCity", b! "EmployerCity", b! "EmployerCity"⟩,
  ⟨b! "EmployerState", .optional, b! "EmployerState", b! "EmployerState", b! "EmployerState", b! "EmployerState"⟩,
  ⟨b! "ZipCode", .optional, b! "ZipCode", b! "ZipCode", b! "ZipCode", b! "ZipCode"⟩,
  ⟨b! "Occupation", .optional, b! "Occupation", b! "Occupation", b! "Occupation", b! "Occupation"⟩],
  [(b! "SegmentIdentifier", 0), (b! "EmployerName", 1)], 2⟩

/-- `TrailerRecord` with its constructor and accessors, /repo/pkg/client/model_trailer_record.go:21-1726. -/
def accessorsTrailerRecord : ClientType := ⟨b! "TrailerRecord", [
  ⟨b! "BlockDescriptorWord", .optional, b! "BlockDescriptorWord", b! "BlockDescriptorWord", b! "BlockDescriptorWord", b! "BlockDescriptorWord"⟩,
  ⟨b! "RecordDescriptorWord", .required, b! "RecordDescriptorWord", b! "RecordDescriptorWord", b! "RecordDescriptorWord", b! "RecordDescriptorWord"⟩,
  ⟨b! "RecordIdentifier", .required, b! "RecordIdentifier", b! "RecordIdentifier", b! "RecordIdentifier", b! "RecordIdentifier"⟩,
  ⟨b! "TotalBaseRecords", .optional, b! "TotalBaseRecords", b! "TotalBaseRecords", b! "TotalBaseRecords", b! "TotalBaseRecords"⟩,
  ⟨b! "TotalStatusCodeDF", .optional, b! "TotalStatusCodeDF", b! "TotalStatusCodeDF", b! "TotalStatusCodeDF", b! "TotalStatusCodeDF"⟩,
  ⟨b! "TotalConsumerSegmentsJ1", .optional, b! "TotalConsumerSegmentsJ1", b! "TotalConsumerSegmentsJ1", b! "TotalConsumerSegmentsJ1", b! "TotalConsumerSegmentsJ1"⟩,
  ⟨b! "TotalConsumerSegmentsJ2", .optional, b! "TotalConsumerSegmentsJ2", b! "TotalConsumerSegmentsJ2", b! "TotalConsumerSegmentsJ2", b! "TotalConsumerSegmentsJ2"⟩,
  ⟨b! "BlockCount", .optional, b! "BlockCount", b! "BlockCount", b! "BlockCount", b! "BlockCount"⟩,
  ⟨b! "TotalStatusCodeDA", .optional, b! "TotalStatusCodeDA", b! "TotalStatusCodeDA", b! "TotalStatusCodeDA", b! "TotalStatusCodeDA"⟩,
  ⟨b! "TotalStatusCode05", .optional, b! "TotalStatusCode05", b! "TotalStatusCode05", b! "TotalStatusCode05", b! "TotalStatusCode05"⟩,
  ⟨b! "TotalStatusCode11", .optional, b! "TotalStatusCode11", b! "TotalStatusCode11", b! "TotalStatusCode11", b! "TotalStatusCode11"⟩,
  ⟨b! "TotalStatusCode13", .optional, b! "TotalStatusCode13", b! "TotalStatusCode13", b! "TotalStatusCode13", b! "TotalStatusCode13"⟩,
  ⟨b! "TotalStatusCode61", .optional, b! "TotalStatusCode61", b! "TotalStatusCode61", b! "TotalStatusCode61", b! "TotalStatusCode61"⟩,
  ⟨b! "TotalStatusCode62", .optional, b! "TotalStatusCode62", b! "TotalStatusCode62", b! "TotalStatusCode62", b! "TotalStatusCode62"⟩,
  ⟨b! "TotalStatusCode63", .optional, b! "TotalStatusCode63", b! "TotalStatusCode63", b! "TotalStatusCode63", b! "TotalStatusCode63"⟩,
  ⟨b! "TotalStatusCode64", .optional, b! "TotalStatusCode64", b! "TotalStatusCode64", b! "TotalStatusCode64", b! "TotalStatusCode64"⟩,
  ⟨b! "TotalStatusCode65", .optional, b! "TotalStatusCode65", b! "TotalStatusCode65", b! "TotalStatusCode65", b! "TotalStatusCode65"⟩,
  ⟨b! "TotalStatusCode71", .optional, b! "TotalStatusCode71", b! "TotalStatusCode71", b! "TotalStatusCode71", b! "TotalStatusCode71"⟩,
  ⟨b! "TotalStatusCode78", .optional, b! "TotalStatusCode78", b! "TotalStatusCode78", b! "TotalStatusCode78", b! "TotalStatusCode78"⟩,
  ⟨b! "TotalStatusCode80", .optional, b! "TotalStatusCode80", b! "TotalStatusCode80", b! "TotalStatusCode80", b! "TotalStatusCode80"⟩,
  ⟨b! "TotalStatusCode82", .optional, b! "TotalStatusCode82", b! "TotalStatusCode82", b! "TotalStatusCode82", b! "TotalStatusCode82"⟩,
  ⟨b! "TotalStatusCode83", .optional, b! "TotalStatusCode83", b! "TotalStatusCode83", b! "TotalStatusCode83", b! "TotalStatusCode83"⟩,
  ⟨b! "TotalStatusCode84", .optional, b! "TotalStatusCode84", b! "TotalStatusCode84", b! "TotalStatusCode84", b! "TotalStatusCode84"⟩,
  ⟨b! "TotalStatusCode88", .optional, b! "TotalStatusCode88", b! "TotalStatusCode88", b! "TotalStatusCode88", b! "TotalStatusCode88"⟩,
  ⟨b! "TotalStatusCode89", .optional, b! "TotalStatusCode89", b! "TotalStatusCode89", b! "TotalStatusCode89", b! "TotalStatusCode89"⟩,
  ⟨b! "TotalStatusCode93", .optional, b! "TotalStatusCode93", b! "TotalStatusCode93", b! "TotalStatusCode93", b! "TotalStatusCode93"⟩,
  ⟨b! "TotalStatusCode94", .optional, b! "TotalStatusCode94", b! "TotalStatusCode94", b! "TotalStatusCode94", b! "TotalStatusCode94"⟩,
  ⟨b! "TotalStatusCode95", .optional, b! "TotalStatusCode95", b! "TotalStatusCode95", b! "TotalStatusCode95", b! "TotalStatusCode95"⟩,
  ⟨b! "TotalStatusCode96", .optional, b! "TotalStatusCode96", b! "TotalStatusCode96", b! "TotalStatusCode96", b! "TotalStatusCode96"⟩,
  ⟨b! "TotalStatusCode97", .optional, b! "TotalStatusCode97", b! "TotalStatusCode97", b! "TotalStatusCode97", b! "TotalStatusCode97"⟩,
  ⟨b! "TotalECOACodeZ", .optional, b! "TotalECOACodeZ", b! "TotalECOACodeZ", b! "TotalECOACodeZ", b! "TotalECOACodeZ"⟩,
  ⟨b! "TotalEmploymentSegments", .optional, b! "TotalEmploymentSegments", b! "TotalEmploymentSegments", b! "TotalEmploymentSegments", b! "TotalEmploymentSegments"⟩,
  ⟨b! "TotalOriginalCreditorSegments", .optional, b! "TotalOriginalCreditorSegments", b! "TotalOriginalCreditorSegments", b! "TotalOriginalCreditorSegments", b! "TotalOriginalCreditorSegments"⟩,
  ⟨b! "TotalPurchasedToSegments", .optional, b! "TotalPurchasedToSegments", b! "TotalPurchasedToSegments", b! "TotalPurchasedToSegments", b! "TotalPurchasedToSegments"⟩,
  ⟨b! "TotalMortgageInformationSegments", .optional, b! "TotalMortgageInformationSegments", b! "TotalMortgageInformationSegments", b! "TotalMortgageInformationSegments", b! "TotalMortgageInformationSegments"⟩,
  ⟨b! "TotalPaymentInformationSegments", .optional, b! "TotalPaymentInformationSegments", b! "TotalPaymentInformationSegments", b! "TotalPaymentInformationSegments", b! "TotalPaymentInformationSegments"⟩,
  ⟨b! "TotalChangeSegments", .optional, b! "TotalChangeSegments", b! "TotalChangeSegments", b! "TotalChangeSegments", b! "TotalChangeSegments"⟩,
  ⟨b! "TotalSocialNumbersAllSegments", .optional, b! "TotalSocialNumbersAllSegments", b! "TotalSocialNumbersAllSegments", b! "TotalSocialNumbersAllSegments", b! "TotalSocialNumbersAllSegments"⟩,
  ⟨b! "TotalSocialNumbersBaseSegments", .optional, b! "TotalSocialNumbersBaseSegments", b! "TotalSocialNumbersBaseSegments", b! "TotalSocialNumbersBaseSegments", b! "TotalSocialNumbersBaseSegments"⟩,
  ⟨b! "TotalSocialNumbersJ1Segments", .optional, b! "TotalSocialNumbersJ1Segments", b! "TotalSocialNumbersJ1Segments", b! "TotalSocialNumbersJ1Segments", b! "TotalSocialNumbersJ1Segments"⟩,
  ⟨b! "TotalSocialNumbersJ2Segments", .optional, b! "TotalSocialNumbersJ2Segments", b! "TotalSocialNumbersJ2Segments", b! "TotalSocialNumbersJ2Segments", b! "TotalSocialNumbersJ2Segments"⟩,
  ⟨b! "TotalDatesBirthAllSegments", .optional, b! "TotalDatesBirthAllSegments", b! "TotalDatesBirthAllSegments", b! "TotalDatesBirthAllSegments", b! "TotalDatesBirthAllSegments"⟩,
  ⟨b! "TotalDatesBirthBaseSegments", .optional, b! "TotalDatesBirthBaseSegments", b! "TotalDatesBirthBaseSegments", b! "TotalDatesBirthBaseSegments", b! "TotalDatesBirthBaseSegments"⟩,
  ⟨b! "TotalDatesBirthJ1Segments", .optional, b! "TotalDatesBirthJ1Segments", b! "TotalDatesBirthJ1Segments", b! "TotalDatesBirthJ1Segments", b! "TotalDatesBirthJ1Segments"⟩,
  ⟨b! "TotalDatesBirthJ2Segments", .optional, b! "TotalDatesBirthJ2Segments", b! "TotalDatesBirthJ2Segments", b! "TotalDatesBirthJ2Segments", b! "TotalDatesBirthJ2Segments"⟩,
  ⟨b! "TotalTelephoneNumbersAllSegments", .optional, b! "TotalTelephoneNumbersAllSegments", b! "TotalTelephoneNumbersAllSegments", b! "TotalTelephoneNumbersAllSegments", b! "TotalTelephoneNumbersAllSegments"⟩],
  [(b! "RecordDescriptorWord", 0), (b! "RecordIdentifier", 1)], 2⟩

/-- The types of the client. -/
def clientTypes : List ClientType := [accessorsBaseSegment, accessorsDataRecord, accessorsFile, accessorsHeaderRecord, accessorsJ1Segment,
  accessorsJ2Segment, accessorsK1Segment, accessorsK2Segment, accessorsK3Segment, accessorsK4Segment,
  accessorsL1Segment, accessorsN1Segment, accessorsTrailerRecord]

end Metro2
