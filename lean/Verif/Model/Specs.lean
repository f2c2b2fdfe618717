import Verif.Model.Types

/-!
The 14 layout tables of /repo/pkg/lib/specifications.go and the exported fields of the record and
segment structs. Produced by a script from the Go text. A Go map has no order;
rows are listed here in source order.
-/

namespace Metro2

/-- `baseSegmentCharacterFormat`, /repo/pkg/lib/specifications.go:21-70. -/
def baseSegmentCharacterFormat : Format := [
  (.BlockDescriptorWord, ⟨0, 4, .numeric, false, true, .applicable⟩),
  (.RecordDescriptorWord, ⟨0, 4, .numeric, false, false, .required⟩),
  (.ProcessingIndicator, ⟨4, 1, .numeric, false, false, .nullable⟩),
  (.TimeStamp, ⟨5, 14, .timestamp, false, false, .nullable⟩),
  (.CorrectionIndicator, ⟨19, 1, .numeric, true, false, .nullable⟩),
  (.IdentificationNumber, ⟨20, 20, .alphanumeric, false, false, .required⟩),
  (.CycleIdentifier, ⟨40, 2, .alphanumeric, false, false, .applicable⟩),
  (.ConsumerAccountNumber, ⟨42, 30, .alphanumeric, false, false, .required⟩),
  (.PortfolioType, ⟨72, 1, .alphanumeric, false, false, .required⟩),
  (.AccountType, ⟨73, 2, .alphanumeric, false, false, .required⟩),
  (.DateOpened, ⟨75, 8, .date, false, false, .required⟩),
  (.CreditLimit, ⟨83, 9, .numeric, true, false, .applicable⟩),
  (.HighestCredit, ⟨92, 9, .numeric, true, false, .nullable⟩),
  (.TermsDuration, ⟨101, 3, .alphanumeric, false, false, .required⟩),
  (.TermsFrequency, ⟨104, 1, .alphanumeric, false, false, .applicable⟩),
  (.ScheduledMonthlyPaymentAmount, ⟨105, 9, .numeric, false, false, .applicable⟩),
  (.ActualPaymentAmount, ⟨114, 9, .numeric, false, false, .applicable⟩),
  (.AccountStatus, ⟨123, 2, .alphanumeric, false, false, .required⟩),
  (.PaymentRating, ⟨125, 1, .alphanumeric, false, false, .applicable⟩),
  (.PaymentHistoryProfile, ⟨126, 24, .alphanumeric, false, false, .required⟩),
  (.SpecialComment, ⟨150, 2, .alphanumeric, false, false, .applicable⟩),
  (.ComplianceConditionCode, ⟨152, 2, .alphanumeric, false, false, .applicable⟩),
  (.CurrentBalance, ⟨154, 9, .numeric, false, false, .applicable⟩),
  (.AmountPastDue, ⟨163, 9, .numeric, false, false, .applicable⟩),
  (.OriginalChargeOffAmount, ⟨172, 9, .numeric, false, false, .applicable⟩),
  (.DateAccountInformation, ⟨181, 8, .date, false, false, .required⟩),
  (.DateFirstDelinquency, ⟨189, 8, .date, false, false, .applicable⟩),
  (.DateClosed, ⟨197, 8, .date, true, false, .applicable⟩),
  (.DateLastPayment, ⟨205, 8, .date, false, false, .applicable⟩),
  (.InterestTypeIndicator, ⟨213, 1, .alphanumeric, false, false, .nullable⟩),
  (.Reserved2, ⟨214, 17, .alphanumeric, false, false, .nullable⟩),
  (.Surname, ⟨231, 25, .alphanumeric, false, false, .required⟩),
  (.FirstName, ⟨256, 20, .alphanumeric, false, false, .required⟩),
  (.MiddleName, ⟨276, 20, .alphanumeric, false, false, .applicable⟩),
  (.GenerationCode, ⟨296, 1, .alphanumeric, false, false, .applicable⟩),
  (.SocialSecurityNumber, ⟨297, 9, .numeric, false, false, .nullable⟩),
  (.DateBirth, ⟨306, 8, .date, false, false, .nullable⟩),
  (.TelephoneNumber, ⟨314, 10, .numeric, false, false, .nullable⟩),
  (.ECOACode, ⟨324, 1, .alphanumeric, false, false, .required⟩),
  (.ConsumerInformationIndicator, ⟨325, 2, .alphanumeric, false, false, .applicable⟩),
  (.CountryCode, ⟨327, 2, .alphanumeric, false, false, .nullable⟩),
  (.FirstLineAddress, ⟨329, 32, .alphanumeric, false, false, .required⟩),
  (.SecondLineAddress, ⟨361, 32, .alphanumeric, false, false, .applicable⟩),
  (.City, ⟨393, 20, .alphanumeric, false, false, .required⟩),
  (.State, ⟨413, 2, .alphanumeric, false, false, .required⟩),
  (.ZipCode, ⟨415, 9, .alphanumeric, false, false, .required⟩),
  (.AddressIndicator, ⟨424, 1, .alphanumeric, false, false, .nullable⟩),
  (.ResidenceCode, ⟨425, 1, .alphanumeric, false, false, .nullable⟩)]

/-- `baseSegmentPackedFormat`, /repo/pkg/lib/specifications.go:71-120. -/
def baseSegmentPackedFormat : Format := [
  (.BlockDescriptorWord, ⟨0, 4, .descriptor, false, true, .applicable⟩),
  (.RecordDescriptorWord, ⟨0, 4, .descriptor, false, false, .required⟩),
  (.ProcessingIndicator, ⟨4, 1, .numeric, false, false, .nullable⟩),
  (.TimeStamp, ⟨5, 8, .packedTimestamp, false, false, .nullable⟩),
  (.CorrectionIndicator, ⟨13, 1, .numeric, true, false, .nullable⟩),
  (.IdentificationNumber, ⟨14, 20, .alphanumeric, false, false, .required⟩),
  (.CycleIdentifier, ⟨34, 2, .alphanumeric, false, false, .applicable⟩),
  (.ConsumerAccountNumber, ⟨36, 30, .alphanumeric, false, false, .required⟩),
  (.PortfolioType, ⟨66, 1, .alphanumeric, false, false, .required⟩),
  (.AccountType, ⟨67, 2, .alphanumeric, false, false, .required⟩),
  (.DateOpened, ⟨69, 5, .packedDate, false, false, .required⟩),
  (.CreditLimit, ⟨74, 5, .packedNumber, true, false, .applicable⟩),
  (.HighestCredit, ⟨79, 5, .packedNumber, true, false, .nullable⟩),
  (.TermsDuration, ⟨84, 3, .alphanumeric, false, false, .required⟩),
  (.TermsFrequency, ⟨87, 1, .alphanumeric, false, false, .applicable⟩),
  (.ScheduledMonthlyPaymentAmount, ⟨88, 5, .packedNumber, false, false, .applicable⟩),
  (.ActualPaymentAmount, ⟨93, 5, .packedNumber, false, false, .applicable⟩),
  (.AccountStatus, ⟨98, 2, .alphanumeric, false, false, .required⟩),
  (.PaymentRating, ⟨100, 1, .alphanumeric, false, false, .applicable⟩),
  (.PaymentHistoryProfile, ⟨101, 24, .alphanumeric, false, false, .required⟩),
  (.SpecialComment, ⟨125, 2, .alphanumeric, false, false, .applicable⟩),
  (.ComplianceConditionCode, ⟨127, 2, .alphanumeric, false, false, .applicable⟩),
  (.CurrentBalance, ⟨129, 5, .packedNumber, false, false, .applicable⟩),
  (.AmountPastDue, ⟨134, 5, .packedNumber, false, false, .applicable⟩),
  (.OriginalChargeOffAmount, ⟨139, 5, .packedNumber, false, false, .applicable⟩),
  (.DateAccountInformation, ⟨144, 5, .packedDate, false, false, .required⟩),
  (.DateFirstDelinquency, ⟨149, 5, .packedDate, false, false, .applicable⟩),
  (.DateClosed, ⟨154, 5, .packedDate, true, false, .applicable⟩),
  (.DateLastPayment, ⟨159, 5, .packedDate, false, false, .applicable⟩),
  (.InterestTypeIndicator, ⟨164, 1, .alphanumeric, false, false, .nullable⟩),
  (.Reserved2, ⟨165, 17, .alphanumeric, false, false, .nullable⟩),
  (.Surname, ⟨182, 25, .alphanumeric, false, false, .required⟩),
  (.FirstName, ⟨207, 20, .alphanumeric, false, false, .required⟩),
  (.MiddleName, ⟨227, 20, .alphanumeric, false, false, .applicable⟩),
  (.GenerationCode, ⟨247, 1, .alphanumeric, false, false, .applicable⟩),
  (.SocialSecurityNumber, ⟨248, 5, .packedNumber, false, false, .nullable⟩),
  (.DateBirth, ⟨253, 5, .packedDate, false, false, .nullable⟩),
  (.TelephoneNumber, ⟨258, 6, .packedNumber, false, false, .nullable⟩),
  (.ECOACode, ⟨264, 1, .alphanumeric, false, false, .required⟩),
  (.ConsumerInformationIndicator, ⟨265, 2, .alphanumeric, false, false, .applicable⟩),
  (.CountryCode, ⟨267, 2, .alphanumeric, false, false, .nullable⟩),
  (.FirstLineAddress, ⟨269, 32, .alphanumeric, false, false, .required⟩),
  (.SecondLineAddress, ⟨301, 32, .alphanumeric, false, false, .applicable⟩),
  (.City, ⟨333, 20, .alphanumeric, false, false, .required⟩),
  (.State, ⟨353, 2, .alphanumeric, false, false, .required⟩),
  (.ZipCode, ⟨355, 9, .alphanumeric, false, false, .required⟩),
  (.AddressIndicator, ⟨364, 1, .alphanumeric, false, false, .nullable⟩),
  (.ResidenceCode, ⟨365, 1, .alphanumeric, false, false, .nullable⟩)]

/-- `headerRecordCharacterFormat`, /repo/pkg/lib/specifications.go:121-141. -/
def headerRecordCharacterFormat : Format := [
  (.BlockDescriptorWord, ⟨0, 4, .numeric, false, true, .applicable⟩),
  (.RecordDescriptorWord, ⟨0, 4, .numeric, false, false, .required⟩),
  (.RecordIdentifier, ⟨4, 6, .alphanumeric, false, false, .required⟩),
  (.CycleIdentifier, ⟨10, 2, .alphanumeric, false, false, .applicable⟩),
  (.InnovisProgramIdentifier, ⟨12, 10, .alphanumeric, false, false, .applicable⟩),
  (.EquifaxProgramIdentifier, ⟨22, 10, .alphanumeric, false, false, .applicable⟩),
  (.ExperianProgramIdentifier, ⟨32, 5, .alphanumeric, false, false, .applicable⟩),
  (.TransUnionProgramIdentifier, ⟨37, 10, .alphanumeric, false, false, .applicable⟩),
  (.ActivityDate, ⟨47, 8, .date, false, false, .required⟩),
  (.DateCreated, ⟨55, 8, .date, false, false, .required⟩),
  (.ProgramDate, ⟨63, 8, .date, false, false, .nullable⟩),
  (.ProgramRevisionDate, ⟨71, 8, .date, false, false, .nullable⟩),
  (.ReporterName, ⟨79, 40, .alphanumeric, false, false, .required⟩),
  (.ReporterAddress, ⟨119, 96, .alphanumeric, false, false, .required⟩),
  (.ReporterTelephoneNumber, ⟨215, 10, .numeric, false, false, .nullable⟩),
  (.SoftwareVendorName, ⟨225, 40, .alphanumeric, false, false, .applicable⟩),
  (.SoftwareVersionNumber, ⟨265, 5, .alphanumeric, false, false, .applicable⟩),
  (.PRBCProgramIdentifier, ⟨270, 10, .alphanumeric, false, false, .applicable⟩),
  (.Reserved, ⟨280, 146, .alphanumeric, false, false, .nullable⟩)]

/-- `headerRecordPackedFormat`, /repo/pkg/lib/specifications.go:142-162. -/
def headerRecordPackedFormat : Format := [
  (.BlockDescriptorWord, ⟨0, 4, .descriptor, false, true, .applicable⟩),
  (.RecordDescriptorWord, ⟨0, 4, .descriptor, false, false, .required⟩),
  (.RecordIdentifier, ⟨4, 6, .alphanumeric, false, false, .required⟩),
  (.CycleIdentifier, ⟨10, 2, .alphanumeric, false, false, .applicable⟩),
  (.InnovisProgramIdentifier, ⟨12, 10, .alphanumeric, false, false, .applicable⟩),
  (.EquifaxProgramIdentifier, ⟨22, 10, .alphanumeric, false, false, .applicable⟩),
  (.ExperianProgramIdentifier, ⟨32, 5, .alphanumeric, false, false, .applicable⟩),
  (.TransUnionProgramIdentifier, ⟨37, 10, .alphanumeric, false, false, .applicable⟩),
  (.ActivityDate, ⟨47, 8, .date, false, false, .required⟩),
  (.DateCreated, ⟨55, 8, .date, false, false, .required⟩),
  (.ProgramDate, ⟨63, 8, .date, false, false, .nullable⟩),
  (.ProgramRevisionDate, ⟨71, 8, .date, false, false, .nullable⟩),
  (.ReporterName, ⟨79, 40, .alphanumeric, false, false, .required⟩),
  (.ReporterAddress, ⟨119, 96, .alphanumeric, false, false, .required⟩),
  (.ReporterTelephoneNumber, ⟨215, 10, .numeric, false, false, .nullable⟩),
  (.SoftwareVendorName, ⟨225, 40, .alphanumeric, false, false, .applicable⟩),
  (.SoftwareVersionNumber, ⟨265, 5, .alphanumeric, false, false, .applicable⟩),
  (.PRBCProgramIdentifier, ⟨270, 10, .alphanumeric, false, false, .applicable⟩),
  (.Reserved, ⟨280, 86, .alphanumeric, false, false, .nullable⟩)]

/-- `trailerRecordCharacterFormat`, /repo/pkg/lib/specifications.go:163-211. -/
def trailerRecordCharacterFormat : Format := [
  (.RecordDescriptorWord, ⟨0, 4, .numeric, false, false, .required⟩),
  (.RecordIdentifier, ⟨4, 7, .alphanumeric, false, false, .required⟩),
  (.TotalBaseRecords, ⟨11, 9, .numeric, false, false, .required⟩),
  (.Reserved1, ⟨20, 9, .alphanumeric, false, false, .nullable⟩),
  (.TotalStatusCodeDF, ⟨29, 9, .numeric, false, false, .nullable⟩),
  (.TotalConsumerSegmentsJ1, ⟨38, 9, .numeric, false, false, .applicable⟩),
  (.TotalConsumerSegmentsJ2, ⟨47, 9, .numeric, false, false, .applicable⟩),
  (.BlockCount, ⟨56, 9, .numeric, false, false, .required⟩),
  (.TotalStatusCodeDA, ⟨65, 9, .numeric, false, false, .nullable⟩),
  (.TotalStatusCode05, ⟨74, 9, .numeric, false, false, .nullable⟩),
  (.TotalStatusCode11, ⟨83, 9, .numeric, false, false, .nullable⟩),
  (.TotalStatusCode13, ⟨92, 9, .numeric, false, false, .nullable⟩),
  (.TotalStatusCode61, ⟨101, 9, .numeric, false, false, .nullable⟩),
  (.TotalStatusCode62, ⟨110, 9, .numeric, false, false, .nullable⟩),
  (.TotalStatusCode63, ⟨119, 9, .numeric, false, false, .nullable⟩),
  (.TotalStatusCode64, ⟨128, 9, .numeric, false, false, .nullable⟩),
  (.TotalStatusCode65, ⟨137, 9, .numeric, false, false, .nullable⟩),
  (.TotalStatusCode71, ⟨146, 9, .numeric, false, false, .nullable⟩),
  (.TotalStatusCode78, ⟨155, 9, .numeric, false, false, .nullable⟩),
  (.TotalStatusCode80, ⟨164, 9, .numeric, false, false, .nullable⟩),
  (.TotalStatusCode82, ⟨173, 9, .numeric, false, false, .nullable⟩),
  (.TotalStatusCode83, ⟨182, 9, .numeric, false, false, .nullable⟩),
  (.TotalStatusCode84, ⟨191, 9, .numeric, false, false, .nullable⟩),
  (.TotalStatusCode88, ⟨200, 9, .numeric, false, false, .nullable⟩),
  (.TotalStatusCode89, ⟨209, 9, .numeric, false, false, .nullable⟩),
  (.TotalStatusCode93, ⟨218, 9, .numeric, false, false, .nullable⟩),
  (.TotalStatusCode94, ⟨227, 9, .numeric, false, false, .nullable⟩),
  (.TotalStatusCode95, ⟨236, 9, .numeric, false, false, .nullable⟩),
  (.TotalStatusCode96, ⟨245, 9, .numeric, false, false, .nullable⟩),
  (.TotalStatusCode97, ⟨254, 9, .numeric, false, false, .nullable⟩),
  (.TotalECOACodeZ, ⟨263, 9, .numeric, false, false, .nullable⟩),
  (.TotalEmploymentSegments, ⟨272, 9, .numeric, false, false, .nullable⟩),
  (.TotalOriginalCreditorSegments, ⟨281, 9, .numeric, false, false, .nullable⟩),
  (.TotalPurchasedToSegments, ⟨290, 9, .numeric, false, false, .nullable⟩),
  (.TotalMortgageInformationSegments, ⟨299, 9, .numeric, false, false, .nullable⟩),
  (.TotalPaymentInformationSegments, ⟨308, 9, .numeric, false, false, .nullable⟩),
  (.TotalChangeSegments, ⟨317, 9, .numeric, false, false, .nullable⟩),
  (.TotalSocialNumbersAllSegments, ⟨326, 9, .numeric, false, false, .nullable⟩),
  (.TotalSocialNumbersBaseSegments, ⟨335, 9, .numeric, false, false, .nullable⟩),
  (.TotalSocialNumbersJ1Segments, ⟨344, 9, .numeric, false, false, .nullable⟩),
  (.TotalSocialNumbersJ2Segments, ⟨353, 9, .numeric, false, false, .nullable⟩),
  (.TotalDatesBirthAllSegments, ⟨362, 9, .numeric, false, false, .nullable⟩),
  (.TotalDatesBirthBaseSegments, ⟨371, 9, .numeric, false, false, .nullable⟩),
  (.TotalDatesBirthJ1Segments, ⟨380, 9, .numeric, false, false, .nullable⟩),
  (.TotalDatesBirthJ2Segments, ⟨389, 9, .numeric, false, false, .nullable⟩),
  (.TotalTelephoneNumbersAllSegments, ⟨398, 9, .numeric, false, false, .nullable⟩),
  (.Reserved2, ⟨407, 19, .numeric, false, false, .nullable⟩)]

/-- `trailerRecordPackedFormat`, /repo/pkg/lib/specifications.go:212-260. -/
def trailerRecordPackedFormat : Format := [
  (.RecordDescriptorWord, ⟨0, 4, .descriptor, false, false, .required⟩),
  (.RecordIdentifier, ⟨4, 7, .alphanumeric, false, false, .required⟩),
  (.TotalBaseRecords, ⟨11, 5, .packedNumber, false, false, .required⟩),
  (.Reserved1, ⟨16, 5, .alphanumeric, false, false, .nullable⟩),
  (.TotalStatusCodeDF, ⟨21, 5, .packedNumber, false, false, .nullable⟩),
  (.TotalConsumerSegmentsJ1, ⟨26, 5, .packedNumber, false, false, .applicable⟩),
  (.TotalConsumerSegmentsJ2, ⟨31, 5, .packedNumber, false, false, .applicable⟩),
  (.BlockCount, ⟨36, 5, .packedNumber, false, false, .required⟩),
  (.TotalStatusCodeDA, ⟨41, 5, .packedNumber, false, false, .nullable⟩),
  (.TotalStatusCode05, ⟨46, 5, .packedNumber, false, false, .nullable⟩),
  (.TotalStatusCode11, ⟨51, 5, .packedNumber, false, false, .nullable⟩),
  (.TotalStatusCode13, ⟨56, 5, .packedNumber, false, false, .nullable⟩),
  (.TotalStatusCode61, ⟨61, 5, .packedNumber, false, false, .nullable⟩),
  (.TotalStatusCode62, ⟨66, 5, .packedNumber, false, false, .nullable⟩),
  (.TotalStatusCode63, ⟨71, 5, .packedNumber, false, false, .nullable⟩),
  (.TotalStatusCode64, ⟨76, 5, .packedNumber, false, false, .nullable⟩),
  (.TotalStatusCode65, ⟨81, 5, .packedNumber, false, false, .nullable⟩),
  (.TotalStatusCode71, ⟨86, 5, .packedNumber, false, false, .nullable⟩),
  (.TotalStatusCode78, ⟨91, 5, .packedNumber, false, false, .nullable⟩),
  (.TotalStatusCode80, ⟨96, 5, .packedNumber, false, false, .nullable⟩),
  (.TotalStatusCode82, ⟨101, 5, .packedNumber, false, false, .nullable⟩),
  (.TotalStatusCode83, ⟨106, 5, .packedNumber, false, false, .nullable⟩),
  (.TotalStatusCode84, ⟨111, 5, .packedNumber, false, false, .nullable⟩),
  (.TotalStatusCode88, ⟨116, 5, .packedNumber, false, false, .nullable⟩),
  (.TotalStatusCode89, ⟨121, 5, .packedNumber, false, false, .nullable⟩),
  (.TotalStatusCode93, ⟨126, 5, .packedNumber, false, false, .nullable⟩),
  (.TotalStatusCode94, ⟨131, 5, .packedNumber, false, false, .nullable⟩),
  (.TotalStatusCode95, ⟨136, 5, .packedNumber, false, false, .nullable⟩),
  (.TotalStatusCode96, ⟨141, 5, .packedNumber, false, false, .nullable⟩),
  (.TotalStatusCode97, ⟨146, 5, .packedNumber, false, false, .nullable⟩),
  (.TotalECOACodeZ, ⟨151, 5, .packedNumber, false, false, .nullable⟩),
  (.TotalEmploymentSegments, ⟨156, 5, .packedNumber, false, false, .nullable⟩),
  (.TotalOriginalCreditorSegments, ⟨161, 5, .packedNumber, false, false, .nullable⟩),
  (.TotalPurchasedToSegments, ⟨166, 5, .packedNumber, false, false, .nullable⟩),
  (.TotalMortgageInformationSegments, ⟨171, 5, .packedNumber, false, false, .nullable⟩),
  (.TotalPaymentInformationSegments, ⟨176, 5, .packedNumber, false, false, .nullable⟩),
  (.TotalChangeSegments, ⟨181, 5, .packedNumber, false, false, .nullable⟩),
  (.TotalSocialNumbersAllSegments, ⟨186, 5, .packedNumber, false, false, .nullable⟩),
  (.TotalSocialNumbersBaseSegments, ⟨191, 5, .packedNumber, false, false, .nullable⟩),
  (.TotalSocialNumbersJ1Segments, ⟨196, 5, .packedNumber, false, false, .nullable⟩),
  (.TotalSocialNumbersJ2Segments, ⟨201, 5, .packedNumber, false, false, .nullable⟩),
  (.TotalDatesBirthAllSegments, ⟨206, 5, .packedNumber, false, false, .nullable⟩),
  (.TotalDatesBirthBaseSegments, ⟨211, 5, .packedNumber, false, false, .nullable⟩),
  (.TotalDatesBirthJ1Segments, ⟨216, 5, .packedNumber, false, false, .nullable⟩),
  (.TotalDatesBirthJ2Segments, ⟨221, 5, .packedNumber, false, false, .nullable⟩),
  (.TotalTelephoneNumbersAllSegments, ⟨226, 5, .packedNumber, false, false, .nullable⟩),
  (.Reserved2, ⟨231, 135, .alphanumeric, false, false, .nullable⟩)]

/-- `j1SegmentFormat`, /repo/pkg/lib/specifications.go:261-274. -/
def j1SegmentFormat : Format := [
  (.SegmentIdentifier, ⟨0, 2, .alphanumeric, false, false, .required⟩),
  (.Reserved1, ⟨2, 1, .alphanumeric, false, false, .nullable⟩),
  (.Surname, ⟨3, 25, .alphanumeric, false, false, .required⟩),
  (.FirstName, ⟨28, 20, .alphanumeric, false, false, .required⟩),
  (.MiddleName, ⟨48, 20, .alphanumeric, false, false, .applicable⟩),
  (.GenerationCode, ⟨68, 1, .alphanumeric, false, false, .applicable⟩),
  (.SocialSecurityNumber, ⟨69, 9, .numeric, false, false, .nullable⟩),
  (.DateBirth, ⟨78, 8, .date, false, false, .nullable⟩),
  (.TelephoneNumber, ⟨86, 10, .numeric, false, false, .nullable⟩),
  (.ECOACode, ⟨96, 1, .alphanumeric, false, false, .required⟩),
  (.ConsumerInformationIndicator, ⟨97, 2, .alphanumeric, false, false, .applicable⟩),
  (.Reserved2, ⟨99, 1, .alphanumeric, false, false, .nullable⟩)]

/-- `j2SegmentFormat`, /repo/pkg/lib/specifications.go:275-296. -/
def j2SegmentFormat : Format := [
  (.SegmentIdentifier, ⟨0, 2, .alphanumeric, false, false, .required⟩),
  (.Reserved1, ⟨2, 1, .alphanumeric, false, false, .nullable⟩),
  (.Surname, ⟨3, 25, .alphanumeric, false, false, .required⟩),
  (.FirstName, ⟨28, 20, .alphanumeric, false, false, .nullable⟩),
  (.MiddleName, ⟨48, 20, .alphanumeric, false, false, .applicable⟩),
  (.GenerationCode, ⟨68, 1, .alphanumeric, false, false, .applicable⟩),
  (.SocialSecurityNumber, ⟨69, 9, .numeric, false, false, .nullable⟩),
  (.DateBirth, ⟨78, 8, .date, false, false, .nullable⟩),
  (.TelephoneNumber, ⟨86, 10, .numeric, false, false, .nullable⟩),
  (.ECOACode, ⟨96, 1, .alphanumeric, false, false, .required⟩),
  (.ConsumerInformationIndicator, ⟨97, 2, .alphanumeric, false, false, .applicable⟩),
  (.CountryCode, ⟨99, 2, .alphanumeric, false, false, .nullable⟩),
  (.FirstLineAddress, ⟨101, 32, .alphanumeric, false, false, .required⟩),
  (.SecondLineAddress, ⟨133, 32, .alphanumeric, false, false, .applicable⟩),
  (.City, ⟨165, 20, .alphanumeric, false, false, .required⟩),
  (.State, ⟨185, 2, .alphanumeric, false, false, .required⟩),
  (.ZipCode, ⟨187, 9, .alphanumeric, false, false, .required⟩),
  (.AddressIndicator, ⟨196, 1, .alphanumeric, false, false, .nullable⟩),
  (.ResidenceCode, ⟨197, 1, .alphanumeric, false, false, .nullable⟩),
  (.Reserved2, ⟨198, 2, .alphanumeric, false, false, .nullable⟩)]

/-- `k1SegmentFormat`, /repo/pkg/lib/specifications.go:297-301. -/
def k1SegmentFormat : Format := [
  (.SegmentIdentifier, ⟨0, 2, .alphanumeric, false, false, .required⟩),
  (.OriginalCreditorName, ⟨2, 30, .alphanumeric, false, false, .required⟩),
  (.CreditorClassification, ⟨32, 2, .numeric, false, false, .required⟩)]

/-- `k2SegmentFormat`, /repo/pkg/lib/specifications.go:302-307. -/
def k2SegmentFormat : Format := [
  (.SegmentIdentifier, ⟨0, 2, .alphanumeric, false, false, .required⟩),
  (.PurchasedIndicator, ⟨2, 1, .numeric, false, false, .required⟩),
  (.PurchasedName, ⟨3, 30, .alphanumeric, false, false, .required⟩),
  (.Reserved, ⟨33, 1, .alphanumeric, false, false, .nullable⟩)]

/-- `k3SegmentFormat`, /repo/pkg/lib/specifications.go:308-313. -/
def k3SegmentFormat : Format := [
  (.SegmentIdentifier, ⟨0, 2, .alphanumeric, false, false, .required⟩),
  (.AgencyIdentifier, ⟨2, 2, .numeric, false, false, .applicable⟩),
  (.AccountNumber, ⟨4, 18, .alphanumeric, false, false, .applicable⟩),
  (.MortgageIdentificationNumber, ⟨22, 18, .alphanumeric, false, false, .nullable⟩)]

/-- `k4SegmentFormat`, /repo/pkg/lib/specifications.go:314-321. -/
def k4SegmentFormat : Format := [
  (.SegmentIdentifier, ⟨0, 2, .alphanumeric, false, false, .required⟩),
  (.SpecializedPaymentIndicator, ⟨2, 2, .numeric, false, false, .required⟩),
  (.DeferredPaymentStartDate, ⟨4, 8, .date, false, false, .applicable⟩),
  (.BalloonPaymentDueDate, ⟨12, 8, .date, false, false, .applicable⟩),
  (.BalloonPaymentAmount, ⟨20, 9, .numeric, false, false, .applicable⟩),
  (.Reserved, ⟨29, 1, .alphanumeric, false, false, .nullable⟩)]

/-- `l1SegmentFormat`, /repo/pkg/lib/specifications.go:322-328. -/
def l1SegmentFormat : Format := [
  (.SegmentIdentifier, ⟨0, 2, .alphanumeric, false, false, .required⟩),
  (.ChangeIndicator, ⟨2, 1, .numeric, false, false, .required⟩),
  (.NewConsumerAccountNumber, ⟨3, 30, .alphanumeric, false, false, .applicable⟩),
  (.NewIdentificationNumber, ⟨33, 20, .alphanumeric, false, false, .applicable⟩),
  (.Reserved, ⟨53, 1, .alphanumeric, false, false, .nullable⟩)]

/-- `n1SegmentFormat`, /repo/pkg/lib/specifications.go:329-339. -/
def n1SegmentFormat : Format := [
  (.SegmentIdentifier, ⟨0, 2, .alphanumeric, false, false, .required⟩),
  (.EmployerName, ⟨2, 30, .alphanumeric, false, false, .required⟩),
  (.FirstLineEmployerAddress, ⟨32, 32, .alphanumeric, false, false, .nullable⟩),
  (.SecondLineEmployerAddress, ⟨64, 32, .alphanumeric, false, false, .nullable⟩),
  (.EmployerCity, ⟨96, 20, .alphanumeric, false, false, .nullable⟩),
  (.EmployerState, ⟨116, 2, .alphanumeric, false, false, .nullable⟩),
  (.ZipCode, ⟨118, 9, .alphanumeric, false, false, .nullable⟩),
  (.Occupation, ⟨127, 18, .alphanumeric, false, false, .applicable⟩),
  (.Reserved, ⟨145, 1, .alphanumeric, false, false, .nullable⟩)]

/-- Exported fields of `BaseSegment` in declaration order, with Go type and JSON tag,
/repo/pkg/lib/base_segment.go:24-512. -/
def baseSegmentStruct : List (F × FieldDecl) := [
  (.BlockDescriptorWord, ⟨.int, b! "blockDescriptorWord", true⟩),
  (.RecordDescriptorWord, ⟨.int, b! "recordDescriptorWord", false⟩),
  (.ProcessingIndicator, ⟨.int, b! "processingIndicator", false⟩),
  (.TimeStamp, ⟨.time, b! "timeStamp", false⟩),
  (.CorrectionIndicator, ⟨.int, b! "correctionIndicator", true⟩),
  (.IdentificationNumber, ⟨.str, b! "identificationNumber", false⟩),
  (.CycleIdentifier, ⟨.str, b! "cycleIdentifier", true⟩),
  (.ConsumerAccountNumber, ⟨.str, b! "consumerAccountNumber", false⟩),
  (.PortfolioType, ⟨.str, b! "portfolioType", false⟩),
  (.AccountType, ⟨.str, b! "accountType", false⟩),
  (.DateOpened, ⟨.time, b! "dateOpened", false⟩),
  (.CreditLimit, ⟨.int, b! "creditLimit", true⟩),
  (.HighestCredit, ⟨.int, b! "highestCredit", true⟩),
  (.TermsDuration, ⟨.str, b! "termsDuration", false⟩),
  (.TermsFrequency, ⟨.str, b! "termsFrequency", true⟩),
  (.ScheduledMonthlyPaymentAmount, ⟨.int, b! "scheduledMonthlyPaymentAmount", true⟩),
  (.ActualPaymentAmount, ⟨.int, b! "actualPaymentAmount", true⟩),
  (.AccountStatus, ⟨.str, b! "accountStatus", false⟩),
  (.PaymentRating, ⟨.str, b! "paymentRating", true⟩),
  (.PaymentHistoryProfile, ⟨.str, b! "paymentHistoryProfile", false⟩),
  (.SpecialComment, ⟨.str, b! "specialComment", true⟩),
  (.ComplianceConditionCode, ⟨.str, b! "complianceConditionCode", true⟩),
  (.CurrentBalance, ⟨.int, b! "currentBalance", false⟩),
  (.AmountPastDue, ⟨.int, b! "amountPastDue", true⟩),
  (.OriginalChargeOffAmount, ⟨.int, b! "originalChargeOffAmount", true⟩),
  (.DateAccountInformation, ⟨.time, b! "dateAccountInformation", false⟩),
  (.DateFirstDelinquency, ⟨.time, b! "dateFirstDelinquency", true⟩),
  (.DateClosed, ⟨.time, b! "dateClosed", true⟩),
  (.DateLastPayment, ⟨.time, b! "dateLastPayment", true⟩),
  (.InterestTypeIndicator, ⟨.str, b! "interestTypeIndicator", false⟩),
  (.Surname, ⟨.str, b! "surname", false⟩),
  (.FirstName, ⟨.str, b! "firstName", false⟩),
  (.MiddleName, ⟨.str, b! "middleName", true⟩),
  (.GenerationCode, ⟨.str, b! "generationCode", true⟩),
  (.SocialSecurityNumber, ⟨.int, b! "socialSecurityNumber", true⟩),
  (.DateBirth, ⟨.time, b! "dateBirth", true⟩),
  (.TelephoneNumber, ⟨.int64, b! "telephoneNumber", false⟩),
  (.ECOACode, ⟨.str, b! "ecoaCode", false⟩),
  (.ConsumerInformationIndicator, ⟨.str, b! "consumerInformationIndicator", true⟩),
  (.CountryCode, ⟨.str, b! "countryCode", false⟩),
  (.FirstLineAddress, ⟨.str, b! "firstLineAddress", false⟩),
  (.SecondLineAddress, ⟨.str, b! "secondLineAddress", true⟩),
  (.City, ⟨.str, b! "city", false⟩),
  (.State, ⟨.str, b! "state", false⟩),
  (.ZipCode, ⟨.str, b! "zipCode", false⟩),
  (.AddressIndicator, ⟨.str, b! "addressIndicator", false⟩),
  (.ResidenceCode, ⟨.str, b! "residenceCode", false⟩)]

/-- Exported fields of `HeaderRecord` in declaration order, with Go type and JSON tag,
/repo/pkg/lib/header_record.go:21-101. -/
def headerRecordStruct : List (F × FieldDecl) := [
  (.BlockDescriptorWord, ⟨.int, b! "blockDescriptorWord", true⟩),
  (.RecordDescriptorWord, ⟨.int, b! "recordDescriptorWord", false⟩),
  (.RecordIdentifier, ⟨.str, b! "recordIdentifier", false⟩),
  (.CycleIdentifier, ⟨.str, b! "cycleIdentifier", true⟩),
  (.InnovisProgramIdentifier, ⟨.str, b! "innovisProgramIdentifier", true⟩),
  (.EquifaxProgramIdentifier, ⟨.str, b! "equifaxProgramIdentifier", true⟩),
  (.ExperianProgramIdentifier, ⟨.str, b! "experianProgramIdentifier", true⟩),
  (.TransUnionProgramIdentifier, ⟨.str, b! "transUnionProgramIdentifier", true⟩),
  (.ActivityDate, ⟨.time, b! "activityDate", false⟩),
  (.DateCreated, ⟨.time, b! "dateCreated", false⟩),
  (.ProgramDate, ⟨.time, b! "programDate", false⟩),
  (.ProgramRevisionDate, ⟨.time, b! "programRevisionDate", false⟩),
  (.ReporterName, ⟨.str, b! "reporterName", false⟩),
  (.ReporterAddress, ⟨.str, b! "reporterAddress", false⟩),
  (.ReporterTelephoneNumber, ⟨.int64, b! "reporterTelephoneNumber", false⟩),
  (.SoftwareVendorName, ⟨.str, b! "softwareVendorName", true⟩),
  (.SoftwareVersionNumber, ⟨.str, b! "softwareVersionNumber", true⟩),
  (.PRBCProgramIdentifier, ⟨.str, b! "prbcProgramIdentifier", true⟩)]

/-- Exported fields of `TrailerRecord` in declaration order, with Go type and JSON tag,
/repo/pkg/lib/trailer_record.go:21-165. -/
def trailerRecordStruct : List (F × FieldDecl) := [
  (.RecordDescriptorWord, ⟨.int, b! "recordDescriptorWord", false⟩),
  (.RecordIdentifier, ⟨.str, b! "recordIdentifier", false⟩),
  (.TotalBaseRecords, ⟨.int, b! "totalBaseRecords", false⟩),
  (.TotalStatusCodeDF, ⟨.int, b! "totalStatusCodeDF", false⟩),
  (.TotalConsumerSegmentsJ1, ⟨.int, b! "totalConsumerSegmentsJ1", true⟩),
  (.TotalConsumerSegmentsJ2, ⟨.int, b! "totalConsumerSegmentsJ2", true⟩),
  (.BlockCount, ⟨.int, b! "blockCount", false⟩),
  (.TotalStatusCodeDA, ⟨.int, b! "totalStatusCodeDA", false⟩),
  (.TotalStatusCode05, ⟨.int, b! "totalStatusCode05", false⟩),
  (.TotalStatusCode11, ⟨.int, b! "totalStatusCode11", false⟩),
  (.TotalStatusCode13, ⟨.int, b! "totalStatusCode13", false⟩),
  (.TotalStatusCode61, ⟨.int, b! "totalStatusCode61", false⟩),
  (.TotalStatusCode62, ⟨.int, b! "totalStatusCode62", false⟩),
  (.TotalStatusCode63, ⟨.int, b! "totalStatusCode63", false⟩),
  (.TotalStatusCode64, ⟨.int, b! "totalStatusCode64", false⟩),
  (.TotalStatusCode65, ⟨.int, b! "totalStatusCode65", false⟩),
  (.TotalStatusCode71, ⟨.int, b! "totalStatusCode71", false⟩),
  (.TotalStatusCode78, ⟨.int, b! "totalStatusCode78", false⟩),
  (.TotalStatusCode80, ⟨.int, b! "totalStatusCode80", false⟩),
  (.TotalStatusCode82, ⟨.int, b! "totalStatusCode82", false⟩),
  (.TotalStatusCode83, ⟨.int, b! "totalStatusCode83", false⟩),
  (.TotalStatusCode84, ⟨.int, b! "totalStatusCode84", false⟩),
  (.TotalStatusCode88, ⟨.int, b! "totalStatusCode88", false⟩),
  (.TotalStatusCode89, ⟨.int, b! "totalStatusCode89", false⟩),
  (.TotalStatusCode93, ⟨.int, b! "totalStatusCode93", false⟩),
  (.TotalStatusCode94, ⟨.int, b! "totalStatusCode94", false⟩),
  (.TotalStatusCode95, ⟨.int, b! "totalStatusCode95", false⟩),
  (.TotalStatusCode96, ⟨.int, b! "totalStatusCode96", false⟩),
  (.TotalStatusCode97, ⟨.int, b! "totalStatusCode97", false⟩),
  (.TotalECOACodeZ, ⟨.int, b! "totalECOACodeZ", false⟩),
  (.TotalEmploymentSegments, ⟨.int, b! "totalEmploymentSegments", false⟩),
  (.TotalOriginalCreditorSegments, ⟨.int, b! "totalOriginalCreditorSegments", false⟩),
  (.TotalPurchasedToSegments, ⟨.int, b! "totalPurchasedToSegments", false⟩),
  (.TotalMortgageInformationSegments, ⟨.int, b! "totalMortgageInformationSegments", false⟩),
  (.TotalPaymentInformationSegments, ⟨.int, b! "totalPaymentInformationSegments", false⟩),
  (.TotalChangeSegments, ⟨.int, b! "totalChangeSegments", false⟩),
  (.TotalSocialNumbersAllSegments, ⟨.int, b! "totalSocialNumbersAllSegments", false⟩),
  (.TotalSocialNumbersBaseSegments, ⟨.int, b! "totalSocialNumbersBaseSegments", false⟩),
  (.TotalSocialNumbersJ1Segments, ⟨.int, b! "totalSocialNumbersJ1Segments", false⟩),
  (.TotalSocialNumbersJ2Segments, ⟨.int, b! "totalSocialNumbersJ2Segments", false⟩),
  (.TotalDatesBirthAllSegments, ⟨.int, b! "totalDatesBirthAllSegments", false⟩),
  (.TotalDatesBirthBaseSegments, ⟨.int, b! "totalDatesBirthBaseSegments", false⟩),
  (.TotalDatesBirthJ1Segments, ⟨.int, b! "totalDatesBirthJ1Segments", false⟩),
  (.TotalDatesBirthJ2Segments, ⟨.int, b! "totalDatesBirthJ2Segments", false⟩),
  (.TotalTelephoneNumbersAllSegments, ⟨.int, b! "totalTelephoneNumbersAllSegments", false⟩)]

/-- Exported fields of `J1Segment` in declaration order, with Go type and JSON tag,
/repo/pkg/lib/j1_segment.go:17-107. -/
def j1SegmentStruct : List (F × FieldDecl) := [
  (.SegmentIdentifier, ⟨.str, b! "segmentIdentifier", false⟩),
  (.Surname, ⟨.str, b! "surname", false⟩),
  (.FirstName, ⟨.str, b! "firstName", false⟩),
  (.MiddleName, ⟨.str, b! "middleName", true⟩),
  (.GenerationCode, ⟨.str, b! "generationCode", true⟩),
  (.SocialSecurityNumber, ⟨.int, b! "socialSecurityNumber", true⟩),
  (.DateBirth, ⟨.time, b! "dateBirth", true⟩),
  (.TelephoneNumber, ⟨.int64, b! "telephoneNumber", false⟩),
  (.ECOACode, ⟨.str, b! "ecoaCode", false⟩),
  (.ConsumerInformationIndicator, ⟨.str, b! "consumerInformationIndicator", true⟩)]

/-- Exported fields of `J2Segment` in declaration order, with Go type and JSON tag,
/repo/pkg/lib/j2_segment.go:17-163. -/
def j2SegmentStruct : List (F × FieldDecl) := [
  (.SegmentIdentifier, ⟨.str, b! "segmentIdentifier", false⟩),
  (.Surname, ⟨.str, b! "surname", false⟩),
  (.FirstName, ⟨.str, b! "firstName", false⟩),
  (.MiddleName, ⟨.str, b! "middleName", true⟩),
  (.GenerationCode, ⟨.str, b! "generationCode", true⟩),
  (.SocialSecurityNumber, ⟨.int, b! "socialSecurityNumber", true⟩),
  (.DateBirth, ⟨.time, b! "dateBirth", true⟩),
  (.TelephoneNumber, ⟨.int64, b! "telephoneNumber", false⟩),
  (.ECOACode, ⟨.str, b! "ecoaCode", false⟩),
  (.ConsumerInformationIndicator, ⟨.str, b! "consumerInformationIndicator", true⟩),
  (.CountryCode, ⟨.str, b! "countryCode", false⟩),
  (.FirstLineAddress, ⟨.str, b! "firstLineAddress", false⟩),
  (.SecondLineAddress, ⟨.str, b! "secondLineAddress", true⟩),
  (.City, ⟨.str, b! "city", false⟩),
  (.State, ⟨.str, b! "state", false⟩),
  (.ZipCode, ⟨.str, b! "zipCode", false⟩),
  (.AddressIndicator, ⟨.str, b! "addressIndicator", false⟩),
  (.ResidenceCode, ⟨.str, b! "residenceCode", false⟩)]

/-- Exported fields of `K1Segment` in declaration order, with Go type and JSON tag,
/repo/pkg/lib/kn_segment.go:20-62. -/
def k1SegmentStruct : List (F × FieldDecl) := [
  (.SegmentIdentifier, ⟨.str, b! "segmentIdentifier", false⟩),
  (.OriginalCreditorName, ⟨.str, b! "originalCreditorName", false⟩),
  (.CreditorClassification, ⟨.int, b! "creditorClassification", false⟩)]

/-- Exported fields of `K2Segment` in declaration order, with Go type and JSON tag,
/repo/pkg/lib/kn_segment.go:127-143. -/
def k2SegmentStruct : List (F × FieldDecl) := [
  (.SegmentIdentifier, ⟨.str, b! "segmentIdentifier", false⟩),
  (.PurchasedIndicator, ⟨.int, b! "purchasedIndicator", false⟩),
  (.PurchasedName, ⟨.str, b! "purchasedName", false⟩)]

/-- Exported fields of `K3Segment` in declaration order, with Go type and JSON tag,
/repo/pkg/lib/kn_segment.go:214-236. -/
def k3SegmentStruct : List (F × FieldDecl) := [
  (.SegmentIdentifier, ⟨.str, b! "segmentIdentifier", false⟩),
  (.AgencyIdentifier, ⟨.int, b! "agencyIdentifier", true⟩),
  (.AccountNumber, ⟨.str, b! "accountNumber", true⟩),
  (.MortgageIdentificationNumber, ⟨.str, b! "mortgageIdentificationNumber", false⟩)]

/-- Exported fields of `K4Segment` in declaration order, with Go type and JSON tag,
/repo/pkg/lib/kn_segment.go:307-330. -/
def k4SegmentStruct : List (F × FieldDecl) := [
  (.SegmentIdentifier, ⟨.str, b! "segmentIdentifier", false⟩),
  (.SpecializedPaymentIndicator, ⟨.int, b! "specializedPaymentIndicator", false⟩),
  (.DeferredPaymentStartDate, ⟨.time, b! "deferredPaymentStartDate", true⟩),
  (.BalloonPaymentDueDate, ⟨.time, b! "balloonPaymentDueDate", true⟩),
  (.BalloonPaymentAmount, ⟨.int, b! "balloonPaymentAmount", false⟩)]

/-- Exported fields of `L1Segment` in declaration order, with Go type and JSON tag,
/repo/pkg/lib/l1_segment.go:17-40. -/
def l1SegmentStruct : List (F × FieldDecl) := [
  (.SegmentIdentifier, ⟨.str, b! "segmentIdentifier", false⟩),
  (.ChangeIndicator, ⟨.int, b! "changeIndicator", false⟩),
  (.NewConsumerAccountNumber, ⟨.str, b! "newConsumerAccountNumber", true⟩),
  (.NewIdentificationNumber, ⟨.str, b! "newIdentificationNumber", true⟩)]

/-- Exported fields of `N1Segment` in declaration order, with Go type and JSON tag,
/repo/pkg/lib/n1_segment.go:13-43. -/
def n1SegmentStruct : List (F × FieldDecl) := [
  (.SegmentIdentifier, ⟨.str, b! "segmentIdentifier", false⟩),
  (.EmployerName, ⟨.str, b! "employerName", false⟩),
  (.FirstLineEmployerAddress, ⟨.str, b! "firstLineEmployerAddress", false⟩),
  (.SecondLineEmployerAddress, ⟨.str, b! "secondLineEmployerAddress", false⟩),
  (.EmployerCity, ⟨.str, b! "employerCity", false⟩),
  (.EmployerState, ⟨.str, b! "employerState", false⟩),
  (.ZipCode, ⟨.str, b! "zipCode", false⟩),
  (.Occupation, ⟨.str, b! "occupation", false⟩)]

end Metro2
