import Verif.Model.Server

/-!
The client package, /repo/pkg/client (generated from the interface description): its record types in JSON, and its calls.
-/

namespace Metro2

/-! ### Record types

The type `int` of a declaration is `int32` here. A field declared `omitempty` is a pointer. Names of fields are those of the service
(`EcoaCode` and `PrbcProgramIdentifier` are spelt differently in Go; their keys are the same). Produced by a script from the Go text, which also
checked every `ToMap` against its struct. -/

/-- `HeaderRecord` of the client, /repo/pkg/client/model_header_record.go:22-41; `ToMap` (602-647) writes the same keys. -/
def clientHeaderRecord : List (F × FieldDecl) := [
  (.BlockDescriptorWord, ⟨.int, b! "blockDescriptorWord", true⟩),
  (.RecordDescriptorWord, ⟨.int, b! "recordDescriptorWord", false⟩),
  (.RecordIdentifier, ⟨.str, b! "recordIdentifier", false⟩),
  (.CycleIdentifier, ⟨.str, b! "cycleIdentifier", true⟩),
  (.InnovisProgramIdentifier, ⟨.str, b! "innovisProgramIdentifier", true⟩),
  (.EquifaxProgramIdentifier, ⟨.str, b! "equifaxProgramIdentifier", true⟩),
  (.ExperianProgramIdentifier, ⟨.str, b! "experianProgramIdentifier", true⟩),
  (.TransUnionProgramIdentifier, ⟨.str, b! "transUnionProgramIdentifier", true⟩),
  (.ActivityDate, ⟨.time, b! "activityDate", false⟩),
  (.DateCreated, ⟨.time, b! "dateCreated", false⟩),
  (.ProgramDate, ⟨.time, b! "programDate", true⟩),
  (.ProgramRevisionDate, ⟨.time, b! "programRevisionDate", true⟩),
  (.ReporterName, ⟨.str, b! "reporterName", false⟩),
  (.ReporterAddress, ⟨.str, b! "reporterAddress", false⟩),
  (.ReporterTelephoneNumber, ⟨.int64, b! "reporterTelephoneNumber", true⟩),
  (.SoftwareVendorName, ⟨.str, b! "softwareVendorName", true⟩),
  (.SoftwareVersionNumber, ⟨.str, b! "softwareVersionNumber", true⟩),
  (.PRBCProgramIdentifier, ⟨.str, b! "prbcProgramIdentifier", true⟩)]

/-- `BaseSegment` of the client, /repo/pkg/client/model_base_segment.go:22-68; `ToMap` (1423-1529) writes the same keys. -/
def clientBaseSegment : List (F × FieldDecl) := [
  (.BlockDescriptorWord, ⟨.int, b! "blockDescriptorWord", true⟩),
  (.RecordDescriptorWord, ⟨.int, b! "recordDescriptorWord", false⟩),
  (.TimeStamp, ⟨.time, b! "timeStamp", true⟩),
  (.IdentificationNumber, ⟨.str, b! "identificationNumber", false⟩),
  (.CycleIdentifier, ⟨.str, b! "cycleIdentifier", true⟩),
  (.ConsumerAccountNumber, ⟨.str, b! "consumerAccountNumber", false⟩),
  (.PortfolioType, ⟨.str, b! "portfolioType", true⟩),
  (.AccountType, ⟨.str, b! "accountType", false⟩),
  (.DateOpened, ⟨.time, b! "dateOpened", true⟩),
  (.CreditLimit, ⟨.int, b! "creditLimit", true⟩),
  (.HighestCredit, ⟨.int, b! "highestCredit", false⟩),
  (.TermsDuration, ⟨.str, b! "termsDuration", false⟩),
  (.TermsFrequency, ⟨.str, b! "termsFrequency", true⟩),
  (.ScheduledMonthlyPaymentAmount, ⟨.int, b! "scheduledMonthlyPaymentAmount", true⟩),
  (.ActualPaymentAmount, ⟨.int, b! "actualPaymentAmount", true⟩),
  (.AccountStatus, ⟨.str, b! "accountStatus", false⟩),
  (.PaymentRating, ⟨.str, b! "paymentRating", true⟩),
  (.PaymentHistoryProfile, ⟨.str, b! "paymentHistoryProfile", false⟩),
  (.SpecialComment, ⟨.str, b! "specialComment", true⟩),
  (.ComplianceConditionCode, ⟨.str, b! "complianceConditionCode", true⟩),
  (.CurrentBalance, ⟨.int, b! "currentBalance", false⟩),
  (.AmountPastDue, ⟨.int, b! "amountPastDue", true⟩),
  (.OriginalChargeOffAmount, ⟨.int, b! "originalChargeOffAmount", true⟩),
  (.DateAccountInformation, ⟨.time, b! "dateAccountInformation", false⟩),
  (.DateFirstDelinquency, ⟨.time, b! "dateFirstDelinquency", true⟩),
  (.DateClosed, ⟨.time, b! "dateClosed", true⟩),
  (.DateLastPayment, ⟨.time, b! "dateLastPayment", true⟩),
  (.InterestTypeIndicator, ⟨.str, b! "interestTypeIndicator", true⟩),
  (.Surname, ⟨.str, b! "surname", false⟩),
  (.FirstName, ⟨.str, b! "firstName", false⟩),
  (.MiddleName, ⟨.str, b! "middleName", true⟩),
  (.GenerationCode, ⟨.str, b! "generationCode", true⟩),
  (.SocialSecurityNumber, ⟨.int, b! "socialSecurityNumber", true⟩),
  (.DateBirth, ⟨.time, b! "dateBirth", true⟩),
  (.TelephoneNumber, ⟨.int64, b! "telephoneNumber", true⟩),
  (.ECOACode, ⟨.str, b! "ecoaCode", false⟩),
  (.ConsumerInformationIndicator, ⟨.str, b! "consumerInformationIndicator", true⟩),
  (.CountryCode, ⟨.str, b! "countryCode", true⟩),
  (.FirstLineAddress, ⟨.str, b! "firstLineAddress", false⟩),
  (.SecondLineAddress, ⟨.str, b! "secondLineAddress", true⟩),
  (.City, ⟨.str, b! "city", true⟩),
  (.State, ⟨.str, b! "state", false⟩),
  (.ZipCode, ⟨.str, b! "zipCode", false⟩),
  (.AddressIndicator, ⟨.str, b! "addressIndicator", true⟩),
  (.ResidenceCode, ⟨.str, b! "residenceCode", true⟩)]

/-- `TrailerRecord` of the client, /repo/pkg/client/model_trailer_record.go:21-68; `ToMap` (1553-1690) writes the same keys. -/
def clientTrailerRecord : List (F × FieldDecl) := [
  (.BlockDescriptorWord, ⟨.int, b! "blockDescriptorWord", true⟩),
  (.RecordDescriptorWord, ⟨.int, b! "recordDescriptorWord", false⟩),
  (.RecordIdentifier, ⟨.str, b! "recordIdentifier", false⟩),
  (.TotalBaseRecords, ⟨.int, b! "totalBaseRecords", true⟩),
  (.TotalStatusCodeDF, ⟨.int, b! "totalStatusCodeDF", true⟩),
  (.TotalConsumerSegmentsJ1, ⟨.int, b! "totalConsumerSegmentsJ1", true⟩),
  (.TotalConsumerSegmentsJ2, ⟨.int, b! "totalConsumerSegmentsJ2", true⟩),
  (.BlockCount, ⟨.int, b! "blockCount", true⟩),
  (.TotalStatusCodeDA, ⟨.int, b! "totalStatusCodeDA", true⟩),
  (.TotalStatusCode05, ⟨.int, b! "totalStatusCode05", true⟩),
  (.TotalStatusCode11, ⟨.int, b! "totalStatusCode11", true⟩),
  (.TotalStatusCode13, ⟨.int, b! "totalStatusCode13", true⟩),
  (.TotalStatusCode61, ⟨.int, b! "totalStatusCode61", true⟩),
  (.TotalStatusCode62, ⟨.int, b! "totalStatusCode62", true⟩),
  (.TotalStatusCode63, ⟨.int, b! "totalStatusCode63", true⟩),
  (.TotalStatusCode64, ⟨.int, b! "totalStatusCode64", true⟩),
  (.TotalStatusCode65, ⟨.int, b! "totalStatusCode65", true⟩),
  (.TotalStatusCode71, ⟨.int, b! "totalStatusCode71", true⟩),
  (.TotalStatusCode78, ⟨.int, b! "totalStatusCode78", true⟩),
  (.TotalStatusCode80, ⟨.int, b! "totalStatusCode80", true⟩),
  (.TotalStatusCode82, ⟨.int, b! "totalStatusCode82", true⟩),
  (.TotalStatusCode83, ⟨.int, b! "totalStatusCode83", true⟩),
  (.TotalStatusCode84, ⟨.int, b! "totalStatusCode84", true⟩),
  (.TotalStatusCode88, ⟨.int, b! "totalStatusCode88", true⟩),
  (.TotalStatusCode89, ⟨.int, b! "totalStatusCode89", true⟩),
  (.TotalStatusCode93, ⟨.int, b! "totalStatusCode93", true⟩),
  (.TotalStatusCode94, ⟨.int, b! "totalStatusCode94", true⟩),
  (.TotalStatusCode95, ⟨.int, b! "totalStatusCode95", true⟩),
  (.TotalStatusCode96, ⟨.int, b! "totalStatusCode96", true⟩),
  (.TotalStatusCode97, ⟨.int, b! "totalStatusCode97", true⟩),
  (.TotalECOACodeZ, ⟨.int, b! "totalECOACodeZ", true⟩),
  (.TotalEmploymentSegments, ⟨.int, b! "totalEmploymentSegments", true⟩),
  (.TotalOriginalCreditorSegments, ⟨.int, b! "totalOriginalCreditorSegments", true⟩),
  (.TotalPurchasedToSegments, ⟨.int, b! "totalPurchasedToSegments", true⟩),
  (.TotalMortgageInformationSegments, ⟨.int, b! "totalMortgageInformationSegments", true⟩),
  (.TotalPaymentInformationSegments, ⟨.int, b! "totalPaymentInformationSegments", true⟩),
  (.TotalChangeSegments, ⟨.int, b! "totalChangeSegments", true⟩),
  (.TotalSocialNumbersAllSegments, ⟨.int, b! "totalSocialNumbersAllSegments", true⟩),
  (.TotalSocialNumbersBaseSegments, ⟨.int, b! "totalSocialNumbersBaseSegments", true⟩),
  (.TotalSocialNumbersJ1Segments, ⟨.int, b! "totalSocialNumbersJ1Segments", true⟩),
  (.TotalSocialNumbersJ2Segments, ⟨.int, b! "totalSocialNumbersJ2Segments", true⟩),
  (.TotalDatesBirthAllSegments, ⟨.int, b! "totalDatesBirthAllSegments", true⟩),
  (.TotalDatesBirthBaseSegments, ⟨.int, b! "totalDatesBirthBaseSegments", true⟩),
  (.TotalDatesBirthJ1Segments, ⟨.int, b! "totalDatesBirthJ1Segments", true⟩),
  (.TotalDatesBirthJ2Segments, ⟨.int, b! "totalDatesBirthJ2Segments", true⟩),
  (.TotalTelephoneNumbersAllSegments, ⟨.int, b! "totalTelephoneNumbersAllSegments", true⟩)]

/-- `J1Segment` of the client, /repo/pkg/client/model_j1_segment.go:22-33; `ToMap` (352-377) writes the same keys. -/
def clientJ1Segment : List (F × FieldDecl) := [
  (.SegmentIdentifier, ⟨.str, b! "segmentIdentifier", false⟩),
  (.Surname, ⟨.str, b! "surname", false⟩),
  (.FirstName, ⟨.str, b! "firstName", false⟩),
  (.MiddleName, ⟨.str, b! "middleName", true⟩),
  (.GenerationCode, ⟨.str, b! "generationCode", true⟩),
  (.SocialSecurityNumber, ⟨.int, b! "socialSecurityNumber", true⟩),
  (.DateBirth, ⟨.time, b! "dateBirth", true⟩),
  (.TelephoneNumber, ⟨.int64, b! "telephoneNumber", true⟩),
  (.ECOACode, ⟨.str, b! "ecoaCode", false⟩),
  (.ConsumerInformationIndicator, ⟨.str, b! "consumerInformationIndicator", true⟩)]

/-- `J2Segment` of the client, /repo/pkg/client/model_j2_segment.go:22-41; `ToMap` (588-629) writes the same keys. -/
def clientJ2Segment : List (F × FieldDecl) := [
  (.SegmentIdentifier, ⟨.str, b! "segmentIdentifier", false⟩),
  (.Surname, ⟨.str, b! "surname", false⟩),
  (.FirstName, ⟨.str, b! "firstName", false⟩),
  (.MiddleName, ⟨.str, b! "middleName", true⟩),
  (.GenerationCode, ⟨.str, b! "generationCode", true⟩),
  (.SocialSecurityNumber, ⟨.int, b! "socialSecurityNumber", true⟩),
  (.DateBirth, ⟨.time, b! "dateBirth", true⟩),
  (.TelephoneNumber, ⟨.int64, b! "telephoneNumber", true⟩),
  (.ECOACode, ⟨.str, b! "ecoaCode", false⟩),
  (.ConsumerInformationIndicator, ⟨.str, b! "consumerInformationIndicator", true⟩),
  (.CountryCode, ⟨.str, b! "countryCode", true⟩),
  (.FirstLineAddress, ⟨.str, b! "firstLineAddress", false⟩),
  (.SecondLineAddress, ⟨.str, b! "secondLineAddress", true⟩),
  (.City, ⟨.str, b! "city", false⟩),
  (.State, ⟨.str, b! "state", false⟩),
  (.ZipCode, ⟨.str, b! "zipCode", false⟩),
  (.AddressIndicator, ⟨.str, b! "addressIndicator", true⟩),
  (.ResidenceCode, ⟨.str, b! "residenceCode", true⟩)]

/-- `K1Segment` of the client, /repo/pkg/client/model_k1_segment.go:21-25; `ToMap` (127-133) writes the same keys. -/
def clientK1Segment : List (F × FieldDecl) := [
  (.SegmentIdentifier, ⟨.str, b! "segmentIdentifier", false⟩),
  (.OriginalCreditorName, ⟨.str, b! "originalCreditorName", false⟩),
  (.CreditorClassification, ⟨.int, b! "creditorClassification", false⟩)]

/-- `K2Segment` of the client, /repo/pkg/client/model_k2_segment.go:21-25; `ToMap` (127-133) writes the same keys. -/
def clientK2Segment : List (F × FieldDecl) := [
  (.SegmentIdentifier, ⟨.str, b! "segmentIdentifier", false⟩),
  (.PurchasedIndicator, ⟨.int, b! "purchasedIndicator", false⟩),
  (.PurchasedName, ⟨.str, b! "purchasedName", false⟩)]

/-- `K3Segment` of the client, /repo/pkg/client/model_k3_segment.go:21-26; `ToMap` (174-187) writes the same keys. -/
def clientK3Segment : List (F × FieldDecl) := [
  (.SegmentIdentifier, ⟨.str, b! "segmentIdentifier", false⟩),
  (.AgencyIdentifier, ⟨.int, b! "agencyIdentifier", true⟩),
  (.AccountNumber, ⟨.str, b! "accountNumber", true⟩),
  (.MortgageIdentificationNumber, ⟨.str, b! "mortgageIdentificationNumber", true⟩)]

/-- `K4Segment` of the client, /repo/pkg/client/model_k4_segment.go:22-28; `ToMap` (201-215) writes the same keys. -/
def clientK4Segment : List (F × FieldDecl) := [
  (.SegmentIdentifier, ⟨.str, b! "segmentIdentifier", false⟩),
  (.SpecializedPaymentIndicator, ⟨.int, b! "specializedPaymentIndicator", false⟩),
  (.DeferredPaymentStartDate, ⟨.time, b! "deferredPaymentStartDate", true⟩),
  (.BalloonPaymentDueDate, ⟨.time, b! "balloonPaymentDueDate", true⟩),
  (.BalloonPaymentAmount, ⟨.int, b! "balloonPaymentAmount", true⟩)]

/-- `L1Segment` of the client, /repo/pkg/client/model_l1_segment.go:21-26; `ToMap` (167-178) writes the same keys. -/
def clientL1Segment : List (F × FieldDecl) := [
  (.SegmentIdentifier, ⟨.str, b! "segmentIdentifier", false⟩),
  (.ChangeIndicator, ⟨.int, b! "changeIndicator", false⟩),
  (.NewConsumerAccountNumber, ⟨.str, b! "newConsumerAccountNumber", true⟩),
  (.BalloonPaymentDueDate, ⟨.str, b! "balloonPaymentDueDate", true⟩)]

/-- `N1Segment` of the client, /repo/pkg/client/model_n1_segment.go:21-30; `ToMap` (299-322) writes the same keys. -/
def clientN1Segment : List (F × FieldDecl) := [
  (.SegmentIdentifier, ⟨.str, b! "segmentIdentifier", false⟩),
  (.EmployerName, ⟨.str, b! "employerName", false⟩),
  (.FirstLineEmployerAddress, ⟨.str, b! "firstLineEmployerAddress", true⟩),
  (.SecondLineEmployerAddress, ⟨.str, b! "secondLineEmployerAddress", true⟩),
  (.EmployerCity, ⟨.str, b! "employerCity", true⟩),
  (.EmployerState, ⟨.str, b! "employerState", true⟩),
  (.ZipCode, ⟨.str, b! "zipCode", true⟩),
  (.Occupation, ⟨.str, b! "occupation", true⟩)]

/-- The segment types of the client. -/
def clientSegment : SegKind → List (F × FieldDecl)
  | .j1 => clientJ1Segment | .j2 => clientJ2Segment | .k1 => clientK1Segment | .k2 => clientK2Segment
  | .k3 => clientK3Segment | .k4 => clientK4Segment | .l1 => clientL1Segment | .n1 => clientN1Segment

/-- A value of one of these types: what its fields hold; `none` is a nil pointer. Fields that the type does not have hold `none`. -/
abbrev ClientRec := F → Option Val

/-- Assignment to a field. -/
def ClientRec.put (c : ClientRec) (f : F) (v : Option Val) : ClientRec := fun g => if g = f then v else c g

/-- The zero value of a type: nil pointers, zero values. -/
def ClientRec.zero (decl : List (F × FieldDecl)) : ClientRec := fun f =>
  match decl.lookup f with
  | some d => if d.omitempty then none else some d.kind.zero
  | none => none

/-- `DataRecord`, /repo/pkg/client/model_data_record.go:21-31. -/
structure ClientData where
  base : ClientRec
  j1 : List ClientRec := []
  j2 : List ClientRec := []
  k1 : Option ClientRec := none
  k2 : Option ClientRec := none
  k3 : Option ClientRec := none
  k4 : Option ClientRec := none
  l1 : Option ClientRec := none
  n1 : Option ClientRec := none

/-- `File`, /repo/pkg/client/model_file.go:21-25. -/
structure ClientFile where
  header : ClientRec
  data : List ClientData
  trailer : ClientRec

/-! ### Writing -/

/-- Drops the zeros at the end. -/
def trimZeros (s : Bytes) : Bytes := (s.reverse.dropWhile (· == 48)).reverse

/-- The fraction of a second in `time.RFC3339Nano`: nine digits without the zeros at the end, nothing if there is none. -/
def nanoText (n : Nat) : Bytes := if n = 0 then [] else 46 :: trimZeros (decDigits 9 n)

/-- `Time.Format(time.RFC3339Nano)`. -/
def rfc3339Nano (t : Time) : Bytes :=
  appendInt t.year 4 ++ [45] ++ appendInt t.month 2 ++ [45] ++ appendInt t.day 2 ++ [84] ++
    appendInt t.hour 2 ++ [58] ++ appendInt t.min 2 ++ [58] ++ appendInt t.sec 2 ++ nanoText t.nsec ++ rfc3339Zone t.loc

/-- `time.Time.MarshalJSON`: an error if the year has not four digits or the zone is a day or more away. -/
def encodeClientTime (t : Time) : Option Json :=
  if t.year < 0 ∨ 9999 < t.year ∨ 24 ≤ t.loc.offset.natAbs / 3600 then none else some (.str (rfc3339Nano t))

/-- A value of a client type as JSON; `none` is an error. -/
def encodeClientVal : Val → Option Json
  | .time t => encodeClientTime t
  | v => some (encodeVal v)

/-- `ToMap` followed by `json.Marshal`: nil pointers are left out, the map is written in the order of its keys. -/
def encodeClientMembers (c : ClientRec) : List (F × FieldDecl) → Option (List (Bytes × Json))
  | [] => some []
  | p :: decl =>
    match encodeClientMembers c decl with
    | none => none
    | some m =>
      match c p.1 with
      | none => some m
      | some v =>
        match encodeClientVal v with
        | none => none
        | some j => some (mapSet p.2.json j m)

/-- `MarshalJSON` of a record or segment type, e.g. /repo/pkg/client/model_l1_segment.go:159-165. -/
def encodeClient (decl : List (F × FieldDecl)) (c : ClientRec) : Option Json := (encodeClientMembers c decl).map .obj

/-- All elements. -/
def encodeAll {α : Type} (f : α → Option Json) : List α → Option (List Json)
  | [] => some []
  | x :: xs =>
    match f x, encodeAll f xs with
    | some y, some ys => some (y :: ys)
    | _, _ => none

/-- A member of `DataRecord.ToMap` for a slice. Simplification: a slice that is empty but not nil would be written as `[]`; the service reads both
alike. -/
def clientList {α : Type} (key : Bytes) (f : α → Option Json) (l : List α) (m : List (Bytes × Json)) : Option (List (Bytes × Json)) :=
  if l.isEmpty then some m else (encodeAll f l).map fun xs => mapSet key (.arr xs) m

/-- A member of `DataRecord.ToMap` for a pointer. -/
def clientOpt (key : Bytes) (f : ClientRec → Option Json) (o : Option ClientRec) (m : List (Bytes × Json)) : Option (List (Bytes × Json)) :=
  match o with
  | none => some m
  | some c => (f c).map fun j => mapSet key j m

/-- `DataRecord.MarshalJSON`, /repo/pkg/client/model_data_record.go:331-367. -/
def ClientData.toJson (d : ClientData) : Option Json := do
  let m ← (encodeClient clientBaseSegment d.base).map fun j => [(b! "base", j)]
  let m ← clientList (b! "j1") (encodeClient clientJ1Segment) d.j1 m
  let m ← clientList (b! "j2") (encodeClient clientJ2Segment) d.j2 m
  let m ← clientOpt (b! "k1") (encodeClient clientK1Segment) d.k1 m
  let m ← clientOpt (b! "k2") (encodeClient clientK2Segment) d.k2 m
  let m ← clientOpt (b! "k3") (encodeClient clientK3Segment) d.k3 m
  let m ← clientOpt (b! "k4") (encodeClient clientK4Segment) d.k4 m
  let m ← clientOpt (b! "l1") (encodeClient clientL1Segment) d.l1 m
  let m ← clientOpt (b! "n1") (encodeClient clientN1Segment) d.n1 m
  some (.obj m)

/-- `File.MarshalJSON`, /repo/pkg/client/model_file.go:126-142; `none` is an error. -/
def ClientFile.toJson (f : ClientFile) : Option Json := do
  let m ← (encodeClient clientHeaderRecord f.header).map fun j => [(b! "header", j)]
  let m ← clientList (b! "data") ClientData.toJson f.data m
  let m ← (encodeClient clientTrailerRecord f.trailer).map fun j => mapSet (b! "trailer") j m
  some (.obj m)

/-! ### Reading -/

/-- `time.RFC3339`. -/
def rfc3339Layout : Bytes := b! "2006-01-02T15:04:05Z07:00"

/-- `time.Time.UnmarshalJSON`: the text between the quotes by `time.Parse(time.RFC3339, _)`. (The strict checks of `parseStrictRFC3339` are
switched off in the Go version of go.mod.) As in `decodeTime` the text is taken to be escaped as `encoding/json` does it. -/
def decodeClientTime (zone : LocalZone) : Json → Option Time
  | .str s => (DateLayout.of rfc3339Layout).parse zone (escapeJson s.length s)
  | _ => none

/-- A JSON value that is not `null` into a field of kind `k`: `int` is `int32`. -/
def decodeClientSome (zone : LocalZone) (k : Kind) (j : Json) : Option Val :=
  match k with
  | .str =>
    match j with
    | .str s => some (.str s)
    | _ => none
  | .time => (decodeClientTime zone j).map .time
  | .int =>
    match j with
    | .num lit =>
      match parseInt lit with
      | .ok v => if -(2 ^ 31) ≤ v ∧ v < 2 ^ 31 then some (.int v) else none
      | .error _ => none
    | _ => none
  | .int64 =>
    match j with
    | .num lit =>
      match parseInt lit with
      | .ok v => some (.int v)
      | .error _ => none
    | _ => none

/-- A JSON value into a field that holds `old`: `null` makes a pointer nil and leaves a value as it is. The outer `none` is an error. -/
def decodeClientVal (zone : LocalZone) (d : FieldDecl) (old : Option Val) (j : Json) : Option (Option Val) :=
  match j with
  | .null => some (if d.omitempty then none else old)
  | j => (decodeClientSome zone d.kind j).map some

/-- One member of an object; unknown keys are ignored. -/
def decodeClientMember (zone : LocalZone) (decl : List (F × FieldDecl)) (c : ClientRec) (kv : Bytes × Json) : Option ClientRec :=
  match fieldOf decl kv.1 with
  | none => some c
  | some f =>
    match decl.lookup f with
    | none => some c
    | some d => (decodeClientVal zone d (c f) kv.2).map fun v => c.put f v

/-- `json.Unmarshal` into a struct of the client that holds `c`; `none` is an error. -/
def decodeClient (zone : LocalZone) (decl : List (F × FieldDecl)) (c : ClientRec) (j : Json) : Option ClientRec :=
  match j with
  | .obj kvs => kvs.foldlM (decodeClientMember zone decl) c
  | .null => some c
  | _ => none

/-- `json.Unmarshal` into a slice. Simplification: a list that occurs twice in an object replaces the first one; Go would reuse its elements. -/
def decodeAll {α : Type} (f : Json → Option α) : Json → Option (List α)
  | .arr xs => go xs
  | .null => some []
  | _ => none
where
  go : List Json → Option (List α)
    | [] => some []
    | x :: xs =>
      match f x, go xs with
      | some y, some ys => some (y :: ys)
      | _, _ => none

/-- `json.Unmarshal` into a pointer to a segment. -/
def decodePointer (zone : LocalZone) (k : SegKind) (old : Option ClientRec) : Json → Option (Option ClientRec)
  | .null => some none
  | j => (decodeClient zone (clientSegment k) (match old with | some c => c | none => .zero (clientSegment k)) j).map some

/-- The field of a struct with the given keys that takes a member. -/
def keyOf (keys : List Bytes) (key : Bytes) : Option Bytes :=
  match keys.find? (· = key) with
  | some k => some k
  | none => keys.find? fun k => foldKey k = foldKey key

/-- The keys of `DataRecord`. -/
def clientDataKeys : List Bytes := [b! "base", b! "j1", b! "j2", b! "k1", b! "k2", b! "k3", b! "k4", b! "l1", b! "n1"]

/-- One member decoded into a `DataRecord`. -/
def decodeClientDataMember (zone : LocalZone) (d : ClientData) (kv : Bytes × Json) : Option ClientData :=
  match keyOf clientDataKeys kv.1 with
  | none => some d
  | some key =>
    if key = b! "base" then (decodeClient zone clientBaseSegment d.base kv.2).map fun c => { d with base := c }
    else if key = b! "j1" then
      (decodeAll (decodeClient zone clientJ1Segment (.zero clientJ1Segment)) kv.2).map fun l => { d with j1 := l }
    else if key = b! "j2" then
      (decodeAll (decodeClient zone clientJ2Segment (.zero clientJ2Segment)) kv.2).map fun l => { d with j2 := l }
    else if key = b! "k1" then (decodePointer zone .k1 d.k1 kv.2).map fun o => { d with k1 := o }
    else if key = b! "k2" then (decodePointer zone .k2 d.k2 kv.2).map fun o => { d with k2 := o }
    else if key = b! "k3" then (decodePointer zone .k3 d.k3 kv.2).map fun o => { d with k3 := o }
    else if key = b! "k4" then (decodePointer zone .k4 d.k4 kv.2).map fun o => { d with k4 := o }
    else if key = b! "l1" then (decodePointer zone .l1 d.l1 kv.2).map fun o => { d with l1 := o }
    else (decodePointer zone .n1 d.n1 kv.2).map fun o => { d with n1 := o }

/-- `json.Unmarshal` into a new `DataRecord`. -/
def decodeClientData (zone : LocalZone) : Json → Option ClientData
  | .obj kvs => kvs.foldlM (decodeClientDataMember zone) { base := .zero clientBaseSegment }
  | .null => some { base := .zero clientBaseSegment }
  | _ => none

/-- One member decoded into a `File`. -/
def decodeClientFileMember (zone : LocalZone) (f : ClientFile) (kv : Bytes × Json) : Option ClientFile :=
  match keyOf [b! "header", b! "data", b! "trailer"] kv.1 with
  | none => some f
  | some key =>
    if key = b! "header" then (decodeClient zone clientHeaderRecord f.header kv.2).map fun c => { f with header := c }
    else if key = b! "data" then (decodeAll (decodeClientData zone) kv.2).map fun l => { f with data := l }
    else (decodeClient zone clientTrailerRecord f.trailer kv.2).map fun c => { f with trailer := c }

/-- `json.Unmarshal` into a new `File` of the client; `none` is an error. -/
def decodeClientFile (zone : LocalZone) : Json → Option ClientFile
  | .obj kvs => kvs.foldlM (decodeClientFileMember zone) ⟨.zero clientHeaderRecord, [], .zero clientTrailerRecord⟩
  | .null => some ⟨.zero clientHeaderRecord, [], .zero clientTrailerRecord⟩
  | _ => none

/-- The getters of the client types, e.g. /repo/pkg/client/model_base_segment.go:103-110: the value, or the zero value if there is none. -/
def ClientRec.get (c : ClientRec) (p : F × FieldDecl) : Val :=
  match c p.1 with
  | some v => v
  | none => p.2.kind.zero

end Metro2
