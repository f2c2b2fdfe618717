import Verif.Model.File

/-! Concrete records used in the `example`s beside the property theorems. -/

namespace Metro2.Samples

/-- A struct with the given values, all others zero. -/
def mk (decl : List (F × FieldDecl)) (vs : List (F × Val)) : Fields :=
  vs.foldl (fun fs p => fs.set p.1 p.2) (zeroFields decl)

/-- Midnight of a day. -/
def day (y : Int) (m d : Nat) : Val := .time ⟨y, m, d, 0, 0, 0, 0, .utc⟩

/-- A header with the given descriptors. -/
def header (bdw rdw : Int) : Fields := mk headerRecordStruct [
  (.BlockDescriptorWord, .int bdw), (.RecordDescriptorWord, .int rdw), (.RecordIdentifier, .str (b! "HEADER")),
  (.CycleIdentifier, .str (b! "15")), (.TransUnionProgramIdentifier, .str (b! "5555555555")),
  (.ActivityDate, day 2002 8 20), (.DateCreated, day 1999 5 10), (.ProgramDate, day 1999 5 10),
  (.ProgramRevisionDate, day 1999 5 10), (.ReporterName, .str (b! "YOUR BUSINESS NAME HERE")),
  (.ReporterAddress, .str (b! "LINE ONE OF YOUR ADDRESS")), (.ReporterTelephoneNumber, .int 1234567890),
  (.SoftwareVendorName, .str (b! "MOOV")), (.SoftwareVersionNumber, .str (b! "1.0"))]

/-- A data record with the given descriptors and further values. -/
def base (bdw rdw : Int) (more : List (F × Val) := []) : Fields := mk baseSegmentStruct ([
  (.BlockDescriptorWord, .int bdw), (.RecordDescriptorWord, .int rdw), (.ProcessingIndicator, .int 1),
  (.TimeStamp, .time ⟨1999, 6, 15, 15, 0, 0, 0, .utc⟩),
  (.IdentificationNumber, .str (b! "REPORTERXXXXXXXXXXXX")), (.ConsumerAccountNumber, .str (b! "1234567890")),
  (.PortfolioType, .str (b! "M")), (.AccountType, .str (b! "6A")), (.DateOpened, day 1995 12 1),
  (.CreditLimit, .int 0), (.HighestCredit, .int 250000), (.TermsDuration, .str (b! "REV")),
  (.TermsFrequency, .str (b! "M")), (.AccountStatus, .str (b! "13")), (.PaymentRating, .str (b! "1")),
  (.PaymentHistoryProfile, .str (b! "BBBBBBBBBBBBBBBBBBBBBBBB")), (.CurrentBalance, .int 1234),
  (.DateAccountInformation, day 2002 8 20), (.DateLastPayment, day 2002 8 20), (.Surname, .str (b! "BEAUCHAMP")),
  (.FirstName, .str (b! "KEVIN")), (.SocialSecurityNumber, .int 102589652), (.DateBirth, day 2002 2 28),
  (.TelephoneNumber, .int 1234567890), (.ECOACode, .str (b! "1")), (.FirstLineAddress, .str (b! "12 MAIN STREET")),
  (.City, .str (b! "SOMEWHERE")), (.State, .str (b! "CA")), (.ZipCode, .str (b! "90210"))] ++ more)

/-- A trailer. -/
def trailer (rdw : Int) : Fields := mk trailerRecordStruct [
  (.RecordDescriptorWord, .int rdw), (.RecordIdentifier, .str (b! "TRAILER")), (.TotalBaseRecords, .int 1),
  (.BlockCount, .int 3), (.TotalStatusCode13, .int 1), (.TotalSocialNumbersAllSegments, .int 1)]

/-- A J1 segment. -/
def j1 : Seg := ⟨.j1, mk j1SegmentStruct [(.SegmentIdentifier, .str (b! "J1")), (.Surname, .str (b! "BEAUCHAMP")),
  (.FirstName, .str (b! "ANNE")), (.SocialSecurityNumber, .int 123456789), (.DateBirth, day 1992 2 29),
  (.ECOACode, .str (b! "2"))]⟩

/-- Another J1 segment. -/
def j1' : Seg := ⟨.j1, mk j1SegmentStruct [(.SegmentIdentifier, .str (b! "J1")), (.Surname, .str (b! "DOE")),
  (.FirstName, .str (b! "JOHN")), (.DateBirth, day 1990 1 2), (.ECOACode, .str (b! "Z"))]⟩

/-- A J2 segment. -/
def j2 : Seg := ⟨.j2, mk j2SegmentStruct [(.SegmentIdentifier, .str (b! "J2")), (.Surname, .str (b! "ROE")),
  (.SocialSecurityNumber, .int 42), (.ECOACode, .str (b! "2")), (.FirstLineAddress, .str (b! "1 WAY")),
  (.City, .str (b! "CITY")), (.State, .str (b! "NY")), (.ZipCode, .str (b! "10001"))]⟩

/-- A K1 segment. -/
def k1 : Seg := ⟨.k1, mk k1SegmentStruct [(.SegmentIdentifier, .str (b! "K1")),
  (.OriginalCreditorName, .str (b! "ORIGINAL CREDITOR")), (.CreditorClassification, .int 2)]⟩

/-- A K2 segment. -/
def k2 : Seg := ⟨.k2, mk k2SegmentStruct [(.SegmentIdentifier, .str (b! "K2")), (.PurchasedIndicator, .int 1),
  (.PurchasedName, .str (b! "SOMEBODY"))]⟩

/-- A K3 segment. -/
def k3 : Seg := ⟨.k3, mk k3SegmentStruct [(.SegmentIdentifier, .str (b! "K3")), (.AgencyIdentifier, .int 1),
  (.AccountNumber, .str (b! "ACCOUNT 7"))]⟩

/-- A K4 segment. -/
def k4 : Seg := ⟨.k4, mk k4SegmentStruct [(.SegmentIdentifier, .str (b! "K4")),
  (.SpecializedPaymentIndicator, .int 1), (.BalloonPaymentDueDate, day 2030 12 31),
  (.BalloonPaymentAmount, .int 99)]⟩

/-- An L1 segment. -/
def l1 : Seg := ⟨.l1, mk l1SegmentStruct [(.SegmentIdentifier, .str (b! "L1")), (.ChangeIndicator, .int 1),
  (.NewConsumerAccountNumber, .str (b! "NEW-1"))]⟩

/-- An N1 segment. -/
def n1 : Seg := ⟨.n1, mk n1SegmentStruct [(.SegmentIdentifier, .str (b! "N1")),
  (.EmployerName, .str (b! "EMPLOYER")), (.Occupation, .str (b! "CLERK"))]⟩

/-- Segments of every type, 738 bytes. -/
def segs : Segs := ⟨[j1, j1'], [j2], some k1, some k2, some k3, some k4, some l1, some n1⟩

end Metro2.Samples
