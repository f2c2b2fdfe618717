import Verif.Tests.Data
import Verif.Model.JsonText

/-!
The tests of the repository, on the model: what `go test` asserts about the library holds for the Lean definitions. These are tests of the
model, evaluated by the kernel, not proofs of properties. Each example cites the test it repeats; an example that says more than the test says so.
`Err` has the field of an error but not the name of the record, so of the asserted texts only the field and the kind of error are compared here; the texts
themselves are in Tests/RepoMessages. Tests
that start from a zero struct: `newBase` is the zero struct; for segments they are repeated on `Seg.new`, which makes no difference by `C62_segment`.
-/

namespace Metro2.RepoTests

open TestData

/-- `utils.ReadFile`, /repo/pkg/utils/file.go:14-23: the lines of a file, joined. -/
def readLinesOf : Bytes → Bytes
  | [] => []
  | [13] => []
  | 13 :: 10 :: s => readLinesOf s
  | 10 :: s => readLinesOf s
  | c :: s => c :: readLinesOf s

/-- No error. -/
def ok {α : Type} : Except Err α → Bool
  | .ok _ => true
  | .error _ => false

/-- The record is parsed without error, is valid, and written as it was. -/
def roundTrip (r : Record) (data : Bytes) (isVar : Bool) : Bool :=
  let p := r.parse data isVar
  ok p.2 && p.1.validate.isNone && p.1.string == data

/-- The same for a segment. -/
def segRoundTrip (k : SegKind) (data : Bytes) : Bool :=
  let p := (Seg.new k).parse data false
  ok p.2 && p.1.validate.isNone && p.1.string == data

/-! ### pkg/lib: records -/

def baseData : Bytes := readLinesOf baseSegmentDat
def packedBaseData : Bytes := readLinesOf packedBaseSegmentDat

-- TestHeaderRecord, TestPackedHeaderRecord, TestTrailerRecord, TestPackedTrailerRecord, TestBaseSegment, TestPackedBaseSegment
example : roundTrip (newHeader .character) (readLinesOf headerRecordDat) true = true := by decide +kernel
example : roundTrip (newHeader .packed) (readLinesOf packedHeaderRecordDat) false = true := by decide +kernel
example : roundTrip (newTrailer .character) (readLinesOf trailerRecordDat) false = true := by decide +kernel
example : roundTrip (newTrailer .packed) (readLinesOf packedTrailerRecordDat) false = true := by decide +kernel
example : roundTrip (newBase .character) baseData true = true := by decide +kernel
example : roundTrip (newBase .packed) packedBaseData true = true := by decide +kernel

-- Length and BlockSize in the same tests, /repo/pkg/lib/base_segment.go:638-645, header_record.go:164-171, trailer_record.go:220-227
example : (((newBase .character).parse baseData true).1.fields.int .RecordDescriptorWord,
    ((newBase .character).parse baseData true).1.fields.int .BlockDescriptorWord) = (1264, 1268) := by decide +kernel
example : (((newBase .packed).parse packedBaseData true).1.fields.int .RecordDescriptorWord,
    ((newBase .packed).parse packedBaseData true).1.fields.int .BlockDescriptorWord) = (1106, 1110) := by decide +kernel
example : ((newHeader .character).parse (readLinesOf headerRecordDat) true).1.fields.int .BlockDescriptorWord = 430 := by decide +kernel
example : ((newHeader .packed).parse (readLinesOf packedHeaderRecordDat) false).1.fields.int .BlockDescriptorWord = 370 := by decide +kernel
example : ((newTrailer .character).parse (readLinesOf trailerRecordDat) false).1.fields.int .RecordDescriptorWord = 426 := by decide +kernel
example : ((newTrailer .packed).parse (readLinesOf packedTrailerRecordDat) false).1.fields.int .RecordDescriptorWord = 366 := by decide +kernel

/-- The number of segments of each type, and of an unknown type. -/
def counts (r : Record) : List Nat :=
  [b! "j1", b! "j2", b! "k1", b! "k2", b! "k3", b! "k4", b! "l1", b! "n1", b! "unknown"].map fun n => (r.getSegments n).length

-- GetSegments in TestBaseSegment, TestPackedBaseSegment
example : counts ((newBase .character).parse baseData true).1 = [1, 2, 1, 1, 1, 1, 1, 1, 0] := by decide +kernel
example : counts ((newBase .packed).parse packedBaseData true).1 = [1, 2, 0, 0, 1, 0, 1, 1, 0] := by decide +kernel

-- TestBaseSegmentErr, TestHeaderRecordErr, TestTrailerRecordErr
example : ([Record.base .character (zeroFields baseSegmentStruct) {}, .header .character (zeroFields headerRecordStruct),
    .trailer .character (zeroFields trailerRecordStruct), .trailer .packed (zeroFields trailerRecordStruct)].map fun r =>
    ok (r.parse (b! "12345") false).2) = [false, false, false, false] := by decide +kernel

-- Test...WithInvalidData of the records
example : ok ((newBase .character).parse (b! "ERROR" ++ baseData) false).2 = false := by decide +kernel
example : ok ((newBase .packed).parse (b! "ERROR" ++ packedBaseData) false).2 = false := by decide +kernel
example : ok ((newHeader .character).parse (b! "ERROR" ++ readLinesOf headerRecordDat) false).2 = false := by decide +kernel
example : ok ((newHeader .packed).parse (b! "ERROR" ++ readLinesOf packedHeaderRecordDat) false).2 = false := by decide +kernel
example : ok ((newTrailer .character).parse (b! "ERROR" ++ readLinesOf trailerRecordDat) false).2 = false := by decide +kernel
example : ok ((newTrailer .packed).parse (b! "ERROR" ++ readLinesOf packedTrailerRecordDat) false).2 = false := by decide +kernel

/-- The error of `Validate` after the fields have been set. -/
def baseWith (enc : Enc) (changes : List (F × Val)) : Option Err :=
  match (newBase enc).parse (match enc with | .character => baseData | .packed => packedBaseData) true with
  | (.base _ fs g, .ok _) => (Record.base enc (changes.foldl (fun fs c => fs.set c.1 c.2) fs) g).validate
  | _ => some .panic

def zeroTime : Val := (zeroFields baseSegmentStruct).get .DateBirth |>.getD (.int 0)

/-- The changes of the tests of base_segment_test.go and the errors asserted; `none`: no error. -/
def baseChanges : List (List (F × Val) × Option Err) := [
  ([(.CurrentBalance, .int 0)], none),
  ([(.PortfolioType, .str (b! "A"))], some (.invalidValue .PortfolioType)),
  ([(.TermsDuration, .str (b! "AAA"))], some (.invalidValue .TermsDuration)),
  ([(.PaymentHistoryProfile, .str (b! "Z"))], some (.invalidValue .PaymentHistoryProfile)),
  ([(.InterestTypeIndicator, .str (b! "Z"))], some (.invalidValue .InterestTypeIndicator)),
  ([(.TelephoneNumber, .int 0)], none),
  ([(.SocialSecurityNumber, .int 0)], none),
  ([(.DateBirth, zeroTime)], none),
  ([(.AccountStatus, .str (b! "FF"))], some (.invalidValue .AccountStatus)),
  ([(.AccountType, .str (b! "FF"))], some (.invalidValue .AccountType)),
  ([(.SpecialComment, .str (b! "FF"))], some (.invalidValue .SpecialComment))]

-- TestBaseSegmentWith..., TestPackedBaseSegmentWith...
example : ∀ c ∈ baseChanges, baseWith .character c.1 = c.2 := by decide +kernel
example : ∀ c ∈ baseChanges, baseWith .packed c.1 = c.2 := by decide +kernel

-- TestBaseSegmentWithIdentificationNumber, ...WithSocialSecurityNumber, ...WithDateBirth and the packed ones
example : ∀ enc ∈ [Enc.character, .packed], (baseWith enc [(.IdentificationNumber, .str [])]).isSome ∧
    (baseWith enc [(.SocialSecurityNumber, .int 0), (.DateBirth, zeroTime)]).isSome := by decide +kernel

-- TestBaseSegmentPortfolioTypeLease, TestBaseSegmentCorrectionIndicator: single validators, on the character record
example : let fs := ((newBase .character).parse baseData true).1.fields
    baseCustom .character (fs.set .PortfolioType (.str (b! "L"))) .PortfolioType = none ∧ fs.int .CorrectionIndicator = 0 ∧
    baseCustom .character (fs.set .CorrectionIndicator (.int 1)) .CorrectionIndicator = none ∧
    (baseCustom .character (fs.set .CorrectionIndicator (.int 2)) .CorrectionIndicator).isSome := by decide +kernel

-- TestClampedBlockSize
example : ([0, -1, 426, 366, 65535, 65536, 5175555555] : List Int).map clampedBlockSize = [0, 0, 426, 366, 65535, 0, 0] := by decide +kernel

/-- The zero struct with a record descriptor word and an identifier. -/
def wordFields (decl : List (F × FieldDecl)) (w : Int) (ident : Bytes) : Fields :=
  ((zeroFields decl).set .RecordDescriptorWord (.int w)).set .RecordIdentifier (.str ident)

-- TestHeaderRecordStringHugeDescriptorWord, TestTrailerRecord..., TestBaseSegment...
example : (Record.header .character (wordFields headerRecordStruct 5175555555 (b! "HEADER"))).string.length ≤ 65535 ∧
    (Record.header .character (wordFields headerRecordStruct 5175555555 (b! "HEADER"))).string ≠ [] ∧
    (Record.trailer .character (wordFields trailerRecordStruct 5175555555 (b! "TRAILER"))).string.length ≤ 65535 ∧
    (Record.base .character ((zeroFields baseSegmentStruct).set .RecordDescriptorWord (.int 5175555555)) {}).string.length ≤ 65535 := by
  decide +kernel

-- TestHeaderRecordStringNegativeDescriptorWord asserts that `String` returns; here, more: what it returns is within the same bound
example : (Record.header .character (wordFields headerRecordStruct (-1) (b! "HEADER"))).string.length ≤ 65535 := by decide +kernel

/-! ### pkg/lib: segments -/

/-- The sample of each segment. -/
def segData : SegKind → Bytes
  | .j1 => readLinesOf j1SegmentDat
  | .j2 => readLinesOf j2SegmentDat
  | .k1 => readLinesOf k1SegmentDat
  | .k2 => readLinesOf k2SegmentDat
  | .k3 => readLinesOf k3SegmentDat
  | .k4 => readLinesOf k4SegmentDat
  | .l1 => readLinesOf l1SegmentDat
  | .n1 => readLinesOf n1SegmentDat

-- TestJ1Segment ... TestN1Segment, Test{J1,J2,L1}SegmentWithInvalidData2, TestNSegmentWithInvalidData (K1 to K4), the second half of
-- TestN1SegmentWithInvalidData
example : ∀ k ∈ SegKind.all, segRoundTrip k (segData k) = true ∧ ok ((Seg.new k).parse ((segData k).take 16) false).2 = false := by decide +kernel

-- Test...WithInvalidData of the segments; N1, whose test cuts the front off, below
example : ∀ k ∈ [SegKind.j1, .j2, .k1, .k2, .k3, .k4, .l1], ok ((Seg.new k).parse (b! "ERROR" ++ segData k) false).2 = false := by decide +kernel
example : ok ((Seg.new .n1).parse ((segData .n1).drop 2) false).2 = false := by decide +kernel

/-- The error of `Validate` after fields of the sample have been set. -/
def segWith (k : SegKind) (changes : List (F × Val)) : Option Err :=
  match (Seg.new k).parse (segData k) false with
  | (s, .ok _) => Seg.validate { s with fields := changes.foldl (fun fs c => fs.set c.1 c.2) s.fields }
  | _ => some .panic

/-- The changes of the tests of the segments and the errors asserted. -/
def segChanges : List (SegKind × List (F × Val) × Option Err) := [
  (.j1, [(.GenerationCode, .str (b! "0"))], some (.invalidValue .GenerationCode)),
  (.j2, [(.GenerationCode, .str (b! "0"))], some (.invalidValue .GenerationCode)),
  (.j1, [(.TelephoneNumber, .int 0)], none),
  (.j2, [(.TelephoneNumber, .int 0)], none),
  (.j1, [(.SocialSecurityNumber, .int 0)], none),
  (.j2, [(.SocialSecurityNumber, .int 0)], none),
  (.j1, [(.DateBirth, zeroTime)], none),
  (.j2, [(.DateBirth, zeroTime)], none),
  (.j2, [(.AddressIndicator, .str (b! "0"))], some (.invalidValue .AddressIndicator)),
  (.j2, [(.ResidenceCode, .str (b! "0"))], some (.invalidValue .ResidenceCode)),
  (.k1, [(.CreditorClassification, .int 22)], some (.invalidValue .CreditorClassification)),
  (.k2, [(.PurchasedIndicator, .int 3)], some (.invalidValue .PurchasedIndicator)),
  (.k2, [(.PurchasedName, .str (b! "err")), (.PurchasedIndicator, .int 9)], some (.invalidValue .PurchasedName)),
  (.k3, [(.AgencyIdentifier, .int 5)], some (.invalidValue .AgencyIdentifier)),
  (.k3, [(.AccountNumber, .str (b! "error")), (.AgencyIdentifier, .int 0)], some (.invalidValue .AccountNumber)),
  (.k4, [(.SpecializedPaymentIndicator, .int 3)], some (.invalidValue .SpecializedPaymentIndicator)),
  (.l1, [(.NewConsumerAccountNumber, .str (b! "error")), (.ChangeIndicator, .int 2)], some (.invalidValue .NewConsumerAccountNumber)),
  (.l1, [(.NewIdentificationNumber, .str (b! "error")), (.ChangeIndicator, .int 1)], some (.invalidValue .NewIdentificationNumber)),
  (.l1, [(.ChangeIndicator, .int 5)], some (.invalidValue .ChangeIndicator))]

-- TestJ1SegmentWith..., TestJ2SegmentWith..., TestK..., TestL1SegmentWith...
example : ∀ c ∈ segChanges, segWith c.1 c.2.1 = c.2.2 := by decide +kernel

-- Test{J1,J2}SegmentWithSocialSecurityNumber, Test{J1,J2}SegmentWithDateBirth
example : ∀ k ∈ [SegKind.j1, .j2], (segWith k [(.SocialSecurityNumber, .int 0), (.DateBirth, zeroTime)]).isSome := by decide +kernel

-- TestBaseRecordApplicableSegment: fresh K segments are not accepted and not kept (its J1 segment from JSON: Tests/RepoFile.lean)
example : ∀ k ∈ [SegKind.k1, .k2, .k4], ((newBase .character).addSegment (Seg.new k)).2.isSome ∧
    counts ((newBase .character).addSegment (Seg.new k)).1 = [0, 0, 0, 0, 0, 0, 0, 0, 0] := by decide +kernel

-- AddApplicableSegment and GetSegments in Test{,Packed}{Header,Trailer}Record
example : ∀ r ∈ [newHeader .character, newHeader .packed, newTrailer .character, newTrailer .packed],
    (r.addSegment (Seg.new .j1)).2.isSome ∧ r.getSegments (b! "k1") = [] := by decide +kernel

/-! ### pkg/lib: validators -/

-- TestValidatorUpperAlpha, TestValidatorFilledString, TestValidatorAlphanumeric
example : (isUpperAlphanumeric .Surname (b! "ab91")).isSome ∧ isUpperAlphanumeric .Surname (b! "AB91") = none ∧
    validFilledString (b! "9") = true ∧ validFilledString (b! " ") = true ∧ (isAlphanumeric .Surname (b! "Ϡϛβ123")).isSome := by decide +kernel

-- TestIsValidType; its third case, an unknown field type, is not representable in `FType`
example : (isValidType ⟨0, 9, .alphanumeric, false, false, .required⟩ .Surname []).isSome ∧
    (isValidType ⟨0, 9, .date, false, false, .required⟩ .Surname (b! "999999999")).isSome := by decide +kernel

end Metro2.RepoTests
