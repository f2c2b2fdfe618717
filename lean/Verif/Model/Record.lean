import Verif.Model.Segment

/-!
Header, data and trailer records: /repo/pkg/lib/record.go, header_record.go, base_segment.go,
trailer_record.go, and /repo/pkg/utils/file.go.
-/

namespace Metro2

/-- The two file formats, `utils.CharacterFileFormat` and `utils.PackedFileFormat`. -/
inductive Enc where
  | character
  | packed
deriving DecidableEq, Repr

/-- A `lib.Record`: one of `HeaderRecord`, `PackedHeaderRecord`, `BaseSegment`, `PackedBaseSegment`,
`TrailerRecord`, `PackedTrailerRecord`. In Go each packed type is defined from the character type,
so both have the same fields. -/
inductive Record where
  | header (enc : Enc) (fields : Fields)
  | base (enc : Enc) (fields : Fields) (segs : Segs)
  | trailer (enc : Enc) (fields : Fields)
deriving DecidableEq, Repr

/-- `UnpackedRecordLength`, `PackedRecordLength`, /repo/pkg/lib/record.go:20-24. -/
def Enc.recordLength : Enc → Nat
  | .character => 426
  | .packed => 366

/-- Layout tables of the header records. -/
def Enc.headerFormat : Enc → Format
  | .character => headerRecordCharacterFormat
  | .packed => headerRecordPackedFormat

/-- Layout tables of the data records. -/
def Enc.baseFormat : Enc → Format
  | .character => baseSegmentCharacterFormat
  | .packed => baseSegmentPackedFormat

/-- Layout tables of the trailer records. -/
def Enc.trailerFormat : Enc → Format
  | .character => trailerRecordCharacterFormat
  | .packed => trailerRecordPackedFormat

/-- `clampedBlockSize`, /repo/pkg/lib/record.go:53-58. -/
def clampedBlockSize (requested : Int) : Nat :=
  if requested ≤ 0 ∨ requested > 65535 then 0 else requested.toNat

/-- `NewHeaderRecord`, `NewPackedHeaderRecord`, /repo/pkg/lib/record.go:61-72. -/
def newHeader (enc : Enc) : Record :=
  .header enc ((zeroFields headerRecordStruct).set .RecordIdentifier (.str (b! "HEADER")))

/-- `NewTrailerRecord`, `NewPackedTrailerRecord`, /repo/pkg/lib/record.go:75-86. -/
def newTrailer (enc : Enc) : Record :=
  .trailer enc ((zeroFields trailerRecordStruct).set .RecordIdentifier (.str (b! "TRAILER")))

/-- `NewBaseSegment`, `NewPackedBaseSegment`, /repo/pkg/lib/record.go:89-96. -/
def newBase (enc : Enc) : Record := .base enc (zeroFields baseSegmentStruct) {}

/-- `utils.IsVariableLength`, /repo/pkg/utils/file.go:26-34. -/
def isVariableLength (data : Bytes) : Bool :=
  15 < data.length && toUpper ((data.drop 8).take 6) = b! "HEADER"

/-- `utils.IsPacked`, /repo/pkg/utils/file.go:37-50; a short buffer would panic. -/
def isPacked (buf : Bytes) : Except Err Bool :=
  match buf[2]?, buf[3]? with
  | some a, some b =>
    if a = 0 ∧ b = 0 then .ok true
    else match buf[6]?, buf[7]? with
      | some c, some d => .ok (c = 0 ∧ d = 0)
      -- Go's && does not look at buf[7] unless buf[6] is zero; the case is a panic either way
      -- once buf[6] is missing, and callers only pass buffers of at least 366 bytes
      | _, _ => .error .panic
  | _, _ => .error .panic

/-- `utils.IsMetroFile`, /repo/pkg/utils/file.go:53-61. -/
def isMetroFile (buf : Bytes) : Bool :=
  if buf.length < 366 then false
  else (buf.drop 4).take 6 = b! "HEADER" || (buf.drop 8).take 6 = b! "HEADER"

/-! ### Parse -/

/-- What `Parse` of a header does at the block descriptor: character /repo/pkg/lib/header_record.go:112-127
(by way of converters.go:148-157), packed 222-231. The packed version ignores the argument and looks at the record
itself. -/
def headerPolicy (enc : Enc) (rec : Bytes) (isVar : Bool) : BdwPolicy :=
  match enc with
  | .character => if isVar then .accept else .skip
  | .packed => if isVariableLength rec then .accept else .fail

/-- `Parse` of a header record: character /repo/pkg/lib/header_record.go:112-127, packed 189-243. -/
def parseHeader (enc : Enc) (fs : Fields) (rec : Bytes) (isVar : Bool) : Fields × Except Err Int :=
  if rec.length < enc.recordLength then (fs, .error .segmentLength)
  else
    match parseLoop enc.headerFormat (headerPolicy enc rec isVar) true rec 0 fs with
    | (fs', some err) => (fs', .error err)
    | (fs', none) =>
      (fs', .ok (if fs'.int .BlockDescriptorWord > 0 then fs'.int .BlockDescriptorWord
        else fs'.int .RecordDescriptorWord))

/-- The field loop of the trailers: character `parseRecordValues`, packed
/repo/pkg/lib/trailer_record.go:255-283, without length check. -/
def trailerLoop (enc : Enc) (fs : Fields) (rec : Bytes) (isVar : Bool) : Fields × Option Err :=
  match enc with
  | .character => parseLoop enc.trailerFormat (if isVar then .accept else .skip) true rec 0 fs
  | .packed => parseLoop enc.trailerFormat .accept false rec 0 fs

/-- `Parse` of a trailer record: character /repo/pkg/lib/trailer_record.go:175-187, packed 248-286. -/
def parseTrailer (enc : Enc) (fs : Fields) (rec : Bytes) (isVar : Bool) : Fields × Except Err Int :=
  if rec.length < enc.recordLength then (fs, .error .segmentLength)
  else
    match trailerLoop enc fs rec isVar with
    | (fs', some err) => (fs', .error err)
    | (fs', none) => (fs', .ok (fs'.int .RecordDescriptorWord))

/-- `BaseSegment.Parse`, /repo/pkg/lib/base_segment.go:537-574. Only the J1 and J2 lists
are reset. -/
def parseBaseCharacter (fs : Fields) (g : Segs) (rec : Bytes) (isVar : Bool) :
    (Fields × Segs) × Except Err Int :=
  if rec.length < 426 then ((fs, g), .error .segmentLength)
  else
    match parseLoop baseSegmentCharacterFormat (if isVar then .accept else .skip) true rec 0 fs with
    | (fs', some err) => ((fs', g), .error err)
    | (fs', none) =>
      let bdw := fs'.int .BlockDescriptorWord
      let rdw := fs'.int .RecordDescriptorWord
      let off : Nat := if bdw > 0 then 426 + 4 else 426
      let g0 : Segs := { g with j1 := [], j2 := [] }
      if rec.length < off then ((fs', g0), .error .segmentLength)
      else
        match sliceFrom rec off with
        | none => ((fs', g0), .error .panic)
        | some tail =>
        match readApplicableSegments g0 tail isVar with
        | (g', .error err) => ((fs', g'), .error err)
        | (g', .ok read) =>
          if bdw > 0 ∧ (read : Int) + off > bdw then ((fs', g'), .error .failedParsing)
          else if bdw = 0 ∧ (read : Int) + off > rdw then ((fs', g'), .error .failedParsing)
          else ((fs', g'), .ok (if bdw > 0 then bdw else rdw))

/-- `PackedBaseSegment.Parse`, /repo/pkg/lib/base_segment.go:997-1064. -/
def parseBasePacked (fs : Fields) (g : Segs) (rec : Bytes) (isVar : Bool) :
    (Fields × Segs) × Except Err Int :=
  if rec.length < 366 then ((fs, g), .error .segmentLength)
  else
    match parseLoop baseSegmentPackedFormat (if isVar then .accept else .fail) true rec 0 fs with
    | (fs', some err) => ((fs', g), .error err)
    | (fs', none) =>
      let bdw := fs'.int .BlockDescriptorWord
      let off : Nat := 366 + 4
      let g0 : Segs := { g with j1 := [], j2 := [] }
      if rec.length < off then ((fs', g0), .error .segmentLength)
      else
        match sliceFrom rec off with
        | none => ((fs', g0), .error .panic)
        | some tail =>
        match readApplicableSegments g0 tail isVar with
        | (g', .error err) => ((fs', g'), .error err)
        | (g', .ok read) =>
          if (read : Int) + off > bdw then ((fs', g'), .error .failedParsing)
          else ((fs', g'), .ok bdw)

/-- `Record.Parse`: the changed record, and the size it reports or an error. -/
def Record.parse (r : Record) (rec : Bytes) (isVar : Bool) : Record × Except Err Int :=
  match r with
  | .header enc fs =>
    let p := parseHeader enc fs rec isVar
    (.header enc p.1, p.2)
  | .trailer enc fs =>
    let p := parseTrailer enc fs rec isVar
    (.trailer enc p.1, p.2)
  | .base .character fs g =>
    let p := parseBaseCharacter fs g rec isVar
    (.base .character p.1.1 p.1.2, p.2)
  | .base .packed fs g =>
    let p := parseBasePacked fs g rec isVar
    (.base .packed p.1.1 p.1.2, p.2)

/-! ### String -/

/-- Padding at the end of every record `String`: blanks up to the block size. -/
def padTo (size : Nat) (s : Bytes) : Bytes := s ++ List.replicate (size - s.length) 32

/-- Block size of a header: /repo/pkg/lib/header_record.go:134-138, 250-254. -/
def headerBlockSize (fs : Fields) : Nat :=
  clampedBlockSize (if fs.int .BlockDescriptorWord = 0 then fs.int .RecordDescriptorWord
    else fs.int .BlockDescriptorWord)

/-- Block size of a data record: character /repo/pkg/lib/base_segment.go:581, packed 1071-1075. -/
def baseBlockSize (enc : Enc) (fs : Fields) : Nat :=
  match enc with
  | .character => clampedBlockSize (fs.int .RecordDescriptorWord)
  | .packed => clampedBlockSize (if fs.int .BlockDescriptorWord > 0
      then fs.int .RecordDescriptorWord + 4 else fs.int .RecordDescriptorWord)

/-- `Record.String`: header /repo/pkg/lib/header_record.go:130-151, 246-267; data record
base_segment.go:577-622, 1067-1116; trailer trailer_record.go:190-207, 289-306. -/
def Record.string : Record → Bytes
  | .header enc fs => padTo (headerBlockSize fs) (fieldsString enc.headerFormat fs)
  | .base enc fs g =>
    padTo (baseBlockSize enc fs) (fieldsString enc.baseFormat fs ++ g.string)
  | .trailer enc fs =>
    padTo (clampedBlockSize (fs.int .RecordDescriptorWord)) (fieldsString enc.trailerFormat fs)

/-! ### Validate -/

/-- Payment history codes: /repo/pkg/lib/base_segment.go:882-898 and 1396-1412. -/
def Enc.paymentHistoryCodes : Enc → List UInt8
  | .character => Metro2.paymentHistoryCodes
  | .packed => packedPaymentHistoryCodes

/-- The custom validators of the data records: /repo/pkg/lib/base_segment.go:814-989 (character) and
1328-1503 (packed); they differ only in the payment history codes. -/
def baseCustom (enc : Enc) (fs : Fields) (f : F) : Option Err :=
  match f with
  | .CorrectionIndicator =>
    check (correctionIndicators.contains (fs.int .CorrectionIndicator)) f
  | .IdentificationNumber => check (!validFilledString (fs.str .IdentificationNumber)) f
  | .PortfolioType => check (portfolioTypes.contains (fs.str .PortfolioType)) f
  | .TermsDuration =>
    check (termsDurations.contains (fs.str .TermsDuration) ||
      (match parseInt (fs.str .TermsDuration) with | .ok _ => true | .error _ => false)) f
  | .TermsFrequency => check (termsFrequencies.contains (fs.str .TermsFrequency)) f
  | .PaymentRating =>
    if ratedStatuses.contains (fs.str .AccountStatus) then
      check (paymentRatings.contains (fs.str .PaymentRating)) f
    else check (fs.str .PaymentRating = []) f
  | .PaymentHistoryProfile =>
    check ((fs.str .PaymentHistoryProfile).length = 24 &&
      (fs.str .PaymentHistoryProfile).all (enc.paymentHistoryCodes.contains ·)) f
  | .InterestTypeIndicator => check (interestTypes.contains (fs.str .InterestTypeIndicator)) f
  | .TelephoneNumber => isPhoneNumber (fs.int .TelephoneNumber)
  | .SocialSecurityNumber | .DateBirth =>
    check (!(fs.int .SocialSecurityNumber = 0 && (fs.time .DateBirth).isZero) ||
      (fs.str .ECOACode = b! "2" || fs.str .ECOACode = b! "5")) f
  | .AccountStatus => check (accountStatuses.contains (fs.str .AccountStatus)) f
  | .AccountType => check (accountTypes.contains (fs.str .AccountType)) f
  | .SpecialComment => check (specialComments.contains (fs.str .SpecialComment)) f
  | _ => none

/-- `Record.Validate`: header /repo/pkg/lib/header_record.go:159-161, 275-290; data record
base_segment.go:630-635, 1124-1152; trailer trailer_record.go:215-217, 314-329. The appended segments of a
data record are not validated again. -/
def Record.validate : Record → Option Err
  | .header enc fs => validateLoop enc.headerFormat (fun _ => none) fs
  | .base enc fs _ => validateLoop enc.baseFormat (baseCustom enc fs) fs
  | .trailer enc fs => validateLoop enc.trailerFormat (fun _ => none) fs

/-! ### Segments of a record -/

/-- `Record.AddApplicableSegment`: data records as `Segs.add`; headers and trailers refuse
(/repo/pkg/lib/header_record.go:179-181, 308-310; trailer_record.go:235-237, 347-349). -/
def Record.addSegment (r : Record) (s : Seg) : Record × Option Err :=
  match r with
  | .base enc fs g =>
    match g.add s with
    | (g', e) => (.base enc fs g', e)
  | r => (r, some .applicableSegment)

/-- `Record.GetSegments`; headers and trailers have none (/repo/pkg/lib/header_record.go:174-176, 303-305; trailer_record.go:230-232,
342-344). -/
def Record.getSegments (r : Record) (name : Bytes) : List Seg :=
  match r with
  | .base _ _ g => g.get name
  | _ => []

/-- Format of a record's Go type. -/
def Record.enc : Record → Enc
  | .header e _ => e
  | .base e _ _ => e
  | .trailer e _ => e

/-- The exported fields of a record. -/
def Record.fields : Record → Fields
  | .header _ fs => fs
  | .base _ fs _ => fs
  | .trailer _ fs => fs

end Metro2
