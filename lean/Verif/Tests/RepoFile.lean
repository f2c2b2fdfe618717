import Verif.Tests.Repo

/-!
The tests of pkg/file and pkg/utils on the model. `ConcurrentString` is not repeated: that it equals `String` is C37. The input is
delivered by the plan `whole`, in pieces of up to 4096 bytes; the split into records does not depend on it, by C39.
-/

namespace Metro2.RepoTests

open TestData

/-- Numbers pass unchanged; the machine knows no zone abbreviation. -/
def env : JsonEnv := ⟨some, fun _ _ => none⟩

/-- Maps are visited in the order of their keys. -/
def inOrder : Nat → List (Bytes × Json) → List (Bytes × Json) := fun _ l => l

def whole : Plan := ⟨fun _ => 4096, fun _ => false⟩

/-- `json.Unmarshal` into a new file. The text behind the first value, here nothing, is not looked at. -/
def viaJson (enc : Enc) (data : Bytes) : Option File := (firstJson data).bind fun j => (newFile enc).ofJson env inOrder j

/-- `NewFileFromReader`. -/
def fromReader (data : Bytes) : Except Err File := newFileFromReader (readJson env inOrder firstJson) whole data false

/-- The text without carriage returns: in the samples they only stand before line feeds. -/
def noCR (s : Bytes) : Bytes := s.filter (· != 13)

/-- `json.Marshal` and `json.Indent(_, "", "  ")`, with the line feeds taken out. -/
def flatJson (f : File) : Bytes := (indentText [32, 32] 0 f.toJson).filter (· != 10)

/-- `GeneratorTrailer` gives a trailer with which the file is valid. -/
def regenerated (f : File) : Bool :=
  match f.generatorTrailer with
  | .ok t => (f.setRecord t).2.isNone && (f.setRecord t).1.validate.isNone
  | .error _ => false

/-! ### JSON -/

-- TestJsonWithUnpackedVariableBlocked
example : (viaJson .character (readLinesOf unpackedVariableFileJson)).map (fun f =>
    (f.string true == noCR unpackedVariableFileDat, flatJson f == readLinesOf unpackedVariableFileJson)) = some (true, true) := by decide +kernel

-- TestJsonWithUnpackedFixedLength, TestGeneratorTrailer
example : (viaJson .character (readLinesOf unpackedFixedFileJson)).map (fun f =>
    (flatJson f == readLinesOf unpackedFixedFileJson, regenerated f)) = some (true, true) := by decide +kernel

-- TestJsonWithPackedBlocked, TestGeneratorPackedTrailer, TestFileValidate, TestGetRecord
example : (viaJson .packed (readLinesOf packedFileJson)).map (fun f =>
    (flatJson f == readLinesOf packedFileJson, regenerated f, f.validate.isNone, ok (f.getRecord (b! "trailer")), ok (f.getRecord (b! "base")))) =
    some (true, true, true, true, false) := by decide +kernel

-- TestBaseSegmentJson; TestPackedBaseSegmentJson is of the same form
example : ∀ enc ∈ [Enc.character, .packed],
    let data := match enc with | .character => baseData | .packed => packedBaseData
    let r := ((newBase enc).parse data true).1
    ((firstJson (jsonText r.toJson)).bind (r.ofJson env (fun l => l))).map (·.string == data) = some true := by decide +kernel

def j1Json : Bytes := b! "{\"segmentIdentifier\": \"J1\", \"surname\": \"BEAUCHAMP\", \"firstName\": \"KEVIN\", \"generationCode\": \"S\", \"socialSecurityNumber\": 445112877, \"dateBirth\": \"2020-01-02T00:00:00Z\", \"telephoneNumber\": 4335552333, \"ecoaCode\": \"2\", \"consumerInformationIndicator\": \"R\"}"

def j1NoCode : Bytes := b! "{\"segmentIdentifier\": \"J1\", \"surname\": \"BEAUCHAMP\", \"firstName\": \"KEVIN\", \"socialSecurityNumber\": 445112877, \"dateBirth\": \"2020-01-02T00:00:00Z\", \"telephoneNumber\": 4335552333, \"ecoaCode\": \"2\", \"consumerInformationIndicator\": \"R\"}"

def j2NoCode : Bytes := b! "{\"segmentIdentifier\": \"J2\", \"surname\": \"BEAUCHAMP\", \"firstName\": \"KEVIN\", \"socialSecurityNumber\": 445112877, \"dateBirth\": \"2020-01-02T00:00:00Z\", \"telephoneNumber\": 4335552333, \"ecoaCode\": \"2\", \"consumerInformationIndicator\": \"R\", \"countryCode\": \"US\", \"firstLineAddress\": \"234 HARRISON PLACE\", \"secondLineAddress\": \"SUITE #305\", \"city\": \"LANSING\", \"state\": \"MI\", \"zipCode\": \"72654\", \"addressIndicator\": \"Y\", \"residenceCode\": \"O\"}"

def k3Json : Bytes := b! "{\"segmentIdentifier\": \"K3\", \"mortgageIdentificationNumber\": \"Mortgage Number\"}"

/-- `json.Unmarshal` into a new segment. -/
def segOfJson (k : SegKind) (data : Bytes) : Option Seg :=
  (firstJson data).bind fun j => (decodeStruct env k.struct (Seg.new k).fields j).map fun fs => ⟨k, fs⟩

-- TestJ1SegmentWithEmptyGenerationCode, TestJ2SegmentWithEmptyGenerationCode
example : (segOfJson .j1 j1NoCode).map (·.validate) = some none ∧ (segOfJson .j2 j2NoCode).map (·.validate) = some none := by decide +kernel

-- Test{,Packed}BaseRecordApplicableSegment, Test{,Packed}BaseRecordApplicableSingleSegment
example : ∀ enc ∈ [Enc.character, .packed],
    (segOfJson .j1 j1Json).map (fun s => (((newBase enc).addSegment s).2, counts ((newBase enc).addSegment s).1)) =
      some (none, [1, 0, 0, 0, 0, 0, 0, 0, 0]) ∧
    (segOfJson .k3 k3Json).map (fun s => (((newBase enc).addSegment s).2, counts ((newBase enc).addSegment s).1)) =
      some (none, [0, 0, 0, 0, 1, 0, 0, 0, 0]) := by decide +kernel

-- TestFileDataRecord
example : (((firstJson (readLinesOf baseSegmentJson)).bind ((newBase .character).ofJson env (fun l => l))).map fun r =>
    (((newFile .character).addDataRecord r).2, ((newFile .character).addDataRecord r).1.bases.length)) = some (none, 1) := by decide +kernel

-- TestFileSetBlock
example : ((firstJson (b! "{\"blockDescriptorWord\": 430, \"recordDescriptorWord\": 426, \"recordIdentifier\": \"HEADER\", \"transUnionProgramIdentifier\": \"5555555555\", \"activityDate\": \"2002-08-20T00:00:00Z\", \"dateCreated\": \"1999-05-10T00:00:00Z\", \"programDate\": \"1999-05-10T00:00:00Z\", \"programRevisionDate\": \"1999-05-10T00:00:00Z\", \"reporterName\": \"YOUR BUSINESS NAME HERE\", \"reporterAddress\": \"LINE ONE OF YOUR ADDRESS LINE TWO OF YOUR ADDRESS LINE THERE OF YOUR ADDRESS\", \"reporterTelephoneNumber\": 1234567890}")).bind
      ((Record.header .character (zeroFields headerRecordStruct)).ofJson env (fun l => l))).map (fun r =>
    (((newFile .character).setRecord r).2, ((newFile .character).setRecord r).1.header.fields.int .BlockDescriptorWord,
      (newFile .character).header.fields.int .BlockDescriptorWord)) = some (none, 430, 0) := by decide +kernel

/-! ### Parse -/

/-- `Parse` succeeds, and `GeneratorTrailer` succeeds for every given status of the first data record. -/
def trailersFor (f : File) (statuses : List Bytes) : Bool :=
  ok f.generatorTrailer && statuses.all fun st =>
    match f.bases with
    | .base e fs g :: rest => ok ({ f with bases := .base e (fs.set .AccountStatus (.str st)) g :: rest } : File).generatorTrailer
    | _ => false

-- TestParseWithUnpackedFixedLength, TestParseWithUnpackedFixedLength2
example : ((newFile .character).parse 100 (readLinesOf unpackedFixedFileDat) false).map (fun p => (p.2, trailersFor p.1
    [b! "DF", b! "DA", b! "05", b! "11", b! "13", b! "61", b! "63", b! "64", b! "65", b! "71", b! "78", b! "80", b! "82", b! "83", b! "84", b! "88",
      b! "89", b! "93", b! "94", b! "95", b! "96", b! "97"])) = some (none, true) := by decide +kernel

-- TestParseWithPackedFileParse
example : ((newFile .packed).parse 100 (readLinesOf packedFileDat) true).map (·.2) = some none := by decide +kernel

-- TestWithUnknownFileType
example : ok (newFileOf (b! "unknown")) = false := by decide +kernel

/-! ### Readers -/

-- TestCreateFile and TestNewFileFromReader, JSON
example : ok (fromReader (readLinesOf packedFileJson)) = true ∧ ok (fromReader packedFileJson) = true := by decide +kernel

-- TestCreateFile and TestNewFileFromReader, packed (`readLinesOf` changes nothing in this sample)
example : (match fromReader packedFileDat with | .ok f => f.string false == packedFileDat | .error _ => false) = true ∧
    readLinesOf packedFileDat = packedFileDat := by decide +kernel

-- TestCreateFileFailed
example : ok (fromReader ((readLinesOf packedFileDat).drop 8)) = false ∧
    ok (fromReader (b! "{\n  \"header\": {\n    \"recordDescriptorWord\": 480,\n    \"recordIdentifier\": \"error\",\n  }\n}")) = false := by
  decide +kernel

-- TestFile__Crashers
example : ∀ d ∈ [crasher_095fc33d, crasher_0a80c2ff, crasher_10c93541, crasher_616e90a0], ok (fromReader d) = false := by decide +kernel

-- TestFile__Reader
example : (match readFile whole unpackedFixedFileDat with | .ok f => f.validate.isNone | .error _ => false) = true := by decide +kernel
example : (match readFile whole packedFileDat with | .ok f => f.validate.isNone | .error _ => false) = true := by decide +kernel

-- BenchmarkFile, "Read with unpacked variable file", requires no error, and the model gives one. `go test` does not run benchmarks unless asked to,
-- and the code was not run here; DESIGN.md describes the difference.
example : ok (readFile whole unpackedVariableFileDat) = false := by decide +kernel

-- TestFile_StringHugeRecordDescriptorWord
example : (match fromReader (b! "{\"header\": {\"recordDescriptorWord\": 5175555555, \"recordIdentifier\": \"HEADER\"}, \"trailer\": {\"recordDescriptorWord\": 426, \"recordIdentifier\": \"TRAILER\"}}") with
    | .ok f => decide ((f.string false).length ≤ 2 ^ 20) | .error _ => true) = true := by decide +kernel

/-! ### pkg/utils -/

-- TestTime_MarshalJSON_Zero, TestTime_MarshalJSON_NonZero, TestTime_UnmarshalJSON_EmptyString
example : jsonText (encodeVal zeroTime) = b! "\"\"" ∧
    (decodeTime env (.str (b! "2020-01-02T15:04:05Z"))).map (fun t => jsonText (encodeVal (.time t))) = some (b! "\"2020-01-02T15:04:05Z\"") ∧
    ((firstJson (b! "\"\"")).bind (decodeTime env)).map (·.isZero) = some true := by decide +kernel

end Metro2.RepoTests
