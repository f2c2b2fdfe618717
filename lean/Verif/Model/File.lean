import Verif.Model.Record

/-!
`fileInstance`: /repo/pkg/file/file_instance.go (without JSON and concurrency, which have their
own files) and `NewFile`.
-/

namespace Metro2

/-- `fileInstance`, /repo/pkg/file/file_instance.go:27-34. The fields have the interface type
`lib.Record` in Go, so a record of any type could be stored. Simplification: nil header
and trailer are not modelled; `NewFile` sets both and no method of `File` makes them nil. -/
structure File where
  format : Enc
  header : Record
  bases : List Record
  trailer : Record
deriving DecidableEq, Repr

/-- `utils.CharacterFileFormat` and `utils.PackedFileFormat`, /repo/pkg/utils/constants.go. -/
def Enc.name : Enc → Bytes
  | .character => b! "character"
  | .packed => b! "packed"

/-- `NewFile` for the two format names, /repo/pkg/file/file.go:51-69. -/
def newFile (enc : Enc) : File := ⟨enc, newHeader enc, [], newTrailer enc⟩

/-- `NewFile`: an unknown name is an error. -/
def newFileOf (name : Bytes) : Except Err File :=
  if name = Enc.character.name then .ok (newFile .character)
  else if name = Enc.packed.name then .ok (newFile .packed)
  else .error .invalidSegment

/-- `SetRecord`, /repo/pkg/file/file_instance.go:37-54. -/
def File.setRecord (f : File) (r : Record) : File × Option Err :=
  match r.validate with
  | some err => (f, some err)
  | none =>
    match r with
    | .header enc _ =>
      if f.format = enc then ({ f with header := r }, none) else (f, some .invalidRecord)
    | .trailer enc _ =>
      if f.format = enc then ({ f with trailer := r }, none) else (f, some .invalidRecord)
    | .base _ _ _ => (f, some .invalidRecord)

/-- `AddDataRecord`, /repo/pkg/file/file_instance.go:57-72. -/
def File.addDataRecord (f : File) (r : Record) : File × Option Err :=
  match r.validate with
  | some err => (f, some err)
  | none =>
    match r with
    | .base enc _ _ =>
      if f.format = enc then ({ f with bases := f.bases ++ [r] }, none)
      else (f, some .invalidRecord)
    | _ => (f, some .invalidRecord)

/-- `GetRecord`, /repo/pkg/file/file_instance.go:75-84. -/
def File.getRecord (f : File) (name : Bytes) : Except Err Record :=
  if name = b! "header" then .ok f.header
  else if name = b! "trailer" then .ok f.trailer
  else .error .invalidRecord

/-! ### Trailer totals -/

/-- `info.X++`. -/
def Fields.incr (fs : Fields) (f : F) : Fields := fs.set f (.int (fs.int f + 1))

/-- `if cond { info.X++ }`. -/
def Fields.incrIf (fs : Fields) (cond : Bool) (f : F) : Fields := if cond then fs.incr f else fs

/-- `isValidSocialSecurityNumber`, /repo/pkg/file/file_instance.go:836-842. -/
def isValidSocialSecurityNumber (ssn : Int) : Bool := !(ssn ≤ 0 || ssn ≥ 999999999)

/-- `statisticAccountStatus`, /repo/pkg/file/file_instance.go:559-608. -/
def statisticAccountStatus (status : Bytes) (info : Fields) : Fields :=
  if status = b! "DF" then info.incr .TotalStatusCodeDF
  else if status = b! "DA" then info.incr .TotalStatusCodeDA
  else if status = b! "05" then info.incr .TotalStatusCode05
  else if status = b! "11" then info.incr .TotalStatusCode11
  else if status = b! "13" then info.incr .TotalStatusCode13
  else if status = b! "61" then info.incr .TotalStatusCode61
  else if status = b! "62" then info.incr .TotalStatusCode62
  else if status = b! "63" then info.incr .TotalStatusCode63
  else if status = b! "64" then info.incr .TotalStatusCode64
  else if status = b! "65" then info.incr .TotalStatusCode65
  else if status = b! "71" then info.incr .TotalStatusCode71
  else if status = b! "78" then info.incr .TotalStatusCode78
  else if status = b! "80" then info.incr .TotalStatusCode80
  else if status = b! "82" then info.incr .TotalStatusCode82
  else if status = b! "83" then info.incr .TotalStatusCode83
  else if status = b! "84" then info.incr .TotalStatusCode84
  else if status = b! "88" then info.incr .TotalStatusCode88
  else if status = b! "89" then info.incr .TotalStatusCode89
  else if status = b! "93" then info.incr .TotalStatusCode93
  else if status = b! "94" then info.incr .TotalStatusCode94
  else if status = b! "95" then info.incr .TotalStatusCode95
  else if status = b! "96" then info.incr .TotalStatusCode96
  else if status = b! "97" then info.incr .TotalStatusCode97
  else info

/-- Loop body for J1 segments, /repo/pkg/file/file_instance.go:724-749. The type assertion
`j1.(*lib.J1Segment)` is the test on the kind. -/
def statisticJ1 (info : Fields) (s : Seg) : Fields :=
  if s.kind ≠ .j1 then info
  else
    let info := info.incrIf (s.fields.str .ECOACode = b! "Z") .TotalECOACodeZ
    if s.validate = none then
      let info := info.incr .TotalConsumerSegmentsJ1
      let info := if isValidSocialSecurityNumber (s.fields.int .SocialSecurityNumber) then
          (info.incr .TotalSocialNumbersAllSegments).incr .TotalSocialNumbersJ1Segments
        else info
      let info := if (s.fields.time .DateBirth).isZero then info
        else (info.incr .TotalDatesBirthAllSegments).incr .TotalDatesBirthJ1Segments
      info.incrIf (s.fields.int .TelephoneNumber > 0) .TotalTelephoneNumbersAllSegments
    else info

/-- Loop body for J2 segments, /repo/pkg/file/file_instance.go:750-775. -/
def statisticJ2 (info : Fields) (s : Seg) : Fields :=
  if s.kind ≠ .j2 then info
  else
    let info := info.incrIf (s.fields.str .ECOACode = b! "Z") .TotalECOACodeZ
    if s.validate = none then
      let info := info.incr .TotalConsumerSegmentsJ2
      let info := if isValidSocialSecurityNumber (s.fields.int .SocialSecurityNumber) then
          (info.incr .TotalSocialNumbersAllSegments).incr .TotalSocialNumbersJ2Segments
        else info
      let info := if (s.fields.time .DateBirth).isZero then info
        else (info.incr .TotalDatesBirthAllSegments).incr .TotalDatesBirthJ2Segments
      info.incrIf (s.fields.int .TelephoneNumber > 0) .TotalTelephoneNumbersAllSegments
    else info

/-- Loop bodies for K1 to N1 segments, /repo/pkg/file/file_instance.go:776-833. -/
def statisticOther (k : SegKind) (info : Fields) (s : Seg) : Fields :=
  if s.kind ≠ k then info
  else match k with
    | .k1 => info.incrIf ((s.fields.str .OriginalCreditorName).length > 0)
        .TotalOriginalCreditorSegments
    | .k2 => info.incrIf (s.fields.int .PurchasedIndicator = 2 ||
        s.fields.int .PurchasedIndicator = 1) .TotalPurchasedToSegments
    | .k3 => info.incrIf (s.fields.int .AgencyIdentifier = 0) .TotalMortgageInformationSegments
    | .k4 => info.incrIf (s.fields.int .SpecializedPaymentIndicator = 1 ||
        s.fields.int .SpecializedPaymentIndicator = 2) .TotalPaymentInformationSegments
    | .l1 => info.incrIf (s.fields.int .ChangeIndicator = 1 || s.fields.int .ChangeIndicator = 2 ||
        s.fields.int .ChangeIndicator = 3) .TotalChangeSegments
    | .n1 => info.incrIf ((s.fields.str .EmployerName).length > 0) .TotalEmploymentSegments
    | _ => info

/-- `statisticBase`, /repo/pkg/file/file_instance.go:723-834, and `statisticPackedBase`, 610-721 (the
same text for the other type). -/
def statisticBase (g : Segs) (info : Fields) : Fields :=
  let info := (g.get (b! "j1")).foldl statisticJ1 info
  let info := (g.get (b! "j2")).foldl statisticJ2 info
  let info := (g.get (b! "k1")).foldl (statisticOther .k1) info
  let info := (g.get (b! "k2")).foldl (statisticOther .k2) info
  let info := (g.get (b! "k3")).foldl (statisticOther .k3) info
  let info := (g.get (b! "k4")).foldl (statisticOther .k4) info
  let info := (g.get (b! "l1")).foldl (statisticOther .l1) info
  (g.get (b! "n1")).foldl (statisticOther .n1) info

/-- Body of the loop over the data records, /repo/pkg/file/file_instance.go:496-518, 529-554. -/
def statisticRecord (fs : Fields) (g : Segs) (info : Fields) : Fields :=
  let info := if isValidSocialSecurityNumber (fs.int .SocialSecurityNumber) then
      (info.incr .TotalSocialNumbersAllSegments).incr .TotalSocialNumbersBaseSegments
    else info
  let info := if (fs.time .DateBirth).isZero then info
    else (info.incr .TotalDatesBirthAllSegments).incr .TotalDatesBirthBaseSegments
  let info := info.incrIf (fs.str .ECOACode = b! "Z") .TotalECOACodeZ
  let info := info.incrIf (fs.int .TelephoneNumber > 0) .TotalTelephoneNumbersAllSegments
  let info := statisticAccountStatus (fs.str .AccountStatus) info
  statisticBase g info

/-- The loop of `generatorTrailer` / `generatorPackedTrailer`. A record of another type makes the
type assertion fail; the nil pointer is then dereferenced, which panics. -/
def generatorLoop (enc : Enc) : List Record → Fields → Except Err Fields
  | [], info => .ok info
  | .base e fs g :: rest, info =>
    if e = enc then generatorLoop enc rest (statisticRecord fs g info) else .error .panic
  | _ :: _, _ => .error .panic

/-- `generatorTrailer` (/repo/pkg/file/file_instance.go:490-522) for `enc = character`, `generatorPackedTrailer`
(524-557) for `enc = packed`. -/
def generatorTrailer (enc : Enc) (bases : List Record) : Except Err Fields :=
  let info := zeroFields trailerRecordStruct
  let info := info.set .TotalBaseRecords (.int bases.length)
  let info := info.set .BlockCount (.int (bases.length + 2))
  generatorLoop enc bases info

/-- `GeneratorTrailer`, /repo/pkg/file/file_instance.go:92-135. All exported fields are copied, so the copy loop is
the identity on the field list. -/
def File.generatorTrailer (f : File) : Except Err Record :=
  match Metro2.generatorTrailer f.format f.bases with
  | .error err => .error err
  | .ok info =>
    .ok (.trailer f.format ((info.set .RecordDescriptorWord (.int f.format.recordLength)).set
      .RecordIdentifier (.str (b! "TRAILER"))))

/-! ### Validate -/

/-- The comparison loop of `Validate`, /repo/pkg/file/file_instance.go:176-197. -/
def compareTotals (trailer : Fields) : Fields → Option Err
  | [] => none
  | (f, v) :: rest =>
    if f = .BlockDescriptorWord ∨ f = .RecordDescriptorWord ∨ f = .RecordIdentifier then
      compareTotals trailer rest
    else match trailer.get f with
      | none => some (.invalidValue f)
      | some w => if v = w then compareTotals trailer rest else some (.invalidValue f)

/-- First error of a list of records. -/
def firstInvalid : List Record → Option Err
  | [] => none
  | r :: rs => match r.validate with
    | some err => some err
    | none => firstInvalid rs

/-- `Validate`, /repo/pkg/file/file_instance.go:138-199. -/
def File.validate (f : File) : Option Err :=
  match f.header.validate with
  | some err => some err
  | none =>
    match f.trailer.validate with
    | some err => some err
    | none =>
      match firstInvalid f.bases with
      | some err => some err
      | none =>
        match Metro2.generatorTrailer f.format f.bases with
        | .error err => some err
        | .ok info => compareTotals f.trailer.fields info

/-! ### SetType -/

/-- Conversion of a record of type `from` and the expected sort to format `to`; `none` if the type
assertion fails. -/
def convertHeader (src dst : Enc) : Record → Option Record
  | .header e fs => if e = src then some (.header dst fs) else none
  | _ => none

/-- See `convertHeader`. -/
def convertBase (src dst : Enc) : Record → Option Record
  | .base e fs g => if e = src then some (.base dst fs g) else none
  | _ => none

/-- See `convertHeader`. -/
def convertTrailer (src dst : Enc) : Record → Option Record
  | .trailer e fs => if e = src then some (.trailer dst fs) else none
  | _ => none

/-- All data records converted, or `none` at the first that is of another type. -/
def convertBases (src dst : Enc) : List Record → Option (List Record)
  | [] => some []
  | r :: rs =>
    match convertBase src dst r with
    | none => none
    | some r' => match convertBases src dst rs with
      | none => none
      | some rs' => some (r' :: rs')

/-- The body of `SetType` when the type changes, /repo/pkg/file/file_instance.go:420-486. An error leaves the
parts converted so far in the file. -/
def File.convert (f : File) (dst : Enc) : File × Option Err :=
  match convertHeader f.format dst f.header with
  | none => (f, some .invalidRecord)
  | some h =>
    let f1 := { f with header := h }
    match convertBases f.format dst f.bases with
    | none => (f1, some .invalidRecord)
    | some bs =>
      let f2 := { f1 with bases := bs }
      match convertTrailer f.format dst f.trailer with
      | none => (f2, some .invalidRecord)
      | some t => ({ f2 with trailer := t, format := dst }, none)

/-- `SetType`, /repo/pkg/file/file_instance.go:411-488. -/
def File.setType (f : File) (name : Bytes) : File × Option Err :=
  if name ≠ Enc.character.name ∧ name ≠ Enc.packed.name then (f, some .invalidFile)
  else
    let dst : Enc := if name = Enc.character.name then .character else .packed
    if f.format = dst then (f, none) else f.convert dst

/-! ### Parse -/

/-- CR or LF. -/
def isNewline (c : UInt8) : Bool := c == 13 || c == 10

/-- The bytes without CR and LF. -/
def stripNewlines (s : Bytes) : Bytes := s.filter (fun c => !isNewline c)

/-- The loop of `slices.DeleteFunc` (Go standard library; trusted base): `i` is the next position to write, `j` the next
to read, in the buffer `s`, for `n` further steps. -/
def deleteFuncLoop (del : UInt8 → Bool) : Nat → Nat → Nat → Bytes → Nat × Bytes
  | 0, i, _, s => (i, s)
  | n + 1, i, j, s =>
    match s[j]? with
    | none => (i, s)
    | some v => if del v then deleteFuncLoop del n i (j + 1) s else deleteFuncLoop del n (i + 1) (j + 1) (s.set i v)

/-- `slices.DeleteFunc` as called at /repo/pkg/file/file_instance.go:205-207: the slice that is returned and what is
left in the caller's buffer. The kept bytes are moved to the front in place and the rest is zeroed. -/
def deleteFunc (del : UInt8 → Bool) (s : Bytes) : Bytes × Bytes :=
  match s.findIdx? del with
  | none => (s, s)
  | some i =>
    let r := deleteFuncLoop del (s.length - (i + 1)) i (i + 1) s
    (r.2.take r.1, r.2.take r.1 ++ List.replicate (s.length - r.1) 0)

/-- The data record loop of `Parse`, /repo/pkg/file/file_instance.go:219-239, from position `off` with the records
read so far. `none`: not finished after `fuel` iterations. Otherwise the records, the
position, and the error that `Parse` returns at once, if any. -/
def parseBases (enc : Enc) (isVar : Bool) (record : Bytes) :
    Nat → Int → List Record → Option (List Record × Int × Option Err)
  | 0, _, _ => none
  | fuel + 1, off, acc =>
    if off ≤ 0 ∨ (record.length : Int) ≤ off then some (acc, off, some .segmentLength)
    else
      match sliceFrom record off with
      | none => some (acc, off, some .panic)
      | some tail =>
      match (newBase enc).parse tail isVar with
      | (_, .error .panic) => some (acc, off, some .panic)
      | (_, .error _) => some (acc, off, none)
      | (b, .ok read) => parseBases enc isVar record fuel (off + read) (acc ++ [b])

/-- `Parse`, /repo/pkg/file/file_instance.go:202-255. `none`: the data record loop has not finished
after `fuel` iterations. Otherwise the file (changed also when an error is returned) and the error. What happens to the
caller's buffer is `(deleteFunc isNewline buf).2`. -/
def File.parse (f : File) (fuel : Nat) (buf : Bytes) (isVar : Bool) : Option (File × Option Err) :=
  let record := (deleteFunc isNewline buf).1
  let f := { f with bases := [] }
  match f.header.parse record isVar with
  | (h, .error err) => some ({ f with header := h }, some err)
  | (h, .ok head) =>
    let f := { f with header := h }
    match parseBases f.format isVar record fuel head [] with
    | none => none
    | some (bs, _, some err) => some ({ f with bases := bs }, some err)
    | some (bs, off, none) =>
      let f := { f with bases := bs }
      if off ≤ 0 ∨ (record.length : Int) ≤ off then some (f, some .segmentLength)
      else
        match sliceFrom record off with
        | none => some (f, some .panic)
        | some tail =>
        match f.trailer.parse tail isVar with
        | (t, .error err) => some ({ f with trailer := t }, some err)
        | (t, .ok tread) =>
          let f := { f with trailer := t }
          if off + tread ≠ record.length then some (f, some .failedParsing) else some (f, none)

/-! ### String -/

/-- `newLine` in `ConcurrentString`, /repo/pkg/file/file_instance.go:274-277. -/
def newLine (isNewLine : Bool) : Bytes := if isNewLine then [10] else []

/-- Result of `String` (/repo/pkg/file/file_instance.go:264-266), stated sequentially; the concurrent
algorithm is modelled in Model/Concurrent.lean and proved to give this. -/
def File.string (f : File) (isNewLine : Bool) : Bytes :=
  f.header.string ++ newLine isNewLine ++
    (f.bases.map fun b => b.string ++ newLine isNewLine).flatten ++ f.trailer.string

end Metro2
