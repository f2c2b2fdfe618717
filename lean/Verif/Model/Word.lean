import Verif.Model.Concurrent

/-!
The code that computes with `int`, once more, with 64-bit words: every `+` on `int` is reduced to a signed word as on the 64-bit machines that Go
supports. Positions of slice expressions are words too. The other model files use unbounded integers; C109 compares.
Constants of the layout tables are words, too, and are added as Go adds them.
-/

namespace Metro2

/-- The signed 64-bit word that a sum becomes. -/
def wrap (i : Int) : Int := (i + 2 ^ 63) % 2 ^ 64 - 2 ^ 63

/-- The slice expression `s[a:b]` with signed positions; `none` is a panic. -/
def sliceWord {α : Type} (s : List α) (a b : Int) : Option (List α) :=
  if 0 ≤ a ∧ a ≤ b ∧ b ≤ s.length then some ((s.drop a.toNat).take (b - a).toNat) else none

/-! ### Reading -/

/-- `parseLoop` with words: `spec.Start+spec.Length+offset` and `offset += 4`, /repo/pkg/lib/converters.go:133-155 and the copies named at `parseLoop`. -/
def parseLoop64 (fmt : Format) (bdw : BdwPolicy) (bounds : Bool) (rec : Bytes) : Int → Fields → Fields × Option Err
  | _, [] => ([], none)
  | off, (f, v) :: rest =>
    match fmt.lookup f with
    | none => ((f, v) :: rest, some (.invalidValue f))
    | some e =>
      if bounds = true ∧ (rec.length : Int) < wrap (wrap (e.start + e.len) + off) then
        ((f, v) :: rest, some .segmentLength)
      else match sliceWord rec (wrap (e.start + off)) (wrap (wrap (e.start + e.len) + off)) with
      | none => ((f, v) :: rest, some .panic)
      | some data =>
        match isValidType e f data with
        | some err => ((f, v) :: rest, some err)
        | none =>
          match parseValue e data with
          | .error err => ((f, v) :: rest, some err)
          | .ok new =>
            match f, bdw with
            | .BlockDescriptorWord, .skip =>
              let r := parseLoop64 fmt bdw bounds rec off rest
              ((f, v) :: r.1, r.2)
            | .BlockDescriptorWord, .fail => ((f, v) :: rest, some .blockDescriptorWord)
            | .BlockDescriptorWord, .accept =>
              match setVal v new with
              | none => ((f, v) :: rest, some .panic)
              | some w =>
                let r := parseLoop64 fmt bdw bounds rec (wrap (off + 4)) rest
                ((f, w) :: r.1, r.2)
            | _, _ =>
              match setVal v new with
              | none => ((f, v) :: rest, some .panic)
              | some w =>
                let r := parseLoop64 fmt bdw bounds rec off rest
                ((f, w) :: r.1, r.2)

/-- `Seg.parse` with `parseLoop64`. -/
def Seg.parse64 (s : Seg) (rec : Bytes) (isVar : Bool) : Seg × Except Err Int :=
  if rec.length < s.kind.length then (s, .error .segmentLength)
  else
    match parseLoop64 s.kind.format (if isVar then .accept else .skip) true rec 0 s.fields with
    | (fs, some err) => (⟨s.kind, fs⟩, .error err)
    | (fs, none) => (⟨s.kind, fs⟩, .ok s.kind.length)

/-- `readApplicableSegments`, /repo/pkg/lib/base_segment.go:1505-1542, with the position that the code keeps: `offset+2 < len(record)`,
`record[offset : offset+2]`, `record[offset:]`, `offset += read`. -/
def readSegs64 (isVar : Bool) (record : Bytes) : Nat → Segs → Int → Segs × Except Err Int
  | 0, g, _ => (g, .error .panic)
  | fuel + 1, g, off =>
    if wrap (off + 2) < record.length then
      match sliceWord record off (wrap (off + 2)) with
      | none => (g, .error .panic)
      | some id =>
      match segKindOfIdent id with
      | none => (g, .ok off)
      | some k =>
        match sliceFrom record off with
        | none => (g, .error .panic)
        | some tail =>
        match (Seg.new k).parse64 tail isVar with
        | (_, .error err) => (g, .error err)
        | (s, .ok read) =>
          match g.add s with
          | (g', some err) => (g', .error err)
          | (g', none) => readSegs64 isVar record fuel g' (wrap (off + read))
    else (g, .ok off)

/-- `parseHeader` with `parseLoop64`. -/
def parseHeader64 (enc : Enc) (fs : Fields) (rec : Bytes) (isVar : Bool) : Fields × Except Err Int :=
  if rec.length < enc.recordLength then (fs, .error .segmentLength)
  else
    match parseLoop64 enc.headerFormat (headerPolicy enc rec isVar) true rec 0 fs with
    | (fs', some err) => (fs', .error err)
    | (fs', none) =>
      (fs', .ok (if fs'.int .BlockDescriptorWord > 0 then fs'.int .BlockDescriptorWord
        else fs'.int .RecordDescriptorWord))

/-- `trailerLoop` with `parseLoop64`. -/
def trailerLoop64 (enc : Enc) (fs : Fields) (rec : Bytes) (isVar : Bool) : Fields × Option Err :=
  match enc with
  | .character => parseLoop64 enc.trailerFormat (if isVar then .accept else .skip) true rec 0 fs
  | .packed => parseLoop64 enc.trailerFormat .accept false rec 0 fs

/-- `parseTrailer` with `trailerLoop64`. -/
def parseTrailer64 (enc : Enc) (fs : Fields) (rec : Bytes) (isVar : Bool) : Fields × Except Err Int :=
  if rec.length < enc.recordLength then (fs, .error .segmentLength)
  else
    match trailerLoop64 enc fs rec isVar with
    | (fs', some err) => (fs', .error err)
    | (fs', none) => (fs', .ok (fs'.int .RecordDescriptorWord))

/-- `BaseSegment.Parse`, /repo/pkg/lib/base_segment.go:537-574, with the sums `UnpackedRecordLength + 4` and `read+offset`. -/
def parseBaseCharacter64 (fs : Fields) (g : Segs) (rec : Bytes) (isVar : Bool) : (Fields × Segs) × Except Err Int :=
  if rec.length < 426 then ((fs, g), .error .segmentLength)
  else
    match parseLoop64 baseSegmentCharacterFormat (if isVar then .accept else .skip) true rec 0 fs with
    | (fs', some err) => ((fs', g), .error err)
    | (fs', none) =>
      let bdw := fs'.int .BlockDescriptorWord
      let rdw := fs'.int .RecordDescriptorWord
      let off : Int := if bdw > 0 then wrap (426 + 4) else 426
      let g0 : Segs := { g with j1 := [], j2 := [] }
      if (rec.length : Int) < off then ((fs', g0), .error .segmentLength)
      else
        match sliceFrom rec off with
        | none => ((fs', g0), .error .panic)
        | some tail =>
        match readSegs64 isVar tail (tail.length + 1) g0 0 with
        | (g', .error err) => ((fs', g'), .error err)
        | (g', .ok read) =>
          if bdw > 0 ∧ wrap (read + off) > bdw then ((fs', g'), .error .failedParsing)
          else if bdw = 0 ∧ wrap (read + off) > rdw then ((fs', g'), .error .failedParsing)
          else ((fs', g'), .ok (if bdw > 0 then bdw else rdw))

/-- `PackedBaseSegment.Parse`, /repo/pkg/lib/base_segment.go:997-1064, with the same sums. -/
def parseBasePacked64 (fs : Fields) (g : Segs) (rec : Bytes) (isVar : Bool) : (Fields × Segs) × Except Err Int :=
  if rec.length < 366 then ((fs, g), .error .segmentLength)
  else
    match parseLoop64 baseSegmentPackedFormat (if isVar then .accept else .fail) true rec 0 fs with
    | (fs', some err) => ((fs', g), .error err)
    | (fs', none) =>
      let bdw := fs'.int .BlockDescriptorWord
      let off : Int := wrap (366 + 4)
      let g0 : Segs := { g with j1 := [], j2 := [] }
      if (rec.length : Int) < off then ((fs', g0), .error .segmentLength)
      else
        match sliceFrom rec off with
        | none => ((fs', g0), .error .panic)
        | some tail =>
        match readSegs64 isVar tail (tail.length + 1) g0 0 with
        | (g', .error err) => ((fs', g'), .error err)
        | (g', .ok read) =>
          if wrap (read + off) > bdw then ((fs', g'), .error .failedParsing)
          else ((fs', g'), .ok bdw)

/-- `Record.Parse` with words. -/
def Record.parse64 (r : Record) (rec : Bytes) (isVar : Bool) : Record × Except Err Int :=
  match r with
  | .header enc fs =>
    let p := parseHeader64 enc fs rec isVar
    (.header enc p.1, p.2)
  | .trailer enc fs =>
    let p := parseTrailer64 enc fs rec isVar
    (.trailer enc p.1, p.2)
  | .base .character fs g =>
    let p := parseBaseCharacter64 fs g rec isVar
    (.base .character p.1.1 p.1.2, p.2)
  | .base .packed fs g =>
    let p := parseBasePacked64 fs g rec isVar
    (.base .packed p.1.1 p.1.2, p.2)

/-- The data record loop of `Parse`, /repo/pkg/file/file_instance.go:219-239, with `offset += read` on words. -/
def parseBases64 (enc : Enc) (isVar : Bool) (record : Bytes) :
    Nat → Int → List Record → Option (List Record × Int × Option Err)
  | 0, _, _ => none
  | fuel + 1, off, acc =>
    if off ≤ 0 ∨ (record.length : Int) ≤ off then some (acc, off, some .segmentLength)
    else
      match sliceFrom record off with
      | none => some (acc, off, some .panic)
      | some tail =>
      match (newBase enc).parse64 tail isVar with
      | (_, .error .panic) => some (acc, off, some .panic)
      | (_, .error _) => some (acc, off, none)
      | (b, .ok read) => parseBases64 enc isVar record fuel (wrap (off + read)) (acc ++ [b])

/-- `Parse`, /repo/pkg/file/file_instance.go:202-255, with `offset += head` and `offset += tread` on words. -/
def File.parse64 (f : File) (fuel : Nat) (buf : Bytes) (isVar : Bool) : Option (File × Option Err) :=
  let record := (deleteFunc isNewline buf).1
  let f := { f with bases := [] }
  match f.header.parse64 record isVar with
  | (h, .error err) => some ({ f with header := h }, some err)
  | (h, .ok head) =>
    let f := { f with header := h }
    match parseBases64 f.format isVar record fuel (wrap (0 + head)) [] with
    | none => none
    | some (bs, _, some err) => some ({ f with bases := bs }, some err)
    | some (bs, off, none) =>
      let f := { f with bases := bs }
      if off ≤ 0 ∨ (record.length : Int) ≤ off then some (f, some .segmentLength)
      else
        match sliceFrom record off with
        | none => some (f, some .panic)
        | some tail =>
        match f.trailer.parse64 tail isVar with
        | (t, .error err) => some ({ f with trailer := t }, some err)
        | (t, .ok tread) =>
          let f := { f with trailer := t }
          if wrap (off + tread) ≠ record.length then some (f, some .failedParsing) else some (f, none)

/-! ### Writing -/

/-- Block size of a data record, /repo/pkg/lib/base_segment.go:581, packed 1071-1075, with `blockSize += 4` on words. -/
def baseBlockSize64 (enc : Enc) (fs : Fields) : Nat :=
  match enc with
  | .character => clampedBlockSize (fs.int .RecordDescriptorWord)
  | .packed => clampedBlockSize (if fs.int .BlockDescriptorWord > 0
      then wrap (fs.int .RecordDescriptorWord + 4) else fs.int .RecordDescriptorWord)

/-- The loop that cuts the data records into pages, /repo/pkg/file/file_instance.go:285-291, with `i += pageSize` and `end := i + pageSize` on words
and the slice expression `f.Bases[i:end]`. The first result is `none` if the loop has not finished after `fuel` iterations; a panic is the inner `none`. -/
def pagesFrom64 (bases : List Record) (size : Int) : Nat → Int → Option (Option (List (List Record)))
  | 0, i => if i < bases.length then none else some (some [])
  | fuel + 1, i =>
    if i < bases.length then
      let e := if wrap (i + size) > bases.length then (bases.length : Int) else wrap (i + size)
      match sliceWord bases i e with
      | none => some none
      | some page => (pagesFrom64 bases size fuel (wrap (i + size))).map fun r => r.map fun ps => page :: ps
    else some (some [])

/-! ### Totals -/

/-- `info.X++` on words. -/
def Fields.incr64 (fs : Fields) (f : F) : Fields := fs.set f (.int (wrap (fs.int f + 1)))

/-- `if cond { info.X++ }` on words. -/
def Fields.incrIf64 (fs : Fields) (cond : Bool) (f : F) : Fields := if cond then fs.incr64 f else fs

/-- `statisticAccountStatus`, /repo/pkg/file/file_instance.go:559-608. -/
def statisticAccountStatus64 (status : Bytes) (info : Fields) : Fields :=
  if status = b! "DF" then info.incr64 .TotalStatusCodeDF
  else if status = b! "DA" then info.incr64 .TotalStatusCodeDA
  else if status = b! "05" then info.incr64 .TotalStatusCode05
  else if status = b! "11" then info.incr64 .TotalStatusCode11
  else if status = b! "13" then info.incr64 .TotalStatusCode13
  else if status = b! "61" then info.incr64 .TotalStatusCode61
  else if status = b! "62" then info.incr64 .TotalStatusCode62
  else if status = b! "63" then info.incr64 .TotalStatusCode63
  else if status = b! "64" then info.incr64 .TotalStatusCode64
  else if status = b! "65" then info.incr64 .TotalStatusCode65
  else if status = b! "71" then info.incr64 .TotalStatusCode71
  else if status = b! "78" then info.incr64 .TotalStatusCode78
  else if status = b! "80" then info.incr64 .TotalStatusCode80
  else if status = b! "82" then info.incr64 .TotalStatusCode82
  else if status = b! "83" then info.incr64 .TotalStatusCode83
  else if status = b! "84" then info.incr64 .TotalStatusCode84
  else if status = b! "88" then info.incr64 .TotalStatusCode88
  else if status = b! "89" then info.incr64 .TotalStatusCode89
  else if status = b! "93" then info.incr64 .TotalStatusCode93
  else if status = b! "94" then info.incr64 .TotalStatusCode94
  else if status = b! "95" then info.incr64 .TotalStatusCode95
  else if status = b! "96" then info.incr64 .TotalStatusCode96
  else if status = b! "97" then info.incr64 .TotalStatusCode97
  else info

/-- Loop body for J1 segments, /repo/pkg/file/file_instance.go:724-749. -/
def statisticJ164 (info : Fields) (s : Seg) : Fields :=
  if s.kind ≠ .j1 then info
  else
    let info := info.incrIf64 (s.fields.str .ECOACode = b! "Z") .TotalECOACodeZ
    if s.validate = none then
      let info := info.incr64 .TotalConsumerSegmentsJ1
      let info := if isValidSocialSecurityNumber (s.fields.int .SocialSecurityNumber) then
          (info.incr64 .TotalSocialNumbersAllSegments).incr64 .TotalSocialNumbersJ1Segments
        else info
      let info := if (s.fields.time .DateBirth).isZero then info
        else (info.incr64 .TotalDatesBirthAllSegments).incr64 .TotalDatesBirthJ1Segments
      info.incrIf64 (s.fields.int .TelephoneNumber > 0) .TotalTelephoneNumbersAllSegments
    else info

/-- Loop body for J2 segments, /repo/pkg/file/file_instance.go:750-775. -/
def statisticJ264 (info : Fields) (s : Seg) : Fields :=
  if s.kind ≠ .j2 then info
  else
    let info := info.incrIf64 (s.fields.str .ECOACode = b! "Z") .TotalECOACodeZ
    if s.validate = none then
      let info := info.incr64 .TotalConsumerSegmentsJ2
      let info := if isValidSocialSecurityNumber (s.fields.int .SocialSecurityNumber) then
          (info.incr64 .TotalSocialNumbersAllSegments).incr64 .TotalSocialNumbersJ2Segments
        else info
      let info := if (s.fields.time .DateBirth).isZero then info
        else (info.incr64 .TotalDatesBirthAllSegments).incr64 .TotalDatesBirthJ2Segments
      info.incrIf64 (s.fields.int .TelephoneNumber > 0) .TotalTelephoneNumbersAllSegments
    else info

/-- Loop bodies for K1 to N1 segments, /repo/pkg/file/file_instance.go:776-833. -/
def statisticOther64 (k : SegKind) (info : Fields) (s : Seg) : Fields :=
  if s.kind ≠ k then info
  else match k with
    | .k1 => info.incrIf64 ((s.fields.str .OriginalCreditorName).length > 0)
        .TotalOriginalCreditorSegments
    | .k2 => info.incrIf64 (s.fields.int .PurchasedIndicator = 2 ||
        s.fields.int .PurchasedIndicator = 1) .TotalPurchasedToSegments
    | .k3 => info.incrIf64 (s.fields.int .AgencyIdentifier = 0) .TotalMortgageInformationSegments
    | .k4 => info.incrIf64 (s.fields.int .SpecializedPaymentIndicator = 1 ||
        s.fields.int .SpecializedPaymentIndicator = 2) .TotalPaymentInformationSegments
    | .l1 => info.incrIf64 (s.fields.int .ChangeIndicator = 1 || s.fields.int .ChangeIndicator = 2 ||
        s.fields.int .ChangeIndicator = 3) .TotalChangeSegments
    | .n1 => info.incrIf64 ((s.fields.str .EmployerName).length > 0) .TotalEmploymentSegments
    | _ => info

/-- `statisticBase`, /repo/pkg/file/file_instance.go:723-834, and `statisticPackedBase`, 610-721. -/
def statisticBase64 (g : Segs) (info : Fields) : Fields :=
  let info := (g.get (b! "j1")).foldl statisticJ164 info
  let info := (g.get (b! "j2")).foldl statisticJ264 info
  let info := (g.get (b! "k1")).foldl (statisticOther64 .k1) info
  let info := (g.get (b! "k2")).foldl (statisticOther64 .k2) info
  let info := (g.get (b! "k3")).foldl (statisticOther64 .k3) info
  let info := (g.get (b! "k4")).foldl (statisticOther64 .k4) info
  let info := (g.get (b! "l1")).foldl (statisticOther64 .l1) info
  (g.get (b! "n1")).foldl (statisticOther64 .n1) info

/-- Body of the loop over the data records, /repo/pkg/file/file_instance.go:496-518, 529-554. -/
def statisticRecord64 (fs : Fields) (g : Segs) (info : Fields) : Fields :=
  let info := if isValidSocialSecurityNumber (fs.int .SocialSecurityNumber) then
      (info.incr64 .TotalSocialNumbersAllSegments).incr64 .TotalSocialNumbersBaseSegments
    else info
  let info := if (fs.time .DateBirth).isZero then info
    else (info.incr64 .TotalDatesBirthAllSegments).incr64 .TotalDatesBirthBaseSegments
  let info := info.incrIf64 (fs.str .ECOACode = b! "Z") .TotalECOACodeZ
  let info := info.incrIf64 (fs.int .TelephoneNumber > 0) .TotalTelephoneNumbersAllSegments
  let info := statisticAccountStatus64 (fs.str .AccountStatus) info
  statisticBase64 g info

/-- The loop of `generatorTrailer` / `generatorPackedTrailer`, see `generatorLoop`. -/
def generatorLoop64 (enc : Enc) : List Record → Fields → Except Err Fields
  | [], info => .ok info
  | .base e fs g :: rest, info =>
    if e = enc then generatorLoop64 enc rest (statisticRecord64 fs g info) else .error .panic
  | _ :: _, _ => .error .panic

/-- `GeneratorTrailer`, /repo/pkg/file/file_instance.go:92-135 with 490-557, on words. -/
def File.generatorTrailer64 (f : File) : Except Err Record :=
  let info := zeroFields trailerRecordStruct
  let info := info.set .TotalBaseRecords (.int f.bases.length)
  let info := info.set .BlockCount (.int (wrap (f.bases.length + 2)))
  match generatorLoop64 f.format f.bases info with
  | .error err => .error err
  | .ok info =>
    .ok (.trailer f.format ((info.set .RecordDescriptorWord (.int f.format.recordLength)).set
      .RecordIdentifier (.str (b! "TRAILER"))))

end Metro2
