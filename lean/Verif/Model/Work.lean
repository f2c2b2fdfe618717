import Verif.Model.Reader

/-!
Reading once more, with the number of calls of `Parse` of a record or of a segment counted in the second component. Each such call looks at each row of
one layout table at most once. Writing, with the number of bytes counted that are copied while the texts of the segments are joined.
-/

namespace Metro2

/-! ### Reading -/

/-- `readApplicableSegments`, /repo/pkg/lib/base_segment.go:1505-1542, as `readSegs`, with the calls of `segment.Parse` (1530). -/
def readSegsW (isVar : Bool) : Nat → Segs → Nat → Bytes → (Segs × Except Err Nat) × Nat
  | 0, g, _, _ => ((g, .error .panic), 0)
  | fuel + 1, g, off, rec =>
    if 2 < rec.length then
      match slice rec 0 2 with
      | none => ((g, .error .panic), 0)
      | some id =>
      match segKindOfIdent id with
      | none => ((g, .ok off), 0)
      | some k =>
        match (Seg.new k).parse rec isVar with
        | (_, .error err) => ((g, .error err), 1)
        | (s, .ok read) =>
          match g.add s with
          | (g', some err) => ((g', .error err), 1)
          | (g', none) =>
            let p := readSegsW isVar fuel g' (off + read) (rec.drop read)
            (p.1, p.2 + 1)
    else ((g, .ok off), 0)

/-- The part of `Parse` of data records behind the fields, /repo/pkg/lib/base_segment.go:549-573 (character) and 1040-1063 (packed), from position `off`: `tooLong` are the
tests of the sizes, and `size` is what is reported. -/
def tailW (fs : Fields) (g : Segs) (rec : Bytes) (isVar : Bool) (off : Nat) (tooLong : Int → Bool) (size : Int) : ((Fields × Segs) × Except Err Int) × Nat :=
  let g0 : Segs := { g with j1 := [], j2 := [] }
  if rec.length < off then (((fs, g0), .error .segmentLength), 0)
  else
    match sliceFrom rec off with
    | none => (((fs, g0), .error .panic), 0)
    | some tail =>
      match readSegsW isVar (tail.length + 1) g0 0 tail with
      | ((g', .error err), n) => (((fs, g'), .error err), n)
      | ((g', .ok read), n) => if tooLong (read + off) then (((fs, g'), .error .failedParsing), n) else (((fs, g'), .ok size), n)

/-- `Parse` of data records, /repo/pkg/lib/base_segment.go:537-574 (character) and 997-1064 (packed), with the calls for its segments. -/
def parseBaseW (enc : Enc) (fs : Fields) (g : Segs) (rec : Bytes) (isVar : Bool) : ((Fields × Segs) × Except Err Int) × Nat :=
  if rec.length < enc.recordLength then (((fs, g), .error .segmentLength), 0)
  else
    match enc with
    | .character =>
      match parseLoop baseSegmentCharacterFormat (if isVar then .accept else .skip) true rec 0 fs with
      | (fs', some err) => (((fs', g), .error err), 0)
      | (fs', none) =>
        let bdw := fs'.int .BlockDescriptorWord
        let rdw := fs'.int .RecordDescriptorWord
        tailW fs' g rec isVar (if bdw > 0 then 426 + 4 else 426) (fun n => (bdw > 0 ∧ n > bdw) ∨ (bdw = 0 ∧ n > rdw)) (if bdw > 0 then bdw else rdw)
    | .packed =>
      match parseLoop baseSegmentPackedFormat (if isVar then .accept else .fail) true rec 0 fs with
      | (fs', some err) => (((fs', g), .error err), 0)
      | (fs', none) => tailW fs' g rec isVar (366 + 4) (fun n => n > fs'.int .BlockDescriptorWord) (fs'.int .BlockDescriptorWord)

/-- `Record.Parse`, with the call itself and the calls for the segments. -/
def Record.parseW (r : Record) (rec : Bytes) (isVar : Bool) : (Record × Except Err Int) × Nat :=
  match r with
  | .base enc fs g =>
    let p := parseBaseW enc fs g rec isVar
    ((.base enc p.1.1.1 p.1.1.2, p.1.2), p.2 + 1)
  | r => (r.parse rec isVar, 1)

/-- The data record loop of `File.Parse`, /repo/pkg/file/file_instance.go:219-239, as `parseBases`. -/
def parseBasesW (enc : Enc) (isVar : Bool) (record : Bytes) : Nat → Int → List Record → Option (List Record × Int × Option Err) × Nat
  | 0, _, _ => (none, 0)
  | fuel + 1, off, acc =>
    if off ≤ 0 ∨ (record.length : Int) ≤ off then (some (acc, off, some .segmentLength), 0)
    else
      match sliceFrom record off with
      | none => (some (acc, off, some .panic), 0)
      | some tail =>
      match (newBase enc).parseW tail isVar with
      | ((_, .error .panic), n) => (some (acc, off, some .panic), n)
      | ((_, .error _), n) => (some (acc, off, none), n)
      | ((b, .ok read), n) =>
        let p := parseBasesW enc isVar record fuel (off + read) (acc ++ [b])
        (p.1, n + p.2)

/-- `File.Parse`, /repo/pkg/file/file_instance.go:202-255, as `File.parse`. -/
def File.parseW (f : File) (fuel : Nat) (buf : Bytes) (isVar : Bool) : Option (File × Option Err) × Nat :=
  let record := (deleteFunc isNewline buf).1
  let f := { f with bases := [] }
  match f.header.parseW record isVar with
  | ((h, .error err), n) => (some ({ f with header := h }, some err), n)
  | ((h, .ok head), n) =>
    let f := { f with header := h }
    match parseBasesW f.format isVar record fuel head [] with
    | (none, m) => (none, n + m)
    | (some (bs, _, some err), m) => (some ({ f with bases := bs }, some err), n + m)
    | (some (bs, off, none), m) =>
      let f := { f with bases := bs }
      if off ≤ 0 ∨ (record.length : Int) ≤ off then (some (f, some .segmentLength), n + m)
      else
        match sliceFrom record off with
        | none => (some (f, some .panic), n + m)
        | some tail =>
        match f.trailer.parseW tail isVar with
        | ((t, .error err), k) => (some ({ f with trailer := t }, some err), n + m + k)
        | ((t, .ok tread), k) =>
          let f := { f with trailer := t }
          (if off + tread ≠ record.length then some (f, some .failedParsing) else some (f, none), n + m + k)

/-- The data record loop of `Read`, /repo/pkg/file/file.go:187-204, as `readBases`. -/
def readBasesW (p : Plan) (enc : Enc) (isVar : Bool) (s : Scanner) (acc : List Record) :
    Except Err (List Record × Option Bytes × Scanner) × Nat :=
  match h : s.scan p with
  | (t, none) => (.ok (acc, none, t), 0)
  | (t, some line) =>
    match (newBase enc).parseW line isVar with
    | ((_, .error .panic), n) => (.error .panic, n)
    | ((_, .error _), n) => (.ok (acc, some line, t), n)
    | ((b, .ok _), n) =>
      let q := readBasesW p enc isVar t (acc ++ [b])
      (q.1, n + q.2)
termination_by s.window.length + s.rest.length
decreasing_by exact Scanner.scan_lt p s h

/-- `Reader.Read`, /repo/pkg/file/file.go:154-234, as `readFile`: one call of `Parse` for the header if the line looks like one, and one for the trailer. -/
def readFileW (p : Plan) (data : Bytes) : Except Err File × Nat :=
  let f := newFile .character
  match (newScanner data).scan p with
  | (_, none) => (.error .invalidSegment, 0)
  | (s, some line) =>
    match readHeader f line with
    | .error e => (.error e, if isMetroFile line then 1 else 0)
    | .ok (f, isVar) =>
      match readBasesW p f.format isVar s [] with
      | (.error e, n) => (.error e, 1 + n)
      | (.ok (bs, some line, _), n) => (readTrailer { f with bases := bs } line isVar, 1 + n + 1)
      | (.ok (bs, none, s), n) =>
        match s.scan p with
        | (_, none) => (.error .invalidSegment, 1 + n)
        | (_, some line) => (readTrailer { f with bases := bs } line isVar, 1 + n + 1)

/-! ### Writing -/

/-- `applicableSegment += sub.String()`, /repo/pkg/lib/base_segment.go:590-615 and 1084-1109: a concatenation copies both texts, unless one of them is empty. -/
def joinW (acc : Bytes × Nat) (t : Bytes) : Bytes × Nat :=
  (acc.1 ++ t, acc.2 + if acc.1 = [] ∨ t = [] then 0 else acc.1.length + t.length)

/-- The text of all segments with the number of bytes copied. -/
def Segs.stringW (g : Segs) : Bytes × Nat := (g.list.map Seg.string).foldl joinW ([], 0)

end Metro2
