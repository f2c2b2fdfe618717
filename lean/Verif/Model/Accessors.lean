import Verif.Model.Reader

/-!
The accessors of segments, records and files: `Name`, `Length`, `BlockSize`, `Bytes`, `GetType`, `GetDataRecords`, and
`CreateFile`.
-/

namespace Metro2

/-- `Name()` of the records, /repo/pkg/lib/record.go:33-44: header /repo/pkg/lib/header_record.go:107-109, 184-186; data record
base_segment.go:532-534, 992-994; trailer trailer_record.go:170-172, 243-245. -/
def Record.name : Record → Bytes
  | .header .character _ => b! "header"
  | .header .packed _ => b! "headerPacked"
  | .base .character _ _ => b! "base"
  | .base .packed _ _ => b! "basePacked"
  | .trailer .character _ => b! "trailer"
  | .trailer .packed _ => b! "trailerPacked"

/-- `Length()` of the records: header /repo/pkg/lib/header_record.go:169-171, 298-300; data record base_segment.go:643-645,
1160-1162; trailer trailer_record.go:225-227, 337-339. -/
def Record.length (r : Record) : Int := r.fields.int .RecordDescriptorWord

/-- `BlockSize()` of the records: header /repo/pkg/lib/header_record.go:164-166, 293-295; data record base_segment.go:638-640,
1155-1157; a trailer has no block descriptor and returns its record descriptor, trailer_record.go:220-222, 332-334. -/
def Record.blockSize : Record → Int
  | .header _ fs => fs.int .BlockDescriptorWord
  | .base _ fs _ => fs.int .BlockDescriptorWord
  | .trailer _ fs => fs.int .RecordDescriptorWord

/-- `Bytes()` of the records: header /repo/pkg/lib/header_record.go:154-156, 270-272; data record base_segment.go:625-627,
1119-1121; trailer trailer_record.go:210-212, 309-311. -/
def Record.bytes (r : Record) : Bytes := r.string

/-- `Name()` of the segments: /repo/pkg/lib/j1_segment.go:110-112, j2_segment.go:166-168, kn_segment.go:65-67, 146-148, 239-241,
333-335, l1_segment.go:43-45, n1_segment.go:46-48. -/
def Seg.name (s : Seg) : Bytes := s.kind.name

/-- `AddApplicableSegment` of the records for any value of the interface `Segment`, /repo/pkg/lib/segment.go:8-15: the methods of the records contain
those of the interface, so a record can be given too. Data records validate it and find no case for its name
(/repo/pkg/lib/base_segment.go:692-717, 1209-1234); headers and trailers refuse it as they refuse every segment. -/
def Record.addAny (r : Record) : Seg ⊕ Record → Record × Option Err
  | .inl s => r.addSegment s
  | .inr x =>
    match r with
    | .base enc fs g => (.base enc fs g, x.validate)
    | r => (r, some .applicableSegment)

/-- `Length()` of the segments: /repo/pkg/lib/j1_segment.go:154-156, j2_segment.go:210-212, kn_segment.go:109-111, 190-192,
283-285, 377-379, l1_segment.go:87-89, n1_segment.go:90-92. -/
def Seg.length (s : Seg) : Nat := s.kind.length

/-- `Bytes()` of the segments: /repo/pkg/lib/j1_segment.go:144-146, j2_segment.go:200-202, kn_segment.go:99-101, 180-182,
259-261, 353-355, l1_segment.go:77-79, n1_segment.go:80-82. -/
def Seg.bytes (s : Seg) : Bytes := s.string

/-- `GetDataRecords`, /repo/pkg/file/file_instance.go:87-89. -/
def File.getDataRecords (f : File) : List Record := f.bases

/-- `Bytes`, /repo/pkg/file/file_instance.go:338-340. -/
def File.bytes (f : File) : Bytes := f.string false

/-- `GetType`, /repo/pkg/file/file_instance.go:406-408. -/
def File.getType (f : File) : Bytes := f.format.name

/-- `CreateFile`, /repo/pkg/file/file.go:138-141: the bytes come from a `bytes.Reader`, which does not fail. -/
def createFile (json : Bytes → Except Err File) (p : Plan) (buf : Bytes) : Except Err File :=
  newFileFromReader json p buf false

end Metro2
