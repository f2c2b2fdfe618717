import Verif.Model.Messages
import Verif.Model.Reader
import Verif.Model.Accessors

/-!
The texts of the errors that files and readers return.
-/

namespace Metro2

/-- `NewErrInvalidSegment`, /repo/pkg/utils/errors.go:36-38. -/
def errInvalidSegment (name : Bytes) : Bytes := b! "has an invalid segment (" ++ name ++ b! ")"

/-- `NewErrInvalidRecord`, /repo/pkg/utils/errors.go:51-53. -/
def errInvalidRecord (name : Bytes) : Bytes := b! "is an invalid record (" ++ name ++ b! ")"

/-- `ErrInvalidMetroFile`, /repo/pkg/utils/errors.go:25. -/
def errInvalidMetroFile : Bytes := b! "the file isn't metro file"

/-! ### Files -/

/-- The text of the error of `NewFile`, /repo/pkg/file/file.go:68; `none` if it returns none. -/
def newFileText (name : Bytes) : Option Bytes :=
  match newFileOf name with
  | .ok _ => none
  | .error _ => some (errInvalidSegment name)

/-- The text of the error of `SetRecord`, /repo/pkg/file/file_instance.go:37-54; `none` if it returns none. -/
def File.setRecordText (f : File) (r : Record) : Option Bytes :=
  match r.validate with
  | some err => r.sort.validateText err
  | none =>
    match f.setRecord r with
    | (_, some _) => some (errInvalidRecord r.name)
    | (_, none) => none

/-- The text of the error of `AddDataRecord`, /repo/pkg/file/file_instance.go:57-72; `none` if it returns none. -/
def File.addDataRecordText (f : File) (r : Record) : Option Bytes :=
  match r.validate with
  | some err => r.sort.validateText err
  | none =>
    match f.addDataRecord r with
    | (_, some _) => some (errInvalidRecord r.name)
    | (_, none) => none

/-- The text of the error of `GetRecord`, /repo/pkg/file/file_instance.go:75-84; `none` if it returns none. -/
def File.getRecordText (f : File) (name : Bytes) : Option Bytes :=
  match f.getRecord name with
  | .ok _ => none
  | .error _ => some (errInvalidRecord name)

/-- The text of the error of `Parse` of a file, /repo/pkg/file/file_instance.go:202-255; `none` if it returns none, or one of the standard library, or
does not return within `fuel` rounds. -/
def File.parseText (f : File) (fuel : Nat) (buf : Bytes) (isVar : Bool) : Option Bytes :=
  let record := (deleteFunc isNewline buf).1
  match f.header.parse record isVar with
  | (_, .error _) => f.header.parseText record isVar
  | (_, .ok head) =>
    match parseBases f.format isVar record fuel head [] with
    | none => none
    | some (_, _, some .segmentLength) => some (errSegmentLength (b! "base record"))
    | some (_, _, some _) => none
    | some (_, off, none) =>
      if off ≤ 0 ∨ (record.length : Int) ≤ off then some (errSegmentLength (b! "trailer record"))
      else
        match sliceFrom record off with
        | none => none
        | some tail =>
          match f.trailer.parse tail isVar with
          | (_, .error _) => f.trailer.parseText tail isVar
          | (_, .ok tread) => if off + tread ≠ record.length then some errFailedParsing else none

/-! ### Readers -/

/-- The text of the error of the header part of `Read`, /repo/pkg/file/file.go:163-185. -/
def readHeaderText (f : File) (line : Bytes) : Option Bytes :=
  if !isMetroFile line then some errInvalidMetroFile
  else
    match isPacked line with
    | .error _ => none
    | .ok packed =>
      (f.setType (if packed then Enc.packed.name else messageMetroFormat)).1.header.parseText line (isVariableLength line)

/-- The text of the error of `Read`, /repo/pkg/file/file.go:154-221; `none` if it returns none, or one of the standard library. The error of a data record
is dropped at 203-206. -/
def readFileText (p : Plan) (data : Bytes) : Option Bytes :=
  let f := newFile .character
  match (newScanner data).scan p with
  | (_, none) => some (errInvalidSegment (b! "header"))
  | (s, some line) =>
    match readHeader f line with
    | .error _ => readHeaderText f line
    | .ok (f, isVar) =>
      match readBases p f.format isVar s [] with
      | .error _ => none
      | .ok (_, some line, _) => f.trailer.parseText line isVar
      | .ok (_, none, s) =>
        match s.scan p with
        | (_, none) => some (errInvalidSegment (b! "trailer"))
        | (_, some line) => f.trailer.parseText line isVar

end Metro2
