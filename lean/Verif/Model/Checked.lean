import Verif.Model.Server
import Verif.Model.Word

/-!
Writing, answering requests and running commands once more, with every place where the code could panic made explicit: `none` is a panic. The other model
files write with total functions; C123 compares. (Panics while reading are errors `panic` in all model files.)
Left out: running out of memory, and panics inside the standard library on its own account.
-/

namespace Metro2

/-! ### The standard library -/

/-- `strings.Repeat(s, count)`: panics if the count is negative or the length is no `int`. -/
def repeatText (s : Bytes) (count : Int) : Option Bytes :=
  if count < 0 ∨ s.length * count ≥ 2 ^ 63 then none else some (List.replicate count.toNat s).flatten

/-- `Grow(n)` of `strings.Builder` and `bytes.Buffer`: panics if `n` is negative. -/
def growTo (n : Int) : Option Unit := if n < 0 then none else some ()

/-! ### Fields -/

/-- The text that `fmt` makes of a value of a Go type that is not expected (`%!s(int=5)`, for example); not modelled further. -/
abbrev OddText := Field → Val → Bytes

/-- `toString` behind the test of `omitted`, /repo/pkg/lib/converters.go:72-101: `data.Int()` (in `descriptorString`, 299, and `packedNumberString`, 278) panics on
values of other types; the printing verbs of `fmt` do not panic, and a value that is no time is written as no date. -/
def valChecked (odd : OddText) (e : Field) (v : Val) : Option Bytes :=
  match e.typ with
  | .numeric => match v with
    | .int i => some (fmtZeroStr e.len (fmtInt i))
    | v => some (odd e v)
  | .timestamp => match v with
    | .time t => if t.isZero then repeatText [48] e.len else some (t.format timestampFormat)
    | _ => repeatText [48] e.len
  | .date => match v with
    | .time t => if t.isZero then repeatText [48] e.len else some (t.format dateFormat)
    | _ => repeatText [48] e.len
  | .alphanumeric | .alpha => match v with
    | .str s => some (fmtLeftStr e.len s)
    | v => some (odd e v)
  | .descriptor => match v with
    | .int i => some (descriptorString i)
    | _ => none
  | .packedTimestamp => match v with
    | .time t => (growTo e.len).map fun _ => packedTimeString t timestampFormat 8
    | _ => (growTo e.len).map fun _ => List.replicate 8 0
  | .packedDate => match v with
    | .time t => (growTo e.len).map fun _ => packedTimeString t dateFormat 5
    | _ => (growTo e.len).map fun _ => List.replicate 5 0
  | .packedNumber => match v with
    | .int i => (growTo e.len).map fun _ => packedNumberString i e.len
    | _ => none

/-- `fillString`, /repo/pkg/lib/converters.go:57-62. -/
def fillChecked (e : Field) : Option Bytes := if e.zeroFill then repeatText [48] e.len else repeatText [32] e.len

/-- `toString`, /repo/pkg/lib/converters.go:64-102, for a struct field of the Go type `kind`: the type assertion `data.Interface().(int)` panics for every other type, also
for `int64`. -/
def toStrChecked (odd : OddText) (kind : Kind) (e : Field) (v : Val) : Option Bytes :=
  if e.omitted then
    match kind, v with
    | .int, .int i => if i = 0 then some [] else valChecked odd e (.int i)
    | _, _ => none
  else valChecked odd e v

/-- The text of a row: `FieldByName` finds the struct field, or none. A struct without a value for one of its fields cannot happen. -/
def rowChecked (odd : OddText) (decl : List (F × FieldDecl)) (fs : Fields) (p : F × Field) : Option Bytes :=
  match decl.lookup p.1 with
  | none => fillChecked p.2
  | some d =>
    match fs.get p.1 with
    | none => none
    | some v => toStrChecked odd d.kind p.2 v

/-- The loop shared by all `String` methods. -/
def fieldsChecked (odd : OddText) (decl : List (F × FieldDecl)) (fmt : Format) (fs : Fields) : Option Bytes :=
  ((toSpecifications fmt).mapM (rowChecked odd decl fs)).map List.flatten

/-- `String` of the segments, e.g. /repo/pkg/lib/j1_segment.go:129-139. -/
def Seg.checked (odd : OddText) (s : Seg) : Option Bytes := fieldsChecked odd s.kind.struct s.kind.format s.fields

/-! ### Records -/

/-- The padding at the end of the `String` methods, e.g. /repo/pkg/lib/header_record.go:139-149: `Grow(blockSize)` and `Repeat(blank, blockSize-buf.Len())`. -/
def padChecked (size : Int) (text : Option Bytes) : Option Bytes :=
  (if size > 0 then growTo size else some ()).bind fun _ =>
    text.bind fun s =>
      if size > s.length then (repeatText [32] (size - s.length)).map fun pad => s ++ pad else some s

/-- `Record.String`; places as at `Record.string`. -/
def Record.checked (odd : OddText) : Record → Option Bytes
  | .header enc fs => padChecked (headerBlockSize fs) (fieldsChecked odd headerRecordStruct enc.headerFormat fs)
  | .base enc fs g =>
    padChecked (baseBlockSize enc fs) ((fieldsChecked odd baseSegmentStruct enc.baseFormat fs).bind fun s =>
      (g.list.mapM (Seg.checked odd)).map fun segs => s ++ segs.flatten)
  | .trailer enc fs => padChecked (clampedBlockSize (fs.int .RecordDescriptorWord)) (fieldsChecked odd trailerRecordStruct enc.trailerFormat fs)

/-! ### Files -/

/-- The loop that cuts the data records into pages, /repo/pkg/file/file_instance.go:285-291: the slice expression `f.Bases[i:end]` panics if its bounds are
wrong. Simplification: a loop that has not ended after `fuel` iterations is `none` too. -/
def pagesChecked (bases : List Record) (size : Int) : Nat → Int → Option (List (List Record))
  | 0, i => if i < bases.length then none else some []
  | fuel + 1, i =>
    if i < bases.length then
      let e := if i + size > bases.length then (bases.length : Int) else i + size
      (sliceWord bases i e).bind fun page => (pagesChecked bases size fuel (i + size)).map fun ps => page :: ps
    else some []

/-- One worker, /repo/pkg/file/file_instance.go:304-313, with the store `dataPages[idx]`. Simplification: the workers run one after the other; that they are
independent of each other is C37. -/
def workerChecked (odd : OddText) (f : File) (isNewLine : Bool) (dataPages : List Bytes) (p : List Record × Nat) : Option (List Bytes) :=
  (growTo (p.1.length * (f.format.recordLength + (newLine isNewLine).length))).bind fun _ =>
    (p.1.mapM (Record.checked odd)).bind fun texts =>
      if p.2 < dataPages.length then some (dataPages.set p.2 (texts.map fun s => s ++ newLine isNewLine).flatten) else none

/-- `ConcurrentString`, /repo/pkg/file/file_instance.go:269-335. -/
def File.checked (odd : OddText) (f : File) (isNewLine : Bool) (goroutines : Int) : Option Bytes :=
  (f.header.checked odd).bind fun header =>
    (pagesChecked f.bases (pageSize f.bases.length goroutines) f.bases.length 0).bind fun pages =>
      (pages.zipIdx.foldlM (workerChecked odd f isNewLine) (List.replicate pages.length [])).bind fun dataPages =>
        (f.trailer.checked odd).bind fun trailer =>
          (growTo ((header ++ newLine isNewLine).length + dataPages.flatten.length + trailer.length)).map fun _ =>
            header ++ newLine isNewLine ++ dataPages.flatten ++ trailer

/-! ### Requests -/

/-- A result with the error `panic` is a panic. -/
def orPanic (x : Except Err α) : Option (Except Err α) :=
  match x with
  | .error .panic => none
  | x => some x

/-- `Validate` of a file. -/
def File.validateChecked (f : File) : Option (Option Err) :=
  match f.validate with
  | some .panic => none
  | x => some x

/-- What the checked handlers need besides `ServerEnv`: the odd texts and the number of processors (`defaultStringConcurrency`,
/repo/pkg/file/file_instance.go:257-261). -/
structure CheckedEnv where
  odd : OddText
  processors : Int

/-- `messageToBuf`, /repo/pkg/server/server.go:57-69. -/
def messageChecked (c : CheckedEnv) (env : ServerEnv) (format : Bytes) (f : File) (newline : Bool) : Option (Option Bytes) :=
  if format = messageJsonFormat then some (some (env.indent f.toJson))
  else if format = messageMetroFormat then (f.checked c.odd newline c.processors).map some
  else some none

/-- `outputBufferToWriter`, /repo/pkg/server/server.go:71-81. -/
def outputChecked (c : CheckedEnv) (env : ServerEnv) (w : Writer) (f : File) (format : Bytes) (newline : Bool) : Option Writer :=
  let w := w.writeHeader statusOK
  if format = messageJsonFormat then some ((w.set contentTypeKey jsonType).write (env.encode f.toJson))
  else if format = messageMetroFormat then
    (f.checked c.odd newline c.processors).map fun text =>
      (w.set contentTypeKey (b! "application/octet-stream; charset=utf-8")).write text
  else some w

/-- `validator`, /repo/pkg/server/server.go:118-136. -/
def validatorChecked (env : ServerEnv) (r : Request) (w : Writer) : Option Writer :=
  (orPanic (parseInputFromRequest env r)).bind fun
    | .error e => some (httpError w (env.errText e) statusBadRequest)
    | .ok f => f.validateChecked.map fun
      | some e => httpError w (env.errText e) statusNotImplemented
      | none => outputSuccess env w (b! "valid file")

/-- `print`, /repo/pkg/server/server.go:147-172. -/
def printChecked (c : CheckedEnv) (env : ServerEnv) (r : Request) (w : Writer) : Option Writer :=
  (orPanic (parseInputFromRequest env r)).bind fun
    | .error e => some (httpError w (env.errText e) statusBadRequest)
    | .ok f =>
      match getFormat r with
      | none => some (outputError env w statusNotImplemented (formatErrorText r))
      | some format =>
        (messageChecked c env format f (getIsNewLine r)).bind fun
          | none => some (outputError env w statusNotImplemented (formatErrorText r))
          | some _ => outputChecked c env w f format (getIsNewLine r)

/-- `convert`, /repo/pkg/server/server.go:183-231. -/
def convertChecked (c : CheckedEnv) (env : ServerEnv) (r : Request) (w : Writer) : Option Writer :=
  (orPanic (parseInputFromRequest env r)).bind fun
    | .error e => some (httpError w (env.errText e) statusBadRequest)
    | .ok f =>
      (if equalFold (r.form (b! "generate")) (b! "true") then orPanic (generateTrailer f) else some (.ok f)).bind fun
        | .error e => some (httpError w (env.errText e) statusNotImplemented)
        | .ok f =>
          match getFormat r with
          | none => some (outputError env w statusNotImplemented (formatErrorText r))
          | some format =>
            (messageChecked c env format (changeType f (r.form (b! "type"))) (getIsNewLine r)).map fun
              | none => outputError env w statusNotImplemented (formatErrorText r)
              | some output =>
                (((((w.set contentTypeKey (b! "application/octet-stream")).set (b! "Content-Disposition")
                  (b! "attachment; filename=converted_file")).set (b! "Content-Transfer-Encoding") (b! "binary")).set (b! "Expires")
                  (b! "0")).writeHeader statusOK).write output

/-- `ConfigureHandlers`, /repo/pkg/server/server.go:243-250; as `serve`. -/
def serveChecked (c : CheckedEnv) (env : ServerEnv) (r : Request) (w : Writer) : Option Writer :=
  if r.path = b! "/health" then
    some (if r.method = b! "GET" then serveHealth env w else w.writeHeader statusMethodNotAllowed)
  else if r.path = b! "/print" then
    if r.method = b! "POST" then printChecked c env r w else some (w.writeHeader statusMethodNotAllowed)
  else if r.path = b! "/validator" then
    if r.method = b! "POST" then validatorChecked env r w else some (w.writeHeader statusMethodNotAllowed)
  else if r.path = b! "/convert" then
    if r.method = b! "POST" then convertChecked c env r w else some (w.writeHeader statusMethodNotAllowed)
  else some (httpError w (b! "404 page not found") statusNotFound)

/-! ### Commands -/

/-- The output text, /repo/cmd/metro2/main.go:146-161 and 224-238. -/
def commandChecked (c : CheckedEnv) (env : ServerEnv) (format : Bytes) (f : File) (newline : Bool) : Option Bytes :=
  if format = messageJsonFormat then some (env.indent f.toJson)
  else if format = messageMetroFormat then f.checked c.odd newline c.processors
  else some []

/-- `validator`, /repo/cmd/metro2/main.go:91-112. -/
def runValidatorChecked (env : ServerEnv) (c : Command) : Option Outcome :=
  match c.input with
  | none => some (.error .io)
  | some (data, broken) =>
    (orPanic (newFileFromReader env.json env.plan data broken)).bind fun
      | .error e => some (.error e)
      | .ok f => f.validateChecked.map fun
        | some e => .error e
        | none => .stdout (b! "the file is valid \n")

/-- `print`, /repo/cmd/metro2/main.go:119-166. -/
def runPrintChecked (x : CheckedEnv) (env : ServerEnv) (c : Command) : Option Outcome :=
  match c.input with
  | none => some (.error .io)
  | some (data, broken) =>
    match commandFormat c.format with
    | none => some (.error .invalidFile)
    | some format =>
      (orPanic (newFileFromReader env.json env.plan data broken)).bind fun
        | .error e => some (.error e)
        | .ok f => (commandChecked x env format f c.newline).map .stdout

/-- `convert`, /repo/cmd/metro2/main.go:179-247. -/
def runConvertChecked (x : CheckedEnv) (env : ServerEnv) (c : Command) : Option Outcome :=
  match c.input with
  | none => some (.error .io)
  | some (data, broken) =>
    match commandFormat c.format with
    | none => some (.error .invalidFile)
    | some format =>
      (orPanic (newFileFromReader env.json env.plan data broken)).bind fun
        | .error e => some (.error e)
        | .ok f =>
          (if c.generate then orPanic (generateTrailer f) else some (.ok f)).bind fun
            | .error e => some (.error e)
            | .ok f =>
              (commandChecked x env format (changeType f c.newType) c.newline).map fun text =>
                if c.canCreate then .written c.output text else .error .io

end Metro2
