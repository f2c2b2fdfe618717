import Verif.Model.Program
import Verif.Model.FileMessages

/-!
The texts of the errors that `NewFileFromReader`, the handlers and the commands give. `Model/Server.lean` and `Model/Program.lean` take
the text of an error as a function of the error; here it is built as the code builds it.
-/

namespace Metro2

/-- Texts of errors of the standard library: of `FormFile`; of reading; of `strconv` in `Read`; of the first decoding of JSON; of the decoding of
a JSON value into a map. Simplification: the texts are not modelled, only where they appear. -/
structure LibTexts where
  formFile : Request → Bytes
  read : Bytes
  metro : Bytes → Bytes
  header : Bytes → Bytes
  map : Json → Bytes

/-- The text of the error of the JSON branch of `NewFileFromReader` when it returns one, /repo/pkg/file/file.go:105-133, with `UnmarshalJSON` of a file,
/repo/pkg/file/file_instance.go:343-403: an error of decoding into the map is given on (345-348), for every other the text is fixed (361, 367, 374, 386, 394); the errors of
`json.Marshal` (353, 379) do not occur. -/
def jsonErrorText (lib : LibTexts) (env : JsonEnv) (first : Bytes → Option Json) (data : Bytes) : Bytes :=
  match first data with
  | none => b! "reading header: " ++ lib.header data
  | some j =>
    match decodeDummy env j with
    | none => b! "reading header: " ++ lib.header data
    | some _ =>
      match decodeMap env j with
      | none => b! "reading file: " ++ lib.map j
      | some _ => b! "reading file: " ++ b! "Unable to parse input json file"

/-- Texts of errors from outside: those of the standard library, and those of the JSON branch. -/
structure Texts where
  lib : LibTexts
  json : Bytes → Bytes

/-- The text of the error of `NewFileFromReader` when it returns one, /repo/pkg/file/file.go:72-135. `io.ReadFull` gives `io.EOF` if nothing is read. -/
def readerErrorText (t : Texts) (p : Plan) (data : Bytes) (broken : Bool) : Bytes :=
  if data.length < 1024 ∧ (broken ∨ data = []) then if broken then t.lib.read else b! "EOF"
  else if (data.take 1024).any (· == 123) then t.json data
  else
    match readFileText p data with
    | some m => m
    | none => t.lib.metro data

/-- `NewFileFromReader`, /repo/pkg/file/file.go:72-135, with the text of its error. -/
def openInput (env : ServerEnv) (t : Texts) (data : Bytes) (broken : Bool) : Except Bytes File :=
  match newFileFromReader env.json env.plan data broken with
  | .error _ => .error (readerErrorText t env.plan data broken)
  | .ok f => .ok f

/-- `parseInputFromRequest`, /repo/pkg/server/server.go:18-39, with the text of its error. -/
def openRequest (env : ServerEnv) (t : Texts) (r : Request) : Except Bytes File :=
  if (b! "multipart/").isPrefixOf (lowerText r.contentType) then
    match r.fileField with
    | none => .error (b! "reading multipart request: " ++ t.lib.formFile r)
    | some (data, broken) =>
      match openInput env t data broken with
      | .error m => .error (b! "parsing file as multipart: " ++ m)
      | .ok f => .ok f
  else
    match openInput env t r.body r.bodyBroken with
    | .error m => .error (b! "parsing request body as reader: " ++ m)
    | .ok f => .ok f

/-- The text of the error of `GeneratorTrailer` and `SetRecord` as `convert` calls them, /repo/pkg/server/server.go:196-205,
/repo/cmd/metro2/main.go:206-215; `none` if they return none, or do not return. -/
def generateText (f : File) : Option Bytes :=
  match f.generatorTrailer with
  | .error _ => none
  | .ok t => f.setRecordText t

/-- `validator`, /repo/pkg/server/server.go:118-136. Where `Validate` or `GeneratorTrailer` panics (no text), the answer is left as it is; it
does not happen for files that were read. -/
def answerValidator (env : ServerEnv) (t : Texts) (r : Request) (w : Writer) : Writer :=
  match openRequest env t r with
  | .error m => httpError w m statusBadRequest
  | .ok f =>
    match f.validate with
    | none => outputSuccess env w (b! "valid file")
    | some _ =>
      match f.validateText with
      | some m => httpError w m statusNotImplemented
      | none => w

/-- `print`, /repo/pkg/server/server.go:147-172. -/
def answerPrint (env : ServerEnv) (t : Texts) (r : Request) (w : Writer) : Writer :=
  match openRequest env t r with
  | .error m => httpError w m statusBadRequest
  | .ok f =>
    match getFormat r with
    | none => outputError env w statusNotImplemented (formatErrorText r)
    | some format =>
      match messageToBuf env format f (getIsNewLine r) with
      | none => outputError env w statusNotImplemented (formatErrorText r)
      | some _ => outputBufferToWriter env w f format (getIsNewLine r)

/-- `convert`, /repo/pkg/server/server.go:183-231. -/
def answerConvert (env : ServerEnv) (t : Texts) (r : Request) (w : Writer) : Writer :=
  match openRequest env t r with
  | .error m => httpError w m statusBadRequest
  | .ok f =>
    match (if equalFold (r.form (b! "generate")) (b! "true") then generateTrailer f else .ok f) with
    | .error _ =>
      match generateText f with
      | some m => httpError w m statusNotImplemented
      | none => w
    | .ok f =>
      match getFormat r with
      | none => outputError env w statusNotImplemented (formatErrorText r)
      | some format =>
        let f := changeType f (r.form (b! "type"))
        match messageToBuf env format f (getIsNewLine r) with
        | none => outputError env w statusNotImplemented (formatErrorText r)
        | some output =>
          (((((w.set contentTypeKey (b! "application/octet-stream")).set (b! "Content-Disposition")
            (b! "attachment; filename=converted_file")).set (b! "Content-Transfer-Encoding") (b! "binary")).set (b! "Expires")
            (b! "0")).writeHeader statusOK).write output

/-- `ConfigureHandlers`, /repo/pkg/server/server.go:243-250, as in `serve`. -/
def answer (env : ServerEnv) (t : Texts) (r : Request) (w : Writer) : Writer :=
  if r.path = b! "/health" then
    if r.method = b! "GET" then serveHealth env w else w.writeHeader statusMethodNotAllowed
  else if r.path = b! "/print" then
    if r.method = b! "POST" then answerPrint env t r w else w.writeHeader statusMethodNotAllowed
  else if r.path = b! "/validator" then
    if r.method = b! "POST" then answerValidator env t r w else w.writeHeader statusMethodNotAllowed
  else if r.path = b! "/convert" then
    if r.method = b! "POST" then answerConvert env t r w else w.writeHeader statusMethodNotAllowed
  else httpError w (b! "404 page not found") statusNotFound

/-! ### Commands -/

/-- `validator`, /repo/cmd/metro2/main.go:91-112. A panic leaves no text here; it does not happen for files that were read. -/
def tellValidator (env : ServerEnv) (t : Texts) (m : Machine) (d : Disk) (input : Bytes) : Left :=
  match createReader m d input with
  | .error e => ⟨[], d, some e⟩
  | .ok (data, broken) =>
    match openInput env t data broken with
    | .error e => ⟨[], d, some e⟩
    | .ok f =>
      match f.validate with
      | some _ => ⟨[], d, f.validateText⟩
      | none => ⟨b! "the file is valid \n", d, none⟩

/-- `print`, /repo/cmd/metro2/main.go:119-166. -/
def tellPrint (env : ServerEnv) (t : Texts) (m : Machine) (d : Disk) (input format : Bytes) (newline : Bool) : Left :=
  match createReader m d input with
  | .error e => ⟨[], d, some e⟩
  | .ok (data, broken) =>
    match commandFormat format with
    | none => ⟨[], d, some (b! "don't support the format")⟩
    | some format =>
      match openInput env t data broken with
      | .error e => ⟨[], d, some e⟩
      | .ok f => ⟨commandText env format f newline, d, none⟩

/-- `convert`, /repo/cmd/metro2/main.go:169-248. -/
def tellConvert (env : ServerEnv) (t : Texts) (m : Machine) (d : Disk) (input format newType : Bytes) (generate newline : Bool) (args : List Bytes) :
    Left :=
  match args with
  | [] => ⟨[], d, some (b! "requires output argument")⟩
  | output :: _ =>
    match createReader m d input with
    | .error e => ⟨[], d, some e⟩
    | .ok (data, broken) =>
      match commandFormat format with
      | none => ⟨[], d, some (b! "don't support the format")⟩
      | some format =>
        match openInput env t data broken with
        | .error e => ⟨[], d, some e⟩
        | .ok f =>
          match (if generate then generateTrailer f else .ok f) with
          | .error _ => ⟨[], d, generateText f⟩
          | .ok f => createAndWrite m d output (commandText env format (changeType f newType) newline)

/-- The command that cobra runs, as in `runCommand`, /repo/cmd/metro2/main.go:252-271. -/
def tellCommand (env : ServerEnv) (t : Texts) (m : Machine) (d : Disk) : Invocation → Left
  | .validator input => tellValidator env t m d (input.getD defaultInput)
  | .print input format newline => tellPrint env t m d (input.getD defaultInput) (format.getD defaultFormat) (newline.getD defaultNewline)
  | .convert input format newType generate newline args =>
    tellConvert env t m d (input.getD defaultInput) (format.getD defaultFormat) (newType.getD defaultType) (generate.getD defaultGenerate)
      (newline.getD defaultNewline) args
  | .web port test => leaveWeb m d (port.getD defaultPort) (test.getD defaultTest)

/-- `main`, /repo/cmd/metro2/main.go:273-277, as in `runProgram`. -/
def tellProgram (env : ServerEnv) (t : Texts) (m : Machine) (d : Disk) (i : Invocation) : Ended :=
  let left := tellCommand env t m d i
  ⟨0, left.out, match left.error with | some e => b! "Error: " ++ e ++ b! "\n" | none => [], left.disk⟩

end Metro2
