import Verif.Model.Json

/-!
The HTTP service and the commands: which answer is given to which request.
-/

namespace Metro2

/-! ### Responses -/

/-- Status codes used. -/
def statusOK : Nat := 200
def statusBadRequest : Nat := 400
def statusNotFound : Nat := 404
def statusMethodNotAllowed : Nat := 405
def statusNotImplemented : Nat := 501

/-- `http.ResponseWriter`: the header map of the handler; once the status line is sent, the status and the headers as they were then;
the body. -/
structure Writer where
  header : List (Bytes × Bytes) := []
  sent : Option (Nat × List (Bytes × Bytes)) := none
  body : Bytes := []

/-- `w.Header().Set(key, value)`. -/
def Writer.set (w : Writer) (key value : Bytes) : Writer :=
  { w with header := (key, value) :: w.header.filter fun p => p.1 ≠ key }

/-- `w.WriteHeader(code)`: the status line and the headers are sent; later calls have no effect. -/
def Writer.writeHeader (w : Writer) (code : Nat) : Writer :=
  match w.sent with
  | some _ => w
  | none => { w with sent := some (code, w.header) }

/-- `w.Write(data)`; sends the status line with 200 first if that has not happened. -/
def Writer.write (w : Writer) (data : Bytes) : Writer :=
  let w := w.writeHeader statusOK
  { w with body := w.body ++ data }

/-- What the client gets when the handler returns: status, headers and body. `net/http` adds headers of its own (`Date`,
`Content-Length`, and a guessed `Content-Type` if none was sent), which are not modelled. -/
def Writer.finish (w : Writer) : Nat × List (Bytes × Bytes) × Bytes :=
  match w.sent with
  | some (code, header) => (code, header, w.body)
  | none => (statusOK, w.header, w.body)

/-- `Content-Type`. -/
def contentTypeKey : Bytes := b! "Content-Type"

/-- What the handlers take from outside: the JSON text of a tree by `json.Encoder.Encode` and by `json.MarshalIndent(_, "", "\t")`,
the text of an error, the JSON branch of `NewFileFromReader`, the delivery of the input. -/
structure ServerEnv where
  encode : Json → Bytes
  indent : Json → Bytes
  errText : Err → Bytes
  json : Bytes → Except Err File
  plan : Plan

/-- A request. `fileField` is what `r.FormFile("file")` gives, with a mark if reading it fails before its end; `query` is
`r.URL.Query().Get`, `form` is `r.FormValue`; a missing value is empty. -/
structure Request where
  method : Bytes
  path : Bytes
  contentType : Bytes
  body : Bytes
  bodyBroken : Bool
  fileField : Option (Bytes × Bool)
  query : Bytes → Bytes
  form : Bytes → Bytes

/-- `http.Error`: the headers are set before the status line. -/
def httpError (w : Writer) (text : Bytes) (code : Nat) : Writer :=
  (((w.set contentTypeKey (b! "text/plain; charset=utf-8")).set (b! "X-Content-Type-Options") (b! "nosniff")).writeHeader code).write
    (text ++ [10])

/-- `application/json; charset=utf-8`. -/
def jsonType : Bytes := b! "application/json; charset=utf-8"

/-- `outputError`, /repo/pkg/server/server.go:41-47. -/
def outputError (env : ServerEnv) (w : Writer) (code : Nat) (text : Bytes) : Writer :=
  ((w.writeHeader code).set contentTypeKey jsonType).write (env.encode (.obj [(b! "error", .str text)]))

/-- `outputSuccess`, /repo/pkg/server/server.go:49-55. -/
def outputSuccess (env : ServerEnv) (w : Writer) (output : Bytes) : Writer :=
  ((w.writeHeader statusOK).set contentTypeKey jsonType).write (env.encode (.obj [(b! "status", .str output)]))

/-! ### Requests -/

/-- `strings.ToLower`, as far as it matters for comparing with an ASCII text: ASCII letters, U+0130 and U+212A. -/
def lowerText : Bytes → Bytes
  | 0xC4 :: 0xB0 :: rest => 105 :: lowerText rest
  | 0xE2 :: 0x84 :: 0xAA :: rest => 107 :: lowerText rest
  | c :: rest => (if 65 ≤ c ∧ c ≤ 90 then c + 32 else c) :: lowerText rest
  | [] => []

/-- `strings.EqualFold(s, t)` for an ASCII text `t`. -/
def equalFold (s t : Bytes) : Bool := foldKey s = foldKey t

/-- `parseInputFromRequest`, /repo/pkg/server/server.go:18-39. Errors of `FormFile` are `io`. -/
def parseInputFromRequest (env : ServerEnv) (r : Request) : Except Err File :=
  if (b! "multipart/").isPrefixOf (lowerText r.contentType) then
    match r.fileField with
    | none => .error .io
    | some (data, broken) => newFileFromReader env.json env.plan data broken
  else newFileFromReader env.json env.plan r.body r.bodyBroken

/-- Message formats, /repo/pkg/utils/constants.go:23-25. -/
def messageJsonFormat : Bytes := b! "json"

/-- `getFormat`, /repo/pkg/server/server.go:83-98; `none` is an error. -/
def getFormat (r : Request) : Option Bytes :=
  let format := if r.contentType = b! "application/json" then r.query (b! "format") else r.form (b! "format")
  let format := if format = [] then messageJsonFormat else format
  if format ≠ messageMetroFormat ∧ format ≠ messageJsonFormat then none else some format

/-- `getIsNewLine`, /repo/pkg/server/server.go:100-107. -/
def getIsNewLine (r : Request) : Bool := !equalFold (r.form (b! "newline")) (b! "false")

/-- `messageToBuf`, /repo/pkg/server/server.go:57-69; `none` is an error. -/
def messageToBuf (env : ServerEnv) (format : Bytes) (f : File) (newline : Bool) : Option Bytes :=
  if format = messageJsonFormat then some (env.indent f.toJson)
  else if format = messageMetroFormat then some (f.string newline)
  else none

/-- `outputBufferToWriter`, /repo/pkg/server/server.go:71-81. -/
def outputBufferToWriter (env : ServerEnv) (w : Writer) (f : File) (format : Bytes) (newline : Bool) : Writer :=
  let w := w.writeHeader statusOK
  if format = messageJsonFormat then (w.set contentTypeKey jsonType).write (env.encode f.toJson)
  else if format = messageMetroFormat then
    (w.set contentTypeKey (b! "application/octet-stream; charset=utf-8")).write (f.string newline)
  else w

/-- The message of a format error, /repo/pkg/server/server.go:95: the text of the format is part of it. -/
def formatErrorText (r : Request) : Bytes :=
  b! "invalid format: " ++ (if r.contentType = b! "application/json" then r.query (b! "format") else r.form (b! "format"))

/-! ### Handlers -/

/-- `validator`, /repo/pkg/server/server.go:118-136. -/
def serveValidator (env : ServerEnv) (r : Request) (w : Writer) : Writer :=
  match parseInputFromRequest env r with
  | .error e => httpError w (env.errText e) statusBadRequest
  | .ok f =>
    match f.validate with
    | some e => httpError w (env.errText e) statusNotImplemented
    | none => outputSuccess env w (b! "valid file")

/-- `print`, /repo/pkg/server/server.go:147-172. -/
def servePrint (env : ServerEnv) (r : Request) (w : Writer) : Writer :=
  match parseInputFromRequest env r with
  | .error e => httpError w (env.errText e) statusBadRequest
  | .ok f =>
    match getFormat r with
    | none => outputError env w statusNotImplemented (formatErrorText r)
    | some format =>
      match messageToBuf env format f (getIsNewLine r) with
      | none => outputError env w statusNotImplemented (formatErrorText r)
      | some _ => outputBufferToWriter env w f format (getIsNewLine r)

/-- The trailer generation of `convert`, /repo/pkg/server/server.go:194-206. -/
def generateTrailer (f : File) : Except Err File :=
  match f.generatorTrailer with
  | .error e => .error e
  | .ok t =>
    match f.setRecord t with
    | (_, some e) => .error e
    | (f', none) => .ok f'

/-- The change of type of `convert`, /repo/pkg/server/server.go:214-217; the error is ignored. -/
def changeType (f : File) (newType : Bytes) : File :=
  if newType = Enc.character.name ∨ newType = Enc.packed.name then (f.setType newType).1 else f

/-- `convert`, /repo/pkg/server/server.go:183-231. -/
def serveConvert (env : ServerEnv) (r : Request) (w : Writer) : Writer :=
  match parseInputFromRequest env r with
  | .error e => httpError w (env.errText e) statusBadRequest
  | .ok f =>
    match (if equalFold (r.form (b! "generate")) (b! "true") then generateTrailer f else .ok f) with
    | .error e => httpError w (env.errText e) statusNotImplemented
    | .ok f =>
      match getFormat r with
      | none => outputError env w statusNotImplemented (formatErrorText r)
      | some format =>
        let f := changeType f (r.form (b! "type"))
        match messageToBuf env format f (getIsNewLine r) with
        | none => outputError env w statusNotImplemented (formatErrorText r)
        | some output =>
          (((((w.set contentTypeKey (b! "application/octet-stream")).set (b! "Content-Disposition")
            (b! "attachment; filename=converted_file")).set (b! "Content-Transfer-Encoding") (b! "binary")).set (b! "Expires")
            (b! "0")).writeHeader statusOK).write output

/-- `health`, /repo/pkg/server/server.go:239-241. -/
def serveHealth (env : ServerEnv) (w : Writer) : Writer := outputSuccess env w (b! "alive")

/-- `ConfigureHandlers`, /repo/pkg/server/server.go:243-250, with the router of gorilla/mux: an unknown path is answered with 404 (`http.NotFound`),
a known path with another method with 405 and no body. Simplification: paths are compared as they are; the router would redirect
a path that is not in clean form. -/
def serve (env : ServerEnv) (r : Request) (w : Writer) : Writer :=
  if r.path = b! "/health" then
    if r.method = b! "GET" then serveHealth env w else w.writeHeader statusMethodNotAllowed
  else if r.path = b! "/print" then
    if r.method = b! "POST" then servePrint env r w else w.writeHeader statusMethodNotAllowed
  else if r.path = b! "/validator" then
    if r.method = b! "POST" then serveValidator env r w else w.writeHeader statusMethodNotAllowed
  else if r.path = b! "/convert" then
    if r.method = b! "POST" then serveConvert env r w else w.writeHeader statusMethodNotAllowed
  else httpError w (b! "404 page not found") statusNotFound

/-! ### Commands -/

/-- What a command does: an error, or a text on the standard output, or a file written. -/
inductive Outcome where
  | error (e : Err)
  | stdout (text : Bytes)
  | written (path text : Bytes)
deriving DecidableEq

/-- Flags and surroundings of a command. `input` is what `createReader` (/repo/cmd/metro2/main.go:26-48) opens, with a mark if reading fails
before the end, or `none` if it cannot be opened; `canCreate` tells if the output file can be created. -/
structure Command where
  input : Option (Bytes × Bool)
  format : Bytes
  newType : Bytes
  generate : Bool
  newline : Bool
  output : Bytes
  canCreate : Bool

/-- The check of the format flag, /repo/cmd/metro2/main.go:132-138 and 192-198; `none` is an error. -/
def commandFormat (format : Bytes) : Option Bytes :=
  if format ≠ messageJsonFormat ∧ format ≠ messageMetroFormat then
    if format = [] then some messageJsonFormat else none
  else some format

/-- The output text, /repo/cmd/metro2/main.go:146-161 and 224-238; here `indent` is `json.Marshal` and `json.Indent(_, "", "  ")`. -/
def commandText (env : ServerEnv) (format : Bytes) (f : File) (newline : Bool) : Bytes :=
  if format = messageJsonFormat then env.indent f.toJson
  else if format = messageMetroFormat then f.string newline
  else []

/-- `validator`, /repo/cmd/metro2/main.go:91-112. -/
def runValidator (env : ServerEnv) (c : Command) : Outcome :=
  match c.input with
  | none => .error .io
  | some (data, broken) =>
    match newFileFromReader env.json env.plan data broken with
    | .error e => .error e
    | .ok f =>
      match f.validate with
      | some e => .error e
      | none => .stdout (b! "the file is valid \n")

/-- `print`, /repo/cmd/metro2/main.go:119-166. An unknown format is reported as `invalidFile`; the message text is not modelled. -/
def runPrint (env : ServerEnv) (c : Command) : Outcome :=
  match c.input with
  | none => .error .io
  | some (data, broken) =>
    match commandFormat c.format with
    | none => .error .invalidFile
    | some format =>
      match newFileFromReader env.json env.plan data broken with
      | .error e => .error e
      | .ok f => .stdout (commandText env format f c.newline)

/-- `convert`, /repo/cmd/metro2/main.go:179-247. Simplification: writing to a file that could be created succeeds. -/
def runConvert (env : ServerEnv) (c : Command) : Outcome :=
  match c.input with
  | none => .error .io
  | some (data, broken) =>
    match commandFormat c.format with
    | none => .error .invalidFile
    | some format =>
      match newFileFromReader env.json env.plan data broken with
      | .error e => .error e
      | .ok f =>
        match (if c.generate then generateTrailer f else .ok f) with
        | .error e => .error e
        | .ok f =>
          if c.canCreate then .written c.output (commandText env format (changeType f c.newType) c.newline)
          else .error .io

end Metro2
