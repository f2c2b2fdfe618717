import Verif.Model.Client
import Verif.Model.Server

/-!
The calls of the generated client, /repo/pkg/client/api_metro2_files.go, and how they arrive at the service.

The address of the server and its variables are in Model/ClientServer. Not modelled: deadlines of the context, default headers, the debug output,
failures of the connection. That the values of the query arrive is shown in Props/ClientQuery. That the bytes of a form
with parts carry keys, values and file contents is shown in Props/Multipart. Assumed of the standard library: `net/http` delivers the request and the answer (no redirect: the service sends none), form values stay below the memory limits of
`ParseMultipartForm`, a temporary file can be created and written.
-/

namespace Metro2

/-- A file given to a call: its name, what can be read from it, and a mark if reading fails before the end. -/
structure Upload where
  name : Bytes
  content : Bytes
  broken : Bool

/-- What an `…Execute` method puts together before `prepareRequest`: method, path, content types to choose from, parameters, the file, and the
status codes whose body is kept as `model` of the error. -/
structure ClientCall where
  method : Bytes
  path : Bytes
  contentTypes : List Bytes
  query : List (Bytes × Bytes)
  form : List (Bytes × Bytes)
  file : Option Upload
  models : List Nat

/-- `if r.x != nil { parameterAddToHeaderOrQuery(params, key, r.x, "") }`, e.g. /repo/pkg/client/api_metro2_files.go:113-115, for a string: the
pointer is followed (/repo/pkg/client/client.go:194-196) and the value added (215-221). -/
def strParam (key : Bytes) : Option Bytes → List (Bytes × Bytes)
  | none => []
  | some v => [(key, v)]

/-- The same for a `bool`: `strconv.FormatBool`, /repo/pkg/client/client.go:206-207. -/
def boolParam (key : Bytes) : Option Bool → List (Bytes × Bytes)
  | none => []
  | some v => [(key, if v then b! "true" else b! "false")]

/-- `ApiConvertRequest`, /repo/pkg/client/api_metro2_files.go:25-34. -/
structure ConvertArgs where
  format : Option Bytes := none
  format2 : Option Bytes := none
  newType : Option Bytes := none
  generate : Option Bool := none
  newline : Option Bool := none
  file : Option Upload := none

/-- `ConvertExecute` up to `prepareRequest`, /repo/pkg/client/api_metro2_files.go:94-164. -/
def convertCall (a : ConvertArgs) : ClientCall where
  method := b! "POST"
  path := b! "/convert"
  contentTypes := [b! "multipart/form-data", b! "application/json"]
  query := strParam (b! "format") a.format
  form := strParam (b! "format") a.format2 ++ strParam (b! "type") a.newType ++ boolParam (b! "generate") a.generate ++
    boolParam (b! "newline") a.newline
  file := a.file
  models := [400, 501]

/-- `ApiPrintRequest`, /repo/pkg/client/api_metro2_files.go:319-325. -/
structure PrintArgs where
  format : Option Bytes := none
  format2 : Option Bytes := none
  file : Option Upload := none

/-- `PrintExecute`, /repo/pkg/client/api_metro2_files.go:367-428. -/
def printCall (a : PrintArgs) : ClientCall where
  method := b! "POST"
  path := b! "/print"
  contentTypes := [b! "multipart/form-data", b! "application/json"]
  query := strParam (b! "format") a.format
  form := strParam (b! "format") a.format2
  file := a.file
  models := [400]

/-- `ValidatorExecute`, /repo/pkg/client/api_metro2_files.go:506-561. -/
def validatorCall (file : Option Upload) : ClientCall where
  method := b! "POST"
  path := b! "/validator"
  contentTypes := [b! "multipart/form-data"]
  query := []
  form := []
  file := file
  models := [400, 501]

/-- `HealthExecute`, /repo/pkg/client/api_metro2_files.go:246-284. -/
def healthCall : ClientCall where
  method := b! "GET"
  path := b! "/health"
  contentTypes := []
  query := []
  form := []
  file := none
  models := []

/-- `selectHeaderContentType`, /repo/pkg/client/client.go:80-88. -/
def selectHeaderContentType (types : List Bytes) : Bytes :=
  match types with
  | [] => []
  | t :: _ => if types.any fun s => equalFold s (b! "application/json") then b! "application/json" else t

/-- The request that `prepareRequest` makes: `parts` are the fields of a form with parts and the content of its part `file`, if there is one. -/
structure PreparedRequest where
  method : Bytes
  path : Bytes
  contentType : Bytes
  query : List (Bytes × Bytes)
  parts : Option (List (Bytes × Bytes) × Option Bytes)

/-- `prepareRequest`, /repo/pkg/client/client.go:276-418, without a `postBody`, which no call has; the branch of url-encoded forms is never taken.
The part of the file is left out if the content or the name is empty (321-333); whether reading the file failed is not looked at
(`fbs, _ := io.ReadAll`, e.g. /repo/pkg/client/api_metro2_files.go:153). `boundary` is drawn at random by `multipart.NewWriter`. -/
def prepareRequest (boundary : Bytes) (c : ClientCall) : PreparedRequest :=
  let contentType := selectHeaderContentType c.contentTypes
  if ((b! "multipart/form-data").isPrefixOf contentType && !c.form.isEmpty) || c.file.isSome then
    { method := c.method, path := c.path, contentType := b! "multipart/form-data; boundary=" ++ boundary, query := c.query,
      parts := some (c.form, match c.file with
        | none => none
        | some u => if u.content ≠ [] ∧ u.name ≠ [] then some u.content else none) }
  else { method := c.method, path := c.path, contentType := contentType, query := c.query, parts := none }

/-- The first value of a key, empty if there is none: `url.Values.Get`. -/
def firstValue (kvs : List (Bytes × Bytes)) (key : Bytes) : Bytes :=
  match kvs.lookup key with
  | some v => v
  | none => []

/-- The request as the handlers see it. `FormValue` takes the first value of `r.Form`, where `ParseMultipartForm` puts the values of the URL before
those of the form. Simplification: the bytes of a form with parts are not kept here (see
Model/Multipart), the handlers do not read them as they are. -/
def PreparedRequest.received (p : PreparedRequest) : Request where
  method := p.method
  path := p.path
  contentType := p.contentType
  body := []
  bodyBroken := false
  fileField :=
    match p.parts with
    | some (_, some data) => some (data, false)
    | _ => none
  query := firstValue p.query
  form := firstValue (p.query ++ match p.parts with
    | some (form, _) => form
    | none => [])

/-- The outcome of a call: the body of the answer (for `Convert` in a temporary file, or a nil file if it is empty), or a `GenericOpenAPIError`
with the status, the body, and the body once more as `model`. -/
inductive ClientOutcome where
  | value (body : Bytes)
  | failure (status : Nat) (body : Bytes) (model : Option Bytes)
deriving DecidableEq

/-- The rest of an `…Execute` method, e.g. /repo/pkg/client/api_metro2_files.go:166-217, with `decode`, /repo/pkg/client/client.go:420-473, into a
string or a file, which never fails. -/
def ClientCall.outcome (c : ClientCall) (status : Nat) (body : Bytes) : ClientOutcome :=
  if status ≥ 300 then .failure status body (if status ∈ c.models then some body else none) else .value body

/-- A call answered by the service. -/
def ClientCall.execute (env : ServerEnv) (boundary : Bytes) (c : ClientCall) : ClientOutcome :=
  let answer := (serve env (prepareRequest boundary c).received {}).finish
  c.outcome answer.1 answer.2.2

end Metro2
