import Verif.Model.Answers
import Verif.Model.ClientCall

/-!
The errors that the calls of the generated client return, with their texts.
-/

namespace Metro2

/-- `GenericOpenAPIError`, /repo/pkg/client/client.go:620-624, with the values of `Error`, `Body` and `Model` (626-639): the calls have only strings as
models, and no model is `none`. -/
structure ApiError where
  body : Bytes
  error : Bytes
  model : Option Bytes
deriving DecidableEq

/-- `http.StatusText` for the codes that the service answers with. -/
def statusText (code : Nat) : Bytes :=
  if code = statusBadRequest then b! "Bad Request"
  else if code = statusNotFound then b! "Not Found"
  else if code = statusMethodNotAllowed then b! "Method Not Allowed"
  else if code = statusNotImplemented then b! "Not Implemented"
  else if code = statusOK then b! "OK"
  else []

/-- `Response.Status`: what stands behind the version in the status line that `net/http` writes for this code. -/
def responseStatus (code : Nat) : Bytes := fmtNat code ++ b! " " ++ statusText code

/-- `formatErrorMessage`, /repo/pkg/client/client.go:642-659, for a pointer to a string, which has neither title nor detail. -/
def formatErrorMessage (status : Bytes) : Bytes := trimSpace (status ++ b! " " ++ [])

/-- The rest of an `…Execute` method, e.g. /repo/pkg/client/api_metro2_files.go:166-217, as in `ClientCall.outcome`: the text is the status first (181) and
is set again for the codes with a model (190, 201). Decoding into a string or a file does not fail. -/
def ClientCall.result (c : ClientCall) (status : Nat) (body : Bytes) : Except ApiError Bytes :=
  if status ≥ 300 then
    if status ∈ c.models then .error ⟨body, formatErrorMessage (responseStatus status), some body⟩
    else .error ⟨body, responseStatus status, none⟩
  else .ok body

/-- A call answered by the service with its texts. -/
def ClientCall.told (env : ServerEnv) (t : Texts) (boundary : Bytes) (c : ClientCall) : Except ApiError Bytes :=
  let a := (answer env t (prepareRequest boundary c).received {}).finish
  c.result a.1 a.2.2

end Metro2
