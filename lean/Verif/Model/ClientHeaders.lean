import Verif.Model.Multipart

/-! The headers of a call of the generated client. -/

namespace Metro2

/-- `textproto.validHeaderFieldByte`: letters, digits and some signs. -/
def headerByte (c : UInt8) : Bool :=
  isDigit c || (65 ≤ c && c ≤ 90) || (97 ≤ c && c ≤ 122) || (b! "!#$%&'*+-.^_`|~").contains c

/-- The loop of `canonicalMIMEHeaderKey`: capital letters at the beginning and behind hyphens, small letters elsewhere. -/
def canonicalFrom : Bool → Bytes → Bytes
  | _, [] => []
  | upper, c :: s =>
    let c' := if upper ∧ 97 ≤ c ∧ c ≤ 122 then c - 32 else if ¬ upper ∧ 65 ≤ c ∧ c ≤ 90 then c + 32 else c
    c' :: canonicalFrom (c' == 45) s

/-- `textproto.CanonicalMIMEHeaderKey`: names with other bytes stay as they are. -/
def canonicalHeader (s : Bytes) : Bytes := if s.all headerByte then canonicalFrom true s else s

/-- `http.Header.Add` on a map from canonical names to values. -/
def headerAdd (key value : Bytes) : List (Bytes × List Bytes) → List (Bytes × List Bytes)
  | [] => [(canonicalHeader key, [value])]
  | (k, vs) :: h => if k = canonicalHeader key then (k, vs ++ [value]) :: h else (k, vs) :: headerAdd key value h

/-- `http.Header.Values`. -/
def headerValues (h : List (Bytes × List Bytes)) (key : Bytes) : List Bytes :=
  match h.lookup (canonicalHeader key) with
  | some vs => vs
  | none => []

/-- `http.Header.Get`. -/
def headerGet (h : List (Bytes × List Bytes)) (key : Bytes) : Bytes :=
  match headerValues h key with
  | v :: _ => v
  | [] => []

/-- `selectHeaderAccept`, /repo/pkg/client/client.go:91-101. -/
def selectHeaderAccept (accepts : List Bytes) : Bytes :=
  match accepts with
  | [] => []
  | _ => if accepts.any fun s => equalFold s (b! "application/json") then b! "application/json" else List.intercalate (b! ",") accepts

/-- The parts of `Configuration` that go into the headers, /repo/pkg/client/configuration.go:74-83. The default headers are a map; the list has its
entries in the order in which `range` goes through them. -/
structure HeaderConfiguration where
  userAgent : Bytes
  defaultHeader : List (Bytes × Bytes)
deriving DecidableEq, Repr

/-- `NewConfiguration`, /repo/pkg/client/configuration.go:86-100. -/
def newHeaderConfiguration : HeaderConfiguration := ⟨b! "OpenAPI-Generator/1.0.0/go", []⟩

/-- `AddDefaultHeader`, /repo/pkg/client/configuration.go:103-105. -/
def HeaderConfiguration.addDefaultHeader (c : HeaderConfiguration) (key value : Bytes) : HeaderConfiguration :=
  { c with defaultHeader := c.defaultHeader.filter (fun kv => kv.1 ≠ key) ++ [(key, value)] }

/-- The map `headerParams` as an `…Execute` method and `prepareRequest` leave it, e.g. /repo/pkg/client/api_metro2_files.go:116-133 and
/repo/pkg/client/client.go:301-351: the content type and the accepted types if there are any, and the length of a form. -/
def headerParams (contentType accept : Bytes) (length : Option Nat) : List (Bytes × Bytes) :=
  (if contentType = [] then [] else [(b! "Content-Type", contentType)]) ++
  (if accept = [] then [] else [(b! "Accept", accept)]) ++
  (match length with
  | none => []
  | some n => [(b! "Content-Length", fmtNat n)])

/-- The end of `prepareRequest`, /repo/pkg/client/client.go:394-417. -/
def requestHeaders (cfg : HeaderConfiguration) (params : List (Bytes × Bytes)) : List (Bytes × List Bytes) :=
  cfg.defaultHeader.foldl (fun h kv => headerAdd kv.1 kv.2 h)
    (headerAdd (b! "User-Agent") cfg.userAgent (params.map fun kv => (kv.1, [kv.2])))

/-- The types that `ConvertExecute`, `HealthExecute`, `PrintExecute` and `ValidatorExecute` accept,
/repo/pkg/client/api_metro2_files.go:126, 275, 399, 535. -/
def convertAccepts : List Bytes := [b! "application/octet-stream", b! "text/plain"]
def healthAccepts : List Bytes := [b! "text/plain"]
def printAccepts : List Bytes := [b! "text/plain", b! "application/json"]
def validatorAccepts : List Bytes := [b! "text/plain"]

/-- The headers of a call: those of a form if there is one. -/
def ClientCall.headers (cfg : HeaderConfiguration) (boundary : Bytes) (c : ClientCall) (accepts : List Bytes) : List (Bytes × List Bytes) :=
  let p := prepareRequest boundary c
  requestHeaders cfg (headerParams p.contentType (selectHeaderAccept accepts)
    (if p.parts.isSome then some (c.sent boundary c.form).contentLength else none))

end Metro2
