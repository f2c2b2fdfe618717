import Verif.Model.ClientCall
import Verif.Model.Messages

/-!
The bytes of a form with parts: how the client writes them (/repo/pkg/client/client.go:301-341) and how the service reads them
(/repo/pkg/server/server.go:18-38, `FormFile` and `FormValue`).

`mime/multipart` and `mime` of Go 1.25 are modelled here from their documentation and sources. Left out: folded header lines, `Content-Transfer-Encoding`,
parameters with `*` (RFC 2231), line breaks without a carriage return, other spaces than those of ASCII, and the limits on memory, on the number of parts and on
the length of lines. The client writes none of these; texts with them are refused by the model.
-/

namespace Metro2

/-- `"\r\n"`. -/
def crlf : Bytes := [13, 10]

/-! ### Writing -/

/-- `escapeQuotes` of `mime/multipart`, used by `CreateFormField` and `CreateFormFile`. -/
def escapeQuotes : Bytes → Bytes
  | [] => []
  | c :: r => (if c = 92 then [92, 92] else if c = 34 then [92, 34] else if c = 13 then b! "%0D" else if c = 10 then b! "%0A" else [c]) ++ escapeQuotes r

/-- A part of a form: its name, the name of the file if it is one, and its content. -/
structure FormPart where
  name : Bytes
  file : Option Bytes
  content : Bytes
deriving DecidableEq

/-- The headers of a part, in the order of their keys, and the empty line: `CreateFormField` and `CreateFormFile`, which `prepareRequest` calls in
/repo/pkg/client/client.go:317 and 324. -/
def FormPart.header (p : FormPart) : Bytes :=
  b! "Content-Disposition: form-data; name=\"" ++ escapeQuotes p.name ++ b! "\"" ++
    (match p.file with
    | none => crlf
    | some n => b! "; filename=\"" ++ escapeQuotes n ++ b! "\"" ++ crlf ++ b! "Content-Type: application/octet-stream" ++ crlf) ++ crlf

/-- The line that begins a part, without its end. -/
def dashBoundary (boundary : Bytes) : Bytes := b! "--" ++ boundary

/-- Parts as `multipart.Writer` writes them; before the first one there is no line break. -/
def writeParts (boundary : Bytes) : Bool → List FormPart → Bytes
  | _, [] => []
  | first, p :: ps => (if first then [] else crlf) ++ dashBoundary boundary ++ crlf ++ p.header ++ p.content ++ writeParts boundary false ps

/-- What `Writer.Close` writes. -/
def multipartEnd (boundary : Bytes) : Bytes := crlf ++ dashBoundary boundary ++ b! "--" ++ crlf

/-- `filepath.Base` with `/` as separator. -/
def pathBase (path : Bytes) : Bytes :=
  if path = [] then b! "."
  else match path.reverse.dropWhile (· == 47) with
    | [] => b! "/"
    | c :: r => ((c :: r).takeWhile (· != 47)).reverse

/-- The parts of a call, /repo/pkg/client/client.go:309-333: the form, in an order that the map of the form gives, and the file if neither its content nor its name is
empty. Keys that begin with `@` (312-316) are not modelled; no call has them. -/
def ClientCall.parts (c : ClientCall) (form : List (Bytes × Bytes)) : List FormPart :=
  form.map (fun kv => ⟨kv.1, none, kv.2⟩) ++ match c.file with
    | none => []
    | some u => if u.content ≠ [] ∧ u.name ≠ [] then [⟨b! "file", some (pathBase u.name), u.content⟩] else []

/-- A request as it is sent: the headers `Content-Type` and `Content-Length` that `prepareRequest` sets, and the body. -/
structure SentForm where
  contentType : Bytes
  contentLength : Nat
  body : Bytes

/-- The form with parts of `prepareRequest`, /repo/pkg/client/client.go:301-341: the length is taken before `Close`. `FormDataContentType` is modelled for a
boundary that needs no quotes; `multipart.NewWriter` draws one of 60 digits and small letters. -/
def ClientCall.sent (boundary : Bytes) (c : ClientCall) (form : List (Bytes × Bytes)) : SentForm where
  contentType := b! "multipart/form-data; boundary=" ++ boundary
  contentLength := (writeParts boundary true (c.parts form)).length
  body := writeParts boundary true (c.parts form) ++ multipartEnd boundary

/-! ### Reading -/

/-- The first line with its line break, and the rest; `none` if there is no line break. -/
def takeLine : Bytes → Option (Bytes × Bytes)
  | [] => none
  | c :: r => if c = 10 then some ([10], r) else (takeLine r).map fun x => (c :: x.1, x.2)

/-- `skipLWSPChar`. -/
def skipBlanks (s : Bytes) : Bytes := s.dropWhile fun c => c == 32 || c == 9

/-- `isBoundaryDelimiterLine`. -/
def isDelimiterLine (boundary line : Bytes) : Bool :=
  (dashBoundary boundary).isPrefixOf line && skipBlanks (line.drop (dashBoundary boundary).length) == crlf

/-- `isFinalBoundary`. -/
def isFinalLine (boundary line : Bytes) : Bool :=
  (dashBoundary boundary ++ b! "--").isPrefixOf line &&
    (let rest := skipBlanks (line.drop (dashBoundary boundary ++ b! "--").length); rest == [] || rest == crlf)

/-- What `nextPart` finds: a part, which begins with its headers, the end, or an error. -/
inductive NextPart where
  | part (rest : Bytes)
  | finished
  | failed
deriving DecidableEq

/-- The loop of `Reader.nextPart`; `first`: no part was read yet, `expect`: the line break before a boundary was read. The number bounds the lines. -/
def nextPart (boundary : Bytes) (first : Bool) : Bool → Nat → Bytes → NextPart
  | _, 0, _ => .failed
  | expect, n + 1, s =>
    match takeLine s with
    | none => if isFinalLine boundary s then .finished else .failed
    | some (line, rest) =>
      if isDelimiterLine boundary line then .part rest
      else if isFinalLine boundary line then .finished
      else if expect then .failed
      else if first then nextPart boundary first false n rest
      else if line = crlf then nextPart boundary first true n rest
      else .failed

/-- A line without its line break. -/
def chompLine (line : Bytes) : Bytes :=
  match line.reverse with
  | 10 :: 13 :: r => r.reverse
  | 10 :: r => r.reverse
  | _ => line

/-- A line without its line break and the blanks around it. -/
def trimLine (line : Bytes) : Bytes := (skipBlanks (skipBlanks (chompLine line)).reverse).reverse

/-- `textproto.Reader.ReadMIMEHeader`: lines with a colon up to an empty line. The number bounds the lines. -/
def readMimeHeader : Nat → Bytes → Option (List (Bytes × Bytes) × Bytes)
  | 0, _ => none
  | n + 1, s =>
    match takeLine s with
    | none => none
    | some (line, rest) =>
      if trimLine line = [] then some ([], rest)
      else
        match (trimLine line).dropWhile (· != 58) with
        | [] => none
        | _ :: value => (readMimeHeader n rest).map fun x => (((trimLine line).takeWhile (· != 58), skipBlanks value) :: x.1, x.2)

/-- `isTSpecial` of `mime`. -/
def isTSpecial (c : UInt8) : Bool := (b! "()<>@,;:\\\"/[]?=").contains c

/-- `isTokenChar` of `mime`. -/
def isTokenChar (c : UInt8) : Bool := 32 < c && c < 127 && !isTSpecial c

/-- White space. -/
def isBlank (c : UInt8) : Bool := c == 32 || (9 ≤ c && c ≤ 13)

/-- The rest of a quoted string, `consumeValue` of `mime`; `none` if it does not end or has a line break. -/
def unquote : Bytes → Option (Bytes × Bytes)
  | [] => none
  | 34 :: r => some ([], r)
  | 92 :: c :: r => if isTSpecial c then (unquote r).map fun x => (c :: x.1, x.2) else (unquote (c :: r)).map fun x => (92 :: x.1, x.2)
  | c :: r => if c = 13 ∨ c = 10 then none else (unquote r).map fun x => (c :: x.1, x.2)

/-- `consumeMediaParam`: the key in small letters, the value, the rest. -/
def consumeParam (s : Bytes) : Option (Bytes × Bytes × Bytes) :=
  match s.dropWhile isBlank with
  | 59 :: r =>
    let r := r.dropWhile isBlank
    let key := r.takeWhile isTokenChar
    if key = [] then none
    else match (r.dropWhile isTokenChar).dropWhile isBlank with
      | 61 :: r =>
        match r.dropWhile isBlank with
        | 34 :: r => (unquote r).map fun x => (toLowerAscii key, x.1, x.2)
        | r => if r.takeWhile isTokenChar = [] then none else some (toLowerAscii key, r.takeWhile isTokenChar, r.dropWhile isTokenChar)
      | _ => none
  | _ => none

/-- The parameters, in the loop of `mime.ParseMediaType`: a key may come twice only with the same value. A semicolon at the end is ignored; `none` is an
error. The number bounds the parameters. -/
def mediaParams : Nat → List (Bytes × Bytes) → Bytes → Option (List (Bytes × Bytes))
  | 0, _, _ => none
  | n + 1, acc, s =>
    if s.dropWhile isBlank = [] then some acc
    else match consumeParam s with
      | none => if trimSpace s = b! ";" then some acc else none
      | some (key, value, rest) =>
        match acc.lookup key with
        | some v => if v = value then mediaParams n acc rest else none
        | none => mediaParams n (acc ++ [(key, value)]) rest

/-- `mime.ParseMediaType`: the type in small letters and the parameters. The check of the characters of the type is left out. -/
def parseMediaType (s : Bytes) : Option (Bytes × List (Bytes × Bytes)) :=
  (mediaParams (s.length + 1) [] (s.dropWhile (· != 59))).map fun ps => (toLowerAscii (trimSpace (s.takeWhile (· != 59))), ps)

/-- `matchAfterPrefix` for a text that is complete: what may come after a boundary. -/
def afterBoundary : Bytes → Bool
  | [] => true
  | c :: r => c == 32 || c == 9 || c == 13 || c == 10 || (c == 45 && r.head? == some 45)

/-- A boundary with the line break before it. -/
def atBoundary (boundary s : Bytes) : Bool :=
  (crlf ++ dashBoundary boundary).isPrefixOf s && afterBoundary (s.drop (crlf ++ dashBoundary boundary).length)

/-- The content of a part up to the next boundary, `scanUntilBoundary`; `none` if there is none. -/
def contentFrom (boundary : Bytes) : Bytes → Option (Bytes × Bytes)
  | [] => none
  | c :: r => if atBoundary boundary (c :: r) then some ([], c :: r) else (contentFrom boundary r).map fun x => (c :: x.1, x.2)

/-- The same at the beginning of a part, where the line break may be missing. -/
def partContent (boundary s : Bytes) : Option (Bytes × Bytes) :=
  if (dashBoundary boundary).isPrefixOf s && afterBoundary (s.drop (dashBoundary boundary).length) then some ([], s) else contentFrom boundary s

/-- `FormName` and `FileName` of a part with these headers: `none` for a part without a name, which `ReadForm` skips. An empty file name is none. -/
def partNames (headers : List (Bytes × Bytes)) : Option (Bytes × Option Bytes) :=
  match headers.find? fun h => equalFold h.1 (b! "Content-Disposition") with
  | none => none
  | some (_, v) =>
    match parseMediaType v with
    | none => none
    | some (type, params) =>
      if type = b! "form-data" then
        match params.lookup (b! "name") with
        | none => none
        | some name =>
          if name = [] then none
          else some (name, match params.lookup (b! "filename") with
            | none => none
            | some f => if f = [] then none else some (pathBase f))
      else none

/-- The loop of `Reader.ReadForm`; `none` is an error. The number bounds the parts. -/
def readParts (boundary : Bytes) : Bool → Nat → Bytes → Option (List FormPart)
  | _, 0, _ => none
  | first, n + 1, s =>
    match nextPart boundary first false (s.length + 1) s with
    | .finished => some []
    | .failed => none
    | .part rest =>
      match readMimeHeader (rest.length + 1) rest with
      | none => none
      | some (headers, body) =>
        match partContent boundary body with
        | none => none
        | some (content, rest) =>
          (readParts boundary false n rest).map fun ps =>
            match partNames headers with
            | none => ps
            | some (name, file) => ⟨name, file, content⟩ :: ps

/-- `ParseMultipartForm`: the boundary from `Content-Type`, then the parts. -/
def parseForm (contentType body : Bytes) : Option (List FormPart) :=
  match parseMediaType contentType with
  | none => none
  | some (type, params) =>
    if type = b! "multipart/form-data" then
      match params.lookup (b! "boundary") with
      | none => none
      | some boundary => readParts boundary true (body.length + 1) body
    else none

/-- The request as the handlers see it, from the bytes: `FormFile("file")` gives the first part with this name and a file name, `FormValue` the first value in
the URL, else in the parts without a file name. If the form cannot be read there is no file and only the URL counts. -/
def SentForm.received (m : SentForm) (method path : Bytes) (query : List (Bytes × Bytes)) : Request where
  method := method
  path := path
  contentType := m.contentType
  body := []
  bodyBroken := false
  fileField :=
    match parseForm m.contentType m.body with
    | none => none
    | some ps => (ps.find? fun p => p.file.isSome && p.name == b! "file").map fun p => (p.content, false)
  query := firstValue query
  form := firstValue (query ++ match parseForm m.contentType m.body with
    | none => []
    | some ps => ps.filterMap fun p => if p.file.isSome then none else some (p.name, p.content))

end Metro2
