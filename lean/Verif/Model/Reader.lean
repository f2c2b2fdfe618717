import Verif.Model.Scanner

/-! The streaming reader. -/

namespace Metro2

/-- The data record loop of `Read`, /repo/pkg/file/file.go:187-204: the records read, the line that failed to parse
if there is one, and the state of the scanner. A panic in `Parse` is passed on. -/
def readBases (p : Plan) (enc : Enc) (isVar : Bool) (s : Scanner) (acc : List Record) :
    Except Err (List Record × Option Bytes × Scanner) :=
  match h : s.scan p with
  | (t, none) => .ok (acc, none, t)
  | (t, some line) =>
    match (newBase enc).parse line isVar with
    | (_, .error .panic) => .error .panic
    | (_, .error _) => .ok (acc, some line, t)
    | (b, .ok _) => readBases p enc isVar t (acc ++ [b])
termination_by s.window.length + s.rest.length
decreasing_by exact Scanner.scan_lt p s h

/-- `utils.MessageMetroFormat`, /repo/pkg/utils/constants.go. -/
def messageMetroFormat : Bytes := b! "metro"

/-- The header part of `Read`, /repo/pkg/file/file.go:163-185: the file with its format and header, and the blocking. -/
def readHeader (f : File) (line : Bytes) : Except Err (File × Bool) :=
  if !isMetroFile line then .error .notMetro
  else
    match isPacked line with
    | .error e => .error e
    | .ok packed =>
      let f := (f.setType (if packed then Enc.packed.name else messageMetroFormat)).1
      let isVar := isVariableLength line
      match f.header.parse line isVar with
      | (_, .error e) => .error e
      | (h, .ok _) => .ok ({ f with header := h }, isVar)

/-- The trailer part of `Read`, /repo/pkg/file/file.go:206-220. -/
def readTrailer (f : File) (line : Bytes) (isVar : Bool) : Except Err File :=
  match f.trailer.parse line isVar with
  | (_, .error e) => .error e
  | (t, .ok _) => .ok { f with trailer := t }

/-- `Reader.Read` after `NewReader`, /repo/pkg/file/file.go:154-234. -/
def readFile (p : Plan) (data : Bytes) : Except Err File :=
  let f := newFile .character
  match (newScanner data).scan p with
  | (_, none) => .error .invalidSegment
  | (s, some line) =>
    match readHeader f line with
    | .error e => .error e
    | .ok (f, isVar) =>
      match readBases p f.format isVar s [] with
      | .error e => .error e
      | .ok (bs, some line, _) => readTrailer { f with bases := bs } line isVar
      | .ok (bs, none, s) =>
        match s.scan p with
        | (_, none) => .error .invalidSegment
        | (_, some line) => readTrailer { f with bases := bs } line isVar

/-- `NewFileFromReader`, /repo/pkg/file/file.go:72-135, on a reader that delivers `data` and then fails with
an error other than EOF if `broken`. `p` is the behaviour of the reader that the scanner sees (`bytes.Reader`, or `MultiReader` of the preview and
the rest). `json` is the decoding of JSON text, /repo/pkg/file/file.go:107-134. The nil reader is left out. -/
def newFileFromReader (json : Bytes → Except Err File) (p : Plan) (data : Bytes) (broken : Bool) : Except Err File :=
  if data.length < 1024 ∧ (broken ∨ data = []) then .error .io
  else
    let preview := data.take 1024
    if preview.any (· == 123) then json data
    else readFile p data

end Metro2
