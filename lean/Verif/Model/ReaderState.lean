import Verif.Model.Reader

/-! A `Reader` that is asked more than once: what it holds before and after each call of `Read`, also if the call fails. Model/Reader.lean has the first call only. -/

namespace Metro2

/-- `Reader`, /repo/pkg/file/file.go:143-151. `line` is left out: each call writes it before it is used. `file` is the object behind `File`; every successful `Read`
returns the address of this object. A `File` of another type than the one of this package is left out. -/
structure Reader where
  file : File
  scanner : Scanner

/-- `NewReader`, /repo/pkg/file/file.go:223-234. -/
def newReader (data : Bytes) : Reader := ⟨newFile .character, newScanner data⟩

/-- The header part of `Read`, /repo/pkg/file/file.go:163-184, on any file: the file afterwards, and the blocking or the error. -/
def File.start (f : File) (line : Bytes) : File × Except Err Bool :=
  if !isMetroFile line then (f, .error .notMetro)
  else
    match isPacked line with
    | .error e => (f, .error e)
    | .ok packed =>
      let f := (f.setType (if packed then Enc.packed.name else messageMetroFormat)).1
      let isVar := isVariableLength line
      match f.header.parse line isVar with
      | (h, .error e) => ({ f with header := h }, .error e)
      | (h, .ok _) => ({ f with header := h }, .ok isVar)

/-- The data record loop of `Read`, /repo/pkg/file/file.go:186-204: the records, the scanner, and the line that is no data record if there is one. -/
def readLoop (p : Plan) (enc : Enc) (isVar : Bool) (s : Scanner) (acc : List Record) : List Record × Scanner × Except Err (Option Bytes) :=
  match h : s.scan p with
  | (t, none) => (acc, t, .ok none)
  | (t, some line) =>
    match (newBase enc).parse line isVar with
    | (_, .error .panic) => (acc, t, .error .panic)
    | (_, .error _) => (acc, t, .ok (some line))
    | (b, .ok _) => readLoop p enc isVar t (acc ++ [b])
termination_by s.window.length + s.rest.length
decreasing_by exact Scanner.scan_lt p s h

/-- The trailer part of `Read`, /repo/pkg/file/file.go:215-220. -/
def Reader.finish (r : Reader) (line : Bytes) (isVar : Bool) : Reader × Option Err :=
  match r.file.trailer.parse line isVar with
  | (t, .error e) => ({ r with file := { r.file with trailer := t } }, some e)
  | (t, .ok _) => ({ r with file := { r.file with trailer := t } }, none)

/-- `Read`, /repo/pkg/file/file.go:153-221, on any reader: the reader afterwards, and the error if there is one. -/
def Reader.read (p : Plan) (r : Reader) : Reader × Option Err :=
  let f := { r.file with bases := [] }
  match r.scanner.scan p with
  | (s, none) => (⟨f, s⟩, some .invalidSegment)
  | (s, some line) =>
    match f.start line with
    | (f, .error e) => (⟨f, s⟩, some e)
    | (f, .ok isVar) =>
      match readLoop p f.format isVar s [] with
      | (bs, s, .error e) => (⟨{ f with bases := bs }, s⟩, some e)
      | (bs, s, .ok (some line)) => Reader.finish ⟨{ f with bases := bs }, s⟩ line isVar
      | (bs, s, .ok none) =>
        match s.scan p with
        | (s, none) => (⟨{ f with bases := bs }, s⟩, some .invalidSegment)
        | (s, some line) => Reader.finish ⟨{ f with bases := bs }, s⟩ line isVar

/-- The reader after `n` calls of `Read`. -/
def Reader.after (p : Plan) : Nat → Reader → Reader
  | 0, r => r
  | n + 1, r => Reader.after p n (r.read p).1

/-- What `n` calls of `Read` return, each looked at before the next one. -/
def Reader.results (p : Plan) : Nat → Reader → List (Except Err File)
  | 0, _ => []
  | n + 1, r =>
    match r.read p with
    | (r, none) => .ok r.file :: Reader.results p n r
    | (r, some e) => .error e :: Reader.results p n r

end Metro2
