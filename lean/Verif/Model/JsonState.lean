import Verif.Model.Json

/-!
What `UnmarshalJSON` leaves behind, also when it returns an error. Model/Json.lean has only the values of the successful case; that both
agree is part of C103.
-/

namespace Metro2

/-- What one member of an object does to a struct: it is decoded (or unknown), it has the wrong type, or the decoding ends at once. -/
inductive MemberStep where
  | done (fs : Fields)
  | wrong
  | stop (fs : Fields)

/-- One member of an object decoded into a struct. A number or text of the wrong type, or a number out of range, is an error of which `encoding/json` takes
note (`saveError`) before it goes on; an error of `utils.Time.UnmarshalJSON` (/repo/pkg/utils/time.go:15-24) ends the
decoding, after the time was set to the zero time that `parseDate` returns with its error. -/
def memberStep (env : JsonEnv) (decl : List (F × FieldDecl)) (fs : Fields) (kv : Bytes × Json) : MemberStep :=
  match fieldOf decl kv.1 with
  | none => .done fs
  | some f =>
    match fs.get f with
    | none => .wrong
    | some old =>
      match decodeVal env old kv.2 with
      | some v => .done (fs.set f v)
      | none =>
        match old with
        | .time _ => .stop (fs.set f (.time Time.zero))
        | _ => .wrong

/-- The members of an object decoded into a struct: the struct, and if there was an error (`failed`: there was one before). -/
def membersState (env : JsonEnv) (decl : List (F × FieldDecl)) : Fields → Bool → List (Bytes × Json) → Fields × Bool
  | fs, failed, [] => (fs, failed)
  | fs, failed, kv :: kvs =>
    match memberStep env decl fs kv with
    | .done fs' => membersState env decl fs' failed kvs
    | .wrong => membersState env decl fs true kvs
    | .stop fs' => (fs', true)

/-- `json.Unmarshal` into a struct that holds `fs`. -/
def structState (env : JsonEnv) (decl : List (F × FieldDecl)) (fs : Fields) (j : Json) : Fields × Bool :=
  match j with
  | .obj kvs => membersState env decl fs false kvs
  | .null => (fs, false)
  | _ => (fs, true)

/-- The list of J1 or J2 segments, /repo/pkg/lib/base_segment.go:783-797: those before one that is refused are kept. -/
def segsState (env : JsonEnv) (name : Bytes) : Segs → List Json → Segs × Bool
  | g, [] => (g, false)
  | g, x :: xs =>
    match decodeSeg env name g x with
    | none => (g, true)
    | some g' => segsState env name g' xs

/-- One entry of the loop of `UnmarshalJSON` of a data record, /repo/pkg/lib/base_segment.go:759-805 and 1276-1320: `baseJson` and the segments are decoded
into new values, so nothing of one that is refused is kept. -/
def baseEntryState (env : JsonEnv) (r : Fields × Segs) (kv : Bytes × Json) : (Fields × Segs) × Bool :=
  if kv.1 = b! "base" then
    match decodeStruct env baseSegmentStruct (zeroFields baseSegmentStruct) kv.2 with
    | none => (r, true)
    | some fs => ((fs, r.2), false)
  else if kv.1 = b! "j1" ∨ kv.1 = b! "j2" then
    match decodeList env kv.2 with
    | none => (r, true)
    | some xs =>
      let s := segsState env kv.1 r.2 xs
      ((r.1, s.1), s.2)
  else
    match decodeSeg env kv.1 r.2 kv.2 with
    | none => (r, true)
    | some g => ((r.1, g), false)

/-- The loop over the entries, ended by the first error. -/
def baseEntriesState (env : JsonEnv) : Fields × Segs → List (Bytes × Json) → (Fields × Segs) × Bool
  | r, [] => (r, false)
  | r, kv :: kvs =>
    match baseEntryState env r kv with
    | (r', true) => (r', true)
    | (r', false) => baseEntriesState env r' kvs

/-- `json.Unmarshal` into a record: /repo/pkg/lib/base_segment.go:749-808 and 1266-1323 for data records. -/
def Record.jsonState (env : JsonEnv) (visit : List (Bytes × Json) → List (Bytes × Json)) (r : Record) (j : Json) : Record × Bool :=
  match r with
  | .header e fs =>
    let s := structState env headerRecordStruct fs j
    (.header e s.1, s.2)
  | .trailer e fs =>
    let s := structState env trailerRecordStruct fs j
    (.trailer e s.1, s.2)
  | .base e fs g =>
    match decodeMap env j with
    | none => (r, true)
    | some kvs =>
      let s := baseEntriesState env (fs, { g with j1 := [], j2 := [] }) (visit kvs)
      (.base e s.1.1 s.1.2, s.2)

/-- The loop over the data records, /repo/pkg/file/file_instance.go:376-398: a record that is refused is dropped, those before it are kept. -/
def basesState (env : JsonEnv) (visits : Nat → List (Bytes × Json) → List (Bytes × Json)) (enc : Enc) :
    Nat → List Json → List Record → List Record × Bool
  | _, [], acc => (acc, false)
  | n, x :: xs, acc =>
    match (newBase enc).ofJson env (visits n) x with
    | none => (acc, true)
    | some b => basesState env visits enc (n + 1) xs (acc ++ [b])

/-- One entry of the loop of `UnmarshalJSON` of a file, /repo/pkg/file/file_instance.go:350-400. -/
def fileEntryState (env : JsonEnv) (visits : Nat → List (Bytes × Json) → List (Bytes × Json)) (f : File) (kv : Bytes × Json) : File × Bool :=
  if kv.1 = b! "header" then
    let s := f.header.jsonState env (visits 0) kv.2
    ({ f with header := s.1 }, s.2)
  else if kv.1 = b! "trailer" then
    let s := f.trailer.jsonState env (visits 0) kv.2
    ({ f with trailer := s.1 }, s.2)
  else if kv.1 = b! "data" then
    match decodeList env kv.2 with
    | none => (f, true)
    | some xs =>
      let s := basesState env visits f.format 1 xs f.bases
      ({ f with bases := s.1 }, s.2)
  else (f, false)

/-- The loop over the entries, ended by the first error. -/
def fileEntriesState (env : JsonEnv) (visits : Nat → List (Bytes × Json) → List (Bytes × Json)) : File → List (Bytes × Json) → File × Bool
  | f, [] => (f, false)
  | f, kv :: kvs =>
    match fileEntryState env visits f kv with
    | (f', true) => (f', true)
    | (f', false) => fileEntriesState env visits f' kvs

/-- `UnmarshalJSON` of a file, /repo/pkg/file/file_instance.go:343-403: the file afterwards, and if there was an error. -/
def File.jsonState (env : JsonEnv) (visits : Nat → List (Bytes × Json) → List (Bytes × Json)) (f : File) (j : Json) : File × Bool :=
  match decodeMap env j with
  | none => (f, true)
  | some kvs => fileEntriesState env visits f (visits 0 kvs)

/-- The JSON branch of `NewFileFromReader`, /repo/pkg/file/file.go:105-134, with the file that is returned (`none` is nil): an error in the second
decoding comes with the file as it was left. -/
def readJsonState (env : JsonEnv) (visits : Nat → List (Bytes × Json) → List (Bytes × Json)) (first : Bytes → Option Json) (data : Bytes) :
    Option File × Bool :=
  match first data with
  | none => (none, true)
  | some j =>
    match decodeDummy env j with
    | none => (none, true)
    | some h =>
      let s := (newFile (detectFormat h)).jsonState env visits j
      (some s.1, s.2)

end Metro2
