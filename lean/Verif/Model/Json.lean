import Verif.Model.Reader
import Verif.Model.Dates

/-!
JSON: `MarshalJSON` and `UnmarshalJSON` of files and data records, and the format detection of `NewFileFromReader`, on JSON trees.
The text layer of `encoding/json` (scanning, quoting) is in Model/JsonText.lean.
-/

namespace Metro2

/-- A JSON value. `num` is the text of a number, `str` the characters of a string as UTF-8, `obj` the members in text order
(keys may repeat in an input). -/
inductive Json where
  | null
  | bool (b : Bool)
  | num (lit : Bytes)
  | str (s : Bytes)
  | arr (xs : List Json)
  | obj (kvs : List (Bytes × Json))

/-- What the model takes from the Go standard library and the machine.
`refloat`: a number literal decoded into `interface{}` (a `float64`) and written again; `none` if it is out of range.
`zone`: the local time zone, for dates with a zone abbreviation. -/
structure JsonEnv where
  refloat : Bytes → Option Bytes
  zone : LocalZone

/-! ### Values -/

/-- What `json.Marshal` makes of a Go string: every byte that is not part of a well-formed UTF-8 sequence becomes U+FFFD. -/
def toValidUtf8 : Nat → Bytes → Bytes
  | 0, _ => []
  | _ + 1, [] => []
  | fuel + 1, c :: rest =>
    if c < 0x80 then c :: toValidUtf8 fuel rest
    else if runeWidth (c :: rest) = 1 then 0xEF :: 0xBF :: 0xBD :: toValidUtf8 fuel rest
    else (c :: rest).take (runeWidth (c :: rest)) ++ toValidUtf8 fuel ((c :: rest).drop (runeWidth (c :: rest)))

/-- The zone part `Z07:00` of `time.RFC3339`. The sign is that of the offset in whole minutes, so an offset of less than a minute to the west has a plus sign. -/
def rfc3339Zone (l : Loc) : Bytes :=
  match l with
  | .utc => b! "Z"
  | .zone o =>
    if o = 0 then b! "Z"
    else (if o.tdiv 60 < 0 then 45 else 43) :: (appendInt (o.natAbs / 60 / 60 : Nat) 2 ++ [58] ++ appendInt (o.natAbs / 60 % 60 : Nat) 2)

/-- `Time.Format(time.RFC3339)`. -/
def rfc3339 (t : Time) : Bytes :=
  appendInt t.year 4 ++ [45] ++ appendInt t.month 2 ++ [45] ++ appendInt t.day 2 ++ [84] ++
    appendInt t.hour 2 ++ [58] ++ appendInt t.min 2 ++ [58] ++ appendInt t.sec 2 ++ rfc3339Zone t.loc

/-- A field value as JSON; the times as in `utils.Time.MarshalJSON`, /repo/pkg/utils/time.go:31-43. -/
def encodeVal : Val → Json
  | .int i => .num (fmtInt i)
  | .str s => .str (toValidUtf8 s.length s)
  | .time t => .str (if t.isZero then [] else rfc3339 t)

/-- A four-digit hexadecimal escape of `encoding/json`. -/
def hexEscape (n : Nat) : Bytes :=
  b! "\\u00" ++ [hexDigit (n / 16), hexDigit (n % 16)]
where
  hexDigit (d : Nat) : UInt8 := if d < 10 then digit d else UInt8.ofNat (87 + d)

/-- The escape of one ASCII character in a JSON string as written by `encoding/json` (with HTML escaping, the default). -/
def escapeByte (c : UInt8) : Bytes :=
  if c = 34 then b! "\\\""
  else if c = 92 then b! "\\\\"
  else if c = 8 then b! "\\b"
  else if c = 12 then b! "\\f"
  else if c = 10 then b! "\\n"
  else if c = 13 then b! "\\r"
  else if c = 9 then b! "\\t"
  else if c < 32 ∨ c = 60 ∨ c = 62 ∨ c = 38 then hexEscape c.toNat
  else [c]

/-- The characters of a string as `encoding/json` writes them between the quotes, with fuel; U+2028 and U+2029 are escaped. -/
def escapeJson : Nat → Bytes → Bytes
  | 0, _ => []
  | _ + 1, [] => []
  | fuel + 1, c :: r =>
    if (c :: r).take 3 = [0xE2, 0x80, 0xA8] then b! "\\u2028" ++ escapeJson fuel (r.drop 2)
    else if (c :: r).take 3 = [0xE2, 0x80, 0xA9] then b! "\\u2029" ++ escapeJson fuel (r.drop 2)
    else escapeByte c ++ escapeJson fuel r

/-- `strings.Trim(s, "\"")`. -/
def trimQuotes (s : Bytes) : Bytes := ((s.dropWhile (· == 34)).reverse.dropWhile (· == 34)).reverse

/-- `utils.Time.UnmarshalJSON`, /repo/pkg/utils/time.go:15-24. It is called for every kind of JSON value; the text of a value that is
not a string matches no layout. It works on the text of the string with its escapes. Simplification: the text is taken to be
escaped as `encoding/json` does it; that is so wherever a file is read, because `File.UnmarshalJSON` writes every record
out again before it decodes it (`reJson`). -/
def decodeTime (env : JsonEnv) : Json → Option Time
  | .str s =>
    let text := trimQuotes (escapeJson s.length s)
    if text = [] then some Time.zero else parseDate env.zone text
  | _ => none

/-- A JSON value into a struct field that holds `old`; `none` is an error. `null` leaves numbers and texts alone. -/
def decodeVal (env : JsonEnv) (old : Val) (j : Json) : Option Val :=
  match old with
  | .int i =>
    match j with
    | .num lit => match parseInt lit with
      | .ok v => some (.int v)
      | .error _ => none
    | .null => some (.int i)
    | _ => none
  | .str s =>
    match j with
    | .str x => some (.str x)
    | .null => some (.str s)
    | _ => none
  | .time _ => (decodeTime env j).map .time

/-! ### Structs -/

/-- `omitempty`: a number 0 or an empty text; a struct (`utils.Time`) is never empty. -/
def emptyVal : Val → Bool
  | .int i => i = 0
  | .str s => s = []
  | .time _ => false

/-- The members of a struct, in field order. -/
def encodeMembers (decl : List (F × FieldDecl)) (fs : Fields) : List (Bytes × Json) :=
  decl.filterMap fun p =>
    match fs.get p.1 with
    | none => none
    | some v => if p.2.omitempty && emptyVal v then none else some (p.2.json, encodeVal v)

/-- A struct with the JSON tags of `decl`. -/
def encodeStruct (decl : List (F × FieldDecl)) (fs : Fields) : Json := .obj (encodeMembers decl fs)

/-- `foldName` of `encoding/json`, as far as it matters for comparing with ASCII keys: ASCII letters are raised, and U+212A
and U+017F, which fold to K and S, are replaced. -/
def foldKey : Bytes → Bytes
  | 0xE2 :: 0x84 :: 0xAA :: rest => 75 :: foldKey rest
  | 0xC5 :: 0xBF :: rest => 83 :: foldKey rest
  | c :: rest => upperByte c :: foldKey rest
  | [] => []

/-- The struct field that takes a member: the key is compared exactly first, then folded. -/
def fieldOf (decl : List (F × FieldDecl)) (key : Bytes) : Option F :=
  match decl.find? (fun p => p.2.json = key) with
  | some p => some p.1
  | none => (decl.find? (fun p => foldKey p.2.json = foldKey key)).map (·.1)

/-- One member of an object decoded into a struct; unknown keys are ignored. -/
def decodeMember (env : JsonEnv) (decl : List (F × FieldDecl)) (fs : Fields) (kv : Bytes × Json) : Option Fields :=
  match fieldOf decl kv.1 with
  | none => some fs
  | some f =>
    match fs.get f with
    | none => none
    | some old => (decodeVal env old kv.2).map fun v => fs.set f v

/-- `json.Unmarshal` into a struct that holds `fs`: `none` is an error; the values set before an
error is found are in Model/JsonState. -/
def decodeStruct (env : JsonEnv) (decl : List (F × FieldDecl)) (fs : Fields) (j : Json) : Option Fields :=
  match j with
  | .obj kvs => kvs.foldlM (decodeMember env decl) fs
  | .null => some fs
  | _ => none

/-! ### interface{} -/

/-- Order of Go strings. -/
def keyLt : Bytes → Bytes → Bool
  | [], [] => false
  | [], _ :: _ => true
  | _ :: _, [] => false
  | a :: as, b :: bs => if a = b then keyLt as bs else decide (a < b)

/-- Assignment to an element of a Go map, kept as a list sorted by key (the order in which `json.Marshal` writes it). -/
def mapSet (k : Bytes) (v : Json) : List (Bytes × Json) → List (Bytes × Json)
  | [] => [(k, v)]
  | (k', v') :: rest =>
    if k = k' then (k, v) :: rest
    else if keyLt k k' then (k, v) :: (k', v') :: rest
    else (k', v') :: mapSet k v rest

mutual
/-- A JSON value decoded into `interface{}` and encoded again: numbers go through `float64`, members are sorted, of repeated
keys the last counts. -/
def reJson (env : JsonEnv) : Json → Option Json
  | .null => some .null
  | .bool b => some (.bool b)
  | .num lit => (env.refloat lit).map .num
  | .str s => some (.str s)
  | .arr xs => (reList env xs).map .arr
  | .obj kvs => (reObj env kvs []).map .obj
/-- The elements of an array. -/
def reList (env : JsonEnv) : List Json → Option (List Json)
  | [] => some []
  | x :: xs =>
    match reJson env x with
    | none => none
    | some y => (reList env xs).map (y :: ·)
/-- The members of an object, added to `acc`. -/
def reObj (env : JsonEnv) : List (Bytes × Json) → List (Bytes × Json) → Option (List (Bytes × Json))
  | [], acc => some acc
  | (k, v) :: kvs, acc =>
    match reJson env v with
    | none => none
    | some w => reObj env kvs (mapSet k w acc)
end

/-- `json.Unmarshal` into `map[string]interface{}`, with each element encoded again (`json.Marshal(record)`): the entries in key order.
Go visits them in any order. -/
def decodeMap (env : JsonEnv) : Json → Option (List (Bytes × Json))
  | .obj kvs => reObj env kvs []
  | .null => some []
  | _ => none

/-- `json.Unmarshal` into `[]interface{}`, with each element encoded again. -/
def decodeList (env : JsonEnv) : Json → Option (List Json)
  | .arr xs => reList env xs
  | .null => some []
  | _ => none

/-! ### Data records -/

/-- The member of an optional segment (`omitempty` leaves out a nil interface). -/
def segMember (key : Bytes) : Option Seg → List (Bytes × Json)
  | none => []
  | some s => [(key, encodeStruct s.kind.struct s.fields)]

/-- The member of a list of segments (`omitempty` leaves out an empty list). -/
def segsMember (key : Bytes) (l : List Seg) : List (Bytes × Json) :=
  if l = [] then [] else [(key, .arr (l.map fun s => encodeStruct s.kind.struct s.fields))]

/-- `MarshalJSON` of the data records, /repo/pkg/lib/base_segment.go:720-746 and 1237-1263: the loop copies all exported fields. -/
def encodeBase (fs : Fields) (g : Segs) : Json :=
  .obj ([(b! "base", encodeStruct baseSegmentStruct fs)] ++ segsMember (b! "j1") g.j1 ++ segsMember (b! "j2") g.j2 ++
    segMember (b! "k1") g.k1 ++ segMember (b! "k2") g.k2 ++ segMember (b! "k3") g.k3 ++ segMember (b! "k4") g.k4 ++
    segMember (b! "l1") g.l1 ++ segMember (b! "n1") g.n1)

/-- The `switch` of `unmarshalApplicableSegments`, /repo/pkg/lib/base_segment.go:1547-1566. -/
def segKindOfName (name : Bytes) : Option SegKind :=
  if name = b! "j1" then some .j1
  else if name = b! "j2" then some .j2
  else if name = b! "k1" then some .k1
  else if name = b! "k2" then some .k2
  else if name = b! "k3" then some .k3
  else if name = b! "k4" then some .k4
  else if name = b! "l1" then some .l1
  else if name = b! "n1" then some .n1
  else none

/-- `unmarshalApplicableSegments`, /repo/pkg/lib/base_segment.go:1544-1573; `none` is an error. -/
def decodeSeg (env : JsonEnv) (name : Bytes) (g : Segs) (j : Json) : Option Segs :=
  match segKindOfName name with
  | none => some g
  | some k =>
    match decodeStruct env k.struct (Seg.new k).fields j with
    | none => none
    | some fs =>
      match g.add ⟨k, fs⟩ with
      | (_, some _) => none
      | (g', none) => some g'

/-- One entry of the loop of `UnmarshalJSON`, /repo/pkg/lib/base_segment.go:759-805 and 1276-1320. -/
def decodeBaseEntry (env : JsonEnv) (r : Fields × Segs) (kv : Bytes × Json) : Option (Fields × Segs) :=
  if kv.1 = b! "base" then
    (decodeStruct env baseSegmentStruct (zeroFields baseSegmentStruct) kv.2).map fun fs => (fs, r.2)
  else if kv.1 = b! "j1" ∨ kv.1 = b! "j2" then
    match decodeList env kv.2 with
    | none => none
    | some xs => (xs.foldlM (decodeSeg env kv.1) r.2).map fun g => (r.1, g)
  else (decodeSeg env kv.1 r.2 kv.2).map fun g => (r.1, g)

/-- `UnmarshalJSON` of the data records, /repo/pkg/lib/base_segment.go:749-808 and 1266-1323; `visit` is the order in which Go iterates
over the map. `none` is an error. -/
def decodeBase (env : JsonEnv) (visit : List (Bytes × Json) → List (Bytes × Json)) (fs : Fields) (g : Segs) (j : Json) :
    Option (Fields × Segs) :=
  match decodeMap env j with
  | none => none
  | some kvs => (visit kvs).foldlM (decodeBaseEntry env) (fs, { g with j1 := [], j2 := [] })

/-! ### Files -/

/-- `json.Marshal` of a record. -/
def Record.toJson : Record → Json
  | .header _ fs => encodeStruct headerRecordStruct fs
  | .base _ fs g => encodeBase fs g
  | .trailer _ fs => encodeStruct trailerRecordStruct fs

/-- `json.Marshal` of a file, /repo/pkg/file/file_instance.go:27-34. Simplification: an empty slice of data records that is not nil would be
written as `[]` instead of `null`; both are read as no records. -/
def File.toJson (f : File) : Json :=
  .obj [(b! "header", f.header.toJson),
    (b! "data", if f.bases = [] then .null else .arr (f.bases.map Record.toJson)),
    (b! "trailer", f.trailer.toJson)]

/-- `json.Unmarshal` into a record; `visit` as in `decodeBase`. -/
def Record.ofJson (env : JsonEnv) (visit : List (Bytes × Json) → List (Bytes × Json)) (r : Record) (j : Json) : Option Record :=
  match r with
  | .header e fs => (decodeStruct env headerRecordStruct fs j).map (.header e)
  | .trailer e fs => (decodeStruct env trailerRecordStruct fs j).map (.trailer e)
  | .base e fs g => (decodeBase env visit fs g j).map fun p => .base e p.1 p.2

/-- The loop over the data records, /repo/pkg/file/file_instance.go:376-398; `visits n` is the map order of the `n`-th record. -/
def decodeBases (env : JsonEnv) (visits : Nat → List (Bytes × Json) → List (Bytes × Json)) (enc : Enc) :
    Nat → List Json → List Record → Option (List Record)
  | _, [], acc => some acc
  | n, x :: xs, acc =>
    match (newBase enc).ofJson env (visits n) x with
    | none => none
    | some b => decodeBases env visits enc (n + 1) xs (acc ++ [b])

/-- One entry of the loop of `UnmarshalJSON`, /repo/pkg/file/file_instance.go:350-400. -/
def decodeFileEntry (env : JsonEnv) (visits : Nat → List (Bytes × Json) → List (Bytes × Json)) (f : File) (kv : Bytes × Json) :
    Option File :=
  if kv.1 = b! "header" then
    (f.header.ofJson env (visits 0) kv.2).map fun h => { f with header := h }
  else if kv.1 = b! "trailer" then
    (f.trailer.ofJson env (visits 0) kv.2).map fun t => { f with trailer := t }
  else if kv.1 = b! "data" then
    match decodeList env kv.2 with
    | none => none
    | some xs => (decodeBases env visits f.format 1 xs f.bases).map fun bs => { f with bases := bs }
  else some f

/-- `UnmarshalJSON` of a file, /repo/pkg/file/file_instance.go:343-403; `visits 0` is the order in which Go iterates over the map of the
file, `visits n` that of the `n`-th data record. `none` is an error; the parts set before the error are in
Model/JsonState. -/
def File.ofJson (env : JsonEnv) (visits : Nat → List (Bytes × Json) → List (Bytes × Json)) (f : File) (j : Json) : Option File :=
  match decodeMap env j with
  | none => none
  | some kvs => (visits 0 kvs).foldlM (decodeFileEntry env visits) f

/-! ### Format detection -/

/-- `headerInformation`, /repo/pkg/file/file.go:40-44. -/
def headerInfoStruct : List (F × FieldDecl) := [
  (.BlockDescriptorWord, ⟨.int, b! "blockDescriptorWord", false⟩),
  (.RecordDescriptorWord, ⟨.int, b! "recordDescriptorWord", false⟩),
  (.RecordIdentifier, ⟨.str, b! "recordIdentifier", false⟩)]

/-- One member decoded into `dummyFile`, /repo/pkg/file/file.go:46-48: `null` clears the pointer, an object is decoded into what the pointer
holds already or into a new struct. -/
def decodeDummyMember (env : JsonEnv) (h : Option Fields) (kv : Bytes × Json) : Option (Option Fields) :=
  if kv.1 = b! "header" ∨ foldKey kv.1 = foldKey (b! "header") then
    match kv.2 with
    | .null => some none
    | j =>
      let start := match h with
        | some fs => fs
        | none => zeroFields headerInfoStruct
      (decodeStruct env headerInfoStruct start j).map some
  else some h

/-- `json.Decode` into `dummyFile`; `none` is an error. -/
def decodeDummy (env : JsonEnv) : Json → Option (Option Fields)
  | .obj kvs => kvs.foldlM (decodeDummyMember env) none
  | .null => some none
  | _ => none

/-- The format, /repo/pkg/file/file.go:116-123. -/
def detectFormat : Option Fields → Enc
  | none => .character
  | some fs =>
    if fs.int .RecordDescriptorWord = 426 then .character
    else if fs.int .BlockDescriptorWord > 0 then .packed
    else .character

/-- The JSON branch of `NewFileFromReader`, /repo/pkg/file/file.go:105-134. `first` gives the first JSON value of a text (`json.Decoder`), `none`
if there is none; the rest of the text is ignored. -/
def readJson (env : JsonEnv) (visits : Nat → List (Bytes × Json) → List (Bytes × Json)) (first : Bytes → Option Json) (data : Bytes) :
    Except Err File :=
  match first data with
  | none => .error .json
  | some j =>
    match decodeDummy env j with
    | none => .error .json
    | some h =>
      match (newFile (detectFormat h)).ofJson env visits j with
      | none => .error .json
      | some f => .ok f

end Metro2
