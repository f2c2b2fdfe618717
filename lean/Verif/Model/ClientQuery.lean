import Verif.Model.ClientCall

/-!
How the values of the address of a call travel: `prepareRequest` of the client, /repo/pkg/client/client.go:369-382, makes the query text, the service
takes it apart with `url.ParseQuery` (`r.URL.Query()` and `r.FormValue`, /repo/pkg/server/server.go:83-107).

`url.Values` are the pairs in the order in which they were added. Simplification: the address of the server has no query of its own. Not modelled: the
limit of newer versions of Go on the number of values of a query (10000).
-/

namespace Metro2

/-- A byte that `url.QueryEscape` leaves as it is: letters, digits and `-`, `_`, `.`, `~`. -/
def isUnreserved (c : UInt8) : Bool :=
  (97 ≤ c && c ≤ 122) || (65 ≤ c && c ≤ 90) || (48 ≤ c && c ≤ 57) || c == 45 || c == 95 || c == 46 || c == 126

/-- A digit of `upperhex` of `net/url`. -/
def upperHex (n : UInt8) : UInt8 := if n < 10 then 48 + n else 55 + n

/-- `url.QueryEscape` of one byte. -/
def urlByte (c : UInt8) : Bytes :=
  if isUnreserved c then [c] else if c = 32 then [43] else [37, upperHex (c / 16), upperHex (c % 16)]

/-- `url.QueryEscape`. -/
def queryEscape (s : Bytes) : Bytes := s.flatMap urlByte

/-- `unhex` of `net/url`, `none` if the byte is no hexadecimal digit. -/
def unhexByte (c : UInt8) : Option UInt8 :=
  if 48 ≤ c && c ≤ 57 then some (c - 48) else if 97 ≤ c && c ≤ 102 then some (c - 87) else if 65 ≤ c && c ≤ 70 then some (c - 55) else none

/-- `url.QueryUnescape`, `none` is an error. -/
def queryUnescape : Bytes → Option Bytes
  | [] => some []
  | 37 :: a :: b :: s =>
    match unhexByte a, unhexByte b with
    | some x, some y => (queryUnescape s).map ((x * 16 + y) :: ·)
    | _, _ => none
  | c :: s => if c = 37 then none else (queryUnescape s).map ((if c = 43 then 32 else c) :: ·)

/-- `strings.Split(s, sep)` for a separator of one byte. -/
def splitByte (sep : UInt8) : Bytes → List Bytes
  | [] => [[]]
  | c :: s =>
    if c = sep then [] :: splitByte sep s
    else match splitByte sep s with
      | [] => [[c]]
      | p :: ps => (c :: p) :: ps

/-- `sort.Strings` by insertion. -/
def insertKey (k : Bytes) : List Bytes → List Bytes
  | [] => [k]
  | x :: xs => if k ≤ x then k :: x :: xs else x :: insertKey k xs

/-- The keys of a map, each once, sorted. -/
def sortedKeys : List Bytes → List Bytes
  | [] => []
  | k :: ks => if k ∈ ks then sortedKeys ks else insertKey k (sortedKeys ks)

/-- The order in which `url.Values.Encode` goes through the values. -/
def encodeOrder (kvs : List (Bytes × Bytes)) : List (Bytes × Bytes) :=
  (sortedKeys (kvs.map Prod.fst)).flatMap fun k => kvs.filter fun kv => kv.1 == k

/-- `url.Values.Encode`. -/
def encodeValues (kvs : List (Bytes × Bytes)) : Bytes :=
  List.intercalate [38] ((encodeOrder kvs).map fun kv => queryEscape kv.1 ++ 61 :: queryEscape kv.2)

/-- `queryDescape.Replace`, /repo/pkg/client/client.go:40. -/
def queryDescape : Bytes → Bytes
  | 37 :: 53 :: 66 :: s => 91 :: queryDescape s
  | 37 :: 53 :: 68 :: s => 93 :: queryDescape s
  | c :: s => c :: queryDescape s
  | [] => []

/-- The function of /repo/pkg/client/client.go:378-382 on one part of the query. -/
def descapeKey (part : Bytes) : Bytes :=
  match splitByte 61 part with
  | [] => []
  | p :: ps => List.intercalate [61] (queryDescape p :: ps)

/-- `url.RawQuery = queryParamSplit.ReplaceAllStringFunc(query.Encode(), …)`, /repo/pkg/client/client.go:369-382: the regular expression `(^|&)([^&]+)` finds
the parts between the `&`. -/
def rawQuery (kvs : List (Bytes × Bytes)) : Bytes := List.intercalate [38] ((splitByte 38 (encodeValues kvs)).map descapeKey)

/-- One part of `url.ParseQuery`: it is left out if it is empty, has a `;`, or cannot be read. -/
def parsePart (part : Bytes) : Option (Bytes × Bytes) :=
  if (59 : UInt8) ∈ part ∨ part = [] then none
  else match queryUnescape (part.takeWhile (· != 61)), queryUnescape ((part.dropWhile (· != 61)).drop 1) with
    | some k, some v => some (k, v)
    | _, _ => none

/-- `url.ParseQuery`, whose error is not looked at by `URL.Query`. -/
def parseQuery (s : Bytes) : List (Bytes × Bytes) := (splitByte 38 s).filterMap parsePart

/-- The request as the handlers see it, with the query as a text on its way. -/
def PreparedRequest.receivedText (p : PreparedRequest) : Request :=
  ({ p with query := parseQuery (rawQuery p.query) } : PreparedRequest).received

end Metro2
