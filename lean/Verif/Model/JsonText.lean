import Verif.Model.Server

/-!
The text layer of `encoding/json` (Go 1.25): reading the first JSON value of a stream (`json.Decoder`, with the scanner and the unquoting of
strings) and writing JSON trees (`Marshal`, `Encoder.Encode`, `Indent`). This describes the standard library, not code in /repo; it is used where
/repo calls `json.NewDecoder(...).Decode` (/repo/pkg/file/file.go:109 and 130), `json.NewEncoder(...).Encode` (/repo/pkg/server/server.go:44, 52 and
76), `json.MarshalIndent` (/repo/pkg/server/server.go:62) and `json.Indent` (/repo/cmd/metro2/main.go:154 and 231).

Simplification: the byte-by-byte state machine of the scanner is written as recursive descent, and strings are unquoted while they are scanned.
-/

namespace Metro2

/-! ### Reading -/

/-- `isSpace` of `encoding/json`. -/
def jsonSpace (c : UInt8) : Bool := c == 32 || c == 9 || c == 13 || c == 10

/-- `scanSkipSpace`. -/
def skipSpace (s : Bytes) : Bytes := s.dropWhile jsonSpace

/-- The value of a hexadecimal digit. -/
def hexVal (c : UInt8) : Option Nat :=
  if 48 ≤ c ∧ c ≤ 57 then some (c.toNat - 48)
  else if 97 ≤ c ∧ c ≤ 102 then some (c.toNat - 87)
  else if 65 ≤ c ∧ c ≤ 70 then some (c.toNat - 55)
  else none

/-- Four hexadecimal digits, and what follows them. -/
def hexFour : Bytes → Option (Nat × Bytes)
  | a :: b :: c :: d :: rest =>
    match hexVal a, hexVal b, hexVal c, hexVal d with
    | some w, some x, some y, some z => some (w * 4096 + x * 256 + y * 16 + z, rest)
    | _, _, _, _ => none
  | _ => none

/-- `utf8.RuneError` in UTF-8. -/
def runeError : Bytes := [0xEF, 0xBF, 0xBD]

/-- `utf8.AppendRune` for a code point that is not a surrogate and at most U+10FFFF. -/
def appendRune (v : Nat) : Bytes :=
  if v < 0x80 then [UInt8.ofNat v]
  else if v < 0x800 then [UInt8.ofNat (0xC0 + v / 64), UInt8.ofNat (0x80 + v % 64)]
  else if v < 0x10000 then [UInt8.ofNat (0xE0 + v / 4096), UInt8.ofNat (0x80 + v / 64 % 64), UInt8.ofNat (0x80 + v % 64)]
  else [UInt8.ofNat (0xF0 + v / 262144), UInt8.ofNat (0x80 + v / 4096 % 64), UInt8.ofNat (0x80 + v / 64 % 64),
    UInt8.ofNat (0x80 + v % 64)]

/-- `getu4`: an escaped UTF-16 unit at the beginning of the text, and what follows it. -/
def escapedUnit : Bytes → Option (Nat × Bytes)
  | 92 :: 117 :: rest => hexFour rest
  | _ => none

/-- The characters named by the UTF-16 unit `u`, which is followed by `rest`, in `unquoteBytes`: a surrogate needs the other half of
the pair, otherwise it is replaced by U+FFFD. -/
def unitChar (u : Nat) (rest : Bytes) : Bytes × Bytes :=
  if 0xD800 ≤ u ∧ u < 0xE000 then
    match escapedUnit rest with
    | some (v, rest') =>
      if u < 0xDC00 ∧ 0xDC00 ≤ v ∧ v < 0xE000 then (appendRune ((u - 0xD800) * 1024 + (v - 0xDC00) + 0x10000), rest')
      else (runeError, rest)
    | none => (runeError, rest)
  else (appendRune u, rest)

/-- The escapes of one character. -/
def shortEscape (c : UInt8) : Option UInt8 :=
  if c = 34 then some 34
  else if c = 92 then some 92
  else if c = 47 then some 47
  else if c = 98 then some 8
  else if c = 102 then some 12
  else if c = 110 then some 10
  else if c = 114 then some 13
  else if c = 116 then some 9
  else none

/-- What follows a backslash in a string: the characters it stands for, and what follows. -/
def readEscape : Bytes → Option (Bytes × Bytes)
  | [] => none
  | e :: s =>
    if e = 117 then
      match hexFour s with
      | none => none
      | some (u, s) => some (unitChar u s)
    else
      match shortEscape e with
      | none => none
      | some b => some ([b], s)

/-- Puts `v` before the characters that have been read. -/
def prepend (v : Bytes) : Option (Bytes × Bytes) → Option (Bytes × Bytes)
  | none => none
  | some (t, r) => some (v ++ t, r)

/-- The characters of a string after the opening quote, with fuel, and what follows the closing quote: `stateInString` and `unquoteBytes`. Bytes that
are not part of a well-formed UTF-8 sequence are replaced by U+FFFD. -/
def readChars : Nat → Bytes → Option (Bytes × Bytes)
  | 0, _ => none
  | _ + 1, [] => none
  | fuel + 1, c :: s =>
    if c = 34 then some ([], s)
    else if c = 92 then
      match readEscape s with
      | none => none
      | some (v, s) => prepend v (readChars fuel s)
    else if c < 32 then none
    else if c < 128 then prepend [c] (readChars fuel s)
    else if runeWidth (c :: s) = 1 then prepend runeError (readChars fuel s)
    else prepend ((c :: s).take (runeWidth (c :: s))) (readChars fuel ((c :: s).drop (runeWidth (c :: s))))

/-- Digits: `none` if there is none. -/
def readDigits (s : Bytes) : Option (Bytes × Bytes) :=
  if s.takeWhile isDigit = [] then none else some (s.takeWhile isDigit, s.dropWhile isDigit)

/-- The integer part of a number: a zero, or digits that do not begin with a zero. -/
def readWhole : Bytes → Option (Bytes × Bytes)
  | [] => none
  | c :: s => if c = 48 then some ([48], s) else readDigits (c :: s)

/-- The fraction of a number, if there is one. -/
def readFraction : Bytes → Option (Bytes × Bytes)
  | [] => some ([], [])
  | c :: s =>
    if c = 46 then
      match readDigits s with
      | none => none
      | some (d, r) => some (46 :: d, r)
    else some ([], c :: s)

/-- The sign of an exponent, if there is one. -/
def readSign : Bytes → Bytes × Bytes
  | [] => ([], [])
  | c :: s => if c = 43 ∨ c = 45 then ([c], s) else ([], c :: s)

/-- The exponent of a number, if there is one. -/
def readExponent : Bytes → Option (Bytes × Bytes)
  | [] => some ([], [])
  | c :: s =>
    if c = 101 ∨ c = 69 then
      match readDigits (readSign s).2 with
      | none => none
      | some (d, r) => some (c :: ((readSign s).1 ++ d), r)
    else some ([], c :: s)

/-- A number without its sign. -/
def readUnsigned (s : Bytes) : Option (Bytes × Bytes) :=
  match readWhole s with
  | none => none
  | some (a, s) =>
    match readFraction s with
    | none => none
    | some (b, s) =>
      match readExponent s with
      | none => none
      | some (c, s) => some (a ++ b ++ c, s)

/-- A number; it ends where no further byte can belong to it. -/
def readNumber : Bytes → Option (Bytes × Bytes)
  | [] => none
  | c :: s =>
    if c = 45 then
      match readUnsigned s with
      | none => none
      | some (l, r) => some (45 :: l, r)
    else readUnsigned (c :: s)

/-- A fixed word. -/
def readWord (w : Bytes) (j : Json) (s : Bytes) : Option (Json × Bytes) :=
  if s.take w.length = w then some (j, s.drop w.length) else none

/-- `maxNestingDepth`. -/
def maxNestingDepth : Nat := 10000

mutual
/-- A JSON value inside `d` open arrays and objects, with fuel, and what follows it. -/
def readValue : Nat → Nat → Bytes → Option (Json × Bytes)
  | 0, _, _ => none
  | fuel + 1, d, s =>
    match skipSpace s with
    | [] => none
    | c :: r =>
      if c = 123 then
        if maxNestingDepth ≤ d then none
        else
          match skipSpace r with
          | [] => none
          | e :: r' =>
            if e = 125 then some (.obj [], r')
            else
              match readMembers fuel (d + 1) r with
              | none => none
              | some (kvs, r) => some (.obj kvs, r)
      else if c = 91 then
        if maxNestingDepth ≤ d then none
        else
          match skipSpace r with
          | [] => none
          | e :: r' =>
            if e = 93 then some (.arr [], r')
            else
              match readItems fuel (d + 1) r with
              | none => none
              | some (xs, r) => some (.arr xs, r)
      else if c = 34 then
        match readChars (r.length + 1) r with
        | none => none
        | some (t, r) => some (.str t, r)
      else if c = 116 then readWord (b! "true") (.bool true) (c :: r)
      else if c = 102 then readWord (b! "false") (.bool false) (c :: r)
      else if c = 110 then readWord (b! "null") .null (c :: r)
      else
        match readNumber (c :: r) with
        | none => none
        | some (l, r) => some (.num l, r)
/-- The elements of an array that is not empty, up to the closing bracket. -/
def readItems : Nat → Nat → Bytes → Option (List Json × Bytes)
  | 0, _, _ => none
  | fuel + 1, d, s =>
    match readValue fuel d s with
    | none => none
    | some (x, r) =>
      match skipSpace r with
      | [] => none
      | c :: r =>
        if c = 44 then
          match readItems fuel d r with
          | none => none
          | some (xs, r) => some (x :: xs, r)
        else if c = 93 then some ([x], r)
        else none
/-- The members of an object that is not empty, up to the closing brace. -/
def readMembers : Nat → Nat → Bytes → Option (List (Bytes × Json) × Bytes)
  | 0, _, _ => none
  | fuel + 1, d, s =>
    match skipSpace s with
    | [] => none
    | c :: r =>
      if c = 34 then
        match readChars (r.length + 1) r with
        | none => none
        | some (k, r) =>
          match skipSpace r with
          | [] => none
          | c :: r =>
            if c = 58 then
              match readValue fuel d r with
              | none => none
              | some (v, r) =>
                match skipSpace r with
                | [] => none
                | c :: r =>
                  if c = 44 then
                    match readMembers fuel d r with
                    | none => none
                    | some (kvs, r) => some ((k, v) :: kvs, r)
                  else if c = 125 then some ([(k, v)], r)
                  else none
            else none
      else none
end

/-- The first JSON value of a text, as `json.Decoder` finds it; what follows it is not looked at. -/
def firstJson (s : Bytes) : Option Json := (readValue (s.length + 1) 0 s).map (·.1)

/-! ### Writing -/

/-- A string with its quotes, as `encoding/json` writes it: HTML characters are escaped, invalid UTF-8 is replaced. -/
def quoteJson (s : Bytes) : Bytes :=
  34 :: (escapeJson (toValidUtf8 s.length s).length (toValidUtf8 s.length s) ++ [34])

mutual
/-- `json.Marshal` of a tree. -/
def jsonText : Json → Bytes
  | .null => b! "null"
  | .bool b => if b then b! "true" else b! "false"
  | .num l => l
  | .str s => quoteJson s
  | .arr xs => 91 :: (itemsText xs ++ [93])
  | .obj kvs => 123 :: (membersText kvs ++ [125])
/-- The elements of an array, with commas between them. -/
def itemsText : List Json → Bytes
  | [] => []
  | [x] => jsonText x
  | x :: y :: xs => jsonText x ++ 44 :: itemsText (y :: xs)
/-- The members of an object, with commas between them. -/
def membersText : List (Bytes × Json) → Bytes
  | [] => []
  | [(k, v)] => quoteJson k ++ 58 :: jsonText v
  | (k, v) :: kv :: kvs => quoteJson k ++ 58 :: jsonText v ++ 44 :: membersText (kv :: kvs)
end

/-- `json.Encoder.Encode`. -/
def encodeText (j : Json) : Bytes := jsonText j ++ [10]

/-- `appendNewline`: a new line indented `d` times. -/
def indentLine (ind : Bytes) (d : Nat) : Bytes := 10 :: (List.replicate d ind).flatten

mutual
/-- `json.MarshalIndent(_, "", ind)` and `json.Indent` of the compact text, at depth `d`. Empty arrays and objects stay on one line. -/
def indentText (ind : Bytes) : Nat → Json → Bytes
  | _, .null => b! "null"
  | _, .bool b => if b then b! "true" else b! "false"
  | _, .num l => l
  | _, .str s => quoteJson s
  | _, .arr [] => b! "[]"
  | d, .arr (x :: xs) => 91 :: (indentLine ind (d + 1) ++ indentItems ind (d + 1) (x :: xs) ++ indentLine ind d ++ [93])
  | _, .obj [] => b! "{}"
  | d, .obj (kv :: kvs) => 123 :: (indentLine ind (d + 1) ++ indentMembers ind (d + 1) (kv :: kvs) ++ indentLine ind d ++ [125])
/-- The elements of an array at depth `d`. -/
def indentItems (ind : Bytes) : Nat → List Json → Bytes
  | _, [] => []
  | d, [x] => indentText ind d x
  | d, x :: y :: xs => indentText ind d x ++ 44 :: (indentLine ind d ++ indentItems ind d (y :: xs))
/-- The members of an object at depth `d`. -/
def indentMembers (ind : Bytes) : Nat → List (Bytes × Json) → Bytes
  | _, [] => []
  | d, [(k, v)] => quoteJson k ++ 58 :: 32 :: indentText ind d v
  | d, (k, v) :: kv :: kvs => quoteJson k ++ 58 :: 32 :: indentText ind d v ++ 44 :: (indentLine ind d ++ indentMembers ind d (kv :: kvs))
end

/-! ### The environment of the service and the command -/

/-- The service, with the text layer of `encoding/json` filled in: `json.MarshalIndent(_, "", "\t")` in /repo/pkg/server/server.go:62. The texts of
errors and the delivery of the input remain parameters. -/
def serverEnv (env : JsonEnv) (visits : Nat → List (Bytes × Json) → List (Bytes × Json)) (errText : Err → Bytes) (plan : Plan) : ServerEnv :=
  ⟨encodeText, indentText [9] 0, errText, readJson env visits firstJson, plan⟩

/-- The command: `json.Indent(_, _, "", "  ")` in /repo/cmd/metro2/main.go:154 and 231. -/
def commandEnv (env : JsonEnv) (visits : Nat → List (Bytes × Json) → List (Bytes × Json)) (errText : Err → Bytes) (plan : Plan) : ServerEnv :=
  ⟨encodeText, indentText [32, 32] 0, errText, readJson env visits firstJson, plan⟩

end Metro2
