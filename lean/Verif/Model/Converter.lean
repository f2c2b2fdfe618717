import Verif.Model.Specs

/-!
/repo/pkg/lib/converters.go and the field-type checks of /repo/pkg/lib/validators.go.
-/

namespace Metro2

/-! ### validators.go -/

/-- A byte that `alphanumericRegex` (/repo/pkg/lib/constants.go:500) does NOT match: the complement of the
negated class ``[^ \w!"#$%&'()*+,-.\\/:;<>=?@\[\]^_{}|~]``. Note that `,-.` is a range. A byte
of 0x80 or more belongs to a rune outside the class (or to an invalid sequence, which RE2
treats as U+FFFD), so the regexp matches a string iff it has a byte for which this is false. -/
def alnumByte (c : UInt8) : Bool :=
  c == 32 || (48 ≤ c && c ≤ 57) || (65 ≤ c && c ≤ 90) || c == 95 || (97 ≤ c && c ≤ 122) ||
  (b! "!\"#$%&'()*+").contains c || (44 ≤ c && c ≤ 46) || (b! "\\/:;<>=?@[]^_{}|~").contains c

/-- The same for `upperAlphanumericRegex`, /repo/pkg/lib/constants.go:500. -/
def upperAlnumByte (c : UInt8) : Bool :=
  c == 32 || (48 ≤ c && c ≤ 57) || (65 ≤ c && c ≤ 90) ||
  (b! "!\"#$%&'()*+").contains c || (44 ≤ c && c ≤ 46) || (b! "\\/:;<>=?@[]^_{}|~").contains c

/-- A byte matched by `numericRegex = [0-9a-fA-F]`, /repo/pkg/lib/constants.go:503. -/
def hexByte (c : UInt8) : Bool :=
  (48 ≤ c && c ≤ 57) || (97 ≤ c && c ≤ 102) || (65 ≤ c && c ≤ 70)

/-- `isUpperAlphanumeric`, /repo/pkg/lib/validators.go:18-23. -/
def isUpperAlphanumeric (f : F) (s : Bytes) : Option Err :=
  if s.any (fun c => !upperAlnumByte c) then some (.upperAlpha f) else none

/-- `isAlphanumeric`, /repo/pkg/lib/validators.go:25-30. -/
def isAlphanumeric (f : F) (s : Bytes) : Option Err :=
  if s.any (fun c => !alnumByte c) then some (.nonAlphanumeric f) else none

/-- `isNumeric`, /repo/pkg/lib/validators.go:32-37: the pattern is not anchored, one matching byte
is enough. -/
def isNumeric (f : F) (s : Bytes) : Option Err :=
  if s.any hexByte then none else some (.numeric f)

/-- `validFilledString`, /repo/pkg/lib/validators.go:116-127. -/
def validFilledString (s : Bytes) : Bool :=
  allByte 48 s || allByte 57 s || allByte 32 s

/-- The required check at the start of `isValidType`, /repo/pkg/lib/validators.go:48-65. -/
def requiredCheck (e : Field) (f : F) (data : Bytes) : Option Err :=
  if e.req = .required then
    match e.typ with
    | .numeric => if atoiVal data = 0 then some (.required f) else none
    | .alphanumeric | .alpha | .descriptor =>
      if data.length = 0 then some (.required f) else none
    | .timestamp | .date =>
      if validFilledString data && data.length = e.len then some (.required f) else none
    | .packedTimestamp | .packedDate | .packedNumber => none
  else none

/-- `isValidType`, /repo/pkg/lib/validators.go:47-79. -/
def isValidType (e : Field) (f : F) (data : Bytes) : Option Err :=
  match requiredCheck e f data with
  | some err => some err
  | none =>
    match e.typ with
    | .numeric => isNumeric f data
    | .alphanumeric => isAlphanumeric f data
    | .alpha => isUpperAlphanumeric f data
    | .descriptor | .packedDate | .packedNumber | .packedTimestamp | .timestamp | .date => none

/-! ### Times and packed values -/

/-- `timeFromTimestampString` and `timeFromDateString`, /repo/pkg/lib/converters.go:167-181. -/
def timeFromString (layout : List Std) (s : Bytes) : Except Err Time :=
  if allByte 48 s then .ok Time.zero
  else match Time.parse layout s with
    | some t => .ok t
    | none => .error .timeFormat

/-- `safecast.Convert[int64](uint64)`: an error above 2^63-1. -/
def convertInt64 (v : Nat) : Except Err Int :=
  if v < 2 ^ 63 then .ok v else .error (.number .range)

/-- `timeFromPackedTimestampString` (size 8, 14 digits) and `timeFromPackedDateString` (size 5, 8 digits),
/repo/pkg/lib/converters.go:183-225. Indexing beyond the end is a panic. The
`size - 2` middle bytes are padded with zero bytes to 8 bytes before the conversion. -/
def timeFromPacked (size width : Nat) (layout : List Std) (bin : Bytes) : Except Err Time :=
  match bin[0]?, bin[size - 1]? with
  | some first, some last =>
    if first = 0x00 ∧ last = 0x73 then
      match convertInt64 (beVal ((bin.drop 1).take (size - 2))) with
      | .ok v => timeFromString layout (fmtIntZero width v)
      | .error e => .error e
    else timeFromString layout (fmtIntZero width 0)
  | _, _ => .error .panic

/-- `packedNumberFromString`, /repo/pkg/lib/converters.go:227-242. `Uint64` reads the first 8
bytes of the padded buffer. -/
def packedNumberFromString (data : Bytes) : Except Err Int :=
  convertInt64 (beVal ((List.replicate (8 - data.length) 0 ++ data).take 8))

/-- `packedTimeString`, /repo/pkg/lib/converters.go:244-273, on a `utils.Time`. A year that makes the
text unparsable gives value 0. -/
def packedTimeString (t : Time) (layout : List Std) (size : Nat) : Bytes :=
  let value : Int := match parseInt (t.format layout) with
    | .ok v => v
    | .error .syntax => 0
    | .error .range => 2 ^ 63 - 1
  if value > 0 then
    0x00 :: beBytes (size - 2) value.toNat ++ [0x73]
  else List.replicate size 0

/-- `packedNumberString`, /repo/pkg/lib/converters.go:275-294. -/
def packedNumberString (i : Int) (length : Nat) : Bytes :=
  if i > 0 then beBytes length i.toNat else List.replicate length 0

/-- `descriptorString`, /repo/pkg/lib/converters.go:296-303: a value outside 0..65535
is written as 0. -/
def descriptorString (i : Int) : Bytes :=
  let n : Nat := if 0 ≤ i ∧ i ≤ 65535 then i.toNat else 0
  beBytes 2 n ++ [0, 0]

/-! ### parseValue, toString -/

/-- `parseValue`, /repo/pkg/lib/converters.go:25-55. -/
def parseValue (e : Field) (data : Bytes) : Except Err Val :=
  match e.typ with
  | .numeric =>
    match parseInt data with
    | .ok v => .ok (.int v)
    | .error err => .error (.number err)
  | .timestamp => (timeFromString timestampFormat data).map .time
  | .date => (timeFromString dateFormat data).map .time
  | .alphanumeric => .ok (.str (trimRight data))
  | .alpha => .ok (.str (toUpper data))
  | .descriptor =>
    if data.length < 2 then .error .panic else .ok (.int (beVal (data.take 2)))
  | .packedTimestamp => (timeFromPacked 8 14 timestampFormat data).map .time
  | .packedDate => (timeFromPacked 5 8 dateFormat data).map .time
  | .packedNumber => (packedNumberFromString data).map .int

/-- `fillString`, /repo/pkg/lib/converters.go:57-62. -/
def fillString (e : Field) : Bytes :=
  if e.zeroFill then List.replicate e.len 48 else List.replicate e.len 32

/-- The type switch of `toString`, /repo/pkg/lib/converters.go:77-101. The rows in which the value has
the wrong Go type (those giving `[]`) would panic or print a `%!` text in Go; theorem `C10_kinds_match`
shows that no table and struct combine to them. -/
def valText (e : Field) (v : Val) : Bytes :=
  match e.typ with
  | .numeric => match v with
    | .int i => fmtZeroStr e.len (fmtInt i)
    | _ => []
  | .timestamp => match v with
    | .time t => if t.isZero then List.replicate e.len 48 else t.format timestampFormat
    | _ => []
  | .date => match v with
    | .time t => if t.isZero then List.replicate e.len 48 else t.format dateFormat
    | _ => []
  | .alphanumeric | .alpha => match v with
    | .str s => fmtLeftStr e.len s
    | _ => []
  | .descriptor => match v with
    | .int i => descriptorString i
    | _ => []
  | .packedTimestamp => match v with
    | .time t => packedTimeString t timestampFormat 8
    | _ => []
  | .packedDate => match v with
    | .time t => packedTimeString t dateFormat 5
    | _ => []
  | .packedNumber => match v with
    | .int i => packedNumberString i e.len
    | _ => []

/-- `toString`, /repo/pkg/lib/converters.go:64-102. `none` is the invalid reflect value of a table row
that is not a struct field. -/
def toStr (e : Field) (v : Option Val) : Bytes :=
  match v with
  | none => fillString e
  | some v => if e.omitted ∧ v = .int 0 then [] else valText e v

/-! ### toSpecifications -/

/-- The order used by `sort.Slice` in `toSpecifications`, /repo/pkg/lib/converters.go:109-114:
by start, ties by name. -/
def specLt (a b : F × Field) : Bool :=
  if a.2.start = b.2.start then decide (a.1.name < b.1.name) else decide (a.2.start < b.2.start)

/-- Insertion into a sorted list. -/
def specInsert (a : F × Field) : Format → Format
  | [] => [a]
  | b :: bs => if specLt b a then b :: specInsert a bs else a :: b :: bs

/-- `toSpecifications`, /repo/pkg/lib/converters.go:104-116: the rows of a table in field order. Simplification:
insertion sort of the rows in source order; property C11 shows that any iteration order of
the Go map and any sorting algorithm gives the same list. -/
def toSpecifications (fmt : Format) : Format := fmt.foldr specInsert []

/-- The loop shared by all `String` methods: the texts of all rows, in field order. -/
def fieldsString (fmt : Format) (fs : Fields) : Bytes :=
  ((toSpecifications fmt).map fun p => toStr p.2 (fs.get p.1)).flatten

/-! ### parseRecordValues -/

/-- What a parse loop does at a `BlockDescriptorWord`. -/
inductive BdwPolicy where
  | skip    -- `continue`: the word is not present
  | fail    -- return `ErrBlockDescriptorWord`
  | accept  -- store the word and shift all later fields by 4
deriving DecidableEq, Repr

/-- `reflect.Value.SetInt/SetString/Set`: panics when the Go type differs. -/
def setVal (old new : Val) : Option Val :=
  match old, new with
  | .int _, .int i => some (.int i)
  | .str _, .str s => some (.str s)
  | .time _, .time t => some (.time t)
  | _, _ => none

/-- The field loop of `parseRecordValues`, /repo/pkg/lib/converters.go:119-164, and of its copies in
base_segment.go:1003-1044, header_record.go:195-238 and trailer_record.go:255-283. The state is the
offset and the remaining struct fields; the result is the struct (fields after the failing one keep
their old values) and the error, if any. `bounds = false` is the packed trailer, which
does not compare with the record length. -/
def parseLoop (fmt : Format) (bdw : BdwPolicy) (bounds : Bool) (rec : Bytes) :
    Nat → Fields → Fields × Option Err
  | _, [] => ([], none)
  | off, (f, v) :: rest =>
    match fmt.lookup f with
    | none => ((f, v) :: rest, some (.invalidValue f))
    | some e =>
      if bounds = true ∧ rec.length < e.start + e.len + off then
        ((f, v) :: rest, some .segmentLength)
      else match slice rec (e.start + off) (e.start + e.len + off) with
      | none => ((f, v) :: rest, some .panic)
      | some data =>
        match isValidType e f data with
        | some err => ((f, v) :: rest, some err)
        | none =>
          match parseValue e data with
          | .error err => ((f, v) :: rest, some err)
          | .ok new =>
            match f, bdw with
            | .BlockDescriptorWord, .skip =>
              let r := parseLoop fmt bdw bounds rec off rest
              ((f, v) :: r.1, r.2)
            | .BlockDescriptorWord, .fail => ((f, v) :: rest, some .blockDescriptorWord)
            | .BlockDescriptorWord, .accept =>
              match setVal v new with
              | none => ((f, v) :: rest, some .panic)
              | some w =>
                let r := parseLoop fmt bdw bounds rec (off + 4) rest
                ((f, w) :: r.1, r.2)
            | _, _ =>
              match setVal v new with
              | none => ((f, v) :: rest, some .panic)
              | some w =>
                let r := parseLoop fmt bdw bounds rec off rest
                ((f, w) :: r.1, r.2)

end Metro2
