import Verif.Model.File

/-!
The texts of the errors: /repo/pkg/utils/errors.go and the names passed to its functions.
-/

namespace Metro2

/-! ### toSnakeCase -/

/-- `[A-Z]`. -/
def upperLetter (c : UInt8) : Bool := 65 ≤ c && c ≤ 90

/-- `[a-z]`. -/
def lowerLetter (c : UInt8) : Bool := 97 ≤ c && c ≤ 122

/-- Does `[A-Z][a-z]+` match at the start of `s`? -/
def capAt : Bytes → Bool
  | u :: l :: _ => upperLetter u && lowerLetter l
  | _ => false

/-- Where the search of `matchFirstCap` is: between two matches, before the `[A-Z]` of a match, in its `[a-z]+`. -/
inductive CapState where
  | scan | cap | run
deriving DecidableEq

/-- `matchFirstCap.ReplaceAllString(s, "${1}_${2}")` with `(.)([A-Z][a-z]+)`, /repo/pkg/utils/errors.go:14, 18: matches are searched from the
left, do not overlap, and `[a-z]+` takes all it can. Simplification: `.` is taken as one byte other than a newline; for a longer
character only its last byte matters, and nothing is inserted within it. -/
def firstCap : CapState → Bytes → Bytes
  | _, [] => []
  | .cap, c :: s => c :: firstCap .run s
  | .run, c :: s =>
    if lowerLetter c then c :: firstCap .run s
    else if c != 10 && capAt s then c :: 95 :: firstCap .cap s
    else c :: firstCap .scan s
  | .scan, c :: s =>
    if c != 10 && capAt s then c :: 95 :: firstCap .cap s
    else c :: firstCap .scan s

/-- Does the text start with `[A-Z]`? -/
def upperAt : Bytes → Bool
  | u :: _ => upperLetter u
  | [] => false

/-- `matchAllCap.ReplaceAllString(s, "${1}_${2}")` with `([a-z0-9])([A-Z])`, /repo/pkg/utils/errors.go:15, 19. The second letter of a match cannot begin
another, so it is no matter that matches do not overlap. -/
def allCap : Bytes → Bytes
  | [] => []
  | c :: s =>
    if (lowerLetter c || isDigit c) && upperAt s then c :: 95 :: allCap s
    else c :: allCap s

/-- `strings.ToLower`. Simplification: letters beyond ASCII are left alone; no name in the code has any. -/
def toLowerAscii (s : Bytes) : Bytes := s.map fun c => if upperLetter c then c + 32 else c

/-- `toSnakeCase`, /repo/pkg/utils/errors.go:17-21. -/
def toSnakeCase (s : Bytes) : Bytes := toLowerAscii (allCap (firstCap .scan s))

/-! ### The texts -/

/-- `NewErrApplicableSegment`, /repo/pkg/utils/errors.go:31-33. -/
def errApplicableSegment (recordName segName : Bytes) : Bytes :=
  recordName ++ b! " has not applicable segment (" ++ segName ++ b! ")"

/-- `NewErrFailedParsing`, /repo/pkg/utils/errors.go:41-43. -/
def errFailedParsing : Bytes := b! "is failed parsing raw data"

/-- `NewErrBlockDescriptorWord`, /repo/pkg/utils/errors.go:46-48. -/
def errBlockDescriptorWord : Bytes := b! "should be block descriptor word"

/-- `NewErrInvalidValueOfField`, /repo/pkg/utils/errors.go:56-58. -/
def errInvalidValueOfField (fieldName recordName : Bytes) : Bytes :=
  toSnakeCase fieldName ++ b! " in " ++ recordName ++ b! " has an invalid value"

/-- `NewErrNonAlphanumeric`, /repo/pkg/utils/errors.go:61-63. -/
def errNonAlphanumeric (fieldName recordName : Bytes) : Bytes :=
  toSnakeCase fieldName ++ b! " in " ++ recordName ++ b! " has not alphanumeric characters"

/-- `NewErrUpperAlpha`, /repo/pkg/utils/errors.go:66-68. -/
def errUpperAlpha (fieldName recordName : Bytes) : Bytes :=
  toSnakeCase fieldName ++ b! " in " ++ recordName ++ b! " has not uppercase A-Z or 0-9"

/-- `NewErrNumeric`, /repo/pkg/utils/errors.go:71-73. -/
def errNumeric (fieldName recordName : Bytes) : Bytes :=
  toSnakeCase fieldName ++ b! " in " ++ recordName ++ b! " has not numeric characters"

/-- `NewErrFieldRequired`, /repo/pkg/utils/errors.go:81-83. -/
def errFieldRequired (fieldName recordName : Bytes) : Bytes :=
  toSnakeCase fieldName ++ b! " in " ++ recordName ++ b! " is a required field"

/-- `NewErrPhoneNumber`, /repo/pkg/utils/errors.go:86-88. -/
def errPhoneNumber (recordName : Bytes) : Bytes :=
  b! "telephone number in " ++ recordName ++ b! " has an invalid phone number"

/-- `NewErrSegmentLength`, /repo/pkg/utils/errors.go:91-93. -/
def errSegmentLength (recordName : Bytes) : Bytes := recordName ++ b! " has an invalid length"

/-! ### Names -/

/-- The fourteen types that have a layout table. -/
inductive Sort14 where
  | header (enc : Enc)
  | base (enc : Enc)
  | trailer (enc : Enc)
  | seg (k : SegKind)
deriving DecidableEq, Repr

/-- Type of a record. -/
def Record.sort : Record → Sort14
  | .header e _ => .header e
  | .base e _ _ => .base e
  | .trailer e _ => .trailer e

/-- The literal `recordName` passed by `Parse` and `Validate` of each type to the common functions: /repo/pkg/lib/header_record.go:114-118, 160, 191-216, 283;
base_segment.go:539-556, 631, 999-1024, 1132; trailer_record.go:177-181, 216, 250-270, 322; j1_segment.go:117-121, 150; j2_segment.go:173-177, 206;
kn_segment.go:72-76, 105, 153-157, 186, 246-250, 279, 340-344, 373; l1_segment.go:50-54, 83; n1_segment.go:53-57, 86. -/
def Sort14.text : Sort14 → Bytes
  | .header .character => b! "header record"
  | .header .packed => b! "packed header record"
  | .base .character => b! "base segment"
  | .base .packed => b! "packed base segment"
  | .trailer .character => b! "trailer record"
  | .trailer .packed => b! "packed trailer record"
  | .seg .j1 => b! "j1 segment"
  | .seg .j2 => b! "j2 segment"
  | .seg .k1 => b! "k1 segment"
  | .seg .k2 => b! "k2 segment"
  | .seg .k3 => b! "k3 segment"
  | .seg .k4 => b! "k4 segment"
  | .seg .l1 => b! "l1 segment"
  | .seg .n1 => b! "n1 segment"

/-- The two literals in the custom validator of a field, the name of the field and the name of the record: /repo/pkg/lib/base_segment.go:814-989 and 1328-1503,
j1_segment.go:165-187, j2_segment.go:221-271, kn_segment.go:123, 200, 207, 293, 300, 387, l1_segment.go:97-114. `none` if there is no such validator
or it reports `NewErrPhoneNumber`. -/
def customNames (n : Sort14) (f : F) : Option (Bytes × Bytes) :=
  match n, f with
  | .base .character, .CorrectionIndicator => some (b! "correction indicator", b! "base segment")
  | .base .character, .IdentificationNumber => some (b! "identification number", b! "base segment")
  | .base .character, .PortfolioType => some (b! "portfolio type", b! "base segment")
  | .base .character, .TermsDuration => some (b! "terms duration", b! "base segment")
  | .base .character, .TermsFrequency => some (b! "terms frequency", b! "base segment")
  | .base .character, .PaymentRating => some (b! "payment rating", b! "base segment")
  | .base .character, .PaymentHistoryProfile => some (b! "payment history profile", b! "base segment")
  | .base .character, .InterestTypeIndicator => some (b! "interest type indicator", b! "base segment")
  | .base .character, .SocialSecurityNumber => some (b! "social security number", b! "base segment")
  | .base .character, .DateBirth => some (b! "date birth", b! "base segment")
  | .base .character, .AccountStatus => some (b! "account status", b! "base segment")
  | .base .character, .AccountType => some (b! "account type", b! "base segment")
  | .base .character, .SpecialComment => some (b! "special comment", b! "base segment")
  | .base .packed, .CorrectionIndicator => some (b! "correction indicator", b! "packed base segment")
  | .base .packed, .IdentificationNumber => some (b! "identification number", b! "packed base segment")
  | .base .packed, .PortfolioType => some (b! "portfolio type", b! "packed base segment")
  | .base .packed, .TermsDuration => some (b! "terms duration", b! "packed base segment")
  | .base .packed, .TermsFrequency => some (b! "terms frequency", b! "packed base segment")
  | .base .packed, .PaymentRating => some (b! "payment rating", b! "packed base segment")
  | .base .packed, .PaymentHistoryProfile => some (b! "payment history profile", b! "packed base segment")
  | .base .packed, .InterestTypeIndicator => some (b! "interest type indicator", b! "packed base segment")
  | .base .packed, .SocialSecurityNumber => some (b! "social security number", b! "base segment")
  | .base .packed, .DateBirth => some (b! "date birth", b! "base segment")
  | .base .packed, .AccountStatus => some (b! "account status", b! "packed base segment")
  | .base .packed, .AccountType => some (b! "account type", b! "packed base segment")
  | .base .packed, .SpecialComment => some (b! "special comment", b! "packed base segment")
  | .seg .j1, .GenerationCode => some (b! "generation code", b! "j1 segment")
  | .seg .j1, .SocialSecurityNumber => some (b! "social security number", b! "base segment")
  | .seg .j1, .DateBirth => some (b! "date birth", b! "base segment")
  | .seg .j2, .GenerationCode => some (b! "generation code", b! "j2 segment")
  | .seg .j2, .AddressIndicator => some (b! "address indicator", b! "j2 segment")
  | .seg .j2, .ResidenceCode => some (b! "residence code", b! "j2 segment")
  | .seg .j2, .SocialSecurityNumber => some (b! "social security number", b! "base segment")
  | .seg .j2, .DateBirth => some (b! "date birth", b! "base segment")
  | .seg .k1, .CreditorClassification => some (b! "creditor classification", b! "k1 segment")
  | .seg .k2, .PurchasedIndicator => some (b! "purchased indicator", b! "k2 segment")
  | .seg .k2, .PurchasedName => some (b! "purchased name", b! "k2 segment")
  | .seg .k3, .AgencyIdentifier => some (b! "agency identifier", b! "k3 segment")
  | .seg .k3, .AccountNumber => some (b! "account number", b! "k3 segment")
  | .seg .k4, .SpecializedPaymentIndicator => some (b! "specialized payment indicator", b! "k4 segment")
  | .seg .l1, .ChangeIndicator => some (b! "change indicator", b! "l1 segment")
  | .seg .l1, .NewConsumerAccountNumber => some (b! "new consumer account number", b! "l1 segment")
  | .seg .l1, .NewIdentificationNumber => some (b! "new identification number", b! "l1 segment")
  | _, _ => none

/-! ### Validate -/

/-- The text of an error that `Validate` of a record or segment of type `n` returns: a missing value is reported by `validateRecord` and its copies
(/repo/pkg/lib/validators.go:94, base_segment.go:1132, header_record.go:283, trailer_record.go:322), the rest by the custom validators (the literal passed to `isPhoneNumber`,
base_segment.go:911, 1425, j1_segment.go:170, j2_segment.go:226, is the type's own). `none` for errors that `Validate` does not return. -/
def Sort14.validateText (n : Sort14) : Err → Option Bytes
  | .required f => some (errFieldRequired f.name n.text)
  | .invalidValue f => (customNames n f).map fun p => errInvalidValueOfField p.1 p.2
  | .phone => some (errPhoneNumber n.text)
  | _ => none

/-- The error text of the first data record that is refused, if there is one. -/
def firstInvalidText : List Record → Option Bytes
  | [] => none
  | r :: rs => match r.validate with
    | some err => r.sort.validateText err
    | none => firstInvalidText rs

/-- The text of the error that `Validate` of a file returns, /repo/pkg/file/file_instance.go:138-199; `none` if it returns nil (or does not return). -/
def File.validateText (f : File) : Option Bytes :=
  match f.header.validate with
  | some err => f.header.sort.validateText err
  | none =>
    match f.trailer.validate with
    | some err => f.trailer.sort.validateText err
    | none =>
      match firstInvalid f.bases with
      | some _ => firstInvalidText f.bases
      | none =>
        match Metro2.generatorTrailer f.format f.bases with
        | .error _ => none
        | .ok info =>
          match compareTotals f.trailer.fields info with
          | some (.invalidValue g) => some (errInvalidValueOfField g.name (b! "trailer record"))
          | _ => none

/-! ### Parse -/

/-- The text of an error of the field loop of `Parse` for the literal `recordName`: /repo/pkg/lib/validators.go:18-79, converters.go:119-164 and its copies. `none` for the errors
of the standard library, whose texts are not modelled. -/
def Sort14.parseText (n : Sort14) : Err → Option Bytes
  | .required f => some (errFieldRequired f.name n.text)
  | .numeric f => some (errNumeric f.name n.text)
  | .nonAlphanumeric f => some (errNonAlphanumeric f.name n.text)
  | .upperAlpha f => some (errUpperAlpha f.name n.text)
  | .invalidValue f => some (errInvalidValueOfField f.name n.text)
  | .segmentLength => some (errSegmentLength n.text)
  | .blockDescriptorWord => some errBlockDescriptorWord
  | .failedParsing => some errFailedParsing
  | _ => none

/-- The error text of `readApplicableSegments`, /repo/pkg/lib/base_segment.go:1505-1542: of `Parse` or of `Validate` of the segment at which it stops. -/
def readSegsText (isVar : Bool) : Nat → Segs → Bytes → Option Bytes
  | 0, _, _ => none
  | fuel + 1, g, rec =>
    if 2 < rec.length then
      match slice rec 0 2 with
      | none => none
      | some id =>
      match segKindOfIdent id with
      | none => none
      | some k =>
        match (Seg.new k).parse rec isVar with
        | (_, .error err) => (Sort14.seg k).parseText err
        | (s, .ok read) =>
          match g.add s with
          | (_, some err) => (Sort14.seg k).validateText err
          | (g', none) => readSegsText isVar fuel g' (rec.drop read)
    else none

/-- The fields of a data record as far as `Parse` comes with them, and where the segments begin: /repo/pkg/lib/base_segment.go:537-560 and 997-1050. -/
def baseHead (enc : Enc) (fs : Fields) (rec : Bytes) (isVar : Bool) : Fields × Option Err × Nat :=
  match enc with
  | .character =>
    let p := parseLoop baseSegmentCharacterFormat (if isVar then .accept else .skip) true rec 0 fs
    (p.1, p.2, if p.1.int .BlockDescriptorWord > 0 then 426 + 4 else 426)
  | .packed =>
    let p := parseLoop baseSegmentPackedFormat (if isVar then .accept else .fail) true rec 0 fs
    (p.1, p.2, 366 + 4)

/-- The text of the error that `Parse` of a data record returns, given that it returns `err`: /repo/pkg/lib/base_segment.go:537-574, 997-1064. An error of the fields and one of the
lengths has the record's own name; between them the segments are read. -/
def baseParseText (enc : Enc) (fs : Fields) (g : Segs) (rec : Bytes) (isVar : Bool) (err : Err) : Option Bytes :=
  if rec.length < enc.recordLength then (Sort14.base enc).parseText err
  else
    match baseHead enc fs rec isVar with
    | (_, some e, _) => (Sort14.base enc).parseText e
    | (_, none, off) =>
      if rec.length < off then (Sort14.base enc).parseText err
      else
        match sliceFrom rec off with
        | none => none
        | some tail =>
          match readApplicableSegments { g with j1 := [], j2 := [] } tail isVar with
          | (_, .error _) => readSegsText isVar (tail.length + 1) { g with j1 := [], j2 := [] } tail
          | (_, .ok _) => (Sort14.base enc).parseText err

/-- The text of the error that `Parse` of a record returns; `none` if it returns none, or one of the standard library. -/
def Record.parseText (r : Record) (rec : Bytes) (isVar : Bool) : Option Bytes :=
  match r.parse rec isVar with
  | (_, .ok _) => none
  | (_, .error err) =>
    match r with
    | .base enc fs g => baseParseText enc fs g rec isVar err
    | r => r.sort.parseText err

/-- The text of the error that `Parse` of a segment returns. -/
def Seg.parseText (s : Seg) (rec : Bytes) (isVar : Bool) : Option Bytes :=
  match s.parse rec isVar with
  | (_, .ok _) => none
  | (_, .error err) => (Sort14.seg s.kind).parseText err

/-! ### AddApplicableSegment -/

/-- The text of the error of `AddApplicableSegment`: headers and trailers refuse every segment (/repo/pkg/lib/header_record.go:180, 309, trailer_record.go:236, 348), data records report what
`Validate` of the segment reports. -/
def Record.addSegmentText (r : Record) (s : Seg) : Option Bytes :=
  match r with
  | .header .character _ => some (errApplicableSegment (b! "header record") s.kind.name)
  | .header .packed _ => some (errApplicableSegment (b! "packed header record") s.kind.name)
  | .trailer .character _ => some (errApplicableSegment (b! "trailer record") s.kind.name)
  | .trailer .packed _ => some (errApplicableSegment (b! "packed header record") s.kind.name)
  | .base _ _ g =>
    match g.add s with
    | (_, some err) => (Sort14.seg s.kind).validateText err
    | (_, none) => none

end Metro2
