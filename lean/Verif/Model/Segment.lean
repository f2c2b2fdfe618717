import Verif.Model.Converter
import Verif.Model.Codes
import Verif.Model.Phone

/-!
Validation of struct values and the eight applicable segments:
/repo/pkg/lib/validators.go:82-114, segment.go, j1_segment.go, j2_segment.go, kn_segment.go, l1_segment.go,
n1_segment.go.
-/

namespace Metro2

/-- `reflect.Value.IsZero` of a field value. -/
def Val.isZero : Val → Bool
  | .int i => i = 0
  | .str s => s = []
  | .time t => t.reflectZero

/-- The test for a missing required value, /repo/pkg/lib/validators.go:89-96. -/
def missing (fmt : Format) (f : F) (v : Val) : Bool :=
  match fmt.lookup f with
  | some e => e.req = .required && v.isZero
  | none => false

/-- `validateRecord`, /repo/pkg/lib/validators.go:86-114, and its copies in base_segment.go:1124-1152,
header_record.go:275-290, trailer_record.go:314-329 (the latter two without custom validators).
`custom f` is the result of the method `Validate<f>`, `none` if there is no
such method or it returns nil. -/
def validateLoop (fmt : Format) (custom : F → Option Err) : Fields → Option Err
  | [] => none
  | (f, v) :: rest =>
    if missing fmt f v then some (.required f)
    else match custom f with
      | some err => some err
      | none => validateLoop fmt custom rest

/-- Result of a custom validator that returns nil iff `ok`. -/
def check (ok : Bool) (f : F) : Option Err := if ok then none else some (.invalidValue f)

/-- The eight segment types. -/
inductive SegKind where
  | j1 | j2 | k1 | k2 | k3 | k4 | l1 | n1
deriving DecidableEq, Repr

/-- All segment types, in the order in which `String` writes them (/repo/pkg/lib/base_segment.go:591-615). -/
def SegKind.all : List SegKind := [.j1, .j2, .k1, .k2, .k3, .k4, .l1, .n1]

/-- `Name()`, /repo/pkg/lib/segment.go:35-50. -/
def SegKind.name : SegKind → Bytes
  | .j1 => b! "j1" | .j2 => b! "j2" | .k1 => b! "k1" | .k2 => b! "k2"
  | .k3 => b! "k3" | .k4 => b! "k4" | .l1 => b! "l1" | .n1 => b! "n1"

/-- The segment identifiers, /repo/pkg/lib/segment.go:52-67. -/
def SegKind.ident : SegKind → Bytes
  | .j1 => b! "J1" | .j2 => b! "J2" | .k1 => b! "K1" | .k2 => b! "K2"
  | .k3 => b! "K3" | .k4 => b! "K4" | .l1 => b! "L1" | .n1 => b! "N1"

/-- `Length()`, /repo/pkg/lib/segment.go:18-33. -/
def SegKind.length : SegKind → Nat
  | .j1 => 100 | .j2 => 200 | .k1 => 34 | .k2 => 34
  | .k3 => 40 | .k4 => 30 | .l1 => 54 | .n1 => 146

/-- Layout table of a segment type. -/
def SegKind.format : SegKind → Format
  | .j1 => j1SegmentFormat | .j2 => j2SegmentFormat | .k1 => k1SegmentFormat
  | .k2 => k2SegmentFormat | .k3 => k3SegmentFormat | .k4 => k4SegmentFormat
  | .l1 => l1SegmentFormat | .n1 => n1SegmentFormat

/-- Struct declaration of a segment type. -/
def SegKind.struct : SegKind → List (F × FieldDecl)
  | .j1 => j1SegmentStruct | .j2 => j2SegmentStruct | .k1 => k1SegmentStruct
  | .k2 => k2SegmentStruct | .k3 => k3SegmentStruct | .k4 => k4SegmentStruct
  | .l1 => l1SegmentStruct | .n1 => n1SegmentStruct

/-- A segment value. -/
structure Seg where
  kind : SegKind
  fields : Fields
deriving DecidableEq, Repr

/-- `NewJ1Segment` ... `NewN1Segment`, /repo/pkg/lib/segment.go:70-124. -/
def Seg.new (k : SegKind) : Seg :=
  ⟨k, (zeroFields k.struct).set .SegmentIdentifier (.str k.ident)⟩

/-- `Parse` of a segment (/repo/pkg/lib/j1_segment.go:115-127, j2_segment.go:171-183, kn_segment.go:71-83,
152-164, 245-257, 339-351, l1_segment.go:49-61, n1_segment.go:52-64): the changed segment and the number
of bytes read or an error. -/
def Seg.parse (s : Seg) (rec : Bytes) (isVar : Bool) : Seg × Except Err Nat :=
  if rec.length < s.kind.length then (s, .error .segmentLength)
  else
    match parseLoop s.kind.format (if isVar then .accept else .skip) true rec 0 s.fields with
    | (fs, some err) => (⟨s.kind, fs⟩, .error err)
    | (fs, none) => (⟨s.kind, fs⟩, .ok s.kind.length)

/-- `String` of a segment (/repo/pkg/lib/j1_segment.go:130-141, j2_segment.go:186-197, kn_segment.go:85-96, 166-177, 264-275, 358-369,
l1_segment.go:63-74, n1_segment.go:66-77). -/
def Seg.string (s : Seg) : Bytes := fieldsString s.kind.format s.fields

/-- The custom validators `Validate<Field>` of the segments: /repo/pkg/lib/j1_segment.go:159-190,
j2_segment.go:215-275, kn_segment.go:114-124, 195-211, 288-304, 382-388, l1_segment.go:92-118. -/
def segCustom (k : SegKind) (fs : Fields) (f : F) : Option Err :=
  match k, f with
  | .j1, .GenerationCode => check (generationCodes.contains (fs.str .GenerationCode)) f
  | .j2, .GenerationCode => check (j2GenerationCodes.contains (fs.str .GenerationCode)) f
  | .j1, .TelephoneNumber | .j2, .TelephoneNumber => isPhoneNumber (fs.int .TelephoneNumber)
  | .j1, .SocialSecurityNumber | .j1, .DateBirth =>
    check (!(fs.int .SocialSecurityNumber = 0 && (fs.time .DateBirth).isZero)) f
  | .j2, .SocialSecurityNumber | .j2, .DateBirth =>
    check (!(fs.int .SocialSecurityNumber = 0 && (fs.time .DateBirth).isZero) ||
      toUpper (fs.str .ECOACode) = b! "W") f
  | .j2, .AddressIndicator => check (addressIndicators.contains (fs.str .AddressIndicator)) f
  | .j2, .ResidenceCode => check (residenceCodes.contains (fs.str .ResidenceCode)) f
  | .k1, .CreditorClassification =>
    check (creditorClassifications.contains (fs.int .CreditorClassification)) f
  | .k2, .PurchasedIndicator => check (purchasedIndicators.contains (fs.int .PurchasedIndicator)) f
  | .k2, .PurchasedName =>
    check (!(fs.int .PurchasedIndicator = 9) || validFilledString (fs.str .PurchasedName)) f
  | .k3, .AgencyIdentifier => check (agencyIdentifiers.contains (fs.int .AgencyIdentifier)) f
  | .k3, .AccountNumber =>
    check (!(fs.int .AgencyIdentifier = 0) || validFilledString (fs.str .AccountNumber)) f
  | .k4, .SpecializedPaymentIndicator =>
    check (specializedPaymentIndicators.contains (fs.int .SpecializedPaymentIndicator)) f
  | .l1, .ChangeIndicator => check (changeIndicators.contains (fs.int .ChangeIndicator)) f
  | .l1, .NewConsumerAccountNumber =>
    check (!(fs.int .ChangeIndicator = 2) || validFilledString (fs.str .NewConsumerAccountNumber)) f
  | .l1, .NewIdentificationNumber =>
    check (!(fs.int .ChangeIndicator = 1) || validFilledString (fs.str .NewIdentificationNumber)) f
  | _, _ => none

/-- `Validate` of a segment. -/
def Seg.validate (s : Seg) : Option Err :=
  validateLoop s.kind.format (segCustom s.kind s.fields) s.fields

/-- The applicable segments held by a data record: the unexported fields of `BaseSegment`,
/repo/pkg/lib/base_segment.go:501-508. `none` is a nil interface. Simplification: Go stores
pointers, so a caller that keeps a segment could change it later; the model stores values. -/
structure Segs where
  j1 : List Seg := []
  j2 : List Seg := []
  k1 : Option Seg := none
  k2 : Option Seg := none
  k3 : Option Seg := none
  k4 : Option Seg := none
  l1 : Option Seg := none
  n1 : Option Seg := none
deriving DecidableEq, Repr

/-- The `switch` of `AddApplicableSegment`, /repo/pkg/lib/base_segment.go:697-714 and 1214-1231. -/
def Segs.store (g : Segs) (s : Seg) : Segs :=
  match s.kind with
  | .j1 => { g with j1 := g.j1 ++ [s] }
  | .j2 => { g with j2 := g.j2 ++ [s] }
  | .k1 => { g with k1 := some s }
  | .k2 => { g with k2 := some s }
  | .k3 => { g with k3 := some s }
  | .k4 => { g with k4 := some s }
  | .l1 => { g with l1 := some s }
  | .n1 => { g with n1 := some s }

/-- `AddApplicableSegment` of both data record types, /repo/pkg/lib/base_segment.go:692-717, 1209-1234.
Simplification: only the eight segment types are modelled. The Go parameter is an interface
that the record types satisfy too; such a value would be validated and then ignored by the `switch`. -/
def Segs.add (g : Segs) (s : Seg) : Segs × Option Err :=
  match s.validate with
  | some err => (g, some err)
  | none => (g.store s, none)

/-- `GetSegments` of both data record types, /repo/pkg/lib/base_segment.go:648-689, 1165-1206. -/
def Segs.get (g : Segs) (name : Bytes) : List Seg :=
  if name = b! "j1" then g.j1
  else if name = b! "j2" then g.j2
  else if name = b! "k1" then g.k1.toList
  else if name = b! "k2" then g.k2.toList
  else if name = b! "k3" then g.k3.toList
  else if name = b! "k4" then g.k4.toList
  else if name = b! "l1" then g.l1.toList
  else if name = b! "n1" then g.n1.toList
  else []

/-- All segments in the order in which `String` writes them, /repo/pkg/lib/base_segment.go:590-615. -/
def Segs.list (g : Segs) : List Seg :=
  g.j1 ++ g.j2 ++ g.k1.toList ++ g.k2.toList ++ g.k3.toList ++ g.k4.toList ++ g.l1.toList ++
    g.n1.toList

/-- The text of all segments. -/
def Segs.string (g : Segs) : Bytes := (g.list.map Seg.string).flatten

/-- The `switch` on the two-byte identifier in `readApplicableSegments`,
/repo/pkg/lib/base_segment.go:1510-1529. -/
def segKindOfIdent (id : Bytes) : Option SegKind :=
  if id = b! "J1" then some .j1
  else if id = b! "J2" then some .j2
  else if id = b! "K1" then some .k1
  else if id = b! "K2" then some .k2
  else if id = b! "K3" then some .k3
  else if id = b! "K4" then some .k4
  else if id = b! "L1" then some .l1
  else if id = b! "N1" then some .n1
  else none

/-- `readApplicableSegments`, /repo/pkg/lib/base_segment.go:1505-1542, started at position `off` of
`record` (`rec` is `record[off:]`). Each iteration consumes the length of a segment, so
`fuel = len(record)` iterations suffice (`readSegs_fuel` in Lemmas); running out of fuel is reported as `panic`. -/
def readSegs (isVar : Bool) : Nat → Segs → Nat → Bytes → Segs × Except Err Nat
  | 0, g, _, _ => (g, .error .panic)
  | fuel + 1, g, off, rec =>
    if 2 < rec.length then
      match slice rec 0 2 with
      | none => (g, .error .panic)
      | some id =>
      match segKindOfIdent id with
      | none => (g, .ok off)
      | some k =>
        match (Seg.new k).parse rec isVar with
        | (_, .error err) => (g, .error err)
        | (s, .ok read) =>
          match g.add s with
          | (g', some err) => (g', .error err)
          | (g', none) => readSegs isVar fuel g' (off + read) (rec.drop read)
    else (g, .ok off)

/-- `readApplicableSegments(record, ...)`. -/
def readApplicableSegments (g : Segs) (record : Bytes) (isVar : Bool) : Segs × Except Err Nat :=
  readSegs isVar (record.length + 1) g 0 record

end Metro2
