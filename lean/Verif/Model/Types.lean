import Verif.Model.Fields
import Verif.Go.Time

/-!
Types shared by the whole model: field specifications, field values, errors.
-/

namespace Metro2

/-- Field types, /repo/pkg/lib/constants.go:523-533. In Go a type is a bit set; every row of the tables
has exactly one of these bits, plus the options `zeroFill` and `omitted`, which are kept as separate
booleans in `Field`. -/
inductive FType where
  | alphanumeric
  | alpha
  | numeric
  | timestamp
  | date
  | descriptor
  | packedTimestamp
  | packedDate
  | packedNumber
deriving DecidableEq, Repr

/-- The `Required` column, /repo/pkg/lib/constants.go:512-514. -/
inductive Req where
  | nullable
  | required
  | applicable
deriving DecidableEq, Repr

/-- `type field struct`, /repo/pkg/lib/specifications.go:7-12. -/
structure Field where
  start : Nat
  len : Nat
  typ : FType
  zeroFill : Bool
  omitted : Bool
  req : Req
deriving DecidableEq, Repr

/-- A layout table (`map[string]field`) as a list of its entries. -/
abbrev Format := List (F × Field)

/-- Go types of exported struct fields. -/
inductive Kind where
  | int
  | int64
  | str
  | time
deriving DecidableEq, Repr

/-- Declaration of a struct field: Go type, JSON key, `omitempty`. -/
structure FieldDecl where
  kind : Kind
  json : Bytes
  omitempty : Bool
deriving DecidableEq, Repr

/-- A field value. `int` stands for both `int` and `int64`; simplification: the model's
integers are unbounded, Go's are 64 bits wide. -/
inductive Val where
  | int (i : Int)
  | str (s : Bytes)
  | time (t : Time)
deriving DecidableEq, Repr

/-- The exported fields of a struct value in declaration order. -/
abbrev Fields := List (F × Val)

/-- The errors of metro2 (/repo/pkg/utils/errors.go) without their message text, plus `panic` for
a run-time panic. -/
inductive Err where
  | required (f : F)
  | numeric (f : F)
  | nonAlphanumeric (f : F)
  | upperAlpha (f : F)
  | invalidValue (f : F)
  | phone
  | segmentLength
  | blockDescriptorWord
  | failedParsing
  | applicableSegment
  | invalidSegment
  | invalidRecord
  | nonHeader
  | invalidFile
  | number (e : NumErr)
  | timeFormat
  | json
  | notMetro
  | io
  | panic
deriving DecidableEq, Repr

/-- Value of a struct field by name (`reflect.Value.FieldByName`); `none` is the invalid value. -/
def Fields.get (fs : Fields) (f : F) : Option Val := fs.lookup f

/-- A field of type `int`/`int64`. The default is never used on values that have the
shape of their struct (`Fields.Typed`), which Go's type checker guarantees. -/
def Fields.int (fs : Fields) (f : F) : Int :=
  match fs.get f with
  | some (.int i) => i
  | _ => 0

/-- A field of type `string`. -/
def Fields.str (fs : Fields) (f : F) : Bytes :=
  match fs.get f with
  | some (.str s) => s
  | _ => []

/-- A field of type `utils.Time`. -/
def Fields.time (fs : Fields) (f : F) : Time :=
  match fs.get f with
  | some (.time t) => t
  | _ => Time.zero

/-- Assignment to a struct field. -/
def Fields.set (fs : Fields) (f : F) (v : Val) : Fields :=
  fs.map fun p => if p.1 = f then (p.1, v) else p

/-- The value has the Go type. -/
def Val.hasKind : Val → Kind → Bool
  | .int _, .int => true
  | .int _, .int64 => true
  | .str _, .str => true
  | .time _, .time => true
  | _, _ => false

/-- The zero value of a Go type. -/
def Kind.zero : Kind → Val
  | .int => .int 0
  | .int64 => .int 0
  | .str => .str []
  | .time => .time Time.zero

/-- `fs` is a value of the struct declared by `decl`. -/
def Fields.Typed : List (F × FieldDecl) → Fields → Prop
  | [], [] => True
  | (f, d) :: ds, (g, v) :: vs => f = g ∧ v.hasKind d.kind = true ∧ Fields.Typed ds vs
  | _, _ => False

/-- The zero value of a struct. -/
def zeroFields (decl : List (F × FieldDecl)) : Fields := decl.map fun p => (p.1, p.2.kind.zero)

end Metro2
