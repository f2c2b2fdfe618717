import Verif.Spec.Records

/-! Conditions on a record under which it can be written and read again. -/

namespace Metro2.Spec

/-- No number is negative. -/
def NoNegative (fs : Fields) : Prop := ∀ p ∈ fs, ∀ i, p.2 = .int i → 0 ≤ i

/-- A negative number in a character field has so many digits that it leaves no room for a leading zero, which would stand
before the sign. -/
def SignsFirst (fmt : Format) (fs : Fields) : Prop :=
  ∀ p ∈ fs, ∀ e, (p.1, e) ∈ fmt → e.typ = .numeric → ∀ i, p.2 = .int i → 0 ≤ i ∨ (2 ≤ e.len ∧ 10 ^ (e.len - 2) ≤ -i)

/-- No required character date or timestamp is the zero time. -/
def DatesPresent (fmt : Format) (fs : Fields) : Prop :=
  ∀ p ∈ fs, ∀ e, (p.1, e) ∈ fmt → e.req = .required → e.typ = .date ∨ e.typ = .timestamp →
    p.2 ≠ .time noTime

/-- Both. -/
def Regular (fmt : Format) (fs : Fields) : Prop := SignsFirst fmt fs ∧ DatesPresent fmt fs

/-- The data record holds the segment. -/
def Holds (g : Segs) (s : Seg) : Prop :=
  s ∈ g.j1 ∨ s ∈ g.j2 ∨ g.k1 = some s ∨ g.k2 = some s ∨ g.k3 = some s ∨ g.k4 = some s ∨ g.l1 = some s ∨
    g.n1 = some s

/-- The layout table of a record. -/
def tableOf : Record → Format
  | .header .character _ => headerRecordCharacterFormat
  | .header .packed _ => headerRecordPackedFormat
  | .base .character _ _ => baseSegmentCharacterFormat
  | .base .packed _ _ => baseSegmentPackedFormat
  | .trailer .character _ => trailerRecordCharacterFormat
  | .trailer .packed _ => trailerRecordPackedFormat

/-- Record and appended segments are regular. -/
def RegularRecord (r : Record) : Prop :=
  match r with
  | .base enc fs g => Regular (tableOf (.base enc fs g)) fs ∧ ∀ s, Holds g s → Regular s.kind.format s.fields
  | .header enc fs => Regular (tableOf (.header enc fs)) fs
  | .trailer enc fs => Regular (tableOf (.trailer enc fs)) fs

/-- The values have the Go types of the struct. -/
def WellTyped : Record → Prop
  | .header _ fs => fs.Typed headerRecordStruct
  | .base _ fs _ => fs.Typed baseSegmentStruct
  | .trailer _ fs => fs.Typed trailerRecordStruct

/-- A new record of some type. -/
inductive New : Record → Prop
  | header (enc : Enc) : New (newHeader enc)
  | base (enc : Enc) : New (newBase enc)
  | trailer (enc : Enc) : New (newTrailer enc)

/-- The record has a field for a block descriptor. -/
def HasBdw : Record → Prop
  | .trailer _ _ => False
  | _ => True

/-- The record's exported fields. -/
def valuesOf : Record → Fields
  | .header _ fs => fs
  | .base _ fs _ => fs
  | .trailer _ fs => fs

end Metro2.Spec
