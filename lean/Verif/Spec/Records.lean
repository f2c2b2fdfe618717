import Verif.Model.Record
import Verif.Spec.Layout

/-!
Well-formed segments and records, stated with the data types of the model, the layout tables and
`Validate` (which is itself part of the public interface), but without the parsing and
printing functions.
-/

namespace Metro2.Spec

/-- Documented length of a record. -/
def recordLength : Enc → Nat
  | .character => 426
  | .packed => 366

/-- Documented length of a segment. -/
def segmentLength : SegKind → Nat
  | .j1 => 100 | .j2 => 200 | .k1 => 34 | .k2 => 34 | .k3 => 40 | .k4 => 30 | .l1 => 54 | .n1 => 146

/-- Documented identifier of a segment. -/
def segmentIdent : SegKind → List UInt8
  | .j1 => "J1".toUTF8.data.toList | .j2 => "J2".toUTF8.data.toList
  | .k1 => "K1".toUTF8.data.toList | .k2 => "K2".toUTF8.data.toList
  | .k3 => "K3".toUTF8.data.toList | .k4 => "K4".toUTF8.data.toList
  | .l1 => "L1".toUTF8.data.toList | .n1 => "N1".toUTF8.data.toList

/-- No segment begins here. -/
def NoSegment (rest : List UInt8) : Prop := ∀ k, ¬ segmentIdent k <+: rest

/-- A segment of type `k` with fitting values, its own identifier, and accepted by `Validate`. -/
structure SegmentOk (k : SegKind) (s : Seg) : Prop where
  kind : s.kind = k
  typed : s.fields.Typed k.struct
  fits : FitsAll k.format s.fields
  ident : (.SegmentIdentifier, .str (segmentIdent k)) ∈ s.fields
  valid : s.validate = none

/-- All segments of a data record are well-formed and in their place. -/
structure SegsOk (g : Segs) : Prop where
  j1 : ∀ s ∈ g.j1, SegmentOk .j1 s
  j2 : ∀ s ∈ g.j2, SegmentOk .j2 s
  k1 : ∀ s, g.k1 = some s → SegmentOk .k1 s
  k2 : ∀ s, g.k2 = some s → SegmentOk .k2 s
  k3 : ∀ s, g.k3 = some s → SegmentOk .k3 s
  k4 : ∀ s, g.k4 = some s → SegmentOk .k4 s
  l1 : ∀ s, g.l1 = some s → SegmentOk .l1 s
  n1 : ∀ s, g.n1 = some s → SegmentOk .n1 s

/-- Number of segments present in an optional place. -/
def present (s : Option Seg) : Nat := if s = none then 0 else 1

/-- Documented length of all appended segments together. -/
def segsLength (g : Segs) : Nat :=
  100 * g.j1.length + 200 * g.j2.length + 34 * present g.k1 + 34 * present g.k2 + 40 * present g.k3 +
    30 * present g.k4 + 54 * present g.l1 + 146 * present g.n1

/-- Largest block length that a descriptor word can hold. -/
def wordMax : Enc → Int
  | .character => 9999
  | .packed => 65535

/-- The block descriptor, the record descriptor. -/
def bdw (fs : Fields) : Int := fs.int .BlockDescriptorWord
def rdw (fs : Fields) : Int := fs.int .RecordDescriptorWord

/-- `n` is the effective padding size for the requested size `v`. -/
def padSize (v : Int) : Nat := if 1 ≤ v ∧ v ≤ 65535 then v.natAbs else 0

/-- Length of the fixed part of a data or header record, with its block descriptor if there is one. -/
def fixedLength (enc : Enc) (fs : Fields) : Nat := recordLength enc + if bdw fs = 0 then 0 else 4

/-- All text values are single-byte as far as they are written, all times are existing. -/
structure SegSized (k : SegKind) (s : Seg) : Prop where
  kind : s.kind = k
  typed : s.fields.Typed k.struct
  sized : SizedAll k.format s.fields

/-- The same for all segments of a data record. -/
structure SegsSized (g : Segs) : Prop where
  j1 : ∀ s ∈ g.j1, SegSized .j1 s
  j2 : ∀ s ∈ g.j2, SegSized .j2 s
  k1 : ∀ s, g.k1 = some s → SegSized .k1 s
  k2 : ∀ s, g.k2 = some s → SegSized .k2 s
  k3 : ∀ s, g.k3 = some s → SegSized .k3 s
  k4 : ∀ s, g.k4 = some s → SegSized .k4 s
  l1 : ∀ s, g.l1 = some s → SegSized .l1 s
  n1 : ∀ s, g.n1 = some s → SegSized .n1 s

end Metro2.Spec
