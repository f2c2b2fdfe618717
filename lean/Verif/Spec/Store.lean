import Verif.Spec.Records

/-! The appended segments of a data record as a store, and the segments that a byte string contains. -/

namespace Metro2.Spec

/-- Documented name of a segment type, the argument of `GetSegments`. -/
def segmentName : SegKind → List UInt8
  | .j1 => "j1".toUTF8.data.toList | .j2 => "j2".toUTF8.data.toList
  | .k1 => "k1".toUTF8.data.toList | .k2 => "k2".toUTF8.data.toList
  | .k3 => "k3".toUTF8.data.toList | .k4 => "k4".toUTF8.data.toList
  | .l1 => "l1".toUTF8.data.toList | .n1 => "n1".toUTF8.data.toList

/-- The segment types of which a data record may have several. -/
def Repeatable (k : SegKind) : Prop := k = .j1 ∨ k = .j2

instance (k : SegKind) : Decidable (Repeatable k) := by unfold Repeatable; infer_instance

/-- The valid segments of type `k` among those offered, in order. -/
def accepted (k : SegKind) (ss : List Seg) : List Seg :=
  ss.filter fun s => decide (s.kind = k ∧ s.validate = none)

/-- The byte string is the concatenation of the given pieces, each a segment of the given type with its
identifier and length, and a rest in which no segment begins. A rest of one or two bytes has no room
for a segment. -/
inductive Segmented : List UInt8 → List (SegKind × List UInt8) → Prop
  | done {b : List UInt8} : NoSegment b ∨ b.length ≤ 2 → Segmented b []
  | step {k : SegKind} {p rest : List UInt8} {l : List (SegKind × List UInt8)} :
    segmentIdent k <+: p → p.length = segmentLength k → Segmented rest l → Segmented (p ++ rest) ((k, p) :: l)

/-- Where the appended segments of a data record begin. -/
def segmentsStart (enc : Enc) (fs : Fields) : Nat :=
  match enc with
  | .packed => 370
  | .character => if 0 < bdw fs then 430 else 426

/-- The segment that each piece of type `k` reads as, in order. -/
def piecesOf (k : SegKind) (isVar : Bool) (l : List (SegKind × List UInt8)) : List Seg :=
  (l.filter fun p => decide (p.1 = k)).map fun p => ((Seg.new k).parse p.2 isVar).1

/-- Every stored segment is in its place, has the values of its Go struct, and is valid. -/
def SoundSegs (g : Segs) : Prop :=
  ∀ k, ∀ s ∈ g.get (segmentName k), s.kind = k ∧ s.fields.Typed k.struct ∧ s.validate = none

end Metro2.Spec
