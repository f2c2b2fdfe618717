import Verif.Spec.Store
import Verif.Spec.GoodFile

/-! The rules of /repo/docs/file-structure.md for the appended segments: their order, how often each may occur, and placeholders. -/

namespace Metro2.Spec

/-- The place of a segment type in the chart of /repo/docs/file-structure.md: "segments must occur in the order listed". -/
def rank : SegKind → Nat
  | .j1 => 1 | .j2 => 2 | .k1 => 3 | .k2 => 4 | .k3 => 5 | .k4 => 6 | .l1 => 7 | .n1 => 8

/-- The pieces stand in the documented order. -/
def Ordered (pieces : List (SegKind × List UInt8)) : Prop := pieces.Pairwise fun a b => rank a.1 ≤ rank b.1

/-- Each piece has the identifier and the length of its type. -/
def Shaped (pieces : List (SegKind × List UInt8)) : Prop :=
  ∀ p ∈ pieces, segmentIdent p.1 <+: p.2 ∧ p.2.length = segmentLength p.1

/-- The same pieces of every type, in the same order within the type; the types may be mixed differently. -/
def SameByType (l l' : List (SegKind × List UInt8)) : Prop :=
  ∀ k, l.filter (fun p => decide (p.1 = k)) = l'.filter fun p => decide (p.1 = k)

/-- The bytes of the pieces. -/
def bytesOf (l : List (SegKind × List UInt8)) : List UInt8 := (l.map (·.2)).flatten

/-- A placeholder: "the Segment Identifier (e.g., J1) must still be reported and the remainder of the segment must be blank filled". -/
def placeholder (k : SegKind) : List UInt8 := segmentIdent k ++ List.replicate (segmentLength k - 2) ' '.toNat.toUInt8

end Metro2.Spec
