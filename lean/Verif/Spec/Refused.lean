import Verif.Spec.Store
import Verif.Spec.Accepts

/-! What a text that is refused leaves of the record or file that was to hold it. -/

namespace Metro2.Spec

/-- Of the fields `old` some have been replaced: all that stand before a certain field. With this one, which is as it was, and the fields behind it,
which are as they were, reading has ended. `ok f v w`: in field `f` the value `v` is replaced by `w`. `bad f`: reading ends with field `f`. -/
def Stopped (ok : F → Val → Val → Prop) (bad : F → Prop) (old new : Fields) : Prop :=
  ∃ before before' f v behind, old = before ++ (f, v) :: behind ∧ new = before' ++ (f, v) :: behind ∧
    List.Forall₂ (fun p q => p.1 = q.1 ∧ ok p.1 p.2 q.2) before before' ∧ bad f

/-- All fields have been replaced. -/
def Replaced (ok : F → Val → Val → Prop) (old new : Fields) : Prop :=
  List.Forall₂ (fun p q => p.1 = q.1 ∧ ok p.1 p.2 q.2) old new

/-- The text begins with valid segments, in this order; `rest` is what stands behind them. -/
inductive Segments (isVar : Bool) : List UInt8 → List Seg → List UInt8 → Prop
  | nil {text : List UInt8} : Segments isVar text [] text
  | cons {k : SegKind} {piece more rest : List UInt8} {s : Seg} {l : List Seg} (hi : segmentIdent k <+: piece)
      (hl : piece.length = segmentLength k) (hr : (Seg.new k).parse piece isVar = (s, .ok (segmentLength k))) (hv : s.validate = none)
      (h : Segments isVar more l rest) : Segments isVar (piece ++ more) (s :: l) rest

/-- A segment begins here that is cut off, cannot be read, or is not valid. -/
def BadSegment (isVar : Bool) (text : List UInt8) : Prop :=
  2 < text.length ∧ ∃ k, segmentIdent k <+: text ∧
    (text.length < segmentLength k ∨ ∀ s n, (Seg.new k).parse (text.take (segmentLength k)) isVar = (s, .ok n) → s.validate ≠ none)

/-- The segments that a record with segments `old` has after reading the segments `l`: of the types that may be repeated only those of `l`, of each other
type the last of `l`, or the old one if `l` has none. -/
def SegmentsAfter (old : Segs) (l : List Seg) (new : Segs) : Prop :=
  ∀ k, new.get (segmentName k) =
    if Repeatable k then l.filter fun s => decide (s.kind = k)
    else match (l.filter fun s => decide (s.kind = k)).getLast? with
      | some s => [s]
      | none => old.get (segmentName k)

end Metro2.Spec
