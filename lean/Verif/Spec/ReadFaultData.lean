import Verif.Spec.ReadFault
import Verif.Spec.Refused

/-! What is wrong with the segments of a data record. -/

namespace Metro2.Spec

/-- A segment begins here, and `err` tells what is wrong with it: it is cut off, it has a field that cannot be read (and `err` is about the first one), or its values are
not valid. -/
def FaultySegment (isVar : Bool) (text : List UInt8) (err : Err) : Prop :=
  2 < text.length ∧ ∃ k, segmentIdent k <+: text ∧
    ((text.length < segmentLength k ∧ err = .segmentLength) ∨
     (segmentLength k ≤ text.length ∧ FirstRefused k.format text false (k.struct.map Prod.fst) err) ∨
     (∃ s, (Seg.new k).parse (text.take (segmentLength k)) isVar = (s, .ok (segmentLength k)) ∧ s.validate = some err))

/-- The place of a field lies beyond the end of the text, or its text is refused. -/
def UnreadAt (rows : Format) (text : List UInt8) (blocked : Bool) (f : F) (err : Err) : Prop :=
  ∃ e, (f, e) ∈ rows ∧
    ((text.length < e.start + e.len + (if blocked ∧ f ≠ .BlockDescriptorWord then 4 else 0) ∧ err = .segmentLength) ∨
     (e.start + e.len + (if blocked ∧ f ≠ .BlockDescriptorWord then 4 else 0) ≤ text.length ∧ RefusedAt rows text blocked f err))

/-- `err` is about the first field, in the order of the declaration, that is not there or is refused. -/
def FirstUnread (rows : Format) (text : List UInt8) (blocked : Bool) (fields : List F) (err : Err) : Prop :=
  ∃ before f behind, fields = before ++ f :: behind ∧ (∀ g ∈ before, ∀ err', ¬ UnreadAt rows text blocked g err') ∧
    UnreadAt rows text blocked f err

end Metro2.Spec
