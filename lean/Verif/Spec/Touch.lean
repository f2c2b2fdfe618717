import Verif.Spec.Again
import Verif.Spec.GoodFile

/-! Records that follow each other without a gap. -/

namespace Metro2.Spec

/-- Nothing comes between the segments of a data record and the next record: the record is not filled up with spaces. -/
def Unfilled : Record → Prop
  | .base enc fs g => padSize (padWord enc fs) ≤ contentLength enc fs g
  | _ => False

/-- After no unfilled data record comes a record (a further data record or the trailer) whose size word looks like the
identifier of a segment. -/
def Apart (f : File) : Prop :=
  ∀ before r next after, f.bases ++ [f.trailer] = before ++ r :: next :: after → Unfilled r →
    ∀ k, announced next ≠ identNumber k

end Metro2.Spec
