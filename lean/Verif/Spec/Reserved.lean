import Verif.Spec.Filled

/-! The reserved places of the layouts. -/

namespace Metro2.Spec

/-- The rows of the layout tables that are kept for later use. No record and no segment has a value for them. -/
def isReserved : F → Bool
  | .Reserved | .Reserved1 | .Reserved2 => true
  | _ => false

/-- The reserved places of the records, as first byte (from 0, a block descriptor not counted) and length. -/
def reservedPlaces : Record → List (Nat × Nat)
  | .header .character _ => [(280, 146)]
  | .header .packed _ => [(280, 86)]
  | .base .character _ _ => [(214, 17)]
  | .base .packed _ _ => [(165, 17)]
  | .trailer .character _ => [(20, 9), (407, 19)]
  | .trailer .packed _ => [(16, 5), (231, 135)]

/-- The reserved places of the segments. -/
def segmentReserved : SegKind → List (Nat × Nat)
  | .j1 => [(2, 1), (99, 1)]
  | .j2 => [(2, 1), (198, 2)]
  | .k1 => []
  | .k2 => [(33, 1)]
  | .k3 => []
  | .k4 => [(29, 1)]
  | .l1 => [(53, 1)]
  | .n1 => [(145, 1)]

end Metro2.Spec
