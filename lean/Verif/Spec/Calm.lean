import Verif.Spec.Files
import Verif.Spec.Server

/-! Records and files as Go's type checker allows them, with the segments in them, for C123. -/

namespace Metro2.Spec

/-- Every segment of the list has values of the types of its struct. -/
def TypedSegments (l : List Seg) : Prop := ∀ s ∈ l, s.fields.Typed s.kind.struct

/-- A record with values of the types of its struct, also in its segments; nothing else is asked of the values. -/
def AnyValues : Record → Prop
  | .header _ fs => fs.Typed headerRecordStruct
  | .base _ fs g => fs.Typed baseSegmentStruct ∧
      TypedSegments (g.j1 ++ g.j2 ++ [g.k1, g.k2, g.k3, g.k4, g.l1, g.n1].filterMap id)
  | .trailer _ fs => fs.Typed trailerRecordStruct

/-- All records of the file are such records. They need not be of the format of the file. -/
structure AnyRecords (f : File) : Prop where
  header : AnyValues f.header
  bases : ∀ r ∈ f.bases, AnyValues r
  trailer : AnyValues f.trailer

end Metro2.Spec
