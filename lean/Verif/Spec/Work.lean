import Verif.Model.File
import Verif.Spec.Reread

/-! What is counted, for C124 and C125. -/

namespace Metro2.Spec

/-- The bytes copied if texts are appended to a growing text one by one: from the second on, all that there is so far. -/
def copied (texts : List (List UInt8)) : Nat :=
  ((List.range (texts.length + 1)).map fun k => if k < 2 then 0 else (texts.take k).flatten.length).sum

/-- The parts of a record that have a `Parse` of their own: the record and its segments. -/
def parts : Record → Nat
  | .base _ _ g => 1 + (g.j1.length + g.j2.length + (present g.k1 + present g.k2 + present g.k3 + present g.k4 + present g.l1 + present g.n1))
  | _ => 1

/-- The parts of a file. -/
def partsOf (f : File) : Nat := 2 + (f.bases.map parts).sum

end Metro2.Spec
