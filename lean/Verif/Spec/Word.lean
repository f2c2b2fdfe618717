import Verif.Model.File

/-! Words of 64 bits. -/

namespace Metro2.Spec

/-- The numbers that a signed word of 64 bits can hold. -/
def IsWord (i : Int) : Prop := -9223372036854775808 ≤ i ∧ i ≤ 9223372036854775807

/-- All numbers of a struct are words. Every Go struct has this: its fields are of type `int` or `int64`. -/
def WordFields (fs : Fields) : Prop := ∀ f i, (f, .int i) ∈ fs → IsWord i

/-- All records of a file have the shape of their Go structs, with words in them. -/
structure WordFile (f : File) : Prop where
  header : ∃ fs, f.header = .header f.format fs ∧ fs.Typed headerRecordStruct ∧ WordFields fs
  trailer : ∃ fs, f.trailer = .trailer f.format fs ∧ fs.Typed trailerRecordStruct ∧ WordFields fs

/-- How many data records and segments a file has. -/
def pieces (f : File) : Nat :=
  (f.bases.map fun r => match r with
    | .base _ _ g => 1 + g.j1.length + g.j2.length + g.k1.toList.length + g.k2.toList.length + g.k3.toList.length + g.k4.toList.length +
        g.l1.toList.length + g.n1.toList.length
    | _ => 1).sum

end Metro2.Spec
