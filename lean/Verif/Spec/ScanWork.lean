import Verif.Spec.Stream

/-! What is counted, for C126. -/

namespace Metro2.Spec

/-- The number of carriage returns and line feeds. -/
def breaks (data : List UInt8) : Nat := data.length - (withoutBreaks data).length

/-- The sum of the numbers from `a` to `b`. -/
def sumFromTo (a b : Nat) : Nat := (List.range' a (b + 1 - a)).sum

/-- The shortest beginning of `data` that has so many bytes other than line breaks has `k` bytes. -/
def Reaches (data : List UInt8) (size k : Nat) : Prop :=
  k ≤ data.length ∧ (withoutBreaks (data.take k)).length = size ∧ ∀ j < k, (withoutBreaks (data.take j)).length < size

end Metro2.Spec
