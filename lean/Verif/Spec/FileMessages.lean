import Verif.Spec.Messages

/-! Which part of a file an error text is about. -/

namespace Metro2.Spec

/-- The text is about a field of a record or segment of type `n`, or about its length. -/
def About (m : Bytes) (n : Sort14) : Prop := m = ownName n ++ b! " has an invalid length" ∨ ∃ f x, Accuses m f n x

/-- The text names no record. -/
def Nameless (m : Bytes) : Prop :=
  m ∈ [b! "the file isn't metro file", b! "should be block descriptor word", b! "is failed parsing raw data", b! "base record has an invalid length"]

/-- The text says that a part of the file is missing. -/
def Missing (m : Bytes) : Prop := m ∈ [b! "has an invalid segment (header)", b! "has an invalid segment (trailer)"]

/-- The text is about the header or the trailer, or names no record. -/
def AboutEnds (m : Bytes) : Prop := Nameless m ∨ Missing m ∨ ∃ enc, About m (.header enc) ∨ About m (.trailer enc)

instance (m : Bytes) : Decidable (Nameless m) := inferInstanceAs (Decidable (_ ∈ _))
instance (m : Bytes) : Decidable (Missing m) := inferInstanceAs (Decidable (_ ∈ _))

end Metro2.Spec
