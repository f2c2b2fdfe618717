import Verif.Model.ClientCall

/-! What the caller of the client asks for. -/

namespace Metro2.Spec

/-- The format asked for: `Format` if it is given, else `Format2`. -/
def askedFormat : Option (List UInt8) → Option (List UInt8) → List UInt8
  | some v, _ => v
  | none, some v => v
  | none, none => []

/-- The type asked for. -/
def askedType : Option (List UInt8) → List UInt8
  | some v => v
  | none => []

/-- The service receives something of the file. -/
def Arrives (u : Upload) : Prop := u.name ≠ [] ∧ u.content ≠ []

/-- The format is one that the service knows. -/
def KnownFormat (format : List UInt8) : Prop :=
  format = "json".toUTF8.data.toList ∨ format = "metro".toUTF8.data.toList ∨ format = []

end Metro2.Spec
