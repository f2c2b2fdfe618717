import Verif.Spec.Reuse

/-! What it means that every field has a place of its own in the text. -/

namespace Metro2.Spec

/-- The rows of the fields of a struct stand in the text in the order in which the struct declares the fields, and do not
overlap. The optional block descriptor stands before all of them and is not counted. -/
def InOrder (fmt : Format) (decl : List (F × FieldDecl)) : Prop :=
  decl.Pairwise fun a b => a.1 ≠ .BlockDescriptorWord → ∀ ra ∈ fmt, ∀ rb ∈ fmt, ra.1 = a.1 → rb.1 = b.1 →
    ra.2.start + ra.2.len ≤ rb.2.start

/-- Two structs agree in all fields but `f`. -/
def AgreeBut (f : F) (a b : Fields) : Prop := ∀ g, g ≠ f → a.get g = b.get g

/-- Two texts have the same length and agree in all bytes outside the `n` bytes from `start` on. -/
def SameOutside (start n : Nat) (s t : Bytes) : Prop :=
  s.length = t.length ∧ ∀ p, (p < start ∨ start + n ≤ p) → s[p]? = t[p]?

/-- Two texts agree in the `n` bytes from `start` on. -/
def SameInside (start n : Nat) (s t : Bytes) : Prop := ∀ p, start ≤ p → p < start + n → s[p]? = t[p]?

/-- The number of bytes by which the fields of a record are shifted when it is written: a block descriptor that is not zero
is written in front of them. -/
def writeShift : Record → Nat
  | .header _ fs => if bdw fs = 0 then 0 else 4
  | .base _ fs _ => if bdw fs = 0 then 0 else 4
  | .trailer _ _ => 0

/-- The number of bytes by which the fields of a record are shifted when it is read: records of a packed file always
have a block descriptor, records of a character file if its length is variable; trailers have none. -/
def readShift (isVar : Bool) : Record → Nat
  | .header .packed _ => 4
  | .base .packed _ _ => 4
  | .header .character _ => if isVar then 4 else 0
  | .base .character _ _ => if isVar then 4 else 0
  | .trailer _ _ => 0

/-- The segments of a record. -/
def segsOf : Record → Segs
  | .base _ _ g => g
  | _ => {}

end Metro2.Spec
