import Verif.Model.File

/-! When a loop over positions comes back to where it was. -/

namespace Metro2.Spec

/-- A data record can be read at position `a` of the text, and the next record is looked for at position `b`. -/
def NextAt (enc : Enc) (isVar : Bool) (text : List UInt8) (a b : Int) : Prop :=
  0 < a ∧ a < text.length ∧ ∃ r n, (newBase enc).parse (text.drop a.toNat) isVar = (r, .ok n) ∧ b = a + n

/-- One or more steps lead from `a` to `b`. -/
inductive Leads (step : Int → Int → Prop) : Int → Int → Prop
  | one {a b : Int} : step a b → Leads step a b
  | more {a b c : Int} : step a b → Leads step b c → Leads step a c

/-- From `a` the steps run into a circle. -/
def RunsInCircles (step : Int → Int → Prop) (a : Int) : Prop := ∃ b, (b = a ∨ Leads step a b) ∧ Leads step b b

end Metro2.Spec
