import Verif.Spec.Reread
import Verif.Spec.FileText

/-! Files whose records are written in the length that they announce. -/

namespace Metro2.Spec

/-- The records of a file, in order. -/
def allRecords (f : File) : List Record := f.header :: (f.bases ++ [f.trailer])

/-- The length that a record announces: its block descriptor if there is one, else its record descriptor. -/
def announced (r : Record) : Int := if bdw (valuesOf r) = 0 then rdw (valuesOf r) else bdw (valuesOf r)

/-- Every record is written in the length that it announces. -/
def Measured (f : File) : Prop := ∀ r ∈ allRecords f, (r.string.length : Int) = announced r

/-- The header has a block descriptor. -/
def isBlocked (f : File) : Bool := decide (bdw (valuesOf f.header) ≠ 0)

/-- The text can be read as a data record. -/
def ReadsAsData (enc : Enc) (isVar : Bool) (t : List UInt8) : Prop := ∃ r n, (newBase enc).parse t isVar = (r, .ok n)

/-- Every record is regular. -/
def RegularFile (f : File) : Prop := ∀ r ∈ allRecords f, RegularRecord r

end Metro2.Spec
