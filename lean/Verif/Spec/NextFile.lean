import Verif.Spec.GoodFile
import Verif.Spec.Files

/-! Several files in one stream. -/

namespace Metro2.Spec

/-- A file that is well-formed in its format, in either blocking, and has no line breaks within its records. -/
def GoodInStream (f : File) : Prop := (∃ isVar, GoodFile f.format isVar f) ∧ ∀ t ∈ recordTexts f, NoBreaks t

/-- 0: fixed-length character records, 1: character records with block descriptors, 2: packed. -/
def grade (f : File) : Nat :=
  match f.format with
  | .character => if bdw (valuesOf f.header) = 0 then 0 else 1
  | .packed => 2

/-- No file has a lower grade than the one before it; `n` is the grade before the first. -/
def Ascending : Nat → List File → Prop
  | _, [] => True
  | n, f :: fs => n ≤ grade f ∧ Ascending (grade f) fs

/-- The texts of the files one after the other, with a line feed between any two records if `newline`. -/
def streamText (newline : Bool) (fs : List File) : List UInt8 := joinRecords newline (fs.map fun f => joinRecords newline (recordTexts f))

end Metro2.Spec
