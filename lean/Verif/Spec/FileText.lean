import Verif.Model.File

/-! The text of a file: the texts of its records in order. -/

namespace Metro2.Spec

/-- The texts of the records of a file, in order. -/
def recordTexts (f : File) : List (List UInt8) :=
  [f.header.string] ++ f.bases.map Record.string ++ [f.trailer.string]

/-- The texts joined, with a line feed between two of them if `newline`. -/
def joinRecords (newline : Bool) : List (List UInt8) → List UInt8
  | [] => []
  | [t] => t
  | t :: u :: rest => t ++ (if newline then ['\n'.toNat.toUInt8] else []) ++ joinRecords newline (u :: rest)

/-- The bytes other than CR and LF. -/
def withoutBreaks (s : List UInt8) : List UInt8 :=
  s.filter fun c => decide (c ≠ '\r'.toNat.toUInt8 ∧ c ≠ '\n'.toNat.toUInt8)

/-- No CR and no LF. -/
def NoBreaks (s : List UInt8) : Prop := ∀ c ∈ s, c ≠ '\r'.toNat.toUInt8 ∧ c ≠ '\n'.toNat.toUInt8

end Metro2.Spec
