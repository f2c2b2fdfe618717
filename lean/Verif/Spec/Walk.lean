import Verif.Model.Accessors
import Verif.Spec.FileText

/-! Going through a text by the sizes that records report. -/

namespace Metro2.Spec

/-- The size that a record reports: its block size if there is one, else its length. -/
def reported (r : Record) : Int := if 0 < r.blockSize then r.blockSize else r.length

/-- The text cut into pieces of the given sizes; nothing if a size is negative, if the text is too short, or if something is left
over. -/
def cut : List Int → List UInt8 → Option (List (List UInt8))
  | [], [] => some []
  | [], _ :: _ => none
  | n :: ns, s =>
    if 0 ≤ n ∧ n ≤ s.length then
      match cut ns (s.drop n.toNat) with
      | some ts => some (s.take n.toNat :: ts)
      | none => none
    else none

/-- The records of a file as its accessors return them. -/
def Lists (f : File) (rs : List Record) : Prop :=
  ∃ h t, f.getRecord "header".toUTF8.data.toList = .ok h ∧ f.getRecord "trailer".toUTF8.data.toList = .ok t ∧
    rs = h :: (f.getDataRecords ++ [t])

/-- The names of the record types of a format: header, data record, trailer. -/
def typeNames : Enc → List UInt8 × List UInt8 × List UInt8
  | .character => ("header".toUTF8.data.toList, "base".toUTF8.data.toList, "trailer".toUTF8.data.toList)
  | .packed => ("headerPacked".toUTF8.data.toList, "basePacked".toUTF8.data.toList, "trailerPacked".toUTF8.data.toList)

end Metro2.Spec
