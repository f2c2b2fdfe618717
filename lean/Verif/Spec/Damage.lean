import Verif.Spec.Again
import Verif.Spec.Stream

/-! Records of a file whose text was damaged on its way to the reader. -/

namespace Metro2.Spec

/-- `t` is the text `s` with bytes overwritten: any bytes but the first four, which announce the length. No line break is put into it. -/
structure Damaged (s t : List UInt8) : Prop where
  length : t.length = s.length
  start : t.take 4 = s.take 4
  noBreaks : NoBreaks t

/-- The text can be read as a trailer. -/
def ReadsAsTrailer (enc : Enc) (isVar : Bool) (t : List UInt8) : Prop := ∃ r n, (newTrailer enc).parse t isVar = (r, .ok n)

/-- Something in the text that no trailer has. In the character format: a capital letter where data records have the portfolio type. In the packed
format: a zero byte in the third byte of the record descriptor. -/
def Telltale (enc : Enc) (isVar : Bool) (t : List UInt8) : Prop :=
  match enc with
  | .character => ∃ c, t[if isVar then 76 else 72]? = some c ∧ 'A'.toNat ≤ c.toNat ∧ c.toNat ≤ 'Z'.toNat
  | .packed => t[6]? = some 0

/-- The text of a file with the texts of the header and the trailer and the given texts in between. -/
def textWith (nl : Bool) (f : File) (lines : List (List UInt8)) : List UInt8 :=
  joinRecords nl (f.header.string :: (lines ++ [f.trailer.string]))

end Metro2.Spec
