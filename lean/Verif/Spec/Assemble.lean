import Verif.Spec.Accepts
import Verif.Model.Reader

/-! Records taken out of files and put together to other files. -/

namespace Metro2.Spec

/-- The records into which the stream is divided, if it was read as the file `f`: the first one, as many as `f` has data records, and one more. What is
behind it was not read. -/
def LinesOf (raw : List UInt8) (f : File) (first : List UInt8) (datas : List (List UInt8)) (last : List UInt8) : Prop :=
  ∃ ps rest, Pieces raw ps ∧ recordsOf ps = first :: (datas ++ last :: rest) ∧ datas.length = f.bases.length

/-- The text `line` stands for the data record `r` somewhere in a file of this format and blocking, read by a reader that delivers something at least
once in 101 calls. -/
def Occurs (enc : Enc) (isVar : Bool) (line : List UInt8) (r : Record) : Prop :=
  ∃ p raw f first datas last, (∀ k, ∃ j, j < 101 ∧ 0 < p.wish (k + j)) ∧ readFile p raw = .ok f ∧ LinesOf raw f first datas last ∧ f.format = enc ∧
    Tells first enc isVar ∧ (line, r) ∈ datas.zip f.bases

end Metro2.Spec
