import Verif.Spec.Accepts
import Verif.Spec.Order
import Verif.Spec.Store

/-! When the two ways of reading a file see the same records. -/

namespace Metro2.Spec

/-- The whole stream is divided into these records, and nothing but line breaks stands between them and behind them. -/
def Divided (raw : List UInt8) (lines : List (List UInt8)) : Prop :=
  ∃ ps, Pieces raw ps ∧ recordsOf ps = lines ∧ withoutBreaks raw = lines.flatten

/-- Where the appended segments of a data record begin, in a file of this format and blocking. -/
def tailStart (enc : Enc) (isVar : Bool) : Nat :=
  match enc with
  | .packed => 370
  | .character => if isVar then 430 else 426

/-- Behind the segments of a record there are at most two bytes left, and these, together with the beginning of the next record, are
the identifier of a segment. -/
def RunsOver (tail next : List UInt8) : Prop :=
  ∃ pieces u k, Shaped pieces ∧ tail = bytesOf pieces ++ u ∧ u.length ≤ 2 ∧ segmentIdent k <+: u ++ next

/-- Behind the header, no record runs over into the record behind it. -/
def Bordered (enc : Enc) (isVar : Bool) (lines : List (List UInt8)) : Prop :=
  List.IsChain (fun line next => ¬ RunsOver (line.drop (tailStart enc isVar)) next) lines.tail

end Metro2.Spec
