import Verif.Model.ClientQuery

/-! Values by key, and what may be in the text of a query. -/

namespace Metro2.Spec

/-- The values of a key, in order. -/
def keyValues (kvs : List (List UInt8 × List UInt8)) (key : List UInt8) : List (List UInt8) := (kvs.filter fun kv => kv.1 = key).map Prod.snd

/-- A byte that may be in the text of a query: a letter, a digit, or one of `-_.~%+&=[]`. -/
def QueryByte (c : UInt8) : Prop :=
  c ∈ "abcdefghijklmnopqrstuvwxyzABCDEFGHIJKLMNOPQRSTUVWXYZ0123456789-_.~%+&=[]".toUTF8.data.toList

end Metro2.Spec
