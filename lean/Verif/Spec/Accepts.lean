import Verif.Spec.Stream
import Verif.Model.File

/-! What is taken for a Metro 2 file. -/

namespace Metro2.Spec

/-- The word HEADER, in capital letters, in the six bytes from byte `n` on (counted from 0). -/
def HeaderAt (n : Nat) (line : List UInt8) : Prop := (line.drop n).take 6 = [72, 69, 65, 68, 69, 82]

/-- The first record tells the blocking and the format of the file: the word HEADER stands behind one length word, or
behind two of them; a length word whose last two bytes are zero belongs to the packed format. -/
structure Tells (line : List UInt8) (enc : Enc) (isVar : Bool) : Prop where
  word : HeaderAt (if isVar then 8 else 4) line
  format : enc = .packed ↔ (line[2]? = some 0 ∧ line[3]? = some 0) ∨ (line[6]? = some 0 ∧ line[7]? = some 0)

/-- `f` is the file whose records are, in this order, a header, data records, and a trailer, all of the format and
blocking that the header tells. The trailer is the first of the records behind the header that cannot be read as a data record. -/
def FileOf (lines : List (List UInt8)) (f : File) : Prop :=
  ∃ isVar first datas last rest n m, lines = first :: datas ++ last :: rest ∧ Tells first f.format isVar ∧
    (newHeader f.format).parse first isVar = (f.header, .ok n) ∧
    List.Forall₂ (fun line r => ∃ k, (newBase f.format).parse line isVar = (r, .ok k)) datas f.bases ∧
    (∀ r k, (newBase f.format).parse last isVar ≠ (r, .ok k)) ∧
    (newTrailer f.format).parse last isVar = (f.trailer, .ok m)

/-- A stream of bytes that is a Metro 2 file: the records into which it is divided are those of `f`. -/
def StreamOf (raw : List UInt8) (f : File) : Prop := ∃ ps, Pieces raw ps ∧ FileOf (recordsOf ps) f

/-- The data records `rs` can be read one behind the other from position `a` of the text on, the last one ending at position `b`. The next
one begins where the record says that it ends. -/
inductive DataFrom (enc : Enc) (isVar : Bool) (text : List UInt8) : Int → List Record → Int → Prop
  | nil {a : Int} : DataFrom enc isVar text a [] a
  | cons {a n b : Int} {r : Record} {rs : List Record} (h0 : 0 < a) (h1 : a < text.length)
      (hr : (newBase enc).parse (text.drop a.toNat) isVar = (r, .ok n)) (h : DataFrom enc isVar text (a + n) rs b) :
      DataFrom enc isVar text a (r :: rs) b

/-- `new` has the records of a text, read by the file `old`: a header, data records up to the first that cannot be read, and at this position
a trailer that ends where the text ends. -/
def TextOf (old : File) (text : List UInt8) (isVar : Bool) (new : File) : Prop :=
  ∃ a b m, new.format = old.format ∧ old.header.parse text isVar = (new.header, .ok a) ∧
    DataFrom old.format isVar text a new.bases b ∧ 0 < b ∧ b < text.length ∧
    (∀ r n, (newBase old.format).parse (text.drop b.toNat) isVar ≠ (r, .ok n)) ∧
    old.trailer.parse (text.drop b.toNat) isVar = (new.trailer, .ok m) ∧ b + m = text.length

end Metro2.Spec
