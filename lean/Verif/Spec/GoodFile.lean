import Verif.Spec.WellFormed
import Verif.Spec.FileText

/-! Files that can be written and read back, in either format and blocking. -/

namespace Metro2.Spec

/-- A header with fitting values whose size word covers its content. Packed headers always have a block descriptor. -/
structure GoodHeader (enc : Enc) (isVar : Bool) (fs : Fields) : Prop where
  typed : fs.Typed headerRecordStruct
  fits : FitsAll enc.headerFormat fs
  ident : (.RecordIdentifier, .str "HEADER".toUTF8.data.toList) ∈ fs
  packed : enc = .packed → isVar = true
  bdw : if isVar then 0 < bdw fs ∧ bdw fs ≤ wordMax enc else bdw fs = 0
  size : (fixedLength enc fs : Nat) ≤ sizeWord isVar fs

/-- A trailer with fitting values whose record descriptor covers its content. -/
structure GoodTrailer (enc : Enc) (fs : Fields) : Prop where
  typed : fs.Typed trailerRecordStruct
  fits : FitsAll enc.trailerFormat fs
  ident : (.RecordIdentifier, .str "TRAILER".toUTF8.data.toList) ∈ fs
  size : (recordLength enc : Nat) ≤ rdw fs

/-- A data record that is written in exactly the length announced by its size word. -/
structure GoodData (enc : Enc) (isVar : Bool) (fs : Fields) (g : Segs) : Prop where
  base : GoodBase enc isVar fs g
  written : ((max (contentLength enc fs g) (padSize (padWord enc fs)) : Nat) : Int) = sizeWord isVar fs

/-- A file all of whose records are well-formed, in one format and one blocking. -/
structure GoodFile (enc : Enc) (isVar : Bool) (f : File) : Prop where
  format : f.format = enc
  header : ∃ fs, f.header = .header enc fs ∧ GoodHeader enc isVar fs
  bases : ∀ r ∈ f.bases, ∃ fs g, r = .base enc fs g ∧ GoodData enc isVar fs g
  trailer : ∃ fs, f.trailer = .trailer enc fs ∧ GoodTrailer enc fs

/-- The number whose two bytes, most significant first, are the identifier of a segment. -/
def identNumber (k : SegKind) : Int :=
  match segmentIdent k with
  | [a, b] => a.toNat * 256 + b.toNat
  | _ => 0

/-- No size word of a data record or trailer looks like the identifier of a segment. (The least such size is 18993.) -/
def NoIdentSizes (f : File) : Prop :=
  (∀ r ∈ f.bases, ∀ k, bdw r.fields ≠ identNumber k) ∧ ∀ k, rdw f.trailer.fields ≠ identNumber k

end Metro2.Spec
