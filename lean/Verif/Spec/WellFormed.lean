import Verif.Spec.Records

/-! Data records that can be written and read back, in either format and blocking. -/

namespace Metro2.Spec

/-- Length of the content of a data record: fixed part and appended segments. -/
def contentLength (enc : Enc) (fs : Fields) (g : Segs) : Nat := fixedLength enc fs + segsLength g

/-- The descriptor that gives the size of the record. -/
def sizeWord (isVar : Bool) (fs : Fields) : Int := if isVar then bdw fs else rdw fs

/-- A data record with fitting values and well-formed segments whose descriptors cover its content. Packed records
always have a block descriptor. -/
structure GoodBase (enc : Enc) (isVar : Bool) (fs : Fields) (g : Segs) : Prop where
  typed : fs.Typed baseSegmentStruct
  fits : FitsAll enc.baseFormat fs
  segs : SegsOk g
  packed : enc = .packed → isVar = true
  bdw : if isVar then 0 < bdw fs ∧ bdw fs ≤ wordMax enc else bdw fs = 0
  size : (contentLength enc fs g : Nat) ≤ sizeWord isVar fs

/-- The size up to which a data record is padded. -/
def padWord (enc : Enc) (fs : Fields) : Int :=
  match enc with
  | .character => rdw fs
  | .packed => rdw fs + 4

/-- What follows the record is not taken for one of its segments: no segment begins there, unless padding comes
before it. -/
def NextOk (enc : Enc) (fs : Fields) (g : Segs) (rest : List UInt8) : Prop :=
  padSize (padWord enc fs) ≤ contentLength enc fs g → NoSegment rest

end Metro2.Spec
