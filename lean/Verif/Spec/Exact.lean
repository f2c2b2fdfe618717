import Verif.Spec.GoodFile

/-! Conditions on a header that are met exactly by the headers that survive. -/

namespace Metro2.Spec

/-- The word HEADER in capital or small letters. -/
def HeaderWord (id : List UInt8) : Prop :=
  List.Forall₂ (fun c d => c = d ∨ c = d + 32) id [72, 69, 65, 68, 69, 82]

/-- A header whose values fit and whose block descriptor is there if and only if it is asked for. Packed headers always
have one, and are recognised by their identifier. -/
structure SoundHeader (enc : Enc) (isVar : Bool) (fs : Fields) : Prop where
  fits : FitsAll enc.headerFormat fs
  bdw : if isVar = true ∨ enc = .packed then 0 < bdw fs ∧ bdw fs ≤ wordMax enc else bdw fs = 0
  ident : enc = .packed → ∃ id, (.RecordIdentifier, .str id) ∈ fs ∧ HeaderWord id

end Metro2.Spec
