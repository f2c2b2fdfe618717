import Verif.Spec.JsonState
import Verif.Spec.Store

/-! What a JSON document leaves in a data record, also when it is refused. -/

namespace Metro2.Spec

/-- The valid segment that a JSON value stands for. -/
def SegmentFrom (env : JsonEnv) (k : SegKind) (x : Json) (s : Seg) : Prop :=
  ∃ fs, decodeStruct env k.struct (Seg.new k).fields x = some fs ∧ s = ⟨k, fs⟩ ∧ s.validate = none

/-- The fields that the member `base` stands for. -/
def FieldsFrom (env : JsonEnv) (x : Json) (fs : Fields) : Prop :=
  decodeStruct env baseSegmentStruct (zeroFields baseSegmentStruct) x = some fs

/-- The segments that a member of the document gives to the record, and if the member is free of errors. Of a list it is those before the first one that
is refused. Members of other names are skipped. -/
inductive MemberGives (env : JsonEnv) : List UInt8 × Json → List Seg → Bool → Prop
  | base {x : Json} {fs : Fields} : FieldsFrom env x fs → MemberGives env ("base".toUTF8.data.toList, x) [] true
  | badBase {x : Json} : (∀ fs, ¬ FieldsFrom env x fs) → MemberGives env ("base".toUTF8.data.toList, x) [] false
  | skipped {key : List UInt8} {x : Json} : key ≠ "base".toUTF8.data.toList → (∀ k, key ≠ segmentName k) → MemberGives env (key, x) [] true
  | one {k : SegKind} {x : Json} {s : Seg} : ¬ Repeatable k → SegmentFrom env k x s → MemberGives env (segmentName k, x) [s] true
  | badOne {k : SegKind} {x : Json} : ¬ Repeatable k → (∀ s, ¬ SegmentFrom env k x s) → MemberGives env (segmentName k, x) [] false
  | list {k : SegKind} {x : Json} {xs : List Json} {ss : List Seg} : Repeatable k → decodeList env x = some xs →
      List.Forall₂ (SegmentFrom env k) xs ss → MemberGives env (segmentName k, x) ss true
  | badList {k : SegKind} {x y : Json} {xs ys : List Json} {ss : List Seg} : Repeatable k → decodeList env x = some (xs ++ y :: ys) →
      List.Forall₂ (SegmentFrom env k) xs ss → (∀ s, ¬ SegmentFrom env k y s) → MemberGives env (segmentName k, x) ss false
  | noList {k : SegKind} {x : Json} : Repeatable k → decodeList env x = none → MemberGives env (segmentName k, x) [] false

end Metro2.Spec
