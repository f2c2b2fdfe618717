import Verif.Model.ClientObjects
import Verif.Model.Client

/-! Specification for C110: the members of the documents that belong to the fields of the client types. -/

namespace Metro2

/-- The member of the JSON document that belongs to a field of the client: the name of the field, beginning with a small letter. -/
def Spec.memberKey : Bytes → Bytes
  | [] => []
  | c :: rest => (c + 32) :: rest

/-- The types of records and segments: their accessors and what `ToMap` writes. -/
def Spec.clientDecls : List (ClientType × List (F × FieldDecl)) := [(accessorsHeaderRecord, clientHeaderRecord), (accessorsBaseSegment, clientBaseSegment),
  (accessorsTrailerRecord, clientTrailerRecord), (accessorsJ1Segment, clientJ1Segment), (accessorsJ2Segment, clientJ2Segment), (accessorsK1Segment, clientK1Segment),
  (accessorsK2Segment, clientK2Segment), (accessorsK3Segment, clientK3Segment), (accessorsK4Segment, clientK4Segment), (accessorsL1Segment, clientL1Segment),
  (accessorsN1Segment, clientN1Segment)]

/-- An object in memory as a value of Model/Client: what its fields hold, nil pointers as `none`. -/
def Spec.recordOf (g : GoValues Val) (m : ClientMemory Val) (o : Nat) (t : ClientType) (decl : List (F × FieldDecl)) : ClientRec := fun F =>
  (decl.lookup F).bind fun d => (t.fields.find? fun f => Spec.memberKey f.name = d.json).bind fun f => (m.held g o f.kind f.name).join

/-- Changing a field of one object, by `SetX` or through what `GetXOk` returns, leaves the fields of all other objects as they are. -/
def Spec.Independent : Prop :=
  ∀ (g : GoValues Int) (ops : List (ClientOp Int)) (m m' : ClientMemory Int) (o : Nat) (f : ClientField) (v : Int) (op : ClientOp Int),
    ClientMemory.empty.steps g ops = some m → op = .set o f v ∨ op = .write o f v → m.step g op = some m' →
    ∀ o' x', o' ≠ o → m.objects o' = some x' → ∀ f' ∈ x'.type.fields, m'.get g x'.type f' (some o') = m.get g x'.type f' (some o')

end Metro2
