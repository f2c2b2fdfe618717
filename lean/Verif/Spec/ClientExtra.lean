import Verif.Model.Client
import Verif.Spec.JsonExtra

/-! Documents that are the same to the client. -/

namespace Metro2.Spec

/-- A place in the document of a file, seen by the client. -/
inductive ClientPlace
  /-- The document. -/
  | file
  /-- The list of data records. -/
  | data
  /-- A data record. -/
  | record
  /-- A list of segments. -/
  | segments (k : SegKind)
  /-- The fields of a header, a trailer, a base segment or an applicable segment. -/
  | fields (client : List (F × FieldDecl))

/-- The members that the client knows, in small letters. -/
def clientWords : ClientPlace → List (List UInt8)
  | .file => ["header", "data", "trailer"].map fun s => s.toUTF8.data.toList
  | .record => recordKeys.map fun s => s.toUTF8.data.toList
  | .fields client => client.map fun p => smallWord p.2.json
  | _ => []

/-- The place of the member with this name. -/
inductive ClientInside : ClientPlace → String → ClientPlace → Prop
  | header : ClientInside .file "header" (.fields clientHeaderRecord)
  | data : ClientInside .file "data" .data
  | trailer : ClientInside .file "trailer" (.fields clientTrailerRecord)
  | base : ClientInside .record "base" (.fields clientBaseSegment)
  | j1 : ClientInside .record "j1" (.segments .j1)
  | j2 : ClientInside .record "j2" (.segments .j2)
  | k1 : ClientInside .record "k1" (.fields clientK1Segment)
  | k2 : ClientInside .record "k2" (.fields clientK2Segment)
  | k3 : ClientInside .record "k3" (.fields clientK3Segment)
  | k4 : ClientInside .record "k4" (.fields clientK4Segment)
  | l1 : ClientInside .record "l1" (.fields clientL1Segment)
  | n1 : ClientInside .record "n1" (.fields clientN1Segment)

/-- The place of the elements of a list. -/
inductive ClientElement : ClientPlace → ClientPlace → Prop
  | record : ClientElement .data .record
  | segment (k : SegKind) : ClientElement (.segments k) (.fields (clientSegment k))

/-- The documents tell the client the same. `fresh` says that no earlier part of the document told something about this place. -/
inductive ClientAlike : Bool → ClientPlace → Json → Json → Prop
  | refl {fresh : Bool} {p : ClientPlace} (j : Json) : ClientAlike fresh p j j
  | symm {fresh : Bool} {p : ClientPlace} {j j' : Json} : ClientAlike fresh p j j' → ClientAlike fresh p j' j
  | trans {fresh : Bool} {p : ClientPlace} {j j' j'' : Json} : ClientAlike fresh p j j' → ClientAlike fresh p j' j'' → ClientAlike fresh p j j''
  /-- Two neighbouring members are exchanged that do not mean the same. -/
  | swap {fresh : Bool} {p : ClientPlace} (a b : List (List UInt8 × Json)) {k k' : List UInt8} (v v' : Json) :
      (∀ w ∈ clientWords p, ¬ (Spells foldOthers w k ∧ Spells foldOthers w k')) →
      ClientAlike fresh p (.obj (a ++ (k, v) :: (k', v') :: b)) (.obj (a ++ (k', v') :: (k, v) :: b))
  /-- A name is written in other letters. -/
  | rename {fresh : Bool} {p : ClientPlace} (a b : List (List UInt8 × Json)) {k k' w : List UInt8} (v : Json) :
      w ∈ clientWords p → Spells foldOthers w k → Spells foldOthers w k' →
      ClientAlike fresh p (.obj (a ++ (k, v) :: b)) (.obj (a ++ (k', v) :: b))
  /-- A member is added that the client does not know. -/
  | extra {fresh : Bool} {p : ClientPlace} (a b : List (List UInt8 × Json)) {k : List UInt8} (v : Json) :
      (∀ w ∈ clientWords p, ¬ Spells foldOthers w k) → ClientAlike fresh p (.obj (a ++ b)) (.obj (a ++ (k, v) :: b))
  /-- A member is added whose value is `null`, before any other of its name. -/
  | null {p : ClientPlace} (a b : List (List UInt8 × Json)) {k w : List UInt8} :
      w ∈ clientWords p → Spells foldOthers w k → (∀ kv ∈ a, ¬ Spells foldOthers w kv.1) →
      ClientAlike true p (.obj (a ++ b)) (.obj (a ++ (k, .null) :: b))
  /-- Inside a member. -/
  | member {fresh inner : Bool} {p q : ClientPlace} (a b : List (List UInt8 × Json)) {k : List UInt8} {w : String} {v v' : Json} :
      ClientInside p w q → Spells foldOthers w.toUTF8.data.toList k →
      (inner = true → ∀ kv ∈ a, ¬ Spells foldOthers w.toUTF8.data.toList kv.1) → ClientAlike inner q v v' →
      ClientAlike fresh p (.obj (a ++ (k, v) :: b)) (.obj (a ++ (k, v') :: b))
  /-- Inside an element. -/
  | element {fresh : Bool} {p q : ClientPlace} (a b : List Json) {v v' : Json} : ClientElement p q → ClientAlike true q v v' →
      ClientAlike fresh p (.arr (a ++ v :: b)) (.arr (a ++ v' :: b))

end Metro2.Spec
