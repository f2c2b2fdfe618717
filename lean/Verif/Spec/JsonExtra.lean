import Verif.Spec.JsonDoc

/-! Members of a JSON document that the library does not know. -/

namespace Metro2.Spec

/-- A place in the document of a file. -/
inductive Place
  /-- The document. -/
  | file
  /-- The list of data records. -/
  | data
  /-- A data record. -/
  | record
  /-- A list of segments. -/
  | segments (k : SegKind)
  /-- The fields of a header, a trailer, a base segment or an applicable segment. -/
  | fields (decl : List (F × FieldDecl))

/-- A word in small letters. -/
def smallWord (w : List UInt8) : List UInt8 := w.map fun c => if 65 ≤ c ∧ c ≤ 90 then c + 32 else c

/-- The members of a data record. -/
def recordKeys : List String := ["base", "j1", "j2", "k1", "k2", "k3", "k4", "l1", "n1"]

/-- Nothing is known under this key. -/
def UnknownKey : Place → List UInt8 → Prop
  | .file, k => k ≠ "data".toUTF8.data.toList ∧ k ≠ "trailer".toUTF8.data.toList ∧ ¬ Spells foldOthers "header".toUTF8.data.toList k
  | .record, k => ∀ s ∈ recordKeys, k ≠ s.toUTF8.data.toList
  | .fields decl, k => ∀ p ∈ decl, ¬ Spells foldOthers (smallWord p.2.json) k
  | _, _ => False

/-- The place of the member with this key. -/
inductive Inside : Place → List UInt8 → Place → Prop
  | header : Inside .file "header".toUTF8.data.toList (.fields headerRecordStruct)
  | data : Inside .file "data".toUTF8.data.toList .data
  | trailer : Inside .file "trailer".toUTF8.data.toList (.fields trailerRecordStruct)
  | base : Inside .record "base".toUTF8.data.toList (.fields baseSegmentStruct)
  | j1 : Inside .record "j1".toUTF8.data.toList (.segments .j1)
  | j2 : Inside .record "j2".toUTF8.data.toList (.segments .j2)
  | k1 : Inside .record "k1".toUTF8.data.toList (.fields SegKind.k1.struct)
  | k2 : Inside .record "k2".toUTF8.data.toList (.fields SegKind.k2.struct)
  | k3 : Inside .record "k3".toUTF8.data.toList (.fields SegKind.k3.struct)
  | k4 : Inside .record "k4".toUTF8.data.toList (.fields SegKind.k4.struct)
  | l1 : Inside .record "l1".toUTF8.data.toList (.fields SegKind.l1.struct)
  | n1 : Inside .record "n1".toUTF8.data.toList (.fields SegKind.n1.struct)

/-- The place of the elements of a list. -/
inductive Element : Place → Place → Prop
  | record : Element .data .record
  | segment (k : SegKind) : Element (.segments k) (.fields k.struct)

/-- The second document says the same as the first, apart from further members that are not known. -/
inductive AddsTo (env : JsonEnv) : Place → Json → Json → Prop
  | same {p : Place} {j j' : Json} : SameDoc env j j' → AddsTo env p j j'
  | trans {p : Place} {j j' j'' : Json} : AddsTo env p j j' → AddsTo env p j' j'' → AddsTo env p j j''
  /-- A member is added. -/
  | extra {p : Place} (a b : List (List UInt8 × Json)) {k : List UInt8} {v : Json} : UnknownKey p k → NumbersOk env v →
      AddsTo env p (.obj (a ++ b)) (.obj (a ++ (k, v) :: b))
  /-- Inside a member. -/
  | member {p q : Place} (a b : List (List UInt8 × Json)) {k : List UInt8} {v v' : Json} : Inside p k q → AddsTo env q v v' →
      AddsTo env p (.obj (a ++ (k, v) :: b)) (.obj (a ++ (k, v') :: b))
  /-- Inside an element. -/
  | element {p q : Place} (a b : List Json) {v v' : Json} : Element p q → AddsTo env q v v' →
      AddsTo env p (.arr (a ++ v :: b)) (.arr (a ++ v' :: b))

/-- What is assumed of the standard library: a number that was written is read and written alike. -/
def FloatsStable (env : JsonEnv) : Prop := ∀ lit lit', env.refloat lit = some lit' → env.refloat lit' = some lit'

end Metro2.Spec
