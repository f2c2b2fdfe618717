import Verif.Spec.ClientExtra
import Verif.Spec.Text

/-! Which documents the client can read. -/

namespace Metro2.Spec

/-- A value that is not `null` suits a field: a text, a whole number of 32 or of 64 bits, a text that is a time (`Timed`, see C118). -/
def SuitsField (Timed : List UInt8 → Prop) : Kind → Json → Prop
  | .str, j => ∃ s, j = .str s
  | .int, j => ∃ lit v, j = .num lit ∧ SignedDecimal lit v ∧ -(2 ^ 31) ≤ v ∧ v < 2 ^ 31
  | .int64, j => ∃ lit v, j = .num lit ∧ SignedDecimal lit v ∧ -(2 ^ 63) ≤ v ∧ v < 2 ^ 63
  | .time, j => ∃ s, j = .str s ∧ Timed s

/-- A document suits a place: `null`; an object whose known members suit their places; a list whose elements do. Nothing is said about
members that the client does not know. -/
inductive SuitsPlace (Timed : List UInt8 → Prop) : ClientPlace → Json → Prop
  | null (p : ClientPlace) : SuitsPlace Timed p .null
  | fields (client : List (F × FieldDecl)) (kvs : List (List UInt8 × Json)) :
      (∀ kv ∈ kvs, ∀ x ∈ client, Spells foldOthers (smallWord x.2.json) kv.1 → kv.2 = .null ∨ SuitsField Timed x.2.kind kv.2) →
      SuitsPlace Timed (.fields client) (.obj kvs)
  | file (kvs : List (List UInt8 × Json)) :
      (∀ kv ∈ kvs, ∀ w q, ClientInside .file w q → Spells foldOthers w.toUTF8.data.toList kv.1 → SuitsPlace Timed q kv.2) →
      SuitsPlace Timed .file (.obj kvs)
  | record (kvs : List (List UInt8 × Json)) :
      (∀ kv ∈ kvs, ∀ w q, ClientInside .record w q → Spells foldOthers w.toUTF8.data.toList kv.1 → SuitsPlace Timed q kv.2) →
      SuitsPlace Timed .record (.obj kvs)
  | list {p q : ClientPlace} (xs : List Json) : ClientElement p q → (∀ x ∈ xs, SuitsPlace Timed q x) → SuitsPlace Timed p (.arr xs)

/-- Some part of the document does not suit its place. -/
inductive Spoiled (Timed : List UInt8 → Prop) : ClientPlace → Json → Prop
  /-- A value of another type in a field. -/
  | field {client : List (F × FieldDecl)} (a b : List (List UInt8 × Json)) {k : List UInt8} {v : Json} {x : F × FieldDecl} : x ∈ client →
      Spells foldOthers (smallWord x.2.json) k → v ≠ .null →
      ¬ SuitsField Timed x.2.kind v → Spoiled Timed (.fields client) (.obj (a ++ (k, v) :: b))
  /-- A text, a number or a truth value in place of an object or a list. -/
  | scalar (p : ClientPlace) {j : Json} : ((∃ s, j = .str s) ∨ (∃ n, j = .num n) ∨ (∃ t, j = .bool t)) → Spoiled Timed p j
  /-- A list in place of an object. -/
  | list {p : ClientPlace} (xs : List Json) : (∀ q, ¬ ClientElement p q) → Spoiled Timed p (.arr xs)
  /-- An object in place of a list. -/
  | object {p q : ClientPlace} (kvs : List (List UInt8 × Json)) : ClientElement p q → Spoiled Timed p (.obj kvs)
  | member {p q : ClientPlace} (a b : List (List UInt8 × Json)) {k : List UInt8} {w : String} {v : Json} : ClientInside p w q →
      Spells foldOthers w.toUTF8.data.toList k → Spoiled Timed q v → Spoiled Timed p (.obj (a ++ (k, v) :: b))
  | element {p q : ClientPlace} (a b : List Json) {v : Json} : ClientElement p q → Spoiled Timed q v → Spoiled Timed p (.arr (a ++ v :: b))

end Metro2.Spec
