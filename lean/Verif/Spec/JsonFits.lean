import Verif.Spec.JsonState
import Verif.Spec.Text
import Verif.Spec.Records

/-! Which documents the library can read. -/

namespace Metro2.Spec

/-- The last member with that key. -/
def LastMember (kvs : List (List UInt8 × Json)) (k : List UInt8) (v : Json) : Prop := ∃ a b, kvs = a ++ (k, v) :: b ∧ ∀ kv ∈ b, kv.1 ≠ k

/-- A value that a field takes: a text; a whole number of 64 bits, as it is written after it was a `float64`; a text that is a date (`Timed`). `null`
is taken by texts and numbers, not by dates. -/
def TakenBy (env : JsonEnv) (Timed : List UInt8 → Prop) : Kind → Json → Prop
  | .str, j => j = .null ∨ ∃ s, j = .str s
  | .time, j => ∃ s, j = .str s ∧ Timed s
  | .int, j => j = .null ∨ ∃ lit lit' v, j = .num lit ∧ env.refloat lit = some lit' ∧ SignedDecimal lit' v ∧ -(2 ^ 63) ≤ v ∧ v < 2 ^ 63
  | .int64, j => j = .null ∨ ∃ lit lit' v, j = .num lit ∧ env.refloat lit = some lit' ∧ SignedDecimal lit' v ∧ -(2 ^ 63) ≤ v ∧ v < 2 ^ 63

/-- A document can be read at a place: `null`; an object whose known members can be read at theirs, of repeated members the last; a list whose elements
can. Segments must be valid (`Valid`). -/
inductive ReadAt (env : JsonEnv) (Timed : List UInt8 → Prop) (Valid : SegKind → Json → Prop) : Place → Json → Prop
  | null (p : Place) : ReadAt env Timed Valid p .null
  | fields (decl : List (F × FieldDecl)) (kvs : List (List UInt8 × Json)) :
      (∀ k v, LastMember kvs k v → ∀ x ∈ decl, NamesField x k → TakenBy env Timed x.2.kind v) → ReadAt env Timed Valid (.fields decl) (.obj kvs)
  | list {p q : Place} (xs : List Json) : Element p q → (∀ x ∈ xs, ReadAt env Timed Valid q x) →
      (∀ s, p = .segments s → ∀ x ∈ xs, Valid s x) → ReadAt env Timed Valid p (.arr xs)
  | members {p : Place} (kvs : List (List UInt8 × Json)) : p = .file ∨ p = .record →
      (∀ k v q, LastMember kvs k v → Inside p k q → ReadAt env Timed Valid q v) →
      (∀ s v, p = .record → s ≠ .j1 → s ≠ .j2 → LastMember kvs (smallWord (segmentIdent s)) v → Valid s v) → ReadAt env Timed Valid p (.obj kvs)

/-- The text is a date for the library. -/
def LibraryDate (env : JsonEnv) (s : List UInt8) : Prop := ∃ t, decodeTime env (.str s) = some t

/-- The segment that is read from the value is valid. The value was decoded into `interface{}` and written again (`reJson`). -/
def ValidRead (env : JsonEnv) (k : SegKind) (j : Json) : Prop :=
  ∃ w fs, reJson env j = some w ∧ decodeStruct env k.struct (Seg.new k).fields w = some fs ∧ (Seg.mk k fs).validate = none

end Metro2.Spec
