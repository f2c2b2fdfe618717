import Verif.Model.Client

/-!
The `Nullable…` types of the generated client: one beside every type, e.g. /repo/pkg/client/model_k1_segment.go:135-169, and those of
/repo/pkg/client/utils.go:43-329. They are all alike, but for `NullableTime.MarshalJSON`, and are modelled once for any type of values.

Values are in variables with addresses, so that it can be told who else holds the same address. Simplifications: the pointers inside a value are part of it;
documents are JSON values, and a text that is no JSON is `none`.
-/

namespace Metro2

/-- The variables of a type. -/
structure Variables (α : Type) where
  cells : Nat → Option α
  next : Nat

/-- What is written: a document, an error, or a panic. -/
inductive NullWritten where
  | document (j : Json)
  | error
  | panic

/-- What the `Nullable` types take from the type of the values: the zero value; `json.Unmarshal` into a variable that holds a value, which gives the value
afterwards and if there was an error; `json.Marshal` (`none` is an error); and what is written for a nil pointer. -/
structure NullType (α : Type) where
  zero : α
  read : α → Json → α × Bool
  write : α → Option Json
  writeNil : NullWritten

/-- `NullableK1Segment` and the like, e.g. /repo/pkg/client/model_k1_segment.go:135-138. -/
structure Nullable where
  value : Option Nat
  isSet : Bool
deriving DecidableEq

/-- A variable of such a type before anything is done with it. -/
def Nullable.initial : Nullable := ⟨none, false⟩

/-- `NewNullableK1Segment` and `Set`, e.g. /repo/pkg/client/model_k1_segment.go:144-147, 158-160. -/
def Nullable.set (value : Option Nat) : Nullable := ⟨value, true⟩

/-- `Unset`, e.g. /repo/pkg/client/model_k1_segment.go:153-156. -/
def Nullable.unset : Nullable := ⟨none, false⟩

/-- `MarshalJSON`, e.g. /repo/pkg/client/model_k1_segment.go:162-164, `NullableTime` /repo/pkg/client/utils.go:322-324. An address without a variable cannot
happen. -/
def Nullable.marshal {α : Type} (T : NullType α) (m : Variables α) (v : Nullable) : NullWritten :=
  match v.value with
  | none => T.writeNil
  | some p =>
    match m.cells p with
    | none => .panic
    | some a =>
      match T.write a with
      | none => .error
      | some j => .document j

/-- `UnmarshalJSON`, e.g. /repo/pkg/client/model_k1_segment.go:166-169: `json.Unmarshal` into a pointer makes it nil for `null`, follows it if it is not nil, and
else makes a new variable first. The last result tells if there was an error. -/
def Nullable.unmarshal {α : Type} (T : NullType α) (m : Variables α) (v : Nullable) (src : Option Json) : Variables α × Nullable × Bool :=
  match src with
  | none => (m, ⟨v.value, true⟩, true)
  | some .null => (m, ⟨none, true⟩, false)
  | some j =>
    match v.value with
    | none =>
      let r := T.read T.zero j
      (⟨fun q => if q = m.next then some r.1 else m.cells q, m.next + 1⟩, ⟨some m.next, true⟩, r.2)
    | some p =>
      match m.cells p with
      | none => (m, ⟨some p, true⟩, true)
      | some a =>
        let r := T.read a j
        (⟨fun q => if q = p then some r.1 else m.cells q, m.next⟩, ⟨some p, true⟩, r.2)

/-- The type of a record or a segment. `spoilt` is what a reading with an error leaves, which is not modelled. -/
def NullType.record (zone : LocalZone) (decl : List (F × FieldDecl)) (spoilt : ClientRec → Json → ClientRec) : NullType ClientRec where
  zero := .zero decl
  read c j :=
    match decodeClient zone decl c j with
    | some c' => (c', false)
    | none => (spoilt c j, true)
  write := encodeClient decl
  writeNil := .document .null

/-- `time.Time` in `NullableTime`, /repo/pkg/client/utils.go:322-329: `MarshalJSON` of `time.Time` is called through the pointer, which panics if it is nil. -/
def NullType.time (zone : LocalZone) (spoilt : Time → Json → Time) : NullType Time where
  zero := .zero
  read t j :=
    match decodeClientTime zone j with
    | some t' => (t', false)
    | none => (spoilt t j, true)
  write := encodeClientTime
  writeNil := .panic

end Metro2
