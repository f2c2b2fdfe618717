import Verif.Model.ClientTable

/-!
The accessors of the types of the generated client, /repo/pkg/client/model_*.go, on objects in memory. Optional fields are pointers: `SetX` stores the
address of a new variable, `GetXOk` hands that address out, and a copy of a struct holds the same addresses. Which field each method uses is in
Model/ClientTable.

Values are of any type `α`. Simplifications: the elements of a slice and the fields of a struct that is the value of a field are part of that value.
Addresses are never used again.
-/

namespace Metro2

/-- What the accessors take from the types of the fields: the zero value of every field, and which slices are nil. -/
structure GoValues (α : Type) where
  zero : ClientType → ClientField → α
  isNil : α → Bool

/-- What a field holds: a value (also a slice), or a pointer that may be nil. -/
inductive Slot (α : Type) where
  | value (v : α)
  | pointer (p : Option Nat)

/-- An object of a client type; fields that the type does not have hold nothing. -/
structure ClientObject (α : Type) where
  type : ClientType
  slots : Bytes → Option (Slot α)

/-- Objects and the variables that optional fields point to. -/
structure ClientMemory (α : Type) where
  cells : Nat → Option α
  objects : Nat → Option (ClientObject α)
  next : Nat

/-- What the result of `GetXOk` points to: a variable, or the field of an object. -/
inductive Ref where
  | cell (p : Nat)
  | field (o : Nat) (name : Bytes)
deriving DecidableEq

/-- The empty memory. -/
def ClientMemory.empty {α : Type} : ClientMemory α := ⟨fun _ => none, fun _ => none, 0⟩

variable {α : Type}

/-- What an object holds in a field. -/
def ClientMemory.slot (m : ClientMemory α) (o : Nat) (name : Bytes) : Option (Slot α) := (m.objects o).bind (·.slots name)

/-- The value of a field that is not nil: `IsNil`, /repo/pkg/client/utils.go:332-343. The outer `none`: no such field, or its kind is another one. -/
def ClientMemory.held (g : GoValues α) (m : ClientMemory α) (o : Nat) (k : ClientFieldKind) (name : Bytes) : Option (Option α) :=
  match k, m.slot o name with
  | .required, some (.value v) => some (some v)
  | .optional, some (.pointer none) => some none
  | .optional, some (.pointer (some p)) => (m.cells p).map some
  | .list, some (.value v) => some (if g.isNil v then none else some v)
  | _, _ => none

/-- `GetX`, e.g. /repo/pkg/client/model_header_record.go:67-73 and 99-106, for an object or nil; `none` cannot happen for a field of the type. -/
def ClientMemory.get (g : GoValues α) (m : ClientMemory α) (t : ClientType) (f : ClientField) : Option Nat → Option α
  | none => some (g.zero t f)
  | some o => (m.held g o f.kind f.get).map fun v => v.getD (g.zero t f)

/-- `HasX`, e.g. /repo/pkg/client/model_header_record.go:85-91. Required fields have no such method; `true` stands for that. -/
def ClientMemory.has (g : GoValues α) (m : ClientMemory α) (f : ClientField) : Option Nat → Option Bool
  | none => some false
  | some o => (m.held g o f.kind f.has).map (·.isSome)

/-- The pointer that `GetXOk` returns, e.g. /repo/pkg/client/model_header_record.go:77-82 and 110-115; `none` is nil, with `false`. For a slice it is the
slice, here a reference to the field that holds it. -/
def ClientMemory.ref (g : GoValues α) (m : ClientMemory α) (f : ClientField) : Option Nat → Option Ref
  | none => none
  | some o =>
    match f.kind, m.slot o f.getOk with
    | .required, some (.value _) => some (.field o f.getOk)
    | .optional, some (.pointer (some p)) => some (.cell p)
    | .list, some (.value v) => if g.isNil v then none else some (.field o f.getOk)
    | _, _ => none

/-- Assignment to a field of an object. -/
def ClientMemory.assign (m : ClientMemory α) (o : Nat) (name : Bytes) (s : Slot α) : ClientMemory α :=
  { m with objects := fun i => if i = o then (m.objects o).map fun x => { x with slots := fun n => if n = name then some s else x.slots n } else m.objects i }

/-- `SetX`, e.g. /repo/pkg/client/model_header_record.go:94-96 and 118-120: an optional field gets the address of a new variable. On nil it panics
(`none`). -/
def ClientMemory.set (m : ClientMemory α) (f : ClientField) (v : α) : Option Nat → Option (ClientMemory α)
  | none => none
  | some o =>
    match f.kind with
    | .optional => some ({ m with cells := fun i => if i = m.next then some v else m.cells i, next := m.next + 1 }.assign o f.set (.pointer (some m.next)))
    | _ => some (m.assign o f.set (.value v))

/-- The caller writes through a pointer. (A slice that `GetXOk` returned is not a pointer to the field.) -/
def ClientMemory.write (m : ClientMemory α) (r : Ref) (v : α) : ClientMemory α :=
  match r with
  | .cell p => { m with cells := fun i => if i = p then some v else m.cells i }
  | .field o name => m.assign o name (.value v)

/-- The zero value of a type: `T{}`. -/
def zeroObject (g : GoValues α) (t : ClientType) : ClientObject α where
  type := t
  slots := fun n =>
    match t.fields.find? (fun f => f.name = n) with
    | none => none
    | some f => some (match f.kind with
      | .optional => .pointer none
      | _ => .value (g.zero t f))

/-- `NewT`, e.g. /repo/pkg/client/model_header_record.go:47-56: the address is the old `next`. -/
def ClientMemory.new (g : GoValues α) (m : ClientMemory α) (t : ClientType) (args : List α) : ClientMemory α :=
  t.assigns.foldl (fun m a => match args[a.2]? with
      | some v => m.assign (m.next - 1) a.1 (.value v)
      | none => m)
    { m with objects := fun i => if i = m.next then some (zeroObject g t) else m.objects i, next := m.next + 1 }

/-- `NewTWithDefaults`, e.g. /repo/pkg/client/model_header_record.go:61-64. -/
def ClientMemory.newWithDefaults (g : GoValues α) (m : ClientMemory α) (t : ClientType) : ClientMemory α :=
  { m with objects := fun i => if i = m.next then some (zeroObject g t) else m.objects i, next := m.next + 1 }

/-- The caller copies a struct: `x := *o`. -/
def ClientMemory.copy (m : ClientMemory α) (o : Nat) : ClientMemory α :=
  { m with objects := fun i => if i = m.next then m.objects o else m.objects i, next := m.next + 1 }

/-- What a caller can do with client objects. -/
inductive ClientOp (α : Type) where
  | new (t : ClientType) (args : List α)
  | newWithDefaults (t : ClientType)
  | set (o : Nat) (f : ClientField) (v : α)
  | write (o : Nat) (f : ClientField) (v : α)
  | copy (o : Nat)

/-- One step. `write` writes through what `GetXOk` returns; `none`: the object does not exist or has not this field, the pointer is nil, or a wrong
number of arguments (which the compiler does not accept). -/
def ClientMemory.step (g : GoValues α) (m : ClientMemory α) : ClientOp α → Option (ClientMemory α)
  | .new t args => if t ∈ clientTypes ∧ args.length = t.parameters then some (m.new g t args) else none
  | .newWithDefaults t => if t ∈ clientTypes then some (m.newWithDefaults g t) else none
  | .set o f v =>
    match m.objects o with
    | none => none
    | some x => if f ∈ x.type.fields then m.set f v (some o) else none
  | .write o f v =>
    match m.objects o with
    | none => none
    | some x =>
      if f ∈ x.type.fields ∧ f.kind ≠ .list then (m.ref g f (some o)).map fun r => m.write r v else none
  | .copy o =>
    match m.objects o with
    | none => none
    | some _ => some (m.copy o)

/-- Several steps. -/
def ClientMemory.steps (g : GoValues α) : ClientMemory α → List (ClientOp α) → Option (ClientMemory α)
  | m, [] => some m
  | m, op :: ops => (m.step g op).bind fun m' => ClientMemory.steps g m' ops

/-! ### Nullable types -/

/-- `NullableT`, e.g. /repo/pkg/client/model_header_record.go:649-652, and those of /repo/pkg/client/utils.go; `none` is nil. -/
structure ClientNullable (α : Type) where
  value : Option α := none
  isSet : Bool := false

/-- `Set`. -/
def ClientNullable.set (_ : ClientNullable α) (v : Option α) : ClientNullable α := ⟨v, true⟩

/-- `Unset`. -/
def ClientNullable.unset (_ : ClientNullable α) : ClientNullable α := ⟨none, false⟩

/-- `NewNullableT`. -/
def ClientNullable.new (v : Option α) : ClientNullable α := ⟨v, true⟩

/-- `MarshalJSON`: `null`, or the value as `enc` writes it. Simplification: errors of `enc` are part of its result. -/
def ClientNullable.marshal {β : Type} (null : β) (enc : α → β) (n : ClientNullable α) : β :=
  match n.value with
  | none => null
  | some v => enc v

/-- `NullableTime.MarshalJSON`, /repo/pkg/client/utils.go:322-324, which calls the method of the value itself: a panic (`none`) if it is nil. -/
def ClientNullable.marshalTime {β : Type} (enc : α → β) (n : ClientNullable α) : Option β := n.value.map enc

/-- `UnmarshalJSON`: `isSet` becomes true, also if there is an error. `null` makes the pointer nil, everything else is decoded into the value that is
there, or a new one: `dec old`, with what it left and if there was an error. -/
def ClientNullable.unmarshal {β : Type} (isNull : β → Bool) (dec : Option α → β → α × Bool) (n : ClientNullable α) (j : β) : ClientNullable α × Bool :=
  if isNull j then (⟨none, true⟩, false) else (⟨some (dec n.value j).1, true⟩, (dec n.value j).2)

end Metro2
