import Verif.Model.File

/-!
Records, segments and a file as objects in memory. The other models treat them as values; here the pointers and slices of Go are followed, so that it can
be said when two names stand for the same thing.

Memory is typed, as Go's is: one map for the arrays of pointers to segments, one for those of pointers to records, one for the segments, one for the
records. Addresses are numbers and are never used again (the garbage collector only frees what cannot be reached). Not modelled: `Parse` and the JSON
methods on objects, a caller that appends to a slice obtained from `GetSegments` or `GetDataRecords`, more than one file.
-/

namespace Metro2

/-- A slice of pointers: address of the array, length, capacity. The slices of the package begin at the first element of their array. A nil slice has
the capacity 0. -/
structure Slice where
  array : Nat := 0
  len : Nat := 0
  cap : Nat := 0
deriving DecidableEq

/-- A map changed at one address. -/
def put {α : Type} (f : Nat → α) (a : Nat) (x : α) : Nat → α := fun b => if b = a then x else f b

/-- The elements of a slice. -/
def Slice.elements (arrays : Nat → List Nat) (s : Slice) : List Nat := (arrays s.array).take s.len

/-- `append(s, x)` of Go for one element: if the capacity suffices, `x` is written behind the last element of `s`, whatever is there; else the elements
are copied to a new array. `grow n` is the capacity that the runtime chooses for an array that has to hold one element more than `n`. The result: the
arrays, the slice and the next free address. -/
def appendTo (grow : Nat → Nat) (arrays : Nat → List Nat) (next : Nat) (s : Slice) (x : Nat) : (Nat → List Nat) × Slice × Nat :=
  if s.len < s.cap then (put arrays s.array ((arrays s.array).set s.len x), { s with len := s.len + 1 }, next)
  else (put arrays next (s.elements arrays ++ x :: List.replicate (grow s.len - (s.len + 1)) 0), ⟨next, s.len + 1, grow s.len⟩, next + 1)

/-- The unexported part of a data record, /repo/pkg/lib/base_segment.go:501-508: slices and pointers. -/
structure SegsObject where
  j1 : Slice := {}
  j2 : Slice := {}
  k1 : Option Nat := none
  k2 : Option Nat := none
  k3 : Option Nat := none
  k4 : Option Nat := none
  l1 : Option Nat := none
  n1 : Option Nat := none
deriving DecidableEq

/-- A record in memory. -/
inductive RecordObject where
  | header (enc : Enc) (fields : Fields)
  | base (enc : Enc) (fields : Fields) (segs : SegsObject)
  | trailer (enc : Enc) (fields : Fields)
deriving DecidableEq

/-- `fileInstance`, /repo/pkg/file/file_instance.go:26-34: pointers to the records. -/
structure FileObject where
  format : Enc
  header : Nat
  bases : Slice
  trailer : Nat

/-- The memory with one file. -/
structure Memory where
  segArrays : Nat → List Nat
  recArrays : Nat → List Nat
  segments : Nat → Option Seg
  records : Nat → Option RecordObject
  next : Nat
  file : FileObject

/-! ### What a reader sees -/

/-- What a pointer that may be nil points to; `none`: a pointer to nothing. -/
def pointee (segments : Nat → Option Seg) : Option Nat → Option (Option Seg)
  | none => some none
  | some p => (segments p).map some

/-- The segments of a data record as values. -/
def SegsObject.value (m : Memory) (g : SegsObject) : Option Segs := do
  let j1 ← (g.j1.elements m.segArrays).mapM m.segments
  let j2 ← (g.j2.elements m.segArrays).mapM m.segments
  let k1 ← pointee m.segments g.k1
  let k2 ← pointee m.segments g.k2
  let k3 ← pointee m.segments g.k3
  let k4 ← pointee m.segments g.k4
  let l1 ← pointee m.segments g.l1
  let n1 ← pointee m.segments g.n1
  return ⟨j1, j2, k1, k2, k3, k4, l1, n1⟩

/-- A record as a value. -/
def RecordObject.value (m : Memory) : RecordObject → Option Record
  | .header enc fs => some (.header enc fs)
  | .base enc fs g => (g.value m).map (.base enc fs)
  | .trailer enc fs => some (.trailer enc fs)

/-- The value of the record at an address. -/
def Memory.record (m : Memory) (r : Nat) : Option Record := (m.records r).bind (·.value m)

/-- The value of the file. -/
def Memory.fileValue (m : Memory) : Option File := do
  let h ← m.record m.file.header
  let bs ← (m.file.bases.elements m.recArrays).mapM m.record
  let t ← m.record m.file.trailer
  return ⟨m.file.format, h, bs, t⟩

/-! ### Calls -/

/-- A new object for a record value without segments. -/
def Record.object : Record → RecordObject
  | .header enc fs => .header enc fs
  | .base enc fs _ => .base enc fs {}
  | .trailer enc fs => .trailer enc fs

/-- `NewFile`, /repo/pkg/file/file.go:50-69. -/
def Memory.new (enc : Enc) : Memory where
  segArrays := fun _ => []
  recArrays := fun _ => []
  segments := fun _ => none
  records := put (put (fun _ => none) 0 (some (newHeader enc).object)) 1 (some (newTrailer enc).object)
  next := 2
  file := ⟨enc, 0, {}, 1⟩

/-- `NewJ1Segment` … `NewN1Segment`, /repo/pkg/lib/segment.go:70-124; the address is the old `next`. -/
def Memory.newSegment (m : Memory) (k : SegKind) : Memory :=
  { m with segments := put m.segments m.next (some (Seg.new k)), next := m.next + 1 }

/-- `NewHeaderRecord` … `NewPackedBaseSegment`, /repo/pkg/lib/record.go:61-96: `r` is one of the six new records. -/
def Memory.newRecord (m : Memory) (r : Record) : Memory :=
  { m with records := put m.records m.next (some r.object), next := m.next + 1 }

/-- The caller assigns to exported fields of a segment. -/
def Memory.changeSegment (m : Memory) (p : Nat) (fs : Fields) : Option Memory :=
  match m.segments p with
  | none => none
  | some s => some { m with segments := put m.segments p (some ⟨s.kind, fs⟩) }

/-- A record with other exported fields. -/
def RecordObject.withFields (fs : Fields) : RecordObject → RecordObject
  | .header enc _ => .header enc fs
  | .base enc _ g => .base enc fs g
  | .trailer enc _ => .trailer enc fs

/-- The caller assigns to exported fields of a record. -/
def Memory.changeRecord (m : Memory) (r : Nat) (fs : Fields) : Option Memory :=
  match m.records r with
  | none => none
  | some o => some { m with records := put m.records r (some (o.withFields fs)) }

/-- The `switch` of `AddApplicableSegment`, /repo/pkg/lib/base_segment.go:697-714 and 1214-1231, in memory. -/
def Memory.store (grow : Nat → Nat) (m : Memory) (r : Nat) (enc : Enc) (fs : Fields) (g : SegsObject) (p : Nat) (k : SegKind) : Memory :=
  match k with
  | .j1 =>
    let a := appendTo grow m.segArrays m.next g.j1 p
    { m with segArrays := a.1, records := put m.records r (some (.base enc fs { g with j1 := a.2.1 })), next := a.2.2 }
  | .j2 =>
    let a := appendTo grow m.segArrays m.next g.j2 p
    { m with segArrays := a.1, records := put m.records r (some (.base enc fs { g with j2 := a.2.1 })), next := a.2.2 }
  | .k1 => { m with records := put m.records r (some (.base enc fs { g with k1 := some p })) }
  | .k2 => { m with records := put m.records r (some (.base enc fs { g with k2 := some p })) }
  | .k3 => { m with records := put m.records r (some (.base enc fs { g with k3 := some p })) }
  | .k4 => { m with records := put m.records r (some (.base enc fs { g with k4 := some p })) }
  | .l1 => { m with records := put m.records r (some (.base enc fs { g with l1 := some p })) }
  | .n1 => { m with records := put m.records r (some (.base enc fs { g with n1 := some p })) }

/-- `AddApplicableSegment` in memory, /repo/pkg/lib/base_segment.go:692-717, 1209-1234; headers and trailers as in `Record.addSegment`. `none`: one of
the addresses holds nothing. -/
def Memory.addSegment (grow : Nat → Nat) (m : Memory) (r p : Nat) : Option (Memory × Option Err) :=
  match m.records r, m.segments p with
  | some (.base enc fs g), some s =>
    match s.validate with
    | some e => some (m, some e)
    | none => some (m.store grow r enc fs g p s.kind, none)
  | some _, some _ => some (m, some .applicableSegment)
  | _, _ => none

/-- `SetRecord` in memory, /repo/pkg/file/file_instance.go:37-54: the pointer is kept. -/
def Memory.setRecord (m : Memory) (r : Nat) : Option (Memory × Option Err) :=
  match m.record r with
  | none => none
  | some v =>
    match v.validate with
    | some err => some (m, some err)
    | none =>
      match v with
      | .header enc _ =>
        if m.file.format = enc then some ({ m with file := { m.file with header := r } }, none) else some (m, some .invalidRecord)
      | .trailer enc _ =>
        if m.file.format = enc then some ({ m with file := { m.file with trailer := r } }, none) else some (m, some .invalidRecord)
      | .base _ _ _ => some (m, some .invalidRecord)

/-- `AddDataRecord` in memory, /repo/pkg/file/file_instance.go:57-72: the pointer is appended to the slice of the file. -/
def Memory.addDataRecord (grow : Nat → Nat) (m : Memory) (r : Nat) : Option (Memory × Option Err) :=
  match m.record r with
  | none => none
  | some v =>
    match v.validate with
    | some err => some (m, some err)
    | none =>
      match v with
      | .base enc _ _ =>
        if m.file.format = enc then
          let a := appendTo grow m.recArrays m.next m.file.bases r
          some ({ m with recArrays := a.1, next := a.2.2, file := { m.file with bases := a.2.1 } }, none)
        else some (m, some .invalidRecord)
      | _ => some (m, some .invalidRecord)

/-- The loop of `SetType` over the data records, /repo/pkg/file/file_instance.go:431-441, 463-473: every struct is copied, with its slices and
pointers, and the address of the copy is appended to a new slice. With the memory it gives that slice; `none`: a record of another type. -/
def Memory.convertLoop (grow : Nat → Nat) (src dst : Enc) : List Nat → Slice → Memory → Option (Memory × Slice)
  | [], acc, m => some (m, acc)
  | r :: rs, acc, m =>
    match m.records r with
    | some (.base enc fs g) =>
      if enc = src then
        let a := appendTo grow m.recArrays (m.next + 1) acc m.next
        Memory.convertLoop grow src dst rs a.2.1
          { m with records := put m.records m.next (some (.base dst fs g)), recArrays := a.1, next := a.2.2 }
      else none
    | _ => none

/-- `SetType` in memory when the type changes, /repo/pkg/file/file_instance.go:420-486. An error leaves the parts converted so far in the file. The copies
of data records made before an error are forgotten at once, so they are left out. -/
def Memory.convert (grow : Nat → Nat) (m : Memory) (dst : Enc) : Memory × Option Err :=
  match m.records m.file.header with
  | some (.header e fs) =>
    if e = m.file.format then
      let m1 := { m with records := put m.records m.next (some (.header dst fs)), next := m.next + 1, file := { m.file with header := m.next } }
      match m1.convertLoop grow m.file.format dst (m.file.bases.elements m.recArrays) {} with
      | none => (m1, some .invalidRecord)
      | some (m2, bases) =>
        let m3 := { m2 with file := { m2.file with bases := bases } }
        match m3.records m.file.trailer with
        | some (.trailer e' fs') =>
          if e' = m.file.format then
            ({ m3 with records := put m3.records m3.next (some (.trailer dst fs')), next := m3.next + 1,
                       file := { m3.file with format := dst, trailer := m3.next } }, none)
          else (m3, some .invalidRecord)
        | _ => (m3, some .invalidRecord)
    else (m, some .invalidRecord)
  | _ => (m, some .invalidRecord)

/-- `SetType` in memory, /repo/pkg/file/file_instance.go:411-488. -/
def Memory.setType (grow : Nat → Nat) (m : Memory) (name : Bytes) : Memory × Option Err :=
  if name ≠ Enc.character.name ∧ name ≠ Enc.packed.name then (m, some .invalidFile)
  else
    let dst : Enc := if name = Enc.character.name then .character else .packed
    if m.file.format = dst then (m, none) else m.convert grow dst

/-- A call, with addresses for the objects it is about. -/
inductive Call where
  | newSegment (k : SegKind)
  | newHeader (enc : Enc)
  | newBase (enc : Enc)
  | newTrailer (enc : Enc)
  | changeSegment (p : Nat) (fs : Fields)
  | changeRecord (r : Nat) (fs : Fields)
  | addSegment (r p : Nat)
  | setRecord (r : Nat)
  | addDataRecord (r : Nat)
  | setType (name : Bytes)

/-- The memory after a call and the error that it returns; `none` if an address holds nothing. -/
def Memory.call (grow : Nat → Nat) (m : Memory) : Call → Option (Memory × Option Err)
  | .newSegment k => some (m.newSegment k, none)
  | .newHeader enc => some (m.newRecord (Metro2.newHeader enc), none)
  | .newBase enc => some (m.newRecord (Metro2.newBase enc), none)
  | .newTrailer enc => some (m.newRecord (Metro2.newTrailer enc), none)
  | .changeSegment p fs => (m.changeSegment p fs).map (·, none)
  | .changeRecord r fs => (m.changeRecord r fs).map (·, none)
  | .addSegment r p => m.addSegment grow r p
  | .setRecord r => m.setRecord r
  | .addDataRecord r => m.addDataRecord grow r
  | .setType name => some (m.setType grow name)

end Metro2
