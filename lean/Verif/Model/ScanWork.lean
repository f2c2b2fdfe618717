import Verif.Model.Scanner

/-! `scanRecord` once more, with the number of bytes looked at counted in the second component. -/

namespace Metro2

/-- The loop of `getStripedData`, /repo/pkg/file/file.go:251-265, as `stripedDataLoop`: for each `i` it looks at all bytes of `data[:i]` (255). -/
def stripedDataLoopW (data : Bytes) (size : Nat) : Nat → Nat → Option (Nat × Bytes) × Nat
  | 0, _ => (none, 0)
  | n + 1, i =>
    let buffer := (data.take i).filter (fun b => b != 13 && b != 10)
    if buffer.length = size then (some (i, buffer), (data.take i).length)
    else
      let p := stripedDataLoopW data size n (i + 1)
      (p.1, (data.take i).length + p.2)

/-- `getStripedData`, /repo/pkg/file/file.go:251-265. -/
def stripedDataW (data : Bytes) (size : Nat) : Option (Nat × Bytes) × Nat :=
  stripedDataLoopW data size (data.length + 1 - size) size

/-- `scanRecord`, /repo/pkg/file/file.go:237-304: `getStripedLength` looks at every byte once (238-249), and there are up to two calls of `getStripedData`
(279 and 296). -/
def scanRecordW (data : Bytes) (atEOF : Bool) : Split × Nat :=
  let length := stripedLength data
  if atEOF ∧ length = 0 then (.more, data.length)
  else if length < 4 ∧ atEOF then (.fail, data.length)
  else if length < 4 then (.more, data.length)
  else
    match stripedDataW data 4 with
    | (none, n) => (.fail, data.length + n)
    | (some (_, bdw), n) =>
      match scanSize bdw with
      | none => (.fail, data.length + n)
      | some size =>
        if size ≤ length then
          match stripedDataW data size with
          | (none, m) => (.fail, data.length + n + m)
          | (some (i, tok), m) => (.token i tok, data.length + n + m)
        else if atEOF then (.fail, data.length + n)
        else (.more, data.length + n)

end Metro2
