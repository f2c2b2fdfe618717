import Verif.Model.File

/-!
`ConcurrentString`, /repo/pkg/file/file_instance.go:269-335, as a state machine over the steps of the calling goroutine and of
the worker goroutines. Any enabled step may be taken next. The memory is sequentially consistent: workers write to
different elements of `dataPages` (C37_race_free) and the caller reads them after `wg.Wait`, so there are
no data races. `Record.String` only reads the record.
-/

namespace Metro2

/-- `pageSize`, /repo/pkg/file/file_instance.go:283, with the adjustment of `goroutines` at 270-272. Simplification: Go divides
in `float64` and rounds up, which is exact for fewer than 2^53 data records; C37 does not depend on the value. -/
def pageSize (len : Nat) (goroutines : Int) : Nat :=
  let g := if goroutines < 1 then 1 else goroutines.toNat
  (len + g - 1) / g

/-- The loop that cuts the data records into pages, /repo/pkg/file/file_instance.go:285-291, from position `i`.
`none`: not finished after `fuel` iterations. -/
def pagesFrom (bases : List Record) (size : Nat) : Nat → Nat → Option (List (List Record))
  | 0, i => if i < bases.length then none else some []
  | fuel + 1, i =>
    if i < bases.length then
      let e := if bases.length < i + size then bases.length else i + size
      (pagesFrom bases size fuel (i + size)).map fun ps => ((bases.drop i).take (e - i)) :: ps
    else some []

/-- What a worker does next. -/
inductive Phase where
  | record    -- start of an iteration, or after the last one: the assignment to `dataPages[idx]`
  | newline   -- `data.WriteString(newLine)`
  | stored    -- the assignment is done, `wg.Done()` is to come
  | exited
deriving DecidableEq, Repr

/-- A worker goroutine, /repo/pkg/file/file_instance.go:304-313: its arguments `idx` and the rest of `page`, and its builder `data`. -/
structure Worker where
  idx : Nat
  todo : List Record
  data : Bytes
  phase : Phase
deriving DecidableEq, Repr

/-- State of a call of `ConcurrentString`: the text of the header, the pages for which no worker has been started, with their
indices, the workers started, `dataPages`, the counter of the wait group, the result. -/
structure CState where
  header : Bytes
  pending : List (Nat × List Record)
  workers : List Worker
  dataPages : List Bytes
  wg : Int
  result : Option Bytes
deriving DecidableEq, Repr

/-- The state before the first worker is started, /repo/pkg/file/file_instance.go:270-301. -/
def cstart (f : File) (isNewLine : Bool) (size : Nat) : Option CState :=
  (pagesFrom f.bases size f.bases.length 0).map fun pages =>
    { header := f.header.string ++ newLine isNewLine
      pending := pages.zipIdx.map fun p => (p.2, p.1)
      workers := []
      dataPages := List.replicate pages.length []
      wg := 0
      result := none }

/-- One step of one goroutine. Storing to an index outside of `dataPages` would panic and is not a step; C37_progress shows that it
does not happen. -/
inductive CStep (f : File) (isNewLine : Bool) : CState → CState → Prop where
  /-- caller: `wg.Add(1)` and the `go` statement, /repo/pkg/file/file_instance.go:302-313 -/
  | spawn {s : CState} {i : Nat} {page : List Record} {rest : List (Nat × List Record)}
      (h : s.pending = (i, page) :: rest) :
      CStep f isNewLine s { s with
        pending := rest, workers := s.workers ++ [⟨i, page, [], .record⟩], wg := s.wg + 1 }
  /-- worker: `data.WriteString(base.String())`, 309 -/
  | writeRecord {s : CState} {j : Nat} {w : Worker} {r : Record} {rest : List Record}
      (h : s.workers[j]? = some w) (hp : w.phase = .record) (ht : w.todo = r :: rest) :
      CStep f isNewLine s { s with
        workers := s.workers.set j { w with data := w.data ++ r.string, todo := rest, phase := .newline } }
  /-- worker: `data.WriteString(newLine)`, 310 -/
  | writeNewline {s : CState} {j : Nat} {w : Worker} (h : s.workers[j]? = some w) (hp : w.phase = .newline) :
      CStep f isNewLine s { s with
        workers := s.workers.set j { w with data := w.data ++ newLine isNewLine, phase := .record } }
  /-- worker: `dataPages[idx] = data.String()`, 312 -/
  | store {s : CState} {j : Nat} {w : Worker} (h : s.workers[j]? = some w) (hp : w.phase = .record)
      (ht : w.todo = []) (hi : w.idx < s.dataPages.length) :
      CStep f isNewLine s { s with
        workers := s.workers.set j { w with phase := .stored }, dataPages := s.dataPages.set w.idx w.data }
  /-- worker: `wg.Done()`, 305 -/
  | done {s : CState} {j : Nat} {w : Worker} (h : s.workers[j]? = some w) (hp : w.phase = .stored) :
      CStep f isNewLine s { s with workers := s.workers.set j { w with phase := .exited }, wg := s.wg - 1 }
  /-- caller: `wg.Wait()` returns and the blocks are combined, 314-334 -/
  | finish {s : CState} (h : s.pending = []) (hw : s.wg = 0) (hr : s.result = none) :
      CStep f isNewLine s { s with result := some (s.header ++ s.dataPages.flatten ++ f.trailer.string) }

/-- Runs of a given length. -/
inductive CRun (f : File) (isNewLine : Bool) : Nat → CState → CState → Prop where
  | refl (s : CState) : CRun f isNewLine 0 s s
  | step {n : Nat} {s t u : CState} (h : CRun f isNewLine n s t) (h' : CStep f isNewLine t u) :
      CRun f isNewLine (n + 1) s u

end Metro2
