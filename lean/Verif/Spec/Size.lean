import Verif.Spec.Calm
import Verif.Spec.Work

/-! Sizes of records, for C127. -/

namespace Metro2.Spec

/-- The numbers that Go's `time.Time` can give for a time: its seconds are counted in 64 bits, so a year has at most twelve digits. -/
def GoTime (t : Time) : Prop :=
  t.month ≤ 12 ∧ t.day ≤ 31 ∧ t.hour < 24 ∧ t.min < 60 ∧ t.sec < 60 ∧ t.year.natAbs < 10 ^ 12

/-- All times among the values are such times. -/
def GoTimes (fs : Fields) : Prop := ∀ f t, (f, Val.time t) ∈ fs → GoTime t

/-- The segments of a record. -/
def segmentsOf (g : Segs) : List Seg := g.j1 ++ g.j2 ++ [g.k1, g.k2, g.k3, g.k4, g.l1, g.n1].filterMap id

/-- The same in a whole record. -/
def GoRecord : Record → Prop
  | .header _ fs => GoTimes fs
  | .base _ fs g => GoTimes fs ∧ ∀ s ∈ segmentsOf g, GoTimes s.fields
  | .trailer _ fs => GoTimes fs

/-- The documented length of a record without block descriptor, with its segments. -/
def nominal : Record → Nat
  | .header enc _ => recordLength enc
  | .base enc _ g => recordLength enc + ((segmentsOf g).map fun s => segmentLength s.kind).sum
  | .trailer enc _ => recordLength enc

/-- The same in a whole file. -/
structure GoFile (f : File) : Prop where
  header : GoRecord f.header
  bases : ∀ r ∈ f.bases, GoRecord r
  trailer : GoRecord f.trailer

end Metro2.Spec
