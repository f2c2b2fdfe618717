import Verif.Spec.Client

/-! What the client can write, and what it reads of it. -/

namespace Metro2.Spec

/-! ### The times of a file -/

/-- All times of a value of a client type. -/
def TimesRec (P : Time → Prop) (client : List (F × FieldDecl)) (c : ClientRec) : Prop := ∀ p ∈ client, ∀ t, c p.1 = some (.time t) → P t

/-- All times of a data record. -/
structure TimesData (P : Time → Prop) (d : ClientData) : Prop where
  base : TimesRec P clientBaseSegment d.base
  j1 : ∀ c ∈ d.j1, TimesRec P clientJ1Segment c
  j2 : ∀ c ∈ d.j2, TimesRec P clientJ2Segment c
  k1 : ∀ c, d.k1 = some c → TimesRec P clientK1Segment c
  k2 : ∀ c, d.k2 = some c → TimesRec P clientK2Segment c
  k3 : ∀ c, d.k3 = some c → TimesRec P clientK3Segment c
  k4 : ∀ c, d.k4 = some c → TimesRec P clientK4Segment c
  l1 : ∀ c, d.l1 = some c → TimesRec P clientL1Segment c
  n1 : ∀ c, d.n1 = some c → TimesRec P clientN1Segment c

/-- All times of a file. -/
structure TimesFile (P : Time → Prop) (f : ClientFile) : Prop where
  header : TimesRec P clientHeaderRecord f.header
  data : ∀ d ∈ f.data, TimesData P d
  trailer : TimesRec P clientTrailerRecord f.trailer

/-- A time that has a text: the year has four digits, and the zone is less than a day away from UTC. -/
def Writable (t : Time) : Prop := 0 ≤ t.year ∧ t.year ≤ 9999 ∧ t.loc.offset.natAbs < 86400

/-- A zone that a text can tell: UTC, or a number of minutes away from it. -/
def WholeZone (t : Time) : Prop := t.loc = .utc ∨ ∃ m : Int, m ≠ 0 ∧ t.loc = .zone (60 * m)

/-! ### What a Go program can hold -/

/-- A value of a field of the client, as Go has it: an `int32` or `int64`, a well-formed text, a time that exists. -/
def OwnVal (k : Kind) : Val → Prop
  | .int i => if k = .int then -2147483648 ≤ i ∧ i ≤ 2147483647 else -(2 ^ 63) ≤ i ∧ i < 2 ^ 63
  | .str s => Utf8 s
  | .time t => ExistingTime t ∧ t.nsec < 1000000000 ∧ t.loc.offset.natAbs < 86400

/-- A value of a client type: only pointers may be nil. -/
def OwnRec (client : List (F × FieldDecl)) (c : ClientRec) : Prop :=
  ∀ f, match client.lookup f, c f with
    | none, v => v = none
    | some d, none => d.omitempty = true
    | some d, some v => v.hasKind d.kind = true ∧ OwnVal d.kind v

/-- A data record. -/
structure OwnData (d : ClientData) : Prop where
  base : OwnRec clientBaseSegment d.base
  j1 : ∀ c ∈ d.j1, OwnRec clientJ1Segment c
  j2 : ∀ c ∈ d.j2, OwnRec clientJ2Segment c
  k1 : ∀ c, d.k1 = some c → OwnRec clientK1Segment c
  k2 : ∀ c, d.k2 = some c → OwnRec clientK2Segment c
  k3 : ∀ c, d.k3 = some c → OwnRec clientK3Segment c
  k4 : ∀ c, d.k4 = some c → OwnRec clientK4Segment c
  l1 : ∀ c, d.l1 = some c → OwnRec clientL1Segment c
  n1 : ∀ c, d.n1 = some c → OwnRec clientN1Segment c

/-- A file. -/
structure OwnFile (f : ClientFile) : Prop where
  header : OwnRec clientHeaderRecord f.header
  data : ∀ d ∈ f.data, OwnData d
  trailer : OwnRec clientTrailerRecord f.trailer

/-! ### What is left of it -/

/-- A value: times lose the seconds of the offset of their zone. -/
def sentVal : Val → Val
  | .time t => .time (sentTime t)
  | v => v

/-- All values of a client type. -/
def sentRec (c : ClientRec) : ClientRec := fun f => (c f).map sentVal

/-- A data record. -/
def sentData (d : ClientData) : ClientData :=
  ⟨sentRec d.base, d.j1.map sentRec, d.j2.map sentRec, d.k1.map sentRec, d.k2.map sentRec, d.k3.map sentRec, d.k4.map sentRec, d.l1.map sentRec,
    d.n1.map sentRec⟩

/-- A file. -/
def sentFile (f : ClientFile) : ClientFile := ⟨sentRec f.header, f.data.map sentData, sentRec f.trailer⟩

end Metro2.Spec
