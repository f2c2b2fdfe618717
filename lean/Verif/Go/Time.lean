import Verif.Go.Basic

/-!
The part of Go's `time` package that metro2 uses. Hand-written description of the standard
library (trusted base), except where /repo is cited.
-/

namespace Metro2

/-- The location of a `time.Time`: UTC (a nil pointer in Go) or a zone with a fixed offset in
seconds. Simplification: zone names and daylight-saving rules are not modelled. -/
inductive Loc where
  | utc
  | zone (offset : Int)
deriving DecidableEq, Repr

/-- `utils.Time` (/repo/pkg/utils/time.go:10), i.e. `time.Time`, represented by its civil fields
in its location. Simplification: Go stores an instant and a location and derives the civil
fields; monotonic clock readings are not modelled. `Time.Valid` says that the
fields are those of an existing moment. -/
structure Time where
  year : Int
  month : Nat
  day : Nat
  hour : Nat
  min : Nat
  sec : Nat
  nsec : Nat
  loc : Loc
deriving DecidableEq, Repr

/-- `time.Time{}`: January 1, year 1, 00:00:00 UTC. -/
def Time.zero : Time := ⟨1, 1, 1, 0, 0, 0, 0, .utc⟩

/-- `time.isLeap`. -/
def isLeap (y : Int) : Bool := y % 4 = 0 && (y % 100 ≠ 0 || y % 400 = 0)

/-- `time.daysIn`. -/
def daysIn (m : Nat) (y : Int) : Nat :=
  if m = 2 then (if isLeap y then 29 else 28)
  else if m = 4 ∨ m = 6 ∨ m = 9 ∨ m = 11 then 30
  else 31

/-- Days from the start of the year to the start of month `m`. -/
def daysBeforeMonth (m : Nat) (y : Int) : Nat :=
  ((List.range (m - 1)).map fun i => daysIn (i + 1) y).sum

/-- Days from January 1 of year 1 to January 1 of year `y` (proleptic Gregorian). -/
def daysBeforeYear (y : Int) : Int :=
  365 * (y - 1) + (y - 1) / 4 - (y - 1) / 100 + (y - 1) / 400

/-- Offset east of UTC in seconds. -/
def Loc.offset : Loc → Int
  | .utc => 0
  | .zone o => o

/-- Seconds from January 1, year 1, 00:00:00 UTC to the instant. -/
def Time.absSec (t : Time) : Int :=
  (daysBeforeYear t.year + daysBeforeMonth t.month t.year + (t.day - 1 : Int)) * 86400
    + t.hour * 3600 + t.min * 60 + t.sec - t.loc.offset

/-- `time.Time.IsZero`: the instant is that of `time.Time{}` (/repo/pkg/utils/time.go:46-50). -/
def Time.isZero (t : Time) : Bool := t.absSec = 0 && t.nsec = 0

/-- `reflect.Value.IsZero` on a `utils.Time`: the instant is zero and the location pointer nil. -/
def Time.reflectZero (t : Time) : Bool := t.isZero && t.loc = .utc

/-- The fields are those of an existing civil time. -/
def Time.Valid (t : Time) : Prop :=
  1 ≤ t.month ∧ t.month ≤ 12 ∧ 1 ≤ t.day ∧ t.day ≤ daysIn t.month t.year ∧
  t.hour < 24 ∧ t.min < 60 ∧ t.sec < 60 ∧ t.nsec < 1000000000

instance (t : Time) : Decidable t.Valid := by unfold Time.Valid; infer_instance

/-- The layout elements ("std chunks") that occur in metro2's two fixed layouts. -/
inductive Std where
  | zeroMonth
  | zeroDay
  | longYear
  | hour
  | zeroMinute
  | zeroSecond
deriving DecidableEq, Repr

/-- `dateFormat = "01022006"`, /repo/pkg/lib/constants.go:511, split as `time.nextStdChunk` does. -/
def dateFormat : List Std := [.zeroMonth, .zeroDay, .longYear]

/-- `timestampFormat = "01022006150405"`, /repo/pkg/lib/constants.go:510. -/
def timestampFormat : List Std :=
  [.zeroMonth, .zeroDay, .longYear, .hour, .zeroMinute, .zeroSecond]

/-- `time.appendInt(b, x, width)`. -/
def appendInt (x : Int) (width : Nat) : Bytes :=
  match x with
  | .ofNat n => padLeft width 48 (fmtNat n)
  | .negSucc n => 45 :: padLeft width 48 (fmtNat (n + 1))

/-- One layout element of `Time.Format`. -/
def formatStd (t : Time) : Std → Bytes
  | .zeroMonth => appendInt t.month 2
  | .zeroDay => appendInt t.day 2
  | .longYear => appendInt t.year 4
  | .hour => appendInt t.hour 2
  | .zeroMinute => appendInt t.min 2
  | .zeroSecond => appendInt t.sec 2

/-- `Time.Format` for a layout made of the elements above. -/
def Time.format (t : Time) (layout : List Std) : Bytes := (layout.map (formatStd t)).flatten

/-- `time.getnum(s, fixed)`: a one- or two-digit number; with `fixed` exactly two digits. -/
def getnum (fixed : Bool) : Bytes → Option (Nat × Bytes)
  | [] => none
  | [c] => if isDigit c ∧ ¬ fixed then some (c.toNat - 48, []) else none
  | c :: d :: rest =>
    if ¬ isDigit c then none
    else if ¬ isDigit d then (if fixed then none else some (c.toNat - 48, d :: rest))
    else some ((c.toNat - 48) * 10 + (d.toNat - 48), rest)

/-- One layout element of `time.Parse`; `none` is an error. Simplification: the
optional fractional second after `05` is not modelled; metro2 only parses texts of 8 or 14 bytes
(or of digits alone) with these layouts, where it cannot occur. -/
def parseStd (t : Time) (s : Bytes) : Std → Option (Time × Bytes)
  | .zeroMonth => do
    let (m, rest) ← getnum true s
    if m = 0 ∨ 12 < m then none else some ({ t with month := m }, rest)
  | .zeroDay => do
    let (d, rest) ← getnum true s
    some ({ t with day := d }, rest)
  | .longYear =>
    if s.length < 4 ∨ (s.take 4).all isDigit = false then none
    else some ({ t with year := digitsVal (s.take 4) }, s.drop 4)
  | .hour => do
    let (h, rest) ← getnum false s
    if 24 ≤ h then none else some ({ t with hour := h }, rest)
  | .zeroMinute => do
    let (m, rest) ← getnum true s
    if 60 ≤ m then none else some ({ t with min := m }, rest)
  | .zeroSecond => do
    let (x, rest) ← getnum true s
    if 60 ≤ x then none else some ({ t with sec := x }, rest)

/-- The element loop of `time.Parse`. -/
def parseStds (t : Time) (s : Bytes) : List Std → Option (Time × Bytes)
  | [] => some (t, s)
  | e :: es => do
    let (t', s') ← parseStd t s e
    parseStds t' s' es

/-- `time.Parse(layout, s)` for the two layouts; `none` is an error. -/
def Time.parse (layout : List Std) (s : Bytes) : Option Time := do
  let (t, rest) ← parseStds Time.zero s layout
  if rest ≠ [] then none
  else if t.day < 1 ∨ daysIn t.month t.year < t.day then none
  else some t

end Metro2
