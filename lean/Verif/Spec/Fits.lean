import Verif.Model.Types
import Verif.Spec.Text

/-!
Which values fit a field of a layout table. Uses the data types of the model but none of its functions.
-/

namespace Metro2.Spec

/-- An existing second in UTC with a four-digit year. -/
def PlainTime (t : Time) : Prop :=
  ∃ y : Nat, t.year = y ∧ y ≤ 9999 ∧ DayExists t.month t.day y ∧
    t.hour < 24 ∧ t.min < 60 ∧ t.sec < 60 ∧ t.nsec = 0 ∧ t.loc = .utc

/-- Midnight. -/
def Midnight (t : Time) : Prop := t.hour = 0 ∧ t.min = 0 ∧ t.sec = 0

/-- January 1, year 1, 00:00:00 UTC, which stands for "no date". -/
def noTime : Time := ⟨1, 1, 1, 0, 0, 0, 0, .utc⟩

/-- At most `n` permitted characters, the last not a blank. -/
def FitsText (n : Nat) (s : List UInt8) : Prop :=
  s.length ≤ n ∧ (∀ c ∈ s, Permitted c) ∧ s.getLast? ≠ some 32

/-- The number is written in exactly `n` places: without a sign, or with a minus sign that leaves no room for a leading
zero (leading zeros would stand before the sign). -/
def FitsNumber (n : Nat) (i : Int) : Prop :=
  (0 ≤ i ∧ i < 10 ^ n) ∨ (2 ≤ n ∧ 10 ^ (n - 2) ≤ -i ∧ -i < 10 ^ (n - 1))

/-- The value fits the field: it can be represented in the field and, when the field is one
whose emptiness the reader checks, it is not empty. -/
def Fits (e : Field) (v : Val) : Prop :=
  match e.typ, v with
  | .numeric, .int i => FitsNumber e.len i ∧ -(2 ^ 63) ≤ i ∧ i < 2 ^ 63 ∧ (e.req = .required → i ≠ 0)
  | .alphanumeric, .str s => FitsText e.len s
  | .timestamp, .time t => PlainTime t ∧ (e.req = .required → t ≠ noTime)
  | .date, .time t => PlainTime t ∧ Midnight t ∧ (e.req = .required → t ≠ noTime)
  | .descriptor, .int i => 0 ≤ i ∧ i ≤ 65535
  | .packedTimestamp, .time t => PlainTime t
  | .packedDate, .time t => PlainTime t ∧ Midnight t
  | .packedNumber, .int i => 0 ≤ i ∧ i < 256 ^ e.len
  | _, _ => False

/-- The width of a row agrees with its type. -/
def WidthOk (e : Field) : Bool :=
  match e.typ with
  | .numeric => decide (1 ≤ e.len)
  | .alphanumeric => decide (1 ≤ e.len)
  | .alpha => false
  | .timestamp => e.len = 14
  | .date => e.len = 8
  | .descriptor => e.len = 4
  | .packedTimestamp => e.len = 8
  | .packedDate => e.len = 5
  | .packedNumber => decide (1 ≤ e.len) && decide (e.len ≤ 7)

end Metro2.Spec
