import Verif.Spec.Dates

/-! Times that the client holds: with fractions of a second, in any zone. -/

namespace Metro2.Spec

/-- A fraction of a second in nanoseconds: nothing, or a point and up to nine digits. -/
def FractionText (s : List UInt8) (ns : Nat) : Prop :=
  (s = [] ∧ ns = 0) ∨ ∃ d n, s = 46 :: d ∧ 1 ≤ d.length ∧ d.length ≤ 9 ∧ Decimal d n ∧ ns = n * 10 ^ (9 - d.length)

/-- A zone: Z, or a sign, hours and minutes. -/
def ZoneText (s : List UInt8) (l : Loc) : Prop :=
  (s = [90] ∧ l = .utc) ∨ ∃ sign zh zm a b, s = [sign] ++ zh ++ [58] ++ zm ∧ zh.length = 2 ∧ zm.length = 2 ∧
    Decimal zh a ∧ Decimal zm b ∧ a ≤ 24 ∧ b ≤ 60 ∧
    ((sign = 43 ∧ l = .zone (3600 * a + 60 * b)) ∨ (sign = 45 ∧ l = .zone (-(3600 * a + 60 * b : Int))))

/-- The text names the time `t` in the form 2006-01-02T15:04:05.999999999Z07:00. -/
def InstantText (s : List UInt8) (t : Time) : Prop :=
  ∃ y mo d h mi se fr z : List UInt8,
    s = y ++ [45] ++ mo ++ [45] ++ d ++ [84] ++ h ++ [58] ++ mi ++ [58] ++ se ++ fr ++ z ∧
    y.length = 4 ∧ mo.length = 2 ∧ d.length = 2 ∧ h.length = 2 ∧ mi.length = 2 ∧ se.length = 2 ∧
    (∃ n : Nat, t.year = n ∧ Decimal y n) ∧ Decimal mo t.month ∧ Decimal d t.day ∧
    Decimal h t.hour ∧ Decimal mi t.min ∧ Decimal se t.sec ∧ FractionText fr t.nsec ∧ ZoneText z t.loc

/-- What is left of a time after it is sent: the offset of its zone loses its seconds. -/
def sentTime (t : Time) : Time := { t with loc := minuteZone t.loc }

/-- A time that is sent as it is: it exists, and its zone is UTC or a number of whole minutes, less than a day, away from it. -/
def SentWhole (t : Time) : Prop :=
  ExistingTime t ∧ t.nsec < 1000000000 ∧ (t.loc = .utc ∨ ∃ m : Int, m ≠ 0 ∧ m.natAbs < 1440 ∧ t.loc = .zone (60 * m))

end Metro2.Spec
