import Verif.Spec.ClientTime

/-! Which texts the client takes for times. -/

namespace Metro2.Spec

/-- A fraction of a second in whole nanoseconds: nothing, or a point or a comma and one digit or more. -/
def LooseFraction (s : List UInt8) (ns : Nat) : Prop :=
  (s = [] ∧ ns = 0) ∨ ∃ c d n, s = c :: d ∧ (c = 46 ∨ c = 44) ∧ d ≠ [] ∧ Decimal d n ∧ ns = n * 10 ^ 9 / 10 ^ d.length

/-- The text names the existing time `t` in the form 2006-01-02T15:04:05.999999999Z07:00, the hour with one digit or two. -/
def LooseText (s : List UInt8) (t : Time) : Prop :=
  ExistingTime t ∧ ∃ y mo d h mi se fr z : List UInt8,
    s = y ++ [45] ++ mo ++ [45] ++ d ++ [84] ++ h ++ [58] ++ mi ++ [58] ++ se ++ fr ++ z ∧
    y.length = 4 ∧ mo.length = 2 ∧ d.length = 2 ∧ (h.length = 1 ∨ h.length = 2) ∧ mi.length = 2 ∧ se.length = 2 ∧
    (∃ n : Nat, t.year = n ∧ Decimal y n) ∧ Decimal mo t.month ∧ Decimal d t.day ∧
    Decimal h t.hour ∧ Decimal mi t.min ∧ Decimal se t.sec ∧ LooseFraction fr t.nsec ∧ ZoneText z t.loc

/-- The text names a time. -/
def TakenForTime (s : List UInt8) : Prop := ∃ t, LooseText s t

/-- A fraction of a second as RFC 3339 has it: nothing, or a point and one digit or more. -/
def RfcFraction (s : List UInt8) (ns : Nat) : Prop :=
  (s = [] ∧ ns = 0) ∨ ∃ d n, s = 46 :: d ∧ d ≠ [] ∧ Decimal d n ∧ ns = n * 10 ^ 9 / 10 ^ d.length

/-- A zone as RFC 3339 has it: Z, or a sign, hours below 24 and minutes below 60. -/
def RfcZone (s : List UInt8) (l : Loc) : Prop :=
  (s = [90] ∧ l = .utc) ∨ ∃ sign zh zm a b, s = [sign] ++ zh ++ [58] ++ zm ∧ zh.length = 2 ∧ zm.length = 2 ∧
    Decimal zh a ∧ Decimal zm b ∧ a < 24 ∧ b < 60 ∧
    ((sign = 43 ∧ l = .zone (3600 * a + 60 * b)) ∨ (sign = 45 ∧ l = .zone (-(3600 * a + 60 * b : Int))))

/-- A text of RFC 3339 for the existing time `t`, in capital letters and without leap seconds. -/
def RfcText (s : List UInt8) (t : Time) : Prop :=
  ExistingTime t ∧ ∃ y mo d h mi se fr z : List UInt8,
    s = y ++ [45] ++ mo ++ [45] ++ d ++ [84] ++ h ++ [58] ++ mi ++ [58] ++ se ++ fr ++ z ∧
    y.length = 4 ∧ mo.length = 2 ∧ d.length = 2 ∧ h.length = 2 ∧ mi.length = 2 ∧ se.length = 2 ∧
    (∃ n : Nat, t.year = n ∧ Decimal y n) ∧ Decimal mo t.month ∧ Decimal d t.day ∧
    Decimal h t.hour ∧ Decimal mi t.min ∧ Decimal se t.sec ∧ RfcFraction fr t.nsec ∧ RfcZone z t.loc

end Metro2.Spec
