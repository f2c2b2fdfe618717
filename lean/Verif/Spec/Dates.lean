import Verif.Spec.Json

/-! Date texts. -/

namespace Metro2.Spec

/-- Midnight UTC of a day. -/
def dayOf (m d y : Nat) : Time := ⟨y, m, d, 0, 0, 0, 0, .utc⟩

/-- Three numbers of two, two and four digits with a separator between them. -/
def NumberText (sep : UInt8) (s : List UInt8) (a b y : Nat) : Prop :=
  ∃ sa sb sy : List UInt8, s = sa ++ [sep] ++ sb ++ [sep] ++ sy ∧ sa.length = 2 ∧ sb.length = 2 ∧ sy.length = 4 ∧
    Decimal sa a ∧ Decimal sb b ∧ Decimal sy y

/-- A date as month, day and year and a time of twelve hours, each number in its full width: 01/02/2006 03:04 PM. -/
def TwelveHourText (s : List UInt8) (a b y h m : Nat) (pm : Bool) : Prop :=
  ∃ sa sb sy sh sm : List UInt8,
    s = sa ++ [47] ++ sb ++ [47] ++ sy ++ [32] ++ sh ++ [58] ++ sm ++ [32] ++ [if pm then 80 else 65, 77] ∧
    sa.length = 2 ∧ sb.length = 2 ∧ sy.length = 4 ∧ sh.length = 2 ∧ sm.length = 2 ∧
    Decimal sa a ∧ Decimal sb b ∧ Decimal sy y ∧ Decimal sh h ∧ Decimal sm m

/-- The hour of the day for an hour on a clock face: twelve stands for zero, and the afternoon is twelve hours later. -/
def dayHour (h : Nat) (pm : Bool) : Nat := h % 12 + if pm then 12 else 0

/-- The text names the second `t` in the form 2006-01-02T15:04:05-07:00. -/
def IsoZoneText (s : List UInt8) (t : Time) : Prop :=
  ∃ y mo d h mi se zh zm : List UInt8, ∃ sign : UInt8, ∃ a b : Nat,
    s = y ++ [45] ++ mo ++ [45] ++ d ++ [84] ++ h ++ [58] ++ mi ++ [58] ++ se ++ [sign] ++ zh ++ [58] ++ zm ∧
    y.length = 4 ∧ mo.length = 2 ∧ d.length = 2 ∧ h.length = 2 ∧ mi.length = 2 ∧ se.length = 2 ∧ zh.length = 2 ∧ zm.length = 2 ∧
    (∃ n : Nat, t.year = n ∧ Decimal y n) ∧ Decimal mo t.month ∧ Decimal d t.day ∧
    Decimal h t.hour ∧ Decimal mi t.min ∧ Decimal se t.sec ∧ Decimal zh a ∧ Decimal zm b ∧ a ≤ 24 ∧ b ≤ 60 ∧
    ((sign = 43 ∧ t.loc = .zone (3600 * a + 60 * b)) ∨ (sign = 45 ∧ t.loc = .zone (-(3600 * a + 60 * b : Int))))

/-- An existing second with a four-digit year, in some zone. -/
def ExistingTime (t : Time) : Prop :=
  ∃ y : Nat, t.year = y ∧ y ≤ 9999 ∧ DayExists t.month t.day y ∧ t.hour < 24 ∧ t.min < 60 ∧ t.sec < 60

/-- The zone that JSON can carry: the offset in whole minutes, cut towards zero; no offset is UTC. -/
def minuteZone : Loc → Loc
  | .utc => .utc
  | .zone o => if o = 0 then .utc else if 0 < o then .zone (60 * (o / 60)) else .zone (-(60 * (-o / 60)))

/-- What is left of a time in JSON. -/
def jsonTime (t : Time) : Time := { t with nsec := 0, loc := minuteZone t.loc }

end Metro2.Spec
