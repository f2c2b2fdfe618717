import Verif.Spec.Dates
import Verif.Spec.Messages

/-! Headers about how long a response may be kept (RFC 9110 section 5.6.7, RFC 9111 sections 5.2 and 5.3). -/

namespace Metro2.Spec

def dayNames : List (List UInt8) := [b! "Mon", b! "Tue", b! "Wed", b! "Thu", b! "Fri", b! "Sat", b! "Sun"]

def shortMonths : List (List UInt8) :=
  [b! "Jan", b! "Feb", b! "Mar", b! "Apr", b! "May", b! "Jun", b! "Jul", b! "Aug", b! "Sep", b! "Oct", b! "Nov", b! "Dec"]

/-- The text names the second `t` in the form of HTTP: Sun, 06 Nov 1994 08:49:37 GMT. Whether the name of the day is right does not count. -/
def HttpDate (s : List UInt8) (t : Time) : Prop :=
  PlainTime t ∧ ∃ w d mo y h mi se : List UInt8, ∃ k : Nat,
    s = w ++ b! ", " ++ d ++ b! " " ++ mo ++ b! " " ++ y ++ b! " " ++ h ++ b! ":" ++ mi ++ b! ":" ++ se ++ b! " GMT" ∧
    w ∈ dayNames ∧ t.month = k + 1 ∧ shortMonths[k]? = some mo ∧
    d.length = 2 ∧ y.length = 4 ∧ h.length = 2 ∧ mi.length = 2 ∧ se.length = 2 ∧
    Decimal d t.day ∧ (∃ n : Nat, t.year = n ∧ Decimal y n) ∧ Decimal h t.hour ∧ Decimal mi t.min ∧ Decimal se t.sec

/-- The text begins with the name of a day, in whatever letters. -/
def Dayed (s : List UInt8) : Prop := ∃ w rest, s = w ++ rest ∧ ∃ n ∈ dayNames, lower w = lower n

/-- A directive: its name, and its value if it has one. -/
abbrev Directive := List UInt8 × Option (List UInt8)

/-- The text of a directive. -/
def directiveText (d : Directive) : List UInt8 :=
  match d.2 with
  | none => d.1
  | some v => d.1 ++ [61] ++ v

/-- Names and values of directives are not empty and have neither blanks nor commas nor equals signs. -/
def PlainDirective (d : Directive) : Prop :=
  (d.1 ≠ [] ∧ ∀ c ∈ d.1, c ≠ 32 ∧ c ≠ 44 ∧ c ≠ 61) ∧ ∀ v, d.2 = some v → v ≠ [] ∧ ∀ c ∈ v, c ≠ 32 ∧ c ≠ 44 ∧ c ≠ 61

/-- The text lists the directives, separated by commas with any number of blanks around them; there may be empty places in the list. -/
inductive CacheText : List UInt8 → List Directive → Prop
  | blank (a : Nat) : CacheText (List.replicate a 32) []
  | one (a b : Nat) (d : Directive) : PlainDirective d → CacheText (List.replicate a 32 ++ directiveText d ++ List.replicate b 32) [d]
  | skip (a : Nat) (s : List UInt8) (ds : List Directive) : CacheText s ds → CacheText (List.replicate a 32 ++ [44] ++ s) ds
  | more (a b : Nat) (d : Directive) (s : List UInt8) (ds : List Directive) : PlainDirective d → CacheText s ds →
    CacheText (List.replicate a 32 ++ directiveText d ++ List.replicate b 32 ++ [44] ++ s) (d :: ds)

/-- The instant of a second, in nanoseconds since the start of year 1. -/
def nanos (t : Time) : Int := t.absSec * 1000000000

end Metro2.Spec
