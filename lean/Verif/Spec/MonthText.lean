import Verif.Spec.Dates
import Verif.Spec.Messages

/-! Dates with the names of months. -/

namespace Metro2.Spec

/-- The names of the months, short and long, in small letters. -/
def monthNames : List (List UInt8 × List UInt8) :=
  [(b! "jan", b! "january"), (b! "feb", b! "february"), (b! "mar", b! "march"), (b! "apr", b! "april"), (b! "may", b! "may"),
   (b! "jun", b! "june"), (b! "jul", b! "july"), (b! "aug", b! "august"), (b! "sep", b! "september"), (b! "oct", b! "october"),
   (b! "nov", b! "november"), (b! "dec", b! "december")]

/-- The text names month `m`, in whatever letters. -/
def MonthName (w : List UInt8) (m : Nat) : Prop :=
  ∃ k names, m = k + 1 ∧ monthNames[k]? = some names ∧ (lower w = names.1 ∨ lower w = names.2)

/-- A day of two digits, the name of a month and a year of four digits, with single blanks between them. -/
def MonthText (s : List UInt8) (d m y : Nat) : Prop :=
  ∃ sd w sy : List UInt8, s = sd ++ [32] ++ w ++ [32] ++ sy ∧ sd.length = 2 ∧ sy.length = 4 ∧ Decimal sd d ∧ Decimal sy y ∧ MonthName w m

end Metro2.Spec
