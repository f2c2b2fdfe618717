import Verif.Spec.GoodFile
import Verif.Spec.Totals

/-! Files whose trailer is still to be generated. -/

namespace Metro2.Spec

/-- Header and data records are well-formed, in one format and one blocking; nothing is said about the trailer. -/
structure GoodBody (enc : Enc) (isVar : Bool) (f : File) : Prop where
  format : f.format = enc
  header : ∃ fs, f.header = .header enc fs ∧ GoodHeader enc isVar fs
  bases : ∀ r ∈ f.bases, ∃ fs g, r = .base enc fs g ∧ GoodData enc isVar fs g

/-- How many people a data record speaks of: its own, and those of its J1 and J2 segments. -/
def people : Record → Nat
  | .base _ _ g => 1 + g.j1.length + g.j2.length
  | _ => 0

/-- All of them, with the two blocks of header and trailer. -/
def crowd (bases : List Record) : Nat := (bases.map people).sum + 2

/-- None of the five bytes of the number is CR or LF. -/
def NoBreakBytes (n : Nat) : Prop := ∀ i < 5, n / 256 ^ i % 256 ≠ 10 ∧ n / 256 ^ i % 256 ≠ 13

end Metro2.Spec
