import Verif.Model.Messages

/-!
What an error text says, stated without the functions that build it.
-/

namespace Metro2.Spec

/-- Capital letter of ASCII. -/
def Capital (c : UInt8) : Prop := 65 ≤ c.toNat ∧ c.toNat ≤ 90

/-- Small letter of ASCII. -/
def Small (c : UInt8) : Prop := 97 ≤ c.toNat ∧ c.toNat ≤ 122

/-- DigitByte digit. -/
def DigitByte (c : UInt8) : Prop := 48 ≤ c.toNat ∧ c.toNat ≤ 57

instance (c : UInt8) : Decidable (Capital c) := inferInstanceAs (Decidable (_ ∧ _))
instance (c : UInt8) : Decidable (Small c) := inferInstanceAs (Decidable (_ ∧ _))
instance (c : UInt8) : Decidable (DigitByte c) := inferInstanceAs (Decidable (_ ∧ _))

/-- A byte with a capital letter made small. -/
def lowerByte (c : UInt8) : UInt8 := if Capital c then c + 32 else c

/-- A text with all capital letters made small. -/
def lower (s : Bytes) : Bytes := s.map lowerByte

/-- A new word begins with the capital letter `u`, which follows `c` and is followed by `t`: after a small letter or a digit in any case,
after another character if a small letter follows. -/
def NewWord (c u : UInt8) (t : Bytes) : Prop :=
  Capital u ∧ (Small c ∨ DigitByte c ∨ (c ≠ 10 ∧ ∃ l ∈ t.head?, Small l))

instance (c u : UInt8) (t : Bytes) : Decidable (NewWord c u t) := by
  unfold NewWord
  cases t with
  | nil => exact decidable_of_iff (Capital u ∧ (Small c ∨ DigitByte c)) (by simp)
  | cons l t => exact decidable_of_iff (Capital u ∧ (Small c ∨ DigitByte c ∨ (c ≠ 10 ∧ Small l))) (by simp)

/-- A name written in small letters with an underscore before every new word. -/
def snake : Bytes → Bytes
  | [] => []
  | [c] => [lowerByte c]
  | c :: u :: t => if NewWord c u t then lowerByte c :: 95 :: snake (u :: t) else lowerByte c :: snake (u :: t)

/-- A word of a name in mixed capitals: a capital letter and at least one small letter or digit after it. -/
def CamelWord (w : Bytes) : Prop :=
  ∃ u t, w = u :: t ∧ Capital u ∧ t ≠ [] ∧ ∀ c ∈ t, Small c ∨ DigitByte c

/-- A text without its underscores and blanks. -/
def bare (s : Bytes) : Bytes := s.filter fun c => c ≠ 95 ∧ c ≠ 32

/-- The name of a type in an error text. -/
def ownName : Sort14 → Bytes
  | .header e => (if e = .packed then b! "packed " else []) ++ b! "header record"
  | .base e => (if e = .packed then b! "packed " else []) ++ b! "base segment"
  | .trailer e => (if e = .packed then b! "packed " else []) ++ b! "trailer record"
  | .seg k => lower k.ident ++ b! " segment"

/-- What can be wrong with a field. -/
inductive Fault where
  | invalid | missing | phone | numeric | alphanumeric | upper
deriving DecidableEq, Repr

/-- The words for it. -/
def Fault.words : Fault → Bytes
  | .invalid => b! " has an invalid value"
  | .missing => b! " is a required field"
  | .phone => b! " has an invalid phone number"
  | .numeric => b! " has not numeric characters"
  | .alphanumeric => b! " has not alphanumeric characters"
  | .upper => b! " has not uppercase A-Z or 0-9"

/-- The field an error is about, and what is wrong with it; `none` for errors that are not about a field. -/
def faultOf : Err → Option (F × Fault)
  | .required f => some (f, .missing)
  | .numeric f => some (f, .numeric)
  | .nonAlphanumeric f => some (f, .alphanumeric)
  | .upperAlpha f => some (f, .upper)
  | .invalidValue f => some (f, .invalid)
  | .phone => some (.TelephoneNumber, .phone)
  | _ => none

/-- The text says that something is wrong with field `f` of a record or segment of type `n`: the letters and digits of the name of the field in small letters,
in words of any length, then " in ", the name of the type, and what is wrong. -/
def Accuses (msg : Bytes) (f : F) (n : Sort14) (x : Fault) : Prop :=
  ∃ words, msg = words ++ b! " in " ++ ownName n ++ x.words ∧ bare words = lower f.name

/-- The validators of these fields give a wrong type in their text. -/
def Misnamed (n : Sort14) (f : F) : Prop :=
  (n = .base .packed ∨ n = .seg .j1 ∨ n = .seg .j2) ∧ (f = .SocialSecurityNumber ∨ f = .DateBirth)

instance (n : Sort14) (f : F) : Decidable (Misnamed n f) := inferInstanceAs (Decidable (_ ∧ _))

end Metro2.Spec
