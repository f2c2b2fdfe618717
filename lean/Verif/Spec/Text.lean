import Mathlib.Data.Nat.Digits.Defs

/-!
Specifications of texts: decimal numbers, permitted characters, calendar. Nothing here uses the model.
-/

namespace Metro2.Spec

/-- `s` consists of ASCII decimal digits and its decimal value is `v` (most significant digit
first). `Nat.ofDigits` is Mathlib's, least significant digit first. -/
def Decimal (s : List UInt8) (v : Nat) : Prop :=
  (∀ c ∈ s, '0'.toNat ≤ c.toNat ∧ c.toNat ≤ '9'.toNat) ∧
  v = Nat.ofDigits 10 (s.reverse.map fun c => c.toNat - '0'.toNat)

/-- `s` is a decimal number with at least one digit and at most one leading sign, and its value is `v`. -/
def SignedDecimal (s : List UInt8) (v : Int) : Prop :=
  ∃ ds n, ds ≠ [] ∧ Decimal ds n ∧
    ((s = ds ∧ v = n) ∨ (s = 43 :: ds ∧ v = n) ∨ (s = 45 :: ds ∧ v = -(n : Int)))

/-- `s` is the big-endian base-256 representation of `v`. -/
def BigEndian (s : List UInt8) (v : Nat) : Prop :=
  v = Nat.ofDigits 256 (s.reverse.map UInt8.toNat)

/-- Printable ASCII other than the backtick. -/
def Permitted (c : UInt8) : Prop :=
  ' '.toNat ≤ c.toNat ∧ c.toNat ≤ '~'.toNat ∧ c.toNat ≠ '`'.toNat

instance (c : UInt8) : Decidable (Permitted c) := by unfold Permitted; infer_instance

/-- Gregorian leap year rule. -/
def LeapYear (y : Nat) : Prop := 4 ∣ y ∧ (100 ∣ y → 400 ∣ y)

instance (y : Nat) : Decidable (LeapYear y) := by unfold LeapYear; infer_instance

/-- Lengths of the months January to December. -/
def monthLengths (y : Nat) : List Nat :=
  [31, if LeapYear y then 29 else 28, 31, 30, 31, 30, 31, 31, 30, 31, 30, 31]

/-- Month `m`, day `d` exists in year `y`. -/
def DayExists (m d y : Nat) : Prop :=
  ∃ k, m = k + 1 ∧ ∃ n, (monthLengths y)[k]? = some n ∧ 1 ≤ d ∧ d ≤ n

/-- The text names a day: MMDDYYYY. -/
def DateText (s : List UInt8) (m d y : Nat) : Prop :=
  ∃ a b c, s = a ++ b ++ c ∧ a.length = 2 ∧ b.length = 2 ∧ c.length = 4 ∧
    Decimal a m ∧ Decimal b d ∧ Decimal c y ∧ DayExists m d y

/-- The text names a time of day: hhmmss. -/
def ClockText (s : List UInt8) (h mi se : Nat) : Prop :=
  ∃ a b c, s = a ++ b ++ c ∧ a.length = 2 ∧ b.length = 2 ∧ c.length = 2 ∧
    Decimal a h ∧ Decimal b mi ∧ Decimal c se ∧ h < 24 ∧ mi < 60 ∧ se < 60

/-- The text split into characters: a character is the UTF-8 encoding of a Unicode scalar value, or
a single byte where no such encoding begins. -/
inductive Chars : List UInt8 → List (List UInt8) → Prop where
  | nil : Chars [] []
  | char (c : Char) {s : List UInt8} {cs : List (List UInt8)} (h : Chars s cs) :
      Chars (String.utf8EncodeChar c ++ s) (String.utf8EncodeChar c :: cs)
  | invalid (b : UInt8) {s : List UInt8} {cs : List (List UInt8)}
      (hb : ∀ c : Char, ¬ String.utf8EncodeChar c <+: b :: s) (h : Chars s cs) :
      Chars (b :: s) ([b] :: cs)

end Metro2.Spec
