import Verif.Spec.Places

/-!
How the reporting standards of /repo/docs/file-structure.md want the fields to be filled: "every alphanumeric field must be
left-justified and blank filled", "every alpha field must be uppercase", "if a descriptive field is not available, it should be
blank filled", "if a numeric or monetary field is not available, it should be zero filled".
-/

namespace Metro2.Spec

/-- `t` is how value `v` stands in the bytes of field `e`: texts from the left, then blanks; numbers in decimal digits with leading zeros
(or, packed, as big-endian bytes); dates as MMDDYYYY, times as MMDDYYYYhhmmss, zeros for no date (or, packed, as a number between
the bytes 00 and 73). Numbers that do not fit are left open, see C02 and C08. -/
def Filled (e : Field) (v : Val) (t : List UInt8) : Prop :=
  match e.typ, v with
  | .alphanumeric, .str s => t = s.take e.len ++ List.replicate (e.len - s.length) ' '.toNat.toUInt8
  | .numeric, .int i => t.length = e.len ∧ (0 ≤ i → i < 10 ^ e.len → Decimal t i.toNat)
  | .date, .time d =>
    (d = noTime → t = List.replicate 8 '0'.toNat.toUInt8) ∧ (d ≠ noTime → DateText t d.month d.day d.year.toNat)
  | .timestamp, .time d =>
    (d = noTime → t = List.replicate 14 '0'.toNat.toUInt8) ∧
    (d ≠ noTime → ∃ a b, t = a ++ b ∧ DateText a d.month d.day d.year.toNat ∧ ClockText b d.hour d.min d.sec)
  | .descriptor, .int i => ∃ a, t = a ++ [0, 0] ∧ a.length = 2 ∧ (0 ≤ i → i ≤ 65535 → BigEndian a i.toNat)
  | .packedNumber, .int i => t.length = e.len ∧ (0 ≤ i → i < 256 ^ e.len → BigEndian t i.toNat)
  | .packedDate, .time d =>
    ∃ mid, t = 0x00 :: mid ++ [0x73] ∧ mid.length = 3 ∧
      BigEndian mid (d.month * 1000000 + d.day * 10000 + d.year.toNat)
  | .packedTimestamp, .time d =>
    ∃ mid, t = 0x00 :: mid ++ [0x73] ∧ mid.length = 6 ∧
      BigEndian mid ((d.month * 1000000 + d.day * 10000 + d.year.toNat) * 1000000 + d.hour * 10000 + d.min * 100 + d.sec)
  | _, _ => False

/-- The value says that the field is not available. -/
def Unset : Val → Prop
  | .int i => i = 0
  | .str s => s = []
  | .time t => t = noTime

/-- What the standards put into a field that is not available: blanks into a descriptive one, zeros into any other. -/
def fillOf (e : Field) : List UInt8 :=
  match e.typ with
  | .alphanumeric | .alpha => List.replicate e.len ' '.toNat.toUInt8
  | .numeric | .date | .timestamp => List.replicate e.len '0'.toNat.toUInt8
  | .descriptor | .packedNumber | .packedDate | .packedTimestamp => List.replicate e.len 0

/-- The bytes of a field in a text whose fields begin at `shift`. -/
def placeOf (shift : Nat) (e : Field) (s : List UInt8) : List UInt8 := (s.drop (shift + e.start)).take e.len

/-- The documented length of a record with its appended segments, and its block descriptor if there is one. -/
def bodyLength : Record → Nat
  | .header enc fs => fixedLength enc fs
  | .base enc fs g => fixedLength enc fs + segsLength g
  | .trailer enc _ => recordLength enc

/-- No letter is a small one. -/
def Uppercase (s : List UInt8) : Prop := ∀ c ∈ s, ¬ ('a'.toNat ≤ c.toNat ∧ c.toNat ≤ 'z'.toNat)

/-- The text does not begin with a blank. -/
def LeftJustified (s : List UInt8) : Prop := s.head? ≠ some ' '.toNat.toUInt8

end Metro2.Spec
