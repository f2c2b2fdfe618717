import Verif.Spec.Text
import Verif.Model.Specs

/-! What is wrong with the text of a field, and which fault of a record is reported. Nothing here uses the readers of the model. -/

namespace Metro2.Spec

/-- A digit of a hexadecimal number. -/
def HexNumeral (c : UInt8) : Prop := c ∈ b! "0123456789ABCDEFabcdef"

/-- The text of a required field says nothing: a number that is no number or zero, a date of zeros, nines or blanks. -/
def Unsaid : FType → List UInt8 → Prop
  | .numeric, s => ∀ i, SignedDecimal s i → i = 0
  | .date, s | .timestamp, s => ∃ c ∈ b! "09 ", s = List.replicate s.length c
  | _, _ => False

/-- The text cannot be read, and `err` tells why. -/
def Misread : FType → F → List UInt8 → Err → Prop
  | .numeric, f, s, err =>
      ((∀ c ∈ s, ¬ HexNumeral c) ∧ err = .numeric f) ∨
      ((∃ c ∈ s, HexNumeral c) ∧ (∀ i, ¬ SignedDecimal s i) ∧ err = .number .syntax) ∨
      ((∃ i, SignedDecimal s i ∧ (i < -(2 ^ 63) ∨ 2 ^ 63 ≤ i)) ∧ err = .number .range)
  | .alphanumeric, f, s, err => (∃ c ∈ s, ¬ Permitted c) ∧ err = .nonAlphanumeric f
  | .date, _, s, err => s ≠ List.replicate s.length 48 ∧ (∀ m d y, ¬ DateText s m d y) ∧ err = .timeFormat
  | .timestamp, _, s, err => s ≠ List.replicate s.length 48 ∧
      (∀ a b m d y h mi se, s = a ++ b → DateText a m d y → ¬ ClockText b h mi se) ∧ err = .timeFormat
  | .packedDate, _, s, err => ∃ mid n, s = 0x00 :: mid ++ [0x73] ∧ BigEndian mid n ∧ n ≠ 0 ∧
      (∀ t m d y, DateText t m d y → ¬ Decimal t n) ∧ err = .timeFormat
  | .packedTimestamp, _, s, err => ∃ mid n, s = 0x00 :: mid ++ [0x73] ∧ BigEndian mid n ∧ n ≠ 0 ∧
      (∀ a b m d y h mi se, DateText a m d y → ClockText b h mi se → ¬ Decimal (a ++ b) n) ∧ err = .timeFormat
  | _, _, _, _ => False

/-- The text of a field is refused with the error `err`. -/
def Refused (e : Field) (f : F) (s : List UInt8) (err : Err) : Prop :=
  (e.req = .required ∧ Unsaid e.typ s ∧ err = .required f) ∨ (¬ (e.req = .required ∧ Unsaid e.typ s) ∧ Misread e.typ f s err)

/-- The same for the field at its place in a text; all places but that of the block descriptor word are moved if the text begins with one. -/
def RefusedAt (rows : Format) (text : List UInt8) (blocked : Bool) (f : F) (err : Err) : Prop :=
  ∃ e, (f, e) ∈ rows ∧
    Refused e f ((text.drop (e.start + if blocked ∧ f ≠ .BlockDescriptorWord then 4 else 0)).take e.len) err

/-- `err` is about the first field, in the order of the declaration, whose text is refused. -/
def FirstRefused (rows : Format) (text : List UInt8) (blocked : Bool) (fields : List F) (err : Err) : Prop :=
  ∃ before f behind, fields = before ++ f :: behind ∧ (∀ g ∈ before, ∀ err', ¬ RefusedAt rows text blocked g err') ∧
    RefusedAt rows text blocked f err

end Metro2.Spec
