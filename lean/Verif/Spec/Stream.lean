import Verif.Spec.Text
import Verif.Spec.FileText

/-! How a stream of bytes is divided into records. Nothing here uses the model. -/

namespace Metro2.Spec

/-- The four bytes at the beginning of a record announce its length: as a decimal number of at least 426, or, if they
are not a decimal number, by the first two of them as a binary number of at least 366. -/
def Announces (w : List UInt8) (n : Nat) : Prop :=
  (SignedDecimal w n ∧ 426 ≤ n) ∨ ((∀ v, ¬ SignedDecimal w v) ∧ BigEndian (w.take 2) n ∧ 366 ≤ n)

/-- A record with the line breaks before and within it: without them it has the length that its first
four bytes announce, and it does not end in a line break. -/
def Piece (a : List UInt8) : Prop :=
  4 ≤ (withoutBreaks a).length ∧ Announces ((withoutBreaks a).take 4) (withoutBreaks a).length ∧
  ∀ c, a.getLast? = some c → c ≠ '\r'.toNat.toUInt8 ∧ c ≠ '\n'.toNat.toUInt8

/-- The pieces into which a stream is divided, up to the point where no piece begins. -/
inductive Pieces : List UInt8 → List (List UInt8) → Prop where
  | nil {raw : List UInt8} (h : ∀ a b, raw = a ++ b → ¬ Piece a) : Pieces raw []
  | cons {a b : List UInt8} {ps : List (List UInt8)} (ha : Piece a) (hb : Pieces b ps) : Pieces (a ++ b) (a :: ps)

/-- The size of the scan buffer. -/
def bufferSize : Nat := 64 * 1024

/-- The records obtained from the pieces: without line breaks, up to the first piece that does not fit the buffer. -/
def recordsOf (ps : List (List UInt8)) : List (List UInt8) :=
  (ps.takeWhile fun a => decide (a.length ≤ bufferSize)).map withoutBreaks

/-- A brace among the first 1024 bytes. -/
def EarlyBrace (raw : List UInt8) : Prop := '{'.toNat.toUInt8 ∈ raw.take 1024

/-- What is used of the JSON decoder of the Go standard library: a number is not a file, and neither is anything with a zero
in the third place, unless an object is complete before it. (The decoder looks only at the first JSON value of the text.) -/
def RejectsRaw {α ε : Type} (json : List UInt8 → Except ε α) : Prop :=
  (∀ c s, '0'.toNat.toUInt8 ≤ c → c ≤ '9'.toNat.toUInt8 → ∃ e, json (c :: s) = .error e) ∧
  ∀ a b s, ¬ (a = '{'.toNat.toUInt8 ∧ b = '}'.toNat.toUInt8) → ∃ e, json (a :: b :: 0 :: s) = .error e

end Metro2.Spec
