import Verif.Model.Json

/-!
JSON texts: the grammar of RFC 8259 with the values the texts stand for. Of the model only the type of JSON trees is used.

Two liberties of `encoding/json`, which its documentation announces, are part of the relation: half of a surrogate pair, and a byte that is
not part of well-formed UTF-8, each stand for U+FFFD.
-/

namespace Metro2.Spec

/-- Insignificant white space. -/
def Space (s : List UInt8) : Prop :=
  ∀ c ∈ s, c = ' '.toNat.toUInt8 ∨ c = '\t'.toNat.toUInt8 ∨ c = '\n'.toNat.toUInt8 ∨ c = '\r'.toNat.toUInt8

/-- The hexadecimal digit `c` has the value `n`. -/
def HexDigit (c : UInt8) (n : Nat) : Prop :=
  (n < 10 ∧ c.toNat = '0'.toNat + n) ∨ (10 ≤ n ∧ n < 16 ∧ (c.toNat = 'a'.toNat + (n - 10) ∨ c.toNat = 'A'.toNat + (n - 10)))

/-- `\uXXXX` for the UTF-16 unit `u`. -/
def UnitEscape (s : List UInt8) (u : Nat) : Prop :=
  ∃ a b c d w x y z, s = ['\\'.toNat.toUInt8, 'u'.toNat.toUInt8, a, b, c, d] ∧
    HexDigit a w ∧ HexDigit b x ∧ HexDigit c y ∧ HexDigit d z ∧ u = ((w * 16 + x) * 16 + y) * 16 + z

/-- The two-character escapes. -/
def shortEscapes : List (Char × Char) :=
  [('"', '"'), ('\\', '\\'), ('/', '/'), ('\u0008', 'b'), ('\u000C', 'f'), ('\n', 'n'), ('\r', 'r'), ('\t', 't')]

/-- The ways to write a character in a string. -/
inductive CharText : Char → List UInt8 → Prop where
  | plain (c : Char) (h : 0x20 ≤ c.toNat) (hq : c ≠ '"') (hb : c ≠ '\\') : CharText c (String.utf8EncodeChar c)
  | short (c e : Char) (h : (c, e) ∈ shortEscapes) : CharText c ['\\'.toNat.toUInt8, e.toNat.toUInt8]
  | unit (c : Char) {s : List UInt8} (h : UnitEscape s c.toNat) : CharText c s
  | pair (c : Char) {s t : List UInt8} {hi lo : Nat} (hs : UnitEscape s hi) (ht : UnitEscape t lo)
      (h1 : 0xD800 ≤ hi ∧ hi ≤ 0xDBFF) (h2 : 0xDC00 ≤ lo ∧ lo ≤ 0xDFFF)
      (hc : c.toNat = 0x10000 + (hi - 0xD800) * 0x400 + (lo - 0xDC00)) : CharText c (s ++ t)

/-- The characters of a string (as UTF-8) and a text for them between the quotes. -/
inductive StringText : List UInt8 → List UInt8 → Prop where
  | nil : StringText [] []
  | char {c : Char} {s v t : List UInt8} (hc : CharText c s) (h : StringText v t) : StringText (String.utf8EncodeChar c ++ v) (s ++ t)
  | lone {u : Nat} {s v t : List UInt8} (hs : UnitEscape s u) (hu : 0xD800 ≤ u ∧ u ≤ 0xDFFF)
      (hn : ∀ a b lo, t = a ++ b → UnitEscape a lo → ¬ (u ≤ 0xDBFF ∧ 0xDC00 ≤ lo ∧ lo ≤ 0xDFFF)) (h : StringText v t) :
      StringText (String.utf8EncodeChar '\uFFFD' ++ v) (s ++ t)
  | invalid {b : UInt8} {v t : List UInt8} (hb : ∀ c : Char, ¬ String.utf8EncodeChar c <+: b :: t) (h : StringText v t) :
      StringText (String.utf8EncodeChar '\uFFFD' ++ v) (b :: t)

/-- A digit. -/
def Digit (c : UInt8) : Prop := '0'.toNat ≤ c.toNat ∧ c.toNat ≤ '9'.toNat

/-- One or more digits. -/
def Digits (s : List UInt8) : Prop := s ≠ [] ∧ ∀ c ∈ s, Digit c

/-- The integer part of a number. -/
def WholePart (s : List UInt8) : Prop := s = ['0'.toNat.toUInt8] ∨ (Digits s ∧ s.head? ≠ some '0'.toNat.toUInt8)

/-- The fraction of a number. -/
def FractionPart (s : List UInt8) : Prop := s = [] ∨ ∃ d, s = '.'.toNat.toUInt8 :: d ∧ Digits d

/-- The sign of an exponent. -/
def SignPart (s : List UInt8) : Prop := s = [] ∨ s = ['+'.toNat.toUInt8] ∨ s = ['-'.toNat.toUInt8]

/-- The exponent of a number. -/
def ExponentPart (s : List UInt8) : Prop :=
  s = [] ∨ ∃ e g d, s = e :: (g ++ d) ∧ (e = 'e'.toNat.toUInt8 ∨ e = 'E'.toNat.toUInt8) ∧ SignPart g ∧ Digits d

/-- A number. -/
def Numeral (s : List UInt8) : Prop :=
  ∃ m a b c, s = m ++ a ++ b ++ c ∧ (m = [] ∨ m = ['-'.toNat.toUInt8]) ∧ WholePart a ∧ FractionPart b ∧ ExponentPart c

mutual
/-- A text for the value, in which arrays and objects are nested at most `n` deep. -/
inductive JsonText : Nat → Json → List UInt8 → Prop where
  | null {n : Nat} : JsonText n .null "null".toUTF8.data.toList
  | true {n : Nat} : JsonText n (.bool true) "true".toUTF8.data.toList
  | false {n : Nat} : JsonText n (.bool false) "false".toUTF8.data.toList
  | num {n : Nat} {l : List UInt8} (h : Numeral l) : JsonText n (.num l) l
  | str {n : Nat} {s t : List UInt8} (h : StringText s t) : JsonText n (.str s) ('"'.toNat.toUInt8 :: (t ++ ['"'.toNat.toUInt8]))
  | noItems {n : Nat} {w : List UInt8} (hw : Space w) : JsonText (n + 1) (.arr []) ('['.toNat.toUInt8 :: (w ++ [']'.toNat.toUInt8]))
  | items {n : Nat} {xs : List Json} {t : List UInt8} (h : ItemsText n xs t) :
      JsonText (n + 1) (.arr xs) ('['.toNat.toUInt8 :: (t ++ [']'.toNat.toUInt8]))
  | noMembers {n : Nat} {w : List UInt8} (hw : Space w) : JsonText (n + 1) (.obj []) ('{'.toNat.toUInt8 :: (w ++ ['}'.toNat.toUInt8]))
  | members {n : Nat} {kvs : List (List UInt8 × Json)} {t : List UInt8} (h : MembersText n kvs t) :
      JsonText (n + 1) (.obj kvs) ('{'.toNat.toUInt8 :: (t ++ ['}'.toNat.toUInt8]))
/-- The elements of an array, with commas between them and white space around them. -/
inductive ItemsText : Nat → List Json → List UInt8 → Prop where
  | one {n : Nat} {x : Json} {w t z : List UInt8} (hw : Space w) (h : JsonText n x t) (hz : Space z) : ItemsText n [x] (w ++ t ++ z)
  | more {n : Nat} {x : Json} {xs : List Json} {w t z u : List UInt8} (hw : Space w) (h : JsonText n x t) (hz : Space z)
      (hs : ItemsText n xs u) : ItemsText n (x :: xs) (w ++ t ++ z ++ ','.toNat.toUInt8 :: u)
/-- The members of an object, with commas between them; white space is allowed around keys and values. -/
inductive MembersText : Nat → List (List UInt8 × Json) → List UInt8 → Prop where
  | one {n : Nat} {k : List UInt8} {v : Json} {m : List UInt8} (h : MemberText n k v m) : MembersText n [(k, v)] m
  | more {n : Nat} {k : List UInt8} {v : Json} {kvs : List (List UInt8 × Json)} {m u : List UInt8} (h : MemberText n k v m)
      (hs : MembersText n kvs u) : MembersText n ((k, v) :: kvs) (m ++ ','.toNat.toUInt8 :: u)
/-- A member of an object. -/
inductive MemberText : Nat → List UInt8 → Json → List UInt8 → Prop where
  | mk {n : Nat} {k : List UInt8} {v : Json} {w s x y t z : List UInt8} (hw : Space w) (hk : StringText k s) (hx : Space x) (hy : Space y)
      (hv : JsonText n v t) (hz : Space z) :
      MemberText n k v (w ++ '"'.toNat.toUInt8 :: (s ++ '"'.toNat.toUInt8 :: (x ++ ':'.toNat.toUInt8 :: (y ++ t ++ z))))
end

/-- `encoding/json` refuses deeper nesting. -/
def deepest : Nat := 10000

end Metro2.Spec
