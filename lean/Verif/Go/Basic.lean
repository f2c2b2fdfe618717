/-!
Byte strings and the parts of Go's `strconv`, `strings`, `fmt` and `unicode/utf8` packages that
metro2 uses. These are hand-written descriptions of the Go standard library
(trusted base, see DESIGN.md section 4), not of code in /repo.
-/

namespace Metro2

/-- A Go `string` or `[]byte`: a finite sequence of bytes. -/
abbrev Bytes := List UInt8

/-- `b! "text"` is the literal list of the UTF-8 bytes of `text`. -/
syntax "b!" str : term
open Lean in
macro_rules
  | `(b! $s:str) => do
    let elems ← s.getString.toUTF8.toList.mapM fun c =>
      `(($(Syntax.mkNumLit (toString c.toNat)) : UInt8))
    `(([$(elems.toArray),*] : Bytes))

/-! ### strconv and decimal numbers -/

/-- The ASCII digit of `d` (for `d < 10`). -/
def digit (d : Nat) : UInt8 := UInt8.ofNat (48 + d)

/-- The last `k` decimal digits of `n`, most significant first. -/
def decDigits : Nat → Nat → Bytes
  | 0, _ => []
  | k + 1, n => decDigits k (n / 10) ++ [digit (n % 10)]

/-- Number of decimal digits of `n`, at least 1, with fuel. -/
def numDigitsAux : Nat → Nat → Nat
  | 0, _ => 1
  | fuel + 1, n => if n < 10 then 1 else numDigitsAux fuel (n / 10) + 1

/-- Number of decimal digits of `n`, at least 1. -/
def numDigits (n : Nat) : Nat := numDigitsAux n n

/-- Decimal text of a natural number. -/
def fmtNat (n : Nat) : Bytes := decDigits (numDigits n) n

/-- `fmt.Sprintf("%v", i)` for an integer. -/
def fmtInt : Int → Bytes
  | .ofNat n => fmtNat n
  | .negSucc n => 45 :: fmtNat (n + 1)

/-- Pads on the left with `c` up to `n` bytes. -/
def padLeft (n : Nat) (c : UInt8) (s : Bytes) : Bytes := List.replicate (n - s.length) c ++ s

/-- `fmt.Sprintf("%0<n>d", i)`: zero padding goes between the sign and the digits. -/
def fmtIntZero (n : Nat) : Int → Bytes
  | .ofNat k => padLeft n 48 (fmtNat k)
  | .negSucc k => 45 :: padLeft (n - 1) 48 (fmtNat (k + 1))

/-- ASCII decimal digit. -/
def isDigit (c : UInt8) : Bool := 48 ≤ c && c ≤ 57

/-- Value of a string of digits. -/
def digitsVal (s : Bytes) : Nat := s.foldl (fun a c => a * 10 + (c.toNat - 48)) 0

/-- The two kinds of `strconv.NumError`. -/
inductive NumErr where
  | syntax
  | range
deriving DecidableEq, Repr

/-- `strconv.ParseInt(s, 10, bits)`. Simplification: for text with more digits than
fit AND a later non-digit, Go may report `range` where this reports `syntax`; both are errors,
and no caller in metro2 passes such a text to a place where the two kinds differ. -/
def parseIntBits (bits : Nat) (s : Bytes) : Except NumErr Int :=
  let neg := s.head? = some 45
  let body := if s.head? = some 45 ∨ s.head? = some 43 then s.drop 1 else s
  if body = [] then .error .syntax
  else if body.all isDigit = false then .error .syntax
  else
    let n := digitsVal body
    if neg then
      if n ≤ 2 ^ (bits - 1) then .ok (-(n : Int)) else .error .range
    else
      if n < 2 ^ (bits - 1) then .ok (n : Int) else .error .range

/-- `strconv.ParseInt(s, 10, 64)`; also `strconv.Atoi` on a 64-bit platform. -/
def parseInt (s : Bytes) : Except NumErr Int := parseIntBits 64 s

/-- The value returned by `val, _ := strconv.Atoi(s)`: 0 for a syntax error, the nearest
representable number for a range error. -/
def atoiVal (s : Bytes) : Int :=
  match parseInt s with
  | .ok v => v
  | .error .syntax => 0
  | .error .range => if s.head? = some 45 then -(2 ^ 63) else 2 ^ 63 - 1

/-! ### Slices -/

/-- The slice expression `s[a:b]`; `none` is a panic. Simplification: the bound is the length, not the capacity; for
strings they are the same, and a byte slice is only ever resliced below its length here. -/
def slice (s : Bytes) (a b : Nat) : Option Bytes :=
  if a ≤ b ∧ b ≤ s.length then some ((s.drop a).take (b - a)) else none

/-- The slice expression `s[a:]` with a signed index; `none` is a panic. -/
def sliceFrom (s : Bytes) (a : Int) : Option Bytes :=
  if 0 ≤ a ∧ a ≤ s.length then some (s.drop a.toNat) else none

/-! ### strings -/

/-- `strings.TrimRight(s, " ")`. -/
def trimRight (s : Bytes) : Bytes := (s.reverse.dropWhile (· == 32)).reverse

/-- ASCII part of `strings.ToUpper`. -/
def upperByte (c : UInt8) : UInt8 := if 97 ≤ c ∧ c ≤ 122 then c - 32 else c

/-- `strings.ToUpper`, ASCII letters only. Simplification: Go also maps non-ASCII letters; in the
places where metro2 compares the result with a plain ASCII constant the only non-ASCII
letters that would matter are U+0131 and U+017F (which upper-case to I and S), and neither
constant compared with ("HEADER", "W", "Z") contains I or S. -/
def toUpper (s : Bytes) : Bytes := s.map upperByte

/-- `strings.Count(s, c) == len(s)` for a one-byte string `c`. -/
def allByte (c : UInt8) (s : Bytes) : Bool := s.all (· == c)

/-! ### unicode/utf8 -/

/-- The byte exists and lies between `lo` and `hi`. -/
def byteIn (lo hi : UInt8) : Option UInt8 → Bool
  | none => false
  | some c => lo ≤ c && c ≤ hi

/-- A well-formed two-byte UTF-8 sequence. -/
def utf8Seq2 (c0 : UInt8) (c1 : Option UInt8) : Bool :=
  byteIn 0xC2 0xDF (some c0) && byteIn 0x80 0xBF c1

/-- A well-formed three-byte UTF-8 sequence (no overlong forms, no surrogates). -/
def utf8Seq3 (c0 : UInt8) (c1 c2 : Option UInt8) : Bool :=
  byteIn 0xE0 0xEF (some c0) &&
    byteIn (if c0 = 0xE0 then 0xA0 else 0x80) (if c0 = 0xED then 0x9F else 0xBF) c1 &&
    byteIn 0x80 0xBF c2

/-- A well-formed four-byte UTF-8 sequence (no overlong forms, at most U+10FFFF). -/
def utf8Seq4 (c0 : UInt8) (c1 c2 c3 : Option UInt8) : Bool :=
  byteIn 0xF0 0xF4 (some c0) &&
    byteIn (if c0 = 0xF0 then 0x90 else 0x80) (if c0 = 0xF4 then 0x8F else 0xBF) c1 &&
    byteIn 0x80 0xBF c2 && byteIn 0x80 0xBF c3

/-- The width returned by `utf8.DecodeRuneInString` on a non-empty string: the length of the
first well-formed UTF-8 sequence, or 1 for an invalid byte. The accepted ranges of the second byte
are those of `utf8.acceptRanges`. -/
def runeWidth : Bytes → Nat
  | [] => 0
  | c0 :: rest =>
    if utf8Seq2 c0 rest[0]? then 2
    else if utf8Seq3 c0 rest[0]? rest[1]? then 3
    else if utf8Seq4 c0 rest[0]? rest[1]? rest[2]? then 4
    else 1

/-- The first `n` runes of a string (`fmt`'s `truncateString`). -/
def takeRunes : Nat → Bytes → Bytes
  | 0, _ => []
  | _ + 1, [] => []
  | n + 1, s@(_ :: _) => s.take (runeWidth s) ++ takeRunes n (s.drop (runeWidth s))

/-- `utf8.RuneCountInString` with fuel. -/
def runeCountAux : Nat → Bytes → Nat
  | 0, _ => 0
  | _ + 1, [] => 0
  | fuel + 1, s@(_ :: _) => runeCountAux fuel (s.drop (runeWidth s)) + 1

/-- `utf8.RuneCountInString`. -/
def runeCount (s : Bytes) : Nat := runeCountAux s.length s

/-! ### fmt -/

/-- `fmt.Sprintf("%0N.Nv", s)` for a string `s`: keep the first `N` runes, then pad on the left
with '0' to `N` runes. -/
def fmtZeroStr (n : Nat) (s : Bytes) : Bytes :=
  let t := takeRunes n s
  List.replicate (n - runeCount t) 48 ++ t

/-- `fmt.Sprintf("%-N.Ns", s)`: keep the first `N` runes, then pad on the right with blanks to
`N` runes. -/
def fmtLeftStr (n : Nat) (s : Bytes) : Bytes :=
  let t := takeRunes n s
  t ++ List.replicate (n - runeCount t) 32

/-! ### encoding/binary -/

/-- Big-endian value of a byte string. -/
def beVal (s : Bytes) : Nat := s.foldl (fun a c => a * 256 + c.toNat) 0

/-- `k` big-endian bytes: `byte((v >> (8*(k-1-i))) & 0xff)` for `i = 0 .. k-1`. -/
def beBytes : Nat → Nat → Bytes
  | 0, _ => []
  | k + 1, v => UInt8.ofNat (v / 256 ^ k % 256) :: beBytes k v

end Metro2
