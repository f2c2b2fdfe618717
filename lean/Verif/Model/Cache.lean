import Verif.Go.Layout
import Verif.Model.ClientQuery

/-! When a response expires (/repo/pkg/client/client.go:566-613). -/

namespace Metro2

/-- `strings.Trim(s, c)` for one byte. -/
def trimByte (c : UInt8) (s : Bytes) : Bytes := ((s.dropWhile (· == c)).reverse.dropWhile (· == c)).reverse

/-- One round of the loop of `parseCacheControl`, /repo/pkg/client/client.go:571-582: the key and value that are assigned. -/
def cachePart (part : Bytes) : Option (Bytes × Bytes) :=
  let part := trimByte 32 part
  if part = [] then none
  else match splitByte 61 part with
    | key :: value :: _ => some (trimByte 32 key, trimByte 44 value)
    | _ => some (part, [])

/-- `parseCacheControl`, /repo/pkg/client/client.go:568-584, for the value of the header. The map is the list of its assignments in order. -/
def parseCacheControl (header : Bytes) : List (Bytes × Bytes) := (splitByte 44 header).filterMap cachePart

/-- A value of the map: the last one assigned. -/
def cacheValue (cc : List (Bytes × Bytes)) (key : Bytes) : Option Bytes := (cc.reverse.find? fun kv => kv.1 == key).map (·.2)

/-- `time.unitMap`: nanoseconds of the units of a duration. -/
def durationUnits : List (Bytes × Nat) :=
  [(b! "ns", 1), (b! "us", 1000), ([0xC2, 0xB5, 115], 1000), ([0xCE, 0xBC, 115], 1000), (b! "ms", 1000000), (b! "s", 1000000000),
   (b! "m", 60000000000), (b! "h", 3600000000000)]

/-- One number with its unit in `time.ParseDuration`: nanoseconds and the rest of the text. `leadingInt` fails exactly for numbers above 2^63.
The nanoseconds of the digits behind a point are computed in `float64`; unless all digits are zeros, they are the parameter `fraction` (digits,
nanoseconds of the unit). -/
def durationTerm (fraction : Bytes → Nat → Nat) (s : Bytes) : Option (Nat × Bytes) :=
  let digits := s.takeWhile isDigit
  let s1 := s.dropWhile isDigit
  let point := s1.head? = some 46
  let frac := if point then (s1.drop 1).takeWhile isDigit else []
  let s2 := if point then (s1.drop 1).dropWhile isDigit else s1
  let unit := s2.takeWhile fun c => !(c == 46 || isDigit c)
  let rest := s2.dropWhile fun c => !(c == 46 || isDigit c)
  if 2 ^ 63 < digitsVal digits then none
  else if digits = [] ∧ frac = [] then none
  else match (durationUnits.find? fun u => u.1 == unit).map (·.2) with
    | none => none
    | some u =>
      if 2 ^ 63 / u < digitsVal digits then none
      else
        let v := digitsVal digits * u + if frac.all (· == 48) then 0 else fraction frac u
        if 2 ^ 63 < v then none else some (v, rest)

/-- The loop of `time.ParseDuration`, with fuel (the length of the text) and the sum so far. -/
def durationSum (fraction : Bytes → Nat → Nat) : Nat → Nat → Bytes → Option Nat
  | _, d, [] => some d
  | 0, _, _ :: _ => none
  | fuel + 1, d, c :: s =>
    match durationTerm fraction (c :: s) with
    | none => none
    | some (v, rest) =>
      let d' := (d + v) % 2 ^ 64
      if 2 ^ 63 < d' then none else durationSum fraction fuel d' rest

/-- `time.ParseDuration`: nanoseconds; `none` is any error. -/
def parseDuration (fraction : Bytes → Nat → Nat) (s : Bytes) : Option Int :=
  let neg := s.head? = some 45
  let body := if s.head? = some 45 ∨ s.head? = some 43 then s.drop 1 else s
  if body = b! "0" then some 0
  else if body = [] then none
  else match durationSum fraction body.length 0 body with
    | none => none
    | some d => if neg then some (-(d : Int)) else if 2 ^ 63 - 1 < d then none else some d

/-- `time.RFC1123`. -/
def rfc1123 : Bytes := b! "Mon, 02 Jan 2006 15:04:05 MST"

/-- The instant of a time in nanoseconds since the start of year 1 in UTC. -/
def Time.instant (t : Time) : Int := t.absSec * 1000000000 + t.nsec

/-- The headers that are read; each is what `http.Header.Get` returns, empty if there is none. -/
structure CacheHeaders where
  date : Bytes
  cacheControl : Bytes
  expires : Bytes
deriving DecidableEq, Repr

/-- What the functions below take from the machine: the local zone, `time.Now()` as an instant, and fractions of durations. -/
structure CacheEnv where
  zone : LocalZone
  clock : Int
  fraction : Bytes → Nat → Nat

/-- Assumption on the machine: its zone GMT, if it has one, is that of Greenwich. -/
def GmtOk (env : CacheEnv) : Prop := ∀ t t', env.zone (b! "GMT") t = some t' → t'.instant = t.instant

/-- `time.Parse(time.RFC1123, s)`. -/
def parseHttpDate (env : CacheEnv) (s : Bytes) : Option Time := (DateLayout.of rfc1123).parse env.zone s

/-- `CacheExpires`, /repo/pkg/client/client.go:587-613. Simplification: the result is the instant without its location. -/
def cacheExpires (env : CacheEnv) (h : CacheHeaders) : Int :=
  match parseHttpDate env h.date with
  | none => env.clock
  | some now =>
    match cacheValue (parseCacheControl h.cacheControl) (b! "max-age") with
    | some maxAge =>
      match parseDuration env.fraction (maxAge ++ b! "s") with
      | none => now.instant
      | some lifetime => now.instant + lifetime
    | none =>
      if h.expires = [] then Time.zero.instant
      else match parseHttpDate env h.expires with
        | none => now.instant
        | some e => e.instant

end Metro2
