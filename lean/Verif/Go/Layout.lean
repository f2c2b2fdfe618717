import Verif.Go.Time

/-!
`time.Parse` of the Go standard library for arbitrary layouts (time/format.go): splitting a layout
into elements, and reading a text element by element. Hand-written description of the
standard library (trusted base). Errors are not distinguished: `none` is any error.

Simplifications, all of them about layouts or texts that do not occur in metro2's list
of layouts (/repo/pkg/utils/time.go:52-223): the layout elements for the day of the year
(`002`, `__2`), `_2006` and fractional seconds written with nines are not split off.
-/

namespace Metro2

/-- The layout elements (`std…` constants of time/format.go). -/
inductive Elem where
  | month | longMonth | numMonth | zeroMonth
  | weekDay | longWeekDay
  | day | underDay | zeroDay
  | hour | hour12 | zeroHour12
  | minute | zeroMinute | second | zeroSecond
  | longYear | year
  | upperPM | lowerPM
  | tz
  | isoTZ | isoSecondsTZ | isoShortTZ | isoColonTZ | isoColonSecondsTZ
  | numTZ | numSecondsTZ | numShortTZ | numColonTZ | numColonSecondsTZ
  | frac0 (digits : Nat)
deriving DecidableEq, Repr

/-- `startsWithLowerCase`. -/
def startsLower : Bytes → Bool
  | [] => false
  | c :: _ => 97 ≤ c && c ≤ 122

/-- Whether `p` is a prefix of `s`; the rest of `s` behind it. -/
def afterPrefix : Bytes → Bytes → Option Bytes
  | [], s => some s
  | _ :: _, [] => none
  | a :: p, b :: s => if a = b then afterPrefix p s else none

/-- The first alternative of the list that is a prefix of the layout. -/
def firstElem (layout : Bytes) : List (Bytes × Elem) → Option (Elem × Bytes)
  | [] => none
  | (p, e) :: alts =>
    match afterPrefix p layout with
    | some rest => some (e, rest)
    | none => firstElem layout alts

/-- The element at the very start of the layout, if any, and the rest (the `switch` of
`nextStdChunk`). -/
def elemAt : Bytes → Option (Elem × Bytes)
  | [] => none
  | c :: l =>
    if c = 74 then   -- 'J'
      match afterPrefix (b! "Jan") (c :: l) with
      | none => none
      | some r =>
        match afterPrefix (b! "uary") r with
        | some r' => some (.longMonth, r')
        | none => if startsLower r then none else some (.month, r)
    else if c = 77 then   -- 'M'
      match afterPrefix (b! "Mon") (c :: l) with
      | some r =>
        (match afterPrefix (b! "day") r with
        | some r' => some (.longWeekDay, r')
        | none => if startsLower r then none else some (.weekDay, r))
      | none => firstElem (c :: l) [(b! "MST", .tz)]
    else if c = 48 then   -- '0'
      firstElem (c :: l) [(b! "01", .zeroMonth), (b! "02", .zeroDay), (b! "03", .zeroHour12),
        (b! "04", .zeroMinute), (b! "05", .zeroSecond), (b! "06", .year)]
    else if c = 49 then   -- '1'
      firstElem (c :: l) [(b! "15", .hour), (b! "1", .numMonth)]
    else if c = 50 then   -- '2'
      firstElem (c :: l) [(b! "2006", .longYear), (b! "2", .day)]
    else if c = 95 then   -- '_'
      firstElem (c :: l) [(b! "_2", .underDay)]
    else if c = 51 then some (.hour12, l)   -- '3'
    else if c = 52 then some (.minute, l)   -- '4'
    else if c = 53 then some (.second, l)   -- '5'
    else if c = 80 then firstElem (c :: l) [(b! "PM", .upperPM)]
    else if c = 112 then firstElem (c :: l) [(b! "pm", .lowerPM)]
    else if c = 45 then   -- '-'
      firstElem (c :: l) [(b! "-070000", .numSecondsTZ), (b! "-07:00:00", .numColonSecondsTZ),
        (b! "-0700", .numTZ), (b! "-07:00", .numColonTZ), (b! "-07", .numShortTZ)]
    else if c = 90 then   -- 'Z'
      firstElem (c :: l) [(b! "Z070000", .isoSecondsTZ), (b! "Z07:00:00", .isoColonSecondsTZ),
        (b! "Z0700", .isoTZ), (b! "Z07:00", .isoColonTZ), (b! "Z07", .isoShortTZ)]
    else if c = 46 ∨ c = 44 then   -- '.' or ','
      let zeros := (l.takeWhile (· == 48)).length
      let r := l.drop zeros
      if zeros = 0 then none
      else match r with
        | d :: _ => if isDigit d then none else some (.frac0 zeros, r)
        | [] => some (.frac0 zeros, r)
    else none

/-- A layout as `time.parse` walks through it: every element with the literal text in
front of it, and the literal text at the end. -/
structure DateLayout where
  elems : List (Bytes × Elem)
  final : Bytes
deriving DecidableEq, Repr

/-- Repeated `nextStdChunk`, with fuel (the length of the layout) and the literal text read so far. -/
def layoutAux : Nat → Bytes → Bytes → DateLayout
  | 0, lit, l => ⟨[], lit ++ l⟩
  | _ + 1, lit, [] => ⟨[], lit⟩
  | fuel + 1, lit, c :: l =>
    match elemAt (c :: l) with
    | some (e, rest) =>
      let r := layoutAux fuel [] rest
      ⟨(lit, e) :: r.elems, r.final⟩
    | none => layoutAux fuel (lit ++ [c]) l

/-- The layout of a layout text. -/
def DateLayout.of (s : Bytes) : DateLayout := layoutAux s.length [] s

/-- `cutspace`. -/
def cutspace (s : Bytes) : Bytes := s.dropWhile (· == 32)

/-- `skip(value, prefix)` with fuel (the length of the prefix): a run of spaces in the prefix stands
for a run of spaces in the value (or for the end of the value). -/
def skipAux : Nat → Bytes → Bytes → Option Bytes
  | _, [], value => some value
  | 0, _ :: _, _ => none
  | fuel + 1, p :: ps, value =>
    if p = 32 then
      match value with
      | v :: _ => if v = 32 then skipAux fuel (cutspace ps) (cutspace value) else none
      | [] => skipAux fuel (cutspace ps) []
    else
      match value with
      | v :: vs => if v = p then skipAux fuel ps vs else none
      | [] => none

/-- `skip(value, prefix)`. -/
def skip (pre value : Bytes) : Option Bytes := skipAux pre.length pre value

/-- `match`: equal, or ASCII letters that differ in case only. -/
def matchByte (a b : UInt8) : Bool :=
  a = b || ((a ||| 32) = (b ||| 32) && 97 ≤ (a ||| 32) && (a ||| 32) ≤ 122)

/-- The rest of `s` behind `name`, compared with `match`. -/
def afterName : Bytes → Bytes → Option Bytes
  | [], s => some s
  | _ :: _, [] => none
  | a :: p, b :: s => if matchByte b a then afterName p s else none

/-- `lookup(tab, val)`: the position of the first name of the table at the start of the value. -/
def lookupName (value : Bytes) : List Bytes → Option (Nat × Bytes)
  | [] => none
  | n :: names =>
    match afterName n value with
    | some rest => some (0, rest)
    | none => (lookupName value names).map fun (i, r) => (i + 1, r)

def longMonthNames : List Bytes :=
  [b! "January", b! "February", b! "March", b! "April", b! "May", b! "June", b! "July",
   b! "August", b! "September", b! "October", b! "November", b! "December"]

def shortMonthNames : List Bytes :=
  [b! "Jan", b! "Feb", b! "Mar", b! "Apr", b! "May", b! "Jun", b! "Jul", b! "Aug", b! "Sep",
   b! "Oct", b! "Nov", b! "Dec"]

def longDayNames : List Bytes :=
  [b! "Sunday", b! "Monday", b! "Tuesday", b! "Wednesday", b! "Thursday", b! "Friday",
   b! "Saturday"]

def shortDayNames : List Bytes :=
  [b! "Sun", b! "Mon", b! "Tue", b! "Wed", b! "Thu", b! "Fri", b! "Sat"]

/-- `time.atoi` (not `strconv.Atoi`): an optional sign and digits, possibly none. Simplification:
overflow is not modelled; the texts have at most nine digits. -/
def timeAtoi (s : Bytes) : Option Int :=
  let neg := s.head? = some 45
  let body := if s.head? = some 45 ∨ s.head? = some 43 then s.drop 1 else s
  if body.all isDigit then some (if neg then -(digitsVal body : Int) else digitsVal body) else none

/-- What `time.parse` has collected (its local variables). -/
structure Parsed where
  year : Int := 0
  month : Int := -1
  day : Int := -1
  hour : Nat := 0
  min : Nat := 0
  sec : Nat := 0
  nsec : Nat := 0
  am : Bool := false
  pm : Bool := false
  utc : Bool := false
  offset : Int := -1
  zone : Bytes := []
deriving DecidableEq, Repr

/-- `parseNanoseconds(value, n)`: a point or comma and `n - 1` digits, of which nine count. -/
def parseNano (value : Bytes) (n : Nat) : Option Nat :=
  match value with
  | [] => none
  | c :: _ =>
    if ¬ (c = 46 ∨ c = 44) then none
    else
      let m := min n 10
      match timeAtoi ((value.take m).drop 1) with
      | none => none
      | some ns => if ns < 0 then none else some (ns.toNat * 10 ^ (10 - m))

/-- Number of digits at the start. -/
def digitRun (s : Bytes) : Nat := (s.takeWhile isDigit).length

/-- `parseSignedOffset`: the length of a sign and a number of at most 23, 0 if there is none.
Simplification: `leadingInt` overflow is not modelled; such numbers exceed 23 anyway. -/
def parseSignedOffset (s : Bytes) : Nat :=
  match s with
  | [] => 0
  | c :: r =>
    if ¬ (c = 43 ∨ c = 45) then 0
    else
      let n := digitRun r
      if n = 0 ∨ 23 < digitsVal (r.take n) then 0 else n + 1

/-- `parseTimeZone`: the length of a zone abbreviation. -/
def parseTimeZone (s : Bytes) : Option Nat :=
  if s.length < 3 then none
  else if s.take 4 = b! "ChST" ∨ s.take 4 = b! "MeST" then some 4
  else if s.take 3 = b! "GMT" then some (3 + parseSignedOffset (s.drop 3))
  else if s.head? = some 43 ∨ s.head? = some 45 then
    (if parseSignedOffset s = 0 then none else some (parseSignedOffset s))
  else
    let upper := ((s.take 6).takeWhile fun c => 65 ≤ c && c ≤ 90).length
    if upper = 5 then (if (s.drop 4).head? = some 84 then some 5 else none)
    else if upper = 4 then
      (if (s.drop 3).head? = some 84 ∨ s.take 4 = b! "WITA" then some 4 else none)
    else if upper = 3 then some 3
    else none

/-- The numbers of a zone offset: sign, hours, minutes, seconds as texts. -/
def zoneOffset (a : Parsed) (sign : Option UInt8) (hour min sec rest : Bytes) : Option (Parsed × Bytes) :=
  match getnum true hour, getnum true min, getnum true sec with
  | some (h, _), some (m, _), some (s, _) =>
    if 24 < h ∨ 60 < m ∨ 60 < s then none
    else
      let o : Int := (h * 60 + m) * 60 + s
      if sign = some 43 then some ({ a with offset := o }, rest)
      else if sign = some 45 then some ({ a with offset := -o }, rest)
      else none
  | _, _, _ => none

/-- The five forms of a numeric zone. -/
def parseNumZone (a : Parsed) (s : Bytes) : Elem → Option (Parsed × Bytes)
  | .isoColonTZ | .numColonTZ =>
    if s.length < 6 ∨ (s.drop 3).head? ≠ some 58 then none
    else zoneOffset a s.head? ((s.drop 1).take 2) ((s.drop 4).take 2) (b! "00") (s.drop 6)
  | .isoShortTZ | .numShortTZ =>
    if s.length < 3 then none
    else zoneOffset a s.head? ((s.drop 1).take 2) (b! "00") (b! "00") (s.drop 3)
  | .isoColonSecondsTZ | .numColonSecondsTZ =>
    if s.length < 9 ∨ (s.drop 3).head? ≠ some 58 ∨ (s.drop 6).head? ≠ some 58 then none
    else zoneOffset a s.head? ((s.drop 1).take 2) ((s.drop 4).take 2) ((s.drop 7).take 2) (s.drop 9)
  | .isoSecondsTZ | .numSecondsTZ =>
    if s.length < 7 then none
    else zoneOffset a s.head? ((s.drop 1).take 2) ((s.drop 3).take 2) ((s.drop 5).take 2) (s.drop 7)
  | _ =>
    if s.length < 5 then none
    else zoneOffset a s.head? ((s.drop 1).take 2) ((s.drop 3).take 2) (b! "00") (s.drop 5)

/-- A zone element that also allows `Z`. -/
def parseIsoZone (a : Parsed) (s : Bytes) (e : Elem) : Option (Parsed × Bytes) :=
  match s with
  | [] => none
  | c :: r => if c = 90 then some ({ a with utc := true }, r) else parseNumZone a s e

/-- Seconds, followed by a fraction that the layout does not mention. `next` is the next element of
the layout. -/
def parseSeconds (fixed : Bool) (a : Parsed) (s : Bytes) (next : Option Elem) :
    Option (Parsed × Bytes) :=
  match getnum fixed s with
  | none => none
  | some (x, r) =>
    if 60 ≤ x then none
    else
      match r with
      | c :: d :: r' =>
        if (c = 46 ∨ c = 44) ∧ isDigit d then
          match next with
          | some (.frac0 _) => some ({ a with sec := x }, r)
          | _ =>
            let n := 1 + digitRun (d :: r')
            match parseNano r n with
            | none => none
            | some ns => some ({ a with sec := x, nsec := ns }, r.drop n)
        else some ({ a with sec := x }, r)
      | _ => some ({ a with sec := x }, r)

/-- A one- or two-digit number below a bound, stored by `f`. -/
def parseNum (fixed : Bool) (lo hi : Nat) (f : Nat → Parsed) (s : Bytes) : Option (Parsed × Bytes) :=
  match getnum fixed s with
  | none => none
  | some (x, r) => if x < lo ∨ hi < x then none else some (f x, r)

/-- A name of a table, stored by `f`. -/
def parseName (names : List Bytes) (f : Nat → Parsed) (s : Bytes) : Option (Parsed × Bytes) :=
  match lookupName s names with
  | none => none
  | some (i, r) => some (f i, r)

/-- One of two two-letter words. -/
def parseHalf (am pm : Bytes) (a : Parsed) (s : Bytes) : Option (Parsed × Bytes) :=
  if s.length < 2 then none
  else if s.take 2 = pm then some ({ a with pm := true }, s.drop 2)
  else if s.take 2 = am then some ({ a with am := true }, s.drop 2)
  else none

/-- One round of the loop of `time.parse` behind `skip`. -/
def parseElem (a : Parsed) (s : Bytes) (next : Option Elem) : Elem → Option (Parsed × Bytes)
  | .year =>
    if s.length < 2 then none
    else match timeAtoi (s.take 2) with
      | none => none
      | some y => some ({ a with year := if 69 ≤ y then y + 1900 else y + 2000 }, s.drop 2)
  | .longYear =>
    if s.length < 4 ∨ (s.take 1).all isDigit = false then none
    else match timeAtoi (s.take 4) with
      | none => none
      | some y => some ({ a with year := y }, s.drop 4)
  | .month => parseName shortMonthNames (fun i => { a with month := i + 1 }) s
  | .longMonth => parseName longMonthNames (fun i => { a with month := i + 1 }) s
  | .numMonth => parseNum false 1 12 (fun m => { a with month := m }) s
  | .zeroMonth => parseNum true 1 12 (fun m => { a with month := m }) s
  | .weekDay => parseName shortDayNames (fun _ => a) s
  | .longWeekDay => parseName longDayNames (fun _ => a) s
  | .day => parseNum false 0 99 (fun d => { a with day := d }) s
  | .underDay =>
    parseNum false 0 99 (fun d => { a with day := d }) (if s.head? = some 32 then s.drop 1 else s)
  | .zeroDay => parseNum true 0 99 (fun d => { a with day := d }) s
  | .hour => parseNum false 0 23 (fun h => { a with hour := h }) s
  | .hour12 => parseNum false 0 12 (fun h => { a with hour := h }) s
  | .zeroHour12 => parseNum true 0 12 (fun h => { a with hour := h }) s
  | .minute => parseNum false 0 59 (fun m => { a with min := m }) s
  | .zeroMinute => parseNum true 0 59 (fun m => { a with min := m }) s
  | .second => parseSeconds false a s next
  | .zeroSecond => parseSeconds true a s next
  | .upperPM => parseHalf (b! "AM") (b! "PM") a s
  | .lowerPM => parseHalf (b! "am") (b! "pm") a s
  | .tz =>
    if s.take 3 = b! "UTC" then some ({ a with utc := true }, s.drop 3)
    else match parseTimeZone s with
      | none => none
      | some n => some ({ a with zone := s.take n }, s.drop n)
  | .frac0 k =>
    if s.length < 1 + k then none
    else match parseNano s (1 + k) with
      | none => none
      | some ns => some ({ a with nsec := ns }, s.drop (1 + k))
  | .isoTZ => parseIsoZone a s .isoTZ
  | .isoSecondsTZ => parseIsoZone a s .isoSecondsTZ
  | .isoShortTZ => parseIsoZone a s .isoShortTZ
  | .isoColonTZ => parseIsoZone a s .isoColonTZ
  | .isoColonSecondsTZ => parseIsoZone a s .isoColonSecondsTZ
  | .numTZ => parseNumZone a s .numTZ
  | .numSecondsTZ => parseNumZone a s .numSecondsTZ
  | .numShortTZ => parseNumZone a s .numShortTZ
  | .numColonTZ => parseNumZone a s .numColonTZ
  | .numColonSecondsTZ => parseNumZone a s .numColonSecondsTZ

/-- The loop of `time.parse`. -/
def parseElems (final : Bytes) (a : Parsed) (s : Bytes) : List (Bytes × Elem) → Option Parsed
  | [] =>
    match skip final s with
    | some [] => some a
    | _ => none
  | (pre, e) :: es =>
    match skip pre s with
    | none => none
    | some s' =>
      match parseElem a s' (es.head?.map (·.2)) e with
      | none => none
      | some (a', s'') => parseElems final a' s'' es

/-- The local time zone of the machine: what `Local.lookupName` followed by `addSec` and `setLoc` makes
of a zone abbreviation and the civil time read. A parameter of the model. -/
abbrev LocalZone := Bytes → Time → Option Time

/-- The offset of a zone that the machine does not know: that of a name like `GMT+3`, otherwise none. -/
def gmtOffset (zone : Bytes) : Int :=
  if 3 < zone.length ∧ zone.take 3 = b! "GMT" then
    match timeAtoi (zone.drop 3) with
    | some h => 3600 * h
    | none => 0
  else 0

/-- The end of `time.parse`: the time of the collected fields. A numeric offset (other than minus one
second, which `time.parse` takes for "none") gives a fixed zone; simplification: that Go
uses the local zone instead if that has the same offset at that moment changes only the name of the zone. -/
def Parsed.finish (loc : LocalZone) (a : Parsed) : Option Time :=
  let hour := if a.pm ∧ a.hour < 12 then a.hour + 12 else if a.am ∧ a.hour = 12 then 0 else a.hour
  let month : Int := if a.month < 0 then 1 else a.month
  let day : Int := if a.day < 0 then 1 else a.day
  if day < 1 ∨ daysIn month.toNat a.year < day then none
  else
    let t : Time := ⟨a.year, month.toNat, day.toNat, hour, a.min, a.sec, a.nsec, .utc⟩
    if a.utc then some t
    else if a.offset ≠ -1 then some { t with loc := .zone a.offset }
    else if a.zone ≠ [] then
      match loc a.zone t with
      | some t' => some t'
      | none => some { t with loc := .zone (gmtOffset a.zone) }
    else some t

/-- `time.Parse(layout, s)`. Simplification: the fast path for RFC 3339 is omitted; it
accepts fewer texts and gives the same result on those. -/
def DateLayout.parse (loc : LocalZone) (l : DateLayout) (s : Bytes) : Option Time :=
  match parseElems l.final {} s l.elems with
  | none => none
  | some a => a.finish loc

/-- The UTF-8 encodings of the white space characters (`unicode.IsSpace`). -/
def spaceCodes : List Bytes :=
  [[9], [10], [11], [12], [13], [32], [0xC2, 0x85], [0xC2, 0xA0], [0xE1, 0x9A, 0x80],
   [0xE2, 0x80, 0x80], [0xE2, 0x80, 0x81], [0xE2, 0x80, 0x82], [0xE2, 0x80, 0x83],
   [0xE2, 0x80, 0x84], [0xE2, 0x80, 0x85], [0xE2, 0x80, 0x86], [0xE2, 0x80, 0x87],
   [0xE2, 0x80, 0x88], [0xE2, 0x80, 0x89], [0xE2, 0x80, 0x8A], [0xE2, 0x80, 0xA8],
   [0xE2, 0x80, 0xA9], [0xE2, 0x80, 0xAF], [0xE2, 0x81, 0x9F], [0xE3, 0x80, 0x80]]

/-- Drops codes of the list from the start of `s`, with fuel. -/
def trimCodes (codes : List Bytes) : Nat → Bytes → Bytes
  | 0, s => s
  | fuel + 1, s =>
    match codes.findSome? (fun c => afterPrefix c s) with
    | some r => trimCodes codes fuel r
    | none => s

/-- `strings.TrimSpace`. -/
def trimSpace (s : Bytes) : Bytes :=
  let l := trimCodes spaceCodes s.length s
  (trimCodes (spaceCodes.map List.reverse) l.length l.reverse).reverse

end Metro2
