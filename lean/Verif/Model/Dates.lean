import Verif.Go.Layout

/-! The date texts accepted in JSON (/repo/pkg/utils/time.go). -/

namespace Metro2

/-- `dateFormats`, /repo/pkg/utils/time.go:52-223, in the order of the code; the last nine are constants of
the `time` package (ANSIC, RFC1123, RFC1123Z, RFC3339, RFC822, RFC822Z, RFC850, RubyDate, UnixDate). -/
def dateFormats : List Bytes := [
  b! "01-02-2006",
  b! "01/02/2006",
  b! "01/02/2006 - 15:04",
  b! "01/02/2006 15:04:05 MST",
  b! "01/02/2006 3:04 PM",
  b! "02-01-2006",
  b! "02/01/2006",
  b! "02.01.2006 -0700",
  b! "02/01/2006 - 15:04",
  b! "02.01.2006 15:04",
  b! "02/01/2006 15:04:05",
  b! "02.01.2006 15:04:05",
  b! "02-01-2006 15:04:05 MST",
  b! "02/01/2006 15:04 MST",
  b! "02 Jan 2006",
  b! "02 Jan 2006 15:04:05",
  b! "02 Jan 2006 15:04:05 -0700",
  b! "02 Jan 2006 15:04:05 MST",
  b! "02 Jan 2006 15:04:05 UT",
  b! "02 Jan 2006 15:04 MST",
  b! "02 Monday, Jan 2006 15:04",
  b! "06-1-2 15:04",
  b! "06/1/2 15:04",
  b! "1/2/2006",
  b! "1/2/2006 15:04:05 MST",
  b! "1/2/2006 3:04:05 PM",
  b! "1/2/2006 3:04:05 PM MST",
  b! "15:04 02.01.2006 -0700",
  b! "2006-01-02",
  b! "2006/01/02",
  b! "2006-01-02 00:00:00.0 15:04:05.0 -0700",
  b! "2006-01-02 15:04",
  b! "2006-01-02 15:04:05 -0700",
  b! "2006-01-02 15:04:05-07:00",
  b! "2006-01-02 15:04:05-0700",
  b! "2006-01-02 15:04:05 MST",
  b! "2006-01-02 15:04:05Z",
  b! "2006-01-02 at 15:04:05",
  b! "2006-01-02T15:04:05",
  b! "2006-01-02T15:04:05:00",
  b! "2006-01-02T15:04:05 -0700",
  b! "2006-01-02T15:04:05-07:00",
  b! "2006-01-02T15:04:05-0700",
  b! "2006-01-02T15:04:05:-0700",
  b! "2006-01-02T15:04:05-07:00:00",
  b! "2006-01-02T15:04:05Z",
  b! "2006-01-02T15:04-07:00",
  b! "2006-01-02T15:04Z",
  b! "2006-1-02T15:04:05Z",
  b! "2006-1-2",
  b! "2006-1-2 15:04:05",
  b! "2006-1-2T15:04:05Z",
  b! "2006 January 02",
  b! "2-1-2006",
  b! "2/1/2006",
  b! "2.1.2006 15:04:05",
  b! "2 Jan 2006",
  b! "2 Jan 2006 15:04:05 -0700",
  b! "2 Jan 2006 15:04:05 MST",
  b! "2 Jan 2006 15:04:05 Z",
  b! "2 January 2006",
  b! "2 January 2006 15:04:05 -0700",
  b! "2 January 2006 15:04:05 MST",
  b! "6-1-2 15:04",
  b! "6/1/2 15:04",
  b! "Jan 02, 2006",
  b! "Jan 02 2006 03:04:05PM",
  b! "Jan 2, 2006",
  b! "Jan 2, 2006 15:04:05 MST",
  b! "Jan 2, 2006 3:04:05 PM",
  b! "Jan 2, 2006 3:04:05 PM MST",
  b! "January 02, 2006",
  b! "January 02, 2006 03:04 PM",
  b! "January 02, 2006 15:04",
  b! "January 02, 2006 15:04:05 MST",
  b! "January 2, 2006",
  b! "January 2, 2006 03:04 PM",
  b! "January 2, 2006 15:04:05",
  b! "January 2, 2006 15:04:05 MST",
  b! "January 2, 2006, 3:04 p.m.",
  b! "January 2, 2006 3:04 PM",
  b! "Mon, 02 Jan 06 15:04:05 MST",
  b! "Mon, 02 Jan 2006",
  b! "Mon, 02 Jan 2006 15:04:05",
  b! "Mon, 02 Jan 2006 15:04:05 00",
  b! "Mon, 02 Jan 2006 15:04:05 -07",
  b! "Mon 02 Jan 2006 15:04:05 -0700",
  b! "Mon, 02 Jan 2006 15:04:05 --0700",
  b! "Mon, 02 Jan 2006 15:04:05 -07:00",
  b! "Mon, 02 Jan 2006 15:04:05 -0700",
  b! "Mon,02 Jan 2006 15:04:05 -0700",
  b! "Mon, 02 Jan 2006 15:04:05 GMT-0700",
  b! "Mon , 02 Jan 2006 15:04:05 MST",
  b! "Mon, 02 Jan 2006 15:04:05 MST",
  b! "Mon, 02 Jan 2006 15:04:05MST",
  b! "Mon, 02 Jan 2006, 15:04:05 MST",
  b! "Mon, 02 Jan 2006 15:04:05 MST -0700",
  b! "Mon, 02 Jan 2006 15:04:05 MST-07:00",
  b! "Mon, 02 Jan 2006 15:04:05 UT",
  b! "Mon, 02 Jan 2006 15:04:05 Z",
  b! "Mon, 02 Jan 2006 15:04 -0700",
  b! "Mon, 02 Jan 2006 15:04 MST",
  b! "Mon,02 Jan 2006 15:04 MST",
  b! "Mon, 02 Jan 2006 15 -0700",
  b! "Mon, 02 Jan 2006 3:04:05 PM MST",
  b! "Mon, 02 January 2006",
  b! "Mon,02 January 2006 14:04:05 MST",
  b! "Mon, 2006-01-02 15:04",
  b! "Mon, 2 Jan 06 15:04:05 -0700",
  b! "Mon, 2 Jan 06 15:04:05 MST",
  b! "Mon, 2 Jan 15:04:05 MST",
  b! "Mon, 2 Jan 2006",
  b! "Mon,2 Jan 2006",
  b! "Mon, 2 Jan 2006 15:04",
  b! "Mon, 2 Jan 2006 15:04:05",
  b! "Mon, 2 Jan 2006 15:04:05 -0700",
  b! "Mon, 2 Jan 2006 15:04:05-0700",
  b! "Mon, 2 Jan 2006 15:04:05 -0700 MST",
  b! "mon,2 Jan 2006 15:04:05 MST",
  b! "Mon 2 Jan 2006 15:04:05 MST",
  b! "Mon, 2 Jan 2006 15:04:05 MST",
  b! "Mon, 2 Jan 2006 15:04:05MST",
  b! "Mon, 2 Jan 2006 15:04:05 UT",
  b! "Mon, 2 Jan 2006 15:04 -0700",
  b! "Mon, 2 Jan 2006, 15:04 -0700",
  b! "Mon, 2 Jan 2006 15:04 MST",
  b! "Mon, 2, Jan 2006 15:4",
  b! "Mon, 2 Jan 2006 15:4:5 -0700 GMT",
  b! "Mon, 2 Jan 2006 15:4:5 MST",
  b! "Mon, 2 Jan 2006 3:04:05 PM -0700",
  b! "Mon, 2 January 2006",
  b! "Mon, 2 January 2006 15:04:05 -0700",
  b! "Mon, 2 January 2006 15:04:05 MST",
  b! "Mon, 2 January 2006, 15:04:05 MST",
  b! "Mon, 2 January 2006, 15:04 -0700",
  b! "Mon, 2 January 2006 15:04 MST",
  b! "Monday, 02 January 2006 15:04:05",
  b! "Monday, 02 January 2006 15:04:05 -0700",
  b! "Monday, 02 January 2006 15:04:05 MST",
  b! "Monday, 2 Jan 2006 15:04:05 -0700",
  b! "Monday, 2 Jan 2006 15:04:05 MST",
  b! "Monday, 2 January 2006 15:04:05 -0700",
  b! "Monday, 2 January 2006 15:04:05 MST",
  b! "Monday, January 02, 2006",
  b! "Monday, January 2, 2006",
  b! "Monday, January 2, 2006 03:04 PM",
  b! "Monday, January 2, 2006 15:04:05 MST",
  b! "Mon Jan 02 2006 15:04:05 -0700",
  b! "Mon, Jan 02,2006 15:04:05 MST",
  b! "Mon Jan 02, 2006 3:04 pm",
  b! "Mon Jan 2 15:04:05 2006 MST",
  b! "Mon Jan 2 15:04 2006",
  b! "Mon, Jan 2 2006 15:04:05 -0700",
  b! "Mon, Jan 2 2006 15:04:05 -700",
  b! "Mon, Jan 2, 2006 15:04:05 MST",
  b! "Mon, Jan 2 2006 15:04 MST",
  b! "Mon, Jan 2, 2006 15:04 MST",
  b! "Mon, January 02, 2006 15:04:05 MST",
  b! "Mon, January 02, 2006, 15:04:05 MST",
  b! "Mon, January 2 2006 15:04:05 -0700",
  b! "Updated January 2, 2006",
  b! "Mon Jan _2 15:04:05 2006",
  b! "Mon, 02 Jan 2006 15:04:05 MST",
  b! "Mon, 02 Jan 2006 15:04:05 -0700",
  b! "2006-01-02T15:04:05Z07:00",
  b! "02 Jan 06 15:04 MST",
  b! "02 Jan 06 15:04 -0700",
  b! "Monday, 02-Jan-06 15:04:05 MST",
  b! "Mon Jan 02 15:04:05 -0700 2006",
  b! "Mon Jan _2 15:04:05 MST 2006"]

/-- The loop over the layouts, /repo/pkg/utils/time.go:232-236: the first one that reads the text wins. -/
def parseFirst (loc : LocalZone) (s : Bytes) : List Bytes → Option Time
  | [] => none
  | f :: fs =>
    match (DateLayout.of f).parse loc s with
    | some t => some t
    | none => parseFirst loc s fs

/-- `parseDate`, /repo/pkg/utils/time.go:225-240; `none` is an error. -/
def parseDate (loc : LocalZone) (s : Bytes) : Option Time :=
  let s := trimSpace s
  if s = [] then none else parseFirst loc s dateFormats

end Metro2
