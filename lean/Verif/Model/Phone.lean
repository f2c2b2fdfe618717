import Verif.Go.Regex
import Verif.Model.Types

/-!
`phoneRegex` and `isPhoneNumber`.
-/

namespace Metro2
open Regex

/-- `[\-\.\ \\\/]` -/
def phoneSep : Regex := cls fun c => (b! "-. \\/").contains c
/-- `\d` -/
def phoneDigit : Regex := cls isDigit
/-- `[1-4]\d\d|[1-9]\d?` -/
def phoneCountry : Regex :=
  alt (cat (cls fun c => 49 ≤ c && c ≤ 52) (cat phoneDigit phoneDigit))
    (cat (cls fun c => 49 ≤ c && c ≤ 57) (opt phoneDigit))
/-- `(?:(?:\(?(?:00|\+)([1-4]\d\d|[1-9]\d?)\)?)?[\-\.\ \\\/]?)?` -/
def phonePrefix : Regex :=
  opt (cat
    (opt (cat (opt (byte 40)) (cat (alt (lit (b! "00")) (byte 43)) (cat phoneCountry (opt (byte 41))))))
    (opt phoneSep))
/-- `((?:\(?\d{1,}\)?[\-\.\ \\\/]?){0,})` -/
def phoneBody : Regex :=
  star (cat (opt (byte 40)) (cat (plus phoneDigit) (cat (opt (byte 41)) (opt phoneSep))))
/-- `(?:[\-\.\ \\\/]?(?:#|ext\.?|extension|x)[\-\.\ \\\/]?(\d+))?` -/
def phoneExt : Regex :=
  opt (cat (opt phoneSep)
    (cat (alt (byte 35) (alt (cat (lit (b! "ext")) (opt (byte 46)))
        (alt (lit (b! "extension")) (byte 120))))
      (cat (opt phoneSep) (plus phoneDigit))))

/-- `phoneRegex`, /repo/pkg/lib/constants.go:502. -/
def phoneRegex : Regex := cat phonePrefix (cat phoneBody phoneExt)

/-- `isPhoneNumber`, /repo/pkg/lib/validators.go:39-45. -/
def isPhoneNumber (number : Int) : Option Err :=
  if phoneRegex.rmatch (fmtIntZero 10 number) then none else some .phone

end Metro2
