import Verif.Model.Server
import Verif.Spec.Json

/-! Requests and answers, in terms of what the client sends and receives. -/

namespace Metro2.Spec

/-- What the client receives. -/
def status (env : ServerEnv) (r : Request) : Nat := (serve env r {}).finish.1
def headers (env : ServerEnv) (r : Request) : List (List UInt8 × List UInt8) := (serve env r {}).finish.2.1
def body (env : ServerEnv) (r : Request) : List UInt8 := (serve env r {}).finish.2.2

/-- The headers that the handler has set when it returns. -/
def declared (env : ServerEnv) (r : Request) : List (List UInt8 × List UInt8) := (serve env r {}).header

/-- `s` is the word `w` with each letter small or large, or written with one of the other characters that count as the letter. -/
inductive Spells (others : List (UInt8 × List UInt8)) : List UInt8 → List UInt8 → Prop
  | nil : Spells others [] []
  | small {c w s} : Spells others w s → Spells others (c :: w) (c :: s)
  | large {c w s} : 97 ≤ c → c ≤ 122 → Spells others w s → Spells others (c :: w) ((c - 32) :: s)
  | other {c t w s} : (c, t) ∈ others → Spells others w s → Spells others (c :: w) (t ++ s)

/-- Other characters with a small letter of ASCII: U+0130 and U+212A (KELVIN SIGN). -/
def lowerOthers : List (UInt8 × List UInt8) := [(105, [0xC4, 0xB0]), (107, [0xE2, 0x84, 0xAA])]

/-- Other characters that are equal to a letter of ASCII apart from case: U+212A and U+017F (LONG S). -/
def foldOthers : List (UInt8 × List UInt8) := [(107, [0xE2, 0x84, 0xAA]), (115, [0xC5, 0xBF])]

/-- The parameter has this value, apart from case. -/
def Says (r : Request) (key word : String) : Prop :=
  Spells foldOthers word.toUTF8.data.toList (r.form key.toUTF8.data.toList)

/-- The request is a form with parts. -/
def Multipart (r : Request) : Prop :=
  ∃ a b, r.contentType = a ++ b ∧ Spells lowerOthers "multipart/".toUTF8.data.toList a

/-- The text that the request carries, and if it is cut off by an error: the part `file` of a form with parts, the body of any other. -/
inductive Carries (r : Request) : List UInt8 → Bool → Prop
  | part {data broken} : Multipart r → r.fileField = some (data, broken) → Carries r data broken
  | body : ¬ Multipart r → Carries r r.body r.bodyBroken

/-- The request carries the file `f`. -/
def CarriesFile (env : ServerEnv) (r : Request) (f : File) : Prop :=
  ∃ data broken, Carries r data broken ∧ newFileFromReader env.json env.plan data broken = .ok f

/-- The value of the parameter `format`: from the URL only if the content type is that of JSON. -/
def formatParam (r : Request) : List UInt8 :=
  if r.contentType = "application/json".toUTF8.data.toList then r.query "format".toUTF8.data.toList
  else r.form "format".toUTF8.data.toList

def WantsMetro (r : Request) : Prop := formatParam r = "metro".toUTF8.data.toList
def WantsJson (r : Request) : Prop := formatParam r = "json".toUTF8.data.toList ∨ formatParam r = []

/-- `POST` to this path. -/
def Post (r : Request) (path : String) : Prop :=
  r.method = "POST".toUTF8.data.toList ∧ r.path = path.toUTF8.data.toList

/-- Records are separated by line breaks unless the parameter `newline` is false. -/
def SameLines (r : Request) (nl : Bool) : Prop := nl = false ↔ Says r "newline" "false"

/-- The file to convert: with a generated trailer if one is wanted. -/
def WithTrailer (wanted : Prop) (f g : File) : Prop :=
  (wanted ∧ ∃ t, f.generatorTrailer = .ok t ∧ g = { f with trailer := t }) ∨ (¬ wanted ∧ g = f)

/-- The file in the format named, or as it is if the name is another. -/
def InType (name : List UInt8) (f g : File) : Prop :=
  (name = "character".toUTF8.data.toList ∧ g = fileIn .character f) ∨
  (name = "packed".toUTF8.data.toList ∧ g = fileIn .packed f) ∨
  (name ≠ "character".toUTF8.data.toList ∧ name ≠ "packed".toUTF8.data.toList ∧ g = f)

/-- The JSON branch is the one of the model. -/
def JsonBranch (env : ServerEnv) : Prop := ∃ jenv visits first, env.json = readJson jenv visits first

/-- The command has the file `f` as its input. -/
def CommandReads (env : ServerEnv) (c : Command) (f : File) : Prop :=
  ∃ data broken, c.input = some (data, broken) ∧ newFileFromReader env.json env.plan data broken = .ok f

/-- `text` is the output of the file in the format named. -/
def OutputOf (env : ServerEnv) (format : List UInt8) (newline : Bool) (f : File) (text : List UInt8) : Prop :=
  ((format = "json".toUTF8.data.toList ∨ format = []) ∧ text = env.indent f.toJson) ∨
  (format = "metro".toUTF8.data.toList ∧ text = f.string newline)

end Metro2.Spec
