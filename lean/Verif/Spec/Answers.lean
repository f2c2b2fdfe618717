import Verif.Model.Answers
import Verif.Spec.JsonState
import Verif.Spec.JsonDoc
import Verif.Spec.Stream
import Verif.Spec.FileMessages
import Verif.Spec.Program

/-! What the texts of the errors of the reader, the service and the program say. -/

namespace Metro2.Spec

/-- There is something to read: reading does not fail within the first 1024 bytes, and there is at least one byte. -/
def Begun (data : List UInt8) (broken : Bool) : Prop := 1024 ≤ data.length ∨ (broken = false ∧ data ≠ [])

/-- The value of the member `header` is an error for the detection of the format: it is not `null`, and it is no object, or one of its members is an
error. -/
def BadHeadValue (env : JsonEnv) : Json → Prop
  | .null => False
  | .obj kvs => ∃ kv ∈ kvs, BadMember env headerInfoStruct kv
  | _ => True

/-- The document is an error for the detection of the format: it is not `null`, and it is no object, or a member whose key spells `header`, apart from case, is
an error. -/
def BadHead (env : JsonEnv) : Json → Prop
  | .null => False
  | .obj kvs => ∃ kv ∈ kvs, Spells foldOthers "header".toUTF8.data.toList kv.1 ∧ BadHeadValue env kv.2
  | _ => True

/-- What an input that is not taken is answered with. -/
inductive Reason (lib : LibTexts) (env : JsonEnv) (first : List UInt8 → Option Json) (p : Plan) (data : List UInt8) (broken : Bool) :
    List UInt8 → Prop
  /-- There is no byte. -/
  | nothing : data = [] → broken = false → Reason lib env first p data broken "EOF".toUTF8.data.toList
  /-- Reading fails at once. -/
  | cut : data.length < 1024 → broken = true → Reason lib env first p data broken lib.read
  /-- There is no JSON value. -/
  | noDocument : Begun data broken → EarlyBrace data → first data = none →
      Reason lib env first p data broken ("reading header: ".toUTF8.data.toList ++ lib.header data)
  /-- The format cannot be told. -/
  | badHead {j : Json} : Begun data broken → EarlyBrace data → first data = some j → BadHead env j →
      Reason lib env first p data broken ("reading header: ".toUTF8.data.toList ++ lib.header data)
  /-- There is a number out of range. -/
  | badNumber {j : Json} : Begun data broken → EarlyBrace data → first data = some j → ¬ BadHead env j → ¬ NumbersOk env j →
      Reason lib env first p data broken ("reading file: ".toUTF8.data.toList ++ lib.map j)
  /-- Anything else in a JSON document. -/
  | document {j : Json} : Begun data broken → EarlyBrace data → first data = some j → ¬ BadHead env j → NumbersOk env j →
      Reason lib env first p data broken "reading file: Unable to parse input json file".toUTF8.data.toList
  /-- A Metro 2 text: about its header or its trailer, or no record is named. -/
  | text {m : List UInt8} : Begun data broken → ¬ EarlyBrace data → readFileText p data = some m → AboutEnds m → Reason lib env first p data broken m
  /-- A Metro 2 text with an error of the standard library. -/
  | library : Begun data broken → ¬ EarlyBrace data → readFileText p data = none → Reason lib env first p data broken (lib.metro data)

/-- What the client receives. -/
def answered (env : ServerEnv) (t : Texts) (r : Request) : Nat × List (List UInt8 × List UInt8) × List UInt8 := (answer env t r {}).finish

/-- The texts are those of the JSON branch with this decoder. -/
def JsonTexts (env : ServerEnv) (t : Texts) (jenv : JsonEnv) (visits : Nat → List (List UInt8 × Json) → List (List UInt8 × Json))
    (first : List UInt8 → Option Json) : Prop :=
  env.json = readJson jenv visits first ∧ t.json = jsonErrorText t.lib jenv first

/-- `POST` to one of the paths that take a file. -/
def PostsFile (r : Request) : Prop := Post r "/print" ∨ Post r "/validator" ∨ Post r "/convert"

/-- The input of a run. -/
def takenInput : Invocation → Option (Option (List UInt8))
  | .validator input => some input
  | .print input _ _ => some input
  | .convert input _ _ _ _ _ => some input
  | .web _ _ => none

/-- The arguments of a run are right: the format is known, and `convert` has an output. -/
def ArgumentsOk : Invocation → Prop
  | .validator _ => True
  | .print _ format _ => valued "json".toUTF8.data.toList format ∈ ["json".toUTF8.data.toList, "metro".toUTF8.data.toList, []]
  | .convert _ format _ _ _ args =>
    valued "json".toUTF8.data.toList format ∈ ["json".toUTF8.data.toList, "metro".toUTF8.data.toList, []] ∧ args ≠ []
  | .web _ _ => True

end Metro2.Spec
