import Verif.Model.ClientErrors
import Verif.Spec.Answers
import Verif.Spec.ClientCall

/-! What the caller of the client learns about a refused file. -/

namespace Metro2.Spec

/-- The codes of answers that are no success, and the texts of their status lines. -/
def refusals : List (Nat × String) :=
  [(400, "400 Bad Request"), (404, "404 Not Found"), (405, "405 Method Not Allowed"), (501, "501 Not Implemented")]

/-- The calls that take a file, with the file. -/
inductive Sends : ClientCall → Upload → Prop
  | convert {a : ConvertArgs} {u : Upload} : a.file = some u → Sends (convertCall a) u
  | print {a : PrintArgs} {u : Upload} : a.file = some u → Sends (printCall a) u
  | validator {u : Upload} : Sends (validatorCall (some u)) u

/-- The file is one that the service does not read. -/
def Unread (env : ServerEnv) (u : Upload) : Prop := ∀ f, newFileFromReader env.json env.plan u.content false ≠ .ok f

end Metro2.Spec
