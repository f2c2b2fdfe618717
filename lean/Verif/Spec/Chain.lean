import Verif.Spec.Server
import Verif.Spec.GoodFile
import Verif.Spec.FileText

/-! Requests and commands that only change the notation of a file. -/

namespace Metro2.Spec

/-- The request asks for the file as it is: `/print`, or `/convert` without a generated trailer and without a change of the type. -/
def AsIs (r : Request) : Prop :=
  Post r "/print" ∨ (Post r "/convert" ∧ ¬ Says r "generate" "true" ∧
    r.form "type".toUTF8.data.toList ≠ "character".toUTF8.data.toList ∧ r.form "type".toUTF8.data.toList ≠ "packed".toUTF8.data.toList)

/-- The command, `print` or such a `convert`, gives out this text. -/
def Gives (env : ServerEnv) (c : Command) (text : List UInt8) : Prop :=
  runPrint env c = .stdout text ∨ (c.generate = false ∧ c.newType ≠ "character".toUTF8.data.toList ∧
    c.newType ≠ "packed".toUTF8.data.toList ∧ runConvert env c = .written c.output text)

end Metro2.Spec
