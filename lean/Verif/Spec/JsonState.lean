import Verif.Model.JsonState
import Verif.Spec.JsonExtra
import Verif.Spec.Files

/-! What a JSON document leaves in a record or a file, also when it is refused. -/

namespace Metro2.Spec

/-- The key of a member names the field: its JSON name, apart from case. -/
def NamesField (p : F × FieldDecl) (key : List UInt8) : Prop := Spells foldOthers (smallWord p.2.json) key

/-- The value that a JSON value puts into a field: whole numbers in range, texts, and dates. -/
inductive Suits (env : JsonEnv) : Kind → Json → Val → Prop
  | int {lit : List UInt8} {i : Int} : parseInt lit = .ok i → Suits env .int (.num lit) (.int i)
  | int64 {lit : List UInt8} {i : Int} : parseInt lit = .ok i → Suits env .int64 (.num lit) (.int i)
  | str (s : List UInt8) : Suits env .str (.str s) (.str s)
  | time {j : Json} {t : Time} : decodeTime env j = some t → Suits env .time j (.time t)

/-- `null` is no error for numbers and texts, and leaves them as they are. -/
inductive Passes : Kind → Json → Prop
  | int : Passes .int .null
  | int64 : Passes .int64 .null
  | str : Passes .str .null

/-- The JSON value is an error for a field of the type. -/
def Refuses (env : JsonEnv) (k : Kind) (j : Json) : Prop := ¬ Passes k j ∧ ∀ v, ¬ Suits env k j v

/-- The member is an error. -/
def BadMember (env : JsonEnv) (decl : List (F × FieldDecl)) (kv : List UInt8 × Json) : Prop :=
  ∃ p ∈ decl, NamesField p kv.1 ∧ Refuses env p.2.kind kv.2

/-- The member is an error in a date. -/
def BadDate (env : JsonEnv) (decl : List (F × FieldDecl)) (kv : List UInt8 × Json) : Prop :=
  ∃ p ∈ decl, p.2.kind = .time ∧ NamesField p kv.1 ∧ Refuses env .time kv.2

/-- The member puts a value into the field. -/
def Puts (env : JsonEnv) (p : F × FieldDecl) (kv : List UInt8 × Json) (v : Val) : Prop :=
  NamesField p kv.1 ∧ Suits env p.2.kind kv.2 v

/-- The data records that a document lists. -/
def DataOf (env : JsonEnv) (j : Json) (xs : List Json) : Prop :=
  ∃ kvs d, decodeMap env j = some kvs ∧ ("data".toUTF8.data.toList, d) ∈ kvs ∧ decodeList env d = some xs

/-- The document has a member of that name at the top. -/
def Has (env : JsonEnv) (j : Json) (name : String) : Prop :=
  ∃ kvs d, decodeMap env j = some kvs ∧ (name.toUTF8.data.toList, d) ∈ kvs

end Metro2.Spec
