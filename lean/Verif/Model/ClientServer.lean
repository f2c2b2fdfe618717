import Verif.Model.ClientCall

/-!
The address that a call of the generated client goes to, /repo/pkg/client/configuration.go.

Maps with string keys are lists of pairs. A map that is walked through (`Variables`) is the list in the order in which Go visits it this time; the
theorems hold for every order. For a map that is only looked into, the first pair counts.
-/

namespace Metro2

/-- `ServerVariable`, /repo/pkg/client/configuration.go:57-61, without the description. -/
structure ServerVariable where
  defaultValue : Bytes
  enumValues : List Bytes

/-- `ServerConfiguration`, /repo/pkg/client/configuration.go:64-68, without the description. -/
structure ServerConfiguration where
  url : Bytes
  variables : List (Bytes × ServerVariable)

/-- `strings.Replace(s, old, new, -1)` for an `old` that is not empty: the number counts the bytes of a replaced `old` still to be left out. -/
def replaceFrom (old new : Bytes) : Nat → Bytes → Bytes
  | _, [] => []
  | k + 1, _ :: s => replaceFrom old new k s
  | 0, c :: s => if old.isPrefixOf (c :: s) then new ++ replaceFrom old new (old.length - 1) s else c :: replaceFrom old new 0 s

/-- `strings.Replace(url, "{"+name+"}", value, -1)`, /repo/pkg/client/configuration.go:127, 129. -/
def replacePlace (name value url : Bytes) : Bytes := replaceFrom (b! "{" ++ name ++ b! "}") value 0 url

/-- `%v` of a list of strings. -/
def fmtStrings (xs : List Bytes) : Bytes := b! "[" ++ List.intercalate (b! " ") xs ++ b! "]"

/-- The text of /repo/pkg/client/configuration.go:125. -/
def variableError (name value : Bytes) (v : ServerVariable) : Bytes :=
  b! "the variable " ++ name ++ b! " in the server URL has invalid value " ++ value ++ b! ". Must be " ++ fmtStrings v.enumValues

/-- The loop over the variables, /repo/pkg/client/configuration.go:115-131. An error is its text. -/
def fillVariables (given : List (Bytes × Bytes)) : List (Bytes × ServerVariable) → Bytes → Except Bytes Bytes
  | [], url => .ok url
  | (name, v) :: rest, url =>
    match given.lookup name with
    | some value =>
      if v.enumValues.isEmpty || v.enumValues.contains value then fillVariables given rest (replacePlace name value url)
      else .error (variableError name value v)
    | none => fillVariables given rest (replacePlace name v.defaultValue url)

/-- `ServerConfigurations.URL`, /repo/pkg/client/configuration.go:108-133. -/
def serversURL (servers : List ServerConfiguration) (index : Int) (given : List (Bytes × Bytes)) : Except Bytes Bytes :=
  match if 0 ≤ index then servers[index.toNat]? else none with
  | none => .error (b! "index " ++ fmtInt index ++ b! " out of range " ++ fmtInt ((servers.length : Int) - 1))
  | some server => fillVariables given server.variables server.url

/-- A value in a context: missing or nil, of the type that is expected, or of another type, whose name is given. -/
inductive ContextValue (α : Type) where
  | missing
  | value (a : α)
  | other (type : Bytes)

/-- The values of a `context.Context` that are looked at, /repo/pkg/client/configuration.go:30-42. -/
structure ClientContext where
  index : ContextValue Int := .missing
  indices : ContextValue (List (Bytes × Int)) := .missing
  variables : ContextValue (List (Bytes × Bytes)) := .missing
  operationVariables : ContextValue (List (Bytes × List (Bytes × Bytes))) := .missing

/-- `getServerIndex`, /repo/pkg/client/configuration.go:140-149. -/
def getServerIndex (ctx : ClientContext) : Except Bytes Int :=
  match ctx.index with
  | .missing => .ok 0
  | .value i => .ok i
  | .other t => .error (b! "Invalid type " ++ t ++ b! " should be int")

/-- `getServerOperationIndex`, /repo/pkg/client/configuration.go:151-164. -/
def getServerOperationIndex (ctx : ClientContext) (endpoint : Bytes) : Except Bytes Int :=
  match ctx.indices with
  | .missing => getServerIndex ctx
  | .other t => .error (b! "Invalid type " ++ t ++ b! " should be map[string]int")
  | .value m =>
    match m.lookup endpoint with
    | some i => .ok i
    | none => getServerIndex ctx

/-- `getServerVariables`, /repo/pkg/client/configuration.go:166-175. -/
def getServerVariables (ctx : ClientContext) : Except Bytes (List (Bytes × Bytes)) :=
  match ctx.variables with
  | .missing => .ok []
  | .value m => .ok m
  | .other t => .error (b! "ctx value of ContextServerVariables has invalid type " ++ t ++ b! " should be map[string]string")

/-- `getServerOperationVariables`, /repo/pkg/client/configuration.go:177-190. -/
def getServerOperationVariables (ctx : ClientContext) (endpoint : Bytes) : Except Bytes (List (Bytes × Bytes)) :=
  match ctx.operationVariables with
  | .missing => getServerVariables ctx
  | .other t =>
    .error (b! "ctx value of ContextOperationServerVariables has invalid type " ++ t ++ b! " should be map[string]map[string]string")
  | .value m =>
    match m.lookup endpoint with
    | some vs => .ok vs
    | none => getServerVariables ctx

/-- The parts of `Configuration` that matter for the address, /repo/pkg/client/configuration.go:74-83. -/
structure ClientConfiguration where
  servers : List ServerConfiguration
  operationServers : List (Bytes × List ServerConfiguration) := []

/-- `NewConfiguration`, /repo/pkg/client/configuration.go:86-100. -/
def newConfiguration : ClientConfiguration where
  servers := [⟨b! "http://localhost:8080", []⟩]

/-- `ServerURLWithContext`, /repo/pkg/client/configuration.go:193-214. -/
def ClientConfiguration.serverURL (c : ClientConfiguration) (ctx : Option ClientContext) (endpoint : Bytes) : Except Bytes Bytes :=
  let servers := match c.operationServers.lookup endpoint with
    | some s => s
    | none => c.servers
  match ctx with
  | none => serversURL servers 0 []
  | some ctx =>
    match getServerOperationIndex ctx endpoint with
    | .error e => .error e
    | .ok index =>
      match getServerOperationVariables ctx endpoint with
      | .error e => .error e
      | .ok given => serversURL servers index given

end Metro2
