import Verif.Tests.RepoFile

/-!
The tests of pkg/server (suite_test.go) and cmd/metro2 (cmd_test.go) on the model. Not repeated: the encoding of a multipart form and the parsing of
command line arguments, which are outside the model (so TestConvertWithInvalidParam, TestUnknown, TestWeb, TestWebWithInvalidPort), and
large_requests_test.go.
-/

namespace Metro2.RepoTests

open TestData

def handlers : ServerEnv := serverEnv env inOrder (fun _ => b! "error") whole
def commands : ServerEnv := commandEnv env inOrder (fun _ => b! "error") whole

/-- A multipart form with a file and fields. -/
def formRequest (path : Bytes) (file : Option Bytes) (fields : List (Bytes × Bytes)) : Request :=
  ⟨b! "POST", path, b! "multipart/form-data; boundary=x", [], false, file.map (·, false), fun _ => [], fun k => (fields.lookup k).getD []⟩

/-- A JSON body with a query. -/
def jsonRequest (path body : Bytes) (fields : List (Bytes × Bytes)) : Request :=
  ⟨b! "POST", path, b! "application/json", body, false, none, fun k => (fields.lookup k).getD [], fun k => (fields.lookup k).getD []⟩

def getRequest (path : Bytes) : Request := ⟨b! "GET", path, [], [], false, none, fun _ => [], fun _ => []⟩

def statusOf (r : Request) : Nat := (serve handlers r {}).finish.1

-- TestUnknownRequest, TestHealth, TestWithInvalidForm, TestUnknownPrint, TestUnknownConvert
example : statusOf (getRequest (b! "/unknown")) = 404 ∧ statusOf (getRequest (b! "/health")) = 200 ∧
    statusOf (formRequest (b! "/print") none [(b! "format", b! "json")]) = 400 := by decide +kernel
example : ∀ path ∈ [b! "/print", b! "/convert"], statusOf (formRequest path (some packedFileJson) [(b! "format", b! "unknown")]) = 501 := by
  decide +kernel

-- TestValidator
example : statusOf (formRequest (b! "/validator") (some packedFileJson) []) = 200 := by decide +kernel

-- TestJsonPrint, TestMetroPrint, TestJsonConvert, TestMetroConvert
example : ∀ path ∈ [b! "/print", b! "/convert"], ∀ format ∈ [b! "json", b! "metro"],
    statusOf (formRequest path (some packedFileJson) [(b! "format", format)]) = 200 := by decide +kernel

-- TestJsonConvertWithGenerate
example : statusOf (formRequest (b! "/convert") (some packedFileJson) [(b! "format", b! "json"), (b! "generate", b! "true")]) = 200 := by
  decide +kernel

-- TestPrintWithoutContentType, TestConvertWithoutContentType
example : ∀ path ∈ [b! "/print", b! "/convert"], statusOf (formRequest path (some baseSegmentJson) [(b! "format", b! "json")]) = 200 := by
  decide +kernel

-- TestJsonRequestPrint, TestConvertWithValidJsonRequest
example : ∀ path ∈ [b! "/print", b! "/convert"],
    let w := (serve handlers (jsonRequest path unpackedFixedFileJson [(b! "format", b! "metro")]) {}).finish
    w.1 = 200 ∧ w.2.2 = noCR unpackedFixedRequestDat := by decide +kernel

def command (input : Option Bytes) (format : Bytes) (generate : Bool) : Command :=
  ⟨input.map (·, false), format, [], generate, true, b! "output", true⟩

def succeeds : Outcome → Bool
  | .error _ => false
  | _ => true

-- TestConvertWithoutInput, TestConvertUnknown, TestPrintUnknown
example : succeeds (runConvert commands (command none (b! "json") false)) = false ∧
    succeeds (runConvert commands (command (some packedFileJson) (b! "unknown") false)) = false ∧
    succeeds (runPrint commands (command (some packedFileJson) (b! "unknown") false)) = false := by decide +kernel

-- TestConvertJson, TestConvertMetro, TestPrintJson, TestPrintMetro, TestConvertMetroWithGenerate, TestValidator
example : (∀ format ∈ [b! "json", b! "metro"], succeeds (runConvert commands (command (some packedFileJson) format false)) = true ∧
      succeeds (runPrint commands (command (some packedFileJson) format false)) = true) ∧
    succeeds (runConvert commands (command (some packedFileJson) (b! "metro") true)) = true ∧
    succeeds (runValidator commands (command (some packedFileJson) [] false)) = true := by decide +kernel

end Metro2.RepoTests
