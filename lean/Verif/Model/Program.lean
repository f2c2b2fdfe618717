import Verif.Model.JsonText

/-!
The program `metro2`: flags, files and exit status around the commands of `Model/Server.lean`.
-/

namespace Metro2

/-- The operating system, as far as the commands use it. Paths may name the same file (links, `.` and `..`): `place` tells which file a path
names. `readable` is if `os.Open` succeeds on an existing file, `broken` if reading it fails before its end, `creatable` if `os.Create`
succeeds, `room` the number of bytes after which `WriteString` fails (`none`: it does not fail). `openText`, `createText` and `writeText` are the texts of
these errors, `serveText` the text of the error with which `ListenAndServe` on an address ends (it never returns without one). `cwd` is the
working directory, in the clean form of `filepath.Clean`. -/
structure Machine where
  cwd : Bytes
  place : Bytes → Nat
  readable : Bytes → Bool
  broken : Bytes → Bool
  creatable : Bytes → Bool
  room : Bytes → Option Nat
  openText : Bytes → Bytes
  createText : Bytes → Bytes
  writeText : Bytes → Bytes
  serveText : Bytes → Bytes

/-- The contents of the files; `none` is a file that does not exist. -/
abbrev Disk := Nat → Option Bytes

/-- One file gets another content. -/
def Disk.put (d : Disk) (i : Nat) (text : Bytes) : Disk := fun j => if j = i then some text else d j

/-- A command line as cobra splits it: the command, the flags given (`none`: not given), the arguments. Splitting itself, `help`, `completion` and unknown
commands or flags are cobra's and not modelled. -/
inductive Invocation where
  | validator (input : Option Bytes)
  | print (input format : Option Bytes) (newline : Option Bool)
  | convert (input format newType : Option Bytes) (generate newline : Option Bool) (args : List Bytes)
  | web (port : Option Bytes) (test : Option Bool)

/-- The values of flags that are not given, `initRootCmd`, /repo/cmd/metro2/main.go:252-265. -/
def defaultInput : Bytes := []
def defaultFormat : Bytes := b! "json"
def defaultType : Bytes := []
def defaultGenerate : Bool := false
def defaultNewline : Bool := false
def defaultPort : Bytes := b! "8080"
def defaultTest : Bool := false

/-- `filepath.Join(path, "metro.json")` for a clean `path`, or the empty one that a failing `os.Getwd` gives. -/
def joinInput (cwd : Bytes) : Bytes :=
  if cwd = [] then b! "metro.json"
  else if cwd.getLast? = some 47 then cwd ++ b! "metro.json"
  else cwd ++ b! "/metro.json"

/-- The path that `createReader` opens, /repo/cmd/metro2/main.go:33-36. -/
def inputPath (m : Machine) (input : Bytes) : Bytes := if input = [] then joinInput m.cwd else input

/-- `createReader`, /repo/cmd/metro2/main.go:26-48: what is read from the file, and if reading fails before its end; or the text of the error.
Simplification: the file is not changed by others between opening and reading. -/
def createReader (m : Machine) (d : Disk) (input : Bytes) : Except Bytes (Bytes × Bool) :=
  let path := inputPath m input
  match d (m.place path) with
  | none => .error (b! "invalid input file")
  | some data => if m.readable path then .ok (data, m.broken path) else .error (m.openText path)

/-- What a command leaves: the text on the standard output, the contents of the files, the text of the error returned. -/
structure Left where
  out : Bytes
  disk : Disk
  error : Option Bytes

/-- `validator`, /repo/cmd/metro2/main.go:91-112. -/
def leaveValidator (env : ServerEnv) (m : Machine) (d : Disk) (input : Bytes) : Left :=
  match createReader m d input with
  | .error e => ⟨[], d, some e⟩
  | .ok (data, broken) =>
    match newFileFromReader env.json env.plan data broken with
    | .error e => ⟨[], d, some (env.errText e)⟩
    | .ok f =>
      match f.validate with
      | some e => ⟨[], d, some (env.errText e)⟩
      | none => ⟨b! "the file is valid \n", d, none⟩

/-- `print`, /repo/cmd/metro2/main.go:119-166. Errors of writing to the standard output are ignored there, and not modelled. -/
def leavePrint (env : ServerEnv) (m : Machine) (d : Disk) (input format : Bytes) (newline : Bool) : Left :=
  match createReader m d input with
  | .error e => ⟨[], d, some e⟩
  | .ok (data, broken) =>
    match commandFormat format with
    | none => ⟨[], d, some (b! "don't support the format")⟩
    | some format =>
      match newFileFromReader env.json env.plan data broken with
      | .error e => ⟨[], d, some (env.errText e)⟩
      | .ok f => ⟨commandText env format f newline, d, none⟩

/-- `os.Create`, `WriteString` and `Close`, /repo/cmd/metro2/main.go:240-246: the file is emptied, then as much is written as there is room for. The error of
`Close` is ignored there. -/
def createAndWrite (m : Machine) (d : Disk) (path text : Bytes) : Left :=
  if m.creatable path then
    let d := d.put (m.place path) []
    match m.room path with
    | none => ⟨[], d.put (m.place path) text, none⟩
    | some n =>
      if text.length ≤ n then ⟨[], d.put (m.place path) text, none⟩
      else ⟨[], d.put (m.place path) (text.take n), some (m.writeText path)⟩
  else ⟨[], d, some (m.createText path)⟩

/-- `convert`, /repo/cmd/metro2/main.go:169-248: the check of the arguments, then the command. -/
def leaveConvert (env : ServerEnv) (m : Machine) (d : Disk) (input format newType : Bytes) (generate newline : Bool) (args : List Bytes) : Left :=
  match args with
  | [] => ⟨[], d, some (b! "requires output argument")⟩
  | output :: _ =>
    match createReader m d input with
    | .error e => ⟨[], d, some e⟩
    | .ok (data, broken) =>
      match commandFormat format with
      | none => ⟨[], d, some (b! "don't support the format")⟩
      | some format =>
        match newFileFromReader env.json env.plan data broken with
        | .error e => ⟨[], d, some (env.errText e)⟩
        | .ok f =>
          match (if generate then generateTrailer f else .ok f) with
          | .error e => ⟨[], d, some (env.errText e)⟩
          | .ok f => createAndWrite m d output (commandText env format (changeType f newType) newline)

/-- `web`, /repo/cmd/metro2/main.go:61-84, when it has ended: what is served meanwhile is `serve` of `Model/Server.lean`. -/
def leaveWeb (m : Machine) (d : Disk) (port : Bytes) (test : Bool) : Left :=
  ⟨b! "Starting web server on port " ++ port ++ b! "\n\n", d, if test then none else some (m.serveText (b! "0.0.0.0:" ++ port))⟩

/-- The command that cobra runs, with the values of the flags that are not given, /repo/cmd/metro2/main.go:252-271. -/
def runCommand (env : ServerEnv) (m : Machine) (d : Disk) : Invocation → Left
  | .validator input => leaveValidator env m d (input.getD defaultInput)
  | .print input format newline => leavePrint env m d (input.getD defaultInput) (format.getD defaultFormat) (newline.getD defaultNewline)
  | .convert input format newType generate newline args =>
    leaveConvert env m d (input.getD defaultInput) (format.getD defaultFormat) (newType.getD defaultType) (generate.getD defaultGenerate)
      (newline.getD defaultNewline) args
  | .web port test => leaveWeb m d (port.getD defaultPort) (test.getD defaultTest)

/-- The program when it has ended: exit status, standard output and standard error, contents of the files. -/
structure Ended where
  status : Nat
  out : Bytes
  err : Bytes
  disk : Disk

/-- `main`, /repo/cmd/metro2/main.go:273-277: cobra's `Execute` writes the text of the error to the standard error, without the usage
(`SilenceUsage`), and returns the error, which is dropped; a Go program whose `main` returns has exit status 0. -/
def runProgram (env : ServerEnv) (m : Machine) (d : Disk) (i : Invocation) : Ended :=
  let left := runCommand env m d i
  ⟨0, left.out, match left.error with | some e => b! "Error: " ++ e ++ b! "\n" | none => [], left.disk⟩

end Metro2
