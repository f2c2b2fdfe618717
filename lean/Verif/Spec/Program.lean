import Verif.Model.Program
import Verif.Spec.Server
import Verif.Spec.JsonText

/-! Runs of the program, in terms of command line, files, outputs and exit status. -/

namespace Metro2.Spec

/-- The file `metro.json` of a directory. -/
inductive MetroJson : Bytes → Bytes → Prop
  | inside {dir} : dir ≠ [] → dir.getLast? ≠ some '/'.toNat.toUInt8 → MetroJson dir (dir ++ "/metro.json".toUTF8.data.toList)
  | root {dir} : MetroJson (dir ++ ['/'.toNat.toUInt8]) (dir ++ "/metro.json".toUTF8.data.toList)
  | unknown : MetroJson [] "metro.json".toUTF8.data.toList

/-- The path that the flag `--input` stands for: as documented, `$PWD/metro.json` if it is not given. -/
inductive InputIs (m : Machine) : Option Bytes → Bytes → Prop
  | given {path} : path ≠ [] → InputIs m (some path) path
  | empty {path} : MetroJson m.cwd path → InputIs m (some []) path
  | missing {path} : MetroJson m.cwd path → InputIs m none path

/-- The input of a run is the file `f`. -/
def HasInput (env : ServerEnv) (m : Machine) (d : Disk) (input : Option Bytes) (f : File) : Prop :=
  ∃ path data, InputIs m input path ∧ d (m.place path) = some data ∧ m.readable path = true ∧
    newFileFromReader env.json env.plan data (m.broken path) = .ok f

/-- The value of a flag. -/
def valued {α : Type} (default : α) : Option α → α
  | some v => v
  | none => default

/-- The text that a run of `convert` has to write to `output`: the file, with its generated trailer if asked for, in the type and in the format asked for; as
documented, the format is JSON if none is given. -/
def HasToWrite (env : ServerEnv) (m : Machine) (d : Disk) (input format newType : Option Bytes) (generate newline : Option Bool)
    (text : Bytes) : Prop :=
  ∃ f g k, HasInput env m d input f ∧ ¬ (generate = some true ∧ f.bases = []) ∧ WithTrailer (generate = some true) f g ∧
    InType (valued [] newType) g k ∧ OutputOf env (valued "json".toUTF8.data.toList format) (valued false newline) k text

/-- So many bytes can be written to the file. -/
def HasRoom (m : Machine) (path : Bytes) (n : Nat) : Prop := ∀ k, m.room path = some k → n ≤ k

/-- The run does what it is asked for. -/
def Succeeds (env : ServerEnv) (m : Machine) (d : Disk) : Invocation → Prop
  | .validator input => ∃ f, HasInput env m d input f ∧ f.validate = none
  | .print input format newline => ∃ f text, HasInput env m d input f ∧
      OutputOf env (valued "json".toUTF8.data.toList format) (valued false newline) f text
  | .convert input format newType generate newline args => ∃ output rest text, args = output :: rest ∧
      HasToWrite env m d input format newType generate newline text ∧ m.creatable output = true ∧ HasRoom m output text.length
  | .web _ test => test = some true

/-- The file that a run may write to. -/
def Target (m : Machine) (i : Invocation) (j : Nat) : Prop :=
  ∃ input format newType generate newline output rest,
    i = .convert input format newType generate newline (output :: rest) ∧ j = m.place output

/-- The file of the input can be read to its end, and has this content. -/
def Stored (m : Machine) (d : Disk) (input : Option Bytes) (data : Bytes) : Prop :=
  ∃ path, InputIs m input path ∧ d (m.place path) = some data ∧ m.readable path = true ∧ m.broken path = false

/-- The request asks for the same format as the flag `--format`. -/
def SameFormat (r : Request) (format : Option Bytes) : Prop :=
  (WantsMetro r ↔ format = some "metro".toUTF8.data.toList) ∧
  (WantsJson r ↔ format = none ∨ format = some "json".toUTF8.data.toList ∨ format = some [])

/-- The same text in Metro 2, or two JSON texts for one value. -/
def SameOutput (a b : Bytes) : Prop := a = b ∨ ∃ j, JsonText 5 j a ∧ JsonText 5 j b

end Metro2.Spec
