import Verif.Spec.Totals
import Verif.Model.File
import Verif.Spec.Reread
import Verif.Spec.Store

/-! What a file may hold. -/

namespace Metro2.Spec

/-- All records of the file are of the file's format and in their places. -/
structure Uniform (f : File) : Prop where
  header : ∃ fs, f.header = .header f.format fs
  bases : ∀ r ∈ f.bases, IsBase f.format r
  trailer : ∃ fs, f.trailer = .trailer f.format fs

/-- All records of the file have the types of their Go structs. -/
structure TypedFile (f : File) : Prop where
  header : WellTyped f.header
  bases : ∀ r ∈ f.bases, WellTyped r
  trailer : WellTyped f.trailer

/-- The stored segments of all data records are sound. -/
def SoundSegments (f : File) : Prop := ∀ enc fs g, Record.base enc fs g ∈ f.bases → SoundSegs g

/-- Calls on a file, with their arguments. -/
inductive Op where
  | setRecord (r : Record)
  | addDataRecord (r : Record)
  | setType (name : List UInt8)
  | parse (buf : List UInt8) (isVar : Bool)
  | generateTrailer

/-- The record arguments of a call are values of their Go types. -/
def Op.WellTyped : Op → Prop
  | .setRecord r => Spec.WellTyped r
  | .addDataRecord r => Spec.WellTyped r
  | _ => True

/-- A call takes the file `f` to `g` and returns the error `e`. `Parse` may also not return at all (C23); such a call is not
a step. `generateTrailer` is `GeneratorTrailer` followed by `SetRecord` of the result. -/
inductive Step (f : File) : Op → File → Option Err → Prop where
  | setRecord (r : Record) : Step f (.setRecord r) (f.setRecord r).1 (f.setRecord r).2
  | addDataRecord (r : Record) : Step f (.addDataRecord r) (f.addDataRecord r).1 (f.addDataRecord r).2
  | setType (name : List UInt8) : Step f (.setType name) (f.setType name).1 (f.setType name).2
  | parse {buf : List UInt8} {isVar : Bool} {fuel : Nat} {g : File} {e : Option Err}
      (h : f.parse fuel buf isVar = some (g, e)) : Step f (.parse buf isVar) g e
  | generated {t : Record} (h : f.generatorTrailer = .ok t) :
      Step f .generateTrailer (f.setRecord t).1 (f.setRecord t).2
  | notGenerated {e : Err} (h : f.generatorTrailer = .error e) : Step f .generateTrailer f (some e)

/-- Files that arise from a new file by calls with well-typed arguments, failed calls included. -/
inductive Reachable : File → Prop where
  | new (enc : Enc) : Reachable (newFile enc)
  | step {f g : File} {op : Op} {e : Option Err} (hf : Reachable f) (ho : op.WellTyped) (h : Step f op g e) : Reachable g

/-- The same record in another format. -/
def inFormat (dst : Enc) : Record → Record
  | .header _ fs => .header dst fs
  | .base _ fs g => .base dst fs g
  | .trailer _ fs => .trailer dst fs

end Metro2.Spec
