import Verif.Model.Json
import Verif.Spec.Files

/-! Values that survive JSON, and what is assumed of the text layer. -/

namespace Metro2.Spec

/-- A well-formed UTF-8 text. -/
def Utf8 (s : List UInt8) : Prop := ∃ l : List Char, s = (l.map String.utf8EncodeChar).flatten

/-- The value can be carried by JSON: a number exact in a `float64`, a well-formed text, an existing second in UTC. -/
def JsonVal : Val → Prop
  | .int i => -(2 ^ 53) ≤ i ∧ i ≤ 2 ^ 53
  | .str s => Utf8 s
  | .time t => PlainTime t

/-- All values of a struct. -/
def JsonFields (decl : List (F × FieldDecl)) (fs : Fields) : Prop := fs.Typed decl ∧ ∀ p ∈ fs, JsonVal p.2

/-- A segment of type `k` that `Validate` accepts. -/
structure JsonSeg (k : SegKind) (s : Seg) : Prop where
  kind : s.kind = k
  fields : JsonFields k.struct s.fields
  valid : s.validate = none

/-- All segments of a data record. -/
structure JsonSegs (g : Segs) : Prop where
  j1 : ∀ s ∈ g.j1, JsonSeg .j1 s
  j2 : ∀ s ∈ g.j2, JsonSeg .j2 s
  k1 : ∀ s, g.k1 = some s → JsonSeg .k1 s
  k2 : ∀ s, g.k2 = some s → JsonSeg .k2 s
  k3 : ∀ s, g.k3 = some s → JsonSeg .k3 s
  k4 : ∀ s, g.k4 = some s → JsonSeg .k4 s
  l1 : ∀ s, g.l1 = some s → JsonSeg .l1 s
  n1 : ∀ s, g.n1 = some s → JsonSeg .n1 s

/-- A file in format `enc` whose records JSON can carry. -/
structure JsonFile (enc : Enc) (f : File) : Prop where
  format : f.format = enc
  header : ∃ fs, f.header = .header enc fs ∧ JsonFields headerRecordStruct fs
  bases : ∀ r ∈ f.bases, ∃ fs g, r = .base enc fs g ∧ JsonFields baseSegmentStruct fs ∧ JsonSegs g
  trailer : ∃ fs, f.trailer = .trailer enc fs ∧ JsonFields trailerRecordStruct fs

/-- The text names the second `t` in the form 2006-01-02T15:04:05Z. -/
def IsoText (s : List UInt8) (t : Time) : Prop :=
  ∃ y mo d h mi se : List UInt8,
    s = y ++ [45] ++ mo ++ [45] ++ d ++ [84] ++ h ++ [58] ++ mi ++ [58] ++ se ++ [90] ∧
    y.length = 4 ∧ mo.length = 2 ∧ d.length = 2 ∧ h.length = 2 ∧ mi.length = 2 ∧ se.length = 2 ∧
    (∃ n : Nat, t.year = n ∧ Decimal y n) ∧ Decimal mo t.month ∧ Decimal d t.day ∧
    Decimal h t.hour ∧ Decimal mi t.min ∧ Decimal se t.sec

/-- What is assumed of the standard library: whole numbers up to 2^53 pass through `float64` unchanged. -/
structure JsonEnvOk (env : JsonEnv) : Prop where
  refloat : ∀ i : Int, -(2 ^ 53) ≤ i → i ≤ 2 ^ 53 → env.refloat (fmtInt i) = some (fmtInt i)

/-- `visits` are orders in which Go may iterate over maps. -/
def MapOrders (visits : Nat → List (List UInt8 × Json) → List (List UInt8 × Json)) : Prop :=
  ∀ n l, (visits n l).Perm l

/-- The same file in another format. -/
def fileIn (enc : Enc) (f : File) : File :=
  ⟨enc, inFormat enc f.header, f.bases.map (inFormat enc), inFormat enc f.trailer⟩

/-- The descriptors of the header of a file. -/
def headerBdw (f : File) : Int := bdw f.header.fields
def headerRdw (f : File) : Int := rdw f.header.fields

/-- The descriptors of the header tell the format `enc`. -/
def Detectable (enc : Enc) (f : File) : Prop :=
  match enc with
  | .character => headerRdw f = 426 ∨ headerBdw f ≤ 0
  | .packed => headerRdw f ≠ 426 ∧ 0 < headerBdw f

end Metro2.Spec
