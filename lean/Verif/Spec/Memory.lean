import Verif.Model.Memory

/-! Sharing in memory. -/

namespace Metro2.Spec

/-- Memories that arise from a new file by calls of the given sort, failed calls included. -/
inductive Arises (grow : Nat → Nat) (sort : Call → Prop) : Memory → Prop where
  | new (enc : Enc) : Arises grow sort (.new enc)
  | call {m m' : Memory} {c : Call} {e : Option Err} (h : Arises grow sort m) (hs : sort c) (hc : m.call grow c = some (m', e)) :
      Arises grow sort m'

/-- Any call. -/
def Any (_ : Call) : Prop := True

/-- Any call but `SetType`. -/
def NoSetType (c : Call) : Prop := ∀ name, c ≠ .setType name

/-- The calls one after the other, all of them without an error. -/
def calls (grow : Nat → Nat) (m : Memory) : List Call → Option Memory
  | [] => some m
  | c :: cs =>
    match m.call grow c with
    | some (m', none) => calls grow m' cs
    | _ => none

/-- The runtime gives an array that has to hold one element more than `n` a capacity of more than `n`. -/
def Grows (grow : Nat → Nat) : Prop := ∀ n, n < grow n

/-- The slices have the same array. -/
def SameArray (s t : Slice) : Prop := 0 < s.cap ∧ 0 < t.cap ∧ s.array = t.array

/-- The data records have a slice with the same array. -/
def Shares (m : Memory) (r r' : Nat) : Prop :=
  ∃ enc fs g enc' fs' g', m.records r = some (.base enc fs g) ∧ m.records r' = some (.base enc' fs' g') ∧
    (SameArray g.j1 g'.j1 ∨ SameArray g.j2 g'.j2)

/-- The list of a data record to which a segment of this type is appended. -/
def listOf (g : SegsObject) : SegKind → Option Slice
  | .j1 => some g.j1
  | .j2 => some g.j2
  | _ => none

/-- The record at `r` has a pointer to the segment at `p`. -/
def PointsTo (m : Memory) (r p : Nat) : Prop :=
  ∃ enc fs g, m.records r = some (.base enc fs g) ∧ (p ∈ g.j1.elements m.segArrays ∨ p ∈ g.j2.elements m.segArrays ∨
    some p ∈ [g.k1, g.k2, g.k3, g.k4, g.l1, g.n1])

/-- The record with other values in its fields. -/
def withFields (fs : Fields) : Record → Record
  | .header enc _ => .header enc fs
  | .base enc _ segs => .base enc fs segs
  | .trailer enc _ => .trailer enc fs

end Metro2.Spec
