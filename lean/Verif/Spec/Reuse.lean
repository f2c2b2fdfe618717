import Verif.Spec.Files

/-! What it means that a parser forgets the previous content of its receiver. -/

namespace Metro2.Spec

/-- Two reads report the same and, if they succeed, leave the same value behind. -/
def SameRead {α β : Type} (x y : α × Except Err β) : Prop := x.2 = y.2 ∧ ∀ n, x.2 = .ok n → x.1 = y.1

/-- Two calls of `File.Parse` report the same and, if they succeed, leave the same file behind. `none` is a call that does not
return. -/
def SameParse (x y : Option (File × Option Err)) : Prop :=
  x.map Prod.snd = y.map Prod.snd ∧ ∀ f, x = some (f, none) ↔ y = some (f, none)

/-- Two records of one Go type. -/
def SameType : Record → Record → Prop
  | .header e _, .header e' _ => e = e'
  | .base e _ _, .base e' _ _ => e = e'
  | .trailer e _, .trailer e' _ => e = e'
  | _, _ => False

/-- The segments that a data record holds at most once. -/
def SingleSegs (g g' : Segs) : Prop :=
  g.k1 = g'.k1 ∧ g.k2 = g'.k2 ∧ g.k3 = g'.k3 ∧ g.k4 = g'.k4 ∧ g.l1 = g'.l1 ∧ g.n1 = g'.n1

/-- The single segments of a record; none for headers and trailers. -/
def singles : Record → Segs
  | .base _ _ g => g
  | _ => {}

/-- The block descriptor of the record is kept by a fixed-length character read, so it matters. -/
def KeepsBdw (isVar : Bool) : Record → Prop
  | .header e _ => e = .character ∧ isVar = false
  | .base e _ _ => e = .character ∧ isVar = false
  | .trailer _ _ => False

/-- The segments of `new`, and of `old` those that a record holds at most once and that `new` has not. -/
def overlay (new old : Segs) : Segs where
  j1 := new.j1
  j2 := new.j2
  k1 := new.k1 <|> old.k1
  k2 := new.k2 <|> old.k2
  k3 := new.k3 <|> old.k3
  k4 := new.k4 <|> old.k4
  l1 := new.l1 <|> old.l1
  n1 := new.n1 <|> old.n1

/-- Earlier content of which no later call of `Parse` can show a trace: in headers the block descriptor is the same if it is a
character header; in data records the single segments are the same and, in character records, the block descriptor, or both
block descriptors are too small for any record. -/
def Indistinct : Record → Record → Prop
  | .header e fs, .header _ fs' => e = .character → bdw fs = bdw fs'
  | .base e fs g, .base _ fs' g' => SingleSegs g g' ∧
    (e = .character → bdw fs = bdw fs' ∨ (0 < bdw fs ∧ bdw fs < 430 ∧ 0 < bdw fs' ∧ bdw fs' < 430))
  | _, _ => True

end Metro2.Spec
