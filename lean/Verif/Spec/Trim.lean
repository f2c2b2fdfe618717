import Verif.Spec.WellFormed

/-! Values that differ only in blanks at the end of texts. -/

namespace Metro2.Spec

/-- `t` is `s` without the blanks at its end. -/
def TrimsText (s t : List UInt8) : Prop := ∃ n, s = t ++ List.replicate n ' '.toNat.toUInt8 ∧ t.getLast? ≠ some ' '.toNat.toUInt8

/-- The same value, but a text without the blanks at its end. -/
def Trims : Val → Val → Prop
  | .str s, .str t => TrimsText s t
  | v, w => v = w

/-- The same fields, texts without the blanks at their ends. -/
def TrimsAll (fs ft : Fields) : Prop := List.Forall₂ (fun p q => p.1 = q.1 ∧ Trims p.2 q.2) fs ft

/-- The same for a segment. -/
def TrimsSeg (s t : Seg) : Prop := s.kind = t.kind ∧ TrimsAll s.fields t.fields

/-- The same for all segments of a data record. -/
structure TrimsSegs (g h : Segs) : Prop where
  j1 : List.Forall₂ TrimsSeg g.j1 h.j1
  j2 : List.Forall₂ TrimsSeg g.j2 h.j2
  k1 : Option.Rel TrimsSeg g.k1 h.k1
  k2 : Option.Rel TrimsSeg g.k2 h.k2
  k3 : Option.Rel TrimsSeg g.k3 h.k3
  k4 : Option.Rel TrimsSeg g.k4 h.k4
  l1 : Option.Rel TrimsSeg g.l1 h.l1
  n1 : Option.Rel TrimsSeg g.n1 h.n1

/-- Only blanks, or nothing. -/
def AllBlank (s : List UInt8) : Prop := ∀ c ∈ s, c = ' '.toNat.toUInt8

/-- No text that the table requires is blank. -/
def TextsPresent (fmt : Format) (fs : Fields) : Prop :=
  ∀ f s e, (f, .str s) ∈ fs → (f, e) ∈ fmt → e.req = .required → ¬ AllBlank s

/-- Only one and the same digit, zero or nine, and then only blanks. -/
def FilledThenBlank (s : List UInt8) : Prop :=
  ∃ c m n, (c = '0'.toNat.toUInt8 ∨ c = '9'.toNat.toUInt8) ∧ s = List.replicate m c ++ List.replicate n ' '.toNat.toUInt8

end Metro2.Spec
