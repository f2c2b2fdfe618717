import Verif.Model.Multipart

/-! Specification for C111: forms with parts. -/

namespace Metro2

/-- A boundary as `multipart.NewWriter` draws it: digits and small letters. -/
def Spec.Boundary (b : Bytes) : Prop := b ≠ [] ∧ ∀ c ∈ b, (48 ≤ c ∧ c ≤ 57) ∨ (97 ≤ c ∧ c ≤ 122)

/-- After a boundary comes something that does not make it one: neither the end of the content, nor white space, nor two hyphens. -/
def Spec.NoEnd (v : Bytes) : Prop := v ≠ [] ∧ v.head? ≠ some 32 ∧ v.head? ≠ some 9 ∧ v.head? ≠ some 13 ∧ v.head? ≠ some 10 ∧ ¬ [45, 45] <+: v

/-- The boundary does not occur in a content at the beginning of a line, unless it goes on there. -/
def Spec.Clear (b content : Bytes) : Prop := ∀ u v, [13, 10] ++ content = u ++ [13, 10, 45, 45] ++ b ++ v → Spec.NoEnd v

/-- A name as it arrives: carriage returns and line feeds as `%0D` and `%0A`. -/
def Spec.percent (s : Bytes) : Bytes := s.flatMap fun c => if c = 13 then b! "%0D" else if c = 10 then b! "%0A" else [c]

/-- A part as it arrives: the names as above, of the file name only what follows the last separator. -/
def Spec.arrived (p : FormPart) : FormPart := ⟨Spec.percent p.name, p.file.map fun n => pathBase (Spec.percent n), p.content⟩

end Metro2
