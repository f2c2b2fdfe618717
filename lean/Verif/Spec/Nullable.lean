import Verif.Model.Nullable

/-! What is expected of the `Nullable` types. -/

namespace Metro2.Spec

/-- All variables have addresses that were given out, and the address held has a variable. -/
structure InUse {α : Type} (m : Variables α) (v : Nullable) : Prop where
  below : ∀ p, m.next ≤ p → m.cells p = none
  held : ∀ p, v.value = some p → ∃ a, m.cells p = some a

/-- What is held: nothing, or a value. -/
inductive Contents {α : Type} (m : Variables α) (v : Nullable) : Option α → Prop
  | none : v.value = .none → Contents m v .none
  | some {p : Nat} {a : α} : v.value = .some p → m.cells p = .some a → Contents m v (.some a)

/-- What a document says, for a variable that held nothing before. -/
inductive Says₀ {α : Type} (T : NullType α) : Json → Option α → Prop
  | null : Says₀ T .null none
  | value {j : Json} {a : α} : j ≠ .null → T.read T.zero j = (a, false) → Says₀ T j (some a)

/-- Reading replaces: what is held afterwards is what the document says, and no variable of before is changed. -/
def Replaces {α : Type} (T : NullType α) (m : Variables α) (v : Nullable) : Prop :=
  ∀ (j : Json) (m' : Variables α) (v' : Nullable), v.unmarshal T m (some j) = (m', v', false) →
    v'.isSet = true ∧ (∃ o, Says₀ T j o ∧ Contents m' v' o) ∧ ∀ p a, m.cells p = some a → m'.cells p = some a

/-- Writing and reading: if the contents can be written, the document is read into a new variable as the same, set or not. -/
def Returns {α : Type} (T : NullType α) (m : Variables α) (v : Nullable) : Prop :=
  (∀ a, Contents m v (some a) → ∃ j, T.write a = some j) →
    ∃ j m' v', v.marshal T m = .document j ∧ Nullable.initial.unmarshal T m (some j) = (m', v', false) ∧ v'.isSet = v.isSet ∧
      ∀ o, Contents m v o → Contents m' v' o

end Metro2.Spec
