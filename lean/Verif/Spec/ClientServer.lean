import Verif.Model.ClientServer

/-! Addresses with places for variables, and which server and variables a call uses. -/

namespace Metro2.Spec

/-- A part of the address of a server: text, or the place of a variable. -/
inductive Part where
  | text (t : List UInt8)
  | place (name : List UInt8)

/-- How a part is written: a place is its name in braces. -/
def Part.spelled : Part → List UInt8
  | .text t => t
  | .place name => 123 :: name ++ [125]

/-- No brace is anywhere but around the name of a place. -/
def Part.Clear : Part → Prop
  | .text t => (123 : UInt8) ∉ t
  | .place name => (123 : UInt8) ∉ name ∧ (125 : UInt8) ∉ name

/-- What is put into a part: the value of its variable; a place whose variable has none stays. -/
def Part.filled (value : List UInt8 → Option (List UInt8)) : Part → List UInt8
  | .text t => t
  | .place name =>
    match value name with
    | some v => v
    | none => 123 :: name ++ [125]

/-- The value of a variable of a server: the one that is given, else the default. -/
inductive ValueOf (given : List (List UInt8 × List UInt8)) (variables : List (List UInt8 × ServerVariable)) : List UInt8 → List UInt8 → Prop
  | given {name v value} : (name, v) ∈ variables → given.lookup name = some value → ValueOf given variables name value
  | default {name v} : (name, v) ∈ variables → given.lookup name = none → ValueOf given variables name v.defaultValue

/-- The given value of the variable is not one of those that it may have. -/
def Forbidden (given : List (List UInt8 × List UInt8)) (nv : List UInt8 × ServerVariable) (value : List UInt8) : Prop :=
  given.lookup nv.1 = some value ∧ nv.2.enumValues ≠ [] ∧ value ∉ nv.2.enumValues

/-- Which value of a context counts for an endpoint: its own, else the general one, else nothing is said. -/
inductive Counts {α : Type} (own : ContextValue (List (List UInt8 × α))) (general : ContextValue α) (endpoint : List UInt8) : Option α → Prop
  | own {m a} : own = .value m → m.lookup endpoint = some a → Counts own general endpoint (some a)
  | general {a} : (own = .missing ∨ ∃ m, own = .value m ∧ m.lookup endpoint = none) → general = .value a → Counts own general endpoint (some a)
  | nothing : (own = .missing ∨ ∃ m, own = .value m ∧ m.lookup endpoint = none) → general = .missing → Counts own general endpoint none

/-- Neither value of a context is of a wrong type, as far as it is looked at. -/
def RightType {α : Type} (own : ContextValue (List (List UInt8 × α))) (general : ContextValue α) (endpoint : List UInt8) : Prop :=
  ∃ o, Counts own general endpoint o

end Metro2.Spec
