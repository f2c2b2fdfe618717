import Verif.Spec.Server

/-! JSON documents that say the same: the order of the members of an object does not matter, and of repeated members the last counts. -/

namespace Metro2.Spec

/-- All numbers are in the range of `float64`. -/
inductive NumbersOk (env : JsonEnv) : Json → Prop
  | null : NumbersOk env .null
  | bool (b : Bool) : NumbersOk env (.bool b)
  | num {lit : List UInt8} : env.refloat lit ≠ none → NumbersOk env (.num lit)
  | str (s : List UInt8) : NumbersOk env (.str s)
  | arr {xs : List Json} : (∀ x ∈ xs, NumbersOk env x) → NumbersOk env (.arr xs)
  | obj {kvs : List (List UInt8 × Json)} : (∀ kv ∈ kvs, NumbersOk env kv.2) → NumbersOk env (.obj kvs)

/-- Documents that say the same. -/
inductive SameDoc (env : JsonEnv) : Json → Json → Prop
  | refl (j : Json) : SameDoc env j j
  | symm {j j' : Json} : SameDoc env j j' → SameDoc env j' j
  | trans {j j' j'' : Json} : SameDoc env j j' → SameDoc env j' j'' → SameDoc env j j''
  /-- Two neighbouring members are exchanged. -/
  | swap (a b : List (List UInt8 × Json)) {k k' : List UInt8} (v v' : Json) : k ≠ k' →
      SameDoc env (.obj (a ++ (k, v) :: (k', v') :: b)) (.obj (a ++ (k', v') :: (k, v) :: b))
  /-- A member that is repeated later is left out. -/
  | repeated (a b c : List (List UInt8 × Json)) (k : List UInt8) {v : Json} (v' : Json) : NumbersOk env v →
      SameDoc env (.obj (a ++ (k, v) :: (b ++ (k, v') :: c))) (.obj (a ++ (b ++ (k, v') :: c)))
  /-- Inside a member. -/
  | member (a b : List (List UInt8 × Json)) (k : List UInt8) {v v' : Json} : SameDoc env v v' →
      SameDoc env (.obj (a ++ (k, v) :: b)) (.obj (a ++ (k, v') :: b))
  /-- Inside an element. -/
  | element (a b : List Json) {v v' : Json} : SameDoc env v v' → SameDoc env (.arr (a ++ v :: b)) (.arr (a ++ v' :: b))

/-- At most one member has a key that spells the word, apart from case. -/
def Once (word : String) (kvs : List (List UInt8 × Json)) : Prop :=
  kvs.Pairwise fun a b => ¬ (Spells foldOthers word.toUTF8.data.toList a.1 ∧ Spells foldOthers word.toUTF8.data.toList b.1)

/-- The members that tell the format of a file occur once, apart from case. -/
def PlainFile : Json → Prop
  | .obj kvs => Once "header" kvs ∧ ∀ kv ∈ kvs, Spells foldOthers "header".toUTF8.data.toList kv.1 →
      match kv.2 with
      | .obj inner => Once "blockdescriptorword" inner ∧ Once "recorddescriptorword" inner ∧ Once "recordidentifier" inner
      | _ => True
  | _ => True

end Metro2.Spec
