import Verif.Spec.Messages

/-! Headers of a request (RFC 9110, sections 5.1 and 5.6.2). -/

namespace Metro2.Spec

/-- The characters of a token. -/
def TokenByte (c : UInt8) : Prop :=
  Capital c ∨ Small c ∨ DigitByte c ∨ c ∈ [33, 35, 36, 37, 38, 39, 42, 43, 45, 46, 94, 95, 96, 124, 126].map Nat.toUInt8

instance (c : UInt8) : Decidable (TokenByte c) := by unfold TokenByte Capital Small DigitByte; infer_instance

/-- The text is made of characters of tokens. -/
def Token (s : List UInt8) : Prop := ∀ c ∈ s, TokenByte c

instance (s : List UInt8) : Decidable (Token s) := by unfold Token; infer_instance

/-- Names of headers are compared without regard to case, if they are names. -/
def SameHeader (a b : List UInt8) : Prop := a = b ∨ (Token a ∧ Token b ∧ lower a = lower b)

instance (a b : List UInt8) : Decidable (SameHeader a b) := by unfold SameHeader; infer_instance

/-- The values that a list of headers has for a name, in their order. -/
def headersOf (h : List (List UInt8 × List UInt8)) (name : List UInt8) : List (List UInt8) := (h.filter fun kv => SameHeader kv.1 name).map (·.2)

end Metro2.Spec
