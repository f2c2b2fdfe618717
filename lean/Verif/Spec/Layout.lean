import Verif.Spec.Fits

/-! What a well-formed layout table is, and when the values of a record fit it. -/

namespace Metro2.Spec

/-- Row `r` covers byte `p`. -/
def Covers (r : F × Field) (p : Nat) : Prop := r.2.start ≤ p ∧ p < r.2.start + r.2.len

instance (r : F × Field) (p : Nat) : Decidable (Covers r p) := by unfold Covers; infer_instance

/-- The rows other than the optional block descriptor tile the bytes 0 to `L - 1`: every
byte is covered by exactly one row, and nothing beyond is covered. -/
def Tiles (fmt : Format) (L : Nat) : Prop :=
  (∀ p < L, (fmt.filter fun r => decide (r.1 ≠ .BlockDescriptorWord ∧ Covers r p)).length = 1) ∧
  (∀ r ∈ fmt, r.2.start + r.2.len ≤ L)

instance (fmt : Format) (L : Nat) : Decidable (Tiles fmt L) := by unfold Tiles; infer_instance

/-- The Go type that a row's type converts to and from. -/
def KindOk (e : Field) (k : Kind) : Bool :=
  match e.typ with
  | .numeric | .descriptor | .packedNumber => k = .int || k = .int64
  | .alphanumeric | .alpha => k = .str
  | .timestamp | .date | .packedTimestamp | .packedDate => k = .time

/-- Every field of the record other than the block descriptor has a row and its value fits. -/
def FitsAll (fmt : Format) (fs : Fields) : Prop :=
  ∀ p ∈ fs, p.1 ≠ .BlockDescriptorWord → ∀ e, (p.1, e) ∈ fmt → Fits e p.2

/-- The value is written in the width of its field: a number of any size, a text whose
characters are single bytes as far as they are written, or an existing time with a four-digit year. -/
def Sized (e : Field) (v : Val) : Prop :=
  match v with
  | .int _ => True
  | .str s => ∀ cs, Chars s cs → ∀ c ∈ cs.take e.len, c.length = 1
  | .time t => PlainTime t

/-- The same for all fields of a record. -/
def SizedAll (fmt : Format) (fs : Fields) : Prop :=
  ∀ p ∈ fs, ∀ e, (p.1, e) ∈ fmt → Sized e p.2

/-- Field order: by first byte, ties by name. -/
def Before (a b : F × Field) : Prop :=
  a.2.start < b.2.start ∨ (a.2.start = b.2.start ∧ a.1.name < b.1.name)

instance (a b : F × Field) : Decidable (Before a b) := by unfold Before; infer_instance

/-- `l` is a possible outcome of sorting the entries of `fmt`: the same entries, none before
an earlier one. -/
def SortOf (l fmt : Format) : Prop := l.Perm fmt ∧ l.Pairwise fun a b => ¬ Before b a

end Metro2.Spec
