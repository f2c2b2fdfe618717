import Verif.Lemmas.Text
import Verif.Spec.Text

/-! Big-endian bytes, and the links between model helpers and specifications. -/

namespace Metro2

theorem beVal_foldl (s : Bytes) (a : Nat) :
    s.foldl (fun a c => a * 256 + c.toNat) a = a * 256 ^ s.length + beVal s := by
  unfold beVal
  induction s generalizing a with
  | nil => simp
  | cons c s ih =>
    simp only [List.foldl_cons, List.length_cons]
    rw [ih (a * 256 + c.toNat), ih (0 * 256 + c.toNat)]
    ring

@[simp] theorem beVal_nil : beVal [] = 0 := rfl

theorem beVal_cons (c : UInt8) (s : Bytes) :
    beVal (c :: s) = c.toNat * 256 ^ s.length + beVal s := by
  conv_lhs => unfold beVal
  rw [List.foldl_cons, beVal_foldl]
  simp

theorem beVal_append (s t : Bytes) : beVal (s ++ t) = beVal s * 256 ^ t.length + beVal t := by
  conv_lhs => unfold beVal
  rw [List.foldl_append, beVal_foldl]
  rfl

theorem beVal_lt (s : Bytes) : beVal s < 256 ^ s.length := by
  induction s with
  | nil => simp
  | cons c s ih =>
    rw [beVal_cons, List.length_cons, Nat.pow_succ]
    have h : c.toNat < 256 := c.toNat_lt
    have : c.toNat * 256 ^ s.length ≤ 255 * 256 ^ s.length := Nat.mul_le_mul_right _ (by omega)
    omega

theorem beVal_replicate_zero (k : Nat) : beVal (List.replicate k 0) = 0 := by
  induction k with
  | zero => rfl
  | succ k ih => rw [List.replicate_succ, beVal_cons, ih]; simp

@[simp] theorem length_beBytes (k v : Nat) : (beBytes k v).length = k := by
  induction k with
  | zero => rfl
  | succ k ih => simp [beBytes, ih]

theorem beVal_beBytes (k v : Nat) : beVal (beBytes k v) = v % 256 ^ k := by
  induction k with
  | zero => simp [beBytes, Nat.mod_one]
  | succ k ih =>
    rw [beBytes, beVal_cons, ih, length_beBytes, UInt8.toNat_ofNat']
    rw [show v / 256 ^ k % 256 % 2 ^ 8 = v / 256 ^ k % 256 from Nat.mod_mod _ _]
    rw [Nat.pow_succ, Nat.mod_mul]
    ring

theorem beBytes_beVal (s : Bytes) : beBytes s.length (beVal s) = s := by
  suffices h : ∀ k a, beBytes s.length (a * 256 ^ (s.length + k) + beVal s) = s by
    simpa using h 0 0
  induction s with
  | nil => intro k a; rfl
  | cons c s ih =>
    intro k a
    rw [List.length_cons, beBytes, beVal_cons]
    have hlt := beVal_lt s
    have hpos : 0 < 256 ^ s.length := Nat.pow_pos (by decide)
    have e1 : a * 256 ^ (s.length + 1 + k) + (c.toNat * 256 ^ s.length + beVal s) =
        (a * 256 ^ k * 256 + c.toNat) * 256 ^ s.length + beVal s := by ring
    rw [e1]
    congr 1
    · apply UInt8.toNat_inj.1
      rw [UInt8.toNat_ofNat', Nat.mul_comm _ (256 ^ s.length), Nat.mul_add_div hpos,
        Nat.div_eq_of_lt hlt]
      have := c.toNat_lt
      omega
    · simpa using ih 0 (a * 256 ^ k * 256 + c.toNat)

/-! ### Links to the specifications -/

theorem spec_decimal_iff (s : Bytes) (v : Nat) :
    Spec.Decimal s v ↔ (∀ c ∈ s, isDigit c = true) ∧ digitsVal s = v := by
  unfold Spec.Decimal
  have h1 : (∀ c ∈ s, '0'.toNat ≤ c.toNat ∧ c.toNat ≤ '9'.toNat) ↔ (∀ c ∈ s, isDigit c = true) := by
    constructor <;> intro h c hc <;> have := h c hc
    · exact (isDigit_iff c).2 this
    · exact (isDigit_iff c).1 this
  have h2 : Nat.ofDigits 10 (s.reverse.map fun c => c.toNat - '0'.toNat) = digitsVal s := by
    induction s with
    | nil => rfl
    | cons c s ih =>
      rw [List.reverse_cons, List.map_append, Nat.ofDigits_append, ih
        ⟨fun h c hc => (isDigit_iff c).2 (h c hc), fun h c hc => (isDigit_iff c).1 (h c hc)⟩,
        digitsVal_cons]
      simp
      ring
  rw [h1, h2]
  exact and_congr_right fun _ => eq_comm

theorem spec_bigEndian_iff (s : Bytes) (v : Nat) : Spec.BigEndian s v ↔ beVal s = v := by
  unfold Spec.BigEndian
  have h2 : Nat.ofDigits 256 (s.reverse.map UInt8.toNat) = beVal s := by
    induction s with
    | nil => rfl
    | cons c s ih =>
      rw [List.reverse_cons, List.map_append, Nat.ofDigits_append, ih, beVal_cons]
      simp
      ring
  rw [h2]
  exact eq_comm

end Metro2
