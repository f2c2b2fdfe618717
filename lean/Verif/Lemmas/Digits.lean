import Verif.Go.Basic
import Mathlib.Tactic.Ring

/-! Lemmas about decimal digits and `strconv.ParseInt`. -/

namespace Metro2

theorem digit_toNat {d : Nat} (h : d < 10) : (digit d).toNat = 48 + d := by
  unfold digit
  rw [UInt8.toNat_ofNat']
  omega

theorem isDigit_iff (c : UInt8) : isDigit c = true ↔ 48 ≤ c.toNat ∧ c.toNat ≤ 57 := by
  unfold isDigit
  simp only [Bool.and_eq_true, decide_eq_true_eq, UInt8.le_iff_toNat_le]
  exact Iff.rfl

theorem isDigit_digit {d : Nat} (h : d < 10) : isDigit (digit d) = true := by
  rw [isDigit_iff, digit_toNat h]
  omega

@[simp] theorem length_decDigits (k n : Nat) : (decDigits k n).length = k := by
  induction k generalizing n with
  | zero => rfl
  | succ k ih => simp [decDigits, ih]

theorem decDigits_all (k n : Nat) : ∀ c ∈ decDigits k n, isDigit c = true := by
  induction k generalizing n with
  | zero => simp [decDigits]
  | succ k ih =>
    intro c hc
    simp only [decDigits, List.mem_append, List.mem_singleton] at hc
    rcases hc with hc | hc
    · exact ih _ _ hc
    · subst hc
      exact isDigit_digit (Nat.mod_lt _ (by decide))

theorem digitsVal_foldl (s : Bytes) (a : Nat) :
    s.foldl (fun a c => a * 10 + (c.toNat - 48)) a = a * 10 ^ s.length + digitsVal s := by
  unfold digitsVal
  induction s generalizing a with
  | nil => simp
  | cons c s ih =>
    simp only [List.foldl_cons, List.length_cons]
    rw [ih (a * 10 + (c.toNat - 48)), ih (0 * 10 + (c.toNat - 48))]
    ring

theorem digitsVal_append (s t : Bytes) :
    digitsVal (s ++ t) = digitsVal s * 10 ^ t.length + digitsVal t := by
  conv_lhs => unfold digitsVal
  rw [List.foldl_append, digitsVal_foldl]
  rfl

@[simp] theorem digitsVal_nil : digitsVal [] = 0 := rfl

theorem digitsVal_cons (c : UInt8) (s : Bytes) :
    digitsVal (c :: s) = (c.toNat - 48) * 10 ^ s.length + digitsVal s := by
  have := digitsVal_append [c] s
  simpa [digitsVal] using this

theorem digitsVal_replicate_zero (k : Nat) : digitsVal (List.replicate k 48) = 0 := by
  induction k with
  | zero => rfl
  | succ k ih => rw [List.replicate_succ, digitsVal_cons, ih]; simp

theorem digitsVal_decDigits (k n : Nat) : digitsVal (decDigits k n) = n % 10 ^ k := by
  induction k generalizing n with
  | zero => simp [decDigits, Nat.mod_one]
  | succ k ih =>
    rw [decDigits, digitsVal_append, ih, digitsVal_cons, digit_toNat (Nat.mod_lt _ (by decide))]
    simp only [List.length_cons, List.length_nil, digitsVal_nil, Nat.zero_add, Nat.pow_zero, Nat.pow_one,
      Nat.mul_one, Nat.add_zero, Nat.add_sub_cancel_left]
    rw [Nat.pow_succ, Nat.mul_comm (10 ^ k) 10, Nat.mod_mul]
    ring

theorem digitsVal_lt (s : Bytes) (h : ∀ c ∈ s, isDigit c = true) :
    digitsVal s < 10 ^ s.length := by
  induction s with
  | nil => simp
  | cons c s ih =>
    rw [digitsVal_cons, List.length_cons, Nat.pow_succ]
    have h1 := ih fun c hc => h c (List.mem_cons_of_mem _ hc)
    have h2 := (isDigit_iff c).1 (h c List.mem_cons_self)
    have : (c.toNat - 48) * 10 ^ s.length ≤ 9 * 10 ^ s.length :=
      Nat.mul_le_mul_right _ (by omega)
    omega

theorem digit_eq_of_isDigit {c : UInt8} (h : isDigit c = true) : digit (c.toNat - 48) = c := by
  rw [isDigit_iff] at h
  apply UInt8.toNat_inj.1
  rw [digit_toNat (by omega)]
  omega

/-- A digit string is determined by its length and value. -/
theorem decDigits_digitsVal (s : Bytes) (h : ∀ c ∈ s, isDigit c = true) :
    decDigits s.length (digitsVal s) = s := by
  generalize hk : s.length = k
  induction k generalizing s with
  | zero => simp [decDigits, List.length_eq_zero_iff.1 hk]
  | succ k ih =>
    have hne : s ≠ [] := by intro h0; simp [h0] at hk
    have hs := (List.dropLast_concat_getLast hne)
    have hl : s.dropLast.length = k := by simp [hk]
    have hlast := h _ (List.getLast_mem hne)
    have hlast' := (isDigit_iff _).1 hlast
    rw [← hs, digitsVal_append, digitsVal_cons]
    simp only [List.length_cons, List.length_nil, digitsVal_nil, Nat.pow_zero, Nat.mul_one,
      Nat.add_zero, Nat.zero_add, Nat.pow_one, decDigits]
    rw [show (digitsVal s.dropLast * 10 + ((s.getLast hne).toNat - 48)) / 10 = digitsVal s.dropLast by
      omega, show (digitsVal s.dropLast * 10 + ((s.getLast hne).toNat - 48)) % 10
        = (s.getLast hne).toNat - 48 by omega, digit_eq_of_isDigit hlast]
    rw [ih s.dropLast (fun c hc => h c (List.dropLast_subset _ hc)) hl]

theorem numDigitsAux_spec (fuel n : Nat) (h : n ≤ fuel) :
    n < 10 ^ numDigitsAux fuel n ∧ 0 < numDigitsAux fuel n ∧
      (10 ≤ n → 10 ^ (numDigitsAux fuel n - 1) ≤ n) ∧ (n < 10 → numDigitsAux fuel n = 1) := by
  induction fuel generalizing n with
  | zero =>
    have : n = 0 := by omega
    subst this
    simp [numDigitsAux]
  | succ fuel ih =>
    unfold numDigitsAux
    split
    · next h1 => simp; omega
    · next h1 =>
      obtain ⟨a, b, c, d⟩ := ih (n / 10) (by omega)
      refine ⟨?_, by omega, ?_, by omega⟩
      · rw [Nat.pow_succ]; omega
      · intro _
        rw [Nat.add_sub_cancel]
        by_cases h2 : 10 ≤ n / 10
        · have := c h2
          obtain ⟨m, hm⟩ : ∃ m, numDigitsAux fuel (n / 10) = m + 1 := ⟨_, (Nat.sub_add_cancel b).symm⟩
          rw [hm] at this ⊢
          rw [Nat.add_sub_cancel] at this
          rw [Nat.pow_succ]
          omega
        · rw [d (by omega)]; omega

theorem numDigits_pos (n : Nat) : 0 < numDigits n := (numDigitsAux_spec n n (Nat.le_refl _)).2.1

theorem lt_pow_numDigits (n : Nat) : n < 10 ^ numDigits n :=
  (numDigitsAux_spec n n (Nat.le_refl _)).1

theorem pow_numDigits_le {n : Nat} (h : 0 < n) : 10 ^ (numDigits n - 1) ≤ n := by
  obtain ⟨_, _, c, d⟩ := numDigitsAux_spec n n (Nat.le_refl _)
  by_cases h10 : 10 ≤ n
  · exact c h10
  · have : numDigits n = 1 := d (by omega)
    rw [this]; simp; omega

theorem numDigits_le_iff {n k : Nat} (hk : 0 < k) : numDigits n ≤ k ↔ n < 10 ^ k := by
  constructor
  · intro h
    exact Nat.lt_of_lt_of_le (lt_pow_numDigits n) (Nat.pow_le_pow_right (by decide) h)
  · intro h
    rcases Nat.eq_zero_or_pos n with h0 | h0
    · subst h0; exact hk
    · by_contra hc
      have h1 := pow_numDigits_le h0
      have : 10 ^ k ≤ 10 ^ (numDigits n - 1) := Nat.pow_le_pow_right (by decide) (by omega)
      omega

@[simp] theorem length_fmtNat (n : Nat) : (fmtNat n).length = numDigits n := by simp [fmtNat]

theorem fmtNat_all (n : Nat) : ∀ c ∈ fmtNat n, isDigit c = true := decDigits_all _ _

theorem digitsVal_fmtNat (n : Nat) : digitsVal (fmtNat n) = n := by
  rw [fmtNat, digitsVal_decDigits, Nat.mod_eq_of_lt (lt_pow_numDigits n)]

theorem fmtNat_ne_nil (n : Nat) : fmtNat n ≠ [] := by
  intro h
  have := length_fmtNat n
  rw [h] at this
  have := numDigits_pos n
  simp at *
  omega

theorem isDigit_48 : isDigit 48 = true := by decide

/-- Zero-padded decimal text of a number that fits. -/
theorem padLeft_fmtNat {k n : Nat} (hk : 0 < k) (h : n < 10 ^ k) :
    padLeft k 48 (fmtNat n) = decDigits k n := by
  have hle := (numDigits_le_iff hk).2 h
  have hall : ∀ c ∈ padLeft k 48 (fmtNat n), isDigit c = true := by
    intro c hc
    simp only [padLeft, List.mem_append, List.mem_replicate] at hc
    rcases hc with ⟨_, rfl⟩ | hc
    · exact isDigit_48
    · exact fmtNat_all n c hc
  have hlen : (padLeft k 48 (fmtNat n)).length = k := by
    simp [padLeft]; omega
  have := decDigits_digitsVal _ hall
  rw [hlen] at this
  rw [← this, padLeft, digitsVal_append, digitsVal_replicate_zero, digitsVal_fmtNat]
  simp

/-- `ParseInt` of a text whose first byte is a digit. -/
theorem parseIntBits_digits {bits : Nat} {s : Bytes} (hne : s ≠ [])
    (h : ∀ c ∈ s, isDigit c = true) :
    parseIntBits bits s = if digitsVal s < 2 ^ (bits - 1) then .ok (digitsVal s : Int)
      else .error .range := by
  cases s with
  | nil => exact absurd rfl hne
  | cons c t =>
    have hc := (isDigit_iff c).1 (h c List.mem_cons_self)
    have h45 : c ≠ 45 := by rintro rfl; exact absurd hc.1 (by decide)
    have h43 : c ≠ 43 := by rintro rfl; exact absurd hc.1 (by decide)
    have hall : (c :: t).all isDigit = true := by rw [List.all_eq_true]; exact h
    unfold parseIntBits
    simp only [List.head?_cons, Option.some.injEq, h45, h43, or_self, if_false]
    rw [if_neg hne, if_neg (by simp [hall])]

theorem parseInt_digits {s : Bytes} (hne : s ≠ []) (h : ∀ c ∈ s, isDigit c = true)
    (hv : digitsVal s < 2 ^ 63) : parseInt s = .ok (digitsVal s : Int) := by
  rw [parseInt, parseIntBits_digits hne h, if_pos hv]

theorem atoiVal_digits {s : Bytes} (hne : s ≠ []) (h : ∀ c ∈ s, isDigit c = true)
    (hv : digitsVal s < 2 ^ 63) : atoiVal s = (digitsVal s : Int) := by
  rw [atoiVal, parseInt_digits hne h hv]

end Metro2
