import Verif.Lemmas.Field
import Mathlib.Tactic.Positivity

/-! Exact characterisation of `strconv.ParseInt` and of the numbers written by `fmt`. -/

namespace Metro2

theorem parseIntBits_ok_iff {bits : Nat} {s : Bytes} {v : Int} :
    parseIntBits bits s = .ok v ↔
      Spec.SignedDecimal s v ∧ -(2 ^ (bits - 1) : Int) ≤ v ∧ v < 2 ^ (bits - 1) := by
  have hp : (0 : Int) < 2 ^ (bits - 1) := by positivity
  have hpc : ((2 ^ (bits - 1) : Nat) : Int) = 2 ^ (bits - 1) := by norm_cast
  constructor
  · intro h
    unfold parseIntBits at h
    simp only at h
    generalize hbody : (if s.head? = some 45 ∨ s.head? = some 43 then s.drop 1 else s) = body at h
    split at h
    · simp at h
    · next hne =>
      split at h
      · simp at h
      · next hall =>
        simp only [Bool.not_eq_false, List.all_eq_true] at hall
        split at h
        · next hneg =>
          split at h
          · next hn =>
            rw [if_pos (Or.inl hneg)] at hbody
            subst hbody
            obtain ⟨t, rfl⟩ : ∃ t, s = 45 :: t := by
              cases s with
              | nil => simp at hneg
              | cons c t => simp at hneg; exact ⟨t, by rw [hneg]⟩
            simp only [List.drop_succ_cons, List.drop_zero, Except.ok.injEq] at *
            have : (digitsVal t : Int) ≤ ((2 ^ (bits - 1) : Nat) : Int) := by exact_mod_cast hn
            exact ⟨⟨t, digitsVal t, hne, (spec_decimal_iff _ _).2 ⟨hall, rfl⟩,
              Or.inr (Or.inr ⟨rfl, h.symm⟩)⟩, by omega, by omega⟩
          · simp at h
        · next hneg =>
          split at h
          · next hn =>
            have hv : (digitsVal body : Int) < ((2 ^ (bits - 1) : Nat) : Int) := by exact_mod_cast hn
            simp only [Except.ok.injEq] at h
            refine ⟨⟨_, _, hne, (spec_decimal_iff _ _).2 ⟨hall, rfl⟩, ?_⟩, by omega, by omega⟩
            by_cases h43 : s.head? = some 43
            · right; left
              refine ⟨?_, h.symm⟩
              rw [if_pos (Or.inr h43)] at hbody
              subst hbody
              cases s with
              | nil => simp at h43
              | cons c t => simp at h43; simp [h43]
            · left
              refine ⟨?_, h.symm⟩
              rw [if_neg (by simp [hneg, h43])] at hbody
              exact hbody
          · simp at h
  · rintro ⟨⟨ds, n, hne, hd, h⟩, hlo, hhi⟩
    obtain ⟨hall, hval⟩ := (spec_decimal_iff _ _).1 hd
    have hall' : ds.all isDigit = true := List.all_eq_true.2 hall
    rcases h with ⟨rfl, rfl⟩ | ⟨rfl, rfl⟩ | ⟨rfl, rfl⟩
    · rw [parseIntBits_digits hne hall, hval, if_pos]
      omega
    · unfold parseIntBits
      simp [hne, hall', hval]
      omega
    · unfold parseIntBits
      simp [hne, hall', hval]
      omega

theorem parseInt_ok_iff {s : Bytes} {v : Int} :
    parseInt s = .ok v ↔ Spec.SignedDecimal s v ∧ -(2 ^ 63 : Int) ≤ v ∧ v < 2 ^ 63 :=
  parseIntBits_ok_iff

theorem atoiVal_of_ok {s : Bytes} {v : Int} (h : parseInt s = .ok v) : atoiVal s = v := by
  rw [atoiVal, h]

theorem isNumeric_signed {f : F} {s : Bytes} {v : Int} (h : Spec.SignedDecimal s v) :
    isNumeric f s = none := by
  obtain ⟨ds, n, hne, hd, h⟩ := h
  obtain ⟨hall, -⟩ := (spec_decimal_iff _ _).1 hd
  have h0 := isNumeric_digits (f := f) hne hall
  unfold isNumeric at h0 ⊢
  have h1 : ds.any hexByte = true := by
    cases hh : ds.any hexByte
    · rw [hh] at h0; simp at h0
    · rfl
  rcases h with ⟨rfl, _⟩ | ⟨rfl, _⟩ | ⟨rfl, _⟩ <;> simp [h1]

/-- What the reader makes of a numeric field. -/
theorem reads_numeric_iff {e : Field} (f : F) {s : Bytes} {v : Val} (ht : e.typ = .numeric) :
    (isValidType e f s = none ∧ parseValue e s = .ok v) ↔
      ∃ i, v = .int i ∧ Spec.SignedDecimal s i ∧ -(2 ^ 63 : Int) ≤ i ∧ i < 2 ^ 63 ∧
        (e.req = .required → i ≠ 0) := by
  constructor
  · rintro ⟨h1, h2⟩
    simp only [parseValue, ht] at h2
    cases hp : parseInt s with
    | error err => simp [hp] at h2
    | ok i =>
      simp only [hp, Except.ok.injEq] at h2
      obtain ⟨hs, hlo, hhi⟩ := parseInt_ok_iff.1 hp
      refine ⟨i, h2.symm, hs, hlo, hhi, ?_⟩
      intro hreq h0
      simp only [isValidType, requiredCheck, ht, hreq, if_true, atoiVal_of_ok hp, h0] at h1
      simp at h1
  · rintro ⟨i, rfl, hs, hlo, hhi, hreq⟩
    have hp := parseInt_ok_iff.2 ⟨hs, hlo, hhi⟩
    refine ⟨?_, by simp only [parseValue, ht, hp]⟩
    simp only [isValidType, requiredCheck, ht, atoiVal_of_ok hp]
    by_cases hr : e.req = .required
    · simp only [if_pos hr, if_neg (hreq hr), isNumeric_signed hs]
    · simp only [if_neg hr, isNumeric_signed hs]

/-- What the reader makes of an alphanumeric field. -/
theorem reads_alphanumeric_iff {e : Field} (f : F) {s : Bytes} {v : Val} (ht : e.typ = .alphanumeric)
    (hs : s ≠ []) :
    (isValidType e f s = none ∧ parseValue e s = .ok v) ↔
      (∀ c ∈ s, Spec.Permitted c) ∧ v = .str (trimRight s) := by
  have h0 : requiredCheck e f s = none := by
    have : s.length ≠ 0 := by simpa using hs
    simp [requiredCheck, ht, this]
  simp only [isValidType, h0, ht, parseValue, isAlphanumeric_eq_none, Except.ok.injEq]
  constructor
  · rintro ⟨a, b⟩; exact ⟨a, b.symm⟩
  · rintro ⟨a, b⟩; exact ⟨a, b.symm⟩

end Metro2
