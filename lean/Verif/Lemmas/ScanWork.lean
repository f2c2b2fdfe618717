import Verif.Model.ScanWork
import Verif.Spec.ScanWork
import Verif.Lemmas.Scanner
import Mathlib.Tactic.Ring
import Mathlib.Tactic.Linarith

/-! Lemmas for C126. -/

namespace Metro2

open Spec (withoutBreaks)

theorem stripedDataLoopW_fst (data : Bytes) (size : Nat) : ∀ n i : Nat, (stripedDataLoopW data size n i).1 = stripedDataLoop data size n i := by
  intro n
  induction n with
  | zero => intro i; rfl
  | succ n ih =>
    intro i
    rw [stripedDataLoopW, stripedDataLoop]
    simp only
    split
    · rfl
    · exact ih _

theorem stripedDataW_fst (data : Bytes) (size : Nat) : (stripedDataW data size).1 = stripedData data size := stripedDataLoopW_fst _ _ _ _

theorem scanRecordW_fst (data : Bytes) (eof : Bool) : (scanRecordW data eof).1 = scanRecord data eof := by
  unfold scanRecordW scanRecord
  simp only
  split
  · rfl
  · split
    · rfl
    · split
      · rfl
      · rw [← stripedDataW_fst]
        generalize stripedDataW data 4 = q
        obtain ⟨_ | ⟨i, bdw⟩, n⟩ := q
        · rfl
        · simp only
          cases scanSize bdw with
          | none => rfl
          | some size =>
            simp only
            rw [← stripedDataW_fst]
            generalize stripedDataW data size = q
            obtain ⟨_ | ⟨j, tok⟩, m⟩ := q <;> simp only <;> split <;> first | rfl | (split <;> rfl)

theorem sumFromTo_self (k : Nat) : Spec.sumFromTo k k = k := by
  unfold Spec.sumFromTo
  rw [show k + 1 - k = 1 by omega]
  simp

theorem sumFromTo_cons {a b : Nat} (h : a < b) : Spec.sumFromTo a b = a + Spec.sumFromTo (a + 1) b := by
  unfold Spec.sumFromTo
  rw [show b + 1 - a = (b + 1 - (a + 1)) + 1 by omega, List.range'_succ, List.sum_cons]

theorem sumFromTo_double (a : Nat) : ∀ d, 2 * Spec.sumFromTo a (a + d) + a * a = (a + d) * (a + d) + (a + d) + a := by
  intro d
  induction d generalizing a with
  | zero => rw [Nat.add_zero, sumFromTo_self]; ring
  | succ d ih =>
    rw [sumFromTo_cons (by omega)]
    have := ih (a + 1)
    rw [show a + (d + 1) = a + 1 + d by omega]
    nlinarith

theorem stripedDataLoopW_snd {data : Bytes} {size : Nat} :
    ∀ (n i k : Nat), i ≤ k → k < i + n → k ≤ data.length → count data k = size → (∀ j, i ≤ j → j < k → count data j ≠ size) →
    (stripedDataLoopW data size n i).2 = Spec.sumFromTo i k := by
  intro n
  induction n with
  | zero => intro i k h1 h2; omega
  | succ n ih =>
    intro i k h1 h2 hd h3 h4
    rw [stripedDataLoopW]
    simp only [filter_breaks]
    rw [show (withoutBreaks (data.take i)).length = count data i from rfl]
    have hl : (data.take i).length = i := by rw [List.length_take]; omega
    by_cases hk : i = k
    · subst hk
      rw [if_pos h3, sumFromTo_self]
      exact hl
    · rw [if_neg (h4 i (Nat.le_refl _) (by omega)), sumFromTo_cons (by omega)]
      simp only
      rw [hl, ih (i + 1) k (by omega) (by omega) hd h3 fun j a b => h4 j (by omega) b]

theorem stripedDataW_of {data : Bytes} {size k : Nat} (h : Spec.Reaches data size k) :
    stripedDataW data size = (some (k, withoutBreaks (data.take k)), Spec.sumFromTo size k) := by
  obtain ⟨h1, h2, h3⟩ := h
  have h4 := count_le data k
  have h5 : count data k = size := h2
  have e : (stripedDataW data size).2 = Spec.sumFromTo size k :=
    stripedDataLoopW_snd _ _ _ (by omega) (by omega) h1 h2 fun j _ hj => by have := h3 j hj; unfold count; omega
  rw [← e, ← stripedData_eq h1 h2 h3, ← stripedDataW_fst]

theorem exists_reaches (data : Bytes) (size : Nat) (h : size ≤ (withoutBreaks data).length) : ∃ k, Spec.Reaches data size k :=
  exists_first data size h

theorem reaches_unique {data : Bytes} {size k k' : Nat} (h : Spec.Reaches data size k) (h' : Spec.Reaches data size k') : k = k' := by
  rcases Nat.lt_trichotomy k k' with hl | hl | hl
  · have := h'.2.2 k hl; have := h.2.1; omega
  · exact hl
  · have := h.2.2 k' hl; have := h'.2.1; omega

theorem reaches_le {data : Bytes} {size k : Nat} (h : Spec.Reaches data size k) : size ≤ k ∧ k ≤ size + Spec.breaks data := by
  obtain ⟨h1, h2, h3⟩ := h
  have hc := count_le data k
  have h5 : count data k = size := h2
  refine ⟨by omega, ?_⟩
  have h6 : (withoutBreaks data).length = count data k + (withoutBreaks (data.drop k)).length := by
    have : withoutBreaks data = withoutBreaks (data.take k) ++ withoutBreaks (data.drop k) := by
      rw [← withoutBreaks_append, List.take_append_drop]
    rw [this, List.length_append]; rfl
  have h7 := withoutBreaks_length_le (data.drop k)
  rw [List.length_drop] at h7
  unfold Spec.breaks
  omega

theorem sumFromTo_le (a k L : Nat) (h : k ≤ L) : Spec.sumFromTo a k ≤ (k + 1 - a) * L := by
  unfold Spec.sumFromTo
  have : ∀ (l : List Nat), (∀ x ∈ l, x ≤ L) → l.sum ≤ l.length * L := by
    intro l
    induction l with
    | nil => simp
    | cons x l ih =>
      intro hx
      rw [List.sum_cons, List.length_cons, Nat.succ_mul]
      have := ih fun y hy => hx y (List.mem_cons_of_mem _ hy)
      have := hx x List.mem_cons_self
      omega
  refine le_trans (this _ fun x hx => ?_) (by rw [List.length_range'])
  rw [List.mem_range'_1] at hx
  omega

end Metro2
