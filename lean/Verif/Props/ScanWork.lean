import Verif.Lemmas.ScanWork
import Verif.Props.Samples

/-! Property C126: the work of dividing a stream into records. -/

namespace Metro2

open Samples
open Spec (withoutBreaks)

/-- C126. The counter changes nothing else. -/
theorem C126_same (data : Bytes) (eof : Bool) : (scanRecordW data eof).1 = scanRecord data eof := scanRecordW_fst data eof

/-- C126, exactly, if there is a record: the data once; then, for the position behind the first four bytes and for the end of the record, all the data before
each position from the least possible one on. -/
theorem C126_exact (data : Bytes) (eof : Bool) (adv : Nat) (tok : Bytes) (h : scanRecord data eof = .token adv tok) (start : Nat)
    (hs : Spec.Reaches data 4 start) :
    Spec.Reaches data tok.length adv ∧ (scanRecordW data eof).2 = data.length + Spec.sumFromTo 4 start + Spec.sumFromTo tok.length adv := by
  rw [← scanRecordW_fst] at h
  unfold scanRecordW at h ⊢
  simp only at h ⊢
  split at h
  · cases h
  next c1 =>
  split at h
  · cases h
  next c2 =>
  split at h
  · cases h
  next c3 =>
  rw [if_neg c1, if_neg c2, if_neg c3, stripedDataW_of hs]
  rw [stripedDataW_of hs] at h
  simp only at h ⊢
  generalize scanSize _ = sz at h ⊢
  cases sz with
  | none => cases h
  | some size =>
    simp only at h ⊢
    split at h
    · next hl =>
      rw [if_pos hl]
      rw [stripedLength_eq] at hl
      obtain ⟨k, hk⟩ := exists_reaches data size hl
      rw [stripedDataW_of hk] at h ⊢
      simp only at h ⊢
      cases h
      rw [hk.2.1]
      exact ⟨hk, rfl⟩
    · split at h <;> cases h

/-- C126, a bound for all data: the length of the data, twice for each line break and three times more. The full property, with a fixed factor, fails,
see `C126_violated`. -/
theorem C126_bound_partial (data : Bytes) (eof : Bool) : (scanRecordW data eof).2 ≤ (2 * Spec.breaks data + 3) * data.length := by
  have key : ∀ size k, Spec.Reaches data size k → Spec.sumFromTo size k ≤ (Spec.breaks data + 1) * data.length := by
    intro size k h
    have h1 := reaches_le h
    exact le_trans (sumFromTo_le size k data.length h.1) (Nat.mul_le_mul (by omega) (le_refl _))
  have e : (2 * Spec.breaks data + 3) * data.length = data.length + (Spec.breaks data + 1) * data.length + (Spec.breaks data + 1) * data.length := by ring
  rw [e]
  unfold scanRecordW
  simp only
  split
  · simp only; omega
  split
  · simp only; omega
  split
  · simp only; omega
  next c =>
  rw [stripedLength_eq] at c ⊢
  obtain ⟨start, hs⟩ := exists_reaches data 4 (by omega)
  rw [stripedDataW_of hs]
  have h1 := key _ _ hs
  simp only
  cases scanSize (withoutBreaks (data.take start)) with
  | none => simp only; omega
  | some size =>
    simp only
    split
    · next hl =>
      obtain ⟨k, hk⟩ := exists_reaches data size hl
      rw [stripedDataW_of hk]
      have h2 := key _ _ hk
      simp only
      omega
    · split <;> (simp only; omega)

/-- C126. Without line breaks it holds. -/
theorem C126_no_breaks (data : Bytes) (eof : Bool) (h : ∀ c ∈ data, c ≠ 13 ∧ c ≠ 10) : (scanRecordW data eof).2 ≤ 3 * data.length := by
  have hb : Spec.breaks data = 0 := by
    have : withoutBreaks data = data := by
      rw [← filter_breaks]
      exact List.filter_eq_self.2 fun c hc => by simpa using h c hc
    unfold Spec.breaks
    rw [this]; omega
  have := C126_bound_partial data eof
  rwa [hb] at this

/-- C126 fails: for every factor there are data, a header with line breaks before it, for which a record is found but more bytes are looked at than so many
times the length. -/
theorem C126_violated (c : Nat) : ∃ n : Nat,
    let data := List.replicate n 10 ++ (Record.header .character (header 0 426)).string
    scanRecord data true = .token data.length (Record.header .character (header 0 426)).string ∧ c * data.length < (scanRecordW data true).2 := by
  refine ⟨2 * c + 1000, ?_⟩
  generalize hn : 2 * c + 1000 = n
  generalize ht : (Record.header .character (header 0 426)).string = text
  have hl : text.length = 426 := by rw [← ht]; decide +kernel
  have hw : withoutBreaks text = text := by rw [← ht]; decide +kernel
  have h4 : (text.take 4).length = 4 := by rw [List.length_take]; omega
  have ha : Spec.Announces (text.take 4) 426 := (scanSize_iff h4 426).1 (by rw [← ht]; decide +kernel)
  have hb : text.getLast? = some 32 := by rw [← ht]; decide +kernel
  have hr : ∀ m, withoutBreaks (List.replicate m 10) = [] := by
    intro m
    rw [← filter_breaks]
    exact List.filter_eq_nil_iff.2 fun c hc => by rw [(List.mem_replicate.1 hc).2]; decide
  have hwd : withoutBreaks (List.replicate n 10 ++ text) = text := by rw [withoutBreaks_append, hr, List.nil_append, hw]
  have hp : Spec.Piece (List.replicate n 10 ++ text) := by
    refine ⟨by rw [hwd]; omega, by rw [hwd, hl]; exact ha, fun c hc => ?_⟩
    rw [List.getLast?_append, hb] at hc
    cases hc
    decide
  have h1 := scanRecord_piece hp [] true
  rw [List.append_nil, hwd] at h1
  refine ⟨h1, ?_⟩
  obtain ⟨start, hs⟩ := exists_reaches (List.replicate n 10 ++ text) 4 (by rw [hwd]; omega)
  rw [(C126_exact _ _ _ _ h1 start hs).2]
  have h2 : n + 4 ≤ start := by
    by_contra hlt
    have h3 := hs.2.1
    rw [List.take_append, withoutBreaks_append, List.take_replicate, hr, List.nil_append, List.length_replicate] at h3
    have h4 := withoutBreaks_length_le (text.take (start - n))
    rw [List.length_take] at h4
    omega
  obtain ⟨d, rfl⟩ : ∃ d, start = 4 + d := ⟨start - 4, by omega⟩
  have h3 := sumFromTo_double 4 d
  have h4 : n ≤ d := by omega
  rw [List.length_append, List.length_replicate, hl]
  subst hn
  nlinarith

/-! ### Cases -/

/-- Five line breaks and a header. -/
def lateHeader : Bytes := List.replicate 5 10 ++ (Record.header .character (header 0 426)).string

/-- Case of `C126_exact` and of `C126_same`: 431 bytes, then from 4 to 9 and from 426 to 431. -/
example : scanRecord lateHeader true = .token 431 (Record.header .character (header 0 426)).string ∧ Spec.Reaches lateHeader 4 9 ∧
    (scanRecordW lateHeader true).2 = 431 + (4 + 5 + 6 + 7 + 8 + 9) + (426 + 427 + 428 + 429 + 430 + 431) := by
  refine ⟨by decide +kernel, ⟨by decide +kernel, by decide +kernel, by decide +kernel⟩, by decide +kernel⟩

/-- Case of `C126_bound_partial`, and of `C126_no_breaks`. -/
example : Spec.breaks lateHeader = 5 ∧ ∀ c ∈ (Record.header .character (header 0 426)).string, c ≠ 13 ∧ c ≠ 10 := by
  refine ⟨by decide +kernel, by decide +kernel⟩

end Metro2
