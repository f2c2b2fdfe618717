import Verif.Lemmas.Scanner
import Verif.Model.Reader

/-! The records of a stream. -/

namespace Metro2

open Spec (withoutBreaks Piece Pieces recordsOf)

theorem bufferSize_eq : Spec.bufferSize = maxTokenSize := rfl

theorem Scanner.scan_some {p : Plan} (hp : p.Progress) {s : Scanner} (hs : s.Ok) {a b : Bytes}
    (hi : s.input = a ++ b) (ha : Piece a) (hl : a.length ≤ maxTokenSize) :
    ∃ t, s.scan p = (t, some (withoutBreaks a)) ∧ t.Ok ∧ t.input = b := by
  obtain ⟨h1, h2, h3⟩ := (Scanner.scan_spec hp _ s (Nat.lt_succ_self _) hs).1 a b hi ha hl
  exact ⟨(s.scan p).1, by rw [← h1], h2, h3⟩

/-- No piece that fits the buffer begins here. -/
def Stuck (s : Bytes) : Prop := ∀ a b, s = a ++ b → Piece a → maxTokenSize < a.length

theorem Scanner.scan_none {p : Plan} (hp : p.Progress) {s : Scanner} (hs : s.Ok) (hn : Stuck s.input) :
    ∃ t, s.scan p = (t, none) ∧ t.Ok ∧ Stuck t.input := by
  obtain ⟨h1, h2, h3⟩ := (Scanner.scan_spec hp _ s (Nat.lt_succ_self _) hs).2 hn
  exact ⟨(s.scan p).1, by rw [← h1], h2, h3⟩

theorem stuck_of_nil {s : Bytes} (h : ∀ a b, s = a ++ b → ¬ Piece a) : Stuck s :=
  fun a b hab ha => absurd ha (h a b hab)

theorem stuck_of_long {a b : Bytes} (ha : Piece a) (hl : maxTokenSize < a.length) : Stuck (a ++ b) := by
  intro c d h hc
  obtain ⟨rfl, -⟩ := piece_unique h ha hc
  exact hl

theorem recordsOf_cons (a : Bytes) (ps : List Bytes) :
    recordsOf (a :: ps) = if a.length ≤ maxTokenSize then withoutBreaks a :: recordsOf ps else [] := by
  unfold Spec.recordsOf
  rw [List.takeWhile_cons, bufferSize_eq]
  by_cases h : a.length ≤ maxTokenSize
  · rw [if_pos h, if_pos (by simpa using h)]; rfl
  · rw [if_neg h, if_neg (by simpa using h)]; rfl

theorem Scanner.all_stuck {p : Plan} (hp : p.Progress) {s : Scanner} (hs : s.Ok) (hn : Stuck s.input) : s.all p = [] := by
  obtain ⟨t, h, -, -⟩ := Scanner.scan_none hp hs hn
  unfold Scanner.all
  split
  · rfl
  · next h' => rw [h] at h'; simp at h'

theorem Scanner.all_eq {p : Plan} (hp : p.Progress) {raw : Bytes} {ps : List Bytes} (h : Pieces raw ps) :
    ∀ s : Scanner, s.Ok → s.input = raw → s.all p = recordsOf ps := by
  induction h with
  | nil hno =>
    intro s hs hi
    rw [Scanner.all_stuck hp hs (hi ▸ stuck_of_nil hno)]
    rfl
  | @cons a b ps ha _ ih =>
    intro s hs hi
    rw [recordsOf_cons]
    by_cases hl : a.length ≤ maxTokenSize
    · rw [if_pos hl]
      obtain ⟨t, ht, h1, h2⟩ := Scanner.scan_some hp hs hi ha hl
      unfold Scanner.all
      split
      · next h' => rw [ht] at h'; simp at h'
      · next h' =>
        rw [ht] at h'
        cases h'
        rw [ih t h1 h2]
    · rw [if_neg hl]
      exact Scanner.all_stuck hp hs (hi ▸ stuck_of_long ha (by omega))

/-! ### Existence and uniqueness of the pieces -/

theorem piece_pos {a : Bytes} (h : Piece a) : 0 < a.length := by
  have := withoutBreaks_length_le a
  have := h.1
  omega

theorem pieces_exist (raw : Bytes) : ∃ ps, Pieces raw ps := by
  generalize hn : raw.length = n
  induction n using Nat.strongRecOn generalizing raw with
  | ind n ih =>
    by_cases h : ∃ a b, raw = a ++ b ∧ Piece a
    · obtain ⟨a, b, rfl, ha⟩ := h
      have := piece_pos ha
      obtain ⟨ps, hps⟩ := ih b.length (by rw [← hn, List.length_append]; omega) b rfl
      exact ⟨_, .cons ha hps⟩
    · exact ⟨[], .nil fun a b hab ha => h ⟨a, b, hab, ha⟩⟩

theorem pieces_unique {raw : Bytes} {ps : List Bytes} (h : Pieces raw ps) : ∀ qs, Pieces raw qs → ps = qs := by
  induction h with
  | nil hno =>
    intro qs hq
    cases hq with
    | nil _ => rfl
    | cons ha _ => exact absurd ha (hno _ _ rfl)
  | @cons a b ps ha _ ih =>
    intro qs hq
    generalize hraw : a ++ b = raw at hq
    cases hq with
    | nil hno => exact absurd ha (hno _ _ hraw.symm)
    | cons hc hd =>
      obtain ⟨rfl, rfl⟩ := piece_unique hraw ha hc
      rw [ih _ hd]

/-! ### Line breaks -/

theorem noBreaks_withoutBreaks (s : Bytes) : Spec.NoBreaks (withoutBreaks s) := by
  intro c hc
  have := (List.mem_filter.1 hc).2
  simpa using this

theorem withoutBreaks_of_noBreaks {s : Bytes} (h : Spec.NoBreaks s) : withoutBreaks s = s := by
  unfold Spec.withoutBreaks
  rw [List.filter_eq_self]
  intro c hc
  have := h c hc
  simpa using this

theorem withoutBreaks_idem (s : Bytes) : withoutBreaks (withoutBreaks s) = withoutBreaks s :=
  withoutBreaks_of_noBreaks (noBreaks_withoutBreaks s)

theorem piece_withoutBreaks {a : Bytes} (h : Piece a) : Piece (withoutBreaks a) := by
  refine ⟨?_, ?_, ?_⟩
  · rw [withoutBreaks_idem]; exact h.1
  · rw [withoutBreaks_idem]; exact h.2.1
  · intro c hc
    exact noBreaks_withoutBreaks a c (List.mem_of_mem_getLast? hc)

/-- A piece that begins with line breaks removed begins also with them. -/
theorem piece_of_withoutBreaks {raw a' b' : Bytes} (h : withoutBreaks raw = a' ++ b') (ha : Piece a') :
    ∃ a b, raw = a ++ b ∧ Piece a := by
  have h1 := scanRecord_piece ha b' true
  rw [← h] at h1
  have : ∃ i tok, scanRecord raw true = .token i tok := by
    have hl : a'.length ≤ (withoutBreaks raw).length := by rw [h]; simp
    have hnb : withoutBreaks a' = a' := by
      apply withoutBreaks_of_noBreaks
      intro c hc
      exact noBreaks_withoutBreaks raw c (by rw [h]; exact List.mem_append_left _ hc)
    have ha1 := ha.1
    have ha2 := ha.2.1
    rw [hnb] at ha1 ha2
    unfold scanRecord
    simp only [stripedLength_eq]
    rw [if_neg (by omega), if_neg (by omega), if_neg (by omega)]
    rcases stripedData_spec raw 4 with ⟨h', -⟩ | ⟨k, -, -, -, h'⟩
    · omega
    · rw [h']
      simp only
      rw [h, List.take_append_of_le_length ha1,
        (scanSize_iff (by rw [List.length_take]; omega) _).2 ha2]
      simp only
      rw [← h, if_pos hl]
      rcases stripedData_spec raw a'.length with ⟨h', -⟩ | ⟨k, -, -, -, h'⟩
      · omega
      · rw [h']; exact ⟨_, _, rfl⟩
  obtain ⟨i, tok, ht⟩ := this
  exact ⟨raw.take i, raw.drop i, (List.take_append_drop i raw).symm, (scanRecord_token ht).2.1⟩

theorem pieces_withoutBreaks {raw : Bytes} {ps : List Bytes} (h : Pieces raw ps) :
    Pieces (withoutBreaks raw) (ps.map withoutBreaks) := by
  induction h with
  | nil hno =>
    refine .nil ?_
    intro a' b' h' ha'
    obtain ⟨a, b, hab, ha⟩ := piece_of_withoutBreaks h' ha'
    exact hno a b hab ha
  | cons ha _ ih =>
    rw [withoutBreaks_append, List.map_cons]
    exact .cons (piece_withoutBreaks ha) ih

theorem announces_le {w : Bytes} (hw : w.length = 4) {n : Nat} (h : Spec.Announces w n) : n < 65536 := by
  rcases h with ⟨h, -⟩ | ⟨-, h, -⟩
  · have := signedDecimal_lt h
    rw [hw] at this
    omega
  · rw [spec_bigEndian_iff] at h
    have := beVal_lt (w.take 2)
    rw [h, List.length_take, hw] at this
    simpa using this

/-- A record without line breaks always fits the buffer. -/
theorem piece_fits {a : Bytes} (h : Piece a) : (withoutBreaks a).length < maxTokenSize :=
  announces_le (by rw [List.length_take]; have := h.1; omega) h.2.1

theorem recordsOf_fit {ps : List Bytes} (h : ∀ a ∈ ps, a.length ≤ Spec.bufferSize) :
    recordsOf ps = ps.map withoutBreaks := by
  induction ps with
  | nil => rfl
  | cons a ps ih =>
    rw [recordsOf_cons, if_pos (show a.length ≤ maxTokenSize from h a List.mem_cons_self), ih fun b hb => h b (List.mem_cons_of_mem _ hb)]
    rfl

theorem pieces_mem {raw : Bytes} {ps : List Bytes} (h : Pieces raw ps) : ∀ a ∈ ps, Piece a := by
  induction h with
  | nil _ => intro a ha; simp at ha
  | cons ha _ ih =>
    intro c hc
    rcases List.mem_cons.1 hc with rfl | hc
    · exact ha
    · exact ih c hc

end Metro2
