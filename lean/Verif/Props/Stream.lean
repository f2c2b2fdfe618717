import Verif.Lemmas.Stream

/-! Properties C39 and C40: how the streaming reader divides its input into records. -/

namespace Metro2

/-- C39. Every stream is divided into pieces in exactly one way (this is about the specification only). -/
theorem C39_pieces (raw : Bytes) : ∃ ps, Spec.Pieces raw ps ∧ ∀ qs, Spec.Pieces raw qs → ps = qs := by
  obtain ⟨ps, h⟩ := pieces_exist raw
  exact ⟨ps, h, pieces_unique h⟩

/-- C39. The tokens of the scanner are the records of the stream, whatever the sizes of the reads, if the reader does not return nothing
for more than a hundred times in a row. -/
theorem C39_records (raw : Bytes) (ps : List Bytes) (h : Spec.Pieces raw ps) (p : Plan) (hp : p.Progress) :
    (newScanner raw).all p = Spec.recordsOf ps :=
  Scanner.all_eq hp h _ (newScanner_ok raw) (newScanner_input raw)

/-- C39. Two readers that deliver the same data in different ways give the same records. -/
theorem C39_chunking (raw : Bytes) (p q : Plan) (hp : p.Progress) (hq : q.Progress) :
    (newScanner raw).all p = (newScanner raw).all q := by
  obtain ⟨ps, h⟩ := pieces_exist raw
  rw [C39_records raw ps h p hp, C39_records raw ps h q hq]

/-- C40, if no record with its line breaks is longer than the buffer. Missing for the full property: this
condition, see `C40_violated`. -/
theorem C40_line_breaks_partial (raw : Bytes) (ps : List Bytes) (h : Spec.Pieces raw ps)
    (hl : ∀ a ∈ ps, a.length ≤ Spec.bufferSize) (p q : Plan) (hp : p.Progress) (hq : q.Progress) :
    (newScanner raw).all p = (newScanner (Spec.withoutBreaks raw)).all q := by
  rw [C39_records raw ps h p hp, C39_records _ _ (pieces_withoutBreaks h) q hq, recordsOf_fit hl, recordsOf_fit]
  · rw [List.map_map]
    apply List.map_congr_left
    intro a _
    exact (withoutBreaks_idem a).symm
  · intro b hb
    obtain ⟨a, ha, rfl⟩ := List.mem_map.1 hb
    exact Nat.le_of_lt (piece_fits (pieces_mem h a ha))

/-- C40, without condition: what is extracted from the input is a prefix of what is extracted after deleting the line breaks. -/
theorem C40_prefix (raw : Bytes) (p q : Plan) (hp : p.Progress) (hq : q.Progress) :
    (newScanner raw).all p <+: (newScanner (Spec.withoutBreaks raw)).all q := by
  obtain ⟨ps, h⟩ := pieces_exist raw
  rw [C39_records raw ps h p hp, C39_records _ _ (pieces_withoutBreaks h) q hq,
    recordsOf_fit (ps := ps.map Spec.withoutBreaks)]
  · rw [List.map_map]
    unfold Spec.recordsOf
    rw [show ps.map (Spec.withoutBreaks ∘ Spec.withoutBreaks) = ps.map Spec.withoutBreaks from
      List.map_congr_left fun a _ => withoutBreaks_idem a]
    exact (List.takeWhile_prefix _).map _
  · intro b hb
    obtain ⟨a, ha, rfl⟩ := List.mem_map.1 hb
    exact Nat.le_of_lt (piece_fits (pieces_mem h a ha))

/-! ### Samples -/

/-- A record of 426 bytes. -/
def Samples.line : Bytes := b! "0426HEADER" ++ List.replicate 416 32

theorem line_breaks_only (n : Nat) : Spec.withoutBreaks (List.replicate n 10) = [] := by
  induction n with
  | zero => rfl
  | succ n ih => rw [List.replicate_succ, withoutBreaks_cons, if_pos (.inr rfl), ih]

theorem line_piece (n : Nat) : Spec.Piece (List.replicate n 10 ++ Samples.line) := by
  have h0 : Spec.withoutBreaks (List.replicate n 10 ++ Samples.line) = Samples.line := by
    rw [withoutBreaks_append, withoutBreaks_of_noBreaks (s := Samples.line) (by decide +kernel)]
    rw [line_breaks_only, List.nil_append]
  refine ⟨?_, ?_, ?_⟩
  · rw [h0]; decide +kernel
  · rw [h0]; exact (scanSize_iff (by decide +kernel) _).1 (by decide +kernel)
  · intro c hc
    rw [List.getLast?_append] at hc
    have : Samples.line.getLast? = some 32 := by decide +kernel
    rw [this] at hc
    cases hc
    decide

theorem no_piece_nil : Spec.Pieces [] [] := by
  refine .nil ?_
  intro a b h ha
  have : a = [] := (List.append_eq_nil_iff.1 h.symm).1
  subst this
  exact absurd ha.1 (by decide)

/-- Two lines separated by two line breaks. -/
theorem two_lines : Spec.Pieces (Samples.line ++ (List.replicate 2 10 ++ Samples.line))
    [Samples.line, List.replicate 2 10 ++ Samples.line] := by
  have h := Spec.Pieces.cons (line_piece 0) (Spec.Pieces.cons (line_piece 2) no_piece_nil)
  rw [List.append_nil] at h
  exact h

/-- A reader that delivers nothing and one byte in turn. -/
def Samples.slow : Plan := ⟨fun k => k % 2, fun _ => false⟩

theorem slow_progress : Samples.slow.Progress := by
  intro k
  by_cases h : k % 2 = 0
  · exact ⟨1, by decide, by simp only [Samples.slow]; omega⟩
  · exact ⟨0, by decide, by simp only [Samples.slow]; omega⟩

/-- Case of `C39_chunking`. -/
example : Samples.slow.Progress ∧ (Plan.mk (fun _ => 5000) (fun _ => true)).Progress :=
  ⟨slow_progress, fun _ => ⟨0, by decide, by simp⟩⟩

/-- Cases of `C39_pieces` and `C40_line_breaks_partial`. -/
example : (newScanner (Samples.line ++ (List.replicate 2 10 ++ Samples.line))).all Samples.slow =
    [Samples.line, Samples.line] := by
  rw [C39_records _ _ two_lines _ slow_progress]
  decide +kernel

/-- C40 fails for more than 64 KiB of line breaks before a record: the record is lost. -/
theorem C40_violated : ∃ raw, ∀ p q : Plan, p.Progress → q.Progress →
    (newScanner raw).all p = [] ∧ (newScanner (Spec.withoutBreaks raw)).all q = [Samples.line] := by
  refine ⟨List.replicate 65536 10 ++ Samples.line, ?_⟩
  intro p q hp hq
  have h := Spec.Pieces.cons (line_piece 65536) no_piece_nil
  rw [List.append_nil] at h
  refine ⟨?_, ?_⟩
  · rw [C39_records _ _ h p hp, recordsOf_cons, if_neg]
    rw [List.length_append, List.length_replicate]
    have : 0 < Samples.line.length := by decide +kernel
    have : maxTokenSize = 65536 := rfl
    omega
  · rw [C39_records _ _ (pieces_withoutBreaks h) q hq, List.map_singleton]
    have : Spec.withoutBreaks (List.replicate 65536 10 ++ Samples.line) = Samples.line := by
      have h1 := line_breaks_only 65536
      rw [withoutBreaks_append, h1, List.nil_append]
      exact withoutBreaks_of_noBreaks (by decide +kernel)
    rw [this]
    decide +kernel

end Metro2
