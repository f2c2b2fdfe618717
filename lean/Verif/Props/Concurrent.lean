import Verif.Lemmas.Concurrent
import Verif.Spec.FileText
import Verif.Props.Totals

/-! Properties C37 and C38: the text of a file. -/

namespace Metro2

theorem joinRecords_eq (nl : Bool) (h t : Bytes) (bs : List Record) :
    Spec.joinRecords nl ([h] ++ bs.map Record.string ++ [t]) =
      h ++ newLine nl ++ (bs.map fun b => b.string ++ newLine nl).flatten ++ t := by
  induction bs generalizing h with
  | nil => cases nl <;> simp [Spec.joinRecords, newLine]
  | cons b bs ih =>
    have := ih b.string
    simp only [List.map_cons, List.cons_append, List.nil_append] at this ⊢
    rw [Spec.joinRecords, this]
    cases nl <;> simp [newLine]

/-- The text of a file is the texts of its records, joined. -/
theorem File.string_eq (f : File) (nl : Bool) : f.string nl = Spec.joinRecords nl (Spec.recordTexts f) :=
  (joinRecords_eq nl _ _ _).symm

/-! ### C37 -/

/-- C37. Whatever the number of goroutines (and thus the page size) and whatever the interleaving, a finished call returns
the texts of header, data records in order and trailer. -/
theorem C37_deterministic (f : File) (nl : Bool) (goroutines : Int) (s t : CState) (n : Nat) (text : Bytes)
    (hs : cstart f nl (pageSize f.bases.length goroutines) = some s) (h : CRun f nl n s t)
    (ht : t.result = some text) : text = Spec.joinRecords nl (Spec.recordTexts f) := by
  obtain ⟨pages, hp, hi⟩ := CInv.start hs
  rw [(hi.run h).result text ht, Spec.recordTexts, joinRecords_eq]
  have : pages.flatten = f.bases := by
    by_cases h0 : f.bases = []
    · rw [h0] at hp
      simp only [List.length_nil, pagesFrom, Nat.lt_irrefl, if_false, Option.some.injEq] at hp
      rw [h0, ← hp]; rfl
    · have hpos : 0 < pageSize f.bases.length goroutines := by
        have hl : 0 < f.bases.length := List.length_pos_iff.2 h0
        unfold pageSize
        apply Nat.div_pos
        · split <;> omega
        · split <;> omega
      obtain ⟨pages', h1, h2, -⟩ := pagesFrom_spec (bases := f.bases) hpos f.bases.length 0 (by omega)
      rw [hp] at h1
      cases h1
      simpa using h2
  rw [this]
  rfl

/-- C37. The same for every page size whatever, so that the rounding of the division does not matter. -/
theorem C37_any_page_size (f : File) (nl : Bool) (size : Nat) (hsize : 0 < size) (s t : CState) (n : Nat) (text : Bytes)
    (hs : cstart f nl size = some s) (h : CRun f nl n s t) (ht : t.result = some text) :
    text = Spec.joinRecords nl (Spec.recordTexts f) := by
  obtain ⟨pages, hp, hi⟩ := CInv.start hs
  rw [(hi.run h).result text ht, Spec.recordTexts, joinRecords_eq]
  obtain ⟨pages', h1, h2, -⟩ := pagesFrom_spec (bases := f.bases) hsize f.bases.length 0 (by omega)
  rw [hp] at h1
  cases h1
  rw [h2]
  rfl

/-- C37. The paging loop ends and starts no more workers than were asked for (one if fewer than one were asked for). -/
theorem C37_starts (f : File) (nl : Bool) (goroutines : Int) :
    ∃ s, cstart f nl (pageSize f.bases.length goroutines) = some s ∧ s.result = none ∧
      (s.pending.length : Int) ≤ max 1 goroutines := by
  by_cases h0 : f.bases = []
  · unfold cstart
    rw [h0]
    refine ⟨_, rfl, rfl, ?_⟩
    simp only [List.zipIdx_nil, List.map_nil, List.length_nil]
    omega
  · have hl : 0 < f.bases.length := List.length_pos_iff.2 h0
    have hpos : 0 < pageSize f.bases.length goroutines := by
      unfold pageSize
      apply Nat.div_pos
      · split <;> omega
      · split <;> omega
    obtain ⟨pages, h1, -, h3⟩ := pagesFrom_spec (bases := f.bases) hpos f.bases.length 0 (by omega)
    refine ⟨_, by unfold cstart; rw [h1]; rfl, rfl, ?_⟩
    simp only [List.length_map, List.length_zipIdx]
    have hg : ∃ g : Nat, 0 < g ∧ (g : Int) = max 1 goroutines ∧
        pageSize f.bases.length goroutines = (f.bases.length + g - 1) / g := by
      unfold pageSize
      by_cases hg : goroutines < 1
      · exact ⟨1, by omega, by omega, by simp [hg]⟩
      · exact ⟨goroutines.toNat, by omega, by omega, by simp [hg]⟩
    obtain ⟨g, hg0, hg1, hg2⟩ := hg
    rw [← hg1]
    generalize pageSize f.bases.length goroutines = size at *
    have hle : f.bases.length ≤ size * g := by
      have := Nat.div_add_mod (f.bases.length + g - 1) g
      have hm := Nat.mod_lt (f.bases.length + g - 1) hg0
      rw [← hg2, Nat.mul_comm] at this
      omega
    by_contra hc
    have hc : g + 1 ≤ pages.length := by omega
    have := Nat.mul_le_mul_right size hc
    rw [Nat.add_mul, Nat.one_mul, Nat.mul_comm g size] at this
    omega

/-- C37. No deadlock and no panic: a call that has not returned can take a step. -/
theorem C37_progress (f : File) (nl : Bool) (size : Nat) (s t : CState) (n : Nat)
    (hs : cstart f nl size = some s) (h : CRun f nl n s t) (hr : t.result = none) : ∃ u, CStep f nl t u := by
  obtain ⟨pages, -, hi⟩ := CInv.start hs
  exact (hi.run h).progress hr

/-- C37. Every run ends, after the same number of steps. -/
theorem C37_terminates (f : File) (nl : Bool) (size : Nat) (s : CState) (hs : cstart f nl size = some s) :
    ∃ steps, ∀ t n, CRun f nl n s t → n ≤ steps ∧ (n = steps ↔ ∀ u, ¬ CStep f nl t u) ∧
      (n = steps → t.result ≠ none) := by
  obtain ⟨pages, -, hi⟩ := CInv.start hs
  have key : ∀ t n, CRun f nl n s t → t.result = none → ∃ u, CStep f nl t u := fun t n h hr => (hi.run h).progress hr
  refine ⟨s.cost, fun t n h => ?_⟩
  have hc := h.cost
  have hend : t.cost = 0 → ∀ u, ¬ CStep f nl t u := by
    intro h0 u hu
    have := hu.cost
    omega
  have hres : t.cost = 0 → t.result ≠ none := by
    intro h0 hr
    simp [CState.cost, hr] at h0
  refine ⟨by omega, ⟨fun he => hend (by omega), fun hno => ?_⟩, fun he => hres (by omega)⟩
  by_contra hne
  by_cases hr : t.result = none
  · obtain ⟨u, hu⟩ := key t n h hr
    exact hno u hu
  · have hpos : 0 < t.cost := by omega
    -- with a result all workers have exited and none is pending
    have hdone : ∀ m t', CRun f nl m s t' → t'.result ≠ none → t'.cost = 0 := by
      intro m t' h'
      generalize hst : s = s0 at h'
      induction h' with
      | refl =>
        intro hr'
        exfalso
        subst hst
        apply hr'
        unfold cstart at hs
        rw [Option.map_eq_some_iff] at hs
        obtain ⟨_, _, rfl⟩ := hs
        rfl
      | @step m t1 t2 t3 h1 h2 ih =>
        subst hst
        intro hr'
        by_cases hr1 : t2.result = none
        · cases h2 with
          | finish hp hw _ =>
            have hinv := hi.run h1
            have h0 : running t2.workers = 0 := by have := hinv.wg; omega
            have hall := all_exited h0
            have hsum : (t2.workers.map Worker.cost).sum = 0 := by
              rw [List.sum_eq_zero_iff_forall_eq_nat]
              intro x hx
              obtain ⟨w, hw', rfl⟩ := List.mem_map.1 hx
              simp [Worker.cost, hall w hw']
            simp [CState.cost, hp, hsum]
          | spawn _ => exact absurd hr1 hr'
          | writeRecord _ _ _ => exact absurd hr1 hr'
          | writeNewline _ _ => exact absurd hr1 hr'
          | store _ _ _ _ => exact absurd hr1 hr'
          | done _ _ => exact absurd hr1 hr'
        · have h0 := ih rfl hr1
          have := h2.cost
          omega
    have := hdone n t h hr
    omega

/-- C37. No data race: two workers that are about to assign to `dataPages` have different indices, and when the caller
combines the pages every worker has exited. -/
theorem C37_race_free (f : File) (nl : Bool) (size : Nat) (s t : CState) (n : Nat)
    (hs : cstart f nl size = some s) (h : CRun f nl n s t) :
    (∀ (i j : Nat) (v w : Worker), i ≠ j → t.workers[i]? = some v → t.workers[j]? = some w → v.idx ≠ w.idx) ∧
    (t.pending = [] → t.wg = 0 → ∀ w ∈ t.workers, w.phase = .exited) := by
  obtain ⟨pages, -, hi⟩ := CInv.start hs
  have hi := hi.run h
  refine ⟨fun i j v w hij hv hw => ?_, fun _ hw => ?_⟩
  · rw [(hi.workers i v hv).1, (hi.workers j w hw).1]
    exact hij
  · exact all_exited (by have := hi.wg; omega)

/-- Case of `C37_starts`. Non-vacuity: a start state with two workers exists, a run to the end exists for every file. -/
example : ∃ s, cstart (Samples.file .packed) true (pageSize 2 7) = some s ∧ s.pending.length = 2 := by
  refine ⟨_, rfl, by decide +kernel⟩

theorem run_to_end (f : File) (nl : Bool) (size : Nat) (s : CState) (hs : cstart f nl size = some s) :
    ∃ t n text, CRun f nl n s t ∧ t.result = some text := by
  obtain ⟨pages, -, hi⟩ := CInv.start hs
  have key : ∀ k t n, CRun f nl n s t → t.cost = k → ∃ t n text, CRun f nl n s t ∧ t.result = some text := by
    intro k
    induction k with
    | zero =>
      intro t n h hc
      refine ⟨t, n, ?_⟩
      cases hr : t.result with
      | none => simp [CState.cost, hr] at hc
      | some x => exact ⟨x, h, rfl⟩
    | succ k ih =>
      intro t n h hc
      cases hr : t.result with
      | some x => exact ⟨t, n, x, h, hr⟩
      | none =>
        obtain ⟨u, hu⟩ := (hi.run h).progress hr
        have := hu.cost
        exact ih u (n + 1) (.step h hu) (by omega)
  exact key _ s 0 (.refl s) rfl

/-- Cases of `C37_deterministic`, `C37_any_page_size`, `C37_progress` and `C37_terminates`. -/
example : ∃ s t n text, cstart (Samples.file .character) true (pageSize 2 (-3)) = some s ∧
    CRun (Samples.file .character) true n s t ∧ t.result = some text := by
  obtain ⟨t, n, text, h⟩ := run_to_end (Samples.file .character) true (pageSize 2 (-3)) _ rfl
  exact ⟨_, t, n, text, rfl, h⟩

/-! ### C38 -/

theorem withoutBreaks_eq {s : Bytes} (h : Spec.NoBreaks s) : Spec.withoutBreaks s = s := by
  rw [Spec.withoutBreaks, List.filter_eq_self]
  intro c hc
  exact decide_eq_true (h c hc)

theorem withoutBreaks_append (s t : Bytes) :
    Spec.withoutBreaks (s ++ t) = Spec.withoutBreaks s ++ Spec.withoutBreaks t := List.filter_append _ _

/-- C38. Without newlines, the text is the concatenation of the record texts; with newlines a line feed is added after the
header and after each data record and nowhere else. -/
theorem C38_separators (f : File) :
    f.string false = f.header.string ++ (f.bases.map Record.string).flatten ++ f.trailer.string ∧
    f.string true = f.header.string ++ ['\n'.toNat.toUInt8] ++
      (f.bases.map fun r => r.string ++ ['\n'.toNat.toUInt8]).flatten ++ f.trailer.string := by
  constructor
  · simp [File.string, newLine]
  · rfl

/-- C38. If no record contains a line break, deleting the line breaks gives the text without newlines. -/
theorem C38_delete (f : File) (h : ∀ t ∈ Spec.recordTexts f, Spec.NoBreaks t) (nl : Bool) :
    Spec.withoutBreaks (f.string nl) = f.string false := by
  rw [File.string_eq, File.string_eq]
  revert h
  generalize Spec.recordTexts f = l
  intro h
  induction l with
  | nil => rfl
  | cons t l ih =>
    have ht := withoutBreaks_eq (h t List.mem_cons_self)
    have ih := ih fun u hu => h u (List.mem_cons_of_mem _ hu)
    cases l with
    | nil => exact ht
    | cons u l =>
      rw [Spec.joinRecords, withoutBreaks_append, withoutBreaks_append, ih, ht]
      cases nl <;> rfl

/-- C38. The number of bytes added is one per data record, and one for the header. -/
theorem C38_length (f : File) : (f.string true).length = (f.string false).length + f.bases.length + 1 := by
  have : ∀ bs : List Record, ((bs.map fun b => b.string ++ newLine true).flatten).length =
      ((bs.map fun b => b.string ++ newLine false).flatten).length + bs.length := by
    intro bs
    induction bs with
    | nil => rfl
    | cons b bs ih =>
      have e1 : (newLine true).length = 1 := rfl
      have e2 : (newLine false).length = 0 := rfl
      simp only [List.map_cons, List.flatten_cons, List.length_append, List.length_cons, ih, e1, e2]
      omega
  have e1 : (newLine true).length = 1 := rfl
  have e2 : (newLine false).length = 0 := rfl
  unfold File.string
  rw [List.length_append, List.length_append, List.length_append, List.length_append, List.length_append,
    List.length_append, this, e1, e2]
  omega

/-- Cases of `C38_delete` and `C38_separators`. Non-vacuity: the records of this file contain no line breaks. -/
example : ∀ t ∈ Spec.recordTexts (Samples.file .character), Spec.NoBreaks t := by
  have h : (Spec.recordTexts (Samples.file .character)).all (fun t => t.all fun c =>
    decide (c ≠ '\r'.toNat.toUInt8 ∧ c ≠ '\n'.toNat.toUInt8)) = true := by decide +kernel
  intro t ht c hc
  have := List.all_eq_true.1 (List.all_eq_true.1 h t ht) c hc
  simpa using this

end Metro2
