import Verif.Model.Concurrent

/-! Invariant of the concurrent serialization. -/

namespace Metro2

theorem pagesFrom_spec {bases : List Record} {size : Nat} (hs : 0 < size) : ∀ (fuel i : Nat),
    bases.length - i ≤ fuel → ∃ pages, pagesFrom bases size fuel i = some pages ∧
      pages.flatten = bases.drop i ∧ pages.length * size ≤ bases.length - i + (size - 1) := by
  intro fuel
  induction fuel with
  | zero =>
    intro i hi
    refine ⟨[], ?_, ?_, by simp⟩
    · rw [pagesFrom, if_neg (by omega)]
    · rw [List.drop_eq_nil_of_le (by omega)]; rfl
  | succ fuel ih =>
    intro i hi
    rw [pagesFrom]
    by_cases h : i < bases.length
    · rw [if_pos h]
      obtain ⟨pages, h1, h2, h3⟩ := ih (i + size) (by omega)
      refine ⟨_, by rw [h1]; rfl, ?_, ?_⟩
      · rw [List.flatten_cons, h2]
        split
        · next hlt =>
          rw [List.take_of_length_le (by simp), List.drop_eq_nil_of_le (as := bases) (i := i + size) (by omega)]
          simp
        · rw [Nat.add_sub_cancel_left, ← List.drop_drop, List.take_append_drop]
      · rw [List.length_cons, Nat.add_mul, Nat.one_mul]
        by_cases hlt : i + size < bases.length
        · omega
        · have : bases.length - (i + size) = 0 := by omega
          rw [this, Nat.zero_add] at h3
          have hz : pages.length = 0 := by
            rcases Nat.eq_zero_or_pos pages.length with h0 | h0
            · exact h0
            · have : size ≤ pages.length * size := Nat.le_mul_of_pos_left size h0
              omega
          rw [hz]; omega
    · rw [if_neg h]
      exact ⟨[], rfl, by rw [List.drop_eq_nil_of_le (by omega)]; rfl, by simp⟩

/-- Text of a page. -/
def pageText (isNewLine : Bool) (page : List Record) : Bytes :=
  (page.map fun b => b.string ++ newLine isNewLine).flatten

/-- What a worker still has to write. -/
def Worker.rest (isNewLine : Bool) (w : Worker) : Bytes :=
  (if w.phase = .newline then newLine isNewLine else []) ++ pageText isNewLine w.todo

/-- The worker has not assigned its page yet. -/
def Worker.Busy (w : Worker) : Prop := w.phase = .record ∨ w.phase = .newline

/-- A worker and the page it was started for. -/
def WorkerOk (isNewLine : Bool) (pages : List (List Record)) (dataPages : List Bytes) (j : Nat) (w : Worker) : Prop :=
  w.idx = j ∧ ∃ page, pages[j]? = some page ∧
    (w.Busy → w.data ++ w.rest isNewLine = pageText isNewLine page) ∧
    (¬ w.Busy → dataPages[j]? = some (pageText isNewLine page))

/-- Number of workers that have not called `wg.Done`. -/
def running (ws : List Worker) : Nat := ws.countP fun w => decide (w.phase ≠ .exited)

structure CInv (f : File) (isNewLine : Bool) (pages : List (List Record)) (s : CState) : Prop where
  header : s.header = f.header.string ++ newLine isNewLine
  pending : s.pending = (pages.zipIdx.map fun p => (p.2, p.1)).drop s.workers.length
  started : s.workers.length ≤ pages.length
  len : s.dataPages.length = pages.length
  workers : ∀ j w, s.workers[j]? = some w → WorkerOk isNewLine pages s.dataPages j w
  wg : s.wg = running s.workers
  result : ∀ t, s.result = some t →
    t = f.header.string ++ newLine isNewLine ++ pageText isNewLine pages.flatten ++ f.trailer.string

theorem running_set {ws : List Worker} {j : Nat} {w w' : Worker} (h : ws[j]? = some w)
    (he : w.phase ≠ .exited) : running (ws.set j w') + 1 = running ws + if w'.phase = .exited then 0 else 1 := by
  induction ws generalizing j with
  | nil => simp at h
  | cons a ws ih =>
    cases j with
    | zero =>
      simp only [List.getElem?_cons_zero, Option.some.injEq] at h
      subst h
      simp only [running, List.set_cons_zero, List.countP_cons, he, decide_not]
      by_cases hw : w'.phase = .exited <;> simp [hw]
    | succ j =>
      have := ih (j := j) (by simpa using h)
      simp only [running, List.set_cons_succ, List.countP_cons] at this ⊢
      omega

theorem set_other {ws : List Worker} {j k : Nat} {w w' u : Worker} (hj : ws[j]? = some w)
    (h : (ws.set j w')[k]? = some u) : (k = j ∧ u = w') ∨ (k ≠ j ∧ ws[k]? = some u) := by
  rw [List.getElem?_set] at h
  by_cases hk : j = k
  · subst hk
    obtain ⟨hlt, -⟩ := List.getElem?_eq_some_iff.1 hj
    rw [if_pos rfl, if_pos hlt] at h
    exact .inl ⟨rfl, (Option.some.inj h).symm⟩
  · rw [if_neg hk] at h
    exact .inr ⟨fun e => hk e.symm, h⟩

theorem pages_pending {pages : List (List Record)} {k i : Nat} {page : List Record} {rest : List (Nat × List Record)}
    (h : (pages.zipIdx.map fun p => (p.2, p.1)).drop k = (i, page) :: rest) :
    i = k ∧ k < pages.length ∧ pages[k]? = some page ∧ rest = (pages.zipIdx.map fun p => (p.2, p.1)).drop (k + 1) := by
  have h0 : ((pages.zipIdx.map fun p => (p.2, p.1)).drop k)[0]? = some (i, page) := by rw [h]; rfl
  simp only [List.getElem?_drop, Nat.add_zero, List.getElem?_map, List.getElem?_zipIdx, Nat.zero_add] at h0
  cases hp : pages[k]? with
  | none => rw [hp] at h0; simp at h0
  | some q =>
    rw [hp] at h0
    simp only [Option.map_some, Option.some.injEq, Prod.mk.injEq] at h0
    obtain ⟨rfl, rfl⟩ := h0
    obtain ⟨hlt, -⟩ := List.getElem?_eq_some_iff.1 hp
    refine ⟨rfl, hlt, rfl, ?_⟩
    rw [← List.drop_drop, h]; rfl

theorem all_exited {ws : List Worker} (h : running ws = 0) : ∀ w ∈ ws, w.phase = .exited := by
  intro w hw
  have := List.countP_eq_zero.1 h w hw
  simpa using this

theorem pages_flatten {isNewLine : Bool} {pages : List (List Record)} {data : List Bytes}
    (hl : data.length = pages.length)
    (h : ∀ (j : Nat) page, pages[j]? = some page → data[j]? = some (pageText isNewLine page)) :
    data.flatten = pageText isNewLine pages.flatten := by
  have : data = pages.map (pageText isNewLine) := by
    apply List.ext_getElem?
    intro j
    rw [List.getElem?_map]
    cases hp : pages[j]? with
    | some page => rw [h j page hp]; rfl
    | none =>
      rw [List.getElem?_eq_none_iff] at hp
      rw [Option.map_none, List.getElem?_eq_none_iff]
      omega
  rw [this]
  unfold pageText
  rw [List.map_flatten, List.flatten_flatten]
  simp [List.map_map, Function.comp_def]

theorem CInv.step {f : File} {isNewLine : Bool} {pages : List (List Record)} {s t : CState}
    (hi : CInv f isNewLine pages s) (h : CStep f isNewLine s t) : CInv f isNewLine pages t := by
  cases h with
  | @spawn i page rest h =>
    have hp := hi.pending
    rw [h] at hp
    obtain ⟨rfl, hlt, hpg, hrest⟩ := pages_pending hp.symm
    refine ⟨hi.header, ?_, ?_, hi.len, ?_, ?_, hi.result⟩
    · simp only [List.length_append, List.length_singleton]; exact hrest
    · simp only [List.length_append, List.length_singleton]; exact hlt
    · intro j w hw
      simp only [List.getElem?_append] at hw
      split at hw
      · exact hi.workers j w hw
      · next hj =>
        have hj0 : j - s.workers.length = 0 := by
          rcases Nat.eq_zero_or_pos (j - s.workers.length) with h0 | h0
          · exact h0
          · rw [List.getElem?_eq_none (by simp; omega)] at hw; cases hw
        have hje : j = s.workers.length := by omega
        rw [hj0] at hw
        simp only [List.getElem?_cons_zero, Option.some.injEq] at hw
        subst hw
        subst hje
        refine ⟨rfl, page, hpg, fun _ => ?_, fun hb => absurd (.inl rfl) hb⟩
        simp [Worker.rest]
    · simp only [running, List.countP_append, List.countP_singleton]
      rw [hi.wg]
      simp [running]
  | @writeRecord j w r rest h hp ht =>
    obtain ⟨h1, page, h2, h3, h4⟩ := hi.workers j w h
    refine ⟨hi.header, ?_, ?_, hi.len, ?_, ?_, hi.result⟩
    · simpa only [List.length_set] using hi.pending
    · simpa only [List.length_set] using hi.started
    · intro k u hu
      rcases set_other h hu with ⟨rfl, rfl⟩ | ⟨hk, hu⟩
      · refine ⟨h1, page, h2, fun _ => ?_, fun hb => absurd (.inr rfl) hb⟩
        rw [← h3 (.inl hp)]
        simp [Worker.rest, hp, ht, pageText]
      · exact hi.workers k u hu
    · have := running_set (w' := { w with data := w.data ++ r.string, todo := rest, phase := .newline }) h (by rw [hp]; decide)
      simp only [reduceCtorEq, if_false] at this
      simp only [hi.wg]; omega
  | @writeNewline j w h hp =>
    obtain ⟨h1, page, h2, h3, h4⟩ := hi.workers j w h
    refine ⟨hi.header, ?_, ?_, hi.len, ?_, ?_, hi.result⟩
    · simpa only [List.length_set] using hi.pending
    · simpa only [List.length_set] using hi.started
    · intro k u hu
      rcases set_other h hu with ⟨rfl, rfl⟩ | ⟨hk, hu⟩
      · refine ⟨h1, page, h2, fun _ => ?_, fun hb => absurd (.inl rfl) hb⟩
        rw [← h3 (.inr hp)]
        simp [Worker.rest, hp]
      · exact hi.workers k u hu
    · have := running_set (w' := { w with data := w.data ++ newLine isNewLine, phase := .record }) h (by rw [hp]; decide)
      simp only [reduceCtorEq, if_false] at this
      simp only [hi.wg]; omega
  | @store j w h hp ht hidx =>
    obtain ⟨h1, page, h2, h3, h4⟩ := hi.workers j w h
    refine ⟨hi.header, ?_, ?_, ?_, ?_, ?_, hi.result⟩
    · simpa only [List.length_set] using hi.pending
    · simpa only [List.length_set] using hi.started
    · simpa only [List.length_set] using hi.len
    · intro k u hu
      rcases set_other h hu with ⟨rfl, rfl⟩ | ⟨hk, hu⟩
      · refine ⟨h1, page, h2, fun hb => ?_, fun _ => ?_⟩
        · rcases hb with hb | hb <;> simp at hb
        · simp only
          rw [h1] at hidx ⊢
          rw [List.getElem?_set_self hidx, ← h3 (.inl hp)]
          simp [Worker.rest, hp, ht, pageText]
      · obtain ⟨g1, p', g2, g3, g4⟩ := hi.workers k u hu
        refine ⟨g1, p', g2, g3, fun hb => ?_⟩
        simp only
        rw [h1, List.getElem?_set_ne (fun e => hk e.symm)]
        exact g4 hb
    · have := running_set (w' := { w with phase := .stored }) h (by rw [hp]; decide)
      simp only [reduceCtorEq, if_false] at this
      simp only [hi.wg]; omega
  | @done j w h hp =>
    obtain ⟨h1, page, h2, h3, h4⟩ := hi.workers j w h
    refine ⟨hi.header, ?_, ?_, hi.len, ?_, ?_, hi.result⟩
    · simpa only [List.length_set] using hi.pending
    · simpa only [List.length_set] using hi.started
    · intro k u hu
      rcases set_other h hu with ⟨rfl, rfl⟩ | ⟨hk, hu⟩
      · refine ⟨h1, page, h2, fun hb => ?_, fun _ => ?_⟩
        · rcases hb with hb | hb <;> simp at hb
        · exact h4 (by unfold Worker.Busy; simp [hp])
      · exact hi.workers k u hu
    · have := running_set (w' := { w with phase := .exited }) h (by rw [hp]; decide)
      simp only [if_true] at this
      simp only [hi.wg]; omega
  | finish h hw hr =>
    refine ⟨hi.header, hi.pending, hi.started, hi.len, hi.workers, hi.wg, ?_⟩
    intro t ht
    simp only [Option.some.injEq] at ht
    subst ht
    have h0 : running s.workers = 0 := by have := hi.wg; omega
    have hall := all_exited h0
    have hlen : s.workers.length = pages.length := by
      have h1 := hi.pending
      rw [h] at h1
      have h2 := congrArg List.length h1
      simp only [List.length_nil, List.length_drop, List.length_map, List.length_zipIdx] at h2
      have := hi.started
      omega
    rw [hi.header, pages_flatten hi.len]
    intro j page hp
    obtain ⟨hlt, -⟩ := List.getElem?_eq_some_iff.1 hp
    have hw : s.workers[j]? = some (s.workers[j]'(by omega)) := List.getElem?_eq_getElem (by omega)
    obtain ⟨-, p', g2, -, g4⟩ := hi.workers j _ hw
    rw [hp] at g2
    cases g2
    apply g4
    unfold Worker.Busy
    rw [hall _ (List.getElem_mem _)]
    simp

theorem CInv.start {f : File} {isNewLine : Bool} {size : Nat} {s : CState} (h : cstart f isNewLine size = some s) :
    ∃ pages, pagesFrom f.bases size f.bases.length 0 = some pages ∧ CInv f isNewLine pages s := by
  unfold cstart at h
  cases hp : pagesFrom f.bases size f.bases.length 0 with
  | none => rw [hp] at h; simp at h
  | some pages =>
    rw [hp] at h
    simp only [Option.map_some, Option.some.injEq] at h
    subst h
    refine ⟨pages, rfl, rfl, rfl, by simp, by simp, ?_, rfl, ?_⟩
    · intro j w hw; simp at hw
    · intro t ht; simp at ht

theorem CInv.run {f : File} {isNewLine : Bool} {pages : List (List Record)} {n : Nat} {s t : CState}
    (hi : CInv f isNewLine pages s) (h : CRun f isNewLine n s t) : CInv f isNewLine pages t := by
  induction h with
  | refl => exact hi
  | step _ h' ih => exact (ih hi).step h'

/-! ### Number of steps -/

/-- Steps that a worker still takes. -/
def Worker.cost (w : Worker) : Nat :=
  match w.phase with
  | .record => 2 * w.todo.length + 2
  | .newline => 2 * w.todo.length + 3
  | .stored => 1
  | .exited => 0

/-- Steps to come. -/
def CState.cost (s : CState) : Nat :=
  (s.pending.map fun p => 2 * p.2.length + 3).sum + (s.workers.map Worker.cost).sum +
    if s.result = none then 1 else 0

theorem sum_set {ws : List Worker} {j : Nat} {w w' : Worker} (h : ws[j]? = some w) :
    ((ws.set j w').map Worker.cost).sum + w.cost = (ws.map Worker.cost).sum + w'.cost := by
  induction ws generalizing j with
  | nil => simp at h
  | cons a ws ih =>
    cases j with
    | zero =>
      simp only [List.getElem?_cons_zero, Option.some.injEq] at h
      subst h
      simp only [List.set_cons_zero, List.map_cons, List.sum_cons]; omega
    | succ j =>
      have := ih (j := j) (by simpa using h)
      simp only [List.set_cons_succ, List.map_cons, List.sum_cons]; omega

theorem CStep.cost {f : File} {isNewLine : Bool} {s t : CState} (h : CStep f isNewLine s t) : t.cost + 1 = s.cost := by
  cases h with
  | spawn h => simp only [CState.cost, h, List.map_append, List.map_cons, List.sum_append, List.sum_cons, Worker.cost,
      List.map_nil, List.sum_nil]; omega
  | @writeRecord j w r rest h hp ht =>
    have := sum_set (w' := { w with data := w.data ++ r.string, todo := rest, phase := .newline }) h
    simp only [Worker.cost, hp, ht, List.length_cons] at this
    simp only [CState.cost]
    omega
  | @writeNewline j w h hp =>
    have := sum_set (w' := { w with data := w.data ++ newLine isNewLine, phase := .record }) h
    simp only [Worker.cost, hp] at this
    simp only [CState.cost]
    omega
  | @store j w h hp ht hi =>
    have := sum_set (w' := { w with phase := .stored }) h
    have hl : w.todo.length = 0 := by rw [ht]; rfl
    simp only [Worker.cost, hp, hl] at this
    simp only [CState.cost]
    omega
  | @done j w h hp =>
    have := sum_set (w' := { w with phase := .exited }) h
    simp only [Worker.cost, hp] at this
    simp only [CState.cost]
    omega
  | finish h hw hr => simp [CState.cost, hr]

theorem CRun.cost {f : File} {isNewLine : Bool} {n : Nat} {s t : CState} (h : CRun f isNewLine n s t) :
    t.cost + n = s.cost := by
  induction h with
  | refl => rfl
  | step _ h' ih => have := h'.cost; omega

theorem CInv.progress {f : File} {isNewLine : Bool} {pages : List (List Record)} {s : CState}
    (hi : CInv f isNewLine pages s) (hr : s.result = none) : ∃ t, CStep f isNewLine s t := by
  cases hp : s.pending with
  | cons p rest => obtain ⟨i, page⟩ := p; exact ⟨_, .spawn hp⟩
  | nil =>
    by_cases h0 : running s.workers = 0
    · exact ⟨_, .finish hp (by rw [hi.wg, h0]; rfl) hr⟩
    · obtain ⟨w, hw, he⟩ := List.countP_pos_iff.1 (Nat.pos_of_ne_zero h0)
      obtain ⟨j, hj⟩ := List.mem_iff_getElem?.1 hw
      cases hph : w.phase with
      | record =>
        cases ht : w.todo with
        | cons r rest => exact ⟨_, .writeRecord hj hph ht⟩
        | nil =>
          obtain ⟨h1, page, h2, -⟩ := hi.workers j w hj
          obtain ⟨hlt, -⟩ := List.getElem?_eq_some_iff.1 h2
          exact ⟨_, .store hj hph ht (by rw [h1, hi.len]; exact hlt)⟩
      | newline => exact ⟨_, .writeNewline hj hph⟩
      | stored => exact ⟨_, .done hj hph⟩
      | exited => simp [hph] at he

end Metro2
