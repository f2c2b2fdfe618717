import Mathlib.Data.Fintype.Pigeonhole
import Verif.Spec.Cycle
import Verif.Props.Parse

/-! C23, exactly: when `File.Parse` does not end. -/

namespace Metro2

open Samples Spec

variable {enc : Enc} {isVar : Bool} {rec : Bytes}

theorem Leads.trans {step : Int → Int → Prop} {a b c : Int} (h : Leads step a b) (h' : Leads step b c) : Leads step a c := by
  induction h with
  | one h => exact .more h h'
  | more h _ ih => exact .more h (ih h')

/-- One iteration of the loop at a position where a record can be read. -/
theorem parseBases_next {a b : Int} (h : NextAt enc isVar rec a b) (fuel : Nat) (acc : List Record) :
    ∃ r, parseBases enc isVar rec (fuel + 1) a acc = parseBases enc isVar rec fuel b (acc ++ [r]) := by
  obtain ⟨h1, h2, r, n, h3, rfl⟩ := h
  refine ⟨r, ?_⟩
  rw [parseBases_succ, if_neg (by omega), h3]

theorem nextAt_unique {a b c : Int} (h : NextAt enc isVar rec a b) (h' : NextAt enc isVar rec a c) : b = c := by
  obtain ⟨-, -, r, n, h3, rfl⟩ := h
  obtain ⟨-, -, r', n', h3', rfl⟩ := h'
  rw [h3] at h3'
  cases h3'
  rfl

/-- If the loop has not ended, it has made a step. -/
theorem parseBases_none {a : Int} {fuel : Nat} {acc : List Record} (h : parseBases enc isVar rec (fuel + 1) a acc = none) :
    ∃ b acc', NextAt enc isVar rec a b ∧ parseBases enc isVar rec fuel b acc' = none := by
  rw [parseBases_succ] at h
  split at h
  · cases h
  · next hc =>
    generalize hq : (newBase enc).parse (rec.drop a.toNat) isVar = q at h
    obtain ⟨b, x⟩ := q
    cases x with
    | error e => cases e <;> cases h
    | ok v => exact ⟨a + v, _, ⟨by omega, by omega, b, v, hq, rfl⟩, h⟩

/-- A circle is never left. -/
theorem circle_none {a : Int} (h : RunsInCircles (NextAt enc isVar rec) a) (fuel : Nat) :
    ∀ acc, parseBases enc isVar rec fuel a acc = none := by
  induction fuel generalizing a with
  | zero => intro acc; rfl
  | succ n ih =>
    intro acc
    obtain ⟨b, hab, hbb⟩ := h
    have go : Leads (NextAt enc isVar rec) a b := by
      rcases hab with rfl | hab
      · exact hbb
      · exact hab
    cases go with
    | one hs =>
      obtain ⟨r, hr⟩ := parseBases_next hs n acc
      rw [hr]
      exact ih ⟨b, .inl rfl, hbb⟩ _
    | more hs hl =>
      obtain ⟨r, hr⟩ := parseBases_next hs n acc
      rw [hr]
      exact ih ⟨b, .inr hl, hbb⟩ _

/-- The positions of the first iterations of a loop that has not ended. -/
theorem path_of_none {fuel : Nat} : ∀ {a : Int} {acc : List Record}, parseBases enc isVar rec fuel a acc = none →
    ∃ p : Nat → Int, p 0 = a ∧ ∀ i < fuel, NextAt enc isVar rec (p i) (p (i + 1)) := by
  induction fuel with
  | zero => intro a acc _; exact ⟨fun _ => a, rfl, fun i hi => absurd hi (Nat.not_lt_zero _)⟩
  | succ n ih =>
    intro a acc h
    obtain ⟨b, acc', hs, hn⟩ := parseBases_none h
    obtain ⟨p, hp0, hp⟩ := ih hn
    refine ⟨fun i => match i with
      | 0 => a
      | i + 1 => p i, rfl, fun i hi => ?_⟩
    cases i with
    | zero => simp only [hp0]; exact hs
    | succ i => exact hp i (by omega)

theorem path_leads {n : Nat} {p : Nat → Int} (h : ∀ i < n, NextAt enc isVar rec (p i) (p (i + 1))) (i k : Nat) (hk : i + k < n) :
    Leads (NextAt enc isVar rec) (p i) (p (i + k + 1)) := by
  induction k generalizing i with
  | zero => exact .one (h i (by omega))
  | succ k ih =>
    have := ih (i + 1) (by omega)
    rw [show i + 1 + k + 1 = i + (k + 1) + 1 by omega] at this
    exact .more (h i (by omega)) this

/-- A loop that has not ended after as many iterations as there are bytes runs in circles. -/
theorem circle_of_none {a : Int} {acc : List Record} (h : parseBases enc isVar rec (rec.length + 1) a acc = none) :
    RunsInCircles (NextAt enc isVar rec) a := by
  obtain ⟨p, hp0, hp⟩ := path_of_none h
  have hin : ∀ i < rec.length + 1, 0 < p i ∧ p i < rec.length := fun i hi => ⟨(hp i hi).1, (hp i hi).2.1⟩
  have : ∃ x y : Fin (rec.length + 1), x ≠ y ∧ (p x).toNat = (p y).toNat := by
    obtain ⟨x, y, hne, he⟩ := Fintype.exists_ne_map_eq_of_card_lt
      (fun x : Fin (rec.length + 1) => (⟨(p x).toNat, by have := hin x x.2; omega⟩ : Fin rec.length)) (by simp)
    exact ⟨x, y, hne, by simpa using he⟩
  obtain ⟨x, y, hne, he⟩ := this
  have key : ∀ i j : Nat, i < j → j < rec.length + 1 → (p i).toNat = (p j).toNat → RunsInCircles (NextAt enc isVar rec) a := by
    intro i j hij hj he
    have h1 := hin i (by omega)
    have h2 := hin j hj
    have hpe : p i = p j := by omega
    refine ⟨p i, ?_, ?_⟩
    · cases i with
      | zero => exact .inl hp0
      | succ i =>
        right
        have := path_leads hp 0 i (by omega)
        rwa [hp0, Nat.zero_add] at this
    · have := path_leads hp i (j - i - 1) (by omega)
      rw [show i + (j - i - 1) + 1 = j by omega, ← hpe] at this
      exact this
  rcases Nat.lt_or_gt_of_ne (fun h => hne (Fin.ext h)) with hlt | hlt
  · exact key x y hlt y.2 he
  · exact key y x hlt x.2 he.symm

/-- C23, exactly: `File.Parse` does not end if and only if the header can be read and from behind it data records can be read such that the position comes back to where it was. -/
theorem C23_iff (f : File) (buf : Bytes) (isVar : Bool) :
    (∀ fuel, f.parse fuel buf isVar = none) ↔
      ∃ h n, f.header.parse (Spec.withoutNewlines buf) isVar = (h, .ok n) ∧
        RunsInCircles (NextAt f.format isVar (Spec.withoutNewlines buf)) n := by
  have hstrip : (deleteFunc isNewline buf).1 = Spec.withoutNewlines buf := by rw [deleteFunc_newline, stripNewlines_eq]
  constructor
  · intro h
    have h := h ((Spec.withoutNewlines buf).length + 1)
    unfold File.parse at h
    rw [hstrip] at h
    simp only at h
    generalize f.header.parse (Spec.withoutNewlines buf) isVar = q at h ⊢
    obtain ⟨h1, x⟩ := q
    cases x with
    | error err => cases h
    | ok n =>
      simp only at h
      refine ⟨h1, n, rfl, ?_⟩
      cases hb : parseBases f.format isVar (Spec.withoutNewlines buf) ((Spec.withoutNewlines buf).length + 1) n [] with
      | none => exact circle_of_none hb
      | some r =>
        rw [hb] at h
        obtain ⟨bs, off, e⟩ := r
        exfalso
        cases e with
        | some e => cases h
        | none =>
          simp only at h
          split at h
          · cases h
          · split at h
            · cases h
            · split at h
              · cases h
              · split at h <;> cases h
  · rintro ⟨h1, n, hp, hc⟩ fuel
    unfold File.parse
    rw [hstrip]
    simp only [hp, circle_none hc fuel []]

/-- C23. If it ends at all, it ends after as many iterations as the input has bytes (and one more). -/
theorem C23_bound (f : File) (buf : Bytes) (isVar : Bool) (fuel : Nat) (r : File × Option Err) (h : f.parse fuel buf isVar = some r) :
    f.parse (buf.length + 1) buf isVar = some r := by
  cases hq : f.parse (buf.length + 1) buf isVar with
  | some r' =>
    rcases Nat.le_total fuel (buf.length + 1) with hle | hle
    · rw [← hq]; exact C23_fuel f _ _ buf isVar r h hle
    · have := C23_fuel f _ _ buf isVar r' hq hle
      rw [h] at this
      exact this.symm
  | none =>
    exfalso
    have hlen : (Spec.withoutNewlines buf).length ≤ buf.length := List.length_filter_le _ _
    have hn : f.parse ((Spec.withoutNewlines buf).length + 1) buf isVar = none := by
      cases hq' : f.parse ((Spec.withoutNewlines buf).length + 1) buf isVar with
      | none => rfl
      | some r' =>
        have := C23_fuel f _ _ buf isVar r' hq' (show _ ≤ buf.length + 1 by omega)
        rw [hq] at this
        cases this
    have hstrip : (deleteFunc isNewline buf).1 = Spec.withoutNewlines buf := by rw [deleteFunc_newline, stripNewlines_eq]
    have hc : ∃ h n, f.header.parse (Spec.withoutNewlines buf) isVar = (h, .ok n) ∧
        RunsInCircles (NextAt f.format isVar (Spec.withoutNewlines buf)) n := by
      have h := hn
      unfold File.parse at h
      rw [hstrip] at h
      simp only at h
      generalize f.header.parse (Spec.withoutNewlines buf) isVar = q at h ⊢
      obtain ⟨h1, x⟩ := q
      cases x with
      | error err => cases h
      | ok n =>
        simp only at h
        refine ⟨h1, n, rfl, ?_⟩
        cases hb : parseBases f.format isVar (Spec.withoutNewlines buf) ((Spec.withoutNewlines buf).length + 1) n [] with
        | none => exact circle_of_none hb
        | some r =>
          rw [hb] at h
          obtain ⟨bs, off, e⟩ := r
          exfalso
          cases e with
          | some e => cases h
          | none =>
            simp only at h
            split at h
            · cases h
            · split at h
              · cases h
              · split at h
                · cases h
                · split at h <;> cases h
    have := (C23_iff f buf isVar).2 hc fuel
    rw [h] at this
    cases this

/-- Case of `C23_iff`. Non-vacuity: the sample of `C23_violated` runs in circles. -/
example : RunsInCircles (NextAt .character true endless) 930 := by
  refine ⟨930, .inl rfl, .more (b := 430) ⟨by decide, by rw [endless_length]; decide, _, _, endless_b, by decide⟩
    (.one ⟨by decide, by rw [endless_length]; decide, _, _, endless_a, by decide⟩)⟩

end Metro2
