import Verif.Props.Filled
import Verif.Props.Places
import Verif.Spec.Reserved

/-! Places of the layout tables for which there is no field. -/

namespace Metro2

open Spec (SameOutside)

theorem slot_outside {start n : Nat} {s t : Bytes} (h : SameOutside start n s t) {a m : Nat} (hd : a + m ≤ start ∨ start + n ≤ a) :
    (s.drop a).take m = (t.drop a).take m := by
  apply List.ext_getElem?
  intro i
  rw [List.getElem?_take, List.getElem?_take]
  split
  · rw [List.getElem?_drop, List.getElem?_drop]
    exact h.2 _ (by omega)
  · rfl

theorem drop_outside {start n : Nat} {s t : Bytes} (h : SameOutside start n s t) {a : Nat} (hd : start + n ≤ a) : s.drop a = t.drop a := by
  apply List.ext_getElem?
  intro i
  rw [List.getElem?_drop, List.getElem?_drop]
  exact h.2 _ (by omega)

/-- The fields of a struct stand outside of a place. -/
def Aside (fmt : Format) (names : List F) (p : Nat × Nat) : Prop :=
  ∀ f ∈ names, f ≠ .BlockDescriptorWord → ∀ e, fmt.lookup f = some e → e.start + e.len ≤ p.1 ∨ p.1 + p.2 ≤ e.start

def asideB (fmt : Format) (names : List F) (p : Nat × Nat) : Bool :=
  names.all fun f => f == .BlockDescriptorWord || match fmt.lookup f with
    | none => true
    | some e => decide (e.start + e.len ≤ p.1) || decide (p.1 + p.2 ≤ e.start)

theorem aside_of_B {fmt : Format} {names : List F} {p : Nat × Nat} (h : asideB fmt names p = true) : Aside fmt names p := by
  intro f hf hb e he
  have := List.all_eq_true.1 h f hf
  rw [he] at this
  simp only [Bool.or_eq_true, beq_iff_eq, decide_eq_true_eq] at this
  rcases this with h | h
  · exact absurd h hb
  · exact h

theorem loop_outside {fmt : Format} {pol : BdwPolicy} {bounds : Bool} {rec rec' : Bytes} {off : Nat} {p : Nat × Nat}
    (h : SameOutside (off + p.1) p.2 rec rec') : ∀ fs : Fields, (∀ q ∈ fs, q.1 ≠ .BlockDescriptorWord) → Aside fmt (fs.map Prod.fst) p →
    parseLoop fmt pol bounds rec off fs = parseLoop fmt pol bounds rec' off fs := by
  intro fs
  induction fs with
  | nil => intro _ _; rfl
  | cons q fs ih =>
    intro hb ha
    obtain ⟨f, v⟩ := q
    have ih := ih (fun q hq => hb q (List.mem_cons_of_mem _ hq)) (fun f hf => ha f (List.mem_cons_of_mem _ hf))
    rw [parseLoop_cons, parseLoop_cons]
    cases he : fmt.lookup f with
    | none => rfl
    | some e =>
      have hs := ha f List.mem_cons_self (hb _ List.mem_cons_self) e he
      have : (rec.drop (e.start + off)).take e.len = (rec'.drop (e.start + off)).take e.len := slot_outside h (by omega)
      simp only
      rw [h.1, this, ih]
      have hf : f ≠ .BlockDescriptorWord := hb _ List.mem_cons_self
      split
      · rfl
      · split
        · rfl
        · split
          · rfl
          · split
            · exact absurd rfl hf
            · exact absurd rfl hf
            · exact absurd rfl hf
            · rfl

/-- The same with a block descriptor first. -/
theorem loop_outside_bdw {enc : Enc} {fmt : Format} {decl : List (F × FieldDecl)} (hB : Blocked enc fmt decl) {pol : BdwPolicy} {bounds : Bool}
    {rec rec' : Bytes} {p : Nat × Nat} {shift : Nat} (h : SameOutside (shift + p.1) p.2 rec rec') (hp : 4 ≤ p.1) {fs : Fields} (ht : fs.Typed decl)
    (ha : Aside fmt (fs.map Prod.fst) p) (hs : pol ≠ .fail → shift = if pol = .accept then 4 else 0) :
    parseLoop fmt pol bounds rec 0 fs = parseLoop fmt pol bounds rec' 0 fs := by
  obtain ⟨b, r, fr, rfl, -, -, hfr⟩ := hB.shape ht
  have e1 : (bdwField enc).start = 0 := by cases enc <;> rfl
  have e2 : (bdwField enc).len = 4 := by cases enc <;> rfl
  rw [parseLoop_cons (rec := rec), parseLoop_cons (rec := rec')]
  simp only [hB.bdw]
  have : (rec.drop ((bdwField enc).start + 0)).take (bdwField enc).len = (rec'.drop ((bdwField enc).start + 0)).take (bdwField enc).len :=
    slot_outside h (by omega)
  rw [h.1, this]
  have hrest : ∀ q ∈ ((.RecordDescriptorWord, .int r) :: fr : Fields), q.1 ≠ .BlockDescriptorWord := by
    intro q hq
    rcases List.mem_cons.1 hq with rfl | hq
    · exact fun h => nomatch h
    · exact (hfr q hq).1
  have ha' : Aside fmt (((.RecordDescriptorWord, .int r) :: fr : Fields).map Prod.fst) p := fun f hf => ha f (List.mem_cons_of_mem _ hf)
  cases pol with
  | fail => rfl
  | skip =>
    have := hs (by simp)
    subst this
    rw [loop_outside (p := p) (by simpa using h) _ hrest ha']
  | accept =>
    have := hs (by simp)
    subst this
    rw [loop_outside (off := 0 + 4) (p := p) (rec' := rec') (by simpa using h) _ hrest ha']

end Metro2
