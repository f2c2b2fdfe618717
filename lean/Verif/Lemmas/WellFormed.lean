import Verif.Props.Records
import Verif.Spec.WellFormed

/-! The round trip of data records for both formats and blockings in one statement. -/

namespace Metro2

theorem padSize_le {v : Int} {n : Nat} (h : v ≤ n ∨ 65535 < v) : Spec.padSize v ≤ n := by
  unfold Spec.padSize
  split <;> omega

theorem base_reread {enc : Enc} {isVar : Bool} {fs : Fields} {g : Segs} (h : Spec.GoodBase enc isVar fs g)
    {rest : Bytes} (hn : Spec.NextOk enc fs g rest) :
    (newBase enc).parse ((Record.base enc fs g).string ++ rest) isVar =
      (.base enc fs g, .ok (Spec.sizeWord isVar fs)) := by
  obtain ⟨ht, hf, hs, hp, hb, hc⟩ := h
  cases enc with
  | character =>
    cases isVar with
    | false =>
      simp only [Bool.false_eq_true, if_false] at hb
      exact C16_base_fixed fs g ht hf hs hb hc rest fun he => hn (padSize_le (.inl he.ge))
    | true =>
      simp only [if_true] at hb
      exact C16_base_variable fs g ht hf hs hb.1 hb.2 hc rest fun he => hn (padSize_le (.inl he))
  | packed =>
    have := hp rfl
    subst this
    simp only [if_true] at hb
    exact C17_base_packed fs g ht hf hs hb.1 hb.2 hc rest fun he => hn (padSize_le he)

end Metro2
