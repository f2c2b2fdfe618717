import Verif.Lemmas.Store
import Verif.Lemmas.Check
import Verif.Props.Samples

/-! Properties C25 and C26: appended segments. -/

namespace Metro2

open Samples

/-! ### C25 -/

/-- C25. After any sequence of `AddApplicableSegment` calls on a data record, `GetSegments` returns for J1 and J2 all
accepted segments after those that were there, for the other types the last accepted one (or what was
there if none was accepted); nothing else in the record changes. -/
theorem C25_store (enc : Enc) (fs : Fields) (g : Segs) (ss : List Seg) :
    ∃ g', ss.foldl (fun r s => (Record.addSegment r s).1) (.base enc fs g) = .base enc fs g' ∧
    ∀ k, (Record.base enc fs g').getSegments (Spec.segmentName k) =
      if Spec.Repeatable k then (Record.base enc fs g).getSegments (Spec.segmentName k) ++ Spec.accepted k ss
      else match (Spec.accepted k ss).getLast? with
        | some s => [s]
        | none => (Record.base enc fs g).getSegments (Spec.segmentName k) := by
  refine ⟨_, addSegment_foldl ss enc fs g, fun k => ?_⟩
  simp only [Record.getSegments]
  rw [segmentName_eq, Segs.get_foldl_store, List.filter_filter]
  have : Spec.accepted k ss = ss.filter (fun s => decide (s.kind = k) && decide (s.validate = none)) := by
    unfold Spec.accepted; simp only [Bool.decide_and]
  rw [this]
  generalize ss.filter (fun s => decide (s.kind = k) && decide (s.validate = none)) = new
  unfold afterStores
  by_cases hk : Spec.Repeatable k
  · rw [if_pos hk, if_pos hk]
  · rw [if_neg hk, if_neg hk]
    cases hl : new.getLast? with
    | none => rw [if_pos (List.getLast?_eq_none_iff.1 hl)]
    | some s => rw [if_neg (by rintro rfl; simp at hl)]; rfl

/-- C25. Whether a call is accepted is decided by the segment's own validation; a rejected call changes
nothing. -/
theorem C25_rejected (enc : Enc) (fs : Fields) (g : Segs) (s : Seg) :
    ((Record.base enc fs g).addSegment s).2 = s.validate ∧
    (s.validate ≠ none → ((Record.base enc fs g).addSegment s).1 = .base enc fs g) := by
  simp only [Record.addSegment, Segs.add]
  cases hv : s.validate with
  | none => simp
  | some e => simp

/-- C25. Headers and trailers refuse every segment and stay as they are. -/
theorem C25_refused (r : Record) (h : ∀ enc fs g, r ≠ .base enc fs g) (s : Seg) (name : Bytes) :
    (∃ e, r.addSegment s = (r, some e)) ∧ r.getSegments name = [] := by
  cases r with
  | base enc fs g => exact absurd rfl (h enc fs g)
  | header enc fs => exact ⟨⟨_, rfl⟩, rfl⟩
  | trailer enc fs => exact ⟨⟨_, rfl⟩, rfl⟩

/-- C25. Unknown names yield nothing. -/
theorem C25_unknown (r : Record) (name : Bytes) (h : ∀ k, name ≠ Spec.segmentName k) : r.getSegments name = [] := by
  cases r with
  | base enc fs g => exact g.get_unknown name h
  | header enc fs => rfl
  | trailer enc fs => rfl

/-- Cases of `C25_store` and `C25_rejected`. Non-vacuity: the names are distinct, valid and invalid segments exist, and so do unknown names. -/
example : (∀ k k', Spec.segmentName k = Spec.segmentName k' → k = k') ∧
    (∀ k, b! "J1" ≠ Spec.segmentName k) ∧
    Spec.accepted .j1 [j1, k1, Seg.new .j1, j1', k2] = [j1, j1'] ∧ Spec.accepted .k1 [k1, j2, k1] = [k1, k1] ∧
    (Seg.new .j1).validate ≠ none := by
  refine ⟨?_, ?_, by decide +kernel, by decide +kernel, by decide +kernel⟩
  · intro k k'; cases k <;> cases k' <;> decide +kernel
  · intro k; cases k <;> decide +kernel

/-! ### C26 -/

/-- C26, the part that holds: when a data record is accepted, every J1 and J2 segment of the input is present
afterwards, in order, and of every other type the last one. The full property, for all types, fails, see
`C26_violated`. -/
theorem C26_segments_kept_partial (enc : Enc) (rec : Bytes) (isVar : Bool) (fs : Fields) (g : Segs) (n : Int)
    (h : (newBase enc).parse rec isVar = (.base enc fs g, .ok n)) :
    ∃ pieces, Spec.Segmented (rec.drop (Spec.segmentsStart enc fs)) pieces ∧
      (∀ p ∈ pieces, ∃ s, (Seg.new p.1).parse p.2 isVar = (s, .ok (Spec.segmentLength p.1)) ∧ s.validate = none) ∧
      ∀ k, (Record.base enc fs g).getSegments (Spec.segmentName k) =
        if Spec.Repeatable k then Spec.piecesOf k isVar pieces
        else (Spec.piecesOf k isVar pieces).getLast?.toList := by
  obtain ⟨m, hm⟩ := parseBase_pieces h
  obtain ⟨l, h1, h2, h3⟩ := readSegs_pieces _ _ _ _ _ _ hm
  refine ⟨l, h1, fun p hp => ?_, fun k => ?_⟩
  · obtain ⟨s, hs, -, hv⟩ := h3 p hp
    exact ⟨s, by rw [hs, segmentLength_eq], hv⟩
  · rw [Record.getSegments, segmentName_eq, h2, Segs.get_foldl_store, pieces_filter l (fun p hp => by
      obtain ⟨s, hs, hk, -⟩ := h3 p hp; rw [hs]; exact hk)]
    have : (Segs.get {} k.name) = [] := by cases k <;> rfl
    rw [this]
    unfold afterStores
    split
    · rfl
    · split
      · next hn => rw [hn]; rfl
      · rfl

/-- Two different K1 segments. -/
def k1' : Seg := ⟨.k1, (k1.fields).set .OriginalCreditorName (.str (b! "OTHER CREDITOR"))⟩

/-- A record with segments in unusual order and a repeated K1. -/
def mixedRecord : Bytes :=
  fieldsString baseSegmentCharacterFormat (base 1000 996) ++
    (k1.string ++ j1'.string ++ k1'.string ++ j1.string ++ List.replicate 302 32)

/-- Non-vacuity: this record is accepted; both J1 segments are there, in the order of the input. -/
example : (newBase .character).parse mixedRecord true =
    (.base .character (base 1000 996) { j1 := [j1', j1], k1 := some k1' }, .ok 1000) := by decide +kernel

/-- C26 is violated by repeated K1 segments: the first one is lost. -/
theorem C26_violated : ∃ rec fs g n a b, k1 ≠ k1' ∧ rec = a ++ k1.string ++ j1'.string ++ k1'.string ++ b ∧
    (newBase .character).parse rec true = (.base .character fs g, .ok n) ∧
    (Record.base .character fs g).getSegments (b! "k1") = [k1'] :=
  ⟨mixedRecord, base 1000 996, { j1 := [j1', j1], k1 := some k1' }, 1000,
    fieldsString baseSegmentCharacterFormat (base 1000 996), j1.string ++ List.replicate 302 32,
    by decide +kernel, by simp only [mixedRecord, List.append_assoc], by decide +kernel, by decide +kernel⟩

/-- Case of `C25_refused`. -/
example : ((Record.trailer .packed (trailer 366)).addSegment k1).2 ≠ none ∧ ((Record.header .character (header 0 426)).addSegment j1).2 ≠ none := by
  decide +kernel

end Metro2
