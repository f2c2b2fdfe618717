import Verif.Props.Filled
import Verif.Spec.Standard

/-! C114: the layouts are those of the standard. -/

namespace Metro2

open Samples Spec

/-- A decidable form of `Follows`. -/
def followsB (packed : Bool) (fmt : Format) : List (F × Item) → Nat → Bool
  | [], _ => true
  | (f, it) :: rest, n => (fmt.any fun row => row.1 = f ∧ row.2.start = n ∧ row.2.len = it.width packed ∧ (it.type packed = none ∨ it.type packed = some row.2.typ)) &&
    followsB packed fmt rest (n + it.width packed)

theorem follows_of_B {packed : Bool} {fmt : Format} : ∀ {items : List (F × Item)} {n : Nat}, followsB packed fmt items n = true →
    ∀ i (h : i < items.length), ∃ e, (items[i].1, e) ∈ fmt ∧
      e.start = n + ((items.take i).map fun it => it.2.width packed).sum ∧ e.len = items[i].2.width packed ∧
      ∀ ty, items[i].2.type packed = some ty → e.typ = ty
  | [], _, _, i, h => absurd h (Nat.not_lt_zero _)
  | (f, it) :: rest, n, hb, 0, _ => by
    rw [followsB, Bool.and_eq_true, List.any_eq_true] at hb
    obtain ⟨⟨row, hrow, hd⟩, _⟩ := hb
    simp only [decide_eq_true_eq] at hd
    obtain ⟨h1, h2, h3, h4⟩ := hd
    refine ⟨row.2, ?_, h2, h3, ?_⟩
    · rw [← h1] ; exact hrow
    · intro ty hty
      have hty' : it.type packed = some ty := hty
      rcases h4 with h4 | h4
      · rw [h4] at hty'; cases hty'
      · rw [h4] at hty'; exact Option.some.inj hty'
  | (f, it) :: rest, n, hb, i + 1, h => by
    rw [followsB, Bool.and_eq_true] at hb
    obtain ⟨e, h1, h2, h3, h4⟩ := follows_of_B hb.2 i (Nat.lt_of_succ_lt_succ h)
    exact ⟨e, h1, by rw [h2]; simp [Nat.add_assoc], h3, h4⟩

theorem follows_of {packed : Bool} {fmt : Format} {items : List (F × Item)} (h : followsB packed fmt items 0 = true)
    (h' : ∀ row ∈ fmt, row.1 = .BlockDescriptorWord ∨ row.1 ∈ items.map (·.1)) : Follows packed fmt items :=
  ⟨fun i hi => by simpa [beginOf] using follows_of_B h i hi, h'⟩

/-- C114: the records. Both formats follow from one list of the fields. -/
theorem C114_records : Follows false headerRecordCharacterFormat headerItems ∧ Follows true headerRecordPackedFormat headerItems ∧
    Follows false baseSegmentCharacterFormat baseItems ∧ Follows true baseSegmentPackedFormat baseItems ∧
    Follows false trailerRecordCharacterFormat trailerItems ∧ Follows true trailerRecordPackedFormat trailerItems :=
  ⟨follows_of (by decide +kernel) (by decide +kernel), follows_of (by decide +kernel) (by decide +kernel),
    follows_of (by decide +kernel) (by decide +kernel), follows_of (by decide +kernel) (by decide +kernel),
    follows_of (by decide +kernel) (by decide +kernel), follows_of (by decide +kernel) (by decide +kernel)⟩

/-- C114: the appended segments. -/
theorem C114_segments (k : SegKind) : Follows false k.format (segmentItems k) := by
  cases k <;> exact follows_of (by decide +kernel) (by decide +kernel)

theorem record_follows (r : Record) : Follows (packedOf r) (tableOf r) (itemsOf r) := by
  obtain ⟨h1, h2, h3, h4, h5, h6⟩ := C114_records
  rcases r with ⟨enc, fs⟩ | ⟨enc, fs, g⟩ | ⟨enc, fs⟩ <;> cases enc <;> assumption

/-- C114: in a written record each field stands where the lengths of the fields before it end, filled as the standards say. -/
theorem C114_record_written (r : Record) (hr : WellTyped r) (hs : SizedAll (tableOf r) (valuesOf r)) (i : Nat) (h : i < (itemsOf r).length)
    (v : Val) (hv : ((itemsOf r)[i].1, v) ∈ valuesOf r) :
    ∃ e, e.len = (itemsOf r)[i].2.width (packedOf r) ∧ (∀ ty, (itemsOf r)[i].2.type (packedOf r) = some ty → e.typ = ty) ∧
      Filled e v ((r.string.drop (writeShift r + beginOf (packedOf r) (itemsOf r) i)).take ((itemsOf r)[i].2.width (packedOf r))) := by
  obtain ⟨e, h1, h2, h3, h4⟩ := (record_follows r).1 i h
  refine ⟨e, h3, h4, ?_⟩
  have hb : (itemsOf r)[i].1 ≠ .BlockDescriptorWord := by
    have : ∀ (l : List (F × Item)), (l.all fun it => it.1 ≠ .BlockDescriptorWord) = true → ∀ i (h : i < l.length), l[i].1 ≠ .BlockDescriptorWord :=
      fun l hl i h => by simpa using List.all_eq_true.1 hl _ (List.getElem_mem h)
    cases r
    · exact this headerItems (by decide +kernel) i h
    · exact this baseItems (by decide +kernel) i h
    · exact this trailerItems (by decide +kernel) i h
  have := C87_record r hr hs _ v e hb h1 hv
  rw [placeOf, h2, h3] at this
  exact this

/-- C114: the same for a written segment. -/
theorem C114_segment_written (k : SegKind) (s : Seg) (hs : SegSized k s) (i : Nat) (h : i < (segmentItems k).length)
    (v : Val) (hv : ((segmentItems k)[i].1, v) ∈ s.fields) :
    ∃ e, e.len = (segmentItems k)[i].2.width false ∧ (∀ ty, (segmentItems k)[i].2.type false = some ty → e.typ = ty) ∧
      Filled e v ((s.string.drop (beginOf false (segmentItems k) i)).take ((segmentItems k)[i].2.width false)) := by
  obtain ⟨e, h1, h2, h3, h4⟩ := (C114_segments k).1 i h
  refine ⟨e, h3, h4, ?_⟩
  have := C87_segment k s hs _ v e h1 hv
  rw [placeOf, h2, h3, Nat.zero_add] at this
  exact this

/-- Case of `C114_record_written`: the current balance of a packed record, behind its block descriptor. -/
example : let r := Record.base .packed (base 370 366) segs
    WellTyped r ∧ SizedAll (tableOf r) (valuesOf r) ∧ (itemsOf r)[21]?.map (·.1) = some .CurrentBalance ∧
    (valuesOf r).get .CurrentBalance ≠ none ∧ writeShift r + beginOf (packedOf r) (itemsOf r) 21 = 133 :=
  ⟨typed_of_typedB (by decide +kernel), sizedAll_of_B (by decide +kernel), by decide +kernel, by decide +kernel, by decide +kernel⟩

/-- Case of `C114_segment_written`: the name of a consumer. -/
example : SegSized .j1 j1 ∧ (segmentItems .j1)[2]?.map (·.1) = some .Surname ∧ beginOf false (segmentItems .j1) 2 = 3 ∧
    j1.fields.get .Surname ≠ none :=
  ⟨⟨rfl, typed_of_typedB (by decide +kernel), sizedAll_of_B (by decide +kernel)⟩, by decide +kernel, by decide +kernel, by decide +kernel⟩

/-- Case of `C114_records`: the sixth field of a data record, in both formats. -/
example : ∃ e, (baseItems[5].1, e) ∈ baseSegmentCharacterFormat ∧ e.start = beginOf false baseItems 5 ∧
    ∃ e', (baseItems[5].1, e') ∈ baseSegmentPackedFormat ∧ e'.start = beginOf true baseItems 5 := by
  obtain ⟨_, _, h3, h4, _⟩ := C114_records
  obtain ⟨e, h, hb, _⟩ := h3.1 5 (by decide)
  obtain ⟨e', h', hb', _⟩ := h4.1 5 (by decide)
  exact ⟨e, h, hb, e', h', hb'⟩

/-- Case of `C114_segments`: the third field of a K4 segment begins where the first two end. -/
example : ∃ e, (segmentItems .k4)[2].1 = .DeferredPaymentStartDate ∧ (.DeferredPaymentStartDate, e) ∈ SegKind.format .k4 ∧ e.start = 4 := by
  obtain ⟨e, h, hb, _⟩ := (C114_segments .k4).1 2 (by decide)
  exact ⟨e, rfl, h, hb⟩

end Metro2
