import Verif.Lemmas.FirstFault
import Verif.Props.Rules
import Verif.Props.Totals

/-! Property C76: what `Validate` complains about. -/

namespace Metro2

open Samples

/-- C76. `Validate` of a data record in character format fails exactly with the first fault: the first field in the order of the
declaration that is missing or breaks its rule. -/
theorem C76_character (fs : Fields) (g : Segs) (ht : fs.Typed baseSegmentStruct) (e : Err) :
    (Record.base .character fs g).validate = some e ↔
      Spec.FirstFault Spec.mandatoryBase (Spec.baseRule Spec.historyCodes fs) fs e := by
  have h : (Enc.character.paymentHistoryCodes.all Spec.historyCodes.contains &&
    Spec.historyCodes.all Enc.character.paymentHistoryCodes.contains) = true := by decide +kernel
  rw [Bool.and_eq_true, List.all_eq_true, List.all_eq_true] at h
  exact validateLoop_first (decl := baseSegmentStruct) (by decide +kernel)
    (fun f => baseCustom_rule (enc := .character)
      (fun c => ⟨fun hc => List.contains_iff_mem.1 (h.1 c hc), fun hc => List.contains_iff_mem.1 (h.2 c hc)⟩) ht f)
    (fun f e h => baseCustom_some h) fs (fun p hp => mem_decl_of_typed ht hp)

/-- C76, packed data records; the payment history code 'Z' is not accepted there, see C55. -/
theorem C76_packed (fs : Fields) (g : Segs) (ht : fs.Typed baseSegmentStruct) (e : Err) :
    (Record.base .packed fs g).validate = some e ↔
      Spec.FirstFault Spec.mandatoryBase (Spec.baseRule (Spec.historyCodes.filter (· ≠ 'Z'.toNat.toUInt8)) fs) fs e := by
  have h : (Enc.packed.paymentHistoryCodes.all (Spec.historyCodes.filter (· ≠ 'Z'.toNat.toUInt8)).contains &&
    (Spec.historyCodes.filter (· ≠ 'Z'.toNat.toUInt8)).all Enc.packed.paymentHistoryCodes.contains) = true := by decide +kernel
  rw [Bool.and_eq_true, List.all_eq_true, List.all_eq_true] at h
  exact validateLoop_first (decl := baseSegmentStruct) (by decide +kernel)
    (fun f => baseCustom_rule (enc := .packed)
      (fun c => ⟨fun hc => List.contains_iff_mem.1 (h.1 c hc), fun hc => List.contains_iff_mem.1 (h.2 c hc)⟩) ht f)
    (fun f e h => baseCustom_some h) fs (fun p hp => mem_decl_of_typed ht hp)

/-- C76, segments. -/
theorem C76_segment (s : Seg) (ht : s.fields.Typed s.kind.struct) (e : Err) :
    s.validate = some e ↔ Spec.FirstFault (Spec.mandatorySegment s.kind) (Spec.segmentRule s.kind s.fields) s.fields e :=
  validateLoop_first (decl := s.kind.struct) (by cases s.kind <;> decide +kernel) (fun f => segCustom_rule s.kind ht f)
    (fun f e h => segCustom_some h) _ (fun p hp => mem_decl_of_typed ht hp)

/-- C76, headers: the first mandatory field that is missing. -/
theorem C76_header (enc : Enc) (fs : Fields) (ht : fs.Typed headerRecordStruct) (e : Err) :
    (Record.header enc fs).validate = some e ↔ Spec.FirstFault Spec.taggedHeader (fun _ => True) fs e :=
  validateLoop_first (decl := headerRecordStruct) (by cases enc <;> decide +kernel) (fun f => by simp)
    (fun f e h => by simp at h) _ (fun p hp => mem_decl_of_typed ht hp)

/-- C76, trailers. -/
theorem C76_trailer (enc : Enc) (fs : Fields) (ht : fs.Typed trailerRecordStruct) (e : Err) :
    (Record.trailer enc fs).validate = some e ↔ Spec.FirstFault Spec.mandatoryTrailer (fun _ => True) fs e :=
  validateLoop_first (decl := trailerRecordStruct) (by cases enc <;> decide +kernel) (fun f => by simp)
    (fun f e h => by simp at h) _ (fun p hp => mem_decl_of_typed ht hp)

/-- C76, files: the error is that of the first invalid record, in the order header, trailer, data records; if there is none, it is about the first
total, in the order of the declaration, that is not what is counted. -/
theorem C76_file (f : File) (hb : ∀ r ∈ f.bases, Spec.IsBase f.format r) (e : Err) :
    f.validate = some e ↔ Spec.FirstInvalid (f.header :: f.trailer :: f.bases) e ∨
      ((∀ r ∈ f.header :: f.trailer :: f.bases, r.validate = none) ∧ Spec.FirstWrongTotal f.trailer.fields f.bases e) := by
  obtain ⟨info, h1, h2, h3, -⟩ := generatorTrailer_spec hb
  have hval : f.validate = (match firstInvalid (f.header :: f.trailer :: f.bases) with
      | some err => some err
      | none => compareTotals f.trailer.fields info) := by
    unfold File.validate
    simp only [firstInvalid, h1]
    cases f.header.validate with
    | some _ => rfl
    | none =>
      cases f.trailer.validate with
      | some _ => rfl
      | none => cases firstInvalid f.bases <;> rfl
  have htot : compareTotals f.trailer.fields info = some e ↔ Spec.FirstWrongTotal f.trailer.fields f.bases e := by
    rw [compareTotals_first (val := fun t => .int (Spec.total t f.bases)) info, h2.names]
    · exact Iff.rfl
    · rintro ⟨t, v⟩ hp
      obtain ⟨d, hd, -⟩ := h2.mem hp
      by_cases ht : t ∈ Spec.totals
      · refine .inl ⟨ht, ?_⟩
        have := Fields.get_of_mem (by rw [h2.names]; exact trailer_nodup) hp
        rw [h3 t ht] at this
        exact (Option.some.inj this).symm
      · refine .inr ⟨ht, ?_⟩
        rcases totals_or _ hd with h | h
        · exact absurd h ht
        · exact h
  rw [hval]
  cases hf : firstInvalid (f.header :: f.trailer :: f.bases) with
  | some err =>
    have h4 := (firstInvalid_iff _ _).1 hf
    constructor
    · intro h
      obtain rfl := Option.some.inj h
      exact .inl h4
    · rintro (h | ⟨h, -⟩)
      · have := (firstInvalid_iff _ _).2 h
        rw [hf] at this
        exact this
      · rw [← firstInvalid_none, hf] at h
        cases h
  | none =>
    simp only
    rw [htot]
    constructor
    · intro h
      exact .inr ⟨(firstInvalid_none _).1 hf, h⟩
    · rintro (h | ⟨-, h⟩)
      · have := (firstInvalid_iff _ _).2 h
        rw [hf] at this
        cases this
      · exact h

/-- Case of `C76_packed`. Non-vacuity: a record with two faults, of which the terms duration is declared first; the error is about that one. -/
example : (base 500 496 [(.TermsDuration, .str (b! "X")), (.AccountStatus, .str [])]).Typed baseSegmentStruct ∧
    (Record.base .packed (base 500 496 [(.TermsDuration, .str (b! "X")), (.AccountStatus, .str [])]) {}).validate =
      some (.invalidValue .TermsDuration) ∧
    (Record.base .packed (base 500 496 [(.TermsDuration, .str []), (.AccountStatus, .str (b! "X"))]) {}).validate =
      some (.required .TermsDuration) :=
  ⟨typed_of_typedB (by decide +kernel), by decide +kernel, by decide +kernel⟩

/-- Cases of `C76_segment`, `C76_header` and `C76_trailer`. Non-vacuity for segments, headers and trailers. -/
example : (Seg.new .k2).validate = some (.required .PurchasedIndicator) ∧ (Seg.new .k2).fields.Typed SegKind.k2.struct ∧
    ((newHeader .packed).validate).isSome ∧ ((newTrailer .character).validate).isSome :=
  ⟨by decide +kernel, Seg.new_typed _, by decide +kernel, by decide +kernel⟩

/-- Non-vacuity for files: the trailer of this file is valid, but its totals are wrong. -/
example : (∀ r ∈ (Samples.file .character).bases, Spec.IsBase .character r) ∧
    (Samples.file .character).validate = some (.invalidValue .TotalBaseRecords) :=
  ⟨Samples.file_bases _, by decide +kernel⟩

/-- Case of `C76_character`. -/
example : (base 0 426 [(.TermsDuration, .str (b! "X")), (.AccountStatus, .str [])]).Typed baseSegmentStruct ∧
    (Record.base .character (base 0 426 [(.TermsDuration, .str (b! "X")), (.AccountStatus, .str [])]) {}).validate =
      some (.invalidValue .TermsDuration) :=
  ⟨typed_of_typedB (by decide +kernel), by decide +kernel⟩

end Metro2
