import Verif.Model.File
import Verif.Spec.Filled
import Verif.Spec.Records

/-! C115: new records, segments and files. -/

namespace Metro2

open Spec

instance (v : Val) : Decidable (Unset v) := by
  cases v <;> unfold Unset <;> infer_instance

/-- C115: a new segment has its identifier and nothing else. -/
theorem C115_segment (k : SegKind) (f : F) (v : Val) (h : (f, v) ∈ (Seg.new k).fields) :
    if f = .SegmentIdentifier then v = .str (segmentIdent k) else Unset v := by
  have key : ∀ p ∈ (Seg.new k).fields, if p.1 = .SegmentIdentifier then p.2 = .str (segmentIdent k) else Unset p.2 := by
    cases k <;> decide +kernel
  exact key (f, v) h

/-- C115: a new header or trailer has its identifier and nothing else, a new data record has nothing. -/
theorem C115_record (enc : Enc) (f : F) (v : Val) :
    ((f, v) ∈ (newHeader enc).fields → if f = .RecordIdentifier then v = .str (b! "HEADER") else Unset v) ∧
    ((f, v) ∈ (newTrailer enc).fields → if f = .RecordIdentifier then v = .str (b! "TRAILER") else Unset v) ∧
    ((f, v) ∈ (newBase enc).fields → Unset v) ∧
    segsOf (newBase enc) = {} := by
  have k1 : ∀ p ∈ (newHeader enc).fields, if p.1 = .RecordIdentifier then p.2 = .str (b! "HEADER") else Unset p.2 := by
    cases enc <;> decide +kernel
  have k2 : ∀ p ∈ (newTrailer enc).fields, if p.1 = .RecordIdentifier then p.2 = .str (b! "TRAILER") else Unset p.2 := by
    cases enc <;> decide +kernel
  have k3 : ∀ p ∈ (newBase enc).fields, Unset p.2 := by
    cases enc <;> decide +kernel
  exact ⟨k1 (f, v), k2 (f, v), k3 (f, v), by cases enc <;> rfl⟩

/-- C115: there are files of two formats; a new one has the new header and trailer of its format, and no data. -/
theorem C115_file (name : Bytes) :
    (name = b! "character" → newFileOf name = .ok ⟨.character, newHeader .character, [], newTrailer .character⟩) ∧
    (name = b! "packed" → newFileOf name = .ok ⟨.packed, newHeader .packed, [], newTrailer .packed⟩) ∧
    (name ≠ b! "character" → name ≠ b! "packed" → ∀ f, newFileOf name ≠ .ok f) := by
  refine ⟨?_, ?_, fun h1 h2 f => ?_⟩
  · rintro rfl; decide +kernel
  · rintro rfl; decide +kernel
  · rw [newFileOf, if_neg (show ¬ name = Enc.character.name from h1), if_neg (show ¬ name = Enc.packed.name from h2)]
    simp

/-- C115: none of these is valid as it is, but a K3 segment. -/
theorem C115_valid : (∀ k, (Seg.new k).validate = none ↔ k = .k3) ∧
    ∀ enc, (newHeader enc).validate = some (.required .RecordDescriptorWord) ∧ (newTrailer enc).validate = some (.required .RecordDescriptorWord) ∧
      (newBase enc).validate = some (.required .RecordDescriptorWord) ∧ (newFile enc).validate = some (.required .RecordDescriptorWord) := by
  refine ⟨fun k => ?_, fun enc => ?_⟩
  · cases k <;> decide +kernel
  · cases enc <;> decide +kernel

/-- Cases of `C115_segment` and `C115_record`. -/
example : (.SegmentIdentifier, .str (b! "K1")) ∈ (Seg.new .k1).fields ∧ (.CreditorClassification, .int 0) ∈ (Seg.new .k1).fields ∧
    (.RecordIdentifier, .str (b! "HEADER")) ∈ (newHeader .packed).fields ∧ (.TotalBaseRecords, .int 0) ∈ (newTrailer .character).fields ∧
    (.Surname, .str []) ∈ (newBase .packed).fields := by decide +kernel

/-- Case of `C115_file`: a packed file, and a name in other letters. -/
example : newFileOf (b! "packed") = .ok ⟨.packed, newHeader .packed, [], newTrailer .packed⟩ ∧ ∀ f, newFileOf (b! "Packed") ≠ .ok f :=
  ⟨(C115_file _).2.1 rfl, (C115_file (b! "Packed")).2.2 (by decide) (by decide)⟩

end Metro2
