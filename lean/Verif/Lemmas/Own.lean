import Verif.Lemmas.Again

/-! Files that come back from their own text. -/

namespace Metro2

theorem FileWasRead.announced_ge {enc : Enc} {isVar : Bool} {f : File} (h : FileWasRead enc isVar f) :
    ∀ r ∈ Spec.allRecords f, (enc.recordLength : Int) ≤ Spec.announced r ∧ Spec.announced r ≤ wordMax enc := by
  intro r hr
  simp only [Spec.allRecords, List.mem_cons, List.mem_append, List.not_mem_nil, or_false] at hr
  rcases hr with rfl | hr | rfl
  · obtain ⟨line, fs, n, h1, h2, h3, h4, h5⟩ := h.header
    have hl := header_line h1 h3 h5
    rw [h4, show Spec.announced (.header enc fs) = _ from announced_of hl]
    exact ⟨hl.low, hl.high⟩
  · obtain ⟨line, fs, g, n, h1, rfl, h3⟩ := h.bases r hr
    have hl := (base_line h1 h3).1
    rw [show Spec.announced (.base enc fs g) = _ from announced_of hl]
    exact ⟨hl.low, hl.high⟩
  · obtain ⟨line, fs, n, h1, h2, h3⟩ := h.trailer
    have ht := trailer_line h1 h3
    rw [h2, show Spec.announced (.trailer enc fs) = _ from if_pos (trailer_bdw ht.1)]
    exact ⟨ht.2.2.1, ht.2.2.2.1⟩

theorem goodData_of_read {enc : Enc} {isVar : Bool} {line : Bytes} {fs : Fields} {g : Segs} {n : Int} (hl : RecordText line)
    (h : (newBase enc).parse line isVar = (.base enc fs g, .ok n)) (hr : Spec.RegularRecord (.base enc fs g))
    (hm : ((Record.base enc fs g).string.length : Int) = Spec.announced (.base enc fs g)) : Spec.GoodData enc isVar fs g := by
  obtain ⟨h1, h2, -⟩ := base_line hl h
  have hso : Spec.SegsOk g := h2.ok fun k s hs hh => hs.ok (by have := hr.2 s hh; rwa [hs.kind] at this)
  have hfit := (layout_base enc).fits_of_accepted h1.typed h1.accepted (by cases enc <;> exact hr.1)
  have hw := (layout_base enc).widthAll_of_fits h1.typed hfit
  have ha : Spec.announced (.base enc fs g) = Spec.sizeWord isVar fs := announced_of h1
  rw [ha, Record.string, padTo_length, List.length_append, base_length h1.typed hw, hso.string_length] at hm
  refine ⟨⟨h1.typed, hfit, hso, h1.packed, by rw [wordMax_eq]; exact h1.bdw, ?_⟩, ?_⟩
  · rw [← hm]
    unfold Spec.contentLength
    omega
  · rw [← hm]
    unfold Spec.contentLength
    congr 2
    have hb := h1.bdw
    cases enc with
    | character => exact padSize_eq _
    | packed =>
      have := h1.packed rfl
      subst this
      simp only [if_true] at hb
      unfold baseBlockSize
      simp only
      rw [if_pos (show fs.int .BlockDescriptorWord > 0 from hb.1)]
      exact padSize_eq _

theorem goodTrailer_of_read {enc : Enc} {isVar : Bool} {line : Bytes} {fs : Fields} {n : Int} (hl : RecordText line)
    (h : parseTrailer enc (newTrailer enc).fields line isVar = (fs, .ok n)) (hr : Spec.RegularRecord (.trailer enc fs))
    (ht : (.RecordIdentifier, .str "TRAILER".toUTF8.data.toList) ∈ fs) : Spec.GoodTrailer enc fs := by
  obtain ⟨t1, t2, t3, -⟩ := trailer_line hl h
  exact ⟨t1, (layout_trailer _).fits_of_accepted t1 t2 (by revert hr; cases enc <;> exact id), ht,
    by rw [show Spec.recordLength enc = enc.recordLength by cases enc <;> rfl]; exact t3⟩

/-- A file that was read, is measured and regular, and has a trailer of that name, is a good file. -/
theorem FileWasRead.good {enc : Enc} {isVar : Bool} {f : File} (h : FileWasRead enc isVar f) (hm : Spec.Measured f)
    (hr : Spec.RegularFile f) (ht : (.RecordIdentifier, .str "TRAILER".toUTF8.data.toList) ∈ Spec.valuesOf f.trailer) :
    Spec.GoodFile enc isVar f := by
  refine ⟨h.format, h.goodHeader hm hr, ?_, ?_⟩
  · intro r hrm
    have hmem : r ∈ Spec.allRecords f := by simp [Spec.allRecords, hrm]
    obtain ⟨line, fs, g, n, h1, rfl, h3⟩ := h.bases r hrm
    exact ⟨fs, g, rfl, goodData_of_read h1 h3 (hr _ hmem) (hm _ hmem)⟩
  · obtain ⟨line, fs, n, h1, h2, h3⟩ := h.trailer
    have hmem : f.trailer ∈ Spec.allRecords f := by simp [Spec.allRecords]
    have := hr _ hmem
    rw [h2] at this ht
    exact ⟨fs, h2, goodTrailer_of_read h1 h3 this ht⟩

theorem sizeWord_announced {enc : Enc} {isVar : Bool} {fs : Fields} {r : Record} (hr : Spec.valuesOf r = fs)
    (hb : if isVar then 0 < Spec.bdw fs ∧ Spec.bdw fs ≤ Spec.wordMax enc else Spec.bdw fs = 0) :
    Spec.announced r = Spec.sizeWord isVar fs := by
  unfold Spec.announced
  rw [hr]
  cases isVar with
  | true => simp only [if_true] at hb; rw [if_neg (by omega)]; rfl
  | false => simp only [Bool.false_eq_true, if_false] at hb; rw [if_pos hb]; rfl

/-- Good files are measured. -/
theorem goodFile_measured {enc : Enc} {isVar : Bool} {f : File} (h : Spec.GoodFile enc isVar f) : Spec.Measured f := by
  obtain ⟨h0, ⟨hfs, h1, hh⟩, hbs, ⟨tfs, h2, htr⟩⟩ := h
  intro r hr
  simp only [Spec.allRecords, List.mem_cons, List.mem_append, List.not_mem_nil, or_false] at hr
  rcases hr with rfl | hr | rfl
  · rw [h1, header_text_length hh, sizeWord_announced (r := .header enc hfs) rfl hh.bdw]
    rfl
  · obtain ⟨fs, g, rfl, hg⟩ := hbs r hr
    rw [base_text_length hg, sizeWord_announced (r := .base enc fs g) rfl hg.base.bdw]
    rfl
  · rw [h2, trailer_text_length htr]
    exact (if_pos (trailer_bdw htr.typed)).symm

end Metro2
