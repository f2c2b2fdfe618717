import Verif.Lemmas.GoodFile

/-! Character records contain no control characters; what the texts of records begin with. -/

namespace Metro2

variable {fmt : Format} {decl : List (F × FieldDecl)} {L : Nat}

/-- No control characters. -/
def Plain (s : Bytes) : Prop := ∀ c ∈ s, 32 ≤ c.toNat

theorem Plain.append {s t : Bytes} (h1 : Plain s) (h2 : Plain t) : Plain (s ++ t) := by
  intro c hc
  rcases List.mem_append.1 hc with hc | hc
  · exact h1 c hc
  · exact h2 c hc

theorem Plain.flatten {l : List Bytes} (h : ∀ s ∈ l, Plain s) : Plain l.flatten := by
  intro c hc
  obtain ⟨s, hs, hc⟩ := List.mem_flatten.1 hc
  exact h s hs c hc

theorem Plain.replicate (n : Nat) {c : UInt8} (h : 32 ≤ c.toNat) : Plain (List.replicate n c) := by
  intro d hd
  rw [List.eq_of_mem_replicate hd]; exact h

theorem Plain.digits {s : Bytes} (h : ∀ c ∈ s, isDigit c = true) : Plain s := by
  intro c hc
  have := ((isDigit_iff c).1 (h c hc)).1
  omega

theorem Plain.noBreaks {s : Bytes} (h : Plain s) : Spec.NoBreaks s := by
  intro c hc
  have := h c hc
  constructor <;> rintro rfl <;> revert this <;> decide

/-- A row of a character table. -/
def charRow (e : Field) : Bool :=
  match e.typ with
  | .numeric | .alphanumeric | .timestamp | .date => true
  | _ => false

theorem plain_toStr {e : Field} {v : Val} (hc : charRow e = true) (hw : Spec.WidthOk e = true) (hf : Spec.Fits e v) :
    Plain (toStr e (some v)) := by
  obtain ⟨start, len, typ, zf, om, req⟩ := e
  unfold toStr
  simp only
  split
  · intro c hc; simp at hc
  · cases typ <;> simp [charRow] at hc <;> cases v <;> simp only [Spec.Fits] at hf
    · next s _ =>
      simp only [valText]
      rw [fmtLeftStr_ascii (ascii_of_permitted hf.2.1), List.take_of_length_le hf.1]
      refine Plain.append (fun c hc => ?_) (Plain.replicate _ (by decide))
      exact (hf.2.1 c hc).1
    · next i _ =>
      simp only [Spec.WidthOk, decide_eq_true_eq] at hw
      simp only [valText]
      rcases hf.1 with ⟨h0, h1⟩ | ⟨h2, h0, h1⟩
      · obtain ⟨n, rfl⟩ := Int.eq_ofNat_of_zero_le h0
        rw [fmtInt_natCast, fmtZeroStr_fmtNat hw (by exact_mod_cast h1)]
        exact Plain.digits (decDigits_all _ _)
      · rw [fmtZeroStr_negative h2 h0 h1]
        exact Plain.append (s := [45]) (Plain.replicate 1 (by decide)) (Plain.digits (decDigits_all _ _))
    · next t _ =>
      simp only [valText]
      split
      · exact Plain.replicate _ (by decide)
      · exact Plain.digits (Time.format_timestamp_digits ((spec_plainTime_iff t).1 hf.1))
    · next t _ =>
      simp only [valText]
      split
      · exact Plain.replicate _ (by decide)
      · exact Plain.digits (Time.format_date_digits ((spec_plainTime_iff t).1 hf.1))

theorem plain_fill (e : Field) : Plain (fillString e) := by
  unfold fillString
  split <;> exact Plain.replicate _ (by decide)

theorem Layout.plain_main (h : Layout fmt decl L) (hc : ∀ p ∈ fmt, charRow p.2 = true) {fs : Fields} (ht : fs.Typed decl)
    (hf : Spec.FitsAll fmt fs) : Plain (mainText fmt fs) := by
  apply Plain.flatten
  intro s hs
  obtain ⟨⟨f, e⟩, hp, rfl⟩ := List.mem_map.1 hs
  obtain ⟨h1, h2, -⟩ := h.main.2.2 _ hp
  simp only at h1 h2 ⊢
  cases hg : fs.get f with
  | none => exact plain_fill e
  | some v =>
    have hm := Fields.mem_of_get hg
    obtain ⟨d, hd, -⟩ := ht.mem hm
    exact plain_toStr (hc _ h1) (h.row hd h1).1 (hf _ hm h2 _ h1)

theorem charRows_base : ∀ p ∈ baseSegmentCharacterFormat, charRow p.2 = true := by decide +kernel
theorem charRows_header : ∀ p ∈ headerRecordCharacterFormat, charRow p.2 = true := by decide +kernel
theorem charRows_trailer : ∀ p ∈ trailerRecordCharacterFormat, charRow p.2 = true := by decide +kernel
theorem charRows_segment (k : SegKind) : ∀ p ∈ k.format, charRow p.2 = true := by cases k <;> decide +kernel

theorem plain_firstWord (v : Int) : Plain (firstWord .character v) := Plain.digits (decDigits_all _ _)

theorem plain_bdwText {isVar : Bool} {fs : Fields} (hB : Blocked .character fmt decl) (ht : fs.Typed decl)
    (hb : if isVar then 0 < Spec.bdw fs ∧ Spec.bdw fs ≤ Spec.wordMax .character else Spec.bdw fs = 0) :
    Plain (bdwText fmt fs) := by
  rw [hB.bdwText ht]
  cases isVar with
  | true =>
    simp only [if_true] at hb
    rw [wordMax_eq] at hb
    rw [show fs.int .BlockDescriptorWord = Spec.bdw fs from rfl, toStr_bdw hb.1 hb.2]
    exact plain_firstWord _
  | false =>
    simp only [Bool.false_eq_true, if_false] at hb
    rw [show fs.int .BlockDescriptorWord = 0 from hb, bdwText_zero]
    intro c hc; simp at hc

theorem plain_padTo {s : Bytes} (n : Nat) (h : Plain s) : Plain (padTo n s) :=
  h.append (Plain.replicate _ (by decide))

theorem plain_header {isVar : Bool} {fs : Fields} (h : Spec.GoodHeader .character isVar fs) :
    Plain (Record.header .character fs).string := by
  rw [Record.string]
  apply plain_padTo
  rw [(layout_header .character).text]
  exact (plain_bdwText (blocked_header .character) h.typed h.bdw).append
    ((layout_header .character).plain_main charRows_header h.typed h.fits)

theorem plain_trailer {fs : Fields} (h : Spec.GoodTrailer .character fs) :
    Plain (Record.trailer .character fs).string := by
  rw [Record.string]
  apply plain_padTo
  rw [(layout_trailer .character).text_plain (trailer_noBdwRow _)]
  exact (layout_trailer .character).plain_main charRows_trailer h.typed h.fits

theorem plain_seg {k : SegKind} {s : Seg} (h : Spec.SegmentOk k s) : Plain s.string := by
  obtain ⟨kind, fs⟩ := s
  obtain ⟨hk, ht, hf, -, -⟩ := h
  simp only at hk
  subst hk
  rw [Seg.string, (layout_segment kind).text_plain (seg_noBdwRow kind)]
  exact (layout_segment kind).plain_main (charRows_segment kind) ht hf

theorem plain_segs {g : Segs} (h : Spec.SegsOk g) : Plain g.string := by
  rw [Segs.string]
  apply Plain.flatten
  intro s hs
  obtain ⟨t, ht, rfl⟩ := List.mem_map.1 hs
  exact plain_seg (h.mem t ht)

theorem plain_base {isVar : Bool} {fs : Fields} {g : Segs} (h : Spec.GoodBase .character isVar fs g) :
    Plain (Record.base .character fs g).string := by
  rw [Record.string]
  apply plain_padTo
  rw [(layout_base .character).text]
  exact ((plain_bdwText (blocked_base .character) h.typed h.bdw).append
    ((layout_base .character).plain_main charRows_base h.typed h.fits)).append (plain_segs h.segs)

theorem goodFile_noBreaks {isVar : Bool} {f : File} (h : Spec.GoodFile .character isVar f) :
    ∀ t ∈ Spec.recordTexts f, Spec.NoBreaks t := by
  intro t ht
  simp only [Spec.recordTexts, List.mem_append, List.mem_singleton, List.mem_map] at ht
  rcases ht with (rfl | ⟨r, hr, rfl⟩) | rfl
  · obtain ⟨fs, e, hg⟩ := h.header
    rw [e]; exact (plain_header hg).noBreaks
  · obtain ⟨fs, g, e, hg⟩ := h.bases r hr
    rw [e]; exact (plain_base hg.base).noBreaks
  · obtain ⟨fs, e, hg⟩ := h.trailer
    rw [e]; exact (plain_trailer hg).noBreaks

/-! ### Beginnings -/

theorem noSegment_of_first {enc : Enc} {v : Int} {rest : Bytes} (h : rest.take 4 = firstWord enc v)
    (h0 : 0 ≤ v) (h1 : v ≤ wordMax enc) (hp : enc = .packed → ∀ k, v ≠ Spec.identNumber k) : Spec.NoSegment rest := by
  intro k hk
  have e : rest.take 2 = Spec.segmentIdent k := by
    obtain ⟨t, rfl⟩ := hk
    have : (Spec.segmentIdent k).length = 2 := by cases k <;> decide
    rw [← this, List.take_left]
  have e2 : (firstWord enc v).take 2 = Spec.segmentIdent k := by
    rw [← h, List.take_take, ← e]; rfl
  cases enc with
  | character =>
    have : ∀ c ∈ Spec.segmentIdent k, isDigit c = true := by
      rw [← e2]
      intro c hc
      exact decDigits_all _ _ c (List.mem_of_mem_take hc)
    revert this
    cases k <;> decide
  | packed =>
    have e3 : (firstWord .packed v).take 2 = beBytes 2 v.toNat := by
      rw [firstWord, List.take_left' (by simp)]
    rw [e3] at e2
    have := congrArg beVal e2
    rw [beVal_beBytes] at this
    simp only [wordMax] at h1
    rw [Nat.mod_eq_of_lt (by omega)] at this
    apply hp rfl k
    have e4 : Spec.identNumber k = (beVal (Spec.segmentIdent k) : Nat) := by cases k <;> decide
    rw [e4, ← this]
    omega

end Metro2
