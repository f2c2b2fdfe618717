import Verif.Lemmas.Table
import Verif.Lemmas.Utf8
import Verif.Model.Record

/-! The text of a record and how its slots are found again, for any table with a `Layout`. -/

namespace Metro2

/-! ### The 14 tables -/

theorem layout_baseCharacter : Layout baseSegmentCharacterFormat baseSegmentStruct 426 :=
  Layout.ofCheck (by decide +kernel)
theorem layout_basePacked : Layout baseSegmentPackedFormat baseSegmentStruct 366 :=
  Layout.ofCheck (by decide +kernel)
theorem layout_headerCharacter : Layout headerRecordCharacterFormat headerRecordStruct 426 :=
  Layout.ofCheck (by decide +kernel)
theorem layout_headerPacked : Layout headerRecordPackedFormat headerRecordStruct 366 :=
  Layout.ofCheck (by decide +kernel)
theorem layout_trailerCharacter : Layout trailerRecordCharacterFormat trailerRecordStruct 426 :=
  Layout.ofCheck (by decide +kernel)
theorem layout_trailerPacked : Layout trailerRecordPackedFormat trailerRecordStruct 366 :=
  Layout.ofCheck (by decide +kernel)
theorem layout_segment (k : SegKind) : Layout k.format k.struct k.length := by
  cases k <;> exact Layout.ofCheck (by decide +kernel)

theorem layout_base (enc : Enc) : Layout enc.baseFormat baseSegmentStruct enc.recordLength := by
  cases enc
  · exact layout_baseCharacter
  · exact layout_basePacked
theorem layout_header (enc : Enc) : Layout enc.headerFormat headerRecordStruct enc.recordLength := by
  cases enc
  · exact layout_headerCharacter
  · exact layout_headerPacked
theorem layout_trailer (enc : Enc) : Layout enc.trailerFormat trailerRecordStruct enc.recordLength := by
  cases enc
  · exact layout_trailerCharacter
  · exact layout_trailerPacked

/-! ### Widths -/

theorem beBytes_timestring_length (t : Time) (layout : List Std) {size : Nat} (h : 2 ≤ size) :
    (packedTimeString t layout size).length = size := by
  have key : ∀ val : Int, (if val > 0 then 0x00 :: beBytes (size - 2) val.toNat ++ [0x73]
      else List.replicate size 0 : Bytes).length = size := by
    intro val
    split
    · simp; omega
    · simp
  exact key _

theorem sized_length {e : Field} {v : Val} {k : Kind} (hw : Spec.WidthOk e = true)
    (hk : v.hasKind k = true) (hek : Spec.KindOk e k = true) (hs : Spec.Sized e v)
    (ho : ¬ (e.omitted = true ∧ v = .int 0)) : (toStr e (some v)).length = e.len := by
  rw [toStr_some ho]
  unfold valText
  cases ht : e.typ <;> cases v <;> cases k <;>
    simp only [Spec.WidthOk, Spec.KindOk, ht, Val.hasKind, Bool.false_eq_true, decide_true, decide_false,
      Bool.or_self, decide_eq_true_eq, reduceCtorEq] at hw hk hek ⊢
  case alphanumeric.str.str s =>
    obtain ⟨cs, hcs⟩ := chars_exists s
    have h1 := hs cs hcs
    have hpos : Narrow e.len s := by
      rw [narrow_iff, chars_takeRunes hcs]
      rw [← chars_takeRunes hcs, runeCount_takeRunes, chars_runeCount hcs, chars_takeRunes hcs]
      have : ∀ l : List Bytes, (∀ c ∈ l, c.length = 1) → l.flatten.length = l.length := by
        intro l hl
        induction l with
        | nil => rfl
        | cons a l ih =>
          rw [List.flatten_cons, List.length_append, hl a List.mem_cons_self,
            ih fun c hc => hl c (List.mem_cons_of_mem _ hc), List.length_cons]
          omega
      rw [this _ h1, List.length_take]
    exact (fmtLeftStr_length_iff _ _).2 hpos
  case numeric.int.int i => exact fmtZeroStr_length (ascii_fmtInt i)
  case numeric.int.int64 i => exact fmtZeroStr_length (ascii_fmtInt i)
  case timestamp.time.time t =>
    split
    · simp
    · rw [Time.format_timestamp_length ((spec_plainTime_iff t).1 hs), hw]
  case date.time.time t =>
    split
    · simp
    · rw [Time.format_date_length ((spec_plainTime_iff t).1 hs), hw]
  case descriptor.int.int i => simp [descriptorString, hw]
  case descriptor.int.int64 i => simp [descriptorString, hw]
  case packedTimestamp.time.time t => rw [beBytes_timestring_length _ _ (by decide), hw]
  case packedDate.time.time t => rw [beBytes_timestring_length _ _ (by decide), hw]
  case packedNumber.int.int i => unfold packedNumberString; split <;> simp
  case packedNumber.int.int64 i => unfold packedNumberString; split <;> simp

theorem fillString_length (e : Field) : (fillString e).length = e.len := by
  unfold fillString; split <;> simp

/-! ### Text of a record -/

variable {fmt : Format} {decl : List (F × FieldDecl)} {L : Nat}

/-- The row of a struct field. -/
theorem Layout.row (h : Layout fmt decl L) {f : F} {d : FieldDecl} (hd : (f, d) ∈ decl) {e : Field}
    (he : (f, e) ∈ fmt) : Spec.WidthOk e = true ∧ Spec.KindOk e d.kind = true ∧ 1 ≤ e.len := by
  obtain ⟨e', he', h1, h2, h3⟩ := h.hasRow _ hd
  have : e = e' := by
    have := lookup_of_mem h.names he
    rw [lookup_of_mem h.names he'] at this
    simpa using this.symm
  subst this
  exact ⟨h1, h2, h3⟩

theorem Layout.main (h : Layout fmt decl L) :
    toSpecifications fmt = bdwRows fmt ++ mainRows fmt ∧ contig 0 (mainRows fmt) L = true ∧
      ∀ p ∈ mainRows fmt, p ∈ fmt ∧ p.1 ≠ .BlockDescriptorWord ∧ p.2.omitted = false := by
  obtain ⟨rows, h1, h2, h3⟩ := h.sorted
  have : mainRows fmt = rows := by
    unfold mainRows
    rw [h1, List.filter_append]
    have e1 : (bdwRows fmt).filter (fun p => decide (p.1 ≠ .BlockDescriptorWord)) = [] := by
      rw [List.filter_eq_nil_iff]
      intro p hp
      simp [bdwRows] at hp
      simp [hp.2]
    have e2 : rows.filter (fun p => decide (p.1 ≠ .BlockDescriptorWord)) = rows := by
      rw [List.filter_eq_self]
      intro p hp
      simpa using (h3 p hp).1
    rw [e1, e2, List.nil_append]
  rw [this]
  refine ⟨h1, h2, fun p hp => ⟨?_, h3 p hp⟩⟩
  have : p ∈ toSpecifications fmt := by rw [h1]; exact List.mem_append_right _ hp
  exact (toSpecifications_perm fmt).mem_iff.1 this

theorem Layout.mem_main (_h : Layout fmt decl L) {p : F × Field} (hp : p ∈ fmt)
    (hb : p.1 ≠ .BlockDescriptorWord) : p ∈ mainRows fmt := by
  unfold mainRows
  rw [List.mem_filter]
  exact ⟨(toSpecifications_perm fmt).mem_iff.2 hp, by simpa using hb⟩

/-- Text of the fields other than the block descriptor. -/
def mainText (fmt : Format) (fs : Fields) : Bytes := rowsText (mainRows fmt) fs

/-- Text of the block descriptor. -/
def bdwText (fmt : Format) (fs : Fields) : Bytes := rowsText (bdwRows fmt) fs

theorem Layout.text (h : Layout fmt decl L) (fs : Fields) :
    fieldsString fmt fs = bdwText fmt fs ++ mainText fmt fs := by
  rw [fieldsString_eq, h.main.1]
  simp [rowsText, bdwText, mainText]

/-- Every field except the block descriptor is written in its width. -/
def WidthAll (fmt : Format) (fs : Fields) : Prop :=
  ∀ p ∈ fs, p.1 ≠ .BlockDescriptorWord → ∀ e, (p.1, e) ∈ fmt → (toStr e (some p.2)).length = e.len

theorem Layout.widths (h : Layout fmt decl L) {fs : Fields} (hw : WidthAll fmt fs) :
    ∀ p ∈ mainRows fmt, (toStr p.2 (fs.get p.1)).length = p.2.len := by
  intro p hp
  obtain ⟨h1, h2, h3⟩ := h.main.2.2 p hp
  cases hg : fs.get p.1 with
  | none => exact fillString_length _
  | some v => exact hw (p.1, v) (Fields.mem_of_get hg) h2 p.2 h1

theorem Layout.mainText_length (h : Layout fmt decl L) {fs : Fields} (hw : WidthAll fmt fs) :
    (mainText fmt fs).length = L := by
  have := (rowsText_contig h.main.2.1 (h.widths hw)).1
  simpa [mainText] using this

theorem Layout.widthAll_of_sized (h : Layout fmt decl L) {fs : Fields} (ht : fs.Typed decl)
    (hs : Spec.SizedAll fmt fs) : WidthAll fmt fs := by
  intro p hp hb e he
  obtain ⟨d, hd, hk⟩ := ht.mem (f := p.1) (v := p.2) hp
  obtain ⟨h1, h2, -⟩ := h.row hd he
  have ho := (h.main.2.2 (p.1, e) (h.mem_main he hb)).2.2
  exact sized_length h1 hk h2 (hs p hp e he) (by simp only at ho; simp [ho])

theorem Layout.widthAll_of_fits (h : Layout fmt decl L) {fs : Fields} (ht : fs.Typed decl)
    (hs : Spec.FitsAll fmt fs) : WidthAll fmt fs := by
  intro p hp hb e he
  obtain ⟨d, hd, -⟩ := ht.mem (f := p.1) (v := p.2) hp
  have ho := (h.main.2.2 (p.1, e) (h.mem_main he hb)).2.2
  simp only at ho
  exact (field_roundtrip p.1 (h.row hd he).1 (hs p hp hb e he) (by simp [ho])).1

/-- The fields other than the block descriptor. -/
def noBdw (fs : Fields) : Fields := fs.filter fun p => decide (p.1 ≠ .BlockDescriptorWord)

/-- Every fitting field can be read back from the text of the record. -/
theorem Layout.slots (h : Layout fmt decl L) {fs : Fields} (ht : fs.Typed decl)
    (hf : Spec.FitsAll fmt fs) (pre rest : Bytes) :
    SlotsOk fmt (pre ++ mainText fmt fs ++ rest) pre.length (noBdw fs) := by
  intro p hp
  simp only [noBdw, List.mem_filter, decide_eq_true_eq] at hp
  obtain ⟨hp, hb⟩ := hp
  obtain ⟨d, hd, -⟩ := ht.mem (f := p.1) (v := p.2) hp
  obtain ⟨e, he, h1, -⟩ := h.hasRow _ hd
  simp only at he
  have hw := h.widthAll_of_fits ht hf
  have hm := h.mem_main he hb
  obtain ⟨-, h3, h4⟩ := (rowsText_contig h.main.2.1 (h.widths hw)).2 _ hm
  have hlen := h.mainText_length hw
  have ho := (h.main.2.2 _ hm).2.2
  simp only at ho h3 h4
  have hget : fs.get p.1 = some p.2 := Fields.get_of_mem (by rw [ht.names]; exact h.structNames) hp
  obtain ⟨-, r2, r3⟩ := field_roundtrip p.1 h1 (hf p hp hb e he) (by simp [ho])
  have hslice : ((pre ++ mainText fmt fs ++ rest).drop (e.start + pre.length)).take e.len =
      toStr e (some p.2) := by
    rw [Nat.add_comm, ← List.drop_drop, List.append_assoc, List.drop_left, ← hget]
    simpa [mainText] using h4 rest
  refine ⟨hb, e, lookup_of_mem h.names he, ?_, ?_, ?_⟩
  · simp only [List.length_append, hlen]; omega
  · rw [hslice]; exact r2
  · rw [hslice]; exact r3

end Metro2
