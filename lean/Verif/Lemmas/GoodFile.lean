import Verif.Lemmas.WellFormed
import Verif.Spec.GoodFile
import Verif.Props.Reread
import Verif.Props.Concurrent

/-! The texts of the records of a well-formed file. -/

namespace Metro2

variable {fmt : Format} {decl : List (F × FieldDecl)} {L : Nat}

/-! ### Single fields in the text -/

theorem Layout.slot (h : Layout fmt decl L) {fs : Fields} (ht : fs.Typed decl)
    (hf : Spec.FitsAll fmt fs) (pre rest : Bytes) {f : F} {v : Val} (hp : (f, v) ∈ fs)
    (hb : f ≠ .BlockDescriptorWord) {e : Field} (he : (f, e) ∈ fmt) :
    ((pre ++ mainText fmt fs ++ rest).drop (pre.length + e.start)).take e.len = toStr e (some v) := by
  have hw := h.widthAll_of_fits ht hf
  obtain ⟨-, -, h4⟩ := (rowsText_contig h.main.2.1 (h.widths hw)).2 _ (h.mem_main he hb)
  simp only at h4
  have hget : fs.get f = some v := Fields.get_of_mem (by rw [ht.names]; exact h.structNames) hp
  rw [← List.drop_drop, List.append_assoc, List.drop_left, ← hget]
  simpa [mainText] using h4 rest

theorem toStr_text {start len : Nat} {req : Req} {s : Bytes} (h : Spec.FitsText len s) :
    toStr ⟨start, len, .alphanumeric, false, false, req⟩ (some (.str s)) = s ++ List.replicate (len - s.length) 32 := by
  rw [toStr_some (by simp)]
  simp only [valText]
  rw [fmtLeftStr_ascii (ascii_of_permitted h.2.1), List.take_of_length_le h.1]

theorem take_append_drop_take (s : Bytes) (a n m : Nat) (h : n ≤ m) :
    ((s.drop a).take m).take n = (s.drop a).take n := by
  rw [List.take_take, Nat.min_eq_left h]

/-! ### Size words -/

/-- The words that start a record: the block descriptor if it has one, else the record descriptor. -/
def firstWord (enc : Enc) (v : Int) : Bytes :=
  match enc with
  | .character => decDigits 4 v.toNat
  | .packed => beBytes 2 v.toNat ++ [0, 0]

theorem firstWord_length (enc : Enc) (v : Int) : (firstWord enc v).length = 4 := by
  cases enc
  · exact length_decDigits 4 _
  · simp [firstWord]

theorem toStr_bdw {enc : Enc} {v : Int} (h0 : 0 < v) (h1 : v ≤ wordMax enc) :
    toStr (bdwField enc) (some (.int v)) = firstWord enc v := by
  obtain ⟨n, rfl⟩ := Int.eq_ofNat_of_zero_le h0.le
  rw [toStr_some (by simp [bdwField]; omega)]
  cases enc with
  | character =>
    simp only [wordMax] at h1
    simp only [bdwField, valText, firstWord]
    rw [fmtInt_natCast, fmtZeroStr_fmtNat (by decide) (by omega)]; rfl
  | packed =>
    simp only [wordMax] at h1
    simp only [bdwField, valText, firstWord, descriptorString]
    rw [if_pos (by omega)]

theorem toStr_rdw {enc : Enc} {v : Int} (h0 : 0 ≤ v) (h1 : v ≤ wordMax enc) :
    toStr (rdwField enc) (some (.int v)) = firstWord enc v := by
  obtain ⟨n, rfl⟩ := Int.eq_ofNat_of_zero_le h0
  cases enc with
  | character =>
    simp only [wordMax] at h1
    rw [toStr_some (by simp [rdwField])]
    simp only [rdwField, valText, firstWord]
    rw [fmtInt_natCast, fmtZeroStr_fmtNat (by decide) (by omega)]; rfl
  | packed =>
    simp only [wordMax] at h1
    rw [toStr_some (by simp [rdwField])]
    simp only [rdwField, valText, firstWord, descriptorString]
    rw [if_pos (by omega)]

/-- A record descriptor that fits. -/
theorem rdw_bounds {enc : Enc} {fs : Fields} (hf : Spec.FitsAll fmt fs) {r : Int}
    (hm : (F.RecordDescriptorWord, Val.int r) ∈ fs) (he : (F.RecordDescriptorWord, rdwField enc) ∈ fmt) :
    r ≤ wordMax enc := by
  have := hf _ hm (by simp) _ he
  cases enc with
  | character =>
    simp only [wordMax]
    rcases this.1 with ⟨-, h2⟩ | ⟨-, h1, -⟩
    · simp only [rdwField] at h2
      omega
    · simp only [rdwField] at h1
      omega
  | packed => exact this.2

/-- The text of a record with optional block descriptor begins with its size word. -/
theorem Layout.first_blocked {enc : Enc} (h : Layout fmt decl L) (hB : Blocked enc fmt decl) {fs : Fields}
    (ht : fs.Typed decl) (hf : Spec.FitsAll fmt fs) {isVar : Bool}
    (hb : if isVar then 0 < Spec.bdw fs ∧ Spec.bdw fs ≤ wordMax enc else Spec.bdw fs = 0)
    (hs : 0 ≤ Spec.sizeWord isVar fs) (rest : Bytes) :
    (fieldsString fmt fs ++ rest).take 4 = firstWord enc (Spec.sizeWord isVar fs) := by
  rw [h.text, hB.bdwText ht]
  cases isVar with
  | true =>
    simp only [if_true] at hb
    show (toStr (bdwField enc) (some (.int (Spec.bdw fs))) ++ _ ++ rest).take 4 = _
    rw [toStr_bdw hb.1 hb.2, List.append_assoc,
      List.take_append_of_le_length (by rw [firstWord_length]),
      List.take_of_length_le (by rw [firstWord_length])]
    rfl
  | false =>
    simp only [Bool.false_eq_true, if_false] at hb
    obtain ⟨b, r, fr, hfs, -, hr, -⟩ := hB.shape ht
    have hm : (F.RecordDescriptorWord, Val.int r) ∈ fs := by rw [hfs]; simp
    have he : (F.RecordDescriptorWord, rdwField enc) ∈ fmt := lookup_mem hB.rdw
    have := h.slot ht hf [] rest hm (by simp) he
    show (toStr (bdwField enc) (some (.int (Spec.bdw fs))) ++ _ ++ rest).take 4 = _
    rw [hb, bdwText_zero]
    have e1 : (rdwField enc).start = 0 := by cases enc <;> rfl
    have e2 : (rdwField enc).len = 4 := by cases enc <;> rfl
    rw [e1, e2] at this
    simp only [List.length_nil, Nat.add_zero, List.drop_zero] at this
    rw [this]
    have h0 : 0 ≤ r := by have := hs; simp only [Spec.sizeWord, Spec.rdw, Bool.false_eq_true, if_false, hr] at this; exact this
    rw [toStr_rdw h0 (rdw_bounds hf hm he)]
    show _ = firstWord enc (fs.int .RecordDescriptorWord)
    rw [hr]

theorem header_first {enc : Enc} {isVar : Bool} {fs : Fields} (h : Spec.GoodHeader enc isVar fs) (rest : Bytes) :
    ((Record.header enc fs).string ++ rest).take 4 = firstWord enc (Spec.sizeWord isVar fs) := by
  rw [Record.string, padTo_append]
  have hb := h.bdw
  rw [wordMax_eq] at hb
  exact (layout_header enc).first_blocked (blocked_header enc) h.typed h.fits hb (by have := h.size; omega) _

theorem base_first {enc : Enc} {isVar : Bool} {fs : Fields} {g : Segs} (h : Spec.GoodBase enc isVar fs g)
    (rest : Bytes) : ((Record.base enc fs g).string ++ rest).take 4 = firstWord enc (Spec.sizeWord isVar fs) := by
  rw [Record.string, padTo_append, List.append_assoc]
  have hb := h.bdw
  rw [wordMax_eq] at hb
  exact (layout_base enc).first_blocked (blocked_base enc) h.typed h.fits hb (by have := h.size; omega) _

theorem trailer_rows (enc : Enc) : (F.RecordDescriptorWord, rdwField enc) ∈ enc.trailerFormat ∧
    (F.RecordIdentifier, (⟨4, 7, .alphanumeric, false, false, .required⟩ : Field)) ∈ enc.trailerFormat := by
  cases enc <;> exact ⟨by decide +kernel, by decide +kernel⟩

theorem header_rows (enc : Enc) :
    (F.RecordIdentifier, (⟨4, 6, .alphanumeric, false, false, .required⟩ : Field)) ∈ enc.headerFormat := by
  cases enc <;> decide +kernel

theorem mem_int_of_typed {fs : Fields} (ht : fs.Typed decl) (hn : (decl.map Prod.fst).Nodup) {f : F}
    (hd : ∃ d, (f, d) ∈ decl ∧ d.kind = .int) : (f, Val.int (fs.int f)) ∈ fs := by
  obtain ⟨d, hd, hk⟩ := hd
  have : f ∈ fs.map Prod.fst := by rw [ht.names]; exact List.mem_map_of_mem (f := Prod.fst) hd
  obtain ⟨⟨f', v⟩, hm, rfl⟩ := List.mem_map.1 this
  obtain ⟨d', hd', hk'⟩ := ht.mem hm
  have h1 := lookup_of_mem hn hd
  have h2 := lookup_of_mem hn hd'
  rw [h1] at h2
  cases h2
  rw [hk] at hk'
  obtain ⟨i, rfl⟩ := hasKind_int hk'
  have hg := Fields.get_of_mem (by rw [ht.names]; exact hn) hm
  have : fs.int f' = i := by unfold Fields.int; rw [hg]
  rw [this]; exact hm

theorem trailer_rdw_mem {fs : Fields} (ht : fs.Typed trailerRecordStruct) :
    (F.RecordDescriptorWord, Val.int (Spec.rdw fs)) ∈ fs :=
  mem_int_of_typed ht layout_trailerCharacter.structNames
    ⟨_, List.mem_cons_self, rfl⟩

theorem Layout.text_plain (h : Layout fmt decl L) (hb : bdwRows fmt = []) (fs : Fields) :
    fieldsString fmt fs = mainText fmt fs := by
  rw [h.text]
  unfold bdwText
  rw [hb]; rfl

theorem trailer_first {enc : Enc} {fs : Fields} (h : Spec.GoodTrailer enc fs) (rest : Bytes) :
    ((Record.trailer enc fs).string ++ rest).take 4 = firstWord enc (Spec.rdw fs) := by
  rw [Record.string, padTo_append, (layout_trailer enc).text_plain (trailer_noBdwRow enc)]
  have hm := trailer_rdw_mem h.typed
  have he := (trailer_rows enc).1
  have := (layout_trailer enc).slot h.typed h.fits [] (List.replicate
    (clampedBlockSize (fs.int .RecordDescriptorWord) - (mainText enc.trailerFormat fs).length) 32 ++ rest)
    hm (by simp) he
  have e1 : (rdwField enc).start = 0 := by cases enc <;> rfl
  have e2 : (rdwField enc).len = 4 := by cases enc <;> rfl
  rw [e1, e2] at this
  simp only [List.length_nil, Nat.add_zero, List.drop_zero, List.nil_append] at this
  rw [this]
  exact toStr_rdw (by have := h.size; omega) (rdw_bounds h.fits hm he)

theorem trailer_ident {enc : Enc} {fs : Fields} (h : Spec.GoodTrailer enc fs) (rest : Bytes) :
    (((Record.trailer enc fs).string ++ rest).drop 4).take 7 = b! "TRAILER" := by
  rw [Record.string, padTo_append, (layout_trailer enc).text_plain (trailer_noBdwRow enc)]
  have he := (trailer_rows enc).2
  have := (layout_trailer enc).slot h.typed h.fits [] (List.replicate
    (clampedBlockSize (fs.int .RecordDescriptorWord) - (mainText enc.trailerFormat fs).length) 32 ++ rest)
    h.ident (by simp) he
  simp only [List.length_nil, Nat.zero_add, List.nil_append] at this
  rw [this, toStr_text (h.fits _ h.ident (by simp) _ he)]
  decide +kernel

/-! ### Lengths -/

theorem sizeWord_le {enc : Enc} {isVar : Bool} {fs : Fields} (hB : Blocked enc fmt decl) (ht : fs.Typed decl)
    (hf : Spec.FitsAll fmt fs)
    (hb : if isVar then 0 < Spec.bdw fs ∧ Spec.bdw fs ≤ Spec.wordMax enc else Spec.bdw fs = 0) :
    Spec.sizeWord isVar fs ≤ wordMax enc := by
  rw [wordMax_eq] at hb
  cases isVar with
  | true => simp only [if_true] at hb; exact hb.2
  | false =>
    obtain ⟨b, r, fr, hfs, -, hr, -⟩ := hB.shape ht
    have hm : (F.RecordDescriptorWord, Val.int r) ∈ fs := by rw [hfs]; simp
    show fs.int .RecordDescriptorWord ≤ _
    rw [hr]
    exact rdw_bounds hf hm (lookup_mem hB.rdw)

theorem wordMax_le (enc : Enc) : wordMax enc ≤ 65535 := by cases enc <;> decide

theorem recordLength_pos (enc : Enc) : 366 ≤ Spec.recordLength enc := by cases enc <;> decide

theorem header_text_length {enc : Enc} {isVar : Bool} {fs : Fields} (h : Spec.GoodHeader enc isVar fs) :
    ((Record.header enc fs).string.length : Int) = Spec.sizeWord isVar fs := by
  have hw := (layout_header enc).widthAll_of_fits h.typed h.fits
  rw [Record.string, padTo_length, header_length h.typed hw]
  have h1 := sizeWord_le (blocked_header enc) h.typed h.fits h.bdw
  have h2 := wordMax_le enc
  have h3 := h.size
  have h4 := recordLength_pos enc
  have h5 : Spec.recordLength enc ≤ Spec.fixedLength enc fs := Nat.le_add_right _ _
  have e : headerBlockSize fs = clampedBlockSize (Spec.sizeWord isVar fs) := by
    have hb := h.bdw
    unfold headerBlockSize
    cases isVar with
    | true =>
      simp only [if_true] at hb
      rw [if_neg (by have := hb.1; unfold Spec.bdw at this; omega)]; rfl
    | false =>
      simp only [Bool.false_eq_true, if_false] at hb
      rw [if_pos (show fs.int .BlockDescriptorWord = 0 from hb)]; rfl
  rw [e, ← padSize_eq]
  unfold Spec.padSize
  rw [if_pos (by omega)]
  omega

theorem base_text_length {enc : Enc} {isVar : Bool} {fs : Fields} {g : Segs} (h : Spec.GoodData enc isVar fs g) :
    ((Record.base enc fs g).string.length : Int) = Spec.sizeWord isVar fs := by
  have hw := (layout_base enc).widthAll_of_fits h.base.typed h.base.fits
  rw [Record.string, padTo_length, List.length_append, base_length h.base.typed hw, h.base.segs.string_length,
    ← h.written]
  have hb := h.base.bdw
  have hp := h.base.packed
  congr 2
  cases enc with
  | character => exact (padSize_eq _).symm
  | packed =>
    have := hp rfl
    subst this
    simp only [if_true] at hb
    unfold baseBlockSize
    simp only
    rw [if_pos (show fs.int .BlockDescriptorWord > 0 from hb.1)]
    exact (padSize_eq _).symm

theorem trailer_text_length {enc : Enc} {fs : Fields} (h : Spec.GoodTrailer enc fs) :
    ((Record.trailer enc fs).string.length : Int) = Spec.rdw fs := by
  have hw := (layout_trailer enc).widthAll_of_fits h.typed h.fits
  rw [Record.string, padTo_length, trailer_length hw]
  have h1 := rdw_bounds h.fits (trailer_rdw_mem h.typed) (trailer_rows enc).1
  have h2 := wordMax_le enc
  have h3 := h.size
  have h4 := recordLength_pos enc
  show ((max _ (clampedBlockSize (Spec.rdw fs)) : Nat) : Int) = _
  rw [← padSize_eq]
  unfold Spec.padSize
  rw [if_pos (by omega)]
  omega

/-! ### A trailer is not a data record -/

theorem drop_take_one {s : Bytes} {a : Nat} {t : Bytes} (h : (s.drop a).take 7 = t) (i : Nat) (n : Nat) (hi : i + n ≤ 7) :
    (s.drop (a + i)).take n = (t.drop i).take n := by
  rw [← h, ← List.drop_drop, List.drop_take, List.take_take]
  congr 1; omega

theorem base_of_trailer {enc : Enc} {fs : Fields} (h : Spec.GoodTrailer enc fs) (isVar : Bool) (rest : Bytes) :
    ∃ b err, (newBase enc).parse ((Record.trailer enc fs).string ++ rest) isVar = (b, .error err) ∧ err ≠ .panic := by
  have hid := trailer_ident h rest
  generalize (Record.trailer enc fs).string ++ rest = rec at hid
  have hnp := (C13_record (newBase enc) (by cases enc <;> exact zeroFields_typed _) rec isVar).1
  generalize hq : (newBase enc).parse rec isVar = q at hnp
  obtain ⟨b, x⟩ := q
  cases x with
  | error err => exact ⟨b, err, rfl, fun he => hnp (by rw [he])⟩
  | ok n =>
    exfalso
    have key : ∀ pol new, parseLoop enc.baseFormat pol true rec 0 (zeroFields baseSegmentStruct) = (new, none) →
        False := by
      intro pol new hp
      obtain ⟨h1, -, -, -, -, hs⟩ := parseLoop_inv_bdw (blocked_base enc) (zeroFields_typed _) hp
      have hty := ((layout_base enc).safe (zeroFields_typed _) pol rec 0).1
      rw [hp] at hty
      simp only at hty
      have hmem : ∀ f, f ≠ F.BlockDescriptorWord → f ∈ baseSegmentStruct.map Prod.fst → ∃ v, (f, v) ∈ noBdw new := by
        intro f hf hm
        rw [← hty.names] at hm
        obtain ⟨⟨f', v⟩, hm', rfl⟩ := List.mem_map.1 hm
        exact ⟨v, List.mem_filter.2 ⟨hm', by simpa using hf⟩⟩
      obtain ⟨v1, m1⟩ := hmem .RecordDescriptorWord (by simp) (by decide +kernel)
      obtain ⟨v2, m2⟩ := hmem .ProcessingIndicator (by simp) (by decide +kernel)
      obtain ⟨-, e1, l1, -, -, p1⟩ := hs _ m1
      obtain ⟨-, e2, l2, -, p2, -⟩ := hs _ m2
      simp only at l1 p1 l2 p2
      have r1 : enc.baseFormat.lookup .RecordDescriptorWord = some (rdwField enc) := (blocked_base enc).rdw
      have r2 : enc.baseFormat.lookup .ProcessingIndicator =
          some ⟨4, 1, .numeric, false, false, .nullable⟩ := by cases enc <;> decide +kernel
      rw [r1] at l1; rw [r2] at l2
      cases l1; cases l2
      cases pol with
      | fail => exact h1 rfl
      | skip =>
        rw [if_neg (by simp)] at p2
        simp only at p2
        rw [show 4 + 0 = 4 + 0 from rfl, drop_take_one hid 0 1 (by decide)] at p2
        exact absurd p2 (by decide +kernel)
      | accept =>
        rw [if_pos rfl] at p1 p2
        cases enc with
        | character =>
          simp only [rdwField, Nat.zero_add] at p1
          have e := drop_take_one hid 0 4 (by decide)
          rw [Nat.add_zero] at e
          rw [e] at p1
          have : ∀ v, parseValue ⟨0, 4, .numeric, false, false, .required⟩
              (((b! "TRAILER").drop 0).take 4) ≠ .ok v := by
            intro v
            have : parseInt (((b! "TRAILER").drop 0).take 4) = .error .syntax := by decide +kernel
            simp only [parseValue, this]
            simp
          exact this _ p1
        | packed =>
          simp only at p2
          rw [drop_take_one hid 4 1 (by decide)] at p2
          exact absurd p2 (by decide +kernel)
    cases enc with
    | character =>
      rw [newBase, Record.parse, parseBaseCharacter] at hq
      split at hq
      · cases hq
      · generalize hr : parseLoop baseSegmentCharacterFormat (if isVar = true then BdwPolicy.accept else BdwPolicy.skip) true rec 0
          (zeroFields baseSegmentStruct) = r at hq
        obtain ⟨new, o⟩ := r
        cases o with
        | none => exact key _ _ hr
        | some err => cases hq
    | packed =>
      rw [newBase, Record.parse, parseBasePacked] at hq
      split at hq
      · cases hq
      · generalize hr : parseLoop baseSegmentPackedFormat (if isVar = true then BdwPolicy.accept else BdwPolicy.fail) true rec 0
          (zeroFields baseSegmentStruct) = r at hq
        obtain ⟨new, o⟩ := r
        cases o with
        | none => exact key _ _ hr
        | some err => cases hq

end Metro2
