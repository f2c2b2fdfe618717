import Verif.Lemmas.NoPanic

/-! Writing and reading records whose values fit. -/

namespace Metro2

variable {fmt : Format} {decl : List (F × FieldDecl)} {L : Nat}

/-- The block descriptor row of the tables that have one. -/
def bdwField : Enc → Field
  | .character => ⟨0, 4, .numeric, false, true, .applicable⟩
  | .packed => ⟨0, 4, .descriptor, false, true, .applicable⟩

/-- The record descriptor row of all record tables. -/
def rdwField : Enc → Field
  | .character => ⟨0, 4, .numeric, false, false, .required⟩
  | .packed => ⟨0, 4, .descriptor, false, false, .required⟩

/-- A table with block and record descriptor in encoding `enc`, and a struct that starts with both. -/
structure Blocked (enc : Enc) (fmt : Format) (decl : List (F × FieldDecl)) : Prop where
  bdw : fmt.lookup .BlockDescriptorWord = some (bdwField enc)
  rows : bdwRows fmt = [(.BlockDescriptorWord, bdwField enc)]
  rdw : fmt.lookup .RecordDescriptorWord = some (rdwField enc)
  struct : ∃ d d' ds, decl = (.BlockDescriptorWord, d) :: (.RecordDescriptorWord, d') :: ds ∧
    d.kind = .int ∧ d'.kind = .int ∧ ∀ p ∈ ds, p.1 ≠ .BlockDescriptorWord ∧ p.1 ≠ .RecordDescriptorWord

theorem blocked_header (enc : Enc) : Blocked enc enc.headerFormat headerRecordStruct := by
  cases enc <;> exact ⟨by decide +kernel, by decide +kernel, by decide +kernel,
    _, _, _, rfl, rfl, rfl, by decide +kernel⟩

theorem blocked_base (enc : Enc) : Blocked enc enc.baseFormat baseSegmentStruct := by
  cases enc <;> exact ⟨by decide +kernel, by decide +kernel, by decide +kernel,
    _, _, _, rfl, rfl, rfl, by decide +kernel⟩

theorem hasKind_int {v : Val} (h : v.hasKind .int = true) : ∃ i, v = .int i := by
  cases v <;> simp [Val.hasKind] at h ⊢

/-- The shape of a struct with both descriptors. -/
theorem Blocked.shape {enc : Enc} (h : Blocked enc fmt decl) {fs : Fields} (ht : fs.Typed decl) :
    ∃ b r fr, fs = (.BlockDescriptorWord, .int b) :: (.RecordDescriptorWord, .int r) :: fr ∧
      fs.int .BlockDescriptorWord = b ∧ fs.int .RecordDescriptorWord = r ∧
      ∀ p ∈ fr, p.1 ≠ .BlockDescriptorWord ∧ p.1 ≠ .RecordDescriptorWord := by
  obtain ⟨d, d', ds, rfl, hk, hk', hds⟩ := h.struct
  match fs, ht with
  | (f, v) :: (f', v') :: fr, ⟨h1, h2, h3, h4, h5⟩ =>
    rw [hk] at h2; rw [hk'] at h4
    obtain ⟨b, rfl⟩ := hasKind_int h2
    obtain ⟨r, rfl⟩ := hasKind_int h4
    subst h1; subst h3
    refine ⟨b, r, fr, rfl, rfl, rfl, ?_⟩
    intro p hp
    obtain ⟨d, hd, -⟩ := h5.mem (f := p.1) (v := p.2) hp
    exact hds _ hd
  | [_], ⟨_, _, h3⟩ => exact h3.elim

theorem noBdw_cons {v : Val} {fs : Fields} (h : ∀ p ∈ fs, p.1 ≠ F.BlockDescriptorWord) :
    noBdw ((.BlockDescriptorWord, v) :: fs) = fs := by
  unfold noBdw
  rw [List.filter_cons_of_neg (by simp), List.filter_eq_self]
  intro p hp
  simpa using h p hp

/-- Text of the block descriptor. -/
theorem Blocked.bdwText {enc : Enc} (h : Blocked enc fmt decl) {fs : Fields} (ht : fs.Typed decl) :
    Metro2.bdwText fmt fs = toStr (bdwField enc) (some (.int (fs.int .BlockDescriptorWord))) := by
  obtain ⟨b, r, fr, rfl, hb, -, -⟩ := h.shape ht
  rw [hb]
  simp only [Metro2.bdwText, rowsText, h.rows, List.map_cons, List.map_nil, List.flatten_cons, List.flatten_nil,
    List.append_nil]
  rfl

theorem bdwText_zero (enc : Enc) : toStr (bdwField enc) (some (.int 0)) = [] := by
  cases enc <;> rfl

theorem bdwText_length (enc : Enc) {b : Int} (hb : b ≠ 0) : (toStr (bdwField enc) (some (.int b))).length = 4 := by
  have := @sized_length (bdwField enc) (.int b) .int (by cases enc <;> rfl) rfl (by cases enc <;> rfl) trivial
    (by simp [hb])
  rw [this]; cases enc <;> rfl

/-- Descriptor words that can be represented. -/
def wordMax : Enc → Int
  | .character => 9999
  | .packed => 65535

theorem bdw_roundtrip (enc : Enc) {b : Int} (h0 : 0 < b) (h1 : b ≤ wordMax enc) :
    isValidType (bdwField enc) .BlockDescriptorWord (toStr (bdwField enc) (some (.int b))) = none ∧
    parseValue (bdwField enc) (toStr (bdwField enc) (some (.int b))) = .ok (.int b) := by
  refine (field_roundtrip (e := bdwField enc) .BlockDescriptorWord (by cases enc <;> rfl) ?_ ?_).2
  · cases enc
    · simp only [wordMax] at h1
      exact ⟨.inl ⟨h0.le, by show b < 10 ^ 4; omega⟩, by omega, by omega, by simp [bdwField]⟩
    · exact ⟨h0.le, h1⟩
  · intro _ h; simp only [Val.int.injEq] at h; omega

/-- Reading a record in which the block descriptor is present. -/
theorem Layout.parse_accept {enc : Enc} (h : Layout fmt decl L) (hb : Blocked enc fmt decl) {fs old : Fields}
    (ht : fs.Typed decl) (hold : old.Typed decl) (hf : Spec.FitsAll fmt fs)
    (h0 : 0 < fs.int .BlockDescriptorWord) (h1 : fs.int .BlockDescriptorWord ≤ wordMax enc)
    (bounds : Bool) (rest : Bytes) :
    parseLoop fmt .accept bounds (fieldsString fmt fs ++ rest) 0 old = (fs, none) := by
  rw [h.text, hb.bdwText ht]
  have hlen := bdwText_length enc (b := fs.int .BlockDescriptorWord) (by omega)
  obtain ⟨hv, hp⟩ := bdw_roundtrip enc h0 h1
  have hs := h.slots ht hf (toStr (bdwField enc) (some (.int (fs.int .BlockDescriptorWord)))) rest
  rw [hlen] at hs
  generalize toStr (bdwField enc) (some (.int (fs.int .BlockDescriptorWord))) = pre at *
  have hsl : (((pre ++ mainText fmt fs ++ rest)).drop ((bdwField enc).start + 0)).take (bdwField enc).len = pre := by
    have h1 : (bdwField enc).start = 0 := by cases enc <;> rfl
    have h2 : (bdwField enc).len = 4 := by cases enc <;> rfl
    rw [h1, h2, Nat.add_zero, List.drop_zero, List.append_assoc, List.take_append_of_le_length (by omega),
      List.take_of_length_le (by omega)]
  have hsh := SameShape.ofTyped hold ht
  obtain ⟨b, r, fr, hfs, hib, -, hfr⟩ := hb.shape ht
  obtain ⟨b', r', fr', hold', -, -, -⟩ := hb.shape hold
  generalize hrec : pre ++ mainText fmt fs ++ rest = rec at *
  have hl4 : 4 ≤ rec.length := by rw [← hrec]; simp; omega
  rw [hib] at hp
  rw [hfs, noBdw_cons] at hs
  · rw [hfs, hold'] at hsh ⊢
    cases hsh with
    | cons hv' hsh =>
      rw [parseLoop_cons]
      simp only [hb.bdw, hsl, hv, hp]
      rw [if_neg (by cases enc <;> simp only [bdwField] <;> omega), hv']
      simp only [parseLoop_ok hsh hs]
  · intro p hp
    rcases List.mem_cons.1 hp with rfl | hp
    · simp
    · exact (hfr p hp).1

/-- Reading a character record without block descriptor: the block descriptor of the struct is kept. -/
theorem Layout.parse_skip (h : Layout fmt decl L) (hb : Blocked .character fmt decl) {fs old : Fields}
    (ht : fs.Typed decl) (hold : old.Typed decl) (hf : Spec.FitsAll fmt fs)
    (h0 : fs.int .BlockDescriptorWord = 0) (h1 : old.int .BlockDescriptorWord = 0)
    (bounds : Bool) (rest : Bytes) :
    parseLoop fmt .skip bounds (fieldsString fmt fs ++ rest) 0 old = (fs, none) := by
  rw [h.text, hb.bdwText ht, h0, bdwText_zero]
  have hs := h.slots ht hf [] rest
  have hsh := SameShape.ofTyped hold ht
  obtain ⟨b, r, fr, hfs, hib, -, hfr⟩ := hb.shape ht
  obtain ⟨b', r', fr', hold', hib', -, -⟩ := hb.shape hold
  rw [hib] at h0; rw [hib'] at h1
  subst h0; subst h1
  simp only [List.nil_append, List.length_nil] at hs ⊢
  generalize hrec : mainText fmt fs ++ rest = rec at *
  rw [hfs, noBdw_cons] at hs
  · rw [hfs, hold'] at hsh ⊢
    obtain ⟨-, e, he, hlen, hv, hp⟩ := hs _ List.mem_cons_self
    rw [hb.rdw] at he
    cases he
    simp only [rdwField, Nat.zero_add, List.drop_zero, Nat.add_zero] at hlen hv hp
    cases hsh with
    | cons hv' hsh =>
      rw [parseLoop_cons]
      simp only [hb.bdw, bdwField, Nat.zero_add, List.drop_zero, Nat.add_zero]
      rw [if_neg (by omega)]
      have hv2 : isValidType ⟨0, 4, .numeric, false, true, .applicable⟩ F.BlockDescriptorWord (rec.take 4) = none := by
        have h2 : isNumeric .RecordDescriptorWord (rec.take 4) = none := by
          simp only [isValidType] at hv
          split at hv
          · simp at hv
          · exact hv
        simp only [isValidType, requiredCheck, reduceCtorEq, if_false]
        simp only [isNumeric] at h2 ⊢
        split at h2
        · next h => rw [if_pos h]
        · simp at h2
      have hp2 : parseValue ⟨0, 4, .numeric, false, true, .applicable⟩ (rec.take 4) = .ok (.int r) := by
        rw [← hp]; rfl
      simp only [hv2, hp2, parseLoop_ok hsh hs]
  · intro p hp
    rcases List.mem_cons.1 hp with rfl | hp
    · simp
    · exact (hfr p hp).1

/-- Reading a table without block descriptor. -/
theorem Layout.parse_plain (h : Layout fmt decl L) (hn : bdwRows fmt = [])
    (hd : ∀ p ∈ decl, p.1 ≠ .BlockDescriptorWord) {fs old : Fields}
    (ht : fs.Typed decl) (hold : old.Typed decl) (hf : Spec.FitsAll fmt fs)
    (pol : BdwPolicy) (bounds : Bool) (rest : Bytes) :
    parseLoop fmt pol bounds (fieldsString fmt fs ++ rest) 0 old = (fs, none) := by
  have hs := h.slots ht hf [] rest
  have hnb : noBdw fs = fs := by
    unfold noBdw
    rw [List.filter_eq_self]
    intro p hp
    obtain ⟨d, hd', -⟩ := ht.mem (f := p.1) (v := p.2) hp
    simpa using hd _ hd'
  rw [hnb] at hs
  rw [h.text, bdwText, hn]
  simpa [rowsText] using parseLoop_ok (pol := pol) (bounds := bounds) (SameShape.ofTyped hold ht) hs

theorem Layout.fieldsString_length (h : Layout fmt decl L) {enc : Enc} (hb : Blocked enc fmt decl) {fs : Fields}
    (ht : fs.Typed decl) (hw : WidthAll fmt fs) :
    (fieldsString fmt fs).length = (if fs.int .BlockDescriptorWord = 0 then 0 else 4) + L := by
  rw [h.text, List.length_append, h.mainText_length hw, hb.bdwText ht]
  split
  · next h0 => rw [h0, bdwText_zero]; rfl
  · next h0 => rw [bdwText_length enc h0]

theorem Layout.fieldsString_length_plain (h : Layout fmt decl L) (hn : bdwRows fmt = []) {fs : Fields}
    (hw : WidthAll fmt fs) : (fieldsString fmt fs).length = L := by
  rw [h.text, List.length_append, h.mainText_length hw, bdwText, hn]; simp [rowsText]

theorem padTo_length (n : Nat) (s : Bytes) : (padTo n s).length = max s.length n := by
  unfold padTo; simp; omega

end Metro2
