import Verif.Spec.Size
import Verif.Lemmas.RoundTrip
import Verif.Lemmas.SegText

/-! How long the text of a field, a segment and a record can be. -/

namespace Metro2

theorem runeWidth_le_four (s : Bytes) : runeWidth s ≤ 4 := by
  unfold runeWidth
  split
  · omega
  · repeat' split
    all_goals omega

theorem takeRunes_le_four (n : Nat) (s : Bytes) : (takeRunes n s).length ≤ 4 * runeCount (takeRunes n s) := by
  induction n generalizing s with
  | zero => simp [takeRunes]
  | succ n ih =>
    cases s with
    | nil => simp [takeRunes]
    | cons c s =>
      have h1 := ih ((c :: s).drop (runeWidth (c :: s)))
      rw [runeCount_takeRunes] at h1
      rw [runeCount_takeRunes, runeCount_cons, takeRunes, List.length_append, List.length_take, Nat.add_min_add_right]
      have := runeWidth_le_four (c :: s)
      omega

theorem fmtLeftStr_le_four (n : Nat) (s : Bytes) : (fmtLeftStr n s).length ≤ 4 * n := by
  have h1 := takeRunes_le_four n s
  have h2 : runeCount (takeRunes n s) ≤ n := by rw [runeCount_takeRunes]; omega
  rw [fmtLeftStr_length]
  omega

theorem appendInt_two {n : Nat} (h : n < 100) : (appendInt n 2).length = 2 := by
  have : numDigits n ≤ 2 := (numDigits_le_iff (by decide)).2 (by omega)
  show (padLeft 2 48 (fmtNat n)).length = 2
  simp [padLeft]
  omega

theorem appendInt_year {y : Int} (h : y.natAbs < 10 ^ 12) : 4 ≤ (appendInt y 4).length ∧ (appendInt y 4).length ≤ 13 := by
  have hd : ∀ n : Nat, n < 10 ^ 12 → 4 ≤ (padLeft 4 48 (fmtNat n)).length ∧ (padLeft 4 48 (fmtNat n)).length ≤ 12 := by
    intro n hn
    have : numDigits n ≤ 12 := (numDigits_le_iff (by decide)).2 hn
    simp [padLeft]
    omega
  cases y with
  | ofNat n => have := hd n h; simp only [appendInt]; omega
  | negSucc n =>
    have := hd (n + 1) h
    simp only [appendInt, List.length_cons]
    omega

theorem format_date_le {t : Time} (h : Spec.GoTime t) : 8 ≤ (t.format dateFormat).length ∧ (t.format dateFormat).length ≤ 32 := by
  obtain ⟨h1, h2, -, -, -, h6⟩ := h
  have := appendInt_year h6
  simp only [Time.format, dateFormat, List.map_cons, List.map_nil, formatStd, List.flatten_cons, List.flatten_nil, List.length_append,
    appendInt_two (show t.month < 100 by omega), appendInt_two (show t.day < 100 by omega), List.length_nil]
  omega

theorem format_timestamp_le {t : Time} (h : Spec.GoTime t) :
    14 ≤ (t.format timestampFormat).length ∧ (t.format timestampFormat).length ≤ 56 := by
  obtain ⟨h1, h2, h3, h4, h5, h6⟩ := h
  have := appendInt_year h6
  simp only [Time.format, timestampFormat, List.map_cons, List.map_nil, formatStd, List.flatten_cons, List.flatten_nil, List.length_append,
    appendInt_two (show t.month < 100 by omega), appendInt_two (show t.day < 100 by omega), appendInt_two (show t.hour < 100 by omega),
    appendInt_two (show t.min < 100 by omega), appendInt_two (show t.sec < 100 by omega), List.length_nil]
  omega

/-- Every value of the type of its field is written in at least the width of the field and in at most four times that. -/
theorem valText_le {e : Field} {v : Val} {k : Kind} (hw : Spec.WidthOk e = true) (hk : v.hasKind k = true)
    (hek : Spec.KindOk e k = true) (hs : ∀ t, v = .time t → Spec.GoTime t) :
    e.len ≤ (valText e v).length ∧ (valText e v).length ≤ 4 * e.len := by
  unfold valText
  cases ht : e.typ <;> cases v <;> cases k <;>
    simp only [Spec.WidthOk, Spec.KindOk, ht, Val.hasKind, Bool.false_eq_true, decide_true, decide_false,
      Bool.or_self, decide_eq_true_eq, reduceCtorEq] at hw hk hek ⊢
  case alphanumeric.str.str s => exact ⟨fmtLeftStr_length_ge _ _, fmtLeftStr_le_four _ _⟩
  case numeric.int.int i => rw [fmtZeroStr_length (ascii_fmtInt i)]; omega
  case numeric.int.int64 i => rw [fmtZeroStr_length (ascii_fmtInt i)]; omega
  case timestamp.time.time t =>
    have := format_timestamp_le (hs t rfl)
    split
    · simp; omega
    · omega
  case date.time.time t =>
    have := format_date_le (hs t rfl)
    split
    · simp; omega
    · omega
  case descriptor.int.int i => simp [descriptorString, hw]
  case descriptor.int.int64 i => simp [descriptorString, hw]
  case packedTimestamp.time.time t => rw [beBytes_timestring_length _ _ (by decide), hw]; omega
  case packedDate.time.time t => rw [beBytes_timestring_length _ _ (by decide), hw]; omega
  case packedNumber.int.int i => unfold packedNumberString; split <;> simp <;> omega
  case packedNumber.int.int64 i => unfold packedNumberString; split <;> simp <;> omega

theorem rowsText_between {rows : Format} {fs : Fields} {acc L : Nat} (hc : contig acc rows L = true)
    (hl : ∀ p ∈ rows, p.2.len ≤ (toStr p.2 (fs.get p.1)).length ∧ (toStr p.2 (fs.get p.1)).length ≤ 4 * p.2.len) :
    L ≤ (rowsText rows fs).length + acc ∧ (rowsText rows fs).length + 4 * acc ≤ 4 * L := by
  induction rows generalizing acc with
  | nil =>
    simp only [contig, decide_eq_true_eq] at hc
    simp [rowsText, hc]
  | cons r rows ih =>
    simp only [contig, Bool.and_eq_true, decide_eq_true_eq] at hc
    have hr := hl r List.mem_cons_self
    have := ih hc.2 fun p hp => hl p (List.mem_cons_of_mem _ hp)
    have he : rowsText (r :: rows) fs = toStr r.2 (fs.get r.1) ++ rowsText rows fs := rfl
    rw [he, List.length_append]
    omega

variable {fmt : Format} {decl : List (F × FieldDecl)} {L : Nat}

theorem Layout.mainText_between (h : Layout fmt decl L) {fs : Fields} (ht : fs.Typed decl) (hs : Spec.GoTimes fs) :
    L ≤ (mainText fmt fs).length ∧ (mainText fmt fs).length ≤ 4 * L := by
  have := rowsText_between (fs := fs) h.main.2.1 fun p hp => by
    obtain ⟨h1, h2, h3⟩ := h.main.2.2 p hp
    cases hg : fs.get p.1 with
    | none => rw [toStr, fillString_length]; omega
    | some v =>
      have hm := Fields.mem_of_get hg
      obtain ⟨d, hd, hk⟩ := ht.mem hm
      obtain ⟨hw, hek, -⟩ := h.row hd h1
      rw [toStr_some (by simp [h3])]
      exact valText_le hw hk hek fun t ht => hs p.1 t (ht ▸ hm)
  unfold mainText
  omega

theorem Layout.fieldsString_between (h : Layout fmt decl L) {enc : Enc} (hb : Blocked enc fmt decl) {fs : Fields}
    (ht : fs.Typed decl) (hs : Spec.GoTimes fs) : L ≤ (fieldsString fmt fs).length ∧ (fieldsString fmt fs).length ≤ 4 * L + 4 := by
  have h1 := h.mainText_between ht hs
  have h2 : (Metro2.bdwText fmt fs).length ≤ 4 := by
    rw [hb.bdwText ht]
    by_cases h0 : fs.int .BlockDescriptorWord = 0
    · rw [h0, bdwText_zero]; simp
    · rw [bdwText_length enc h0]
  rw [h.text, List.length_append]
  omega

theorem Layout.fieldsString_between_plain (h : Layout fmt decl L) (hn : bdwRows fmt = []) {fs : Fields}
    (ht : fs.Typed decl) (hs : Spec.GoTimes fs) : L ≤ (fieldsString fmt fs).length ∧ (fieldsString fmt fs).length ≤ 4 * L := by
  have h1 := h.mainText_between ht hs
  rw [h.text, List.length_append, bdwText, hn]
  simpa [rowsText] using h1

end Metro2
