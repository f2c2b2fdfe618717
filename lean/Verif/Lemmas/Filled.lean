import Verif.Lemmas.Places
import Verif.Spec.Filled

/-! What stands in the place of each field of a written record. -/

namespace Metro2

/-! ### Dates as texts and as packed numbers -/

theorem decimal_digits {k n : Nat} (h : n < 10 ^ k) : Spec.Decimal (decDigits k n) n :=
  (spec_decimal_iff _ _).2 ⟨decDigits_all _ _, digitsVal_decDigits_of_lt h⟩

theorem format_date_text {t : Time} (h : Spec.PlainTime t) :
    Spec.DateText (t.format dateFormat) t.month t.day t.year.toNat := by
  rw [Time.format_date ((spec_plainTime_iff t).1 h)]
  obtain ⟨y, hy, hy9, hd, -⟩ := h
  have hd' := (spec_dayExists_iff _ _ _).1 hd
  have hdl := daysIn_le t.month (y : Int)
  refine ⟨_, _, _, rfl, length_decDigits _ _, length_decDigits _ _, length_decDigits _ _, decimal_digits (by omega),
    decimal_digits (by omega), decimal_digits (by omega), ?_⟩
  rw [hy]; exact hd

theorem format_timestamp_text {t : Time} (h : Spec.PlainTime t) : ∃ a b, t.format timestampFormat = a ++ b ∧
    Spec.DateText a t.month t.day t.year.toNat ∧ Spec.ClockText b t.hour t.min t.sec := by
  refine ⟨t.format dateFormat, decDigits 2 t.hour ++ decDigits 2 t.min ++ decDigits 2 t.sec, ?_, format_date_text h, ?_⟩
  · rw [Time.format_timestamp ((spec_plainTime_iff t).1 h), Time.format_date ((spec_plainTime_iff t).1 h)]
    simp [List.append_assoc]
  · obtain ⟨y, -, -, -, hh, hmi, hs, -⟩ := h
    exact ⟨_, _, _, rfl, length_decDigits _ _, length_decDigits _ _, length_decDigits _ _, decimal_digits (by omega),
      decimal_digits (by omega), decimal_digits (by omega), hh, hmi, hs⟩

theorem packed_date_text {t : Time} (h : Spec.PlainTime t) : ∃ mid, packedTimeString t dateFormat 5 = 0x00 :: mid ++ [0x73] ∧
    mid.length = 3 ∧ Spec.BigEndian mid (t.month * 1000000 + t.day * 10000 + t.year.toNat) := by
  have hp' := (spec_plainTime_iff t).1 h
  have hv := format_date_val hp'
  refine ⟨_, packedTimeString_date hp', by simp, ?_⟩
  rw [spec_bigEndian_iff, beVal_beBytes, Nat.mod_eq_of_lt (by omega), Time.format_date hp']
  obtain ⟨y, hy, hy9, hd, -⟩ := h
  have hd' := (spec_dayExists_iff _ _ _).1 hd
  have hdl := daysIn_le t.month (y : Int)
  simp only [digitsVal_append, length_decDigits]
  rw [digitsVal_decDigits_of_lt (by omega), digitsVal_decDigits_of_lt (by omega), digitsVal_decDigits_of_lt (by omega)]
  omega

theorem packed_timestamp_text {t : Time} (h : Spec.PlainTime t) :
    ∃ mid, packedTimeString t timestampFormat 8 = 0x00 :: mid ++ [0x73] ∧ mid.length = 6 ∧
      Spec.BigEndian mid ((t.month * 1000000 + t.day * 10000 + t.year.toNat) * 1000000 + t.hour * 10000 + t.min * 100 + t.sec) := by
  have hp' := (spec_plainTime_iff t).1 h
  have hv := format_timestamp_val hp'
  refine ⟨_, packedTimeString_timestamp hp', by simp, ?_⟩
  rw [spec_bigEndian_iff, beVal_beBytes, Nat.mod_eq_of_lt (by omega), Time.format_timestamp hp']
  obtain ⟨y, hy, hy9, hd, hh, hmi, hs, -⟩ := h
  have hd' := (spec_dayExists_iff _ _ _).1 hd
  have hdl := daysIn_le t.month (y : Int)
  simp only [digitsVal_append, length_decDigits]
  rw [digitsVal_decDigits_of_lt (by omega), digitsVal_decDigits_of_lt (by omega), digitsVal_decDigits_of_lt (by omega),
    digitsVal_decDigits_of_lt (by omega), digitsVal_decDigits_of_lt (by omega), digitsVal_decDigits_of_lt (by omega)]
  omega

theorem isZero_noTime {t : Time} (h : Spec.PlainTime t) : t.isZero = true ↔ t = Spec.noTime := by
  have hp' := (spec_plainTime_iff t).1 h
  exact Time.isZero_iff hp'.1 hp'.2.2.2.2

/-! ### Single fields -/

theorem narrow_of_sized {e : Field} {s : Bytes} (hs : Spec.Sized e (.str s)) : Narrow e.len s := by
  obtain ⟨cs, hcs⟩ := chars_exists s
  have h1 := hs cs hcs
  rw [narrow_iff, chars_takeRunes hcs]
  rw [← chars_takeRunes hcs, runeCount_takeRunes, chars_runeCount hcs, chars_takeRunes hcs]
  have : ∀ l : List Bytes, (∀ c ∈ l, c.length = 1) → l.flatten.length = l.length := by
    intro l hl
    induction l with
    | nil => rfl
    | cons a l ih =>
      rw [List.flatten_cons, List.length_append, hl a List.mem_cons_self,
        ih fun c hc => hl c (List.mem_cons_of_mem _ hc), List.length_cons]
      omega
  rw [this _ h1, List.length_take]

theorem fmtLeftStr_narrow {n : Nat} {s : Bytes} (h : Narrow n s) :
    fmtLeftStr n s = s.take n ++ List.replicate (n - s.length) 32 := by
  have h1 := (fmtLeftStr_length_iff n s).2 h
  unfold fmtLeftStr at h1 ⊢
  rw [takeRunes_narrow h] at h1 ⊢
  simp only [List.length_append, List.length_replicate, List.length_take] at h1
  have : n - runeCount (s.take n) = n - s.length := by omega
  rw [← this]

theorem text_filled {e : Field} {v : Val} {k : Kind} (hw : Spec.WidthOk e = true) (hk : v.hasKind k = true)
    (hek : Spec.KindOk e k = true) (hs : Spec.Sized e v) (ho : e.omitted = false) : Spec.Filled e v (toStr e (some v)) := by
  have hl := sized_length hw hk hek hs (by simp [ho])
  rw [toStr_some (by simp [ho])] at hl ⊢
  unfold Spec.Filled
  unfold valText at hl ⊢
  cases ht : e.typ <;> cases v <;> cases k <;>
    simp only [Spec.WidthOk, Spec.KindOk, ht, Val.hasKind, Bool.false_eq_true, decide_true, decide_false,
      Bool.or_self, decide_eq_true_eq, reduceCtorEq] at hw hk hek hl ⊢
  case alphanumeric.str.str s => exact fmtLeftStr_narrow (narrow_of_sized hs)
  case numeric.int.int i | numeric.int.int64 i =>
    refine ⟨hl, fun h0 h1 => ?_⟩
    obtain ⟨n, rfl⟩ := Int.eq_ofNat_of_zero_le h0
    have h1' : n < 10 ^ e.len := by exact_mod_cast h1
    rw [fmtInt_natCast, fmtZeroStr_fmtNat hw h1']
    exact decimal_digits h1'
  case timestamp.time.time t =>
    refine ⟨fun h => ?_, fun h => ?_⟩
    · rw [if_pos ((isZero_noTime hs).2 h), hw]
      rfl
    · rw [if_neg fun h' => h ((isZero_noTime hs).1 h')]
      exact format_timestamp_text hs
  case date.time.time t =>
    refine ⟨fun h => ?_, fun h => ?_⟩
    · rw [if_pos ((isZero_noTime hs).2 h), hw]
      rfl
    · rw [if_neg fun h' => h ((isZero_noTime hs).1 h')]
      exact format_date_text hs
  case descriptor.int.int i | descriptor.int.int64 i =>
    refine ⟨_, rfl, length_beBytes _ _, fun h0 h1 => ?_⟩
    rw [if_pos ⟨h0, h1⟩, spec_bigEndian_iff, beVal_beBytes, Nat.mod_eq_of_lt (by omega)]
  case packedTimestamp.time.time t => exact packed_timestamp_text hs
  case packedDate.time.time t => exact packed_date_text hs
  case packedNumber.int.int i | packedNumber.int.int64 i =>
    refine ⟨hl, fun h0 h1 => ?_⟩
    obtain ⟨n, rfl⟩ := Int.eq_ofNat_of_zero_le h0
    have h1' : n < 256 ^ e.len := by exact_mod_cast h1
    rw [packedNumberString_nonneg h0, spec_bigEndian_iff, beVal_beBytes]
    exact (Nat.mod_eq_of_lt h1').symm ▸ rfl

theorem decDigits_zero (n : Nat) : decDigits n 0 = List.replicate n 48 := by
  induction n with
  | zero => rfl
  | succ n ih =>
    rw [decDigits, Nat.zero_div, ih, List.replicate_succ']
    rfl

/-- The type of a packed date. -/
def packedTime (e : Field) : Bool := decide (e.typ = .packedDate ∨ e.typ = .packedTimestamp)

theorem text_unset {e : Field} {v : Val} {k : Kind} (hw : Spec.WidthOk e = true) (hk : v.hasKind k = true)
    (hek : Spec.KindOk e k = true) (hu : Spec.Unset v) (ho : e.omitted = false) (hp : packedTime e = false) :
    toStr e (some v) = Spec.fillOf e := by
  rw [toStr_some (by simp [ho])]
  unfold Spec.fillOf valText
  unfold packedTime at hp
  cases ht : e.typ <;> cases v <;> cases k <;>
    simp only [Spec.WidthOk, Spec.KindOk, ht, Val.hasKind, Bool.false_eq_true, decide_true, decide_false,
      Bool.or_self, decide_eq_true_eq, reduceCtorEq, Spec.Unset, or_true, true_or, or_self] at hw hk hek hu hp ⊢
  case alphanumeric.str.str s =>
    subst hu
    rw [fmtLeftStr_ascii (by simp [Ascii])]
    simp
  case numeric.int.int i | numeric.int.int64 i =>
    subst hu
    rw [show fmtInt 0 = fmtNat 0 from rfl, fmtZeroStr_fmtNat hw (Nat.pow_pos (by decide))]
    clear hw hek
    generalize e.len = n
    exact decDigits_zero n
  case timestamp.time.time t | date.time.time t =>
    subst hu
    exact if_pos rfl
  case descriptor.int.int i | descriptor.int.int64 i =>
    subst hu
    rw [hw]
    rfl
  case packedNumber.int.int i | packedNumber.int.int64 i =>
    subst hu
    exact if_neg (by omega)

theorem text_unset_packed {e : Field} (ho : e.omitted = false) :
    (e.typ = .packedDate → toStr e (some (.time Spec.noTime)) = [0x00, 0x0F, 0x69, 0x51, 0x73]) ∧
    (e.typ = .packedTimestamp →
      toStr e (some (.time Spec.noTime)) = [0x00, 0x00, 0xEB, 0x28, 0xC0, 0x36, 0x40, 0x73]) := by
  constructor <;> intro ht <;> rw [toStr_some (by simp [ho])] <;> simp only [valText, ht] <;> decide +kernel

/-! ### Records -/

variable {fmt : Format} {decl : List (F × FieldDecl)} {L : Nat}

theorem Layout.place (h : Layout fmt decl L) {fs : Fields} (ht : fs.Typed decl) (hs : Spec.SizedAll fmt fs) {f : F} {e : Field}
    (he : (f, e) ∈ fmt) (hb : f ≠ .BlockDescriptorWord) (rest : Bytes) :
    Spec.placeOf (bdwText fmt fs).length e (fieldsString fmt fs ++ rest) = toStr e (fs.get f) := by
  obtain ⟨-, -, h1⟩ := (rowsText_contig h.main.2.1 (h.widths (h.widthAll_of_sized ht hs))).2 _ (h.mem_main he hb)
  have := h1 rest
  rw [Nat.sub_zero] at this
  rw [Spec.placeOf, h.text, List.append_assoc, ← List.drop_drop, List.drop_left]
  exact this

theorem Layout.get_some (h : Layout fmt decl L) {fs : Fields} (ht : fs.Typed decl) {f : F} {v : Val} {e : Field}
    (he : (f, e) ∈ fmt) (hb : f ≠ .BlockDescriptorWord) (hv : (f, v) ∈ fs) :
    fs.get f = some v ∧ ∃ k, Spec.WidthOk e = true ∧ v.hasKind k = true ∧ Spec.KindOk e k = true ∧ e.omitted = false := by
  obtain ⟨d, hd, hk⟩ := ht.mem (f := f) (v := v) hv
  obtain ⟨h1, h2, -⟩ := h.row hd he
  exact ⟨Fields.get_of_mem (by rw [ht.names]; exact h.structNames) hv, d.kind, h1, hk, h2, (h.main.2.2 (f, e) (h.mem_main he hb)).2.2⟩

end Metro2
