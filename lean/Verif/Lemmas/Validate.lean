import Verif.Lemmas.Files
import Verif.Lemmas.Field
import Verif.Lemmas.Store
import Verif.Lemmas.Reread

/-! Lemmas for the validation properties C28-C31. -/

namespace Metro2
open Regex

theorem matches_digits {s : Bytes} (h : ∀ c ∈ s, isDigit c = true) : Matches (star phoneDigit) s := by
  induction s with
  | nil => exact .starNil
  | cons c s ih =>
    have := Matches.starCons (Matches.cls (h c List.mem_cons_self)) (ih fun d hd => h d (List.mem_cons_of_mem _ hd))
    exact this

theorem matches_plus_digits {s : Bytes} (hne : s ≠ []) (h : ∀ c ∈ s, isDigit c = true) :
    Matches (plus phoneDigit) s := by
  cases s with
  | nil => exact absurd rfl hne
  | cons c s =>
    have := Matches.cat (Matches.cls (h c List.mem_cons_self)) (matches_digits fun d hd => h d (List.mem_cons_of_mem _ hd))
    exact this

theorem matches_opt_nil (r : Regex) : Matches (opt r) [] := .altR .eps

theorem matches_phoneExt : Matches phoneExt [] := matches_opt_nil _

theorem matches_phoneBody {s : Bytes} (hne : s ≠ []) (h : ∀ c ∈ s, isDigit c = true) : Matches phoneBody s := by
  have h1 := (matches_opt_nil (byte 40)).cat ((matches_plus_digits hne h).cat
    ((matches_opt_nil (byte 41)).cat (matches_opt_nil phoneSep)))
  have := Matches.starCons h1 .starNil
  simpa [phoneBody] using this

theorem padLeft_digits {n : Nat} {s : Bytes} (h : ∀ c ∈ s, isDigit c = true) :
    ∀ c ∈ padLeft n 48 s, isDigit c = true := by
  intro c hc
  simp only [padLeft, List.mem_append, List.mem_replicate] at hc
  rcases hc with ⟨-, rfl⟩ | hc
  · decide
  · exact h c hc

theorem padLeft_ne_nil {n : Nat} {s : Bytes} (h : s ≠ []) : padLeft n 48 s ≠ [] := by
  simp [padLeft, h]

/-- The telephone number check accepts every number. -/
theorem isPhoneNumber_none (i : Int) : isPhoneNumber i = none := by
  unfold isPhoneNumber
  rw [if_pos]
  rw [rmatch_iff]
  cases i with
  | ofNat k =>
    have h1 : Matches phonePrefix [] := matches_opt_nil _
    have := h1.cat ((matches_phoneBody (padLeft_ne_nil (n := 10) (fmtNat_ne_nil k))
      (padLeft_digits (fmtNat_all k))).cat (matches_phoneExt))
    simpa [phoneRegex, fmtIntZero] using this
  | negSucc k =>
    have hsep : Matches phoneSep [45] := .cls (by decide)
    have h1 : Matches phonePrefix [45] := .altL ((matches_opt_nil _).cat (.altL hsep))
    have := h1.cat ((matches_phoneBody (padLeft_ne_nil (n := 9) (fmtNat_ne_nil (k + 1)))
      (padLeft_digits (fmtNat_all (k + 1)))).cat (matches_phoneExt))
    simpa [phoneRegex, fmtIntZero] using this

theorem validateLoop_congr {fmt fmt' : Format} {custom custom' : F → Option Err} {fs : Fields}
    (h : ∀ p ∈ fs, missing fmt p.1 p.2 = missing fmt' p.1 p.2 ∧ custom p.1 = custom' p.1) :
    validateLoop fmt custom fs = validateLoop fmt' custom' fs := by
  induction fs with
  | nil => rfl
  | cons p fs ih =>
    obtain ⟨f, v⟩ := p
    have h0 := h (f, v) List.mem_cons_self
    simp only at h0
    rw [validateLoop, validateLoop, h0.1, h0.2, ih fun p hp => h p (List.mem_cons_of_mem _ hp)]

theorem validateLoop_set {fmt : Format} {custom custom' : F → Option Err} {fs : Fields} {f : F} {v : Val}
    (hm : ∀ w, missing fmt f w = false) (hc : ∀ g, custom g = custom' g) :
    validateLoop fmt custom (fs.set f v) = validateLoop fmt custom' fs := by
  have hc : custom = custom' := funext hc
  subst hc
  induction fs with
  | nil => rfl
  | cons p fs ih =>
    obtain ⟨g, w⟩ := p
    rw [Fields.set, List.map_cons]
    rw [Fields.set] at ih
    by_cases hg : g = f
    · subst hg
      rw [if_pos rfl, validateLoop, validateLoop, ih, hm, hm]
    · rw [if_neg hg, validateLoop, validateLoop, ih]

theorem missing_of_not_required {fmt : Format} {f : F}
    (h : (fmt.lookup f).all fun e => decide (e.req ≠ .required)) (w : Val) : missing fmt f w = false := by
  unfold missing
  cases hl : fmt.lookup f with
  | none => rfl
  | some e => simp [hl] at h; simp [h]

theorem Fields.int_set_other {fs : Fields} {f g : F} (h : g ≠ f) (v : Val) : (fs.set f v).int g = fs.int g := by
  rw [Fields.int, Fields.int, get_set_other h]

theorem Fields.str_set_other {fs : Fields} {f g : F} (h : g ≠ f) (v : Val) : (fs.set f v).str g = fs.str g := by
  rw [Fields.str, Fields.str, get_set_other h]

theorem Fields.time_set_other {fs : Fields} {f g : F} (h : g ≠ f) (v : Val) : (fs.set f v).time g = fs.time g := by
  rw [Fields.time, Fields.time, get_set_other h]

theorem baseCustom_phone (enc : Enc) (fs : Fields) (v : Val) (g : F) :
    baseCustom enc (fs.set .TelephoneNumber v) g = baseCustom enc fs g := by
  unfold baseCustom
  split <;> first | rfl | simp only [isPhoneNumber_none] | simp only [Fields.int_set_other, Fields.str_set_other, Fields.time_set_other, ne_eq, reduceCtorEq, not_false_eq_true]

theorem segCustom_phone (k : SegKind) (fs : Fields) (v : Val) (g : F) :
    segCustom k (fs.set .TelephoneNumber v) g = segCustom k fs g := by
  unfold segCustom
  split <;> first | rfl | simp only [isPhoneNumber_none] | simp only [Fields.int_set_other, Fields.str_set_other, Fields.time_set_other, ne_eq, reduceCtorEq, not_false_eq_true]

/-! ### K2 -/

/-- The value that a field of an accepted segment was read from. -/
theorem seg_parse_value {k : SegKind} {t : Seg} {p : Bytes} {isVar : Bool} {n : Nat}
    (h : (Seg.new k).parse p isVar = (t, .ok n)) {f : F} (hf : f ∈ k.struct.map Prod.fst) {e : Field}
    (he : k.format.lookup f = some e) :
    ∃ v, (f, v) ∈ t.fields ∧ parseValue e ((p.drop e.start).take e.len) = .ok v := by
  have hs := (seg_parse_safe (s := Seg.new k) (Seg.new_typed k) p isVar).2.1
  rw [h] at hs
  obtain ⟨-, -, -, h4⟩ := seg_parse_ok h
  simp only [Seg.new_kind] at h4 hs
  have hb : ∀ p ∈ (Seg.new k).fields, p.1 ≠ .BlockDescriptorWord := by
    intro p hp
    obtain ⟨d, hd⟩ := mem_decl_of_typed (Seg.new_typed k) hp
    exact seg_noBdw k _ hd
  have hsl := parseLoop_inv hb h4
  rw [← hs.names] at hf
  obtain ⟨⟨g, v⟩, hq, rfl⟩ := List.mem_map.1 hf
  obtain ⟨-, e', h5, -, -, h6⟩ := hsl _ hq
  simp only at h5 h6 he
  rw [he] at h5
  cases h5
  exact ⟨v, hq, h6⟩

theorem trimRight_blank {s : Bytes} (h : ∀ c ∈ s, c = 32) : trimRight s = [] := by
  have : s = List.replicate s.length 32 := List.eq_replicate_iff.2 ⟨rfl, h⟩
  rw [this]
  have := trimRight_append_blanks [] s.length
  simpa [trimRight] using this

theorem k2_blank_invalid {s : Seg} {p : Bytes} {isVar : Bool} {n : Nat}
    (h : (Seg.new .k2).parse p isVar = (s, .ok n)) (hb : ∀ c ∈ (p.drop 3).take 30, c = 32) :
    s.validate ≠ none := by
  obtain ⟨v, hv, hp⟩ := seg_parse_value h (f := .PurchasedName) (by decide +kernel)
    (e := ⟨3, 30, .alphanumeric, false, false, .required⟩) (by decide +kernel)
  obtain ⟨-, -, hk, -⟩ := seg_parse_ok h
  have hk : s.kind = .k2 := hk
  simp only [parseValue, trimRight_blank hb, Except.ok.injEq] at hp
  subst hp
  intro hval
  unfold Seg.validate at hval
  rw [validateLoop_none] at hval
  have := (hval _ hv).1
  rw [hk] at this
  revert this
  decide +kernel

theorem segmentIdent_inj : ∀ k k' : SegKind, Spec.segmentIdent k = Spec.segmentIdent k' → k = k' := by
  intro k k'
  cases k <;> cases k' <;> decide +kernel

theorem segmentIdent_length (k : SegKind) : (Spec.segmentIdent k).length = 2 := by cases k <;> decide +kernel

/-- A byte string can be cut into segments in one way only. -/
theorem segmented_unique {b : Bytes} {l l' : List (SegKind × Bytes)} (h : Spec.Segmented b l)
    (h' : Spec.Segmented b l') : l = l' := by
  have hlen : ∀ k, 2 < Spec.segmentLength k := by intro k; cases k <;> decide
  induction h generalizing l' with
  | @done b hb =>
    generalize hb' : b = b2 at h'
    cases h' with
    | done => rfl
    | @step k p rest l hi hl hr =>
      subst hb'
      exfalso
      rcases hb with hb | hb
      · exact hb k (hi.trans (List.prefix_append _ _))
      · have := hlen k
        simp only [List.length_append] at hb
        omega
  | @step k p rest l hi hl hr ih =>
    generalize hb' : p ++ rest = b2 at h'
    cases h' with
    | done hb =>
      subst hb'
      exfalso
      rcases hb with hb | hb
      · exact hb k (hi.trans (List.prefix_append _ _))
      · have := hlen k
        simp only [List.length_append] at hb
        omega
    | @step k' p' rest' l2 hi' hl' hr' =>
      have e1 : Spec.segmentIdent k = (p ++ rest).take 2 := by
        obtain ⟨u, rfl⟩ := hi
        rw [List.append_assoc, List.take_append_of_le_length (by rw [segmentIdent_length]),
          List.take_of_length_le (by rw [segmentIdent_length])]
      have e2 : Spec.segmentIdent k' = (p' ++ rest').take 2 := by
        obtain ⟨u, rfl⟩ := hi'
        rw [List.append_assoc, List.take_append_of_le_length (by rw [segmentIdent_length]),
          List.take_of_length_le (by rw [segmentIdent_length])]
      have hk : k = k' := segmentIdent_inj _ _ (by rw [e1, e2, hb'])
      subst hk
      obtain ⟨rfl, rfl⟩ := List.append_inj hb' (by rw [hl, hl'])
      rw [ih hr']

/-! ### Both formats -/

theorem base_missing_eq : ∀ p ∈ baseSegmentStruct,
    (baseSegmentCharacterFormat.lookup p.1).map (·.req) = (baseSegmentPackedFormat.lookup p.1).map (·.req) := by
  decide +kernel

theorem header_missing_eq : ∀ p ∈ headerRecordStruct,
    (headerRecordCharacterFormat.lookup p.1).map (·.req) = (headerRecordPackedFormat.lookup p.1).map (·.req) := by
  decide +kernel

theorem trailer_missing_eq : ∀ p ∈ trailerRecordStruct,
    (trailerRecordCharacterFormat.lookup p.1).map (·.req) = (trailerRecordPackedFormat.lookup p.1).map (·.req) := by
  decide +kernel

theorem missing_congr {fmt fmt' : Format} {f : F}
    (h : (fmt.lookup f).map (·.req) = (fmt'.lookup f).map (·.req)) (v : Val) :
    missing fmt f v = missing fmt' f v := by
  unfold missing
  revert h
  generalize fmt.lookup f = a
  generalize fmt'.lookup f = b
  cases a <;> cases b <;> simp
  intro h
  rw [h]

theorem baseCustom_enc {fs : Fields} (h : 90 ∉ fs.str .PaymentHistoryProfile) (f : F) :
    baseCustom .character fs f = baseCustom .packed fs f := by
  have key : ∀ s : Bytes, 90 ∉ s → s.all (Enc.character.paymentHistoryCodes.contains ·) =
      s.all (Enc.packed.paymentHistoryCodes.contains ·) := by
    intro s hs
    induction s with
    | nil => rfl
    | cons c s ih =>
      simp only [List.mem_cons, not_or] at hs
      rw [List.all_cons, List.all_cons, ih hs.2]
      congr 1
      have : ∀ c : UInt8, 90 ≠ c → Enc.character.paymentHistoryCodes.contains c =
        Enc.packed.paymentHistoryCodes.contains c := by
        intro c hc
        have e : (Enc.character.paymentHistoryCodes.contains c = true) ↔
            (Enc.packed.paymentHistoryCodes.contains c = true) := by
          simp only [Enc.paymentHistoryCodes, paymentHistoryCodes, packedPaymentHistoryCodes, List.contains_iff_mem,
            List.mem_cons, List.not_mem_nil, or_false, hc.symm, false_or]
        exact Bool.eq_iff_iff.2 e
      exact this c hs.1
  unfold baseCustom
  split <;> first | rfl | simp only [key _ h]

end Metro2
