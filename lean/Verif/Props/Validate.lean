import Verif.Lemmas.Validate
import Verif.Lemmas.WellFormed
import Verif.Props.Files
import Verif.Props.Store

/-! Properties C28 to C31: validation of data records. -/

namespace Metro2

open Samples

/-! ### C28 -/

/-- The number has ten digits, the first not zero. -/
def Spec.TenDigits (i : Int) : Prop := 10 ^ 9 ≤ i ∧ i < 10 ^ 10

/-- C28 is violated completely: the telephone number has no influence on the validation of a data record. -/
theorem C28_ignored_base (enc : Enc) (fs : Fields) (g : Segs) (i : Int) :
    (Record.base enc (fs.set .TelephoneNumber (.int i)) g).validate = (Record.base enc fs g).validate := by
  refine validateLoop_set (missing_of_not_required ?_) (baseCustom_phone enc fs _)
  cases enc <;> decide +kernel

/-- C28. Nor on that of J1 and J2 segments. -/
theorem C28_ignored_segment (s : Seg) (i : Int) :
    Seg.validate ⟨s.kind, s.fields.set .TelephoneNumber (.int i)⟩ = s.validate := by
  refine validateLoop_set (missing_of_not_required ?_) (segCustom_phone s.kind s.fields _)
  cases s.kind <;> decide +kernel

/-- C28 is violated by concrete records: data records and J1 segments with numbers that are negative, of one digit
and of 19 digits are valid. -/
theorem C28_violated : ∀ i ∈ [-5, 7, 9223372036854775807], ¬ Spec.TenDigits i ∧
    (∀ enc, (Record.base enc ((base 0 426).set .TelephoneNumber (.int i)) {}).validate = none) ∧
    Seg.validate ⟨.j1, j1.fields.set .TelephoneNumber (.int i)⟩ = none := by
  intro i hi
  refine ⟨?_, fun enc => ?_, ?_⟩
  · simp only [List.mem_cons, List.not_mem_nil, or_false] at hi
    unfold Spec.TenDigits
    rcases hi with rfl | rfl | rfl <;> decide
  · rw [C28_ignored_base]
    cases enc <;> decide +kernel
  · have := C28_ignored_segment j1 i
    exact this.trans (by decide +kernel)

/-- C28, the part that holds: a ten-digit number is never the reason for a rejection. The full property (that all
others are rejected) fails, see `C28_violated`. -/
theorem C28_ten_digits_partial (enc : Enc) (fs : Fields) (g : Segs) (i : Int) (_hi : Spec.TenDigits i)
    (h : (Record.base enc fs g).validate = none) :
    (Record.base enc (fs.set .TelephoneNumber (.int i)) g).validate = none := by
  rw [C28_ignored_base]; exact h

/-- Cases of `C28_ignored_base` and `C28_ignored_segment`. -/
example : Spec.TenDigits 1234567890 ∧ (Record.base .packed (base 370 366) {}).validate = none := by
  unfold Spec.TenDigits; decide +kernel

/-! ### C29 -/

/-- C29, the part that holds: a valid data record with fitting values (in particular no text value ends in a blank) is
valid after writing and reading. The full property fails, see `C29_violated`. -/
theorem C29_still_valid_partial (enc : Enc) (isVar : Bool) (fs : Fields) (g : Segs)
    (h : Spec.GoodBase enc isVar fs g) (rest : Bytes) (hr : Spec.NextOk enc fs g rest)
    (hv : (Record.base enc fs g).validate = none) :
    ∃ r n, (newBase enc).parse ((Record.base enc fs g).string ++ rest) isVar = (r, .ok n) ∧ r.validate = none :=
  ⟨_, _, base_reread h hr, hv⟩

theorem goodBase_of_B {enc : Enc} {isVar : Bool} {fs : Fields} {g : Segs}
    (h1 : typedB baseSegmentStruct fs = true) (h2 : fitsAllB enc.baseFormat fs = true) (h3 : segsOkB g = true)
    (h4 : enc = .packed → isVar = true)
    (h5 : (if isVar then decide (0 < Spec.bdw fs) && decide (Spec.bdw fs ≤ Spec.wordMax enc)
      else decide (Spec.bdw fs = 0)) = true)
    (h6 : decide ((Spec.contentLength enc fs g : Nat) ≤ Spec.sizeWord isVar fs) = true) :
    Spec.GoodBase enc isVar fs g := by
  refine ⟨typed_of_typedB h1, fitsAll_of_fitsAllB (layout_base enc).names h2, segsOk_of_B h3, h4, ?_,
    of_decide_eq_true h6⟩
  cases isVar with
  | true => simpa using h5
  | false => simpa using h5

theorem nextOk_of_B {enc : Enc} {fs : Fields} {g : Segs} {rest : Bytes}
    (h : (SegKind.all.all fun k => !(Spec.segmentIdent k).isPrefixOf rest) = true) : Spec.NextOk enc fs g rest := by
  intro _ k hk
  have hm : k ∈ SegKind.all := by cases k <;> decide
  have := List.all_eq_true.1 h k hm
  rw [List.isPrefixOf_iff_prefix.2 hk] at this
  cases this

example : Spec.GoodBase .packed true (base 1200 1196) segs ∧ Spec.NextOk .packed (base 1200 1196) segs [] ∧
    (Record.base .packed (base 1200 1196) segs).validate = none :=
  ⟨goodBase_of_B (by decide +kernel) (by decide +kernel) (by decide +kernel) (by decide) (by decide +kernel)
    (by decide +kernel), nextOk_of_B (by decide +kernel), by decide +kernel⟩

/-- The text of a record does not show blanks at the end of the payment history profile. -/
theorem fieldsString_history {enc : Enc} {fs : Fields} {p : Bytes} (hp : fs.get .PaymentHistoryProfile = some (.str p))
    (hl : p.length ≤ 24) (ha : Ascii p) :
    fieldsString enc.baseFormat (fs.set .PaymentHistoryProfile (.str (p ++ List.replicate (24 - p.length) 32))) =
      fieldsString enc.baseFormat fs := by
  have hrow : ∀ q ∈ toSpecifications enc.baseFormat, q.1 = .PaymentHistoryProfile →
      q.2.typ = .alphanumeric ∧ q.2.len = 24 := by cases enc <;> decide +kernel
  unfold fieldsString
  congr 1
  apply List.map_congr_left
  intro q hq
  rw [Fields.get_set]
  by_cases hf : q.1 = .PaymentHistoryProfile
  · obtain ⟨h1, h2⟩ := hrow q hq hf
    have hbl : Ascii (p ++ List.replicate (24 - p.length) 32) := by
      intro c hc
      rcases List.mem_append.1 hc with hc | hc
      · exact ha c hc
      · rw [List.eq_of_mem_replicate hc]; decide
    rw [if_pos hf, hf, hp]
    simp only [Option.map_some, toStr, reduceCtorEq, and_false, if_false, valText, h1, h2]
    rw [fmtLeftStr_ascii hbl, fmtLeftStr_ascii ha, List.take_of_length_le (by simp; omega),
      List.take_of_length_le hl]
    simp
    omega
  · rw [if_neg hf]

/-- C29 fails for every record whose payment history profile ends in blanks: `fs` has the profile without
these blanks, the record with them re-reads as `fs`, and `fs` is never valid. -/
theorem C29_blank_history (enc : Enc) (isVar : Bool) (fs : Fields) (g : Segs)
    (h : Spec.GoodBase enc isVar fs g) (rest : Bytes) (hr : Spec.NextOk enc fs g rest) (p : Bytes)
    (hp : (.PaymentHistoryProfile, .str p) ∈ fs) (hl : p.length < 24) :
    (newBase enc).parse ((Record.base enc
        (fs.set .PaymentHistoryProfile (.str (p ++ List.replicate (24 - p.length) 32))) g).string ++ rest) isVar =
      (.base enc fs g, .ok (Spec.sizeWord isVar fs)) ∧ (Record.base enc fs g).validate ≠ none := by
  have hn : (fs.map (·.1)).Nodup := by rw [h.typed.names]; exact (layout_base enc).structNames
  have hget := Fields.get_of_mem hn hp
  have hfit : Ascii p := by
    obtain ⟨e, he1, -, hk, -⟩ := (layout_base enc).hasRow (.PaymentHistoryProfile, ⟨.str, b! "paymentHistoryProfile", false⟩) (by decide +kernel)
    have := h.fits _ hp (by simp) _ he1
    have hrow : ∀ q ∈ enc.baseFormat, q.1 = .PaymentHistoryProfile → q.2.typ = .alphanumeric := by
      cases enc <;> decide +kernel
    have htyp : e.typ = .alphanumeric := hrow _ he1 rfl
    obtain ⟨st, len, typ, zf, om, req⟩ := e
    simp only at htyp
    subst htyp
    simp only [Spec.Fits, Spec.FitsText] at this
    exact ascii_of_permitted this.2.1
  refine ⟨?_, ?_⟩
  · have : (Record.base enc (fs.set .PaymentHistoryProfile (.str (p ++ List.replicate (24 - p.length) 32))) g).string =
        (Record.base enc fs g).string := by
      unfold Record.string
      simp only
      rw [fieldsString_history hget hl.le hfit]
      congr 1
      unfold baseBlockSize
      simp only [Fields.int_set_other, ne_eq, reduceCtorEq, not_false_eq_true]
    rw [this]
    exact base_reread h hr
  · intro hv
    unfold Record.validate at hv
    rw [validateLoop_none] at hv
    have := (hv _ hp).2
    simp only [baseCustom, Fields.str, hget, check] at this
    rw [if_neg] at this
    · cases this
    · simp
      omega

/-- A payment history of 20 months. -/
def shortHistory : Bytes := b! "BBBBBBBBBBBBBBBBBBBB"

theorem shortHistory_good : Spec.GoodBase .character true
    (base 1200 1196 [(.PaymentHistoryProfile, .str shortHistory)]) segs :=
  goodBase_of_B (by decide +kernel) (by decide +kernel) (by decide +kernel) (by decide) (by decide +kernel)
    (by decide +kernel)

example : (.PaymentHistoryProfile, .str shortHistory) ∈ base 1200 1196 [(.PaymentHistoryProfile, .str shortHistory)] ∧
    shortHistory.length < 24 := by decide +kernel

/-- C29 is violated: a valid record is read back without error as an invalid one. -/
theorem C29_violated : ∃ fs r n, (Record.base .character fs segs).validate = none ∧
    (newBase .character).parse (Record.base .character fs segs).string true = (r, .ok n) ∧
    r.validate = some (.invalidValue .PaymentHistoryProfile) := by
  have h := C29_blank_history .character true _ segs shortHistory_good [] (nextOk_of_B (by decide +kernel)) shortHistory
    (by decide +kernel) (by decide +kernel)
  rw [List.append_nil] at h
  exact ⟨_, _, _, by decide +kernel, h.1, by decide +kernel⟩

/-! ### C30 -/

/-- C30 fails for every such record: whatever else it contains, a data record that contains a K2 segment with a blank name
is not accepted by `Parse`. -/
theorem C30_never_accepted (enc : Enc) (rec : Bytes) (isVar : Bool) (fs : Fields) (g : Segs) (n : Int)
    (h : (newBase enc).parse rec isVar = (.base enc fs g, .ok n)) (pieces : List (SegKind × Bytes))
    (hs : Spec.Segmented (rec.drop (Spec.segmentsStart enc fs)) pieces) (p : Bytes) (hp : (.k2, p) ∈ pieces) :
    ¬ ∀ c ∈ (p.drop 3).take 30, c = ' '.toNat.toUInt8 := by
  intro hb
  obtain ⟨l, h1, h2, -⟩ := C26_segments_kept_partial enc rec isVar fs g n h
  have := segmented_unique hs h1
  subst this
  obtain ⟨s, h3, h4⟩ := h2 _ hp
  exact k2_blank_invalid h3 hb h4

/-- Non-vacuity: the hypotheses hold for an accepted record with a K2 segment. -/
example : ∃ fs g n pieces p, (newBase .character).parse (Record.base .character (base 1000 996) { k2 := some k2 }).string true =
      (.base .character fs g, .ok n) ∧
    Spec.Segmented ((Record.base .character (base 1000 996) { k2 := some k2 }).string.drop
      (Spec.segmentsStart .character fs)) pieces ∧ (.k2, p) ∈ pieces := by
  refine ⟨base 1000 996, { k2 := some k2 }, 1000, [(.k2, k2.string)], k2.string, by decide +kernel, ?_, by simp⟩
  have : (Record.base .character (base 1000 996) { k2 := some k2 }).string.drop
      (Spec.segmentsStart .character (base 1000 996)) = k2.string ++ List.replicate 532 32 := by decide +kernel
  rw [this]
  refine .step (by decide +kernel) (by decide +kernel) (.done (.inl ?_))
  intro k
  cases k <;> decide +kernel

/-- A K2 segment with the given indicator and name. -/
def k2With (i : Int) (name : Bytes) : Seg :=
  ⟨.k2, [(.SegmentIdentifier, .str (b! "K2")), (.PurchasedIndicator, .int i), (.PurchasedName, .str name)]⟩

/-- C30 is violated: a data record with a K2 segment that says "remove" and has a blank name is rejected, in all formats
and blockings. The same record with a name of zeros is accepted. -/
theorem C30_violated : ∀ p ∈ [(Enc.character, false, base 0 996), (Enc.character, true, base 1000 996),
      (Enc.packed, true, base 1000 996)],
    ((newBase p.1).parse (Record.base p.1 p.2.2 { k2 := some (k2With 9 []) }).string p.2.1).2 =
      .error (.required .PurchasedName) ∧
    ((newBase p.1).parse (Record.base p.1 p.2.2 { k2 := some (k2With 9 (b! "0000")) }).string p.2.1) =
      (.base p.1 p.2.2 { k2 := some (k2With 9 (b! "0000")) }, .ok (Spec.sizeWord p.2.1 p.2.2)) := by
  decide +kernel

theorem k2_present {f : F} {v : Val} (h : missing k2SegmentFormat f v = false) : missing SegKind.k2.format f v = false := h

theorem k2With_ok {i : Int} {name : Bytes} (hi : i = 1 ∨ i = 2 ∨ i = 9) (hf : Spec.FitsText 30 name) (hn : name ≠ [])
    (h9 : i = 9 → (∀ c ∈ name, c = '0'.toNat.toUInt8) ∨ ∀ c ∈ name, c = '9'.toNat.toUInt8) :
    Spec.SegmentOk .k2 (k2With i name) := by
  refine ⟨rfl, ⟨rfl, rfl, rfl, rfl, rfl, rfl, trivial⟩, ?_, by simp [k2With]; decide +kernel, ?_⟩
  · intro p hp _ e he
    have hrow := lookup_of_mem (layout_segment .k2).names he
    simp only [k2With, List.mem_cons, List.not_mem_nil, or_false] at hp
    rcases hp with rfl | rfl | rfl
    · have : e = ⟨0, 2, .alphanumeric, false, false, .required⟩ := by
        have h : SegKind.k2.format.lookup F.SegmentIdentifier = some ⟨0, 2, .alphanumeric, false, false, .required⟩ := by decide +kernel
        rw [h] at hrow; exact (Option.some.inj hrow).symm
      subst this
      exact ⟨by decide +kernel, by decide +kernel, by decide +kernel⟩
    · have : e = ⟨2, 1, .numeric, false, false, .required⟩ := by
        have h : SegKind.k2.format.lookup F.PurchasedIndicator = some ⟨2, 1, .numeric, false, false, .required⟩ := by decide +kernel
        rw [h] at hrow; exact (Option.some.inj hrow).symm
      subst this
      rcases hi with rfl | rfl | rfl <;> exact ⟨.inl (by decide), by decide, by decide, by decide⟩
    · have : e = ⟨3, 30, .alphanumeric, false, false, .required⟩ := by
        have h : SegKind.k2.format.lookup F.PurchasedName = some ⟨3, 30, .alphanumeric, false, false, .required⟩ := by decide +kernel
        rw [h] at hrow; exact (Option.some.inj hrow).symm
      subst this
      exact hf
  · unfold Seg.validate
    rw [validateLoop_none]
    intro p hp
    simp only [k2With, List.mem_cons, List.not_mem_nil, or_false] at hp
    rcases hp with rfl | rfl | rfl
    · exact ⟨k2_present (v := .str (b! "K2")) (by decide +kernel), rfl⟩
    · rcases hi with rfl | rfl | rfl
      · exact ⟨k2_present (v := .int 1) (by decide +kernel), rfl⟩
      · exact ⟨k2_present (v := .int 2) (by decide +kernel), rfl⟩
      · exact ⟨k2_present (v := .int 9) (by decide +kernel), rfl⟩
    · constructor
      · have h : SegKind.k2.format.lookup F.PurchasedName = some ⟨3, 30, .alphanumeric, false, false, .required⟩ := by decide +kernel
        simp only [k2With, missing, h, Val.isZero, hn, decide_false, Bool.and_false]
      · show check (!decide (i = 9) || validFilledString name) .PurchasedName = none
        rw [check, if_pos]
        rcases hi with rfl | rfl | rfl
        · rfl
        · rfl
        · have : validFilledString name = true := by
            unfold validFilledString allByte
            rcases h9 rfl with h | h
            · have : (name.all fun c => c == 48) = true := by
                rw [List.all_eq_true]; intro c hc; rw [h c hc]; decide
              simp [this]
            · have : (name.all fun c => c == 57) = true := by
                rw [List.all_eq_true]; intro c hc; rw [h c hc]; decide
              simp [this]
          rw [this]; rfl

/-- C30, the part that holds: a data record with a K2 segment is read back if the segment has a name, for the
indicator 9 one consisting of zeros or of nines. The full property also demands this for a blank name, see
`C30_violated`. -/
theorem C30_named_partial (enc : Enc) (isVar : Bool) (fs : Fields) (g : Segs) (i : Int) (name : Bytes)
    (hi : i = 1 ∨ i = 2 ∨ i = 9) (hf : Spec.FitsText 30 name) (hn : name ≠ [])
    (h9 : i = 9 → (∀ c ∈ name, c = '0'.toNat.toUInt8) ∨ ∀ c ∈ name, c = '9'.toNat.toUInt8)
    (h : Spec.GoodBase enc isVar fs { g with k2 := none })
    (hc : (Spec.contentLength enc fs g : Nat) + 34 ≤ Spec.sizeWord isVar fs)
    (rest : Bytes) (hr : Spec.NextOk enc fs { g with k2 := some (k2With i name) } rest) :
    ∃ r n, (newBase enc).parse
        ((Record.base enc fs { g with k2 := some (k2With i name) }).string ++ rest) isVar = (r, .ok n) ∧
      r.getSegments (Spec.segmentName .k2) = [k2With i name] := by
  refine ⟨_, _, base_reread (g := { g with k2 := some (k2With i name) }) ?_ hr, rfl⟩
  obtain ⟨h1, h2, h3, h4, h5, h6⟩ := h
  refine ⟨h1, h2, ?_, h4, h5, ?_⟩
  · exact ⟨h3.j1, h3.j2, h3.k1, fun s hs => (Option.some.inj hs) ▸ k2With_ok hi hf hn h9, h3.k3, h3.k4, h3.l1, h3.n1⟩
  · simp only [Spec.contentLength, Spec.segsLength, Spec.present, reduceCtorEq, if_false] at hc ⊢
    omega

example : Spec.FitsText 30 (b! "999") ∧ Spec.GoodBase .character true (base 1300 1296) { segs with k2 := none } ∧
    (Spec.contentLength .character (base 1300 1296) segs : Nat) + 34 ≤ Spec.sizeWord true (base 1300 1296) :=
  ⟨⟨by decide, by decide, by decide⟩, goodBase_of_B (by decide +kernel) (by decide +kernel) (by decide +kernel) (by decide)
    (by decide +kernel) (by decide +kernel), by decide +kernel⟩

/-! ### C31 -/

/-- C31, the part that holds: both formats give the same verdict, error included, on every data record without the payment history
code 'Z', and on all headers and trailers. The full property has no condition on 'Z', see `C31_violated`. -/
theorem C31_same_verdict_partial (r : Record) (ht : Spec.WellTyped r)
    (hz : ∀ enc fs g, r = .base enc fs g → ∀ p, (.PaymentHistoryProfile, .str p) ∈ fs → 'Z'.toNat.toUInt8 ∉ p) :
    (Spec.inFormat .character r).validate = (Spec.inFormat .packed r).validate := by
  cases r with
  | header enc fs =>
    refine validateLoop_congr fun p hp => ⟨?_, rfl⟩
    obtain ⟨d, hd⟩ := mem_decl_of_typed (ht : fs.Typed _) hp
    exact missing_congr (header_missing_eq _ hd) _
  | trailer enc fs =>
    refine validateLoop_congr fun p hp => ⟨?_, rfl⟩
    obtain ⟨d, hd⟩ := mem_decl_of_typed (ht : fs.Typed _) hp
    exact missing_congr (trailer_missing_eq _ hd) _
  | base enc fs g =>
    refine validateLoop_congr fun p hp => ⟨?_, ?_⟩
    · obtain ⟨d, hd⟩ := mem_decl_of_typed (ht : fs.Typed _) hp
      exact missing_congr (base_missing_eq _ hd) _
    · apply baseCustom_enc
      intro hm
      unfold Fields.str at hm
      split at hm
      · next q hq => exact hz enc fs g rfl q (Fields.mem_of_get hq) hm
      · simp at hm

/-- C31. Hence conversion does not change the validity of a file without 'Z'. -/
theorem C31_file_partial {f : File} (hu : Spec.Uniform f) (ht : Spec.TypedFile f)
    (hz : ∀ r ∈ f.bases, ∀ enc fs g, r = .base enc fs g → ∀ p, (.PaymentHistoryProfile, .str p) ∈ fs →
      'Z'.toNat.toUInt8 ∉ p) (dst : Enc) :
    (f.setType dst.name).1.validate = none ↔ f.validate = none := by
  have key : ∀ (r : Record) (e : Enc), Spec.WellTyped r →
      (∀ enc fs g, r = .base enc fs g → ∀ p, (.PaymentHistoryProfile, .str p) ∈ fs → 'Z'.toNat.toUInt8 ∉ p) →
      (Spec.inFormat e r).validate = r.validate := by
    intro r e h1 h2
    have h := C31_same_verdict_partial r h1 h2
    have hself : Spec.inFormat r.enc r = r := by cases r <;> rfl
    conv => rhs; rw [← hself]
    generalize r.enc = e'
    cases e <;> cases e' <;> first | rfl | exact h | exact h.symm
  obtain ⟨fmt, hfs, bs, tfs, rfl, hb⟩ := hu.elim
  rw [C33_setType hu]
  have hu' := uniform_inFormat hu dst
  rw [C27_validate hu'.bases, C27_validate hu.bases]
  simp only
  rw [key _ _ ht.header (by intro _ _ _ h; cases h), key _ _ ht.trailer (by intro _ _ _ h; cases h)]
  have hbv : (∀ r ∈ bs.map (Spec.inFormat dst), r.validate = none) ↔ ∀ r ∈ bs, r.validate = none := by
    simp only [List.mem_map, forall_exists_index, and_imp, forall_apply_eq_imp_iff₂]
    constructor
    · intro h r hr
      rw [← key r dst (ht.bases r hr) (hz r hr)]; exact h r hr
    · intro h r hr
      rw [key r dst (ht.bases r hr) (hz r hr)]; exact h r hr
  rw [hbv]
  have htot : ∀ t, Spec.total t (bs.map (Spec.inFormat dst)) = Spec.total t bs := by
    intro t
    have := setType_weights (C33_setType hu dst) t
    simp only at this
    rw [Spec.total, Spec.total, ← this]
  simp only [htot]
  rfl

/-- A data record with the code 'Z'. -/
def zRecord (enc : Enc) : Record :=
  .base enc (base 430 426 [(.PaymentHistoryProfile, .str (b! "BZBBBBBBBBBBBBBBBBBBBBBB"))]) {}

/-- C31 is violated: a record with the code 'Z' is valid in character form only, and a valid file with it becomes
invalid by conversion. -/
theorem C31_violated : (zRecord .character).validate = none ∧
    (zRecord .packed).validate = some (.invalidValue .PaymentHistoryProfile) ∧
    ∃ f : File, f.validate = none ∧ (f.setType (b! "packed")).2 = none ∧ (f.setType (b! "packed")).1.validate ≠ none := by
  refine ⟨by decide +kernel, by decide +kernel, ?_⟩
  refine ⟨(({ Samples.file .character with bases := [zRecord .character] } : File).setRecord
    (match ({ Samples.file .character with bases := [zRecord .character] } : File).generatorTrailer with
      | .ok t => t | .error _ => newTrailer .character)).1, by decide +kernel, by decide +kernel, by decide +kernel⟩

/-- Cases of `C31_same_verdict_partial` and `C31_file_partial`. -/
example : Spec.Uniform (Samples.file .character) ∧ Spec.TypedFile (Samples.file .character) ∧
    ∀ r ∈ (Samples.file .character).bases, 'Z'.toNat.toUInt8 ∉ r.fields.str .PaymentHistoryProfile := by
  refine ⟨⟨⟨_, rfl⟩, Samples.file_bases _, ⟨_, rfl⟩⟩, ⟨?_, Samples.file_typed _, ?_⟩, by decide +kernel⟩
  · have h : typedB headerRecordStruct (Samples.file .character).header.fields = true := by decide +kernel
    exact typed_of_typedB (fs := (Samples.file .character).header.fields) h
  · have h : typedB trailerRecordStruct (Samples.file .character).trailer.fields = true := by decide +kernel
    exact typed_of_typedB (fs := (Samples.file .character).trailer.fields) h

end Metro2
