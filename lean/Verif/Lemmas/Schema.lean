import Verif.Spec.Schema
import Verif.Lemmas.JsonFile

/-! Documents and schemas. -/

namespace Metro2

/-! ### Values -/

theorem fmtNat_zeros (n : Nat) {r : Bytes} (h : fmtNat n = 48 :: r) : r = [] := by
  have hl : numDigits n = r.length + 1 := by rw [← length_fmtNat, h]; rfl
  have hv := digitsVal_fmtNat n
  rw [h] at hv
  have h1 : digitsVal (48 :: r) = digitsVal r := by unfold digitsVal; rfl
  rw [h1] at hv
  have h2 : digitsVal r < 10 ^ r.length := digitsVal_lt r (fun c hc => fmtNat_all n c (by rw [h]; exact List.mem_cons_of_mem _ hc))
  rcases Nat.eq_zero_or_pos n with h0 | h0
  · subst h0
    have : numDigits 0 = 1 := by decide
    rw [this] at hl
    exact List.eq_nil_of_length_eq_zero (by omega)
  · have := pow_numDigits_le h0
    rw [hl, Nat.add_sub_cancel] at this
    omega

theorem digit_not_sign {c : UInt8} (h : isDigit c = true) : c ≠ 43 ∧ c ≠ 45 := by
  constructor <;> (rintro rfl; revert h; decide)

theorem wholeNumber_fmtInt (i : Int) : Spec.WholeNumber (fmtInt i) i := by
  cases i with
  | ofNat n =>
    have hd : Spec.Decimal (fmtNat n) n := (spec_decimal_iff _ _).2 ⟨fmtNat_all n, digitsVal_fmtNat n⟩
    refine ⟨⟨fmtNat n, n, fmtNat_ne_nil n, hd, .inl ⟨rfl, rfl⟩⟩, ?_, fun r hr => fmtNat_zeros n hr, ?_⟩
    · intro c hc; exact (digit_not_sign (fmtNat_all n c hc)).1
    · intro r hr
      have hr' : fmtNat n = 45 :: 48 :: r := hr
      exact absurd rfl (digit_not_sign (fmtNat_all n 45 (by rw [hr']; simp))).2
  | negSucc n =>
    have hd : Spec.Decimal (fmtNat (n + 1)) (n + 1) := (spec_decimal_iff _ _).2 ⟨fmtNat_all _, digitsVal_fmtNat _⟩
    refine ⟨⟨fmtNat (n + 1), n + 1, fmtNat_ne_nil _, hd, .inr (.inr ⟨rfl, rfl⟩)⟩, ?_, ?_, ?_⟩
    · intro c hc
      have hc' : c ∈ (45 : UInt8) :: fmtNat (n + 1) := hc
      rcases List.mem_cons.1 hc' with rfl | hc'
      · decide
      · exact (digit_not_sign (fmtNat_all _ c hc')).1
    · intro r hr
      have hr' : (45 : UInt8) :: fmtNat (n + 1) = 48 :: r := hr
      simp at hr'
    · intro r hr
      have hr' : (45 : UInt8) :: fmtNat (n + 1) = 45 :: 48 :: r := hr
      exact fmtNat_zeros (n + 1) (List.cons.inj hr').2

theorem signedDecimal_unique {s : Bytes} {a b : Int} (ha : Spec.SignedDecimal s a) (hb : Spec.SignedDecimal s b) : a = b := by
  obtain ⟨ds, n, hne, hd, h⟩ := ha
  obtain ⟨es, m, hne', he, h'⟩ := hb
  have hd' := (spec_decimal_iff _ _).1 hd
  have he' := (spec_decimal_iff _ _).1 he
  have key : ∀ (c : UInt8) (l : Bytes), c = 43 ∨ c = 45 → (∀ d ∈ c :: l, isDigit d = true) → False := by
    intro c l hc hall
    have := digit_not_sign (hall c (by simp))
    rcases hc with rfl | rfl
    · exact this.1 rfl
    · exact this.2 rfl
  rcases h with ⟨rfl, rfl⟩ | ⟨rfl, rfl⟩ | ⟨rfl, rfl⟩ <;> rcases h' with ⟨h1, rfl⟩ | ⟨h1, rfl⟩ | ⟨h1, rfl⟩
  · subst h1; rw [← hd'.2, ← he'.2]
  · exact (key 43 es (.inl rfl) (h1 ▸ hd'.1)).elim
  · exact (key 45 es (.inr rfl) (h1 ▸ hd'.1)).elim
  · exact (key 43 ds (.inl rfl) (h1 ▸ he'.1)).elim
  · have := (List.cons.inj h1).2; subst this; rw [← hd'.2, ← he'.2]
  · exact absurd (List.cons.inj h1).1 (by decide)
  · exact (key 45 ds (.inr rfl) (h1 ▸ he'.1)).elim
  · exact absurd (List.cons.inj h1).1 (by decide)
  · have := (List.cons.inj h1).2; subst this; rw [← hd'.2, ← he'.2]

theorem dateTimeText_iso {s : Bytes} {t : Time} (hp : Spec.PlainTime t) (h : Spec.IsoText s t) : Spec.DateTimeText s := by
  obtain ⟨y, mo, d, h', mi, se, hs, l1, l2, l3, l4, l5, l6, ⟨n, hy, d1⟩, d2, d3, d4, d5, d6⟩ := h
  obtain ⟨y', hy', hle, hday, hh, hm, hse, hn, hl⟩ := hp
  have : n = y' := by omega
  subst this
  exact ⟨y, mo, d, h', mi, se, [90], n, t.month, t.day, t.hour, t.min, t.sec, hs, l1, l2, l3, l4, l5, l6, d1, d2, d3, d4, d5, d6,
    hday, hh, hm, hse, .inl rfl⟩

theorem not_dateTimeText_nil : ¬ Spec.DateTimeText [] := by
  rintro ⟨y, mo, d, h, mi, se, z, _, _, _, _, _, _, hs, h1, _⟩
  have := congrArg List.length hs
  simp at this

/-- The kinds of Go values that a schema is made for. -/
def schemaKind : Spec.Schema → Kind → Bool
  | .text _, .str => true
  | .date, .time => true
  | .whole _ _, .int => true
  | .whole _ _, .int64 => true
  | _, _ => false

theorem conforms_encodeVal {sch : Spec.Schema} {v : Val} {k : Kind} (hk : v.hasKind k = true) (hs : schemaKind sch k = true)
    (hv : Spec.JsonVal v) : Spec.Conforms sch (encodeVal v) ↔ Spec.Meets sch v := by
  cases v with
  | int i =>
    cases sch with
    | whole bits values =>
      constructor
      · intro h
        cases h with
        | whole hw h1 h2 h3 =>
          have := signedDecimal_unique hw.1 (wholeNumber_fmtInt i).1
          subst this
          exact ⟨h1, h2, h3⟩
      · rintro ⟨h1, h2, h3⟩
        exact .whole (wholeNumber_fmtInt i) h1 h2 h3
    | text => cases k <;> simp [schemaKind, Val.hasKind] at hk hs
    | date => cases k <;> simp [schemaKind, Val.hasKind] at hk hs
    | list => cases k <;> simp [schemaKind] at hs
    | object => cases k <;> simp [schemaKind] at hs
  | str s =>
    cases sch with
    | text values =>
      show Spec.Conforms _ (.str (toValidUtf8 s.length s)) ↔ _
      rw [toValidUtf8_utf8 hv]
      constructor
      · intro h; cases h with
        | text h => exact h
      · intro h; exact .text h
    | whole => cases k <;> simp [schemaKind, Val.hasKind] at hk hs
    | date => cases k <;> simp [schemaKind, Val.hasKind] at hk hs
    | list => cases k <;> simp [schemaKind] at hs
    | object => cases k <;> simp [schemaKind] at hs
  | time t =>
    cases sch with
    | date =>
      have hp := (spec_plainTime_iff t).1 hv
      have hz := Time.isZero_iff hp.1 hp.2.2.2.2
      show Spec.Conforms _ (.str (if t.isZero then [] else rfc3339 t)) ↔ t ≠ Spec.noTime
      constructor
      · intro h ht
        have : t.isZero = true := hz.2 ht
        rw [if_pos this] at h
        cases h with
        | date h => exact not_dateTimeText_nil h
      · intro h
        rw [if_neg (fun hc => h (hz.1 hc))]
        exact .date (dateTimeText_iso hv (isoText_rfc3339 hv))
    | whole => cases k <;> simp [schemaKind, Val.hasKind] at hk hs
    | text => cases k <;> simp [schemaKind, Val.hasKind] at hk hs
    | list => cases k <;> simp [schemaKind] at hs
    | object => cases k <;> simp [schemaKind] at hs

theorem conforms_loose {sch : Spec.Schema} {v : Val} {k : Kind} (hk : v.hasKind k = true) (hs : schemaKind sch k = true)
    (hv : Spec.JsonVal v) : Spec.Conforms sch.loose (encodeVal v) := by
  cases v with
  | int i =>
    cases sch with
    | whole bits values =>
      exact .whole (wholeNumber_fmtInt i) (by have := hv.1; norm_num; omega) (by have := hv.2; norm_num; omega) (.inl rfl)
    | text => cases k <;> simp [schemaKind, Val.hasKind] at hk hs
    | date => cases k <;> simp [schemaKind, Val.hasKind] at hk hs
    | list => cases k <;> simp [schemaKind] at hs
    | object => cases k <;> simp [schemaKind] at hs
  | str s =>
    cases sch with
    | text values => exact .text (.inl rfl)
    | whole => cases k <;> simp [schemaKind, Val.hasKind] at hk hs
    | date => cases k <;> simp [schemaKind, Val.hasKind] at hk hs
    | list => cases k <;> simp [schemaKind] at hs
    | object => cases k <;> simp [schemaKind] at hs
  | time t =>
    cases sch with
    | date => exact .text (.inl rfl)
    | whole => cases k <;> simp [schemaKind, Val.hasKind] at hk hs
    | text => cases k <;> simp [schemaKind, Val.hasKind] at hk hs
    | list => cases k <;> simp [schemaKind] at hs
    | object => cases k <;> simp [schemaKind] at hs

/-! ### Structs -/

theorem blank_iff (v : Val) : emptyVal v = true ↔ Spec.Blank v := by
  cases v <;> simp [emptyVal, Spec.Blank]

theorem mem_encodeMembers {decl : List (F × FieldDecl)} {fs : Fields} {k : Bytes} {j : Json} :
    (k, j) ∈ encodeMembers decl fs ↔ ∃ p ∈ decl, ∃ w, fs.get p.1 = some w ∧ ¬ (p.2.omitempty = true ∧ Spec.Blank w) ∧
      p.2.json = k ∧ encodeVal w = j := by
  rw [encodeMembers_eq, List.mem_filterMap]
  constructor
  · rintro ⟨p, hp, h⟩
    unfold memberOf at h
    split at h
    · simp at h
    · next w hw =>
      split at h
      · simp at h
      · next hne =>
        cases h
        refine ⟨p, hp, w, hw, ?_, rfl, rfl⟩
        rw [← blank_iff]
        simpa using hne
  · rintro ⟨p, hp, w, hw, hne, rfl, rfl⟩
    refine ⟨p, hp, ?_⟩
    unfold memberOf
    rw [← blank_iff] at hne
    rw [hw]
    simp only
    rw [if_neg (by simpa using hne)]

/-- The rows fit the struct. -/
def rowsFit (decl : List (F × FieldDecl)) (rows : List Spec.Row) : Bool :=
  rows.all fun r =>
    decl.any (fun p => p.1 = r.field && p.2.json = r.key && p.2.omitempty == r.omitted && schemaKind r.schema p.2.kind) ||
    decl.all (fun p => p.1 ≠ r.field && p.2.json ≠ r.key)

/-- `Spec.RowMet` with the document in the place of the value. -/
def RowHolds (M : Spec.Schema → Val → Prop) (fs : Fields) (r : Spec.Row) : Prop :=
  match fs.get r.field with
  | none => r.required = false
  | some v => (r.omitted = true ∧ Spec.Blank v → r.required = false) ∧ (¬ (r.omitted = true ∧ Spec.Blank v) → M r.schema v)

theorem conforms_object {props : List (Bytes × Spec.Schema)} {required : List Bytes} {kvs : List (Bytes × Json)} :
    Spec.Conforms (.object props required) (.obj kvs) ↔ (∀ k ∈ required, ∃ v, (k, v) ∈ kvs) ∧
      (∀ p ∈ props, ∀ v, (p.1, v) ∈ kvs → Spec.Conforms p.2 v) :=
  ⟨fun h => by cases h with | object h1 h2 => exact ⟨h1, h2⟩, fun h => .object h.1 h.2⟩

theorem tag_unique {decl : List (F × FieldDecl)} (hn : (decl.map fun p => p.2.json).Nodup) {p q : F × FieldDecl} (hp : p ∈ decl)
    (hq : q ∈ decl) (h : p.2.json = q.2.json) : p = q :=
  List.inj_on_of_nodup_map hn hp hq h

theorem conforms_struct {decl : List (F × FieldDecl)} (ht : TagsOk decl) {rows : List Spec.Row}
    (hr : ∀ r ∈ rows, (∃ p ∈ decl, p.1 = r.field ∧ p.2.json = r.key ∧ p.2.omitempty = r.omitted) ∨
      (∀ p ∈ decl, p.1 ≠ r.field ∧ p.2.json ≠ r.key)) {fs : Fields} (hf : fs.Typed decl) :
    Spec.Conforms (Spec.objectOf rows) (encodeStruct decl fs) ↔
      ∀ r ∈ rows, RowHolds (fun s v => Spec.Conforms s (encodeVal v)) fs r := by
  unfold Spec.objectOf encodeStruct
  rw [conforms_object]
  constructor
  · rintro ⟨h1, h2⟩ r hrm
    have hreq : r.required = true → ∃ v, (r.key, v) ∈ encodeMembers decl fs := fun hq =>
      h1 r.key (List.mem_map.2 ⟨r, List.mem_filter.2 ⟨hrm, hq⟩, rfl⟩)
    have hval : ∀ v, (r.key, v) ∈ encodeMembers decl fs → Spec.Conforms r.schema v :=
      h2 (r.key, r.schema) (List.mem_map.2 ⟨r, hrm, rfl⟩)
    unfold RowHolds
    rcases hr r hrm with ⟨p, hp, e1, e2, e3⟩ | habs
    · obtain ⟨w, hw, _⟩ := hf.get ht.1 (show (p.1, p.2) ∈ decl from hp)
      rw [← e1, hw]
      refine ⟨fun hb => ?_, fun hb => ?_⟩
      · cases hq : r.required with
        | false => rfl
        | true =>
          obtain ⟨v, hv⟩ := hreq hq
          obtain ⟨q, hqm, w', hw', hne, hk, _⟩ := mem_encodeMembers.1 hv
          have := tag_unique ht.2 hqm hp (hk.trans e2.symm)
          subst this
          rw [hw] at hw'
          cases hw'
          exact absurd ⟨e3.trans hb.1, hb.2⟩ hne
      · exact hval _ (mem_encodeMembers.2 ⟨p, hp, w, hw, by rw [e3]; exact hb, e2, rfl⟩)
    · have hnone : fs.get r.field = none := Fields.get_none (by
        rw [hf.names]
        intro hm
        obtain ⟨p, hp, e⟩ := List.mem_map.1 hm
        exact (habs p hp).1 e)
      rw [hnone]
      cases hq : r.required with
      | false => rfl
      | true =>
        obtain ⟨v, hv⟩ := hreq hq
        obtain ⟨q, hqm, w', hw', hne, hk, _⟩ := mem_encodeMembers.1 hv
        exact absurd hk (habs q hqm).2
  · intro h
    constructor
    · intro k hk
      obtain ⟨r, hrf, rfl⟩ := List.mem_map.1 hk
      obtain ⟨hrm, hq⟩ := List.mem_filter.1 hrf
      have hh := h r hrm
      unfold RowHolds at hh
      rcases hr r hrm with ⟨p, hp, e1, e2, e3⟩ | habs
      · obtain ⟨w, hw, _⟩ := hf.get ht.1 (show (p.1, p.2) ∈ decl from hp)
        rw [← e1, hw] at hh
        refine ⟨_, mem_encodeMembers.2 ⟨p, hp, w, hw, ?_, e2, rfl⟩⟩
        rw [e3]
        intro hb
        rw [hh.1 hb] at hq
        cases hq
      · have hnone : fs.get r.field = none := Fields.get_none (by
          rw [hf.names]
          intro hm
          obtain ⟨p, hp, e⟩ := List.mem_map.1 hm
          exact (habs p hp).1 e)
        rw [hnone] at hh
        rw [show r.required = false from hh] at hq
        cases hq
    · intro q hq v hv
      obtain ⟨r, hrm, rfl⟩ := List.mem_map.1 hq
      have hh := h r hrm
      unfold RowHolds at hh
      obtain ⟨p, hp, w, hw, hne, hk, rfl⟩ := mem_encodeMembers.1 hv
      rcases hr r hrm with ⟨p', hp', e1, e2, e3⟩ | habs
      · have := tag_unique ht.2 hp hp' (hk.trans e2.symm)
        subst this
        rw [← e1, hw] at hh
        exact hh.2 (by rw [← e3]; exact hne)
      · exact absurd hk (habs p hp).2

theorem rowsFit_of {decl : List (F × FieldDecl)} {rows : List Spec.Row} (h : rowsFit decl rows = true) :
    ∀ r ∈ rows, (∃ p ∈ decl, p.1 = r.field ∧ p.2.json = r.key ∧ p.2.omitempty = r.omitted ∧ schemaKind r.schema p.2.kind = true) ∨
      (∀ p ∈ decl, p.1 ≠ r.field ∧ p.2.json ≠ r.key) := by
  intro r hr
  have := List.all_eq_true.1 h r hr
  simp only [Bool.or_eq_true, List.any_eq_true, List.all_eq_true, Bool.and_eq_true, decide_eq_true_eq, beq_iff_eq] at this
  rcases this with ⟨p, hp, ⟨⟨e1, e2⟩, e3⟩, e4⟩ | h
  · exact .inl ⟨p, hp, e1, e2, e3, e4⟩
  · exact .inr h

/-- A struct conforms exactly if its values are as described. -/
theorem conforms_rows {decl : List (F × FieldDecl)} (ht : TagsOk decl) {rows : List Spec.Row} (hr : rowsFit decl rows = true)
    {fs : Fields} (hf : Spec.JsonFields decl fs) :
    Spec.Conforms (Spec.objectOf rows) (encodeStruct decl fs) ↔ Spec.RowsMet rows fs := by
  have hfit := rowsFit_of hr
  rw [conforms_struct ht (fun r hrm => (hfit r hrm).imp (fun ⟨p, a, b, c, d, _⟩ => ⟨p, a, b, c, d⟩) id) hf.1]
  refine forall_congr' fun r => forall_congr' fun hrm => ?_
  unfold RowHolds Spec.RowMet
  show (match fs.get r.field with | none => _ | some v => _) ↔ (match fs.get r.field with | none => _ | some v => _)
  cases hg : fs.get r.field with
  | none => exact Iff.rfl
  | some v =>
    rcases hfit r hrm with ⟨p, hp, e1, e2, e3, e4⟩ | habs
    · obtain ⟨w, hw, hk⟩ := hf.1.get ht.1 (show (p.1, p.2) ∈ decl from hp)
      rw [e1, hg] at hw
      cases hw
      simp only
      rw [conforms_encodeVal hk e4 (hf.2 _ (Fields.mem_of_get hg))]
    · exfalso
      obtain ⟨d, hd, _⟩ := hf.1.mem (Fields.mem_of_get hg)
      exact (habs _ hd).1 rfl

/-- Every struct conforms to the types. -/
theorem conforms_looseRows {decl : List (F × FieldDecl)} (ht : TagsOk decl) {rows : List Spec.Row} (hr : rowsFit decl rows = true)
    (ha : ∀ r ∈ rows, (∀ p ∈ decl, p.1 ≠ r.field) → r.required = false) {fs : Fields} (hf : Spec.JsonFields decl fs) :
    Spec.Conforms (Spec.objectOf (rows.map Spec.looseRow)) (encodeStruct decl fs) := by
  have hfit := rowsFit_of hr
  rw [conforms_struct ht ?_ hf.1]
  · intro r' hr'
    obtain ⟨r, hrm, rfl⟩ := List.mem_map.1 hr'
    unfold RowHolds
    show match fs.get r.field with | none => _ | some v => _
    cases hg : fs.get r.field with
    | none =>
      show (r.required && !r.omitted) = false
      rw [ha r hrm]
      · rfl
      · intro p hp e
        obtain ⟨w, hw, _⟩ := hf.1.get ht.1 (show (p.1, p.2) ∈ decl from hp)
        rw [e, hg] at hw
        cases hw
    | some v =>
      refine ⟨fun hb => ?_, fun _ => ?_⟩
      · show (r.required && !r.omitted) = false
        have : r.omitted = true := hb.1
        rw [this]; simp
      · rcases hfit r hrm with ⟨p, hp, e1, e2, e3, e4⟩ | habs
        · obtain ⟨w, hw, hk⟩ := hf.1.get ht.1 (show (p.1, p.2) ∈ decl from hp)
          rw [e1, hg] at hw
          cases hw
          exact conforms_loose hk e4 (hf.2 _ (Fields.mem_of_get hg))
        · exfalso
          obtain ⟨d, hd, _⟩ := hf.1.mem (Fields.mem_of_get hg)
          exact (habs _ hd).1 rfl
  · intro r' hr'
    obtain ⟨r, hrm, rfl⟩ := List.mem_map.1 hr'
    exact (hfit r hrm).imp (fun ⟨p, a, b, c, d, _⟩ => ⟨p, a, b, c, d⟩) id

theorem fit_header : rowsFit headerRecordStruct Spec.headerRecordRows = true := by decide +kernel
theorem fit_trailer : rowsFit trailerRecordStruct Spec.trailerRecordRows = true := by decide +kernel
theorem fit_base : rowsFit baseSegmentStruct Spec.baseSegmentRows = true := by decide +kernel
theorem fit_seg (k : SegKind) : rowsFit k.struct (Spec.segRows k) = true := by cases k <;> decide +kernel

/-! ### Data records and files -/

theorem mem_segMember {key k : Bytes} {o : Option Seg} {j : Json} :
    (k, j) ∈ segMember key o ↔ k = key ∧ ∃ s, o = some s ∧ j = encodeStruct s.kind.struct s.fields := by
  cases o with
  | none => simp [segMember]
  | some s => simp [segMember]

theorem mem_segsMember {key k : Bytes} {l : List Seg} {j : Json} :
    (k, j) ∈ segsMember key l ↔ k = key ∧ l ≠ [] ∧ j = .arr (l.map fun s => encodeStruct s.kind.struct s.fields) := by
  unfold segsMember
  by_cases h : l = []
  · simp [h]
  · simp [h]

theorem conforms_list {items : Spec.Schema} {xs : List Json} :
    Spec.Conforms (.list items) (.arr xs) ↔ ∀ x ∈ xs, Spec.Conforms items x :=
  ⟨fun h => by cases h with | list h => exact h, .list⟩

/-- The document of a segment. -/
def segDoc (s : Seg) : Json := encodeStruct s.kind.struct s.fields

/-- The members of a data record. -/
def baseMembers (fs : Fields) (g : Segs) : List (Bytes × Json) :=
  [(b! "base", encodeStruct baseSegmentStruct fs)] ++ segsMember (b! "j1") g.j1 ++ segsMember (b! "j2") g.j2 ++
    segMember (b! "k1") g.k1 ++ segMember (b! "k2") g.k2 ++ segMember (b! "k3") g.k3 ++ segMember (b! "k4") g.k4 ++
    segMember (b! "l1") g.l1 ++ segMember (b! "n1") g.n1

theorem mem_baseMembers {fs : Fields} {g : Segs} {k : Bytes} {j : Json} : (k, j) ∈ baseMembers fs g ↔
    (k = b! "base" ∧ j = encodeStruct baseSegmentStruct fs) ∨
    (k = b! "j1" ∧ g.j1 ≠ [] ∧ j = .arr (g.j1.map segDoc)) ∨ (k = b! "j2" ∧ g.j2 ≠ [] ∧ j = .arr (g.j2.map segDoc)) ∨
    (k = b! "k1" ∧ ∃ s, g.k1 = some s ∧ j = segDoc s) ∨ (k = b! "k2" ∧ ∃ s, g.k2 = some s ∧ j = segDoc s) ∨
    (k = b! "k3" ∧ ∃ s, g.k3 = some s ∧ j = segDoc s) ∨ (k = b! "k4" ∧ ∃ s, g.k4 = some s ∧ j = segDoc s) ∨
    (k = b! "l1" ∧ ∃ s, g.l1 = some s ∧ j = segDoc s) ∨ (k = b! "n1" ∧ ∃ s, g.n1 = some s ∧ j = segDoc s) := by
  unfold baseMembers
  simp only [List.mem_append, mem_segMember, mem_segsMember, List.mem_singleton, Prod.mk.injEq, or_assoc]
  rfl

theorem conforms_member {fs : Fields} {g : Segs} {key : Bytes} {sch : Spec.Schema} {o : Option Seg}
    (h : ∀ j, (key, j) ∈ baseMembers fs g ↔ ∃ s, o = some s ∧ j = segDoc s) :
    (∀ j, (key, j) ∈ baseMembers fs g → Spec.Conforms sch j) ↔ ∀ s, o = some s → Spec.Conforms sch (segDoc s) := by
  constructor
  · intro hc s hs; exact hc _ ((h _).2 ⟨s, hs, rfl⟩)
  · rintro hc j hj
    obtain ⟨s, hs, rfl⟩ := (h j).1 hj
    exact hc s hs

theorem conforms_members {fs : Fields} {g : Segs} {key : Bytes} {sch : Spec.Schema} {l : List Seg}
    (h : ∀ j, (key, j) ∈ baseMembers fs g ↔ l ≠ [] ∧ j = .arr (l.map segDoc)) :
    (∀ j, (key, j) ∈ baseMembers fs g → Spec.Conforms (.list sch) j) ↔ ∀ s ∈ l, Spec.Conforms sch (segDoc s) := by
  constructor
  · intro hc s hs
    have := hc _ ((h _).2 ⟨List.ne_nil_of_mem hs, rfl⟩)
    rw [conforms_list] at this
    exact this _ (List.mem_map.2 ⟨s, hs, rfl⟩)
  · rintro hc j hj
    obtain ⟨_, rfl⟩ := (h j).1 hj
    rw [conforms_list]
    intro x hx
    obtain ⟨s, hs, rfl⟩ := List.mem_map.1 hx
    exact hc s hs

/-- The segments of a data record conform. -/
structure SegsConform (seg : SegKind → List Spec.Row) (g : Segs) : Prop where
  j1 : ∀ s ∈ g.j1, Spec.Conforms (Spec.objectOf (seg .j1)) (segDoc s)
  j2 : ∀ s ∈ g.j2, Spec.Conforms (Spec.objectOf (seg .j2)) (segDoc s)
  k1 : ∀ s, g.k1 = some s → Spec.Conforms (Spec.objectOf (seg .k1)) (segDoc s)
  k2 : ∀ s, g.k2 = some s → Spec.Conforms (Spec.objectOf (seg .k2)) (segDoc s)
  k3 : ∀ s, g.k3 = some s → Spec.Conforms (Spec.objectOf (seg .k3)) (segDoc s)
  k4 : ∀ s, g.k4 = some s → Spec.Conforms (Spec.objectOf (seg .k4)) (segDoc s)
  l1 : ∀ s, g.l1 = some s → Spec.Conforms (Spec.objectOf (seg .l1)) (segDoc s)
  n1 : ∀ s, g.n1 = some s → Spec.Conforms (Spec.objectOf (seg .n1)) (segDoc s)

theorem conforms_record {base : List Spec.Row} {seg : SegKind → List Spec.Row} {fs : Fields} {g : Segs} :
    Spec.Conforms (Spec.recordSchema base seg) (encodeBase fs g) ↔
      Spec.Conforms (Spec.objectOf base) (encodeStruct baseSegmentStruct fs) ∧ SegsConform seg g := by
  show Spec.Conforms (.object _ _) (.obj (baseMembers fs g)) ↔ _
  rw [conforms_object]
  have hreq : ∀ k ∈ [b! "base"], ∃ v, (k, v) ∈ baseMembers fs g := by
    intro k hk
    rw [List.mem_singleton] at hk
    exact ⟨_, mem_baseMembers.2 (.inl ⟨hk, rfl⟩)⟩
  have hb : (∀ j, (b! "base", j) ∈ baseMembers fs g → Spec.Conforms (Spec.objectOf base) j) ↔
      Spec.Conforms (Spec.objectOf base) (encodeStruct baseSegmentStruct fs) := by
    have : ∀ j, (b! "base", j) ∈ baseMembers fs g ↔ j = encodeStruct baseSegmentStruct fs := by intro j; simp [mem_baseMembers]
    simp [this]
  have h1 := conforms_members (fs := fs) (g := g) (key := b! "j1") (sch := Spec.objectOf (seg .j1)) (l := g.j1)
    (by intro j; simp [mem_baseMembers])
  have h2 := conforms_members (fs := fs) (g := g) (key := b! "j2") (sch := Spec.objectOf (seg .j2)) (l := g.j2)
    (by intro j; simp [mem_baseMembers])
  have h3 := conforms_member (fs := fs) (g := g) (key := b! "k1") (sch := Spec.objectOf (seg .k1)) (o := g.k1)
    (by intro j; simp [mem_baseMembers])
  have h4 := conforms_member (fs := fs) (g := g) (key := b! "k2") (sch := Spec.objectOf (seg .k2)) (o := g.k2)
    (by intro j; simp [mem_baseMembers])
  have h5 := conforms_member (fs := fs) (g := g) (key := b! "k3") (sch := Spec.objectOf (seg .k3)) (o := g.k3)
    (by intro j; simp [mem_baseMembers])
  have h6 := conforms_member (fs := fs) (g := g) (key := b! "k4") (sch := Spec.objectOf (seg .k4)) (o := g.k4)
    (by intro j; simp [mem_baseMembers])
  have h7 := conforms_member (fs := fs) (g := g) (key := b! "l1") (sch := Spec.objectOf (seg .l1)) (o := g.l1)
    (by intro j; simp [mem_baseMembers])
  have h8 := conforms_member (fs := fs) (g := g) (key := b! "n1") (sch := Spec.objectOf (seg .n1)) (o := g.n1)
    (by intro j; simp [mem_baseMembers])
  constructor
  · rintro ⟨_, h⟩
    exact ⟨hb.1 (h _ (.head _)),
      h1.1 (h _ (.tail _ (.head _))), h2.1 (h _ (.tail _ (.tail _ (.head _)))), h3.1 (h _ (.tail _ (.tail _ (.tail _ (.head _))))),
      h4.1 (h _ (.tail _ (.tail _ (.tail _ (.tail _ (.head _)))))), h5.1 (h _ (.tail _ (.tail _ (.tail _ (.tail _ (.tail _ (.head _))))))), h6.1 (h _ (.tail _ (.tail _ (.tail _ (.tail _ (.tail _ (.tail _ (.head _)))))))),
      h7.1 (h _ (.tail _ (.tail _ (.tail _ (.tail _ (.tail _ (.tail _ (.tail _ (.head _))))))))), h8.1 (h _ (.tail _ (.tail _ (.tail _ (.tail _ (.tail _ (.tail _ (.tail _ (.tail _ (.head _))))))))))⟩
  · rintro ⟨c, c1, c2, c3, c4, c5, c6, c7, c8⟩
    refine ⟨hreq, ?_⟩
    intro p hp
    simp only [List.mem_cons, List.not_mem_nil, or_false] at hp
    rcases hp with rfl | rfl | rfl | rfl | rfl | rfl | rfl | rfl | rfl
    · exact hb.2 c
    · exact h1.2 c1
    · exact h2.2 c2
    · exact h3.2 c3
    · exact h4.2 c4
    · exact h5.2 c5
    · exact h6.2 c6
    · exact h7.2 c7
    · exact h8.2 c8

theorem conforms_file {header base trailer : List Spec.Row} {seg : SegKind → List Spec.Row} {f : File} :
    Spec.Conforms (Spec.fileSchemaOf header base trailer seg) f.toJson ↔
      Spec.Conforms (Spec.objectOf header) f.header.toJson ∧
      (f.bases ≠ [] ∧ ∀ r ∈ f.bases, Spec.Conforms (Spec.recordSchema base seg) r.toJson) ∧
      Spec.Conforms (Spec.objectOf trailer) f.trailer.toJson := by
  unfold Spec.fileSchemaOf File.toJson
  rw [conforms_object]
  constructor
  · rintro ⟨_, h⟩
    refine ⟨h _ (.head _) _ (.head _), ?_, h _ (.tail _ (.tail _ (.head _))) _ (.tail _ (.tail _ (.head _)))⟩
    have hd := h _ (.tail _ (.head _)) (if f.bases = [] then .null else .arr (f.bases.map Record.toJson)) (.tail _ (.head _))
    by_cases hb : f.bases = []
    · rw [if_pos hb] at hd
      cases hd
    · rw [if_neg hb, conforms_list] at hd
      exact ⟨hb, fun r hr => hd _ (List.mem_map.2 ⟨r, hr, rfl⟩)⟩
  · rintro ⟨hh, ⟨hb, hd⟩, ht⟩
    refine ⟨by simp, ?_⟩
    intro p hp v hv
    simp only [List.mem_cons, List.not_mem_nil, or_false] at hp
    rcases hp with rfl | rfl | rfl
    · simp at hv; subst hv; exact hh
    · simp [hb] at hv
      subst hv
      rw [conforms_list]
      intro x hx
      obtain ⟨r, hr, rfl⟩ := List.mem_map.1 hx
      exact hd r hr
    · simp at hv; subst hv; exact ht

end Metro2
