import Verif.Lemmas.ClientWrite

/-! From the service to the client and back. -/

namespace Metro2

/-! ### What the client takes -/

theorem blank_holds {v : Val} (h : Spec.blank v = true) (k : Kind) : Spec.ClientHolds k v := by
  cases v with
  | int i =>
    have : i = 0 := by simpa [Spec.blank] using h
    subst this
    intro _
    omega
  | str s => trivial
  | time t => simp [Spec.blank] at h

theorem clientValue_holds (k : Kind) (v : Val) : Spec.clientValue k v ≠ none ↔ Spec.ClientHolds k v := by
  cases v with
  | int i =>
    simp only [Spec.clientValue, Spec.ClientHolds]
    by_cases hk : k = .int
    · by_cases hi : i < -2147483648 ∨ 2147483647 < i
      · rw [if_pos ⟨hk, hi⟩]
        constructor
        · intro h; exact absurd rfl h
        · intro h; have := h hk; omega
      · rw [if_neg (fun h => hi h.2)]
        exact ⟨fun _ _ => by omega, fun _ h => by cases h⟩
    · rw [if_neg (fun h => hk h.1)]
      exact ⟨fun _ h => absurd h hk, fun _ h => by cases h⟩
  | str s => exact ⟨fun _ => trivial, fun _ h => by cases h⟩
  | time t =>
    simp only [Spec.clientValue, Spec.ClientHolds]
    cases t.isZero <;> simp

theorem service_lookup {service : List (F × FieldDecl)} {fs : Fields} (ht : fs.Typed service) (hn : (service.map (·.1)).Nodup) {f : F} {v : Val}
    (hv : fs.get f = some v) : ∃ e, service.lookup f = some e ∧ v.hasKind e.kind = true := by
  have hmem : f ∈ service.map (·.1) := by
    rw [← ht.names]
    exact List.mem_map.2 ⟨_, Fields.mem_of_get hv, rfl⟩
  obtain ⟨q, hq, rfl⟩ := List.mem_map.1 hmem
  obtain ⟨w, hw, hk⟩ := ht.get hn (f := q.1) (d := q.2) hq
  rw [hv] at hw
  cases hw
  exact ⟨q.2, lookup_of_mem hn hq, hk⟩

/-- Which structs the client can take. -/
theorem clientTakes_iff {service client : List (F × FieldDecl)} (hs : TagsOk service) (hc : TagsOk client) {fs : Fields} (ht : fs.Typed service) :
    (∀ p ∈ client, Spec.clientTakes service client fs p.1 ≠ none) ↔ Spec.Held client fs := by
  constructor
  · intro h p hp v hv
    have h1 := h p hp
    obtain ⟨e, he, _⟩ := service_lookup ht hs.1 hv
    have hl := lookup_of_mem hc.1 (show (p.1, p.2) ∈ client from hp)
    unfold Spec.clientTakes at h1
    simp only [hl, he, hv] at h1
    by_cases ho : (e.omitempty && Spec.blank v) = true
    · exact blank_holds (Bool.and_eq_true_iff.1 ho).2 _
    · rw [if_neg ho] at h1
      rw [← clientValue_holds]
      intro h2
      rw [h2] at h1
      exact h1 rfl
  · intro h p hp
    have hl := lookup_of_mem hc.1 (show (p.1, p.2) ∈ client from hp)
    unfold Spec.clientTakes
    simp only [hl]
    cases hv : fs.get p.1 with
    | none => cases service.lookup p.1 <;> simp
    | some v =>
      obtain ⟨e, he, _⟩ := service_lookup ht hs.1 hv
      simp only [he]
      split
      · simp
      · have := (clientValue_holds p.2.kind v).2 (h p hp v hv)
        cases hcv : Spec.clientValue p.2.kind v with
        | none => exact absurd hcv this
        | some w => simp

theorem clientRec_iff {service client : List (F × FieldDecl)} (hs : TagsOk service) (hc : TagsOk client) {fs : Fields} (ht : fs.Typed service) :
    (∃ c, Spec.clientRec service client fs = some c) ↔ Spec.Held client fs := by
  rw [← clientTakes_iff hs hc ht]
  unfold Spec.clientRec
  constructor
  · rintro ⟨c, h⟩
    split at h
    · assumption
    · cases h
  · intro h
    rw [if_pos h]
    exact ⟨_, rfl⟩

theorem clientRec_field {service client : List (F × FieldDecl)} {fs : Fields} {c : ClientRec} (h : Spec.clientRec service client fs = some c) (f : F) :
    c f = (Spec.clientTakes service client fs f).join := by
  unfold Spec.clientRec at h
  split at h
  · cases h; rfl
  · cases h

/-! ### A struct there and back -/

theorem writtenVal_of {v : Val} (h : Spec.JsonVal v) : Spec.WrittenVal v := by
  cases v with
  | int i =>
    have h : -(2 ^ 53) ≤ i ∧ i ≤ 2 ^ 53 := h
    show -(2 ^ 63) ≤ i ∧ i < 2 ^ 63
    omega
  | str s => exact h
  | time t =>
    obtain ⟨y, h1, h2, h3, h4, h5, h6, h7, h8⟩ := h
    refine Or.inr ⟨⟨y, h1, h2, h3, h4, h5, h6⟩, ?_⟩
    rw [h8]
    decide

theorem sentVal_of {v : Val} (h : Spec.JsonVal v) : Spec.SentVal v := by
  cases v with
  | int i => exact h
  | str s => exact h
  | time t =>
    obtain ⟨y, h1, h2, h3, h4, h5, h6, h7, h8⟩ := h
    exact ⟨⟨y, h1, h2, h3, h4, h5, h6⟩, by omega, Or.inl h8⟩

theorem writtenFields_of {decl : List (F × FieldDecl)} {fs : Fields} (h : Spec.JsonFields decl fs) : Spec.WrittenFields decl fs :=
  ⟨h.1, fun p hp => writtenVal_of (h.2 p hp)⟩

theorem clientValue_plain {v w : Val} (hv : Spec.JsonVal v) {k : Kind} (h : Spec.clientValue k v = some w) : w = v := by
  cases v with
  | int i =>
    simp only [Spec.clientValue] at h
    split at h
    · cases h
    · cases h; rfl
  | str s => cases h; rfl
  | time t =>
    simp only [Spec.clientValue] at h
    split at h
    · cases h
    · cases h
      obtain ⟨y, h1, h2, h3, h4, h5, h6, h7, h8⟩ := hv
      have : Spec.jsonTime t = t := by
        unfold Spec.jsonTime
        rw [h8]
        obtain ⟨yy, mo, d, hh, mi, se, ns, loc⟩ := t
        simp only at h7 h8
        subst h7 h8
        rfl
      rw [this]

theorem zero_json (k : Kind) : Spec.JsonVal k.zero ∧ k.zero.hasKind k = true := by
  cases k with
  | int => exact ⟨⟨by decide, by decide⟩, rfl⟩
  | int64 => exact ⟨⟨by decide, by decide⟩, rfl⟩
  | str => exact ⟨utf8_of_ascii (by simp), rfl⟩
  | time =>
    refine ⟨(spec_plainTime_iff _).2 (by decide), rfl⟩

/-- What a field of the client holds: nothing, the zero value, or the value of the service. -/
theorem clientRec_cases {service client : List (F × FieldDecl)} (hs : TagsOk service) (hm : Matches service client) {fs : Fields}
    (hf : Spec.JsonFields service fs) {c : ClientRec} (h : Spec.clientRec service client fs = some c) {f : F} {d : FieldDecl}
    (hl : client.lookup f = some d) :
    (c f = Spec.clientZero d ∧ ∀ v, fs.get f = some v → Spec.blank v = true ∧ ∃ e, (f, e) ∈ service ∧ e.omitempty = true) ∨
    (∃ v, fs.get f = some v ∧ c f = some v) := by
  rw [clientRec_field h f]
  have hne : Spec.clientTakes service client fs f ≠ none := by
    have := (clientRec_iff hs hm.1 hf.1).1 ⟨c, h⟩
    exact (clientTakes_iff hs hm.1 hf.1).2 this (f, d) (lookup_mem hl)
  unfold Spec.clientTakes at hne ⊢
  simp only [hl] at hne ⊢
  cases hv : fs.get f with
  | none =>
    left
    refine ⟨?_, fun v h => by cases h⟩
    cases service.lookup f <;> rfl
  | some v =>
    obtain ⟨e, he, hk⟩ := service_lookup hf.1 hs.1 hv
    simp only [he, hv] at hne ⊢
    by_cases ho : (e.omitempty && Spec.blank v) = true
    · left
      rw [if_pos ho]
      refine ⟨rfl, ?_⟩
      intro w hw
      cases hw
      rw [Bool.and_eq_true] at ho
      exact ⟨ho.2, e, lookup_mem he, ho.1⟩
    · right
      rw [if_neg ho] at hne ⊢
      cases hcv : Spec.clientValue d.kind v with
      | none => rw [hcv] at hne; exact absurd rfl hne
      | some w =>
        have := clientValue_plain (hf.2 _ (Fields.mem_of_get hv)) hcv
        subst this
        exact ⟨w, rfl, rfl⟩

theorem clientRec_ok {service client : List (F × FieldDecl)} (hs : TagsOk service) (hm : Matches service client) {fs : Fields}
    (hf : Spec.JsonFields service fs) {c : ClientRec} (h : Spec.clientRec service client fs = some c) : Spec.ClientOk client c := by
  intro p hp
  have hl := lookup_of_mem hm.1.1 (show (p.1, p.2) ∈ client from hp)
  rcases clientRec_cases hs hm hf h hl with ⟨h1, _⟩ | ⟨v, hv, h1⟩
  · rw [h1]
    unfold Spec.clientZero
    cases ho : p.2.omitempty with
    | true => simp
    | false => exact ⟨(zero_json p.2.kind).2, sentVal_of (zero_json p.2.kind).1⟩
  · rw [h1]
    obtain ⟨e, he, hk⟩ := service_lookup hf.1 hs.1 hv
    have h2 := hm.2.1 _ (lookup_mem he)
    simp only [hl] at h2
    exact ⟨by rw [← hasKind_same h2.2]; exact hk, sentVal_of (hf.2 _ (Fields.mem_of_get hv))⟩

/-- What `Spec.forget` leaves of a value. -/
def remains (f : F) (v : Val) : Val := if Spec.lost f then Spec.emptied v else v

theorem forget_eq (fs : Fields) : Spec.forget fs = fs.map fun p => (p.1, remains p.1 p.2) := rfl

theorem typed_forget {decl : List (F × FieldDecl)} {fs : Fields} (h : fs.Typed decl) : (Spec.forget fs).Typed decl := by
  rw [forget_eq]
  refine typed_mapped h ?_
  intro p _ v hv
  unfold remains
  by_cases hl : Spec.lost p.1 = true
  · rw [if_pos hl]
    cases v with
    | int => cases hk : p.2.kind <;> rw [hk] at hv <;> first | rfl | exact hv
    | str => cases hk : p.2.kind <;> rw [hk] at hv <;> first | rfl | exact hv
    | time => exact hv
  · rw [if_neg hl]
    exact hv

/-- The fields that the client does not know are the lost ones; they start at zero and are no times. -/
def LosesOnly (service client : List (F × FieldDecl)) (fs0 : Fields) : Prop :=
  ∀ p ∈ service, if client.lookup p.1 = none then Spec.lost p.1 = true ∧ p.2.kind ≠ .time ∧ fs0.get p.1 = some p.2.kind.zero
    else Spec.lost p.1 = false

instance (service client : List (F × FieldDecl)) (fs0 : Fields) : Decidable (LosesOnly service client fs0) := by
  unfold LosesOnly; infer_instance

theorem loses_seg (k : SegKind) : LosesOnly k.struct (clientSegment k) (Seg.new k).fields := by cases k <;> decide +kernel
theorem loses_base : LosesOnly baseSegmentStruct clientBaseSegment (zeroFields baseSegmentStruct) := by decide +kernel
theorem loses_header (enc : Enc) : LosesOnly headerRecordStruct clientHeaderRecord (newHeader enc).fields := by cases enc <;> decide +kernel
theorem loses_trailer (enc : Enc) : LosesOnly trailerRecordStruct clientTrailerRecord (newTrailer enc).fields := by cases enc <;> decide +kernel

/-- A struct of the service, taken by the client and given back. -/
theorem serviceFields_clientRec {service client : List (F × FieldDecl)} (hs : TagsOk service) (hm : Matches service client) {fs0 fs : Fields}
    (h0 : fs0.Typed service) (ho : OmitZero service fs0) (hlo : LosesOnly service client fs0)
    (hf : Spec.JsonFields service fs) {c : ClientRec} (h : Spec.clientRec service client fs = some c) :
    Spec.serviceFields client fs0 c = Spec.forget fs := by
  apply Typed.ext hs.1 (serviceFields_typed hm (clientRec_ok hs hm hf h) h0) (typed_forget hf.1)
  intro f
  rw [serviceFields_eq, get_mapped, forget_eq, get_mapped]
  by_cases hfs : f ∈ service.map (·.1)
  · obtain ⟨p, hp, rfl⟩ := List.mem_map.1 hfs
    obtain ⟨v, hv, hk⟩ := hf.1.get hs.1 (f := p.1) (d := p.2) hp
    obtain ⟨w, hw, hkw⟩ := h0.get hs.1 (f := p.1) (d := p.2) hp
    rw [hv, hw]
    simp only [Option.map_some]
    congr 1
    have hl := hlo p hp
    unfold afterClient remains
    cases hcl : client.lookup p.1 with
    | none =>
      rw [if_pos hcl] at hl
      obtain ⟨h1, h2, h3⟩ := hl
      rw [hw] at h3
      cases h3
      rw [if_pos h1]
      cases v with
      | int i => cases hk2 : p.2.kind <;> rw [hk2] at hk <;> first | rfl | simp [Val.hasKind] at hk
      | str s => cases hk2 : p.2.kind <;> rw [hk2] at hk <;> first | rfl | simp [Val.hasKind] at hk
      | time t => cases hk2 : p.2.kind <;> rw [hk2] at hk <;> first | exact absurd hk2 h2 | simp [Val.hasKind] at hk
    | some d =>
      rw [if_neg (by rw [hcl]; simp)] at hl
      rw [if_neg (by rw [hl]; simp)]
      rcases clientRec_cases hs hm hf h hcl with ⟨h1, h2⟩ | ⟨v', hv', h1⟩
      · obtain ⟨hb, e, he, heo⟩ := h2 v hv
        have hpe : p.2 = e := by
          have a := lookup_of_mem hs.1 (show (p.1, p.2) ∈ service from hp)
          have b := lookup_of_mem hs.1 he
          rw [a] at b
          exact Option.some.inj b
        subst hpe
        have hz := ho p hp heo
        rw [hw] at hz
        cases hz
        rw [blank_eq] at hb
        have hvz := emptyVal_zero hk hb
        rw [h1]
        unfold Spec.clientZero
        cases d.omitempty with
        | true => exact hvz.symm
        | false =>
          have h2 := hm.2.1 p hp
          simp only [hcl] at h2
          have := emptyVal_zero (k := d.kind) (by rw [← hasKind_same h2.2]; exact hk) hb
          exact this.symm
      · rw [hv] at hv'
        cases hv'
        rw [h1]
  · rw [Fields.get_none (by rw [h0.names]; exact hfs), Fields.get_none (by rw [hf.1.names]; exact hfs)]
    rfl

theorem forget_same {fs : Fields} (h : ∀ p ∈ fs, Spec.lost p.1 = false) : Spec.forget fs = fs := by
  unfold Spec.forget
  have : ∀ p ∈ fs, (fun p : F × Val => (p.1, if Spec.lost p.1 then Spec.emptied p.2 else p.2)) p = p := by
    intro p hp
    simp only [h p hp]
    rfl
  rw [List.map_congr_left this, List.map_id']

theorem forget_typed {decl : List (F × FieldDecl)} {fs : Fields} (h : fs.Typed decl) (hd : ∀ p ∈ decl, Spec.lost p.1 = false) :
    Spec.forget fs = fs := by
  apply forget_same
  intro p hp
  have : p.1 ∈ decl.map (·.1) := by rw [← h.names]; exact List.mem_map_of_mem hp
  obtain ⟨q, hq, he⟩ := List.mem_map.1 this
  rw [← he]
  exact hd q hq

/-! ### L1 segments stay valid -/

theorem validateLoop_forget {fmt : Format} {custom custom' : F → Option Err} (hfmt : ∀ f v, Spec.lost f = true → missing fmt f v = false)
    (hc : ∀ f, custom f = none → custom' f = none) (fs : Fields) (h : validateLoop fmt custom fs = none) :
    validateLoop fmt custom' (Spec.forget fs) = none := by
  induction fs with
  | nil => rfl
  | cons p fs ih =>
    obtain ⟨f, v⟩ := p
    rw [validateLoop] at h
    split at h
    · cases h
    · next hmiss =>
      split at h
      · cases h
      · next hcust =>
        show validateLoop fmt custom' ((f, if Spec.lost f then _ else v) :: Spec.forget fs) = none
        rw [validateLoop, hc f hcust]
        by_cases hl : Spec.lost f = true
        · rw [hfmt _ _ hl]
          simp only [Bool.false_eq_true, if_false]
          exact ih h
        · rw [if_neg hl, if_neg hmiss]
          exact ih h

theorem l1_forget_valid {s : Seg} (hk : s.kind = .l1) (h : s.validate = none) : (Spec.forgetSeg s).validate = none := by
  obtain ⟨k, fs⟩ := s
  simp only at hk
  subst hk
  show validateLoop l1SegmentFormat (segCustom .l1 (Spec.forget fs)) (Spec.forget fs) = none
  have h : validateLoop l1SegmentFormat (segCustom .l1 fs) fs = none := h
  refine validateLoop_forget ?_ ?_ fs h
  · intro f v hf
    have : f = .ProcessingIndicator ∨ f = .CorrectionIndicator ∨ f = .NewIdentificationNumber := by
      cases f <;> simp [Spec.lost] at hf ⊢
    rcases this with rfl | rfl | rfl <;> rfl
  · have hi : ∀ f, Spec.lost f = false → (Spec.forget fs).get f = fs.get f := by
      intro f hf
      rw [forget_eq, get_mapped]
      cases fs.get f with
      | none => rfl
      | some v => simp [remains, hf]
    have hint : (Spec.forget fs).int .ChangeIndicator = fs.int .ChangeIndicator := by
      simp only [Fields.int, hi .ChangeIndicator rfl]
    have hstr : (Spec.forget fs).str .NewConsumerAccountNumber = fs.str .NewConsumerAccountNumber := by
      simp only [Fields.str, hi .NewConsumerAccountNumber rfl]
    have hid : validFilledString ((Spec.forget fs).str .NewIdentificationNumber) = true := by
      have : (Spec.forget fs).get .NewIdentificationNumber = (fs.get .NewIdentificationNumber).map Spec.emptied := by
        rw [forget_eq, get_mapped]
        rfl
      simp only [Fields.str, this]
      cases fs.get .NewIdentificationNumber with
      | none => rfl
      | some v => cases v <;> rfl
    intro f hf
    cases f <;> first
      | exact hf
      | (simp only [segCustom, hint, hstr] at hf ⊢; exact hf)
      | simp [segCustom, hid, check]

/-! ### Data records -/

theorem isObj_seg_round {k : SegKind} {s : Seg} (hs : Spec.JsonSeg k s) {c : ClientRec} (h : Spec.clientSeg s = some c) :
    Spec.ClientOk (clientSegment k) c ∧ Spec.serviceSeg k c = Spec.forgetSeg s := by
  obtain ⟨hk, hf, hv⟩ := hs
  subst hk
  refine ⟨clientRec_ok (tagsOk_seg _) (matches_seg _) hf h, ?_⟩
  unfold Spec.serviceSeg Spec.forgetSeg
  rw [serviceFields_clientRec (tagsOk_seg _) (matches_seg _) (Seg.new_typed _) (omitZero_seg _) (loses_seg _) hf h]

theorem keeps_seg (k : SegKind) (hk : k ≠ .l1) : ∀ p ∈ k.struct, Spec.lost p.1 = false := by
  cases k <;> first | exact absurd rfl hk | decide +kernel

theorem forgetSeg_same {k : SegKind} (hk : k ≠ .l1) {s : Seg} (hs : Spec.JsonSeg k s) : Spec.forgetSeg s = s := by
  unfold Spec.forgetSeg
  rw [forget_typed hs.fields.1 (keeps_seg k hk)]

theorem seg_round {k : SegKind} (hk : k ≠ .l1) {s : Seg} (hs : Spec.JsonSeg k s) {c : ClientRec} (h : Spec.clientSeg s = some c) :
    (Spec.ClientOk (clientSegment k) c ∧ (Spec.serviceSeg k c).validate = none) ∧ Spec.serviceSeg k c = s := by
  obtain ⟨h1, h2⟩ := isObj_seg_round hs h
  rw [forgetSeg_same hk hs] at h2
  exact ⟨⟨h1, by rw [h2]; exact hs.valid⟩, h2⟩

theorem segs_round {k : SegKind} (hk : k ≠ .l1) {l : List Seg} (hl : ∀ s ∈ l, Spec.JsonSeg k s) {cs : List ClientRec}
    (h : l.mapM Spec.clientSeg = some cs) :
    (∀ c ∈ cs, Spec.ClientOk (clientSegment k) c ∧ (Spec.serviceSeg k c).validate = none) ∧ cs.map (Spec.serviceSeg k) = l := by
  induction l generalizing cs with
  | nil =>
    rw [List.mapM_nil] at h
    cases h
    exact ⟨by simp, rfl⟩
  | cons s l ih =>
    rw [List.mapM_cons] at h
    cases h1 : Spec.clientSeg s with
    | none => rw [h1] at h; cases h
    | some c =>
      rw [h1] at h
      simp only [Option.bind_eq_bind, Option.bind_some] at h
      cases h2 : l.mapM Spec.clientSeg with
      | none => rw [h2] at h; cases h
      | some ds =>
        rw [h2] at h
        cases h
        obtain ⟨a, b⟩ := ih (fun t ht => hl t (by simp [ht])) h2
        obtain ⟨a', b'⟩ := seg_round hk (hl s (by simp)) h1
        refine ⟨?_, by rw [List.map_cons, b, b']⟩
        intro x hx
        rcases List.mem_cons.1 hx with rfl | hx
        · exact a'
        · exact a x hx

theorem opt_round {k : SegKind} (hk : k ≠ .l1) {o : Option Seg} (ho : ∀ s, o = some s → Spec.JsonSeg k s) {co : Option ClientRec}
    (h : Spec.clientSeg? o = some co) :
    (∀ c, co = some c → Spec.ClientOk (clientSegment k) c ∧ (Spec.serviceSeg k c).validate = none) ∧ co.map (Spec.serviceSeg k) = o := by
  cases o with
  | none => cases h; exact ⟨fun _ h => (by cases h), rfl⟩
  | some s =>
    obtain ⟨c, h1, h2⟩ := Option.map_eq_some_iff.1 (show (Spec.clientSeg s).map some = some co from h)
    subst h2
    obtain ⟨a, b⟩ := seg_round hk (ho s rfl) h1
    exact ⟨fun c' hc => by cases hc; exact a, by rw [Option.map_some, b]⟩

theorem l1_round {o : Option Seg} (ho : ∀ s, o = some s → Spec.JsonSeg .l1 s) {co : Option ClientRec} (h : Spec.clientSeg? o = some co) :
    (∀ c, co = some c → Spec.ClientOk (clientSegment .l1) c ∧ (Spec.serviceSeg .l1 c).validate = none) ∧
      co.map (Spec.serviceSeg .l1) = o.map Spec.forgetSeg := by
  cases o with
  | none => cases h; exact ⟨fun _ h => (by cases h), rfl⟩
  | some s =>
    obtain ⟨c, h1, h2⟩ := Option.map_eq_some_iff.1 (show (Spec.clientSeg s).map some = some co from h)
    subst h2
    obtain ⟨a, b⟩ := isObj_seg_round (ho s rfl) h1
    refine ⟨fun c' hc => ?_, by rw [Option.map_some, Option.map_some, b]⟩
    cases hc
    refine ⟨a, ?_⟩
    rw [b]
    exact l1_forget_valid (ho s rfl).kind (ho s rfl).valid

theorem base_round {enc : Enc} {fs : Fields} {g : Segs} (hf : Spec.JsonFields baseSegmentStruct fs) (hg : Spec.JsonSegs g) {d : ClientData}
    (h : Spec.clientData fs g = some d) : Spec.ClientDataOk d ∧ Spec.serviceBase enc d = Spec.forgetRecord (.base enc fs g) := by
  unfold Spec.clientData at h
  simp only [Option.bind_eq_bind, Option.bind_eq_some_iff, Option.some.injEq] at h
  obtain ⟨b, hb, j1, h1, j2, h2, k1, h3, k2, h4, k3, h5, k4, h6, l1, h7, n1, h8, rfl⟩ := h
  obtain ⟨a1, b1⟩ := segs_round (by decide) hg.j1 h1
  obtain ⟨a2, b2⟩ := segs_round (by decide) hg.j2 h2
  obtain ⟨a3, b3⟩ := opt_round (by decide) hg.k1 h3
  obtain ⟨a4, b4⟩ := opt_round (by decide) hg.k2 h4
  obtain ⟨a5, b5⟩ := opt_round (by decide) hg.k3 h5
  obtain ⟨a6, b6⟩ := opt_round (by decide) hg.k4 h6
  obtain ⟨a7, b7⟩ := l1_round hg.l1 h7
  obtain ⟨a8, b8⟩ := opt_round (by decide) hg.n1 h8
  refine ⟨⟨clientRec_ok tagsOk_base matches_base hf hb, a1, a2, a3, a4, a5, a6, a7, a8⟩, ?_⟩
  unfold Spec.serviceBase Spec.forgetRecord
  rw [serviceFields_clientRec tagsOk_base matches_base (zeroFields_typed _) omitZero_base loses_base hf hb]
  congr 1
  unfold Spec.serviceSegs Spec.forgetSegs
  simp only [b1, b2, b3, b4, b5, b6, b7, b8]

theorem bases_round {enc : Enc} {l : List Record} (hl : ∀ r ∈ l, ∃ fs g, r = .base enc fs g ∧ Spec.JsonFields baseSegmentStruct fs ∧ Spec.JsonSegs g)
    {ds : List ClientData} (h : l.mapM Spec.clientBase = some ds) :
    (∀ d ∈ ds, Spec.ClientDataOk d) ∧ ds.map (Spec.serviceBase enc) = l.map Spec.forgetRecord := by
  induction l generalizing ds with
  | nil =>
    rw [List.mapM_nil] at h
    cases h
    exact ⟨by simp, rfl⟩
  | cons r l ih =>
    rw [List.mapM_cons] at h
    obtain ⟨fs, g, rfl, hf, hg⟩ := hl r (by simp)
    cases h1 : Spec.clientBase (.base enc fs g) with
    | none => rw [h1] at h; cases h
    | some c =>
      rw [h1] at h
      simp only [Option.bind_eq_bind, Option.bind_some] at h
      cases h2 : l.mapM Spec.clientBase with
      | none => rw [h2] at h; cases h
      | some cs =>
        rw [h2] at h
        cases h
        obtain ⟨a, b⟩ := ih (fun t ht => hl t (by simp [ht])) h2
        obtain ⟨a', b'⟩ := base_round (enc := enc) hf hg h1
        refine ⟨?_, by rw [List.map_cons, List.map_cons, b, b']⟩
        intro x hx
        rcases List.mem_cons.1 hx with rfl | hx
        · exact a'
        · exact a x hx

/-! ### Files -/

theorem keeps_header : ∀ p ∈ headerRecordStruct, Spec.lost p.1 = false := by decide +kernel
theorem keeps_trailer : ∀ p ∈ trailerRecordStruct, Spec.lost p.1 = false := by decide +kernel

theorem file_round {enc : Enc} {f : File} (hf : Spec.JsonFile enc f) {c : ClientFile} (h : Spec.clientFile f = some c) :
    Spec.ClientFileOk c ∧ Spec.serviceFile enc c = Spec.forgetFile f := by
  obtain ⟨hfmt, ⟨hs, hh, hhf⟩, hb, ⟨ts, ht, htf⟩⟩ := hf
  obtain ⟨fmt, header, bases, trailer⟩ := f
  simp only at hfmt hh hb ht
  subst hfmt hh ht
  unfold Spec.clientFile at h
  simp only [Option.bind_eq_bind, Option.bind_eq_some_iff, Option.some.injEq, Record.fields] at h
  obtain ⟨ch, h1, cd, h2, ct, h3, rfl⟩ := h
  obtain ⟨a, b⟩ := bases_round hb h2
  refine ⟨⟨clientRec_ok tagsOk_header matches_header hhf h1, a, clientRec_ok tagsOk_trailer matches_trailer htf h3⟩, ?_⟩
  unfold Spec.serviceFile Spec.forgetFile
  simp only [b]
  rw [serviceFields_clientRec tagsOk_header matches_header (newHeader_typed _) (omitZero_header _) (loses_header _) hhf h1,
    serviceFields_clientRec tagsOk_trailer matches_trailer (newTrailer_typed _) (omitZero_trailer _) (loses_trailer _) htf h3,
    forget_typed hhf.1 keeps_header, forget_typed htf.1 keeps_trailer]

/-! ### Which files the client takes -/

theorem mapM_isSome {α β : Type} {f : α → Option β} {l : List α} : (∃ ys, l.mapM f = some ys) ↔ ∀ x ∈ l, ∃ y, f x = some y := by
  induction l with
  | nil => exact ⟨fun _ x hx => (by cases hx), fun _ => ⟨[], rfl⟩⟩
  | cons a l ih =>
    rw [List.mapM_cons]
    constructor
    · rintro ⟨ys, h⟩ x hx
      cases h1 : f a with
      | none => rw [h1] at h; cases h
      | some b =>
        rw [h1] at h
        simp only [Option.bind_eq_bind, Option.bind_some] at h
        cases h2 : l.mapM f with
        | none => rw [h2] at h; cases h
        | some bs =>
          rcases List.mem_cons.1 hx with rfl | hx
          · exact ⟨b, h1⟩
          · exact ih.1 ⟨bs, h2⟩ x hx
    · intro h
      obtain ⟨b, h1⟩ := h a (by simp)
      obtain ⟨bs, h2⟩ := ih.2 fun x hx => h x (by simp [hx])
      rw [h1]
      simp only [Option.bind_eq_bind, Option.bind_some, h2]
      exact ⟨_, rfl⟩

theorem clientSeg_iff {s : Seg} (h : Spec.WrittenFields s.kind.struct s.fields) :
    (∃ c, Spec.clientSeg s = some c) ↔ Spec.Held (clientSegment s.kind) s.fields :=
  clientRec_iff (tagsOk_seg _) (matches_seg _).1 h.1

theorem clientSeg?_iff {o : Option Seg} (h : ∀ s, o = some s → Spec.WrittenFields s.kind.struct s.fields) :
    (∃ c, Spec.clientSeg? o = some c) ↔ ∀ s, o = some s → Spec.Held (clientSegment s.kind) s.fields := by
  cases o with
  | none => exact ⟨fun _ s hs => (by cases hs), fun _ => ⟨none, rfl⟩⟩
  | some s =>
    have := clientSeg_iff (h s rfl)
    constructor
    · rintro ⟨c, hc⟩ t ht
      cases ht
      obtain ⟨c', h1, _⟩ := Option.map_eq_some_iff.1 (show (Spec.clientSeg s).map some = some c from hc)
      exact this.1 ⟨c', h1⟩
    · intro hs
      obtain ⟨c, hc⟩ := this.2 (hs s rfl)
      exact ⟨some c, by show (Spec.clientSeg s).map some = _; rw [hc]; rfl⟩

theorem clientData_iff {fs : Fields} {g : Segs} (h : Spec.WrittenBase fs g) : (∃ d, Spec.clientData fs g = some d) ↔ Spec.HeldBase fs g := by
  have hb := clientRec_iff tagsOk_base matches_base.1 h.base.1
  have e1 := (mapM_isSome (f := Spec.clientSeg) (l := g.j1)).trans
    ⟨fun h1 s hs => (clientSeg_iff (h.j1 s hs).2).1 (h1 s hs), fun h1 s hs => (clientSeg_iff (h.j1 s hs).2).2 (h1 s hs)⟩
  have e2 := (mapM_isSome (f := Spec.clientSeg) (l := g.j2)).trans
    ⟨fun h1 s hs => (clientSeg_iff (h.j2 s hs).2).1 (h1 s hs), fun h1 s hs => (clientSeg_iff (h.j2 s hs).2).2 (h1 s hs)⟩
  have e3 := clientSeg?_iff fun s hs => (h.k1 s hs).2
  have e4 := clientSeg?_iff fun s hs => (h.k2 s hs).2
  have e5 := clientSeg?_iff fun s hs => (h.k3 s hs).2
  have e6 := clientSeg?_iff fun s hs => (h.k4 s hs).2
  have e7 := clientSeg?_iff fun s hs => (h.l1 s hs).2
  have e8 := clientSeg?_iff fun s hs => (h.n1 s hs).2
  unfold Spec.clientData
  simp only [Option.bind_eq_bind, Option.bind_eq_some_iff, Option.some.injEq]
  constructor
  · rintro ⟨d, b, h0, j1, h1, j2, h2, k1, h3, k2, h4, k3, h5, k4, h6, l1, h7, n1, h8, rfl⟩
    refine ⟨hb.1 ⟨b, h0⟩, ?_⟩
    intro s hs
    simp only [Segs.list, List.mem_append, Option.mem_toList] at hs
    rcases hs with ((((((hs | hs) | hs) | hs) | hs) | hs) | hs) | hs
    · exact e1.1 ⟨_, h1⟩ s hs
    · exact e2.1 ⟨_, h2⟩ s hs
    · exact e3.1 ⟨_, h3⟩ s hs
    · exact e4.1 ⟨_, h4⟩ s hs
    · exact e5.1 ⟨_, h5⟩ s hs
    · exact e6.1 ⟨_, h6⟩ s hs
    · exact e7.1 ⟨_, h7⟩ s hs
    · exact e8.1 ⟨_, h8⟩ s hs
  · rintro ⟨h0, hs⟩
    have mem : ∀ s, s ∈ g.list ↔ ((((((s ∈ g.j1 ∨ s ∈ g.j2) ∨ g.k1 = some s) ∨ g.k2 = some s) ∨ g.k3 = some s) ∨ g.k4 = some s) ∨ g.l1 = some s) ∨
        g.n1 = some s := by
      intro s
      simp only [Segs.list, List.mem_append, Option.mem_toList]
    obtain ⟨b, h0⟩ := hb.2 h0
    obtain ⟨j1, h1⟩ := e1.2 fun s h => hs s (by rw [mem]; simp [h])
    obtain ⟨j2, h2⟩ := e2.2 fun s h => hs s (by rw [mem]; simp [h])
    obtain ⟨k1, h3⟩ := e3.2 fun s h => hs s (by rw [mem]; simp [h])
    obtain ⟨k2, h4⟩ := e4.2 fun s h => hs s (by rw [mem]; simp [h])
    obtain ⟨k3, h5⟩ := e5.2 fun s h => hs s (by rw [mem]; simp [h])
    obtain ⟨k4, h6⟩ := e6.2 fun s h => hs s (by rw [mem]; simp [h])
    obtain ⟨l1, h7⟩ := e7.2 fun s h => hs s (by rw [mem]; simp [h])
    obtain ⟨n1, h8⟩ := e8.2 fun s h => hs s (by rw [mem]; simp [h])
    exact ⟨_, b, h0, j1, h1, j2, h2, k1, h3, k2, h4, k3, h5, k4, h6, l1, h7, n1, h8, rfl⟩

theorem clientFile_iff {f : File} (h : Spec.WrittenFile f) : (∃ c, Spec.clientFile f = some c) ↔ Spec.HeldFile f := by
  obtain ⟨⟨e, hs, hh, hhf⟩, hb, ⟨e', ts, ht, htf⟩⟩ := h
  have i1 : (∃ c, Spec.clientRec headerRecordStruct clientHeaderRecord f.header.fields = some c) ↔ Spec.Held clientHeaderRecord f.header.fields := by
    rw [hh]; exact clientRec_iff tagsOk_header matches_header.1 hhf.1
  have i2 : (∃ c, Spec.clientRec trailerRecordStruct clientTrailerRecord f.trailer.fields = some c) ↔
      Spec.Held clientTrailerRecord f.trailer.fields := by
    rw [ht]; exact clientRec_iff tagsOk_trailer matches_trailer.1 htf.1
  have i3 : (∃ ds, f.bases.mapM Spec.clientBase = some ds) ↔ ∀ enc fs g, .base enc fs g ∈ f.bases → Spec.HeldBase fs g := by
    rw [mapM_isSome]
    constructor
    · intro h1 enc fs g hm
      obtain ⟨e, fs', g', he, hw⟩ := hb _ hm
      cases he
      exact (clientData_iff hw).1 (h1 _ hm)
    · intro h1 r hr
      obtain ⟨e, fs, g, rfl, hw⟩ := hb r hr
      exact (clientData_iff hw).2 (h1 _ _ _ hr)
  unfold Spec.clientFile
  simp only [Option.bind_eq_bind, Option.bind_eq_some_iff, Option.some.injEq]
  constructor
  · rintro ⟨c, a, h1, b, h2, d, h3, rfl⟩
    exact ⟨i1.1 ⟨_, h1⟩, i3.1 ⟨_, h2⟩, i2.1 ⟨_, h3⟩⟩
  · rintro ⟨h1, h2, h3⟩
    obtain ⟨a, h1⟩ := i1.2 h1
    obtain ⟨b, h2⟩ := i3.2 h2
    obtain ⟨d, h3⟩ := i2.2 h3
    exact ⟨_, a, h1, b, h2, d, h3, rfl⟩

theorem writtenFile_of {enc : Enc} {f : File} (h : Spec.JsonFile enc f) : Spec.WrittenFile f := by
  obtain ⟨_, ⟨hs, hh, hhf⟩, hb, ⟨ts, ht, htf⟩⟩ := h
  refine ⟨⟨enc, hs, hh, writtenFields_of hhf⟩, ?_, ⟨enc, ts, ht, writtenFields_of htf⟩⟩
  intro r hr
  obtain ⟨fs, g, rfl, hf, hg⟩ := hb r hr
  have go : ∀ {k : SegKind} {s : Seg}, Spec.JsonSeg k s → s.kind = k ∧ Spec.WrittenFields s.kind.struct s.fields := by
    intro k s h
    have hk := h.kind
    subst hk
    exact ⟨rfl, writtenFields_of h.fields⟩
  exact ⟨enc, fs, g, rfl, writtenFields_of hf, fun s h => go (hg.j1 s h), fun s h => go (hg.j2 s h), fun s h => go (hg.k1 s h),
    fun s h => go (hg.k2 s h), fun s h => go (hg.k3 s h), fun s h => go (hg.k4 s h), fun s h => go (hg.l1 s h), fun s h => go (hg.n1 s h)⟩

/-! ### What the client shows -/

theorem clientRec_shows {service client : List (F × FieldDecl)} (hs : TagsOk service) (hm : Matches service client) {fs : Fields}
    (hf : Spec.JsonFields service fs) {c : ClientRec} (h : Spec.clientRec service client fs = some c) : Spec.ShowsRec client fs c := by
  intro p hp v hv
  have hl := lookup_of_mem hm.1.1 (show (p.1, p.2) ∈ client from hp)
  unfold ClientRec.get
  rcases clientRec_cases hs hm hf h hl with ⟨h1, h2⟩ | ⟨w, hw, h1⟩
  · obtain ⟨hb, e, he, _⟩ := h2 v hv
    obtain ⟨e', he', hk⟩ := service_lookup hf.1 hs.1 hv
    have h3 := hm.2.1 _ (lookup_mem he')
    simp only [hl] at h3
    rw [blank_eq] at hb
    have hz := emptyVal_zero (k := p.2.kind) (by rw [← hasKind_same h3.2]; exact hk) hb
    rw [h1, hz]
    unfold Spec.clientZero
    cases p.2.omitempty <;> rfl
  · rw [hv] at hw
    cases hw
    rw [h1]

theorem mapM_paired {α β : Type} {f : α → Option β} {P : α → β → Prop} {l : List α} (hp : ∀ a ∈ l, ∀ b, f a = some b → P a b) {ys : List β}
    (h : l.mapM f = some ys) : Spec.Paired P l ys := by
  induction l generalizing ys with
  | nil =>
    rw [List.mapM_nil] at h
    cases h
    trivial
  | cons a l ih =>
    rw [List.mapM_cons] at h
    cases h1 : f a with
    | none => rw [h1] at h; cases h
    | some b =>
      rw [h1] at h
      simp only [Option.bind_eq_bind, Option.bind_some] at h
      cases h2 : l.mapM f with
      | none => rw [h2] at h; cases h
      | some bs =>
        rw [h2] at h
        cases h
        exact ⟨hp a (by simp) b h1, ih (fun x hx => hp x (by simp [hx])) h2⟩

theorem clientSeg_shows {k : SegKind} {s : Seg} (hs : Spec.JsonSeg k s) {c : ClientRec} (h : Spec.clientSeg s = some c) : Spec.ShowsSeg s c := by
  have hk := hs.kind
  subst hk
  exact clientRec_shows (tagsOk_seg _) (matches_seg _) hs.fields h

theorem clientSeg?_shows {k : SegKind} {o : Option Seg} (ho : ∀ s, o = some s → Spec.JsonSeg k s) {co : Option ClientRec}
    (h : Spec.clientSeg? o = some co) : Spec.ShowsSeg? o co := by
  cases o with
  | none => cases h; trivial
  | some s =>
    obtain ⟨c, h1, h2⟩ := Option.map_eq_some_iff.1 (show (Spec.clientSeg s).map some = some co from h)
    subst h2
    exact clientSeg_shows (ho s rfl) h1

theorem clientData_shows {fs : Fields} {g : Segs} (hf : Spec.JsonFields baseSegmentStruct fs) (hg : Spec.JsonSegs g) {d : ClientData}
    (h : Spec.clientData fs g = some d) : Spec.ShowsData fs g d := by
  unfold Spec.clientData at h
  simp only [Option.bind_eq_bind, Option.bind_eq_some_iff, Option.some.injEq] at h
  obtain ⟨b, hb, j1, h1, j2, h2, k1, h3, k2, h4, k3, h5, k4, h6, l1, h7, n1, h8, rfl⟩ := h
  exact ⟨clientRec_shows tagsOk_base matches_base hf hb, mapM_paired (fun s hs c hc => clientSeg_shows (hg.j1 s hs) hc) h1,
    mapM_paired (fun s hs c hc => clientSeg_shows (hg.j2 s hs) hc) h2, clientSeg?_shows hg.k1 h3, clientSeg?_shows hg.k2 h4,
    clientSeg?_shows hg.k3 h5, clientSeg?_shows hg.k4 h6, clientSeg?_shows hg.l1 h7, clientSeg?_shows hg.n1 h8⟩

theorem clientFile_shows {enc : Enc} {f : File} (hf : Spec.JsonFile enc f) {c : ClientFile} (h : Spec.clientFile f = some c) :
    Spec.ShowsFile f c := by
  obtain ⟨hfmt, ⟨hs, hh, hhf⟩, hb, ⟨ts, ht, htf⟩⟩ := hf
  obtain ⟨fmt, header, bases, trailer⟩ := f
  simp only at hfmt hh hb ht
  subst hfmt hh ht
  unfold Spec.clientFile at h
  simp only [Option.bind_eq_bind, Option.bind_eq_some_iff, Option.some.injEq, Record.fields] at h
  obtain ⟨ch, h1, cd, h2, ct, h3, rfl⟩ := h
  refine ⟨clientRec_shows tagsOk_header matches_header hhf h1, mapM_paired ?_ h2, clientRec_shows tagsOk_trailer matches_trailer htf h3⟩
  intro r hr d hd
  obtain ⟨fs, g, rfl, hf, hg⟩ := hb r hr
  exact ⟨_, fs, g, rfl, clientData_shows hf hg hd⟩

/-! ### Nothing is lost -/

theorem forget_iff (fs : Fields) : Spec.forget fs = fs ↔ ∀ p ∈ fs, Spec.lost p.1 = true → p.2 = Spec.emptied p.2 := by
  induction fs with
  | nil => exact ⟨fun _ p hp => (by cases hp), fun _ => rfl⟩
  | cons q fs ih =>
    have hc : Spec.forget (q :: fs) = (q.1, if Spec.lost q.1 then Spec.emptied q.2 else q.2) :: Spec.forget fs := rfl
    rw [hc, List.cons.injEq, ih]
    constructor
    · rintro ⟨h1, h2⟩ p hp hl
      rcases List.mem_cons.1 hp with rfl | hp
      · rw [if_pos hl] at h1
        exact (congrArg Prod.snd h1).symm
      · exact h2 p hp hl
    · intro h
      refine ⟨?_, fun p hp => h p (List.mem_cons_of_mem _ hp)⟩
      by_cases hl : Spec.lost q.1 = true
      · rw [if_pos hl, ← h q (by simp) hl]
      · rw [if_neg hl]

theorem map_same {α : Type} {f : α → α} {l : List α} : l.map f = l ↔ ∀ x ∈ l, f x = x := by
  induction l with
  | nil => simp
  | cons a l ih => rw [List.map_cons, List.cons.injEq, ih]; simp

theorem forgetFile_iff {enc : Enc} {f : File} (hf : Spec.JsonFile enc f) : Spec.forgetFile f = f ↔ Spec.NothingLost f := by
  have h1 : Spec.forgetFile f = f ↔ f.bases.map Spec.forgetRecord = f.bases := by
    obtain ⟨fmt, header, bases, trailer⟩ := f
    simp [Spec.forgetFile]
  rw [h1, map_same]
  have key : ∀ enc fs g, Spec.forgetRecord (.base enc fs g) = .base enc fs g ↔
      (∀ p ∈ fs, Spec.lost p.1 = true → p.2 = Spec.emptied p.2) ∧
      ∀ s, g.l1 = some s → ∀ p ∈ s.fields, Spec.lost p.1 = true → p.2 = Spec.emptied p.2 := by
    intro enc fs g
    rw [← forget_iff]
    have h2 : (∀ s, g.l1 = some s → ∀ p ∈ s.fields, Spec.lost p.1 = true → p.2 = Spec.emptied p.2) ↔ Spec.forgetSegs g = g := by
      obtain ⟨j1, j2, k1, k2, k3, k4, l1, n1⟩ := g
      cases l1 with
      | none => exact ⟨fun _ => rfl, fun _ s hs => (by cases hs)⟩
      | some s =>
        obtain ⟨k, fs⟩ := s
        simp only [Option.some.injEq, forall_eq', Spec.forgetSegs, Spec.forgetSeg, Option.map_some, Segs.mk.injEq, true_and, and_true, Seg.mk.injEq]
        exact (forget_iff fs).symm
    rw [h2]
    simp [Spec.forgetRecord]
  constructor
  · intro h enc fs g hm
    exact (key enc fs g).1 (h _ hm)
  · intro h r hr
    obtain ⟨fs, g, rfl, _⟩ := hf.bases r hr
    exact (key _ _ _).2 (h _ _ _ hr)

end Metro2
