import Verif.Lemmas.JsonFile
import Verif.Props.Dates
import Verif.Spec.Client

/-! The client package: reading what the service writes. -/

namespace Metro2

/-! ### Times -/

def rfcLayout : DateLayout :=
  ⟨[([], .longYear), ([45], .zeroMonth), ([45], .zeroDay), ([84], .hour), ([58], .zeroMinute), ([58], .zeroSecond),
    ([], .isoColonTZ)], []⟩

theorem rfcLayout_eq : DateLayout.of rfc3339Layout = rfcLayout := by decide +kernel

theorem elems_isoZone {a : Parsed} {zh zm : Bytes} {sign : UInt8} (hs : sign = 43 ∨ sign = 45) :
    parseElems [] a (sign :: (zh ++ 58 :: zm)) [([], .isoColonTZ)] = parseElems [] a (sign :: (zh ++ 58 :: zm)) [([], .numColonTZ)] := by
  have h : sign ≠ 90 := by rcases hs with rfl | rfl <;> decide
  simp only [parseElems, skip_nil, parseElem, parseIsoZone, if_neg h, parseNumZone]

theorem elems_isoUtc {a : Parsed} : parseElems [] a [90] [([], .isoColonTZ)] = some { a with utc := true } := by
  simp only [parseElems, skip_nil, parseElem, parseIsoZone, if_true]

/-- The part of an RFC 3339 text before the zone. -/
theorem parse_rfc {t : Time} {y mo d hh mi se : Bytes} {n : Nat}
    (hd : 1 ≤ t.month ∧ t.month ≤ 12 ∧ 1 ≤ t.day ∧ t.day ≤ daysIn t.month (n : Int)) (h5 : t.hour < 24)
    (h6 : t.min < 60) (h7 : t.sec < 60) (l1 : y.length = 4)
    (l2 : mo.length = 2) (l3 : d.length = 2) (l4 : hh.length = 2) (l5 : mi.length = 2) (l6 : se.length = 2)
    (e1 : (∀ c ∈ y, isDigit c = true) ∧ digitsVal y = n)
    (e2 : (∀ c ∈ mo, isDigit c = true) ∧ digitsVal mo = t.month) (e3 : (∀ c ∈ d, isDigit c = true) ∧ digitsVal d = t.day)
    (e4 : (∀ c ∈ hh, isDigit c = true) ∧ digitsVal hh = t.hour) (e5 : (∀ c ∈ mi, isDigit c = true) ∧ digitsVal mi = t.min)
    (e6 : (∀ c ∈ se, isDigit c = true) ∧ digitsVal se = t.sec) {z : Bytes} (hz : z.head? ≠ some 46 ∧ z.head? ≠ some 44) :
    parseElems [] {} (y ++ 45 :: (mo ++ 45 :: (d ++ 84 :: (hh ++ 58 :: (mi ++ 58 :: (se ++ z)))))) rfcLayout.elems =
      parseElems [] { year := n, month := t.month, day := t.day, hour := t.hour, min := t.min, sec := t.sec } z [([], .isoColonTZ)] := by
  obtain ⟨h1, h2, h3, h4⟩ := hd
  unfold rfcLayout
  simp only
  rw [elems_year (skip_nil _) l1 e1.1 e1.2, elems_num (skip_one (by decide) _) (fun _ _ => rfl) l2 e2.1 e2.2,
    if_neg (by omega), elems_num (skip_one (by decide) _) (fun _ _ => rfl) l3 e3.1 e3.2,
    if_neg (by have := daysIn_le t.month (n : Int); omega),
    elems_num (skip_one (by decide) _) (fun _ _ => rfl) l4 e4.1 e4.2,
    if_neg (by omega), elems_num (skip_one (by decide) _) (fun _ _ => rfl) l5 e5.1 e5.2,
    if_neg (by omega), elems_second (skip_one (by decide) _) l6 e6.1 e6.2 hz, if_neg (by omega)]

theorem rfcLayout_iso (loc : LocalZone) {s : Bytes} {t : Time} (hp : Spec.PlainTime t) (h : Spec.IsoText s t) :
    rfcLayout.parse loc s = some t := by
  obtain ⟨y, mo, d, hh, mi, se, rfl, l1, l2, l3, l4, l5, l6, ⟨n, hy, e1⟩, e2, e3, e4, e5, e6⟩ := h
  rw [spec_decimal_iff] at e1 e2 e3 e4 e5 e6
  obtain ⟨⟨h1, h2, h3, h4, h5, h6, h7, _⟩, hy0, hy1, hn, hl⟩ := (spec_plainTime_iff t).1 hp
  simp only [List.append_assoc, List.cons_append, List.nil_append]
  unfold DateLayout.parse
  show (match parseElems [] {} _ rfcLayout.elems with | none => none | some a => a.finish loc) = _
  rw [parse_rfc (t := t) (z := [90]) ⟨h1, h2, h3, by rw [← hy]; exact h4⟩ h5 h6 h7 l1 l2 l3 l4 l5 l6 e1 e2 e3 e4 e5 e6 (by decide), elems_isoUtc]
  have hmneg : ¬ (t.month : Int) < 0 := by omega
  have hdneg : ¬ (t.day : Int) < 0 := by omega
  have hd : ¬ ((t.day : Int) < 1 ∨ (daysIn t.month (n : Int) : Int) < t.day) := by rw [← hy]; omega
  simp only [Parsed.finish, Bool.false_eq_true, false_and, if_false, hmneg, hdneg, Int.toNat_natCast, hd, if_true]
  obtain ⟨ty, tm, td, th, ti, ts, tn, tl⟩ := t
  simp only at hy hn hl
  subst hy hn hl
  rfl

theorem rfcLayout_zone (loc : LocalZone) {s : Bytes} {t : Time} (hp : Spec.ExistingTime t) (hn : t.nsec = 0)
    (h : Spec.IsoZoneText s t) : rfcLayout.parse loc s = some t := by
  obtain ⟨y, mo, d, hh, mi, se, zh, zm, sign, za, zb, rfl, l1, l2, l3, l4, l5, l6, l7, l8, ⟨n, hy, e1⟩, e2, e3, e4, e5, e6, e7, e8,
    hza, hzb, hz⟩ := h
  rw [spec_decimal_iff] at e1 e2 e3 e4 e5 e6 e7 e8
  obtain ⟨y', hy', hy9, hday, h5, h6, h7⟩ := hp
  have : y' = n := by omega
  subst this
  have hday' := (spec_dayExists_iff _ _ _).1 hday
  have hsign : sign = 43 ∨ sign = 45 := hz.imp (·.1) (·.1)
  have hsg : (sign :: (zh ++ 58 :: zm)).head? ≠ some 46 ∧ (sign :: (zh ++ 58 :: zm)).head? ≠ some 44 := by
    rcases hsign with rfl | rfl <;> simp
  have ho : ∃ o : Int, ((sign = 43 ∧ o = 3600 * za + 60 * zb) ∨ (sign = 45 ∧ o = -(3600 * za + 60 * zb : Int))) ∧ ¬ o = -1 ∧
      t.loc = .zone o := by
    rcases hz with ⟨h, h'⟩ | ⟨h, h'⟩
    · exact ⟨_, Or.inl ⟨h, rfl⟩, by omega, h'⟩
    · exact ⟨_, Or.inr ⟨h, rfl⟩, by omega, h'⟩
  obtain ⟨o, ho1, ho2, hl⟩ := ho
  simp only [List.append_assoc, List.cons_append, List.nil_append]
  unfold DateLayout.parse
  show (match parseElems [] {} _ rfcLayout.elems with | none => none | some a => a.finish loc) = _
  rw [parse_rfc (t := t) (z := sign :: (zh ++ 58 :: zm)) hday' h5 h6 h7 l1 l2 l3 l4 l5 l6 e1 e2 e3 e4 e5 e6 hsg, elems_isoZone hsign,
    elems_zone (rest := []) (by rw [List.append_nil]; exact skip_nil _) l7 l8 e7.1 e8.1 e7.2 e8.2 hza hzb ho1, elems_end (skip_nil _)]
  exact finish_zone loc hy hn hl ho2 hday'.2.2.1 hday'.2.2.2

/-- The client reads an existing time as it is carried by JSON. -/
theorem decodeClientTime_rfc (loc : LocalZone) {t : Time} (h : Spec.ExistingTime t) (h24 : t.loc.offset.natAbs < 86400) :
    decodeClientTime loc (.str (rfc3339 t)) = some (Spec.jsonTime t) := by
  have utc : ∀ t : Time, Spec.ExistingTime t → Spec.minuteZone t.loc = .utc → rfc3339 t = rfc3339 (Spec.jsonTime t) →
      decodeClientTime loc (.str (rfc3339 t)) = some (Spec.jsonTime t) := by
    intro t h hm he
    have hp : Spec.PlainTime (Spec.jsonTime t) := by
      rw [spec_plainTime_iff]
      obtain ⟨⟨h1, h2, h3, h4⟩, h5, h6, h7, hy0, hy1⟩ := (existing_iff t).1 h
      exact ⟨⟨h1, h2, h3, h4, h5, h6, h7, by simp [Spec.jsonTime]⟩, hy0, hy1, rfl, hm⟩
    have := isoText_rfc3339 hp
    rw [he, decodeClientTime, escapeJson_plain (isoText_plain this), rfcLayout_eq, rfcLayout_iso loc hp this]
  cases hl : t.loc with
  | utc => exact utc t h (by rw [hl]; rfl) (by simp [rfc3339, Spec.jsonTime, hl, Spec.minuteZone])
  | zone o =>
    by_cases h0 : o = 0
    · exact utc t h (by rw [hl, h0]; rfl) (by simp [rfc3339, Spec.jsonTime, hl, h0, Spec.minuteZone, rfc3339Zone])
    · rw [hl] at h24
      have ht := isoZoneText_rfc3339 h hl h0 h24
      rw [decodeClientTime, escapeJson_plain (isoZoneText_plain ht), rfcLayout_eq, rfcLayout_zone loc (jsonTime_existing h) rfl ht]

theorem decodeClientTime_empty (loc : LocalZone) : decodeClientTime loc (.str []) = none := by
  show (DateLayout.of rfc3339Layout).parse loc (escapeJson 0 []) = none
  rw [rfcLayout_eq]
  rfl

/-! ### Values -/

/-- Kinds that take the same values. -/
def sameKind : Kind → Kind → Bool
  | .str, .str | .time, .time | .int, .int | .int, .int64 | .int64, .int | .int64, .int64 => true
  | _, _ => false

theorem hasKind_same {k k' : Kind} (h : sameKind k k' = true) (v : Val) : v.hasKind k = v.hasKind k' := by
  cases k <;> cases k' <;> first | (simp [sameKind] at h; done) | (cases v <;> rfl)

/-- A value of the service is read as `Spec.clientValue` says. -/
theorem decodeClientSome_encode (loc : LocalZone) {v : Val} (hv : Spec.WrittenVal v) {k : Kind} (hk : v.hasKind k = true) :
    decodeClientSome loc k (encodeVal v) = Spec.clientValue k v := by
  cases v with
  | int i =>
    have := parseInt_fmtInt (i := i) hv.1 hv.2
    cases k with
    | str => simp [Val.hasKind] at hk
    | time => simp [Val.hasKind] at hk
    | int64 => simp [decodeClientSome, encodeVal, this, Spec.clientValue]
    | int =>
      simp only [decodeClientSome, encodeVal, this, Spec.clientValue, true_and]
      by_cases h : i < -2147483648 ∨ 2147483647 < i
      · rw [if_pos h, if_neg (by omega)]
      · rw [if_neg h, if_pos (by omega)]
  | str s =>
    cases k with
    | str => simp only [decodeClientSome, encodeVal, Spec.clientValue, toValidUtf8_utf8 hv]
    | time => simp [Val.hasKind] at hk
    | int => simp [Val.hasKind] at hk
    | int64 => simp [Val.hasKind] at hk
  | time t =>
    cases k with
    | str => simp [Val.hasKind] at hk
    | int => simp [Val.hasKind] at hk
    | int64 => simp [Val.hasKind] at hk
    | time =>
      simp only [decodeClientSome, encodeVal, Spec.clientValue]
      by_cases hz : t.isZero = true
      · rw [if_pos hz, if_pos hz, decodeClientTime_empty]
        rfl
      · rw [if_neg hz, if_neg hz]
        rcases hv with h | ⟨h1, h2⟩
        · exact absurd h hz
        · rw [decodeClientTime_rfc loc h1 h2]
          rfl

theorem decodeClientVal_encode (loc : LocalZone) {v : Val} (hv : Spec.WrittenVal v) {d : FieldDecl} (hk : v.hasKind d.kind = true)
    (old : Option Val) : decodeClientVal loc d old (encodeVal v) = (Spec.clientValue d.kind v).map some := by
  rw [← decodeClientSome_encode loc hv hk]
  cases v <;> rfl

/-! ### Structs -/

/-- The tags of a client type against those of the service. -/
def Matches (service client : List (F × FieldDecl)) : Prop :=
  TagsOk client ∧
  (∀ q ∈ service, match client.lookup q.1 with
    | some d => d.json = q.2.json ∧ sameKind q.2.kind d.kind = true
    | none => fieldOf client q.2.json = none) ∧
  (∀ p ∈ client, match service.lookup p.1 with
    | some e => e.json = p.2.json
    | none => fieldOf service p.2.json = none)

instance (service client : List (F × FieldDecl)) : Decidable (Matches service client) := by
  unfold Matches
  have h1 : Decidable (∀ q ∈ service, match client.lookup q.1 with
    | some d => d.json = q.2.json ∧ sameKind q.2.kind d.kind = true
    | none => fieldOf client q.2.json = none) :=
    @List.decidableBAll _ _ (fun q => by cases client.lookup q.1 <;> infer_instance) service
  have h2 : Decidable (∀ p ∈ client, match service.lookup p.1 with
    | some e => e.json = p.2.json
    | none => fieldOf service p.2.json = none) :=
    @List.decidableBAll _ _ (fun q => by cases service.lookup q.1 <;> infer_instance) client
  infer_instance

theorem matches_seg (k : SegKind) : Matches k.struct (clientSegment k) := by cases k <;> decide +kernel
theorem matches_base : Matches baseSegmentStruct clientBaseSegment := by decide +kernel
theorem matches_header : Matches headerRecordStruct clientHeaderRecord := by decide +kernel
theorem matches_trailer : Matches trailerRecordStruct clientTrailerRecord := by decide +kernel

theorem blank_eq (v : Val) : Spec.blank v = emptyVal v := by
  cases v with
  | int i => simp [Spec.blank, emptyVal, Bool.beq_eq_decide_eq]
  | str s => cases s <;> simp [Spec.blank, emptyVal]
  | time t => rfl

theorem zero_eq (client : List (F × FieldDecl)) {f : F} {d : FieldDecl} (h : client.lookup f = some d) :
    ClientRec.zero client f = Spec.clientZero d := by
  simp [ClientRec.zero, h, Spec.clientZero]

/-- The members of a value of the service, decoded into a value of the client. -/
theorem foldlM_client (loc : LocalZone) {service client : List (F × FieldDecl)} (hm : Matches service client) (hs : TagsOk service)
    {fs : Fields} (hf : Spec.WrittenFields service fs) (ds : List (F × FieldDecl)) (hsub : ∀ p ∈ ds, p ∈ service)
    (hnd : (ds.map (·.1)).Nodup) (c : ClientRec) (hc : ∀ p ∈ ds, c p.1 = ClientRec.zero client p.1) :
    (ds.filterMap (memberOf fs)).foldlM (decodeClientMember loc client) c =
      if ∀ p ∈ ds, Spec.clientTakes service client fs p.1 ≠ none then
        some fun f => if f ∈ ds.map (·.1) then (Spec.clientTakes service client fs f).join else c f
      else none := by
  induction ds generalizing c with
  | nil => simp
  | cons p ds ih =>
    rw [List.map_cons, List.nodup_cons] at hnd
    have hp := hsub p (by simp)
    have hlk := lookup_of_mem hs.1 (show (p.1, p.2) ∈ service from hp)
    obtain ⟨v, hv, hk⟩ := hf.1.get hs.1 hp
    have hwv : Spec.WrittenVal v := hf.2 _ (Fields.mem_of_get hv)
    have hrest : ∀ q ∈ ds, q.1 ≠ p.1 := fun q hq h => hnd.1 (List.mem_map.2 ⟨q, hq, h⟩)
    have hmp := hm.2.1 p hp
    -- one step
    have step : ∀ (c' : ClientRec), (Spec.clientTakes service client fs p.1).join = c' p.1 → (∀ f, f ≠ p.1 → c' f = c f) →
        Spec.clientTakes service client fs p.1 ≠ none →
        (ds.filterMap (memberOf fs)).foldlM (decodeClientMember loc client) c' =
          if ∀ q ∈ p :: ds, Spec.clientTakes service client fs q.1 ≠ none then
            some fun f => if f ∈ (p :: ds).map (·.1) then (Spec.clientTakes service client fs f).join else c f
          else none := by
      intro c' h1 h2 h3
      rw [ih (fun q hq => hsub q (List.mem_cons_of_mem _ hq)) hnd.2 c'
        (fun q hq => by rw [h2 q.1 (hrest q hq)]; exact hc q (List.mem_cons_of_mem _ hq))]
      have hcond : (∀ q ∈ p :: ds, Spec.clientTakes service client fs q.1 ≠ none) ↔
          ∀ q ∈ ds, Spec.clientTakes service client fs q.1 ≠ none :=
        ⟨fun h q hq => h q (List.mem_cons_of_mem _ hq), fun h q hq => by
          rcases List.mem_cons.1 hq with rfl | hq
          · exact h3
          · exact h q hq⟩
      simp only [hcond]
      split
      · congr 1
        funext f
        rw [List.map_cons]
        simp only [List.mem_cons]
        by_cases hfp : f = p.1
        · subst hfp
          rw [if_neg hnd.1, if_pos (Or.inl rfl), h1]
        · simp only [hfp, false_or, h2 f hfp]
      · rfl
    rw [List.filterMap_cons]
    cases hcl : client.lookup p.1 with
    | none =>
      rw [hcl] at hmp
      have hz : c p.1 = none := by rw [hc p (by simp)]; simp [ClientRec.zero, hcl]
      have ht : Spec.clientTakes service client fs p.1 = some none := by simp [Spec.clientTakes, hcl]
      have hstep := step c (by rw [ht, hz]; rfl) (fun _ _ => rfl) (by rw [ht]; simp)
      cases hmem : memberOf fs p with
      | none => simpa only using hstep
      | some kv =>
        simp only
        rw [List.foldlM_cons]
        have : decodeClientMember loc client c kv = some c := by
          unfold decodeClientMember
          rw [(memberOf_key hmem).1, hmp]
        rw [this]
        simpa only [Option.bind_eq_bind, Option.bind_some] using hstep
    | some d =>
      rw [hcl] at hmp
      simp only at hmp
      have hz := hc p (by simp)
      rw [zero_eq client hcl] at hz
      have hkd : v.hasKind d.kind = true := by rw [← hasKind_same hmp.2]; exact hk
      by_cases hom : (p.2.omitempty && emptyVal v) = true
      · have hmem : memberOf fs p = none := by unfold memberOf; rw [hv]; simp [hom]
        have ht : Spec.clientTakes service client fs p.1 = some (Spec.clientZero d) := by
          simp only [Spec.clientTakes, hcl, hlk, hv, blank_eq, hom, if_true]
        rw [hmem]
        exact step c (by rw [ht, hz]; rfl) (fun _ _ => rfl) (by rw [ht]; simp)
      · have hmem : memberOf fs p = some (p.2.json, encodeVal v) := by unfold memberOf; rw [hv]; simp [hom]
        have ht : Spec.clientTakes service client fs p.1 = (Spec.clientValue d.kind v).map some := by
          simp only [Spec.clientTakes, hcl, hlk, hv, blank_eq, if_neg hom]
        rw [hmem]
        simp only
        rw [List.foldlM_cons]
        have hfo : fieldOf client p.2.json = some p.1 := by
          have := fieldOf_tag hm.1.2 (lookup_mem hcl)
          rw [← hmp.1]
          exact this
        have hdm : decodeClientMember loc client c (p.2.json, encodeVal v) =
            (Spec.clientValue d.kind v).map fun w => c.put p.1 (some w) := by
          unfold decodeClientMember
          simp only [hfo, hcl, decodeClientVal_encode loc hwv hkd, Option.map_map]
          rfl
        rw [hdm]
        cases hcv : Spec.clientValue d.kind v with
        | none =>
          rw [hcv] at ht
          rw [if_neg]
          · rfl
          · intro h
            exact h p (by simp) ht
        | some w =>
          rw [hcv] at ht
          simp only [Option.map_some, Option.bind_eq_bind, Option.bind_some]
          exact step _ (by rw [ht]; simp [ClientRec.put]) (fun f hf => by simp [ClientRec.put, hf]) (by rw [ht]; simp)

/-- A struct. -/
theorem decodeClient_encode (loc : LocalZone) {service client : List (F × FieldDecl)} (hm : Matches service client) (hs : TagsOk service)
    {fs : Fields} (hf : Spec.WrittenFields service fs) :
    decodeClient loc client (.zero client) (encodeStruct service fs) = Spec.clientRec service client fs := by
  show (encodeMembers service fs).foldlM (decodeClientMember loc client) _ = _
  rw [encodeMembers_eq, foldlM_client loc hm hs hf service (fun _ h => h) hs.1 _ (fun _ _ => rfl)]
  unfold Spec.clientRec
  have other : ∀ f, f ∉ service.map (·.1) → Spec.clientTakes service client fs f = some (ClientRec.zero client f) := by
    intro f hf'
    cases hcl : client.lookup f with
    | none => simp [Spec.clientTakes, hcl, ClientRec.zero]
    | some d =>
      rw [zero_eq client hcl]
      cases hsl : service.lookup f with
      | none => simp [Spec.clientTakes, hcl, hsl]
      | some e => exact absurd (List.mem_map.2 ⟨_, lookup_mem hsl, rfl⟩) hf'
  have hcond : (∀ p ∈ service, Spec.clientTakes service client fs p.1 ≠ none) ↔ ∀ p ∈ client, Spec.clientTakes service client fs p.1 ≠ none := by
    constructor
    · intro h p hp
      by_cases hps : p.1 ∈ service.map (·.1)
      · obtain ⟨q, hq, he⟩ := List.mem_map.1 hps
        rw [← he]
        exact h q hq
      · rw [other p.1 hps]; simp
    · intro h q hq
      cases hcl : client.lookup q.1 with
      | none => simp [Spec.clientTakes, hcl]
      | some d => exact h (q.1, d) (lookup_mem hcl)
  simp only [hcond]
  split
  · congr 1
    funext f
    by_cases hf' : f ∈ service.map (·.1)
    · rw [if_pos hf']
    · rw [if_neg hf', other f hf']
      rfl
  · rfl

end Metro2
