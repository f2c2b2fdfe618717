import Verif.Lemmas.ClientHeaders
import Mathlib.Data.List.Perm.Basic

/-! C113: the headers of a call of the generated client, as they stand in the request that is handed to `http.Client.Do`. `headerGet` is the value
that a reader of the request gets. (The transport itself writes only the first `User-Agent` and leaves out `Host`, `Content-Length`,
`Transfer-Encoding` and `Trailer`; that is outside of the model.) -/

namespace Metro2

/-- The headers that the client sets itself. -/
def Spec.clientNames : List (List UInt8) := [b! "Content-Type", b! "Accept", b! "Content-Length", b! "User-Agent"]

/-- The default headers are different, without regard to case. -/
def Spec.Different (ds : List (List UInt8 × List UInt8)) : Prop := ds.Pairwise fun a b => ¬ Spec.SameHeader a.1 b.1

/-- C113, full statement: a default header of the configuration stands in the request with its value. -/
def C113_statement : Prop :=
  ∀ (cfg : HeaderConfiguration) (boundary : Bytes) (c : ClientCall) (accepts : List Bytes), Spec.Different cfg.defaultHeader →
    ∀ kv ∈ cfg.defaultHeader, headerGet (c.headers cfg boundary accepts) kv.1 = kv.2

theorem sameHeader_refl (a : Bytes) : Spec.SameHeader a a := .inl rfl

theorem sameHeader_trans {a b c : Bytes} (h : Spec.SameHeader a b) (h' : Spec.SameHeader b c) : Spec.SameHeader a c := by
  rw [← canonicalHeader_eq_iff] at h h' ⊢
  exact h.trans h'

theorem sameHeader_symm {a b : Bytes} (h : Spec.SameHeader a b) : Spec.SameHeader b a := by
  rw [← canonicalHeader_eq_iff] at h ⊢
  exact h.symm

theorem headersOf_none {h : List (Bytes × Bytes)} {key : Bytes} (hn : ∀ kv ∈ h, ¬ Spec.SameHeader kv.1 key) : Spec.headersOf h key = [] := by
  unfold Spec.headersOf
  rw [List.filter_eq_nil_iff.2, List.map_nil]
  intro kv hkv
  simpa using hn kv hkv

theorem headersOf_different {ds : List (Bytes × Bytes)} (hd : Spec.Different ds) {kv : Bytes × Bytes} (h : kv ∈ ds) :
    Spec.headersOf ds kv.1 = [kv.2] := by
  induction ds with
  | nil => cases h
  | cons x ds ih =>
    rw [Spec.Different, List.pairwise_cons] at hd
    rcases List.mem_cons.1 h with rfl | h
    · rw [headersOf_cons, if_pos rfl, headersOf_none]
      · rfl
      · exact fun y hy hs => hd.1 y hy (sameHeader_symm hs)
    · rw [headersOf_cons, if_neg fun e => hd.1 kv h ((canonicalHeader_eq_iff _ _).1 e), ih hd.2 h]
      rfl

theorem headerParams_names {ct ac : Bytes} {n : Option Nat} {agent : Bytes} :
    ∀ kv ∈ headerParams ct ac n ++ [(b! "User-Agent", agent)], kv.1 ∈ Spec.clientNames := by
  unfold headerParams Spec.clientNames
  intro kv h
  rcases List.mem_append.1 h with h | h
  · rcases List.mem_append.1 h with h | h
    · rcases List.mem_append.1 h with h | h
      · split at h
        · cases h
        · rw [List.mem_singleton.1 h]; simp
      · split at h
        · cases h
        · rw [List.mem_singleton.1 h]; simp
    · cases n with
      | none => cases h
      | some n => rw [List.mem_singleton.1 h]; simp
  · rw [List.mem_singleton.1 h]; simp

/-- C113 for headers that the client does not set itself: each stands in the request with its value, once. Missing for the full statement: the four names
(`C113_own`, `C113_default_violated`). -/
theorem C113_default_partial (cfg : HeaderConfiguration) (boundary : Bytes) (c : ClientCall) (accepts : List Bytes)
    (hd : Spec.Different cfg.defaultHeader) (kv : Bytes × Bytes) (hkv : kv ∈ cfg.defaultHeader)
    (hk : ∀ n ∈ Spec.clientNames, ¬ Spec.SameHeader n kv.1) : headerValues (c.headers cfg boundary accepts) kv.1 = [kv.2] := by
  unfold ClientCall.headers
  simp only
  rw [headerValues_request, headersOf_append, headersOf_none fun x hx => hk _ (headerParams_names x hx), headersOf_different hd hkv]
  rfl

/-- C113, the headers of the client itself: whatever the default headers are, the request has the name of the client from the configuration,
the type and accepted types of the call, and for a form the length that was counted. -/
theorem C113_own (cfg : HeaderConfiguration) (boundary : Bytes) (c : ClientCall) (accepts : List Bytes) :
    headerGet (c.headers cfg boundary accepts) (b! "User-Agent") = cfg.userAgent ∧
    ((prepareRequest boundary c).contentType ≠ [] →
      headerGet (c.headers cfg boundary accepts) (b! "Content-Type") = (prepareRequest boundary c).contentType) ∧
    (selectHeaderAccept accepts ≠ [] → headerGet (c.headers cfg boundary accepts) (b! "Accept") = selectHeaderAccept accepts) ∧
    ((prepareRequest boundary c).parts.isSome = true →
      headerGet (c.headers cfg boundary accepts) (b! "Content-Length") = fmtNat (c.sent boundary c.form).contentLength) := by
  unfold ClientCall.headers
  simp only
  generalize (prepareRequest boundary c).contentType = ct
  generalize selectHeaderAccept accepts = ac
  generalize hl : (if (prepareRequest boundary c).parts.isSome then some (c.sent boundary c.form).contentLength else none) = len
  have e1 : canonicalHeader (b! "User-Agent") = b! "User-Agent" := by decide
  have e2 : canonicalHeader (b! "Content-Type") = b! "Content-Type" := by decide
  have e3 : canonicalHeader (b! "Accept") = b! "Accept" := by decide
  have e4 : canonicalHeader (b! "Content-Length") = b! "Content-Length" := by decide
  have hv : ∀ key v, (Spec.headersOf (headerParams ct ac len) key ++ ((if canonicalHeader (b! "User-Agent") = canonicalHeader key then [cfg.userAgent] else []) ++
        Spec.headersOf cfg.defaultHeader key)).head? = some v → headerGet (requestHeaders cfg (headerParams ct ac len)) key = v := by
    intro key v h
    obtain ⟨r, h⟩ := List.head?_eq_some_iff.1 h
    unfold headerGet
    have e : headerValues (requestHeaders cfg (headerParams ct ac len)) key = v :: r := by
      rw [headerValues_request, headersOf_append, headersOf_append, headersOf_cons, List.append_assoc]
      rw [← h, show Spec.headersOf [] key = [] from rfl, List.append_nil]
    rw [e]
  have hp : ∀ key, Spec.headersOf (headerParams ct ac len) key =
      (if ct = [] then [] else if b! "Content-Type" = canonicalHeader key then [ct] else []) ++
      ((if ac = [] then [] else if b! "Accept" = canonicalHeader key then [ac] else []) ++
      (len.elim [] fun n => if b! "Content-Length" = canonicalHeader key then [fmtNat n] else [])) := by
    intro key
    unfold headerParams
    rw [headersOf_append, headersOf_append, List.append_assoc]
    congr 1
    · by_cases h : ct = []
      · rw [if_pos h, if_pos h]; rfl
      · rw [if_neg h, if_neg h, headersOf_cons, e2]
        simp [Spec.headersOf]
    · congr 1
      · by_cases h : ac = []
        · rw [if_pos h, if_pos h]; rfl
        · rw [if_neg h, if_neg h, headersOf_cons, e3]
          simp [Spec.headersOf]
      · cases len with
        | none => rfl
        | some n =>
          simp only [Option.elim]
          rw [headersOf_cons, e4]
          simp [Spec.headersOf]
  refine ⟨?_, fun h => ?_, fun h => ?_, fun h => ?_⟩
  · refine hv _ _ ?_
    rw [hp, e1]
    rw [if_neg (show ¬ (b! "Content-Type" : Bytes) = b! "User-Agent" by decide), if_neg (show ¬ (b! "Accept" : Bytes) = b! "User-Agent" by decide)]
    cases len with
    | none => simp
    | some n =>
      simp only [Option.elim]
      rw [if_neg (show ¬ (b! "Content-Length" : Bytes) = b! "User-Agent" by decide)]
      simp
  · refine hv _ _ ?_
    rw [hp, if_neg h, e2, if_pos rfl]
    rfl
  · refine hv _ _ ?_
    rw [hp, if_neg h, e3, if_pos rfl, if_neg (show ¬ (b! "Content-Type" : Bytes) = b! "Accept" by decide), ite_self]
    rfl
  · rw [if_pos h] at hl
    subst hl
    refine hv _ _ ?_
    rw [hp, e4, if_neg (show ¬ (b! "Content-Type" : Bytes) = b! "Content-Length" by decide),
      if_neg (show ¬ (b! "Accept" : Bytes) = b! "Content-Length" by decide), ite_self, ite_self]
    simp [Option.elim]

/-- C113, the four calls: types and accepted types. A call that sends a file is a form with parts; `Print` asks for JSON whatever the format. -/
theorem C113_calls (cfg : HeaderConfiguration) (boundary : Bytes) :
    (∀ a : ConvertArgs, headerGet ((convertCall a).headers cfg boundary convertAccepts) (b! "Accept") = b! "application/octet-stream,text/plain" ∧
      headerGet ((convertCall a).headers cfg boundary convertAccepts) (b! "Content-Type") =
        if a.file.isSome then b! "multipart/form-data; boundary=" ++ boundary else b! "application/json") ∧
    (∀ a : PrintArgs, headerGet ((printCall a).headers cfg boundary printAccepts) (b! "Accept") = b! "application/json" ∧
      headerGet ((printCall a).headers cfg boundary printAccepts) (b! "Content-Type") =
        if a.file.isSome then b! "multipart/form-data; boundary=" ++ boundary else b! "application/json") ∧
    (∀ f : Option Upload, headerGet ((validatorCall f).headers cfg boundary validatorAccepts) (b! "Accept") = b! "text/plain" ∧
      headerGet ((validatorCall f).headers cfg boundary validatorAccepts) (b! "Content-Type") =
        if f.isSome then b! "multipart/form-data; boundary=" ++ boundary else b! "multipart/form-data") ∧
    headerGet (healthCall.headers cfg boundary healthAccepts) (b! "Accept") = b! "text/plain" := by
  have key : ∀ (c : ClientCall) (accepts : List Bytes) (t ac : Bytes), selectHeaderContentType c.contentTypes = t → selectHeaderAccept accepts = ac →
      t ≠ [] → ac ≠ [] → ((b! "multipart/form-data").isPrefixOf t && !c.form.isEmpty) = false →
      headerGet (c.headers cfg boundary accepts) (b! "Accept") = ac ∧
      headerGet (c.headers cfg boundary accepts) (b! "Content-Type") = if c.file.isSome then b! "multipart/form-data; boundary=" ++ boundary else t := by
    intro c accepts t ac h1 h2 h3 h4 h5
    obtain ⟨_, hc, ha, _⟩ := C113_own cfg boundary c accepts
    have hct : (prepareRequest boundary c).contentType = if c.file.isSome then b! "multipart/form-data; boundary=" ++ boundary else t := by
      unfold prepareRequest
      simp only [h1, h5, Bool.false_or]
      by_cases hf : c.file.isSome = true
      · simp only [if_pos hf]
      · simp only [if_neg hf]
    refine ⟨(ha (by rw [h2]; exact h4)).trans h2, (hc ?_).trans hct⟩
    rw [hct]
    split
    · simp
    · exact h3
  refine ⟨fun a => key _ _ _ _ rfl (by decide) (by decide) (by decide) ?_, fun a => key _ _ _ _ rfl (by decide) (by decide) (by decide) ?_,
    fun f => key _ _ _ _ rfl (by decide) (by decide) (by decide) ?_, ?_⟩
  · exact Bool.and_eq_false_iff.2 (.inl (by decide))
  · exact Bool.and_eq_false_iff.2 (.inl (by decide))
  · rw [show (validatorCall f).form = [] from rfl, List.isEmpty_nil, Bool.not_true, Bool.and_false]
  · exact (C113_own cfg boundary healthCall healthAccepts).2.2.1 (by decide)

/-- C113: the order in which the map of the default headers is walked through does not matter if they are different. -/
theorem C113_order (cfg : HeaderConfiguration) (boundary : Bytes) (c : ClientCall) (accepts : List Bytes) (ds : List (Bytes × Bytes))
    (hp : ds.Perm cfg.defaultHeader) (hd : Spec.Different cfg.defaultHeader) (name : Bytes) :
    headerValues (c.headers { cfg with defaultHeader := ds } boundary accepts) name = headerValues (c.headers cfg boundary accepts) name := by
  unfold ClientCall.headers
  simp only
  rw [headerValues_request, headerValues_request, headersOf_append, headersOf_append _ cfg.defaultHeader]
  congr 1
  have hd' : Spec.Different ds := by
    unfold Spec.Different at hd ⊢
    exact (List.Perm.pairwise_iff (fun h h' => h (sameHeader_symm h')) hp).2 hd
  by_cases hm : ∃ kv ∈ ds, Spec.SameHeader kv.1 name
  · obtain ⟨kv, hkv, hs⟩ := hm
    have hsame : ∀ l : List (Bytes × Bytes), Spec.headersOf l name = Spec.headersOf l kv.1 := by
      intro l
      unfold Spec.headersOf
      congr 1
      refine List.filter_congr fun x _ => ?_
      exact decide_eq_decide.2 ⟨fun h => sameHeader_trans h (sameHeader_symm hs), fun h => sameHeader_trans h hs⟩
    rw [hsame, hsame, headersOf_different hd' hkv, headersOf_different hd (hp.mem_iff.1 hkv)]
  · have h1 : ∀ kv ∈ ds, ¬ Spec.SameHeader kv.1 name := fun kv hkv hs => hm ⟨kv, hkv, hs⟩
    rw [headersOf_none h1, headersOf_none fun kv hkv => h1 kv (hp.mem_iff.2 hkv)]

/-- C113, setting a header: what `AddDefaultHeader` sets stands in the request, once, unless the header was set in other letters before; other headers stay as they are. -/
theorem C113_add (cfg : HeaderConfiguration) (boundary : Bytes) (c : ClientCall) (accepts : List Bytes) (k v : Bytes)
    (ho : ∀ e ∈ cfg.defaultHeader, Spec.SameHeader e.1 k → e.1 = k) (hk : ∀ n ∈ Spec.clientNames, ¬ Spec.SameHeader n k) :
    headerValues (c.headers (cfg.addDefaultHeader k v) boundary accepts) k = [v] ∧
    ∀ j, ¬ Spec.SameHeader k j → headerValues (c.headers (cfg.addDefaultHeader k v) boundary accepts) j = headerValues (c.headers cfg boundary accepts) j := by
  unfold ClientCall.headers HeaderConfiguration.addDefaultHeader
  simp only
  refine ⟨?_, fun j hj => ?_⟩
  · rw [headerValues_request]
    simp only
    rw [headersOf_append, headersOf_none fun x hx => hk _ (headerParams_names x hx), headersOf_append, headersOf_none, headersOf_cons, if_pos rfl]
    · rfl
    · intro e he hs
      have := List.mem_filter.1 he
      exact absurd (ho e this.1 hs) (by simpa using this.2)
  · rw [headerValues_request, headerValues_request]
    simp only
    rw [headersOf_append, headersOf_append _ cfg.defaultHeader, headersOf_append (cfg.defaultHeader.filter _), headersOf_cons,
      if_neg fun e => hj ((canonicalHeader_eq_iff _ _).1 e)]
    congr 1
    simp only [Spec.headersOf, List.filter_nil, List.map_nil, List.append_nil, List.filter_filter]
    congr 1
    refine List.filter_congr fun x _ => ?_
    by_cases hx : x.1 = k
    · have : ¬ Spec.SameHeader x.1 j := by rw [hx]; exact hj
      simp [this]
    · simp [hx]

/-- C113 fails for the name of the client: given as a default header it stands behind the one of the generator, which counts. -/
theorem C113_default_violated : ¬ C113_statement ∧
    headerValues (healthCall.headers (newHeaderConfiguration.addDefaultHeader (b! "user-agent") (b! "mine")) [] healthAccepts) (b! "User-Agent") =
      [b! "OpenAPI-Generator/1.0.0/go", b! "mine"] := by
  refine ⟨fun h => ?_, by decide +kernel⟩
  have := h (newHeaderConfiguration.addDefaultHeader (b! "user-agent") (b! "mine")) [] healthCall healthAccepts (List.pairwise_singleton _ _)
    (b! "user-agent", b! "mine") (List.mem_singleton.2 rfl)
  revert this
  decide +kernel

/-- C113, the order of the map matters for names that differ in case only: either value may be the first. -/
theorem C113_order_violated : ∃ (cfg : HeaderConfiguration) (ds : List (Bytes × Bytes)), ds.Perm cfg.defaultHeader ∧
    headerGet (healthCall.headers { cfg with defaultHeader := ds } [] healthAccepts) (b! "X-Id") = b! "2" ∧
    headerGet (healthCall.headers cfg [] healthAccepts) (b! "X-Id") = b! "1" :=
  ⟨⟨b! "me", [(b! "X-Id", b! "1"), (b! "x-id", b! "2")]⟩, [(b! "x-id", b! "2"), (b! "X-Id", b! "1")], .swap _ _ [], by decide +kernel, by decide +kernel⟩

/-- Cases of `C113_default_partial` and `C113_order`: two default headers, one of them in small letters, and both orders. -/
example : ∃ cfg : HeaderConfiguration, Spec.Different cfg.defaultHeader ∧ (b! "x-id", b! "1") ∈ cfg.defaultHeader ∧
    (∀ n ∈ Spec.clientNames, ¬ Spec.SameHeader n (b! "x-id")) ∧
    [(b! "Cookie", b! "2"), (b! "x-id", b! "1")].Perm cfg.defaultHeader ∧
    headerGet (healthCall.headers cfg [] healthAccepts) (b! "X-ID") = b! "1" :=
  ⟨⟨b! "me", [(b! "x-id", b! "1"), (b! "Cookie", b! "2")]⟩, by unfold Spec.Different; decide, by decide, by decide, .swap _ _ [], by decide +kernel⟩

/-- Case of `C113_own` and `C113_calls`: a file to convert, with default headers in the way. -/
example : ∃ (cfg : HeaderConfiguration) (a : ConvertArgs), a.file.isSome = true ∧ (prepareRequest (b! "xyz") (convertCall a)).parts.isSome = true ∧
    headerValues ((convertCall a).headers cfg (b! "xyz") convertAccepts) (b! "content-type") =
      [b! "multipart/form-data; boundary=xyz", b! "text/html"] :=
  ⟨⟨b! "me", [(b! "Content-Type", b! "text/html")]⟩, { file := some ⟨b! "a.txt", b! "0426", false⟩ }, rfl, rfl, by decide +kernel⟩

/-- Case of `C113_add`: a header set for the second time. -/
example : (∀ e ∈ (newHeaderConfiguration.addDefaultHeader (b! "X-Id") (b! "1")).defaultHeader, Spec.SameHeader e.1 (b! "X-Id") → e.1 = b! "X-Id") ∧
    (∀ n ∈ Spec.clientNames, ¬ Spec.SameHeader n (b! "X-Id")) := by decide

end Metro2
