import Verif.Lemmas.Cache
import Verif.Lemmas.Check

/-! C112: when a response expires. -/

namespace Metro2

/-- C112, full statement: a response with a date and a maximum age of so many seconds expires so many seconds after its date. Names of
directives are compared without regard to case (RFC 9111, section 5.2). -/
def C112_statement : Prop :=
  ∀ env, GmtOk env → ∀ (h : CacheHeaders) (t : Time) (name v : Bytes) (n : Nat), Spec.HttpDate h.date t →
    Spec.CacheText h.cacheControl [(name, some v)] → Spec.lower name = b! "max-age" → Spec.Decimal v n →
    cacheExpires env h = Spec.nanos t + n * 1000000000

/-- C112 for the name in small letters, whatever other directives there are, whatever `Expires` says: the last maximum age counts, if it is
below 2^63 nanoseconds (some 292 years); otherwise the response expires at its date. Missing for the full statement: other letters
(`C112_case_violated`), greater ages (`C112_large_violated`). -/
theorem C112_age_partial (env : CacheEnv) (hz : GmtOk env) (h : CacheHeaders) (t : Time) (before after : List Spec.Directive) (v : Bytes) (n : Nat)
    (hd : Spec.HttpDate h.date t) (hc : Spec.CacheText h.cacheControl (before ++ (b! "max-age", some v) :: after))
    (ha : ∀ d ∈ after, d.1 ≠ b! "max-age") (hv : Spec.Decimal v n) :
    cacheExpires env h = Spec.nanos t + if n * 1000000000 < 2 ^ 63 then (n : Int) * 1000000000 else 0 := by
  obtain ⟨t', h1, h2⟩ := parseHttpDate_ok hz hd
  obtain ⟨hdig, hval⟩ := (spec_decimal_iff _ _).1 hv
  have hne : v ≠ [] := ((cacheText_plain hc _ (List.mem_append_right _ List.mem_cons_self)).2 v rfl).1
  have hval' : cacheValue (parseCacheControl h.cacheControl) (b! "max-age") = some v := by
    rw [parseCacheControl_text hc, List.map_append, List.map_cons]
    exact cacheValue_last fun kv hkv => by
      obtain ⟨d, hd', rfl⟩ := List.mem_map.1 hkv
      exact ha d hd'
  unfold cacheExpires
  rw [h1]
  simp only [hval']
  rw [parseDuration_seconds _ hdig hne, hval]
  by_cases hb : n * 1000000000 < 2 ^ 63
  · rw [if_pos hb, if_pos hb]
    simp only [h2]
  · rw [if_neg hb, if_neg hb]
    simp only [h2, Int.add_zero]

/-- C112: a maximum age without a value makes the response expire at its date. -/
theorem C112_bare (env : CacheEnv) (hz : GmtOk env) (h : CacheHeaders) (t : Time) (before after : List Spec.Directive)
    (hd : Spec.HttpDate h.date t) (hc : Spec.CacheText h.cacheControl (before ++ (b! "max-age", none) :: after))
    (ha : ∀ d ∈ after, d.1 ≠ b! "max-age") : cacheExpires env h = Spec.nanos t := by
  obtain ⟨t', h1, h2⟩ := parseHttpDate_ok hz hd
  have hval' : cacheValue (parseCacheControl h.cacheControl) (b! "max-age") = some [] := by
    rw [parseCacheControl_text hc, List.map_append, List.map_cons]
    exact cacheValue_last fun kv hkv => by
      obtain ⟨d, hd', rfl⟩ := List.mem_map.1 hkv
      exact ha d hd'
  unfold cacheExpires
  rw [h1]
  simp only [hval', List.nil_append, parseDuration_bare, h2]

/-- C112: a maximum age that begins with neither a digit, a point nor a sign is no number, and makes the response expire at its date. -/
theorem C112_malformed (env : CacheEnv) (hz : GmtOk env) (h : CacheHeaders) (t : Time) (before after : List Spec.Directive) (c : UInt8) (v : Bytes)
    (hd : Spec.HttpDate h.date t) (hc : Spec.CacheText h.cacheControl (before ++ (b! "max-age", some (c :: v)) :: after))
    (ha : ∀ d ∈ after, d.1 ≠ b! "max-age") (h0 : ¬ (48 ≤ c ∧ c ≤ 57)) (hs : c ≠ '.'.toNat.toUInt8 ∧ c ≠ '+'.toNat.toUInt8 ∧ c ≠ '-'.toNat.toUInt8) :
    cacheExpires env h = Spec.nanos t := by
  obtain ⟨t', h1, h2⟩ := parseHttpDate_ok hz hd
  have hval' : cacheValue (parseCacheControl h.cacheControl) (b! "max-age") = some (c :: v) := by
    rw [parseCacheControl_text hc, List.map_append, List.map_cons]
    exact cacheValue_last fun kv hkv => by
      obtain ⟨d, hd', rfl⟩ := List.mem_map.1 hkv
      exact ha d hd'
  have hdig : isDigit c = false := by
    unfold isDigit
    simpa using h0
  have hterm : durationTerm env.fraction (c :: (v ++ b! "s")) = none := by
    have hp : ¬ (c = 46) := hs.1
    unfold durationTerm
    simp [hdig, hp, digitsVal]
  have hdur : parseDuration env.fraction (c :: v ++ b! "s") = none := by
    have h45 : ¬ (c = 45) := hs.2.2
    have h43 : ¬ (c = 43) := hs.2.1
    unfold parseDuration
    simp only [List.cons_append, List.head?_cons, Option.some.injEq, h45, h43, or_self, if_false, reduceCtorEq]
    rw [if_neg (by intro h; simp at h)]
    rw [List.length_cons, durationSum, hterm]
  unfold cacheExpires
  rw [h1]
  simp only [hval', hdur, h2]

/-- C112: without a maximum age `Expires` counts; without that, too, the result is the zero time; an `Expires` that does not begin with the name
of a day (such as 0) means the date of the response. -/
theorem C112_expires (env : CacheEnv) (hz : GmtOk env) (h : CacheHeaders) (t : Time) (ds : List Spec.Directive)
    (hd : Spec.HttpDate h.date t) (hc : Spec.CacheText h.cacheControl ds) (ha : ∀ d ∈ ds, d.1 ≠ b! "max-age") :
    (∀ e, Spec.HttpDate h.expires e → cacheExpires env h = Spec.nanos e) ∧
    (h.expires = [] → cacheExpires env h = 0) ∧
    (h.expires ≠ [] → ¬ Spec.Dayed h.expires → cacheExpires env h = Spec.nanos t) := by
  obtain ⟨t', h1, h2⟩ := parseHttpDate_ok hz hd
  have hval' : cacheValue (parseCacheControl h.cacheControl) (b! "max-age") = none := by
    rw [parseCacheControl_text hc]
    exact cacheValue_none fun kv hkv => by
      obtain ⟨d, hd', rfl⟩ := List.mem_map.1 hkv
      exact ha d hd'
  unfold cacheExpires
  rw [h1]
  simp only [hval']
  refine ⟨fun e he => ?_, fun he => ?_, fun hne hu => ?_⟩
  · obtain ⟨e', h3, h4⟩ := parseHttpDate_ok hz he
    rw [if_neg, h3]
    · exact h4
    · intro h0
      obtain ⟨_, w, d, mo, y, hh, mi, se, k, hs, _⟩ := he
      rw [hs] at h0
      simp at h0
  · rw [if_pos he]
    decide
  · rw [if_neg hne, parseHttpDate_undated hu]
    exact h2

/-- C112: a response whose date does not begin with the name of a day expires when the question is asked, whatever else it says. -/
theorem C112_undated (env : CacheEnv) (h : CacheHeaders) (hu : ¬ Spec.Dayed h.date) : cacheExpires env h = env.clock := by
  unfold cacheExpires
  rw [parseHttpDate_undated hu]

/-- The machine of the examples: no zone abbreviation known. -/
def cacheEnv : CacheEnv := ⟨fun _ _ => none, 7, fun _ _ => 0⟩

theorem cacheEnv_ok : GmtOk cacheEnv := fun _ _ h => nomatch h

/-- Sun, 06 Nov 1994 08:49:37 GMT. -/
def httpTime : Time := ⟨1994, 11, 6, 8, 49, 37, 0, .utc⟩

theorem httpDate_b (w d mo y h mi se : Bytes) (k : Nat) (t : Time) (hp : Spec.PlainTime t)
    (hb : w ∈ Spec.dayNames ∧ t.month = k + 1 ∧ Spec.shortMonths[k]? = some mo ∧
      d.length = 2 ∧ y.length = 4 ∧ h.length = 2 ∧ mi.length = 2 ∧ se.length = 2 ∧ (d ++ y ++ h ++ mi ++ se).all isDigit = true ∧
      digitsVal d = t.day ∧ t.year = digitsVal y ∧ digitsVal h = t.hour ∧ digitsVal mi = t.min ∧ digitsVal se = t.sec) :
    Spec.HttpDate (w ++ b! ", " ++ d ++ b! " " ++ mo ++ b! " " ++ y ++ b! " " ++ h ++ b! ":" ++ mi ++ b! ":" ++ se ++ b! " GMT") t := by
  obtain ⟨b1, b2, b3, b4, b5, b6, b7, b8, b9, b10, b11, b12, b13, b14⟩ := hb
  simp only [List.all_append, Bool.and_eq_true, List.all_eq_true] at b9
  obtain ⟨⟨⟨⟨c1, c2⟩, c3⟩, c4⟩, c5⟩ := b9
  exact ⟨hp, w, d, mo, y, h, mi, se, k, rfl, b1, b2, b3, b4, b5, b6, b7, b8, (spec_decimal_iff _ _).2 ⟨c1, b10⟩,
    ⟨digitsVal y, b11, (spec_decimal_iff _ _).2 ⟨c2, rfl⟩⟩, (spec_decimal_iff _ _).2 ⟨c3, b12⟩, (spec_decimal_iff _ _).2 ⟨c4, b13⟩,
    (spec_decimal_iff _ _).2 ⟨c5, b14⟩⟩

theorem httpTime_text : Spec.HttpDate (b! "Sun, 06 Nov 1994 08:49:37 GMT") httpTime :=
  httpDate_b (b! "Sun") (b! "06") (b! "Nov") (b! "1994") (b! "08") (b! "49") (b! "37") 10 httpTime
    ((spec_plainTime_iff _).2 (by decide)) (by decide)

theorem directives_two : Spec.CacheText (b! "public , ,max-age=60") [(b! "public", none), (b! "max-age", some (b! "60"))] :=
  .more 0 1 (b! "public", none) (b! " ,max-age=60") _ ⟨by decide, nofun⟩
    (.skip 1 (b! "max-age=60") _ (.one 0 0 (b! "max-age", some (b! "60")) ⟨by decide, fun v h => by cases h; decide⟩))

theorem directive_age (name v : Bytes) (h : (name ≠ [] ∧ ∀ c ∈ name, c ≠ 32 ∧ c ≠ 44 ∧ c ≠ 61) ∧ v ≠ [] ∧ ∀ c ∈ v, c ≠ 32 ∧ c ≠ 44 ∧ c ≠ 61) :
    Spec.CacheText (name ++ b! "=" ++ v) [(name, some v)] := by
  have := Spec.CacheText.one 0 0 (name, some v) ⟨h.1, fun w hw => by cases hw; exact h.2⟩
  simp only [List.replicate_zero, List.nil_append, List.append_nil] at this
  exact this

/-- Case of `C112_age_partial`: a date, two directives, a minute. -/
example : ∃ h : CacheHeaders, Spec.HttpDate h.date httpTime ∧
    Spec.CacheText h.cacheControl ([(b! "public", none)] ++ (b! "max-age", some (b! "60")) :: []) ∧ Spec.Decimal (b! "60") 60 ∧
    cacheExpires cacheEnv h = Spec.nanos httpTime + 60000000000 :=
  ⟨⟨b! "Sun, 06 Nov 1994 08:49:37 GMT", b! "public , ,max-age=60", b! "0"⟩, httpTime_text, directives_two,
    (spec_decimal_iff _ _).2 (by decide), by decide +kernel⟩

/-- Case of `C112_bare`: the directive alone. -/
example : Spec.CacheText (b! "max-age") ([] ++ (b! "max-age", none) :: []) ∧
    cacheExpires cacheEnv ⟨b! "Sun, 06 Nov 1994 08:49:37 GMT", b! "max-age", []⟩ = Spec.nanos httpTime :=
  ⟨.one 0 0 (b! "max-age", none) ⟨by decide, nofun⟩, by decide +kernel⟩

/-- Case of `C112_malformed`: five behind a unit. -/
example : Spec.CacheText (b! "max-age=m5") ([] ++ (b! "max-age", some (b! "m5")) :: []) ∧
    cacheExpires cacheEnv ⟨b! "Sun, 06 Nov 1994 08:49:37 GMT", b! "max-age=m5", []⟩ = Spec.nanos httpTime :=
  ⟨directive_age (b! "max-age") (b! "m5") (by decide), by decide +kernel⟩

/-- Case of `C112_expires`: no directives, and an `Expires` that is a date, missing, or zero. -/
example : Spec.CacheText [] [] ∧ Spec.HttpDate (b! "Sun, 06 Nov 1994 08:49:37 GMT") httpTime ∧ ¬ Spec.Dayed (b! "0") ∧ (b! "0") ≠ [] := by
  refine ⟨.blank 0, httpTime_text, ?_, by decide⟩
  rintro ⟨w, r, hs, n, hn, hw⟩
  have h1 := congrArg List.length hs
  have h2 := congrArg List.length hw
  simp only [Spec.lower, List.length_map, List.length_append] at h1 h2
  have h3 : ∀ n ∈ Spec.dayNames, n.length = 3 := by decide
  have := h3 n hn
  simp at h1
  omega

/-- Case of `C112_undated`: no date at all. -/
example : ¬ Spec.Dayed [] ∧ cacheExpires cacheEnv ⟨[], b! "max-age=60", []⟩ = 7 := by
  refine ⟨?_, by decide +kernel⟩
  rintro ⟨w, r, hs, n, hn, hw⟩
  have h0 : w = [] := (List.append_eq_nil_iff.1 hs.symm).1
  subst h0
  have : ∀ n ∈ Spec.dayNames, Spec.lower [] ≠ Spec.lower n := by decide
  exact this n hn hw

/-- C112 fails for names in other letters: the directive is not seen. -/
theorem C112_case_violated : ¬ C112_statement := by
  intro h
  have := h cacheEnv cacheEnv_ok ⟨b! "Sun, 06 Nov 1994 08:49:37 GMT", b! "Max-Age=60", []⟩ httpTime (b! "Max-Age") (b! "60") 60 httpTime_text
    (directive_age (b! "Max-Age") (b! "60") (by decide)) (by decide) ((spec_decimal_iff _ _).2 (by decide))
  revert this
  decide +kernel

/-- C112 fails for great ages: a response that may be kept for some 317 years expires at once, one that may be kept for 292 years does not. -/
theorem C112_large_violated : ¬ C112_statement ∧
    cacheExpires cacheEnv ⟨b! "Sun, 06 Nov 1994 08:49:37 GMT", b! "max-age=9999999999", []⟩ = Spec.nanos httpTime ∧
    cacheExpires cacheEnv ⟨b! "Sun, 06 Nov 1994 08:49:37 GMT", b! "max-age=9223372036", []⟩ = Spec.nanos httpTime + 9223372036000000000 := by
  refine ⟨fun h => ?_, by decide +kernel, by decide +kernel⟩
  have := h cacheEnv cacheEnv_ok ⟨b! "Sun, 06 Nov 1994 08:49:37 GMT", b! "max-age=9999999999", []⟩ httpTime (b! "max-age") (b! "9999999999")
    9999999999 httpTime_text (directive_age (b! "max-age") (b! "9999999999") (by decide)) (by decide) ((spec_decimal_iff _ _).2 (by decide))
  revert this
  decide +kernel

/-- C112, values that are no numbers: units are read with the letter s behind them, so that 1m is a millisecond; a negative age lies in the past. -/
theorem C112_unit_violated :
    cacheExpires cacheEnv ⟨b! "Sun, 06 Nov 1994 08:49:37 GMT", b! "max-age=1m", []⟩ = Spec.nanos httpTime + 1000000 ∧
    cacheExpires cacheEnv ⟨b! "Sun, 06 Nov 1994 08:49:37 GMT", b! "max-age=1h1", []⟩ = Spec.nanos httpTime + 3601000000000 ∧
    cacheExpires cacheEnv ⟨b! "Sun, 06 Nov 1994 08:49:37 GMT", b! "max-age=-60", []⟩ = Spec.nanos httpTime - 60000000000 := by
  refine ⟨by decide +kernel, by decide +kernel, by decide +kernel⟩

end Metro2
