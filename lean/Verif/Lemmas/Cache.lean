import Verif.Model.Cache
import Verif.Spec.Cache
import Verif.Props.ClientQuery
import Verif.Lemmas.MonthText

/-! Reading of the headers that say when a response expires. -/

namespace Metro2

/-! ### Directives -/

theorem dropWhile_blanks (c : UInt8) (a : Nat) {w : Bytes} (h : w.head? ≠ some c) :
    (List.replicate a c ++ w).dropWhile (· == c) = w := by
  induction a with
  | zero =>
    cases w with
    | nil => rfl
    | cons x w =>
      have : x ≠ c := fun hx => h (by rw [hx]; rfl)
      simp [this]
  | succ a ih => rw [List.replicate_succ, List.cons_append, List.dropWhile_cons_of_pos (by simp), ih]

theorem trimByte_blanks (c : UInt8) (a b : Nat) {w : Bytes} (h : c ∉ w) (hne : w ≠ []) :
    trimByte c (List.replicate a c ++ w ++ List.replicate b c) = w := by
  unfold trimByte
  have h1 : (w ++ List.replicate b c).head? ≠ some c := by
    cases w with
    | nil => exact absurd rfl hne
    | cons x w => exact fun hx => h (by simp at hx; simp [hx])
  have h2 : w.reverse.head? ≠ some c := by
    intro hx
    exact h (List.mem_reverse.1 (List.mem_of_head? hx))
  rw [List.append_assoc, dropWhile_blanks c a h1, List.reverse_append, List.reverse_replicate, dropWhile_blanks c b h2, List.reverse_reverse]

theorem trimByte_clean (c : UInt8) {w : Bytes} (h : c ∉ w) (hne : w ≠ []) : trimByte c w = w := by
  have := trimByte_blanks c 0 0 h hne
  simpa using this

theorem mem_directiveText {d : Spec.Directive} (hd : Spec.PlainDirective d) {c : UInt8} (hc : c ∈ Spec.directiveText d) : c ≠ 32 ∧ c ≠ 44 := by
  obtain ⟨n, o⟩ := d
  cases o with
  | none => exact ⟨(hd.1.2 c hc).1, (hd.1.2 c hc).2.1⟩
  | some v =>
    rcases List.mem_append.1 hc with h | h
    · rcases List.mem_append.1 h with h | h
      · exact ⟨(hd.1.2 c h).1, (hd.1.2 c h).2.1⟩
      · rw [List.mem_singleton.1 h]; decide
    · exact ⟨((hd.2 v rfl).2 c h).1, ((hd.2 v rfl).2 c h).2.1⟩

/-- What the map gets from a directive. -/
def directiveEntry (d : Spec.Directive) : Bytes × Bytes := (d.1, d.2.getD [])

theorem cachePart_directive {d : Spec.Directive} (hd : Spec.PlainDirective d) (a b : Nat) :
    cachePart (List.replicate a 32 ++ Spec.directiveText d ++ List.replicate b 32) = some (directiveEntry d) := by
  have hne : Spec.directiveText d ≠ [] := by
    obtain ⟨n, o⟩ := d
    cases o with
    | none => exact hd.1.1
    | some v =>
      unfold Spec.directiveText
      simp
  unfold cachePart
  simp only
  rw [trimByte_blanks 32 a b (fun h => (mem_directiveText hd h).1 rfl) hne, if_neg hne]
  obtain ⟨n, o⟩ := d
  cases o with
  | none =>
    have : splitByte 61 (Spec.directiveText (n, none)) = [n] := splitByte_none fun h => (hd.1.2 _ h).2.2 rfl
    rw [this]
    rfl
  | some v =>
    have : splitByte 61 (Spec.directiveText (n, some v)) = [n, v] := by
      unfold Spec.directiveText
      simp only
      rw [List.append_assoc, List.singleton_append, splitByte_append fun h => (hd.1.2 _ h).2.2 rfl, splitByte_none fun h => ((hd.2 v rfl).2 _ h).2.2 rfl]
    rw [this]
    simp only
    rw [trimByte_clean 32 (fun h => (hd.1.2 _ h).1 rfl) hd.1.1, trimByte_clean 44 (fun h => ((hd.2 v rfl).2 _ h).2.1 rfl) (hd.2 v rfl).1]
    rfl

theorem no_comma {d : Spec.Directive} (hd : Spec.PlainDirective d) (a b : Nat) :
    (44 : UInt8) ∉ List.replicate a 32 ++ Spec.directiveText d ++ List.replicate b 32 := by
  intro h
  rcases List.mem_append.1 h with h | h
  · rcases List.mem_append.1 h with h | h
    · exact absurd (List.eq_of_mem_replicate h) (by decide)
    · exact (mem_directiveText hd h).2 rfl
  · exact absurd (List.eq_of_mem_replicate h) (by decide)

theorem cachePart_blank (a : Nat) : cachePart (List.replicate a 32) = none := by
  have : trimByte 32 (List.replicate a 32) = [] := by
    unfold trimByte
    have := dropWhile_blanks 32 a (w := []) (by decide)
    rw [List.append_nil] at this
    rw [this]
    rfl
  unfold cachePart
  simp only [this, if_true]

theorem no_comma_blank (a : Nat) : (44 : UInt8) ∉ List.replicate a (32 : UInt8) := fun h => absurd (List.eq_of_mem_replicate h) (by decide)

theorem parseCacheControl_text {s : Bytes} {ds : List Spec.Directive} (h : Spec.CacheText s ds) :
    parseCacheControl s = ds.map directiveEntry := by
  unfold parseCacheControl
  induction h with
  | blank a =>
    rw [splitByte_none (no_comma_blank a), List.filterMap_cons, cachePart_blank]
    rfl
  | one a b d hd =>
    rw [splitByte_none (no_comma hd a b), List.filterMap_cons, cachePart_directive hd]
    rfl
  | skip a s ds _ ih =>
    rw [List.append_assoc _ [44] s, List.singleton_append, splitByte_append (no_comma_blank a), List.filterMap_cons, cachePart_blank]
    exact ih
  | more a b d s ds hd _ ih =>
    rw [List.append_assoc _ [44] s, List.singleton_append, splitByte_append (no_comma hd a b), List.filterMap_cons, cachePart_directive hd]
    simp only [ih, List.map_cons]

theorem cacheText_plain {s : Bytes} {ds : List Spec.Directive} (h : Spec.CacheText s ds) : ∀ d ∈ ds, Spec.PlainDirective d := by
  induction h with
  | blank a => exact fun d hd => absurd hd List.not_mem_nil
  | one a b d hd => exact fun x hx => by rw [List.mem_singleton.1 hx]; exact hd
  | skip a s ds _ ih => exact ih
  | more a b d s ds hd _ ih =>
    intro x hx
    rcases List.mem_cons.1 hx with rfl | hx
    · exact hd
    · exact ih x hx

theorem cacheValue_none {cc : List (Bytes × Bytes)} {key : Bytes} (h : ∀ kv ∈ cc, kv.1 ≠ key) : cacheValue cc key = none := by
  unfold cacheValue
  rw [List.find?_eq_none.2]
  · rfl
  · intro kv hkv
    simpa using h kv (List.mem_reverse.1 hkv)

theorem cacheValue_last {before after : List (Bytes × Bytes)} {key value : Bytes} (h : ∀ kv ∈ after, kv.1 ≠ key) :
    cacheValue (before ++ (key, value) :: after) key = some value := by
  unfold cacheValue
  rw [List.reverse_append, List.reverse_cons, List.append_assoc, List.find?_append, List.find?_eq_none.2]
  · simp
  · intro kv hkv
    simpa using h kv (List.mem_reverse.1 hkv)

/-! ### Durations -/

theorem takeWhile_digits {v : Bytes} (h : ∀ c ∈ v, isDigit c = true) {x : UInt8} (hx : isDigit x = false) (r : Bytes) :
    (v ++ x :: r).takeWhile isDigit = v ∧ (v ++ x :: r).dropWhile isDigit = x :: r := by
  induction v with
  | nil => simp [hx]
  | cons c v ih =>
    have hc := h c List.mem_cons_self
    have := ih fun d hd => h d (List.mem_cons_of_mem _ hd)
    simp [hc, this]

theorem durationTerm_seconds (fraction : Bytes → Nat → Nat) {v : Bytes} (h : ∀ c ∈ v, isDigit c = true) (hne : v ≠ []) :
    durationTerm fraction (v ++ b! "s") =
      if 2 ^ 63 / 1000000000 < digitsVal v then none else some (digitsVal v * 1000000000, []) := by
  have hw := takeWhile_digits h (x := 115) (by decide) []
  unfold durationTerm
  simp only
  rw [show (b! "s") = [115] from rfl, hw.1, hw.2]
  have e1 : ¬ (([115] : Bytes).head? = some 46) := by decide
  have e2 : ([115] : Bytes).takeWhile (fun c => !(c == 46 || isDigit c)) = [115] := by decide
  have e3 : ([115] : Bytes).dropWhile (fun c => !(c == 46 || isDigit c)) = [] := by decide
  have e4 : ((durationUnits.find? fun u => u.1 == ([115] : Bytes)).map (·.2)) = some 1000000000 := by decide
  simp only [e1, if_false, e2, e3, e4, hne, false_and, List.all_nil, if_true, Nat.add_zero]
  by_cases hb : 2 ^ 63 / 1000000000 < digitsVal v
  · simp only [if_pos hb, ite_self]
  · have h1 : ¬ 2 ^ 63 < digitsVal v := by omega
    have h2 : ¬ 2 ^ 63 < digitsVal v * 1000000000 := by omega
    simp only [if_neg hb, if_neg h1, if_neg h2]

theorem parseDuration_seconds (fraction : Bytes → Nat → Nat) {v : Bytes} (h : ∀ c ∈ v, isDigit c = true) (hne : v ≠ []) :
    parseDuration fraction (v ++ b! "s") =
      if digitsVal v * 1000000000 < 2 ^ 63 then some ((digitsVal v : Int) * 1000000000) else none := by
  obtain ⟨c, w, rfl⟩ := List.exists_cons_of_ne_nil hne
  have hc := h c List.mem_cons_self
  have n1 : c ≠ 45 := by rintro rfl; exact absurd hc (by decide)
  have n2 : c ≠ 43 := by rintro rfl; exact absurd hc (by decide)
  have hh : (c :: w ++ b! "s").head? = some c := rfl
  have hb : ¬ (c :: w ++ b! "s") = b! "0" := by
    intro e
    have := congrArg List.length e
    simp at this
  unfold parseDuration
  simp only
  rw [hh]
  simp only [Option.some.injEq, n1, n2, or_self, if_false, hb]
  rw [if_neg (by simp)]
  have hs : durationSum fraction (c :: w ++ b! "s").length 0 (c :: w ++ b! "s") =
      if 2 ^ 63 / 1000000000 < digitsVal (c :: w) then none else some (digitsVal (c :: w) * 1000000000) := by
    have ht := durationTerm_seconds fraction h hne
    rw [show (c :: w ++ b! "s") = c :: (w ++ b! "s") from rfl] at ht ⊢
    rw [List.length_cons, durationSum, ht]
    by_cases hb : 2 ^ 63 / 1000000000 < digitsVal (c :: w)
    · simp only [if_pos hb]
    · have h1 : digitsVal (c :: w) * 1000000000 < 2 ^ 64 := by omega
      have h2 : ¬ 2 ^ 63 < digitsVal (c :: w) * 1000000000 := by omega
      simp only [if_neg hb, Nat.zero_add, Nat.mod_eq_of_lt h1, if_neg h2]
      cases (w ++ b! "s").length <;> rfl
  rw [hs]
  by_cases hb : 2 ^ 63 / 1000000000 < digitsVal (c :: w)
  · rw [if_pos hb, if_neg (by omega)]
  · rw [if_neg hb]
    simp only
    by_cases h1 : digitsVal (c :: w) * 1000000000 < 2 ^ 63
    · rw [if_pos h1, if_neg (by omega)]
      simp
    · rw [if_neg h1, if_pos (by omega)]

theorem parseDuration_bare (fraction : Bytes → Nat → Nat) : parseDuration fraction (b! "s") = none := rfl

/-! ### Dates -/

def httpLayout : DateLayout :=
  ⟨[([], .weekDay), ([44, 32], .zeroDay), ([32], .month), ([32], .longYear), ([32], .hour), ([58], .zeroMinute), ([58], .zeroSecond),
    ([32], .tz)], []⟩

theorem httpLayout_eq : DateLayout.of rfc1123 = httpLayout := by decide +kernel

theorem lookup_day {w : Bytes} (h : w ∈ Spec.dayNames) (x : Bytes) : ∃ i, lookupName (w ++ x) shortDayNames = some (i, x) := by
  simp only [Spec.dayNames, List.mem_cons, List.not_mem_nil, or_false] at h
  rcases h with rfl | rfl | rfl | rfl | rfl | rfl | rfl
  · exact ⟨1, rfl⟩
  · exact ⟨2, rfl⟩
  · exact ⟨3, rfl⟩
  · exact ⟨4, rfl⟩
  · exact ⟨5, rfl⟩
  · exact ⟨6, rfl⟩
  · exact ⟨0, rfl⟩

theorem lookup_month {k : Nat} {w : Bytes} (h : Spec.shortMonths[k]? = some w) (x : Bytes) : lookupName (w ++ x) shortMonthNames = some (k, x) := by
  match k, h with
  | 0, h | 1, h | 2, h | 3, h | 4, h | 5, h | 6, h | 7, h | 8, h | 9, h | 10, h | 11, h =>
    cases h
    rfl

theorem shortMonth_head {k : Nat} {w : Bytes} (h : Spec.shortMonths[k]? = some w) : ∃ c r, w = c :: r ∧ c ≠ 32 := by
  match k, h with
  | 0, h | 1, h | 2, h | 3, h | 4, h | 5, h | 6, h | 7, h | 8, h | 9, h | 10, h | 11, h =>
    cases h
    exact ⟨_, _, rfl, by decide⟩

theorem elems_day_name {final : Bytes} {es : List (Bytes × Elem)} {a : Parsed} {w rest : Bytes} (h : w ∈ Spec.dayNames) :
    parseElems final a (w ++ rest) (([], .weekDay) :: es) = parseElems final a rest es := by
  obtain ⟨i, hi⟩ := lookup_day h rest
  rw [parseElems, skip_nil]
  simp only [parseElem, parseName, hi]

theorem elems_month_name {final : Bytes} {es : List (Bytes × Elem)} {a : Parsed} {w rest : Bytes} {k : Nat} (h : Spec.shortMonths[k]? = some w) :
    parseElems final a (32 :: (w ++ rest)) (([32], .month) :: es) = parseElems final { a with month := k + 1 } rest es := by
  obtain ⟨c, r, rfl, hc⟩ := shortMonth_head h
  have hl := lookup_month h rest
  rw [parseElems, show skip [32] (32 :: (c :: r ++ rest)) = some (c :: r ++ rest) from skip_space hc _]
  simp only [parseElem, parseName, hl]

theorem elems_gmt {a : Parsed} : parseElems [] a (b! " GMT") [([32], .tz)] = some { a with zone := b! "GMT" } := by
  rw [parseElems, show skip [32] (b! " GMT") = some (b! "GMT") from by decide]
  simp only [parseElem]
  rw [if_neg (by decide), show parseTimeZone (b! "GMT") = some 3 from by decide]
  simp only
  rw [show (b! "GMT").drop 3 = [] from rfl, show (b! "GMT").take 3 = b! "GMT" from rfl, elems_end (skip_nil _)]

theorem skip_comma {d : Bytes} {n : Nat} (hl : d.length = n + 1) (hd : ∀ c ∈ d, isDigit c = true) (v : Bytes) :
    skip [44, 32] (44 :: 32 :: (d ++ v)) = some (d ++ v) := by
  cases d with
  | nil => simp at hl
  | cons c d =>
    have : c ≠ 32 := by
      rintro rfl
      exact absurd (hd 32 List.mem_cons_self) (by decide)
    simp [skip, skipAux, cutspace, this]

theorem http_text (w d mo y hh mi se : Bytes) :
    w ++ b! ", " ++ d ++ b! " " ++ mo ++ b! " " ++ y ++ b! " " ++ hh ++ b! ":" ++ mi ++ b! ":" ++ se ++ b! " GMT" =
      w ++ 44 :: 32 :: (d ++ 32 :: (mo ++ 32 :: (y ++ 32 :: (hh ++ 58 :: (mi ++ 58 :: (se ++ 32 :: b! "GMT")))))) := by
  simp only [List.append_assoc, List.cons_append, List.nil_append]

theorem http_clock {a : Parsed} {hh mi se : Bytes} {h m s : Nat} (l3 : hh.length = 2) (l4 : mi.length = 2) (l5 : se.length = 2)
    (e3 : (∀ c ∈ hh, isDigit c = true) ∧ digitsVal hh = h) (e4 : (∀ c ∈ mi, isDigit c = true) ∧ digitsVal mi = m)
    (e5 : (∀ c ∈ se, isDigit c = true) ∧ digitsVal se = s) (h5 : h < 24) (h6 : m < 60) (h7 : s < 60) :
    parseElems [] a (32 :: (hh ++ 58 :: (mi ++ 58 :: (se ++ 32 :: b! "GMT"))))
      [([32], .hour), ([58], .zeroMinute), ([58], .zeroSecond), ([32], .tz)] =
      some { a with hour := h, min := m, sec := s, zone := b! "GMT" } := by
  rw [elems_num (skip_space_digits l3 e3.1 _) (fun _ _ => rfl) l3 e3.1 e3.2, if_neg (by omega)]
  rw [elems_num (skip_one (by decide) _) (fun _ _ => rfl) l4 e4.1 e4.2, if_neg (by omega)]
  rw [elems_second (skip_one (by decide) _) l5 e5.1 e5.2 (by decide), if_neg (by omega)]
  exact elems_gmt

theorem http_parse {w d mo y hh mi se : Bytes} {k n day h m s : Nat} (hw : w ∈ Spec.dayNames) (hmo : Spec.shortMonths[k]? = some mo)
    (l1 : d.length = 2) (l2 : y.length = 4) (l3 : hh.length = 2) (l4 : mi.length = 2) (l5 : se.length = 2)
    (e1 : (∀ c ∈ d, isDigit c = true) ∧ digitsVal d = day) (e2 : (∀ c ∈ y, isDigit c = true) ∧ digitsVal y = n)
    (e3 : (∀ c ∈ hh, isDigit c = true) ∧ digitsVal hh = h) (e4 : (∀ c ∈ mi, isDigit c = true) ∧ digitsVal mi = m)
    (e5 : (∀ c ∈ se, isDigit c = true) ∧ digitsVal se = s) (hd99 : day ≤ 99) (h5 : h < 24) (h6 : m < 60) (h7 : s < 60) :
    parseElems [] {} (w ++ 44 :: 32 :: (d ++ 32 :: (mo ++ 32 :: (y ++ 32 :: (hh ++ 58 :: (mi ++ 58 :: (se ++ 32 :: b! "GMT")))))))
      httpLayout.elems = some { year := n, month := k + 1, day := day, hour := h, min := m, sec := s, zone := b! "GMT" } := by
  unfold httpLayout
  simp only
  rw [elems_day_name hw, elems_num (skip_comma l1 e1.1 _) (fun _ _ => rfl) l1 e1.1 e1.2, if_neg (by omega)]
  rw [elems_month_name hmo]
  rw [elems_year (skip_space_digits l2 e2.1 _) l2 e2.1 e2.2]
  exact http_clock l3 l4 l5 e3 e4 e5 h5 h6 h7

theorem http_finish {env : CacheEnv} (hz : GmtOk env) {n k day h m s : Nat} (h3 : 1 ≤ day) (h4 : day ≤ daysIn (k + 1) (n : Int)) :
    ∃ t', Parsed.finish env.zone { year := n, month := k + 1, day := day, hour := h, min := m, sec := s, zone := b! "GMT" } = some t' ∧
      t'.instant = Time.instant ⟨n, k + 1, day, h, m, s, 0, .utc⟩ := by
  have hmneg : ¬ ((k : Int) + 1) < 0 := by omega
  have hdneg : ¬ (day : Int) < 0 := by omega
  have hk : ((k : Int) + 1).toNat = k + 1 := by omega
  have hdd : ¬ ((day : Int) < 1 ∨ (daysIn (k + 1) (n : Int) : Int) < day) := by omega
  simp only [Parsed.finish, Bool.false_eq_true, false_and, if_false, hmneg, hdneg, Int.toNat_natCast, hk, hdd, ne_eq,
    not_true_eq_false, show ¬ ((b! "GMT") = []) by decide, not_false_eq_true, if_true]
  cases hg : env.zone (b! "GMT") ⟨n, k + 1, day, h, m, s, 0, .utc⟩ with
  | none =>
    refine ⟨_, rfl, ?_⟩
    rw [show gmtOffset (b! "GMT") = 0 from by decide]
    simp [Time.instant, Time.absSec, Loc.offset]
  | some t' =>
    refine ⟨_, rfl, ?_⟩
    rw [hz _ _ hg]

theorem parseHttpDate_ok {env : CacheEnv} (hz : GmtOk env) {s : Bytes} {t : Time} (h : Spec.HttpDate s t) :
    ∃ t', parseHttpDate env s = some t' ∧ t'.instant = Spec.nanos t := by
  obtain ⟨hp, w, d, mo, y, hh, mi, se, k, rfl, hw, hk, hmo, l1, l2, l3, l4, l5, e1, ⟨n, hy, e2⟩, e3, e4, e5⟩ := h
  rw [spec_decimal_iff] at e1 e2 e3 e4 e5
  obtain ⟨⟨h1, h2, h3, h4, h5, h6, h7, _⟩, hy0, hy1, hn, hl⟩ := (spec_plainTime_iff t).1 hp
  have hd99 : t.day ≤ 99 := by have := daysIn_le t.month t.year; omega
  rw [http_text]
  unfold parseHttpDate DateLayout.parse
  rw [httpLayout_eq, show httpLayout.final = [] from rfl, http_parse hw hmo l1 l2 l3 l4 l5 e1 e2 e3 e4 e5 hd99 h5 h6 h7]
  rw [hk, hy] at h4
  obtain ⟨t', ht, hi⟩ := http_finish (h := t.hour) (m := t.min) (s := t.sec) hz h3 h4
  refine ⟨t', ht, hi.trans ?_⟩
  obtain ⟨ty, tm, td, th, ti, ts, tn, tl⟩ := t
  simp only at hy hn hl hk
  subst hy hn hl hk
  simp [Spec.nanos, Time.instant]

theorem matchByte_lower {a b : UInt8} (h : matchByte a b = true) : Spec.lowerByte a = Spec.lowerByte b := by
  unfold matchByte at h
  simp only [Bool.or_eq_true, decide_eq_true_eq, Bool.and_eq_true] at h
  rcases h with rfl | ⟨⟨h1, h2⟩, h3⟩
  · rfl
  · have e : ∀ n : Fin 256, (fun c : UInt8 => 97 ≤ (c ||| 32) → (c ||| 32) ≤ 122 → Spec.lowerByte c = (c ||| 32)) ⟨⟨n⟩⟩ := by decide +kernel
    rw [show Spec.lowerByte a = (a ||| 32) from e a.toFin h2 h3, h1]
    rw [h1] at h2 h3
    exact (e b.toFin h2 h3).symm

theorem afterName_lower {n v r : Bytes} (h : afterName n v = some r) : ∃ w, v = w ++ r ∧ Spec.lower w = Spec.lower n := by
  induction n generalizing v with
  | nil =>
    simp only [afterName, Option.some.injEq] at h
    exact ⟨[], h, rfl⟩
  | cons a n ih =>
    cases v with
    | nil => simp [afterName] at h
    | cons b v =>
      simp only [afterName] at h
      by_cases hm : matchByte b a = true
      · rw [if_pos hm] at h
        obtain ⟨w, rfl, hw⟩ := ih h
        refine ⟨b :: w, rfl, ?_⟩
        show Spec.lowerByte b :: Spec.lower w = Spec.lowerByte a :: Spec.lower n
        rw [matchByte_lower hm, hw]
      · rw [if_neg hm] at h; cases h

theorem lookupName_lower {names : List Bytes} {v r : Bytes} {i : Nat} (h : lookupName v names = some (i, r)) :
    ∃ n ∈ names, ∃ w, v = w ++ r ∧ Spec.lower w = Spec.lower n := by
  induction names generalizing i r with
  | nil => cases h
  | cons n names ih =>
    unfold lookupName at h
    cases ha : afterName n v with
    | some q =>
      rw [ha] at h
      simp only [Option.some.injEq, Prod.mk.injEq] at h
      obtain ⟨_, rfl⟩ := h
      exact ⟨n, List.mem_cons_self, afterName_lower ha⟩
    | none =>
      rw [ha] at h
      simp only [Option.map_eq_some_iff, Prod.mk.injEq] at h
      obtain ⟨⟨j, q⟩, hl, _, rfl⟩ := h
      obtain ⟨m, hm, w⟩ := ih hl
      exact ⟨m, List.mem_cons_of_mem _ hm, w⟩

theorem parseHttpDate_undated {env : CacheEnv} {s : Bytes} (h : ¬ Spec.Dayed s) : parseHttpDate env s = none := by
  have hl : lookupName s shortDayNames = none := by
    cases hl : lookupName s shortDayNames with
    | none => rfl
    | some x =>
      obtain ⟨n, hn, w, hs, hw⟩ := lookupName_lower hl
      exact absurd ⟨w, x.2, hs, n, (show shortDayNames ⊆ Spec.dayNames by decide) hn, hw⟩ h
  unfold parseHttpDate DateLayout.parse
  rw [httpLayout_eq]
  unfold httpLayout
  simp only
  rw [parseElems, skip_nil]
  simp only [parseElem, parseName, hl]

end Metro2
