import Verif.Lemmas.Dates
import Verif.Lemmas.Field
import Verif.Spec.Dates

/-! Reading ISO texts and numeric dates. -/

namespace Metro2

theorem digit_visible {c : UInt8} (h : isDigit c = true) : 33 ≤ c.toNat ∧ c.toNat < 128 := by
  have := (isDigit_iff c).1 h
  omega

theorem head_digits {d r : Bytes} {n : Nat} (hl : d.length = n + 1) (hd : ∀ c ∈ d, isDigit c = true) :
    ∃ c, (d ++ r).head? = some c ∧ isDigit c = true := by
  cases d with
  | nil => simp at hl
  | cons c d => exact ⟨c, rfl, hd c (by simp)⟩

theorem last_digits {d r : Bytes} {n : Nat} (hl : d.length = n + 1) (hd : ∀ c ∈ d, isDigit c = true) :
    ∃ c, (r ++ d).getLast? = some c ∧ isDigit c = true := by
  have hne : d ≠ [] := by rintro rfl; simp at hl
  refine ⟨d.getLast hne, ?_, hd _ (List.getLast_mem hne)⟩
  rw [List.getLast?_append, List.getLast?_eq_some_getLast hne]
  rfl

/-- The shape of 2006-01-02T15:04:05Z. -/
def isoShape : List Cls :=
  List.replicate 4 .dig ++ ([.is 45] ++ (List.replicate 2 .dig ++ ([.is 45] ++ (List.replicate 2 .dig ++ ([.is 84] ++
    (List.replicate 2 .dig ++ ([.is 58] ++ (List.replicate 2 .dig ++ ([.is 58] ++ (List.replicate 2 .dig ++ [.is 90]))))))))))

def isoLayout : DateLayout :=
  ⟨[([], .longYear), ([45], .zeroMonth), ([45], .zeroDay), ([84], .hour), ([58], .zeroMinute), ([58], .zeroSecond)], [90]⟩

theorem isoLayout_eq : DateLayout.of (b! "2006-01-02T15:04:05Z") = isoLayout := by decide +kernel

theorem iso_filter : ∃ fs, (dateFormats.filter fun f => !Refuses isoShape f) = b! "2006-01-02T15:04:05Z" :: fs :=
  ⟨[b! "2006-1-02T15:04:05Z", b! "2006-1-2T15:04:05Z", b! "2006-01-02T15:04:05Z07:00"], by decide +kernel⟩

theorem parseDate_iso (loc : LocalZone) {s : Bytes} {t : Time} (hp : Spec.PlainTime t) (h : Spec.IsoText s t) :
    parseDate loc s = some t := by
  obtain ⟨y, mo, d, hh, mi, se, rfl, l1, l2, l3, l4, l5, l6, ⟨n, hy, e1⟩, e2, e3, e4, e5, e6⟩ := h
  rw [spec_decimal_iff] at e1 e2 e3 e4 e5 e6
  obtain ⟨⟨h1, h2, h3, h4, h5, h6, h7, _⟩, hy0, hy1, hn, hl⟩ := (spec_plainTime_iff t).1 hp
  simp only [List.append_assoc, List.cons_append, List.nil_append]
  have hs : shaped isoShape (y ++ 45 :: (mo ++ 45 :: (d ++ 84 :: (hh ++ 58 :: (mi ++ 58 :: (se ++ [90])))))) = true :=
    shaped_append (shaped_digits l1 e1.1) (shaped_append (s := [45]) (by decide) (shaped_append (shaped_digits l2 e2.1)
      (shaped_append (s := [45]) (by decide) (shaped_append (shaped_digits l3 e3.1) (shaped_append (s := [84]) (by decide)
        (shaped_append (shaped_digits l4 e4.1) (shaped_append (s := [58]) (by decide) (shaped_append (shaped_digits l5 e5.1)
          (shaped_append (s := [58]) (by decide) (shaped_append (shaped_digits l6 e6.1) (t := [90]) (by decide)))))))))))
  obtain ⟨c, hc, hcd⟩ := head_digits (r := 45 :: (mo ++ 45 :: (d ++ 84 :: (hh ++ 58 :: (mi ++ 58 :: (se ++ [90])))))) l1 e1.1
  obtain ⟨fs, hfs⟩ := iso_filter
  have hlast : (y ++ 45 :: (mo ++ 45 :: (d ++ 84 :: (hh ++ 58 :: (mi ++ 58 :: (se ++ [90])))))).getLast? = some (90 : UInt8) := by
    simp [List.getLast?_append, List.getLast?_cons]
  rw [parseDate_shaped hs hfs hc hlast (digit_visible hcd) (by decide), parseFirst]
  have : (DateLayout.of (b! "2006-01-02T15:04:05Z")).parse loc
      (y ++ 45 :: (mo ++ 45 :: (d ++ 84 :: (hh ++ 58 :: (mi ++ 58 :: (se ++ [90])))))) = some t := by
    rw [isoLayout_eq]
    unfold DateLayout.parse isoLayout
    simp only
    rw [elems_year (skip_nil _) l1 e1.1 e1.2, elems_num (skip_one (by decide) _) (fun _ _ => rfl) l2 e2.1 e2.2,
      if_neg (by omega), elems_num (skip_one (by decide) _) (fun _ _ => rfl) l3 e3.1 e3.2,
      if_neg (by have := daysIn_le t.month t.year; omega),
      elems_num (skip_one (by decide) _) (fun _ _ => rfl) l4 e4.1 e4.2,
      if_neg (by omega), elems_num (skip_one (by decide) _) (fun _ _ => rfl) l5 e5.1 e5.2,
      if_neg (by omega), elems_second (skip_one (by decide) _) l6 e6.1 e6.2 (by decide),
      if_neg (by omega), elems_end (skip_one (by decide) _)]
    have hmneg : ¬ (t.month : Int) < 0 := by omega
    have hdneg : ¬ (t.day : Int) < 0 := by omega
    have hd : ¬ ((t.day : Int) < 1 ∨ (daysIn t.month (n : Int) : Int) < t.day) := by rw [← hy]; omega
    simp only [Parsed.finish, Bool.false_eq_true, false_and, if_false, hmneg, hdneg, Int.toNat_natCast, hd, ne_eq,
      not_true_eq_false]
    obtain ⟨ty, tm, td, th, ti, ts, tn, tl⟩ := t
    simp only at hy hn hl
    subst hy hn hl
    rfl
  rw [this]

/-! ### With a numeric zone -/

theorem elems_zone {final pre : Bytes} {es : List (Bytes × Elem)} {a : Parsed} {v zh zm rest : Bytes} {sign : UInt8} {h m : Nat}
    (hpre : skip pre v = some (sign :: (zh ++ 58 :: (zm ++ rest)))) (l1 : zh.length = 2) (l2 : zm.length = 2)
    (d1 : ∀ c ∈ zh, isDigit c = true) (d2 : ∀ c ∈ zm, isDigit c = true) (v1 : digitsVal zh = h) (v2 : digitsVal zm = m)
    (hh : h ≤ 24) (hm : m ≤ 60) {o : Int}
    (hs : (sign = 43 ∧ o = 3600 * h + 60 * m) ∨ (sign = 45 ∧ o = -(3600 * h + 60 * m : Int))) :
    parseElems final a v ((pre, .numColonTZ) :: es) = parseElems final { a with offset := o } rest es := by
  match zh, zm, l1, l2 with
  | [a1, a2], [b1, b2], _, _ =>
    have g1 := getnum_two true (a := [a1, a2]) rfl d1 []
    have g2 := getnum_two true (a := [b1, b2]) rfl d2 []
    simp only [List.append_nil, v1, v2] at g1 g2
    have g3 : getnum true (b! "00") = some (0, []) := by decide
    have e1 : ¬ ((sign :: a1 :: a2 :: 58 :: b1 :: b2 :: rest).length < 6 ∨
        ((sign :: a1 :: a2 :: 58 :: b1 :: b2 :: rest).drop 3).head? ≠ some 58) := by simp
    have e2 : ¬ (24 < h ∨ 60 < m ∨ 60 < 0) := by omega
    rw [parseElems, hpre]
    simp only [parseElem, parseNumZone, List.cons_append, List.nil_append]
    rw [if_neg e1]
    simp only [List.drop_succ_cons, List.drop_zero, List.take_succ_cons, List.take_zero, List.head?_cons]
    simp only [zoneOffset, g1, g2, g3, if_neg e2]
    have ho : ((h : Int) * 60 + m) * 60 + ((0 : Nat) : Int) = 3600 * h + 60 * m := by omega
    rw [ho]
    rcases hs with ⟨rfl, rfl⟩ | ⟨rfl, rfl⟩
    · simp only [if_true]
    · simp only [Option.some.injEq, show ¬ ((45 : UInt8) = 43) by decide, if_false, if_true]

/-- The shape of 2006-01-02T15:04:05-07:00. -/
def isoZoneShape (sign : UInt8) : List Cls :=
  List.replicate 4 .dig ++ ([.is 45] ++ (List.replicate 2 .dig ++ ([.is 45] ++ (List.replicate 2 .dig ++ ([.is 84] ++
    (List.replicate 2 .dig ++ ([.is 58] ++ (List.replicate 2 .dig ++ ([.is 58] ++ (List.replicate 2 .dig ++
      ([.is sign] ++ (List.replicate 2 .dig ++ ([.is 58] ++ List.replicate 2 .dig)))))))))))))

def isoZoneLayout : DateLayout :=
  ⟨[([], .longYear), ([45], .zeroMonth), ([45], .zeroDay), ([84], .hour), ([58], .zeroMinute), ([58], .zeroSecond),
    ([], .numColonTZ)], []⟩

theorem isoZoneLayout_eq : DateLayout.of (b! "2006-01-02T15:04:05-07:00") = isoZoneLayout := by decide +kernel

theorem isoZone_filter {sign : UInt8} (h : sign = 43 ∨ sign = 45) :
    ∃ fs, (dateFormats.filter fun f => !Refuses (isoZoneShape sign) f) = b! "2006-01-02T15:04:05-07:00" :: fs := by
  refine ⟨[b! "2006-01-02T15:04:05-0700", b! "2006-01-02T15:04:05Z07:00"], ?_⟩
  rcases h with rfl | rfl <;> decide +kernel

theorem finish_zone (loc : LocalZone) {t : Time} {y : Nat} {o : Int} (hy : t.year = y) (hn : t.nsec = 0) (hl : t.loc = .zone o)
    (ho : ¬ o = -1) (h3 : 1 ≤ t.day) (h4 : t.day ≤ daysIn t.month (y : Int)) :
    Parsed.finish loc { year := y, month := t.month, day := t.day, hour := t.hour, min := t.min, sec := t.sec, offset := o } =
      some t := by
  have hmneg : ¬ (t.month : Int) < 0 := by omega
  have hdneg : ¬ (t.day : Int) < 0 := by omega
  have hd : ¬ ((t.day : Int) < 1 ∨ (daysIn t.month (y : Int) : Int) < t.day) := by omega
  simp only [Parsed.finish, Bool.false_eq_true, false_and, if_false, hmneg, hdneg, Int.toNat_natCast, hd, ne_eq, ho,
    not_false_eq_true, if_true]
  obtain ⟨ty, tm, td, th, ti, ts, tn, tl⟩ := t
  simp only at hy hn hl
  subst hy hn hl
  rfl

theorem parse_isoZone (loc : LocalZone) {t : Time} {y mo d hh mi se zh zm : Bytes} {sign : UInt8} {n za zb : Nat} (hn : t.nsec = 0)
    (hy : t.year = n) (hd : 1 ≤ t.month ∧ t.month ≤ 12 ∧ 1 ≤ t.day ∧ t.day ≤ daysIn t.month (n : Int)) (h5 : t.hour < 24)
    (h6 : t.min < 60) (h7 : t.sec < 60) (l1 : y.length = 4)
    (l2 : mo.length = 2) (l3 : d.length = 2) (l4 : hh.length = 2) (l5 : mi.length = 2) (l6 : se.length = 2) (l7 : zh.length = 2)
    (l8 : zm.length = 2) (e1 : (∀ c ∈ y, isDigit c = true) ∧ digitsVal y = n)
    (e2 : (∀ c ∈ mo, isDigit c = true) ∧ digitsVal mo = t.month) (e3 : (∀ c ∈ d, isDigit c = true) ∧ digitsVal d = t.day)
    (e4 : (∀ c ∈ hh, isDigit c = true) ∧ digitsVal hh = t.hour) (e5 : (∀ c ∈ mi, isDigit c = true) ∧ digitsVal mi = t.min)
    (e6 : (∀ c ∈ se, isDigit c = true) ∧ digitsVal se = t.sec) (e7 : (∀ c ∈ zh, isDigit c = true) ∧ digitsVal zh = za)
    (e8 : (∀ c ∈ zm, isDigit c = true) ∧ digitsVal zm = zb) (hza : za ≤ 24) (hzb : zb ≤ 60)
    (hz : (sign = 43 ∧ t.loc = .zone (3600 * za + 60 * zb)) ∨ (sign = 45 ∧ t.loc = .zone (-(3600 * za + 60 * zb : Int)))) :
    isoZoneLayout.parse loc (y ++ 45 :: (mo ++ 45 :: (d ++ 84 :: (hh ++ 58 :: (mi ++ 58 :: (se ++ sign :: (zh ++ 58 :: zm))))))) =
      some t := by
  obtain ⟨h1, h2, h3, h4⟩ := hd
  have hsign : sign = 43 ∨ sign = 45 := hz.imp (·.1) (·.1)
  have hsg : (sign :: (zh ++ 58 :: zm)).head? ≠ some 46 ∧ (sign :: (zh ++ 58 :: zm)).head? ≠ some 44 := by
    rcases hsign with rfl | rfl <;> simp
  have ho : ∃ o : Int, ((sign = 43 ∧ o = 3600 * za + 60 * zb) ∨ (sign = 45 ∧ o = -(3600 * za + 60 * zb : Int))) ∧ ¬ o = -1 ∧
      t.loc = .zone o := by
    rcases hz with ⟨h, h'⟩ | ⟨h, h'⟩
    · exact ⟨_, Or.inl ⟨h, rfl⟩, by omega, h'⟩
    · exact ⟨_, Or.inr ⟨h, rfl⟩, by omega, h'⟩
  obtain ⟨o, ho1, ho2, hl⟩ := ho
  unfold DateLayout.parse isoZoneLayout
  simp only
  rw [elems_year (skip_nil _) l1 e1.1 e1.2, elems_num (skip_one (by decide) _) (fun _ _ => rfl) l2 e2.1 e2.2,
    if_neg (by omega), elems_num (skip_one (by decide) _) (fun _ _ => rfl) l3 e3.1 e3.2,
    if_neg (by have := daysIn_le t.month (n : Int); omega),
    elems_num (skip_one (by decide) _) (fun _ _ => rfl) l4 e4.1 e4.2,
    if_neg (by omega), elems_num (skip_one (by decide) _) (fun _ _ => rfl) l5 e5.1 e5.2,
    if_neg (by omega), elems_second (skip_one (by decide) _) l6 e6.1 e6.2 hsg,
    if_neg (by omega), elems_zone (rest := []) (by rw [List.append_nil]; exact skip_nil _) l7 l8 e7.1 e8.1 e7.2 e8.2 hza hzb ho1,
    elems_end (skip_nil _)]
  exact finish_zone loc hy hn hl ho2 h3 h4

theorem parseDate_isoZone (loc : LocalZone) {s : Bytes} {t : Time} (hp : Spec.ExistingTime t) (hn : t.nsec = 0)
    (h : Spec.IsoZoneText s t) : parseDate loc s = some t := by
  obtain ⟨y, mo, d, hh, mi, se, zh, zm, sign, za, zb, rfl, l1, l2, l3, l4, l5, l6, l7, l8, ⟨n, hy, e1⟩, e2, e3, e4, e5, e6, e7, e8,
    hza, hzb, hz⟩ := h
  rw [spec_decimal_iff] at e1 e2 e3 e4 e5 e6 e7 e8
  obtain ⟨y', hy', hy9, hday, h5, h6, h7⟩ := hp
  have : y' = n := by omega
  subst this
  obtain ⟨h1, h2, h3, h4⟩ := (spec_dayExists_iff _ _ _).1 hday
  have hsign : sign = 43 ∨ sign = 45 := hz.imp (·.1) (·.1)
  simp only [List.append_assoc, List.cons_append, List.nil_append]
  have hs : shaped (isoZoneShape sign)
      (y ++ 45 :: (mo ++ 45 :: (d ++ 84 :: (hh ++ 58 :: (mi ++ 58 :: (se ++ sign :: (zh ++ 58 :: zm))))))) = true :=
    shaped_append (shaped_digits l1 e1.1) (shaped_append (s := [45]) (by decide) (shaped_append (shaped_digits l2 e2.1)
      (shaped_append (s := [45]) (by decide) (shaped_append (shaped_digits l3 e3.1) (shaped_append (s := [84]) (by decide)
        (shaped_append (shaped_digits l4 e4.1) (shaped_append (s := [58]) (by decide) (shaped_append (shaped_digits l5 e5.1)
          (shaped_append (s := [58]) (by decide) (shaped_append (shaped_digits l6 e6.1)
            (shaped_append (s := [sign]) (by simp [shaped, Cls.has]) (shaped_append (shaped_digits l7 e7.1)
              (shaped_append (s := [58]) (by decide) (shaped_digits l8 e8.1))))))))))))))
  obtain ⟨c, hc, hcd⟩ := head_digits
    (r := 45 :: (mo ++ 45 :: (d ++ 84 :: (hh ++ 58 :: (mi ++ 58 :: (se ++ sign :: (zh ++ 58 :: zm))))))) l1 e1.1
  obtain ⟨fs, hfs⟩ := isoZone_filter hsign
  have hlast : ∃ c, (y ++ 45 :: (mo ++ 45 :: (d ++ 84 :: (hh ++ 58 :: (mi ++ 58 :: (se ++ sign :: (zh ++ 58 :: zm))))))).getLast? =
      some c ∧ isDigit c = true := by
    have := last_digits (r := y ++ 45 :: (mo ++ 45 :: (d ++ 84 :: (hh ++ 58 :: (mi ++ 58 :: (se ++ sign :: (zh ++ [58]))))))) l8 e8.1
    simpa only [List.append_assoc, List.cons_append, List.nil_append] using this
  obtain ⟨c', hc', hcd'⟩ := hlast
  rw [parseDate_shaped hs hfs hc hc' (digit_visible hcd) (digit_visible hcd'), parseFirst]
  rw [isoZoneLayout_eq, parse_isoZone loc hn hy ⟨h1, h2, h3, h4⟩ h5 h6 h7 l1 l2 l3 l4 l5 l6 l7 l8 e1 e2 e3 e4 e5 e6 e7 e8 hza hzb hz]

/-! ### Numeric dates -/

/-- The shape of 01-02-2006. -/
def numberShape (sep : UInt8) : List Cls :=
  List.replicate 2 .dig ++ ([.is sep] ++ (List.replicate 2 .dig ++ ([.is sep] ++ List.replicate 4 .dig)))

theorem finish_day (loc : LocalZone) {m d y : Nat} (hm : 1 ≤ m) (a : Parsed) (ha : a = { year := y, month := m, day := d }) :
    a.finish loc = if d < 1 ∨ daysIn m (y : Int) < d then none else some (Spec.dayOf m d y) := by
  subst ha
  have hmneg : ¬ (m : Int) < 0 := by omega
  have hdneg : ¬ (d : Int) < 0 := by omega
  simp only [Parsed.finish, Bool.false_eq_true, false_and, if_false, hmneg, hdneg, Int.toNat_natCast, ne_eq, not_true_eq_false]
  by_cases h : d < 1 ∨ daysIn m (y : Int) < d
  · rw [if_pos h, if_pos (by omega)]
  · rw [if_neg h, if_neg (by omega)]; rfl

/-- A layout month-first. -/
theorem parse_monthFirst (loc : LocalZone) {sep : UInt8} (hsep : sep ≠ 32) {e1 e2 : Elem} {f1 : Bool}
    (he1 : ∀ a s next, parseElem a s next e1 = parseNum f1 1 12 (fun m => { a with month := m }) s)
    {f2 : Bool} (he2 : ∀ a s next, parseElem a s next e2 = parseNum f2 0 99 (fun m => { a with day := m }) s)
    {sa sb sy : Bytes} {a b y : Nat} (l1 : sa.length = 2) (l2 : sb.length = 2) (l3 : sy.length = 4)
    (d1 : ∀ c ∈ sa, isDigit c = true) (d2 : ∀ c ∈ sb, isDigit c = true) (d3 : ∀ c ∈ sy, isDigit c = true)
    (v1 : digitsVal sa = a) (v2 : digitsVal sb = b) (v3 : digitsVal sy = y) :
    DateLayout.parse loc ⟨[([], e1), ([sep], e2), ([sep], .longYear)], []⟩ (sa ++ sep :: (sb ++ sep :: sy)) =
      if 1 ≤ a ∧ a ≤ 12 ∧ 1 ≤ b ∧ b ≤ daysIn a (y : Int) then some (Spec.dayOf a b y) else none := by
  have hb : b ≤ 99 := by
    have := digitsVal_lt sb d2
    rw [l2, v2] at this
    omega
  unfold DateLayout.parse
  simp only
  rw [elems_num (skip_nil _) (he1 _) l1 d1 v1]
  by_cases ha : a < 1 ∨ 12 < a
  · rw [if_pos ha, if_neg (by omega)]
  · rw [if_neg ha, elems_num (skip_one hsep _) (he2 _) l2 d2 v2, if_neg (by omega),
      elems_year (rest := []) (by rw [List.append_nil]; exact skip_one hsep _) l3 d3 v3, elems_end (skip_nil _)]
    simp only
    rw [finish_day loc (m := a) (d := b) (y := y) (by omega) _ rfl]
    by_cases h : b < 1 ∨ daysIn a (y : Int) < b
    · rw [if_pos h, if_neg (by omega)]
    · rw [if_neg h, if_pos (by omega)]

/-- A layout day-first. -/
theorem parse_dayFirst (loc : LocalZone) {sep : UInt8} (hsep : sep ≠ 32) {e1 e2 : Elem} {f1 : Bool}
    (he1 : ∀ a s next, parseElem a s next e1 = parseNum f1 0 99 (fun m => { a with day := m }) s)
    {f2 : Bool} (he2 : ∀ a s next, parseElem a s next e2 = parseNum f2 1 12 (fun m => { a with month := m }) s)
    {sa sb sy : Bytes} {a b y : Nat} (l1 : sa.length = 2) (l2 : sb.length = 2) (l3 : sy.length = 4)
    (d1 : ∀ c ∈ sa, isDigit c = true) (d2 : ∀ c ∈ sb, isDigit c = true) (d3 : ∀ c ∈ sy, isDigit c = true)
    (v1 : digitsVal sa = a) (v2 : digitsVal sb = b) (v3 : digitsVal sy = y) :
    DateLayout.parse loc ⟨[([], e1), ([sep], e2), ([sep], .longYear)], []⟩ (sa ++ sep :: (sb ++ sep :: sy)) =
      if 1 ≤ b ∧ b ≤ 12 ∧ 1 ≤ a ∧ a ≤ daysIn b (y : Int) then some (Spec.dayOf b a y) else none := by
  have ha : a ≤ 99 := by
    have := digitsVal_lt sa d1
    rw [l1, v1] at this
    omega
  unfold DateLayout.parse
  simp only
  rw [elems_num (skip_nil _) (he1 _) l1 d1 v1, if_neg (by omega), elems_num (skip_one hsep _) (he2 _) l2 d2 v2]
  by_cases hb : b < 1 ∨ 12 < b
  · rw [if_pos hb, if_neg (by omega)]
  · rw [if_neg hb,
      elems_year (rest := []) (by rw [List.append_nil]; exact skip_one hsep _) l3 d3 v3, elems_end (skip_nil _)]
    simp only
    rw [finish_day loc (m := b) (d := a) (y := y) (by omega) _ rfl]
    by_cases h : a < 1 ∨ daysIn b (y : Int) < a
    · rw [if_pos h, if_neg (by omega)]
    · rw [if_neg h, if_pos (by omega)]

/-- Month-first wins over day-first. -/
theorem parseDate_number (loc : LocalZone) {sep : UInt8} (hsep : sep = 45 ∨ sep = 47) {s : Bytes} {a b y : Nat}
    (h : Spec.NumberText sep s a b y) :
    parseDate loc s =
      if 1 ≤ a ∧ a ≤ 12 ∧ 1 ≤ b ∧ b ≤ daysIn a (y : Int) then some (Spec.dayOf a b y)
      else if 1 ≤ b ∧ b ≤ 12 ∧ 1 ≤ a ∧ a ≤ daysIn b (y : Int) then some (Spec.dayOf b a y) else none := by
  obtain ⟨sa, sb, sy, rfl, l1, l2, l3, e1, e2, e3⟩ := h
  rw [spec_decimal_iff] at e1 e2 e3
  simp only [List.append_assoc, List.cons_append, List.nil_append]
  have hs : shaped (numberShape sep) (sa ++ sep :: (sb ++ sep :: sy)) = true :=
    shaped_append (shaped_digits l1 e1.1) (shaped_append (s := [sep]) (by simp [shaped, Cls.has])
      (shaped_append (shaped_digits l2 e2.1) (shaped_append (s := [sep]) (by simp [shaped, Cls.has]) (shaped_digits l3 e3.1))))
  obtain ⟨c, hc, hcd⟩ := head_digits (r := sep :: (sb ++ sep :: sy)) l1 e1.1
  have hlast : ∃ c, (sa ++ sep :: (sb ++ sep :: sy)).getLast? = some c ∧ isDigit c = true := by
    have := last_digits (r := sa ++ sep :: (sb ++ [sep])) l3 e3.1
    simpa only [List.append_assoc, List.cons_append, List.nil_append] using this
  obtain ⟨c', hc', hcd'⟩ := hlast
  have hsp : sep ≠ 32 := by rcases hsep with rfl | rfl <;> decide
  have m1 := parse_monthFirst loc hsp (e1 := .zeroMonth) (e2 := .zeroDay) (fun _ _ _ => rfl) (fun _ _ _ => rfl) l1 l2 l3
    e1.1 e2.1 e3.1 e1.2 e2.2 e3.2
  have m2 := parse_dayFirst loc hsp (e1 := .zeroDay) (e2 := .zeroMonth) (fun _ _ _ => rfl) (fun _ _ _ => rfl) l1 l2 l3
    e1.1 e2.1 e3.1 e1.2 e2.2 e3.2
  have m3 := parse_monthFirst loc hsp (e1 := .numMonth) (e2 := .day) (fun _ _ _ => rfl) (fun _ _ _ => rfl) l1 l2 l3
    e1.1 e2.1 e3.1 e1.2 e2.2 e3.2
  have m4 := parse_dayFirst loc hsp (e1 := .day) (e2 := .numMonth) (fun _ _ _ => rfl) (fun _ _ _ => rfl) l1 l2 l3
    e1.1 e2.1 e3.1 e1.2 e2.2 e3.2
  rcases hsep with rfl | rfl
  · have hf : (dateFormats.filter fun f => !Refuses (numberShape 45) f) = [b! "01-02-2006", b! "02-01-2006", b! "2-1-2006"] := by
      decide +kernel
    have k1 : DateLayout.of (b! "01-02-2006") = ⟨[([], .zeroMonth), ([45], .zeroDay), ([45], .longYear)], []⟩ := by decide +kernel
    have k2 : DateLayout.of (b! "02-01-2006") = ⟨[([], .zeroDay), ([45], .zeroMonth), ([45], .longYear)], []⟩ := by decide +kernel
    have k4 : DateLayout.of (b! "2-1-2006") = ⟨[([], .day), ([45], .numMonth), ([45], .longYear)], []⟩ := by decide +kernel
    rw [parseDate_shaped hs hf hc hc' (digit_visible hcd) (digit_visible hcd')]
    simp only [parseFirst]
    rw [k1, k2, k4, m1, m2, m4]
    by_cases q1 : 1 ≤ a ∧ a ≤ 12 ∧ 1 ≤ b ∧ b ≤ daysIn a (y : Int)
    · simp only [if_pos q1]
    · by_cases q2 : 1 ≤ b ∧ b ≤ 12 ∧ 1 ≤ a ∧ a ≤ daysIn b (y : Int)
      · simp only [if_neg q1, if_pos q2]
      · simp only [if_neg q1, if_neg q2]
  · have hf : (dateFormats.filter fun f => !Refuses (numberShape 47) f) =
        [b! "01/02/2006", b! "02/01/2006", b! "1/2/2006", b! "2/1/2006"] := by
      decide +kernel
    have k1 : DateLayout.of (b! "01/02/2006") = ⟨[([], .zeroMonth), ([47], .zeroDay), ([47], .longYear)], []⟩ := by decide +kernel
    have k2 : DateLayout.of (b! "02/01/2006") = ⟨[([], .zeroDay), ([47], .zeroMonth), ([47], .longYear)], []⟩ := by decide +kernel
    have k3 : DateLayout.of (b! "1/2/2006") = ⟨[([], .numMonth), ([47], .day), ([47], .longYear)], []⟩ := by decide +kernel
    have k4 : DateLayout.of (b! "2/1/2006") = ⟨[([], .day), ([47], .numMonth), ([47], .longYear)], []⟩ := by decide +kernel
    rw [parseDate_shaped hs hf hc hc' (digit_visible hcd) (digit_visible hcd')]
    simp only [parseFirst]
    rw [k1, k2, k3, k4, m1, m2, m3, m4]
    by_cases q1 : 1 ≤ a ∧ a ≤ 12 ∧ 1 ≤ b ∧ b ≤ daysIn a (y : Int)
    · simp only [if_pos q1]
    · by_cases q2 : 1 ≤ b ∧ b ≤ 12 ∧ 1 ≤ a ∧ a ≤ daysIn b (y : Int)
      · simp only [if_neg q1, if_pos q2]
      · simp only [if_neg q1, if_neg q2]

/-! ### A time of twelve hours -/

/-- The shape of 01/02/2006 03:04 PM. -/
def clockShape (x : UInt8) : List Cls :=
  List.replicate 2 .dig ++ ([.is 47] ++ (List.replicate 2 .dig ++ ([.is 47] ++ (List.replicate 4 .dig ++ ([.is 32] ++
    (List.replicate 2 .dig ++ ([.is 58] ++ (List.replicate 2 .dig ++ ([.is 32] ++ [.is x, .is 77])))))))))

theorem skip_space {c : UInt8} (h : c ≠ 32) (v : Bytes) : skip [32] (32 :: c :: v) = some (c :: v) := by
  simp [skip, skipAux, cutspace, h]

theorem skip_space_digits {d : Bytes} {n : Nat} (hl : d.length = n + 1) (hd : ∀ c ∈ d, isDigit c = true) (v : Bytes) :
    skip [32] (32 :: (d ++ v)) = some (d ++ v) := by
  cases d with
  | nil => simp at hl
  | cons c d =>
    exact skip_space (by
      intro h
      have := (digit_visible (hd c (by simp))).1
      rw [h] at this
      exact absurd this (by decide)) _

/-- The end of a text in the layout of the zone name. -/
theorem elems_tz_short {final : Bytes} {a : Parsed} {x : UInt8} (hx : x ≠ 32) :
    parseElems final a [32, x, 77] [([32], .tz)] = none := by
  rw [parseElems, skip_space hx]
  have : parseElem a [x, 77] none .tz = none := by
    unfold parseElem
    have h : ¬ (List.take 3 [x, 77] = b! "UTC") := by
      intro h
      simp at h
    rw [if_neg h]
    rfl
  simp only [List.head?_nil, Option.map_none, this]

theorem elems_half {final : Bytes} {a : Parsed} {pm : Bool} (hf : final = []) :
    parseElems final a [32, if pm then 80 else 65, 77] [([32], .upperPM)] =
      some (if pm then { a with pm := true } else { a with am := true }) := by
  subst hf
  cases pm <;> rfl

/-- Morning and afternoon. -/
theorem finish_clock (loc : LocalZone) {m d y h i : Nat} {pm : Bool} (hm : 1 ≤ m) (hh : h ≤ 12) (a : Parsed)
    (ha : a = if pm then { year := y, month := m, day := d, hour := h, min := i, pm := true }
      else { year := y, month := m, day := d, hour := h, min := i, am := true }) :
    a.finish loc = if d < 1 ∨ daysIn m (y : Int) < d then none
      else some { Spec.dayOf m d y with hour := Spec.dayHour h pm, min := i } := by
  have hmneg : ¬ (m : Int) < 0 := by omega
  have hdneg : ¬ (d : Int) < 0 := by omega
  have hq : Spec.dayHour h pm = (if pm = true ∧ h < 12 then h + 12 else if (!pm) = true ∧ h = 12 then 0 else h) := by
    unfold Spec.dayHour
    cases pm
    · simp only [Bool.false_eq_true, false_and, if_false, Bool.not_false, true_and]
      split <;> omega
    · simp only [Bool.not_true, Bool.false_eq_true, false_and, true_and, if_true, if_false]
      split <;> omega
  rw [hq]
  subst ha
  cases pm <;>
    simp only [Parsed.finish, Bool.false_eq_true, false_and, true_and, if_true, if_false, hmneg, hdneg, Int.toNat_natCast, ne_eq,
      not_true_eq_false, Bool.not_true, Bool.not_false]
  all_goals
    by_cases h : d < 1 ∨ daysIn m (y : Int) < d
    · rw [if_pos h, if_pos (by omega)]
    · rw [if_neg h, if_neg (by omega)]; rfl

theorem parseDate_clock (loc : LocalZone) {s : Bytes} {a b y h m : Nat} {pm : Bool} (ht : Spec.TwelveHourText s a b y h m pm) :
    parseDate loc s =
      if (1 ≤ a ∧ a ≤ 12 ∧ 1 ≤ b ∧ b ≤ daysIn a (y : Int)) ∧ h ≤ 12 ∧ m ≤ 59
        then some { Spec.dayOf a b y with hour := Spec.dayHour h pm, min := m } else none := by
  obtain ⟨sa, sb, sy, sh, sm, rfl, l1, l2, l3, l4, l5, e1, e2, e3, e4, e5⟩ := ht
  rw [spec_decimal_iff] at e1 e2 e3 e4 e5
  simp only [List.append_assoc, List.cons_append, List.nil_append]
  have hx : (if pm then 80 else 65 : UInt8) ≠ 32 := by cases pm <;> decide
  have hlay : DateLayout.of (b! "01/02/2006 3:04 PM") =
      ⟨[([], .zeroMonth), ([47], .zeroDay), ([47], .longYear), ([32], .hour12), ([58], .zeroMinute), ([32], .upperPM)], []⟩ := by
    decide +kernel
  have hlay2 : DateLayout.of (b! "02/01/2006 15:04 MST") =
      ⟨[([], .zeroDay), ([47], .zeroMonth), ([47], .longYear), ([32], .hour), ([58], .zeroMinute), ([32], .tz)], []⟩ := by
    decide +kernel
  have hs : shaped (clockShape (if pm then 80 else 65))
      (sa ++ 47 :: (sb ++ 47 :: (sy ++ 32 :: (sh ++ 58 :: (sm ++ [32, if pm then 80 else 65, 77]))))) = true :=
    shaped_append (shaped_digits l1 e1.1) (shaped_append (s := [47]) (by decide) (shaped_append (shaped_digits l2 e2.1)
      (shaped_append (s := [47]) (by decide) (shaped_append (shaped_digits l3 e3.1) (shaped_append (s := [32]) (by decide)
        (shaped_append (shaped_digits l4 e4.1) (shaped_append (s := [58]) (by decide) (shaped_append (shaped_digits l5 e5.1)
          (shaped_append (s := [32]) (by decide) (t := [if pm then 80 else 65, 77]) (by cases pm <;> decide))))))))))
  have hfil : (dateFormats.filter fun f => !Refuses (clockShape (if pm then 80 else 65)) f) =
      [b! "01/02/2006 3:04 PM", b! "02/01/2006 15:04 MST"] := by
    cases pm <;> decide +kernel
  obtain ⟨c, hc, hcd⟩ := head_digits
    (r := 47 :: (sb ++ 47 :: (sy ++ 32 :: (sh ++ 58 :: (sm ++ [32, if pm then 80 else 65, 77]))))) l1 e1.1
  have hlast : (sa ++ 47 :: (sb ++ 47 :: (sy ++ 32 :: (sh ++ 58 :: (sm ++ [32, if pm then 80 else 65, 77]))))).getLast? =
      some (77 : UInt8) := by
    simp [List.getLast?_append, List.getLast?_cons]
  rw [parseDate_shaped hs hfil hc hlast (digit_visible hcd) (by decide)]
  simp only [parseFirst, hlay, hlay2]
  have hb : b ≤ 99 := by
    have := digitsVal_lt sb e2.1
    rw [l2, e2.2] at this
    omega
  have ha : a ≤ 99 := by
    have := digitsVal_lt sa e1.1
    rw [l1, e1.2] at this
    omega
  have p1 : DateLayout.parse loc
      ⟨[([], .zeroMonth), ([47], .zeroDay), ([47], .longYear), ([32], .hour12), ([58], .zeroMinute), ([32], .upperPM)], []⟩
      (sa ++ 47 :: (sb ++ 47 :: (sy ++ 32 :: (sh ++ 58 :: (sm ++ [32, if pm then 80 else 65, 77]))))) =
      if (1 ≤ a ∧ a ≤ 12 ∧ 1 ≤ b ∧ b ≤ daysIn a (y : Int)) ∧ h ≤ 12 ∧ m ≤ 59
        then some { Spec.dayOf a b y with hour := Spec.dayHour h pm, min := m } else none := by
    unfold DateLayout.parse
    simp only
    rw [elems_num (skip_nil _) (fun _ _ => rfl) l1 e1.1 e1.2]
    by_cases q1 : a < 1 ∨ 12 < a
    · rw [if_pos q1, if_neg (by omega)]
    · rw [if_neg q1, elems_num (skip_one (by decide) _) (fun _ _ => rfl) l2 e2.1 e2.2, if_neg (by omega),
        elems_year (skip_one (by decide) _) l3 e3.1 e3.2,
        elems_num (skip_space_digits l4 e4.1 _) (fun _ _ => rfl) l4 e4.1 e4.2]
      by_cases q2 : h < 0 ∨ 12 < h
      · rw [if_pos q2, if_neg (by omega)]
      · rw [if_neg q2, elems_num (skip_one (by decide) _) (fun _ _ => rfl) l5 e5.1 e5.2]
        by_cases q3 : m < 0 ∨ 59 < m
        · rw [if_pos q3, if_neg (by omega)]
        · rw [if_neg q3, elems_half rfl]
          simp only
          rw [finish_clock loc (m := a) (d := b) (y := y) (h := h) (i := m) (pm := pm) (by omega) (by omega) _ rfl]
          by_cases q4 : b < 1 ∨ daysIn a (y : Int) < b
          · rw [if_pos q4, if_neg (by omega)]
          · rw [if_neg q4, if_pos (by omega)]
  have p2 : DateLayout.parse loc
      ⟨[([], .zeroDay), ([47], .zeroMonth), ([47], .longYear), ([32], .hour), ([58], .zeroMinute), ([32], .tz)], []⟩
      (sa ++ 47 :: (sb ++ 47 :: (sy ++ 32 :: (sh ++ 58 :: (sm ++ [32, if pm then 80 else 65, 77]))))) = none := by
    unfold DateLayout.parse
    simp only
    rw [elems_num (skip_nil _) (fun _ _ => rfl) l1 e1.1 e1.2, if_neg (by omega),
      elems_num (skip_one (by decide) _) (fun _ _ => rfl) l2 e2.1 e2.2]
    by_cases q1 : b < 1 ∨ 12 < b
    · rw [if_pos q1]
    · rw [if_neg q1, elems_year (skip_one (by decide) _) l3 e3.1 e3.2,
        elems_num (skip_space_digits l4 e4.1 _) (fun _ _ => rfl) l4 e4.1 e4.2]
      by_cases q2 : h < 0 ∨ 23 < h
      · rw [if_pos q2]
      · rw [if_neg q2, elems_num (skip_one (by decide) _) (fun _ _ => rfl) l5 e5.1 e5.2]
        by_cases q3 : m < 0 ∨ 59 < m
        · rw [if_pos q3]
        · rw [if_neg q3, elems_tz_short hx]
  rw [p1, p2]
  split <;> simp_all

/-- Texts of digits alone are refused. -/
theorem parseDate_digits (loc : LocalZone) {s : Bytes} (hd : ∀ c ∈ s, isDigit c = true) (hl : s.length = 8 ∨ s.length = 14) :
    parseDate loc s = none := by
  have hv : ∀ n, s.length = n + 1 →
      ∃ c d, s.head? = some c ∧ s.getLast? = some d ∧ isDigit c = true ∧ isDigit d = true := by
    intro n hn
    obtain ⟨c, h1, h2⟩ := head_digits (r := []) hn hd
    obtain ⟨d, h3, h4⟩ := last_digits (r := []) hn hd
    rw [List.append_nil] at h1
    exact ⟨c, d, h1, h3, h2, h4⟩
  rcases hl with hl | hl
  · obtain ⟨c, d, h1, h2, h3, h4⟩ := hv 7 hl
    rw [parseDate_shaped (shaped_digits hl hd) (fs := []) (by decide +kernel) h1 h2 (digit_visible h3) (digit_visible h4)]
    rfl
  · obtain ⟨c, d, h1, h2, h3, h4⟩ := hv 13 hl
    rw [parseDate_shaped (shaped_digits hl hd) (fs := []) (by decide +kernel) h1 h2 (digit_visible h3) (digit_visible h4)]
    rfl

end Metro2
