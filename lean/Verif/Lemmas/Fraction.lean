import Verif.Lemmas.Client
import Verif.Spec.ClientTime

/-! Texts of times with fractions of a second. -/

namespace Metro2

/-! ### Reading seconds with a fraction -/

/-- The byte does not go on with a fraction. -/
def endsFraction (s : Bytes) : Bool :=
  match s with
  | [] => true
  | c :: _ => c != 46 && c != 44 && !isDigit c

theorem digitRun_append {d rest : Bytes} (hd : ∀ c ∈ d, isDigit c = true) (hr : endsFraction rest = true) : digitRun (d ++ rest) = d.length := by
  induction d with
  | nil =>
    cases rest with
    | nil => rfl
    | cons c r =>
      simp only [endsFraction, Bool.and_eq_true, Bool.not_eq_true'] at hr
      simp [digitRun, List.takeWhile_cons, hr.2]
  | cons c d ih =>
    have := ih fun c hc => hd c (by simp [hc])
    unfold digitRun at this ⊢
    rw [List.cons_append, List.takeWhile_cons, if_pos (hd c (by simp)), List.length_cons, List.length_cons, this]

/-- Seconds with a fraction or without. -/
theorem elems_fraction {final pre : Bytes} {es : List (Bytes × Elem)} {a : Parsed} {v d fr rest : Bytes} {n ns : Nat}
    (hpre : skip pre v = some (d ++ (fr ++ rest))) (hl : d.length = 2) (hd : ∀ c ∈ d, isDigit c = true)
    (hn : digitsVal d = n) (hf : Spec.FractionText fr ns) (hr : endsFraction rest = true) (ha : a.nsec = 0)
    (hes : ∀ k, es.head?.map (·.2) ≠ some (.frac0 k)) :
    parseElems final a v ((pre, .zeroSecond) :: es) =
      if 60 ≤ n then none else parseElems final { a with sec := n, nsec := ns } rest es := by
  rcases hf with ⟨rfl, rfl⟩ | ⟨f, m, rfl, h1, h9, hdec, rfl⟩
  · rw [List.nil_append] at hpre
    have : rest.head? ≠ some 46 ∧ rest.head? ≠ some 44 := by
      cases rest with
      | nil => simp
      | cons c r =>
        simp only [endsFraction, Bool.and_eq_true, bne_iff_ne, ne_eq] at hr
        simp only [List.head?_cons, ne_eq, Option.some.injEq]
        exact ⟨hr.1.1, hr.1.2⟩
    rw [elems_second hpre hl hd hn this]
    obtain ⟨_, _, _, _, _, _, ns, _⟩ := a
    simp only at ha
    subst ha
    rfl
  · subst hn
    rw [spec_decimal_iff] at hdec
    have hrun := digitRun_append hdec.1 hr
    cases f with
    | nil => simp at h1
    | cons e f =>
      have he : isDigit e = true := hdec.1 e (by simp)
      rw [parseElems, hpre]
      simp only [parseElem, parseSeconds, getnum_two true hl hd]
      by_cases h60 : 60 ≤ digitsVal d
      · simp only [if_pos h60]
      · simp only [if_neg h60, List.cons_append]
        rw [List.cons_append] at hrun
        have hnano : parseNano (46 :: e :: (f ++ rest)) (1 + digitRun (e :: (f ++ rest))) = some (m * 10 ^ (9 - (e :: f).length)) := by
          rw [hrun]
          unfold parseNano
          simp only [true_or, not_true_eq_false, if_false]
          have hm : min (1 + (e :: f).length) 10 = (e :: f).length + 1 := by omega
          rw [hm, List.take_succ_cons, List.drop_succ_cons, List.drop_zero, ← List.cons_append, List.take_left', timeAtoi_digits hdec.1]
          · simp only [hdec.2]
            rw [if_neg (by omega), Int.toNat_natCast, show 10 - ((e :: f).length + 1) = 9 - (e :: f).length by omega]
          · rfl
        have hdrop : (46 :: e :: (f ++ rest)).drop (1 + digitRun (e :: (f ++ rest))) = rest := by
          rw [hrun, Nat.add_comm, List.drop_succ_cons, ← List.cons_append, List.drop_left']
          rfl
        simp only [true_or, he, and_self, if_true]
        cases hh : es.head?.map (·.2) with
        | none => simp only [hnano, hdrop]
        | some el =>
          cases el with
          | frac0 k => exact absurd hh (hes k)
          | _ => simp only [hnano, hdrop]

/-! ### Whole texts -/

theorem zoneText_ends {z : Bytes} {l : Loc} (h : Spec.ZoneText z l) : endsFraction z = true := by
  rcases h with ⟨rfl, _⟩ | ⟨sign, zh, zm, a, b, rfl, _, _, _, _, _, _, hs⟩
  · decide
  · rcases hs with ⟨rfl, _⟩ | ⟨rfl, _⟩ <;> rfl

/-- A zone behind everything else. -/
theorem elems_zoneText {l : Loc} {z : Bytes} (h : Spec.ZoneText z l) (a : Parsed) :
    (l = .utc ∧ parseElems [] a z [([], .isoColonTZ)] = some { a with utc := true }) ∨
    ∃ o, l = .zone o ∧ o ≠ -1 ∧ parseElems [] a z [([], .isoColonTZ)] = some { a with offset := o } ∧
      parseElems [] a z [([], .numColonTZ)] = some { a with offset := o } := by
  rcases h with ⟨rfl, rfl⟩ | ⟨sign, zh, zm, za, zb, rfl, l1, l2, e1, e2, h1, h2, hs⟩
  · exact Or.inl ⟨rfl, elems_isoUtc⟩
  · right
    rw [spec_decimal_iff] at e1 e2
    have hsign : sign = 43 ∨ sign = 45 := hs.imp (·.1) (·.1)
    have ho : ∃ o : Int, ((sign = 43 ∧ o = 3600 * za + 60 * zb) ∨ (sign = 45 ∧ o = -(3600 * za + 60 * zb : Int))) ∧ o ≠ -1 ∧
        l = .zone o := by
      rcases hs with ⟨h, h'⟩ | ⟨h, h'⟩
      · exact ⟨_, Or.inl ⟨h, rfl⟩, by omega, h'⟩
      · exact ⟨_, Or.inr ⟨h, rfl⟩, by omega, h'⟩
    obtain ⟨o, ho1, ho2, hl⟩ := ho
    simp only [List.append_assoc, List.cons_append, List.nil_append]
    have hz := elems_zone (final := []) (pre := []) (es := []) (a := a) (rest := []) (v := sign :: (zh ++ 58 :: zm))
      (by rw [List.append_nil]; exact skip_nil _) l1 l2 e1.1 e2.1 e1.2 e2.2 h1 h2 ho1
    rw [elems_end (skip_nil _)] at hz
    exact ⟨o, hl, ho2, by rw [elems_isoZone hsign, hz], hz⟩

/-- The elements before the zone. -/
def clockElems : List (Bytes × Elem) :=
  [([], .longYear), ([45], .zeroMonth), ([45], .zeroDay), ([84], .hour), ([58], .zeroMinute), ([58], .zeroSecond)]

theorem elems_clock {t : Time} {y mo d hh mi se fr z : Bytes} {n : Nat} (hd : 1 ≤ t.month ∧ t.month ≤ 12 ∧ 1 ≤ t.day ∧ t.day ≤ daysIn t.month (n : Int))
    (h5 : t.hour < 24) (h6 : t.min < 60) (h7 : t.sec < 60) (l1 : y.length = 4)
    (l2 : mo.length = 2) (l3 : d.length = 2) (l4 : hh.length = 2) (l5 : mi.length = 2) (l6 : se.length = 2)
    (e1 : (∀ c ∈ y, isDigit c = true) ∧ digitsVal y = n)
    (e2 : (∀ c ∈ mo, isDigit c = true) ∧ digitsVal mo = t.month) (e3 : (∀ c ∈ d, isDigit c = true) ∧ digitsVal d = t.day)
    (e4 : (∀ c ∈ hh, isDigit c = true) ∧ digitsVal hh = t.hour) (e5 : (∀ c ∈ mi, isDigit c = true) ∧ digitsVal mi = t.min)
    (e6 : (∀ c ∈ se, isDigit c = true) ∧ digitsVal se = t.sec) (hf : Spec.FractionText fr t.nsec) (hz : endsFraction z = true)
    (final : Bytes) (es : List (Bytes × Elem)) (hes : ∀ k, es.head?.map (·.2) ≠ some (.frac0 k)) :
    parseElems final {} (y ++ 45 :: (mo ++ 45 :: (d ++ 84 :: (hh ++ 58 :: (mi ++ 58 :: (se ++ (fr ++ z))))))) (clockElems ++ es) =
      parseElems final { year := n, month := t.month, day := t.day, hour := t.hour, min := t.min, sec := t.sec, nsec := t.nsec } z es := by
  obtain ⟨h1, h2, h3, h4⟩ := hd
  unfold clockElems
  simp only [List.cons_append, List.nil_append]
  rw [elems_year (skip_nil _) l1 e1.1 e1.2, elems_num (skip_one (by decide) _) (fun _ _ => rfl) l2 e2.1 e2.2,
    if_neg (by omega), elems_num (skip_one (by decide) _) (fun _ _ => rfl) l3 e3.1 e3.2,
    if_neg (by have := daysIn_le t.month (n : Int); omega),
    elems_num (skip_one (by decide) _) (fun _ _ => rfl) l4 e4.1 e4.2,
    if_neg (by omega), elems_num (skip_one (by decide) _) (fun _ _ => rfl) l5 e5.1 e5.2,
    if_neg (by omega), elems_fraction (skip_one (by decide) _) l6 e6.1 e6.2 hf hz rfl hes, if_neg (by omega)]

theorem finish_utc (loc : LocalZone) {t : Time} {y : Nat} (utc : Bool) (hy : t.year = y) (hl : t.loc = .utc)
    (h3 : 1 ≤ t.day) (h4 : t.day ≤ daysIn t.month (y : Int)) :
    Parsed.finish loc { year := y, month := t.month, day := t.day, hour := t.hour, min := t.min, sec := t.sec, nsec := t.nsec, utc := utc } =
      some t := by
  have hmneg : ¬ (t.month : Int) < 0 := by omega
  have hdneg : ¬ (t.day : Int) < 0 := by omega
  have hd : ¬ ((t.day : Int) < 1 ∨ (daysIn t.month (y : Int) : Int) < t.day) := by omega
  obtain ⟨ty, tm, td, th, ti, ts, tn, tl⟩ := t
  simp only at hy hl hmneg hdneg hd
  subst hy hl
  cases utc
  · simp only [Parsed.finish, Bool.false_eq_true, false_and, if_false, hmneg, hdneg, Int.toNat_natCast, hd, ne_eq, not_true_eq_false]
  · simp only [Parsed.finish, Bool.false_eq_true, false_and, if_false, hmneg, hdneg, Int.toNat_natCast, hd, if_true]

theorem finish_offset (loc : LocalZone) {t : Time} {y : Nat} {o : Int} (hy : t.year = y) (hl : t.loc = .zone o)
    (ho : ¬ o = -1) (h3 : 1 ≤ t.day) (h4 : t.day ≤ daysIn t.month (y : Int)) :
    Parsed.finish loc { year := y, month := t.month, day := t.day, hour := t.hour, min := t.min, sec := t.sec, nsec := t.nsec, offset := o } =
      some t := by
  have hmneg : ¬ (t.month : Int) < 0 := by omega
  have hdneg : ¬ (t.day : Int) < 0 := by omega
  have hd : ¬ ((t.day : Int) < 1 ∨ (daysIn t.month (y : Int) : Int) < t.day) := by omega
  simp only [Parsed.finish, Bool.false_eq_true, false_and, if_false, hmneg, hdneg, Int.toNat_natCast, hd, ne_eq, ho,
    not_false_eq_true, if_true]
  obtain ⟨ty, tm, td, th, ti, ts, tn, tl⟩ := t
  simp only at hy hl
  subst hy hl
  rfl

/-- `time.Parse` with RFC 3339. -/
theorem rfcLayout_instant (loc : LocalZone) {s : Bytes} {t : Time} (hp : Spec.ExistingTime t) (h : Spec.InstantText s t) :
    rfcLayout.parse loc s = some t := by
  obtain ⟨y, mo, d, hh, mi, se, fr, z, rfl, l1, l2, l3, l4, l5, l6, ⟨n, hy, e1⟩, e2, e3, e4, e5, e6, hf, hz⟩ := h
  rw [spec_decimal_iff] at e1 e2 e3 e4 e5 e6
  obtain ⟨y', hy', hy9, hday, h5, h6, h7⟩ := hp
  have : y' = n := by omega
  subst this
  have hday' := (spec_dayExists_iff _ _ _).1 hday
  simp only [List.append_assoc, List.cons_append, List.nil_append]
  unfold DateLayout.parse
  show (match parseElems [] {} _ (clockElems ++ [([], .isoColonTZ)]) with | none => none | some a => a.finish loc) = _
  rw [elems_clock (t := t) hday' h5 h6 h7 l1 l2 l3 l4 l5 l6 e1 e2 e3 e4 e5 e6 hf (zoneText_ends hz) _ _ (by intro k; simp)]
  rcases elems_zoneText hz { year := y', month := t.month, day := t.day, hour := t.hour, min := t.min, sec := t.sec, nsec := t.nsec } with
    ⟨hl, h⟩ | ⟨o, hl, ho, h, _⟩
  · rw [h]
    exact finish_utc loc true hy hl hday'.2.2.1 hday'.2.2.2
  · rw [h]
    exact finish_offset loc hy hl ho hday'.2.2.1 hday'.2.2.2

/-! ### `parseDate` -/

/-- The shape of a fraction of `k` digits. -/
def fractionShape (k : Nat) : List Cls := if k = 0 then [] else .is 46 :: List.replicate k .dig

/-- The shape of a zone. -/
def zoneTextShape : Option UInt8 → List Cls
  | none => [.is 90]
  | some sign => [.is sign] ++ (List.replicate 2 .dig ++ ([.is 58] ++ List.replicate 2 .dig))

/-- The shape of a text of a time. -/
def instantShape (k : Nat) (z : Option UInt8) : List Cls :=
  List.replicate 4 .dig ++ ([.is 45] ++ (List.replicate 2 .dig ++ ([.is 45] ++ (List.replicate 2 .dig ++ ([.is 84] ++
    (List.replicate 2 .dig ++ ([.is 58] ++ (List.replicate 2 .dig ++ ([.is 58] ++ (List.replicate 2 .dig ++
      (fractionShape k ++ zoneTextShape z)))))))))))

/-- The first layout that reads it. -/
def instantLayout : Option UInt8 → Bytes
  | none => b! "2006-01-02T15:04:05Z"
  | some _ => b! "2006-01-02T15:04:05-07:00"

theorem instant_filter : ∀ k : Fin 10, ∀ z ∈ [none, some (43 : UInt8), some 45],
    (dateFormats.filter fun f => !Refuses (instantShape k z) f).head? = some (instantLayout z) := by decide +kernel

theorem shaped_fraction {fr : Bytes} {ns : Nat} (h : Spec.FractionText fr ns) : ∃ k : Fin 10, shaped (fractionShape k) fr = true := by
  rcases h with ⟨rfl, _⟩ | ⟨d, n, rfl, h1, h9, hd, _⟩
  · exact ⟨0, rfl⟩
  · rw [spec_decimal_iff] at hd
    refine ⟨⟨d.length, by omega⟩, ?_⟩
    unfold fractionShape
    rw [if_neg (by simp only; omega)]
    exact shaped_append (p := [.is 46]) (s := [46]) (by decide) (shaped_digits rfl hd.1)

theorem shaped_zone {z : Bytes} {l : Loc} (h : Spec.ZoneText z l) :
    ∃ o ∈ [none, some (43 : UInt8), some 45], shaped (zoneTextShape o) z = true ∧ (o = none ↔ l = .utc) := by
  rcases h with ⟨rfl, rfl⟩ | ⟨sign, zh, zm, a, b, rfl, l1, l2, e1, e2, _, _, hs⟩
  · exact ⟨none, by simp, by decide, by simp⟩
  · rw [spec_decimal_iff] at e1 e2
    refine ⟨some sign, ?_, ?_, ?_⟩
    · rcases hs with ⟨rfl, _⟩ | ⟨rfl, _⟩ <;> simp
    · simp only [List.append_assoc]
      exact shaped_append (by simp [shaped, Cls.has]) (shaped_append (shaped_digits l1 e1.1) (shaped_append (by decide) (shaped_digits l2 e2.1)))
    · rcases hs with ⟨_, rfl⟩ | ⟨_, rfl⟩ <;> simp

theorem zoneText_last {z : Bytes} {l : Loc} (h : Spec.ZoneText z l) (r : Bytes) :
    ∃ c, (r ++ z).getLast? = some c ∧ 33 ≤ c.toNat ∧ c.toNat < 128 := by
  rcases h with ⟨rfl, rfl⟩ | ⟨sign, zh, zm, a, b, rfl, l1, l2, e1, e2, _, _, hs⟩
  · exact ⟨90, by simp, by decide, by decide⟩
  · rw [spec_decimal_iff] at e2
    obtain ⟨c, hc, hd⟩ := last_digits (r := r ++ ([sign] ++ zh ++ [58])) l2 e2.1
    refine ⟨c, ?_, digit_visible hd⟩
    rw [← hc]
    simp only [List.append_assoc]

/-- The service reads every text of a time that exists. -/
theorem parseDate_instant (loc : LocalZone) {s : Bytes} {t : Time} (hp : Spec.ExistingTime t) (h : Spec.InstantText s t) :
    parseDate loc s = some t := by
  obtain ⟨y, mo, d, hh, mi, se, fr, z, rfl, l1, l2, l3, l4, l5, l6, ⟨n, hy, e1⟩, e2, e3, e4, e5, e6, hf, hz⟩ := h
  rw [spec_decimal_iff] at e1 e2 e3 e4 e5 e6
  obtain ⟨y', hy', hy9, hday, h5, h6, h7⟩ := hp
  have : y' = n := by omega
  subst this
  have hday' := (spec_dayExists_iff _ _ _).1 hday
  obtain ⟨k, hk⟩ := shaped_fraction hf
  obtain ⟨o, ho, hzs, hou⟩ := shaped_zone hz
  obtain ⟨c', hc', hcv'⟩ := zoneText_last hz (y ++ 45 :: (mo ++ 45 :: (d ++ 84 :: (hh ++ 58 :: (mi ++ 58 :: (se ++ fr))))))
  simp only [List.append_assoc, List.cons_append, List.nil_append] at hc' ⊢
  have hs : shaped (instantShape k o) (y ++ 45 :: (mo ++ 45 :: (d ++ 84 :: (hh ++ 58 :: (mi ++ 58 :: (se ++ (fr ++ z))))))) = true :=
    shaped_append (shaped_digits l1 e1.1) (shaped_append (s := [45]) (by decide) (shaped_append (shaped_digits l2 e2.1)
      (shaped_append (s := [45]) (by decide) (shaped_append (shaped_digits l3 e3.1) (shaped_append (s := [84]) (by decide)
        (shaped_append (shaped_digits l4 e4.1) (shaped_append (s := [58]) (by decide) (shaped_append (shaped_digits l5 e5.1)
          (shaped_append (s := [58]) (by decide) (shaped_append (shaped_digits l6 e6.1) (shaped_append hk hzs)))))))))))
  obtain ⟨c, hc, hcd⟩ := head_digits (r := 45 :: (mo ++ 45 :: (d ++ 84 :: (hh ++ 58 :: (mi ++ 58 :: (se ++ (fr ++ z))))))) l1 e1.1
  have hhead := instant_filter k o ho
  cases hfl : dateFormats.filter fun f => !Refuses (instantShape k o) f with
  | nil => rw [hfl] at hhead; cases hhead
  | cons f fs =>
    rw [hfl] at hhead
    simp only [List.head?_cons, Option.some.injEq] at hhead
    subst hhead
    rw [parseDate_shaped hs hfl hc hc' (digit_visible hcd) hcv', parseFirst]
    have : (DateLayout.of (instantLayout o)).parse loc
        (y ++ 45 :: (mo ++ 45 :: (d ++ 84 :: (hh ++ 58 :: (mi ++ 58 :: (se ++ (fr ++ z))))))) = some t := by
      cases o with
      | none =>
        have hl := hou.1 rfl
        have hz90 : z = [90] := by
          rcases hz with ⟨h, _⟩ | ⟨_, _, _, _, _, _, _, _, _, _, _, _, hs⟩
          · exact h
          · rcases hs with ⟨_, h⟩ | ⟨_, h⟩ <;> rw [hl] at h <;> cases h
        subst hz90
        show (DateLayout.of (b! "2006-01-02T15:04:05Z")).parse loc _ = _
        rw [isoLayout_eq]
        unfold DateLayout.parse
        show (match parseElems [90] {} _ (clockElems ++ []) with | none => none | some a => a.finish loc) = _
        rw [elems_clock (t := t) hday' h5 h6 h7 l1 l2 l3 l4 l5 l6 e1 e2 e3 e4 e5 e6 hf (by decide) _ _ (by intro k; simp),
          elems_end (skip_one (by decide) _)]
        exact finish_utc loc false hy hl hday'.2.2.1 hday'.2.2.2
      | some sign =>
        show (DateLayout.of (b! "2006-01-02T15:04:05-07:00")).parse loc _ = _
        rw [isoZoneLayout_eq]
        unfold DateLayout.parse
        show (match parseElems [] {} _ (clockElems ++ [([], .numColonTZ)]) with | none => none | some a => a.finish loc) = _
        rw [elems_clock (t := t) hday' h5 h6 h7 l1 l2 l3 l4 l5 l6 e1 e2 e3 e4 e5 e6 hf (zoneText_ends hz) _ _ (by intro k; simp)]
        rcases elems_zoneText hz { year := y', month := t.month, day := t.day, hour := t.hour, min := t.min, sec := t.sec, nsec := t.nsec } with
          ⟨hl, _⟩ | ⟨o, hl, ho, _, h⟩
        · exact absurd (hou.2 hl) (by simp)
        · rw [h]
          exact finish_offset loc hy hl ho hday'.2.2.1 hday'.2.2.2
    rw [this]

/-! ### The text of a time -/

theorem dropWhile_zeros (s : Bytes) : ∃ m, s = List.replicate m 48 ++ s.dropWhile (· == 48) := by
  induction s with
  | nil => exact ⟨0, rfl⟩
  | cons c s ih =>
    rw [List.dropWhile_cons]
    split
    · next h =>
      obtain ⟨m, hm⟩ := ih
      refine ⟨m + 1, ?_⟩
      rw [List.replicate_succ, List.cons_append, ← hm, beq_iff_eq.1 h]
    · exact ⟨0, rfl⟩

theorem trimZeros_spec (s : Bytes) : ∃ m, s = trimZeros s ++ List.replicate m 48 := by
  obtain ⟨m, hm⟩ := dropWhile_zeros s.reverse
  refine ⟨m, ?_⟩
  have := congrArg List.reverse hm
  rw [List.reverse_reverse, List.reverse_append, List.reverse_replicate] at this
  exact this

theorem digitsVal_zeros (s : Bytes) (m : Nat) : digitsVal (s ++ List.replicate m 48) = digitsVal s * 10 ^ m := by
  induction m with
  | zero => simp
  | succ m ih =>
    rw [List.replicate_succ', ← List.append_assoc, digitsVal_append, ih]
    have : digitsVal [48] = 0 := by decide
    rw [this, List.length_singleton, Nat.pow_one, Nat.add_zero, Nat.pow_succ, Nat.mul_assoc]

theorem fractionText_nano {n : Nat} (h : n < 1000000000) : Spec.FractionText (nanoText n) n := by
  unfold nanoText
  split
  · next h0 => exact Or.inl ⟨rfl, h0⟩
  · next h0 =>
    right
    obtain ⟨m, hm⟩ := trimZeros_spec (decDigits 9 n)
    have hlen := congrArg List.length hm
    rw [length_decDigits, List.length_append, List.length_replicate] at hlen
    have hval := congrArg digitsVal hm
    rw [digitsVal_zeros, digitsVal_decDigits, Nat.mod_eq_of_lt (by simpa using h)] at hval
    refine ⟨_, digitsVal (trimZeros (decDigits 9 n)), rfl, ?_, by omega, ?_, ?_⟩
    · rcases Nat.eq_zero_or_pos (trimZeros (decDigits 9 n)).length with hz | hz
      · rw [List.length_eq_zero_iff.1 hz] at hval
        simp [digitsVal] at hval
        exact absurd hval h0
      · exact hz
    · rw [spec_decimal_iff]
      refine ⟨fun c hc => decDigits_all 9 n c ?_, rfl⟩
      rw [hm]
      exact List.mem_append_left _ hc
    · rw [show 9 - (trimZeros (decDigits 9 n)).length = m by omega]
      exact hval

theorem zoneText_rfc {l : Loc} (h24 : l.offset.natAbs < 86400) : Spec.ZoneText (rfc3339Zone l) (Spec.minuteZone l) := by
  cases l with
  | utc => exact Or.inl ⟨rfl, rfl⟩
  | zone o =>
    by_cases h0 : o = 0
    · subst h0
      exact Or.inl ⟨rfl, rfl⟩
    · right
      have h24 : o.natAbs < 86400 := h24
      have hsign : o.tdiv 60 < 0 ↔ o ≤ -60 := by
        rcases Int.lt_or_le o 0 with ho | ho
        · obtain ⟨n, hn⟩ : ∃ n : Nat, o = -(n : Int) := ⟨o.natAbs, by omega⟩
          rw [hn, Int.neg_tdiv, Int.tdiv_eq_ediv_of_nonneg (Int.natCast_nonneg n)]
          omega
        · have := Int.tdiv_nonneg ho (show (0 : Int) ≤ 60 by decide)
          omega
      refine ⟨if o.tdiv 60 < 0 then 45 else 43, decDigits 2 (o.natAbs / 60 / 60), decDigits 2 (o.natAbs / 60 % 60), o.natAbs / 60 / 60,
        o.natAbs / 60 % 60, ?_, length_decDigits _ _, length_decDigits _ _, spec_decimal_decDigits (by omega), spec_decimal_decDigits (by omega),
        by omega, by omega, ?_⟩
      · unfold rfc3339Zone
        simp only
        rw [if_neg h0, appendInt_ofNat (by decide) (by omega), appendInt_ofNat (by decide) (by omega)]
        simp only [List.append_assoc, List.cons_append, List.nil_append]
      · simp only [Spec.minuteZone, if_neg h0]
        by_cases ho : o ≤ -60
        · right
          refine ⟨if_pos (hsign.2 ho), ?_⟩
          rw [if_neg (by omega)]
          congr 1
          omega
        · left
          refine ⟨if_neg (fun h => ho (hsign.1 h)), ?_⟩
          split
          · congr 1
            omega
          · congr 1
            omega

theorem sentTime_existing {t : Time} (h : Spec.ExistingTime t) : Spec.ExistingTime (Spec.sentTime t) := h

/-- The client's text of an existing time. -/
theorem instantText_nano {t : Time} (h : Spec.ExistingTime t) (hn : t.nsec < 1000000000) (h24 : t.loc.offset.natAbs < 86400) :
    Spec.InstantText (rfc3339Nano t) (Spec.sentTime t) := by
  obtain ⟨⟨h1, h2, h3, h4⟩, h5, h6, h7, hy0, hy1⟩ := (existing_iff t).1 h
  have hd := daysIn_le t.month t.year
  obtain ⟨y, hy⟩ := Int.eq_ofNat_of_zero_le hy0
  refine ⟨decDigits 4 y, decDigits 2 t.month, decDigits 2 t.day, decDigits 2 t.hour, decDigits 2 t.min, decDigits 2 t.sec,
    nanoText t.nsec, rfc3339Zone t.loc,
    ?_, length_decDigits _ _, length_decDigits _ _, length_decDigits _ _, length_decDigits _ _, length_decDigits _ _,
    length_decDigits _ _, ⟨y, hy, spec_decimal_decDigits (by omega)⟩, spec_decimal_decDigits (show t.month < _ by omega),
    spec_decimal_decDigits (show t.day < _ by omega), spec_decimal_decDigits (show t.hour < _ by omega),
    spec_decimal_decDigits (show t.min < _ by omega), spec_decimal_decDigits (show t.sec < _ by omega), fractionText_nano hn, zoneText_rfc h24⟩
  unfold rfc3339Nano
  rw [hy, appendInt_ofNat (by decide) (by omega), appendInt_ofNat (by decide) (by omega),
    appendInt_ofNat (by decide) (by omega), appendInt_ofNat (by decide) (by omega),
    appendInt_ofNat (by decide) (by omega), appendInt_ofNat (by decide) (by omega)]

theorem fractionText_plain {s : Bytes} {n : Nat} (h : Spec.FractionText s n) : ∀ c ∈ s, plainByte c = true := by
  rcases h with ⟨rfl, _⟩ | ⟨d, n, rfl, _, _, hd, _⟩
  · simp
  · rw [spec_decimal_iff] at hd
    intro c hc
    rcases List.mem_cons.1 hc with rfl | hc
    · decide
    · exact plainByte_digit (hd.1 c hc)

theorem zoneText_plain {s : Bytes} {l : Loc} (h : Spec.ZoneText s l) : ∀ c ∈ s, plainByte c = true := by
  rcases h with ⟨rfl, _⟩ | ⟨sign, zh, zm, a, b, rfl, l1, l2, e1, e2, _, _, hs⟩
  · decide
  · rw [spec_decimal_iff] at e1 e2
    intro c hc
    simp only [List.mem_append, List.mem_singleton] at hc
    rcases hc with ((h | h) | h) | h
    · subst h; rcases hs with ⟨h, _⟩ | ⟨h, _⟩ <;> subst h <;> decide
    · exact plainByte_digit (e1.1 c h)
    · subst h; decide
    · exact plainByte_digit (e2.1 c h)

theorem instantText_plain {s : Bytes} {t : Time} (h : Spec.InstantText s t) : ∀ c ∈ s, plainByte c = true := by
  obtain ⟨y, mo, d, hh, mi, se, fr, z, rfl, l1, l2, l3, l4, l5, l6, ⟨n, hy, e1⟩, e2, e3, e4, e5, e6, hf, hz⟩ := h
  rw [spec_decimal_iff] at e1 e2 e3 e4 e5 e6
  intro c hc
  simp only [List.mem_append, List.mem_singleton] at hc
  rcases hc with ((((((((((((h | h) | h) | h) | h) | h) | h) | h) | h) | h) | h) | h) | h)
  · exact plainByte_digit (e1.1 c h)
  · subst h; decide
  · exact plainByte_digit (e2.1 c h)
  · subst h; decide
  · exact plainByte_digit (e3.1 c h)
  · subst h; decide
  · exact plainByte_digit (e4.1 c h)
  · subst h; decide
  · exact plainByte_digit (e5.1 c h)
  · subst h; decide
  · exact plainByte_digit (e6.1 c h)
  · exact fractionText_plain hf c h
  · exact zoneText_plain hz c h

theorem instantText_ne_nil {s : Bytes} {t : Time} (h : Spec.InstantText s t) : s ≠ [] := by
  obtain ⟨y, mo, d, hh, mi, se, fr, z, rfl, _⟩ := h
  simp

/-- The client reads the text of a time. -/
theorem decodeClientTime_instant (loc : LocalZone) {s : Bytes} {t : Time} (hp : Spec.ExistingTime t) (h : Spec.InstantText s t) :
    decodeClientTime loc (.str s) = some t := by
  rw [decodeClientTime, escapeJson_plain (instantText_plain h), rfcLayout_eq, rfcLayout_instant loc hp h]

/-- The service reads the text of a time. -/
theorem decodeTime_instant (env : JsonEnv) {s : Bytes} {t : Time} (hp : Spec.ExistingTime t) (h : Spec.InstantText s t) :
    decodeTime env (.str s) = some t := by
  rw [decodeTime_plain env (instantText_plain h) (instantText_ne_nil h), parseDate_instant env.zone hp h]

/-- When a time is written. -/
theorem encodeClientTime_iff (t : Time) : (∃ j, encodeClientTime t = some j) ↔ 0 ≤ t.year ∧ t.year ≤ 9999 ∧ t.loc.offset.natAbs < 86400 := by
  unfold encodeClientTime
  split
  · next h => exact ⟨by rintro ⟨_, ⟨⟩⟩, fun h' => by omega⟩
  · next h => exact ⟨fun _ => by omega, fun _ => ⟨_, rfl⟩⟩

theorem sentWhole_offset {t : Time} (h : Spec.SentWhole t) : t.loc.offset.natAbs < 86400 := by
  rcases h.2.2 with h | ⟨m, _, hm, h⟩ <;> rw [h]
  · decide
  · show (60 * m).natAbs < 86400
    omega

theorem sentWhole_sent {t : Time} (h : Spec.SentWhole t) : Spec.sentTime t = t := by
  obtain ⟨y, mo, d, hh, mi, se, ns, l⟩ := t
  rcases h.2.2 with h | ⟨m, h0, _, h⟩
  · simp only at h
    subst h
    rfl
  · simp only at h
    subst h
    simp only [Spec.sentTime, Spec.minuteZone]
    congr 1
    rw [if_neg (by omega)]
    split
    · congr 1; omega
    · congr 1; omega

theorem existing_year {t : Time} (h : Spec.ExistingTime t) : 0 ≤ t.year ∧ t.year ≤ 9999 := by
  obtain ⟨y, hy, h9, _⟩ := h
  omega

theorem encodeClientTime_existing {t : Time} (h : Spec.ExistingTime t) (h24 : t.loc.offset.natAbs < 86400) :
    encodeClientTime t = some (.str (rfc3339Nano t)) := by
  have := existing_year h
  rw [encodeClientTime, if_neg (by omega)]

end Metro2
