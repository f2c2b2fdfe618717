import Verif.Lemmas.Fraction
import Verif.Spec.TimeText

/-! Texts that are times for the client. -/

namespace Metro2

/-! ### Numbers -/

theorem getnum_one {c d : UInt8} (hc : isDigit c = true) (hd : isDigit d = false) (r : Bytes) :
    getnum false (c :: d :: r) = some (digitsVal [c], d :: r) := by
  simp [getnum, hc, hd, digitsVal]

/-- What `getnum` takes. -/
theorem getnum_inv {fixed : Bool} {s r : Bytes} {x : Nat} (h : getnum fixed s = some (x, r)) :
    ∃ d, s = d ++ r ∧ (d.length = 2 ∨ (fixed = false ∧ d.length = 1)) ∧ (∀ c ∈ d, isDigit c = true) ∧ digitsVal d = x := by
  match s with
  | [] => simp [getnum] at h
  | [c] =>
    simp only [getnum] at h
    split at h
    · rename_i hc
      cases h
      refine ⟨[c], by simp, .inr ⟨by simpa using hc.2, rfl⟩, by simpa using hc.1, ?_⟩
      simp [digitsVal]
    · simp at h
  | c :: d :: rest =>
    simp only [getnum] at h
    split at h
    · simp at h
    · rename_i hc
      have hc : isDigit c = true := by simpa using hc
      split at h
      · split at h
        · simp at h
        · rename_i hf
          cases h
          exact ⟨[c], rfl, .inr ⟨by simpa using hf, rfl⟩, by simpa using hc, by simp [digitsVal]⟩
      · rename_i hd
        have hd : isDigit d = true := by simpa using hd
        cases h
        exact ⟨[c, d], rfl, .inl rfl, by simp [hc, hd], by simp [digitsVal]⟩

theorem skip_one_inv {c : UInt8} (h : c ≠ 32) {v r : Bytes} (hs : skip [c] v = some r) : v = c :: r := by
  cases v with
  | nil => simp [skip, skipAux, h] at hs
  | cons x v =>
    by_cases hx : x = c
    · subst hx
      rw [skip_one h] at hs
      cases hs
      rfl
    · simp [skip, skipAux, h, hx] at hs

/-- One element that is read. -/
theorem elems_inv {final pre : Bytes} {e : Elem} {es : List (Bytes × Elem)} {a a' : Parsed} {v : Bytes}
    (h : parseElems final a v ((pre, e) :: es) = some a') :
    ∃ s b r, skip pre v = some s ∧ parseElem a s (es.head?.map (·.2)) e = some (b, r) ∧ parseElems final b r es = some a' := by
  rw [parseElems] at h
  cases hs : skip pre v with
  | none => simp [hs] at h
  | some s =>
    simp only [hs] at h
    cases hp : parseElem a s (es.head?.map (·.2)) e with
    | none => simp [hp] at h
    | some p =>
      obtain ⟨b, r⟩ := p
      simp only [hp] at h
      exact ⟨s, b, r, rfl, hp, h⟩

theorem parseNum_inv {fixed : Bool} {lo hi : Nat} {f : Nat → Parsed} {s r : Bytes} {b : Parsed} (h : parseNum fixed lo hi f s = some (b, r)) :
    ∃ d, s = d ++ r ∧ (d.length = 2 ∨ (fixed = false ∧ d.length = 1)) ∧ (∀ c ∈ d, isDigit c = true) ∧ lo ≤ digitsVal d ∧ digitsVal d ≤ hi ∧
      b = f (digitsVal d) := by
  unfold parseNum at h
  cases hg : getnum fixed s with
  | none => simp [hg] at h
  | some p =>
    obtain ⟨x, r'⟩ := p
    simp only [hg] at h
    split at h
    · simp at h
    · rename_i hx
      cases h
      obtain ⟨d, h1, h2, h3, rfl⟩ := getnum_inv hg
      exact ⟨d, h1, h2, h3, by omega, by omega, rfl⟩

theorem timeAtoi_inv {d : Bytes} {y : Int} (h : timeAtoi d = some y) (h0 : ∀ c, d.head? = some c → isDigit c = true) :
    (∀ c ∈ d, isDigit c = true) ∧ y = digitsVal d := by
  unfold timeAtoi at h
  have h1 : ¬ d.head? = some 45 := fun hh => absurd (h0 _ hh) (by decide)
  have h2 : ¬ d.head? = some 43 := fun hh => absurd (h0 _ hh) (by decide)
  simp only [h1, h2, or_self, if_false] at h
  split at h
  · rename_i hd
    cases h
    exact ⟨fun c hc => List.all_eq_true.1 hd c hc, rfl⟩
  · simp at h

theorem parseYear_inv {a b : Parsed} {s r : Bytes} {next : Option Elem} (h : parseElem a s next .longYear = some (b, r)) :
    ∃ d, s = d ++ r ∧ d.length = 4 ∧ (∀ c ∈ d, isDigit c = true) ∧ b = { a with year := (digitsVal d : Int) } := by
  simp only [parseElem] at h
  split at h
  · simp at h
  · rename_i hl
    rw [not_or] at hl
    cases ht : timeAtoi (s.take 4) with
    | none => simp [ht] at h
    | some y =>
      simp only [ht] at h
      cases h
      have hall : (s.take 1).all isDigit = true := by simpa using hl.2
      obtain ⟨h1, rfl⟩ := timeAtoi_inv ht (by
        intro c hc
        cases s with
        | nil => simp at hc
        | cons x s =>
          simp only [List.take_succ_cons, List.head?_cons, Option.some.injEq] at hc
          subst hc
          simpa using hall)
      exact ⟨s.take 4, (List.take_append_drop 4 s).symm, by rw [List.length_take]; omega, h1, rfl⟩

/-! ### Fractions -/

theorem loose_value {d : Bytes} (hd : ∀ c ∈ d, isDigit c = true) :
    digitsVal (d.take 9) * 10 ^ (9 - (d.take 9).length) = digitsVal d * 10 ^ 9 / 10 ^ d.length := by
  rcases Nat.lt_or_ge 9 d.length with h | h
  · have hv : digitsVal d = digitsVal (d.take 9) * 10 ^ (d.drop 9).length + digitsVal (d.drop 9) := by
      conv_lhs => rw [← List.take_append_drop 9 d]
      exact digitsVal_append _ _
    have hlt := digitsVal_lt (d.drop 9) fun c hc => hd c (List.mem_of_mem_drop hc)
    have hl : (d.take 9).length = 9 := by rw [List.length_take]; omega
    have hr : (d.drop 9).length = d.length - 9 := by rw [List.length_drop]
    rw [hr] at hv hlt
    have hp : 10 ^ d.length = 10 ^ (d.length - 9) * 10 ^ 9 := by rw [← Nat.pow_add]; congr 1; omega
    rw [hl, hp, Nat.mul_div_mul_right _ _ (by decide), hv, Nat.sub_self, Nat.pow_zero, Nat.mul_one]
    rw [Nat.mul_comm, Nat.mul_add_div (by exact Nat.pow_pos (by decide)), Nat.div_eq_of_lt hlt, Nat.add_zero]
  · rw [List.take_of_length_le h]
    have hp : 10 ^ 9 = 10 ^ (9 - d.length) * 10 ^ d.length := by rw [← Nat.pow_add]; congr 1; omega
    rw [hp, ← Nat.mul_assoc, Nat.mul_div_cancel _ (Nat.pow_pos (by decide))]

theorem takeWhile_eq_take (s : Bytes) : s.takeWhile isDigit = s.take (digitRun s) := by
  have := List.takeWhile_prefix (p := isDigit) (l := s)
  exact (List.prefix_iff_eq_take.1 this)

/-- `parseNano` on a point or a comma and digits. -/
theorem parseNano_loose {c : UInt8} (hc : c = 46 ∨ c = 44) {d rest : Bytes} (hd : ∀ x ∈ d, isDigit x = true) :
    parseNano (c :: (d ++ rest)) (1 + d.length) = some (digitsVal d * 10 ^ 9 / 10 ^ d.length) := by
  have ht : ((c :: (d ++ rest)).take (min (1 + d.length) 10)).drop 1 = d.take 9 := by
    have : min (1 + d.length) 10 = min d.length 9 + 1 := by omega
    rw [this, List.take_succ_cons, List.drop_succ_cons, List.drop_zero, List.take_append_of_le_length (by omega)]
    exact List.take_eq_take_iff.2 (by omega)
  unfold parseNano
  simp only [hc, not_true_eq_false, if_false, ht]
  rw [timeAtoi_digits fun x hx => hd x (List.mem_of_mem_take hx)]
  simp only
  rw [if_neg (by omega), Int.toNat_natCast, ← loose_value hd]
  congr 3
  rw [List.length_take]
  omega

/-- Seconds with a fraction or without, in front of the zone. -/
theorem parseSeconds_loose {a : Parsed} {se fr rest : Bytes} {ns : Nat} (hl : se.length = 2) (hd : ∀ c ∈ se, isDigit c = true)
    (h60 : digitsVal se < 60) (hf : Spec.LooseFraction fr ns) (hr : endsFraction rest = true) (ha : a.nsec = 0) :
    parseSeconds true a (se ++ (fr ++ rest)) (some .isoColonTZ) = some ({ a with sec := digitsVal se, nsec := ns }, rest) := by
  unfold parseSeconds
  rw [getnum_two true hl hd]
  simp only [if_neg (Nat.not_le.2 h60)]
  rcases hf with ⟨rfl, rfl⟩ | ⟨c, f, n, rfl, hc, hne, hdec, rfl⟩
  · rw [List.nil_append]
    have he : ({ a with sec := digitsVal se, nsec := 0 } : Parsed) = { a with sec := digitsVal se } := by
      obtain ⟨_, _, _, _, _, _, ns, _⟩ := a
      simp only at ha
      subst ha
      rfl
    rw [he]
    match rest with
    | [] => rfl
    | [c] => rfl
    | c :: d :: r =>
      simp only [endsFraction, Bool.and_eq_true, bne_iff_ne, ne_eq] at hr
      simp [hr.1.1, hr.1.2]
  · rw [spec_decimal_iff] at hdec
    obtain ⟨hdec, rfl⟩ := hdec
    cases f with
    | nil => exact absurd rfl hne
    | cons e f =>
      have he : isDigit e = true := hdec e (by simp)
      have hrun := digitRun_append hdec hr
      rw [List.cons_append] at hrun
      have hnano := parseNano_loose (rest := rest) hc hdec
      rw [List.cons_append] at hnano
      have hdrop : (c :: e :: (f ++ rest)).drop (1 + (e :: f).length) = rest := by
        rw [Nat.add_comm, List.drop_succ_cons, ← List.cons_append, List.drop_left']
        rfl
      simp only [List.cons_append, hc, he, and_self, if_true, hrun, hnano, hdrop]

theorem parseSeconds_inv {a b : Parsed} {s r : Bytes} (h : parseSeconds true a s (some .isoColonTZ) = some (b, r)) (ha : a.nsec = 0) :
    ∃ se fr ns, s = se ++ (fr ++ r) ∧ se.length = 2 ∧ (∀ c ∈ se, isDigit c = true) ∧ digitsVal se < 60 ∧ Spec.LooseFraction fr ns ∧
      b = { a with sec := digitsVal se, nsec := ns } := by
  have he : ∀ x, ({ a with sec := x, nsec := 0 } : Parsed) = { a with sec := x } := by
    obtain ⟨_, _, _, _, _, _, ns, _⟩ := a
    simp only at ha
    subst ha
    intro x
    rfl
  unfold parseSeconds at h
  cases hg : getnum true s with
  | none => simp [hg] at h
  | some p =>
    obtain ⟨x, v⟩ := p
    simp only [hg] at h
    obtain ⟨se, rfl, hl, hd, rfl⟩ := getnum_true hg
    split at h
    · simp at h
    · rename_i h60
      have h60 := Nat.not_le.1 h60
      match v with
      | [] =>
        cases h
        exact ⟨se, [], 0, by simp, hl, hd, h60, .inl ⟨rfl, rfl⟩, (he _).symm⟩
      | [c] =>
        cases h
        exact ⟨se, [], 0, by simp, hl, hd, h60, .inl ⟨rfl, rfl⟩, (he _).symm⟩
      | c :: d :: w =>
        simp only at h
        split at h
        · rename_i hc
          obtain ⟨hc, hdd⟩ := hc
          have hrun : (d :: w).takeWhile isDigit ++ (d :: w).drop (digitRun (d :: w)) = d :: w := by
            rw [takeWhile_eq_take, List.take_append_drop]
          have hds : ∀ x ∈ (d :: w).takeWhile isDigit, isDigit x = true := fun x hx => List.all_eq_true.1 List.all_takeWhile x hx
          have hnano := parseNano_loose (rest := (d :: w).drop (digitRun (d :: w))) hc hds
          rw [hrun] at hnano
          have hlen : ((d :: w).takeWhile isDigit).length = digitRun (d :: w) := rfl
          rw [hlen] at hnano
          simp only [hnano] at h
          cases h
          refine ⟨se, c :: (d :: w).takeWhile isDigit, _, ?_, hl, hd, h60, .inr ⟨c, _, _, rfl, hc, ?_, (spec_decimal_iff _ _).2 ⟨hds, rfl⟩, rfl⟩, rfl⟩
          · rw [Nat.add_comm 1, List.drop_succ_cons, List.cons_append, hrun]
          · rw [List.takeWhile_cons, if_pos hdd]
            simp
        · cases h
          exact ⟨se, [], 0, by simp, hl, hd, h60, .inl ⟨rfl, rfl⟩, (he _).symm⟩

/-! ### Zones -/

theorem getnum_exact {s : Bytes} {x : Nat} {r : Bytes} (hl : s.length ≤ 2) (h : getnum true s = some (x, r)) :
    s.length = 2 ∧ (∀ c ∈ s, isDigit c = true) ∧ digitsVal s = x := by
  obtain ⟨d, rfl, h2, hd, rfl⟩ := getnum_true h
  rw [List.length_append] at hl
  have : r = [] := List.length_eq_zero_iff.1 (by omega)
  subst this
  rw [List.append_nil]
  exact ⟨h2, hd, rfl⟩

theorem parseIsoZone_inv {a b : Parsed} {s : Bytes} (h : parseIsoZone a s .isoColonTZ = some (b, [])) :
    ∃ l, Spec.ZoneText s l ∧ ((l = .utc ∧ b = { a with utc := true }) ∨ ∃ o, l = .zone o ∧ o ≠ -1 ∧ b = { a with offset := o }) := by
  unfold parseIsoZone at h
  match s with
  | [] => simp at h
  | c :: r =>
    simp only at h
    split at h
    · rename_i hc
      subst hc
      cases h
      exact ⟨.utc, .inl ⟨rfl, rfl⟩, .inl ⟨rfl, rfl⟩⟩
    · simp only [parseNumZone] at h
      split at h
      · simp at h
      · rename_i hz
        rw [not_or, Decidable.not_not] at hz
        obtain ⟨hlen, hcol⟩ := hz
        match r with
        | [] | [_] | [_, _] | [_, _, _] | [_, _, _, _] => simp at hlen
        | h1 :: h2 :: x :: m1 :: m2 :: rest =>
          simp only [List.drop_succ_cons, List.drop_zero, List.head?_cons, Option.some.injEq] at hcol
          subst hcol
          simp only [List.head?_cons, List.drop_succ_cons, List.drop_zero, List.take_succ_cons, List.take_zero, zoneOffset] at h
          cases g1 : getnum true [h1, h2] with
          | none => simp [g1] at h
          | some p1 =>
            cases g2 : getnum true [m1, m2] with
            | none => simp [g1, g2] at h
            | some p2 =>
              obtain ⟨x1, r1⟩ := p1
              obtain ⟨x2, r2⟩ := p2
              have g3 : getnum true (b! "00") = some (0, []) := rfl
              simp only [g1, g2, g3] at h
              obtain ⟨-, d1, rfl⟩ := getnum_exact (by simp) g1
              obtain ⟨-, d2, rfl⟩ := getnum_exact (by simp) g2
              split at h
              · simp at h
              · rename_i hb
                have key : ∀ o : Int, (c = 43 ∧ o = 3600 * (digitsVal [h1, h2] : Int) + 60 * (digitsVal [m1, m2] : Int)) ∨
                    (c = 45 ∧ o = -(3600 * (digitsVal [h1, h2] : Int) + 60 * (digitsVal [m1, m2] : Int))) → rest = [] → b = { a with offset := o } →
                    ∃ l, Spec.ZoneText (c :: h1 :: h2 :: 58 :: m1 :: m2 :: rest) l ∧
                      ((l = .utc ∧ b = { a with utc := true }) ∨ ∃ o, l = .zone o ∧ o ≠ -1 ∧ b = { a with offset := o }) := by
                  rintro o ho rfl rfl
                  refine ⟨.zone o, .inr ⟨c, [h1, h2], [m1, m2], _, _, rfl, rfl, rfl, (spec_decimal_iff _ _).2 ⟨d1, rfl⟩,
                    (spec_decimal_iff _ _).2 ⟨d2, rfl⟩, by omega, by omega, ?_⟩, .inr ⟨o, rfl, by omega, rfl⟩⟩
                  rcases ho with ⟨hs, rfl⟩ | ⟨hs, rfl⟩
                  · exact .inl ⟨hs, rfl⟩
                  · exact .inr ⟨hs, rfl⟩
                split at h
                · rename_i hc
                  simp only [Option.some.injEq, Prod.mk.injEq] at h hc
                  exact key _ (.inl ⟨hc, rfl⟩) h.2 (by rw [← h.1]; congr 1; push_cast; omega)
                · split at h
                  · rename_i hc
                    simp only [Option.some.injEq, Prod.mk.injEq] at h hc
                    exact key _ (.inr ⟨hc, rfl⟩) h.2 (by rw [← h.1]; congr 1; push_cast; omega)
                  · simp at h

/-! ### Whole texts -/

theorem rfcLayout_loose (loc : LocalZone) {s : Bytes} {t : Time} (h : Spec.LooseText s t) : rfcLayout.parse loc s = some t := by
  obtain ⟨⟨y', hy', hy9, hday, h5, h6, h7⟩, y, mo, d, hh, mi, se, fr, z, rfl, l1, l2, l3, l4, l5, l6, ⟨n, hy, e1⟩, e2, e3, e4, e5, e6, hf, hz⟩ := h
  rw [spec_decimal_iff] at e1 e2 e3 e4 e5 e6
  have : y' = n := by omega
  subst this
  obtain ⟨h1, h2, h3, h4⟩ := (spec_dayExists_iff _ _ _).1 hday
  simp only [List.append_assoc, List.cons_append, List.nil_append]
  unfold DateLayout.parse
  have hhour : ∀ (a : Parsed) (rest : Bytes), parseElem a (hh ++ 58 :: rest) (some .zeroMinute) .hour = some ({ a with hour := t.hour }, 58 :: rest) := by
    intro a rest
    show parseNum false 0 23 (fun h => { a with hour := h }) _ = _
    have hg : getnum false (hh ++ 58 :: rest) = some (t.hour, 58 :: rest) := by
      rcases l4 with l4 | l4
      · obtain ⟨c, rfl⟩ := List.length_eq_one_iff.1 l4
        rw [← e4.2]
        exact getnum_one (e4.1 c (by simp)) (by decide) rest
      · rw [getnum_two false l4 e4.1, e4.2]
    simp only [parseNum, hg]
    rw [if_neg (by omega)]
  have key : parseElems rfcLayout.final {} (y ++ 45 :: (mo ++ 45 :: (d ++ 84 :: (hh ++ 58 :: (mi ++ 58 :: (se ++ (fr ++ z))))))) rfcLayout.elems =
      parseElems [] { year := y', month := t.month, day := t.day, hour := t.hour, min := t.min, sec := t.sec, nsec := t.nsec } z [([], .isoColonTZ)] := by
    show parseElems [] {} _ [([], .longYear), ([45], .zeroMonth), ([45], .zeroDay), ([84], .hour), ([58], .zeroMinute), ([58], .zeroSecond),
      ([], .isoColonTZ)] = _
    rw [elems_year (skip_nil _) l1 e1.1 e1.2, elems_num (skip_one (by decide) _) (fun _ _ => rfl) l2 e2.1 e2.2,
      if_neg (by omega), elems_num (skip_one (by decide) _) (fun _ _ => rfl) l3 e3.1 e3.2,
      if_neg (by have := daysIn_le t.month (y' : Int); omega)]
    rw [parseElems, skip_one (by decide)]
    simp only [List.head?_cons, Option.map_some, hhour]
    rw [elems_num (skip_one (by decide) _) (fun _ _ => rfl) l5 e5.1 e5.2, if_neg (by omega), parseElems, skip_one (by decide)]
    simp only [List.head?_cons, Option.map_some, parseElem]
    rw [parseSeconds_loose l6 e6.1 (by omega) hf (zoneText_ends hz) rfl, e6.2]
  rw [key]
  rcases elems_zoneText hz { year := y', month := t.month, day := t.day, hour := t.hour, min := t.min, sec := t.sec, nsec := t.nsec } with
    ⟨hl, h⟩ | ⟨o, hl, ho, h, _⟩
  · rw [h]
    exact finish_utc loc true hy hl h3 h4
  · rw [h]
    exact finish_offset loc hy hl ho h3 h4

theorem rfcLayout_inv (loc : LocalZone) {s : Bytes} {t : Time} (h : rfcLayout.parse loc s = some t) : Spec.LooseText s t := by
  unfold DateLayout.parse at h
  cases hp : parseElems rfcLayout.final {} s rfcLayout.elems with
  | none => simp [hp] at h
  | some a =>
    simp only [hp] at h
    change parseElems [] {} s [([], .longYear), ([45], .zeroMonth), ([45], .zeroDay), ([84], .hour), ([58], .zeroMinute), ([58], .zeroSecond),
      ([], .isoColonTZ)] = some a at hp
    obtain ⟨s0, a0, r0, k0, p0, hp⟩ := elems_inv hp
    obtain ⟨s1, a1, r1, k1, p1, hp⟩ := elems_inv hp
    obtain ⟨s2, a2, r2, k2, p2, hp⟩ := elems_inv hp
    obtain ⟨s3, a3, r3, k3, p3, hp⟩ := elems_inv hp
    obtain ⟨s4, a4, r4, k4, p4, hp⟩ := elems_inv hp
    obtain ⟨s5, a5, r5, k5, p5, hp⟩ := elems_inv hp
    obtain ⟨s6, a6, r6, k6, p6, hp⟩ := elems_inv hp
    rw [skip_nil] at k0 k6
    cases k0
    cases k6
    rw [parseElems, skip_nil] at hp
    have hr6 : r6 = [] ∧ a6 = a := by
      cases r6 with
      | nil => simpa using hp
      | cons c r => simp at hp
    obtain ⟨rfl, rfl⟩ := hr6
    obtain ⟨y, rfl, l1, e1, rfl⟩ := parseYear_inv p0
    have := skip_one_inv (by decide) k1
    subst this
    obtain ⟨mo, rfl, l2, e2, b2, b2', rfl⟩ := parseNum_inv p1
    have := skip_one_inv (by decide) k2
    subst this
    obtain ⟨d, rfl, l3, e3, b3, b3', rfl⟩ := parseNum_inv p2
    have := skip_one_inv (by decide) k3
    subst this
    obtain ⟨hh, rfl, l4, e4, b4, b4', rfl⟩ := parseNum_inv p3
    have := skip_one_inv (by decide) k4
    subst this
    obtain ⟨mi, rfl, l5, e5, b5, b5', rfl⟩ := parseNum_inv p4
    have := skip_one_inv (by decide) k5
    subst this
    obtain ⟨se, fr, ns, rfl, l6, e6, b6, hf, rfl⟩ := parseSeconds_inv p5 rfl
    obtain ⟨l, hz, hb⟩ := parseIsoZone_inv p6
    have hy : digitsVal y < 10 ^ 4 := by rw [← l1]; exact digitsVal_lt y e1
    simp only [Bool.true_eq_false, false_and, or_false] at l2 l3 l5
    have hfin : t = ⟨digitsVal y, digitsVal mo, digitsVal d, digitsVal hh, digitsVal mi, digitsVal se, ns, l⟩ ∧
        1 ≤ digitsVal d ∧ digitsVal d ≤ daysIn (digitsVal mo) (digitsVal y : Int) := by
      have hmneg : ¬ (digitsVal mo : Int) < 0 := by omega
      have hdneg : ¬ (digitsVal d : Int) < 0 := by omega
      rcases hb with ⟨rfl, rfl⟩ | ⟨o, rfl, ho, rfl⟩
      · simp only [Parsed.finish, Bool.false_eq_true, false_and, if_false, hmneg, hdneg, Int.toNat_natCast, if_true] at h
        split at h
        · simp at h
        · cases h
          exact ⟨rfl, by omega, by omega⟩
      · simp only [Parsed.finish, Bool.false_eq_true, false_and, if_false, hmneg, hdneg, Int.toNat_natCast, ne_eq, ho, not_false_eq_true, if_true] at h
        split at h
        · simp at h
        · cases h
          exact ⟨rfl, by omega, by omega⟩
    obtain ⟨rfl, hd1, hd2⟩ := hfin
    refine ⟨⟨digitsVal y, rfl, by omega, (spec_dayExists_iff _ _ _).2 ⟨b2, b2', hd1, hd2⟩, show digitsVal hh < 24 by omega,
      show digitsVal mi < 60 by omega, b6⟩, y, mo, d, hh, mi, se, fr, _, by simp, l1, l2, l3, by tauto, l5, l6, ⟨_, rfl, (spec_decimal_iff _ _).2 ⟨e1, rfl⟩⟩,
      (spec_decimal_iff _ _).2 ⟨e2, rfl⟩, (spec_decimal_iff _ _).2 ⟨e3, rfl⟩, (spec_decimal_iff _ _).2 ⟨e4, rfl⟩,
      (spec_decimal_iff _ _).2 ⟨e5, rfl⟩, (spec_decimal_iff _ _).2 ⟨e6, rfl⟩, hf, hz⟩

/-! ### Behind the quotes -/

theorem escapeByte_or (c : UInt8) : escapeByte c = [c] ∨ 92 ∈ escapeByte c := by
  unfold escapeByte
  split
  · exact .inr (by decide)
  split
  · exact .inr (by decide)
  split
  · exact .inr (by decide)
  split
  · exact .inr (by decide)
  split
  · exact .inr (by decide)
  split
  · exact .inr (by decide)
  split
  · exact .inr (by decide)
  split
  · exact .inr (by simp [hexEscape])
  · exact .inl rfl

/-- A text that needs no escapes is written as it is. -/
theorem escapeJson_same : ∀ (n : Nat) (s : Bytes), s.length ≤ n → 92 ∉ escapeJson n s → escapeJson n s = s
  | 0, s, h, _ => by
    have : s = [] := List.length_eq_zero_iff.1 (by omega)
    subst this
    rfl
  | _ + 1, [], _, _ => rfl
  | n + 1, c :: r, h, hn => by
    rw [escapeJson] at hn ⊢
    split at hn
    · exact absurd (List.mem_append_left _ (by decide)) hn
    · rename_i h1
      split at hn
      · exact absurd (List.mem_append_left _ (by decide)) hn
      · rename_i h2
        rw [if_neg h1, if_neg h2]
        rw [List.mem_append, not_or] at hn
        rcases escapeByte_or c with he | he
        · rw [he, escapeJson_same n r (by simp at h; omega) hn.2]
          rfl
        · exact absurd he hn.1

theorem looseText_plain {s : Bytes} {t : Time} (h : Spec.LooseText s t) : ∀ c ∈ s, plainByte c = true := by
  obtain ⟨-, y, mo, d, hh, mi, se, fr, z, rfl, l1, l2, l3, l4, l5, l6, ⟨n, hy, e1⟩, e2, e3, e4, e5, e6, hf, hz⟩ := h
  rw [spec_decimal_iff] at e1 e2 e3 e4 e5 e6
  intro c hc
  simp only [List.mem_append, List.mem_singleton] at hc
  rcases hc with ((((((((((((h | h) | h) | h) | h) | h) | h) | h) | h) | h) | h) | h) | h)
  · exact plainByte_digit (e1.1 c h)
  · subst h; decide
  · exact plainByte_digit (e2.1 c h)
  · subst h; decide
  · exact plainByte_digit (e3.1 c h)
  · subst h; decide
  · exact plainByte_digit (e4.1 c h)
  · subst h; decide
  · exact plainByte_digit (e5.1 c h)
  · subst h; decide
  · exact plainByte_digit (e6.1 c h)
  · rcases hf with ⟨rfl, _⟩ | ⟨x, f, m, rfl, hx, _, hd, _⟩
    · simp at h
    · rw [spec_decimal_iff] at hd
      rcases List.mem_cons.1 h with rfl | h
      · rcases hx with rfl | rfl <;> decide
      · exact plainByte_digit (hd.1 c h)
  · exact zoneText_plain hz c h

/-- What the client takes for a time. -/
theorem decodeClientTime_iff (zone : LocalZone) (s : Bytes) (t : Time) : decodeClientTime zone (.str s) = some t ↔ Spec.LooseText s t := by
  unfold decodeClientTime
  rw [rfcLayout_eq]
  constructor
  · intro h
    have hl := rfcLayout_inv zone h
    have hp := looseText_plain hl
    rw [escapeJson_same _ _ (Nat.le_refl _) fun h => absurd (hp _ h) (by decide)] at hl
    exact hl
  · intro h
    simp only
    rw [escapeJson_plain (looseText_plain h)]
    exact rfcLayout_loose zone h

end Metro2
