import Verif.Lemmas.DateText
import Verif.Spec.MonthText

/-! Reading dates with names of months. -/

namespace Metro2

/-! ### Names in any letters -/

/-- The capital letter of a small letter. -/
def capitalOf (c : UInt8) : UInt8 := if 97 ≤ c.toNat ∧ c.toNat ≤ 122 then c - 32 else c

/-- All ways to write a name in small and capital letters. -/
def casings : Bytes → List Bytes
  | [] => [[]]
  | c :: r => (casings r).flatMap fun x => [c :: x, capitalOf c :: x]

theorem monthByte_cases (c : UInt8) : c = Spec.lowerByte c ∨ c = capitalOf (Spec.lowerByte c) := by
  have h : ∀ n : Fin 256, (fun c : UInt8 => c = Spec.lowerByte c ∨ c = capitalOf (Spec.lowerByte c)) ⟨⟨n⟩⟩ := by decide +kernel
  exact h c.toFin

theorem mem_casings (w : Bytes) : w ∈ casings (Spec.lower w) := by
  induction w with
  | nil => exact List.mem_singleton.2 rfl
  | cons c w ih =>
    show c :: w ∈ (casings (Spec.lower w)).flatMap fun x => [Spec.lowerByte c :: x, capitalOf (Spec.lowerByte c) :: x]
    refine List.mem_flatMap.2 ⟨w, ih, ?_⟩
    rcases monthByte_cases c with h | h
    · rw [← h]; simp
    · rw [← h]; simp

/-! ### Tables of names -/

theorem afterName_append {n s r x : Bytes} (h : afterName n s = some r) : afterName n (s ++ x) = some (r ++ x) := by
  induction n generalizing s with
  | nil => simp only [afterName, Option.some.injEq] at h ⊢; rw [h]
  | cons a n ih =>
    cases s with
    | nil => simp [afterName] at h
    | cons b s =>
      simp only [afterName, List.cons_append] at h ⊢
      by_cases hm : matchByte b a = true
      · rw [if_pos hm] at h ⊢; exact ih h
      · rw [if_neg hm] at h; cases h

/-- The name has no byte that a blank could stand for. -/
def blankless (n : Bytes) : Bool := n.all fun c => !matchByte 32 c

theorem afterName_none {n w x : Bytes} (hn : blankless n = true) (h : afterName n (w ++ [32]) = none) :
    afterName n (w ++ 32 :: x) = none := by
  induction n generalizing w with
  | nil => simp [afterName] at h
  | cons a n ih =>
    simp only [blankless, List.all_cons, Bool.and_eq_true, Bool.not_eq_true'] at hn
    cases w with
    | nil => simp only [List.nil_append, afterName, hn.1, Bool.false_eq_true, if_false]
    | cons b w =>
      simp only [afterName, List.cons_append] at h ⊢
      by_cases hm : matchByte b a = true
      · rw [if_pos hm] at h ⊢; exact ih hn.2 h
      · rw [if_neg hm]

theorem lookupName_append {names : List Bytes} (hn : names.all blankless = true) {w x : Bytes} {r : Bytes} {i : Nat}
    (h : lookupName (w ++ [32]) names = some (i, r)) : lookupName (w ++ 32 :: x) names = some (i, r ++ x) := by
  induction names generalizing i r with
  | nil => cases h
  | cons n names ih =>
    simp only [List.all_cons, Bool.and_eq_true] at hn
    unfold lookupName at h ⊢
    cases ha : afterName n (w ++ [32]) with
    | some q =>
      rw [ha] at h
      simp only [Option.some.injEq, Prod.mk.injEq] at h
      have := afterName_append (x := x) ha
      rw [List.append_assoc] at this
      rw [show w ++ 32 :: x = w ++ ([32] ++ x) from rfl, this]
      simp only [h]
    | none =>
      rw [ha] at h
      rw [afterName_none hn.1 ha]
      simp only at h ⊢
      cases hl : lookupName (w ++ [32]) names with
      | none => rw [hl] at h; cases h
      | some y =>
        rw [hl] at h
        obtain ⟨j, q⟩ := y
        simp only [Option.map_some, Option.some.injEq, Prod.mk.injEq] at h
        rw [ih hn.2 hl]
        simp only [Option.map_some, h]

/-! ### Layouts -/

/-- The shape of 02 Jan 2006 with the given name. -/
def monthShape (name : Bytes) : List Cls :=
  List.replicate 2 .dig ++ ([.is 32] ++ (name.map .is ++ ([.is 32] ++ List.replicate 4 .dig)))

def namedLayout (ed em : Elem) : DateLayout := ⟨[([], ed), ([32], em), ([32], .longYear)], []⟩

theorem named_layouts : DateLayout.of (b! "02 Jan 2006") = namedLayout .zeroDay .month ∧
    DateLayout.of (b! "2 Jan 2006") = namedLayout .day .month ∧
    DateLayout.of (b! "2 January 2006") = namedLayout .day .longMonth := by decide +kernel

/-- What the name reads as in a table, and the layouts that may read a text with it. -/
def readsShort (k : Nat) (w : Bytes) : Bool :=
  let fs := dateFormats.filter fun f => !Refuses (monthShape w) f
  decide (w.head? ≠ some 32 ∧ w ≠ [] ∧ lookupName (w ++ [32]) shortMonthNames = some (k, [32]) ∧
    (fs = [b! "02 Jan 2006", b! "2 Jan 2006"] ∨
      (fs = [b! "02 Jan 2006", b! "2 Jan 2006", b! "2 January 2006"] ∧ lookupName (w ++ [32]) longMonthNames = some (k, [32]))))

def readsLong (k : Nat) (w : Bytes) : Bool :=
  decide (w.head? ≠ some 32 ∧ w ≠ [] ∧ lookupName (w ++ [32]) longMonthNames = some (k, [32]) ∧
    (dateFormats.filter fun f => !Refuses (monthShape w) f) = [b! "2 January 2006"])

def shortOk (k : Nat) : Bool := (Spec.monthNames[k]?).all fun names => (casings names.1).all (readsShort k)

def longOk (k : Nat) : Bool := (Spec.monthNames[k]?).all fun names => names.1 == names.2 || (casings names.2).all (readsLong k)

theorem shortOk_all : ∀ k < 12, shortOk k = true := by decide +kernel
theorem longOk_0 : longOk 0 = true := by decide +kernel
theorem longOk_1 : longOk 1 = true := by decide +kernel
theorem longOk_2 : longOk 2 = true := by decide +kernel
theorem longOk_3 : longOk 3 = true := by decide +kernel
theorem longOk_4 : longOk 4 = true := by decide +kernel
theorem longOk_5 : longOk 5 = true := by decide +kernel
theorem longOk_6 : longOk 6 = true := by decide +kernel
theorem longOk_7 : longOk 7 = true := by decide +kernel
theorem longOk_8 : longOk 8 = true := by decide +kernel
theorem longOk_9 : longOk 9 = true := by decide +kernel
theorem longOk_10 : longOk 10 = true := by decide +kernel
theorem longOk_11 : longOk 11 = true := by decide +kernel

theorem longOk_all (k : Nat) (h : k < 12) : longOk k = true := by
  match k, h with
  | 0, _ => exact longOk_0
  | 1, _ => exact longOk_1
  | 2, _ => exact longOk_2
  | 3, _ => exact longOk_3
  | 4, _ => exact longOk_4
  | 5, _ => exact longOk_5
  | 6, _ => exact longOk_6
  | 7, _ => exact longOk_7
  | 8, _ => exact longOk_8
  | 9, _ => exact longOk_9
  | 10, _ => exact longOk_10
  | 11, _ => exact longOk_11

theorem short_filter {k : Nat} (hk : k < 12) {names : Bytes × Bytes} (hn : Spec.monthNames[k]? = some names) {w : Bytes}
    (hw : w ∈ casings names.1) : readsShort k w = true := by
  have := shortOk_all k hk
  unfold shortOk at this
  rw [hn] at this
  exact List.all_eq_true.1 this w hw

theorem long_filter {k : Nat} (hk : k < 12) {names : Bytes × Bytes} (hn : Spec.monthNames[k]? = some names) (hne : names.1 ≠ names.2) {w : Bytes}
    (hw : w ∈ casings names.2) : readsLong k w = true := by
  have := longOk_all k hk
  unfold longOk at this
  rw [hn] at this
  simp only [Option.all_some, Bool.or_eq_true, beq_iff_eq] at this
  exact List.all_eq_true.1 (this.resolve_left hne) w hw

theorem shaped_name (w : Bytes) : shaped (w.map .is) w = true := by
  induction w with
  | nil => rfl
  | cons c w ih => simp only [List.map_cons, shaped, Cls.has, ih, beq_self_eq_true, Bool.and_self]

theorem elems_name {final v w rest : Bytes} {e : Elem} {es : List (Bytes × Elem)} {a : Parsed} {names : List Bytes} {k : Nat}
    (he : ∀ s next, parseElem a s next e = parseName names (fun i => { a with month := i + 1 }) s) (hw : w.head? ≠ some 32) (hw0 : w ≠ [])
    (hv : v = 32 :: (w ++ 32 :: rest)) (hn : names.all blankless = true) (hl : lookupName (w ++ [32]) names = some (k, [32])) :
    parseElems final a v (([32], e) :: es) = parseElems final { a with month := k + 1 } (32 :: rest) es := by
  subst hv
  obtain ⟨c, w', rfl⟩ := List.exists_cons_of_ne_nil hw0
  have hc : c ≠ 32 := by intro h; subst h; exact hw rfl
  rw [parseElems]
  rw [show skip [32] (32 :: (c :: w' ++ 32 :: rest)) = some (c :: w' ++ 32 :: rest) from skip_space hc _]
  simp only [he, parseName, lookupName_append hn hl]
  rfl

/-- A layout with a name reads the text. -/
theorem parse_named (loc : LocalZone) {ed em : Elem} {fixed : Bool} {names : List Bytes}
    (h1 : ∀ a s next, parseElem a s next ed = parseNum fixed 0 99 (fun d => { a with day := d }) s)
    (h2 : ∀ a s next, parseElem a s next em = parseName names (fun i => { a with month := i + 1 }) s)
    (hn : names.all blankless = true) {sd w sy : Bytes} {d y k : Nat} (l1 : sd.length = 2) (l3 : sy.length = 4)
    (d1 : ∀ c ∈ sd, isDigit c = true) (d3 : ∀ c ∈ sy, isDigit c = true) (v1 : digitsVal sd = d) (v3 : digitsVal sy = y)
    (hw : w.head? ≠ some 32) (hw0 : w ≠ []) (hl : lookupName (w ++ [32]) names = some (k, [32])) :
    (namedLayout ed em).parse loc (sd ++ 32 :: (w ++ 32 :: sy)) =
      if d < 1 ∨ daysIn (k + 1) (y : Int) < d then none else some (Spec.dayOf (k + 1) d y) := by
  have hd : d ≤ 99 := by
    have := digitsVal_lt sd d1
    rw [l1, v1] at this
    omega
  unfold DateLayout.parse namedLayout
  simp only
  rw [elems_num (skip_nil _) (h1 _) l1 d1 v1, if_neg (by omega), elems_name (h2 _) hw hw0 rfl hn hl,
    elems_year (rest := []) (by rw [List.append_nil]; have := skip_space_digits l3 d3 []; rw [List.append_nil] at this; exact this) l3 d3 v3,
    elems_end (skip_nil _)]
  simp only
  exact finish_day loc (by omega) _ rfl

theorem parseDate_month (loc : LocalZone) {s : Bytes} {d m y : Nat} (h : Spec.MonthText s d m y) :
    parseDate loc s = if 1 ≤ d ∧ d ≤ daysIn m (y : Int) then some (Spec.dayOf m d y) else none := by
  obtain ⟨sd, w, sy, rfl, l1, l3, e1, e3, k, names, rfl, hk, hw⟩ := h
  rw [spec_decimal_iff] at e1 e3
  have hk12 : k < 12 := by
    have := (List.getElem?_eq_some_iff.1 hk).1
    simpa [Spec.monthNames] using this
  simp only [List.append_assoc, List.cons_append, List.nil_append]
  have hs : shaped (monthShape w) (sd ++ 32 :: (w ++ 32 :: sy)) = true :=
    shaped_append (shaped_digits l1 e1.1) (shaped_append (s := [32]) (by decide) (shaped_append (shaped_name w)
      (shaped_append (s := [32]) (by decide) (shaped_digits l3 e3.1))))
  obtain ⟨c, hc, hcd⟩ := head_digits (r := 32 :: (w ++ 32 :: sy)) l1 e1.1
  obtain ⟨c', hc', hcd'⟩ := last_digits (r := sd ++ 32 :: (w ++ [32])) l3 e3.1
  have hlast : (sd ++ 32 :: (w ++ 32 :: sy)).getLast? = some c' := by
    rw [← hc']; simp
  have hif : (if d < 1 ∨ daysIn (k + 1) (y : Int) < d then none else some (Spec.dayOf (k + 1) d y)) =
      if 1 ≤ d ∧ d ≤ daysIn (k + 1) (y : Int) then some (Spec.dayOf (k + 1) d y) else none := by
    by_cases q : d < 1 ∨ daysIn (k + 1) (y : Int) < d
    · rw [if_pos q, if_neg (by omega)]
    · rw [if_neg q, if_pos (by omega)]
  have hb1 : shortMonthNames.all blankless = true := by decide
  have hb2 : longMonthNames.all blankless = true := by decide
  have twice : ∀ o : Option Time, (match o with | some t => some t | none => o) = o := by intro o; cases o <;> rfl
  have key : (w ∈ casings names.1) ∨ (names.1 ≠ names.2 ∧ w ∈ casings names.2) := by
    rcases hw with h | h
    · exact Or.inl (h ▸ mem_casings w)
    · by_cases hq : names.1 = names.2
      · exact Or.inl (by rw [hq, ← h]; exact mem_casings w)
      · exact Or.inr ⟨hq, h ▸ mem_casings w⟩
  rcases key with hm | ⟨hne, hm⟩
  · have := of_decide_eq_true (short_filter hk12 hk hm)
    obtain ⟨hw1, hw0, hl, hf⟩ := this
    have p1 := parse_named loc (ed := .zeroDay) (em := .month) (fun _ _ _ => rfl) (fun _ _ _ => rfl) hb1 l1 l3 e1.1 e3.1 e1.2 e3.2 hw1 hw0 hl
    have p2 := parse_named loc (ed := .day) (em := .month) (fun _ _ _ => rfl) (fun _ _ _ => rfl) hb1 l1 l3 e1.1 e3.1 e1.2 e3.2 hw1 hw0 hl
    rcases hf with hf | ⟨hf, hl2⟩
    · rw [parseDate_shaped hs hf hc hlast (digit_visible hcd) (digit_visible hcd')]
      simp only [parseFirst, named_layouts.1, named_layouts.2.1, p1, p2, hif]
      split <;> simp_all
    · have p3 := parse_named loc (ed := .day) (em := .longMonth) (fun _ _ _ => rfl) (fun _ _ _ => rfl) hb2 l1 l3 e1.1 e3.1 e1.2 e3.2 hw1 hw0 hl2
      rw [parseDate_shaped hs hf hc hlast (digit_visible hcd) (digit_visible hcd')]
      simp only [parseFirst, named_layouts.1, named_layouts.2.1, named_layouts.2.2, p1, p2, p3, hif]
      split <;> simp_all
  · have := of_decide_eq_true (long_filter hk12 hk hne hm)
    obtain ⟨hw1, hw0, hl, hf⟩ := this
    have p3 := parse_named loc (ed := .day) (em := .longMonth) (fun _ _ _ => rfl) (fun _ _ _ => rfl) hb2 l1 l3 e1.1 e3.1 e1.2 e3.2 hw1 hw0 hl
    rw [parseDate_shaped hs hf hc hlast (digit_visible hcd) (digit_visible hcd')]
    simp only [parseFirst, named_layouts.2.2, p3, hif]
    split <;> simp_all

end Metro2
