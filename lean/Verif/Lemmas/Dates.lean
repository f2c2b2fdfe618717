import Verif.Model.Dates
import Verif.Lemmas.Time

/-! Reading date texts: which layouts cannot read a text of a given shape. -/

namespace Metro2

/-! ### Shapes of texts -/

/-- A digit, or a given byte. -/
inductive Cls where
  | dig
  | is (c : UInt8)
deriving DecidableEq

def Cls.has : Cls → UInt8 → Bool
  | .dig, b => isDigit b
  | .is c, b => b == c

def Cls.digit : Cls → Bool
  | .dig => true
  | .is c => isDigit c

/-- The text has the shape. -/
def shaped : List Cls → Bytes → Bool
  | [], [] => true
  | c :: p, b :: s => c.has b && shaped p s
  | _, _ => false

theorem shaped_cons {c : Cls} {p : List Cls} {s : Bytes} (h : shaped (c :: p) s = true) :
    ∃ b r, s = b :: r ∧ c.has b = true ∧ shaped p r = true := by
  cases s with
  | nil => simp [shaped] at h
  | cons b r =>
    simp only [shaped, Bool.and_eq_true] at h
    exact ⟨b, r, rfl, h⟩

theorem shaped_nil {s : Bytes} (h : shaped [] s = true) : s = [] := by
  cases s with
  | nil => rfl
  | cons b r => simp [shaped] at h

theorem Cls.has_digit {c : Cls} {b : UInt8} (h : c.has b = true) : isDigit b = c.digit := by
  cases c with
  | dig => exact h
  | is c => simp only [Cls.has, beq_iff_eq] at h; subst h; rfl

theorem shaped_append {p q : List Cls} {s t : Bytes} (h : shaped p s = true) (h' : shaped q t = true) :
    shaped (p ++ q) (s ++ t) = true := by
  induction p generalizing s with
  | nil => rw [shaped_nil h]; exact h'
  | cons c p ih =>
    obtain ⟨b, r, rfl, hb, hr⟩ := shaped_cons h
    simp only [List.cons_append, shaped, hb, ih hr, Bool.and_self]

theorem shaped_digits {n : Nat} {s : Bytes} (hl : s.length = n) (h : ∀ c ∈ s, isDigit c = true) :
    shaped (List.replicate n .dig) s = true := by
  subst hl
  induction s with
  | nil => rfl
  | cons b r ih =>
    simp only [List.length_cons, List.replicate_succ, shaped, Cls.has, h b (by simp), Bool.true_and]
    exact ih fun c hc => h c (by simp [hc])

/-- What is known of the result of a step on a text of a given shape. -/
inductive Known where
  | fails
  | rest (p : List Cls)
  | unknown

/-- The result of a step is as known. -/
def Known.ok {α : Type} (k : Known) (r : Option (α × Bytes)) : Prop :=
  match k with
  | .fails => r = none
  | .rest p => ∀ x, r = some x → shaped p x.2 = true
  | .unknown => True

/-! ### Literal text -/

def Cls.space : Cls → Bool
  | .dig => false
  | .is c => c == 32

theorem Cls.has_space {c : Cls} {b : UInt8} (h : c.has b = true) : (b == 32) = c.space := by
  cases c with
  | dig =>
    have := (isDigit_iff b).1 h
    simp only [Cls.space, beq_eq_false_iff_ne, ne_eq]
    rintro rfl
    revert this
    decide
  | is c => simp only [Cls.has, beq_iff_eq] at h; subst h; rfl

theorem shaped_cutspace {p : List Cls} {s : Bytes} (h : shaped p s = true) :
    shaped (p.dropWhile Cls.space) (cutspace s) = true := by
  induction p generalizing s with
  | nil => rw [shaped_nil h]; rfl
  | cons c p ih =>
    obtain ⟨b, r, rfl, hb, hr⟩ := shaped_cons h
    unfold cutspace
    rw [List.dropWhile_cons, List.dropWhile_cons, Cls.has_space hb]
    by_cases hc : c.space = true
    · rw [if_pos hc, if_pos hc]; exact ih hr
    · rw [if_neg hc, if_neg hc]; exact h

/-- `skipAux` on shapes; `none` if it surely fails. -/
def skipShape : Nat → Bytes → List Cls → Option (List Cls)
  | _, [], p => some p
  | 0, _ :: _, _ => none
  | fuel + 1, l :: ls, p =>
    if l = 32 then
      match p with
      | c :: _ => if c.space then skipShape fuel (cutspace ls) (p.dropWhile Cls.space) else none
      | [] => skipShape fuel (cutspace ls) []
    else
      match p with
      | .dig :: p' => if isDigit l then skipShape fuel ls p' else none
      | .is c :: p' => if c = l then skipShape fuel ls p' else none
      | [] => none

theorem skipShape_ok {fuel : Nat} {ls : Bytes} {p : List Cls} {s : Bytes} (h : shaped p s = true) :
    match skipShape fuel ls p with
    | none => skipAux fuel ls s = none
    | some q => ∀ r, skipAux fuel ls s = some r → shaped q r = true := by
  induction fuel generalizing ls p s with
  | zero =>
    cases ls with
    | nil => simp only [skipShape, skipAux]; intro r hr; cases hr; exact h
    | cons l ls => simp only [skipShape, skipAux]
  | succ fuel ih =>
    cases ls with
    | nil => simp only [skipShape, skipAux]; intro r hr; cases hr; exact h
    | cons l ls =>
      unfold skipShape skipAux
      by_cases hl : l = 32
      · rw [if_pos hl, if_pos hl]
        cases p with
        | nil => rw [shaped_nil h]; exact ih (by rfl)
        | cons c p =>
          have hcut := shaped_cutspace h
          obtain ⟨b, r, rfl, hb, hr⟩ := shaped_cons h
          have := Cls.has_space hb
          by_cases hc : c.space = true
          · have hb' : b = 32 := by rw [hc] at this; exact beq_iff_eq.1 this
            simp only [hc, if_true, hb']
            subst hb'
            exact ih hcut
          · have hb' : ¬ b = 32 := by
              intro e; apply hc; rw [← this, e]; rfl
            simp only [if_neg hc, if_neg hb']
      · rw [if_neg hl, if_neg hl]
        cases p with
        | nil => rw [shaped_nil h]
        | cons c p =>
          obtain ⟨b, r, rfl, hb, hr⟩ := shaped_cons h
          cases c with
          | dig =>
            by_cases hd : isDigit l = true
            · simp only [if_pos hd]
              by_cases hbl : b = l
              · rw [if_pos hbl]; exact ih hr
              · rw [if_neg hbl]
                cases hk : skipShape fuel ls p with
                | none => rfl
                | some q => intro r hr; cases hr
            · have : ¬ b = l := by rintro rfl; exact hd hb
              simp only [if_neg hd, if_neg this]
          | is c =>
            simp only [Cls.has, beq_iff_eq] at hb
            subst hb
            by_cases hbl : b = l
            · simp only [if_pos hbl]; exact ih hr
            · simp only [if_neg hbl]

/-! ### Elements -/

/-- The shape behind a number of one or two digits. -/
def numShape (fixed : Bool) : List Cls → Option (List Cls)
  | [] => none
  | [c] => if c.digit ∧ ¬ fixed then some [] else none
  | c :: d :: p =>
    if ¬ c.digit then none
    else if ¬ d.digit then (if fixed then none else some (d :: p))
    else some p

theorem numShape_ok {fixed : Bool} {p : List Cls} {s : Bytes} (h : shaped p s = true) :
    match numShape fixed p with
    | none => getnum fixed s = none
    | some q => ∀ x, getnum fixed s = some x → shaped q x.2 = true := by
  match p with
  | [] => rw [shaped_nil h]; rfl
  | [c] =>
    obtain ⟨b, r, rfl, hb, hr⟩ := shaped_cons h
    rw [shaped_nil hr]
    simp only [numShape, getnum, Cls.has_digit hb]
    by_cases hc : c.digit = true ∧ ¬ fixed = true
    · rw [if_pos hc, if_pos hc]; rintro x ⟨⟩; rfl
    · rw [if_neg hc, if_neg hc]
  | c :: d :: p =>
    obtain ⟨b, r, rfl, hb, hr⟩ := shaped_cons h
    obtain ⟨b', r', rfl, hb', hr'⟩ := shaped_cons hr
    simp only [numShape, getnum, Cls.has_digit hb, Cls.has_digit hb']
    by_cases hc : c.digit = true
    · rw [if_neg (not_not_intro hc), if_neg (not_not_intro hc)]
      by_cases hd : d.digit = true
      · rw [if_neg (not_not_intro hd), if_neg (not_not_intro hd)]; rintro x ⟨⟩; exact hr'
      · rw [if_pos hd, if_pos hd]
        cases fixed
        · simp only [Bool.false_eq_true, if_false]; rintro x ⟨⟩; exact hr
        · simp only [if_true]
    · rw [if_pos hc, if_pos hc]

/-- The shape behind a name. -/
def nameShape : Bytes → List Cls → Option (List Cls)
  | [], p => some p
  | _ :: _, [] => none
  | a :: n, c :: p =>
    match c with
    | .dig => none
    | .is b => if matchByte b a then nameShape n p else none

/-- The name consists of letters. -/
def letters (n : Bytes) : Bool := n.all fun a => (List.range 10).all fun d => !matchByte (digit d) a

theorem nameShape_ok {n : Bytes} (hn : letters n = true) {p : List Cls} {s : Bytes} (h : shaped p s = true) :
    match nameShape n p with
    | none => afterName n s = none
    | some q => ∃ r, afterName n s = some r ∧ shaped q r = true := by
  induction n generalizing p s with
  | nil => exact ⟨s, rfl, h⟩
  | cons a n ih =>
    simp only [letters, List.all_cons, Bool.and_eq_true] at hn
    obtain ⟨h1, h2⟩ := hn
    cases p with
    | nil => rw [shaped_nil h]; rfl
    | cons c p =>
      obtain ⟨b, r, rfl, hb, hr⟩ := shaped_cons h
      cases c with
      | dig =>
        simp only [nameShape, afterName]
        have : matchByte b a = false := by
          have hd := digit_eq_of_isDigit hb
          have hlt := (isDigit_iff b).1 hb
          have := (List.all_eq_true.1 h1) (b.toNat - 48) (by simp only [List.mem_range]; omega)
          rw [hd] at this
          simpa using this
        rw [this]; rfl
      | is c =>
        simp only [Cls.has, beq_iff_eq] at hb
        subst hb
        simp only [nameShape, afterName]
        by_cases hm : matchByte b a = true
        · rw [if_pos hm, if_pos hm]; exact ih h2 hr
        · rw [if_neg hm, if_neg hm]

/-- The shape behind a name of a table. -/
def tableShape (p : List Cls) : List Bytes → Option (List Cls)
  | [] => none
  | n :: names =>
    match nameShape n p with
    | some q => some q
    | none => tableShape p names

theorem tableShape_ok {names : List Bytes} (hn : names.all letters = true) {p : List Cls} {s : Bytes}
    (h : shaped p s = true) :
    match tableShape p names with
    | none => lookupName s names = none
    | some q => ∀ x, lookupName s names = some x → shaped q x.2 = true := by
  induction names with
  | nil => rfl
  | cons n names ih =>
    simp only [List.all_cons, Bool.and_eq_true] at hn
    have h1 := nameShape_ok hn.1 h
    have h2 := ih hn.2
    unfold tableShape lookupName
    cases hk : nameShape n p with
    | some q =>
      rw [hk] at h1
      obtain ⟨r, hr, hq⟩ := h1
      simp only [hr]
      rintro x ⟨⟩
      exact hq
    | none =>
      rw [hk] at h1
      simp only at h1
      simp only [h1]
      cases ht : tableShape p names with
      | none => rw [ht] at h2; simp only at h2; simp only [h2, Option.map_none]
      | some q =>
        rw [ht] at h2
        simp only at h2
        intro x hx
        cases hl : lookupName s names with
        | none => rw [hl] at hx; simp at hx
        | some y =>
          rw [hl] at hx
          simp only [Option.map_some, Option.some.injEq] at hx
          rw [← hx]
          exact h2 y hl

/-- A shape or a failure. -/
def Known.of : Option (List Cls) → Known
  | some q => .rest q
  | none => .fails

/-- A numeric zone of `n` bytes. -/
def zoneShape (n : Nat) (p : List Cls) : Known :=
  if p.length < n then .fails
  else match p with
    | c :: _ => if c = .is 43 ∨ c = .is 45 then .unknown else .fails
    | [] => .fails

/-- Seconds, possibly followed by a fraction; `next` is the next element of the layout. -/
def secondShape (fixed : Bool) (next : Option Elem) (p : List Cls) : Known :=
  match numShape fixed p with
  | none => .fails
  | some (c :: d :: q) =>
    if (c = .is 46 ∨ c = .is 44) ∧ d.digit = true then
      match next with
      | some (.frac0 _) => .rest (c :: d :: q)
      | _ => .rest ((d :: q).dropWhile Cls.digit)
    else .rest (c :: d :: q)
  | some q => .rest q

/-- A four-digit year. -/
def longYearShape : List Cls → Known
  | a :: b :: c :: d :: q => if a.digit && b.digit && c.digit && d.digit then .rest q else .fails
  | _ => .fails

/-- A two-digit year. -/
def yearShape : List Cls → Known
  | _ :: b :: q => if b.digit then .rest q else .unknown
  | _ => .fails

/-- What is known of an element. -/
def elemShape (p : List Cls) (next : Option Elem) (e : Elem) : Known :=
  match e with
  | .longYear => longYearShape p
  | .year => yearShape p
  | .numMonth => Known.of (numShape false p)
  | .day => Known.of (numShape false p)
  | .hour => Known.of (numShape false p)
  | .hour12 => Known.of (numShape false p)
  | .minute => Known.of (numShape false p)
  | .zeroMonth => Known.of (numShape true p)
  | .zeroDay => Known.of (numShape true p)
  | .zeroHour12 => Known.of (numShape true p)
  | .zeroMinute => Known.of (numShape true p)
  | .month => Known.of (tableShape p shortMonthNames)
  | .longMonth => Known.of (tableShape p longMonthNames)
  | .weekDay => Known.of (tableShape p shortDayNames)
  | .longWeekDay => Known.of (tableShape p longDayNames)
  | .second => secondShape false next p
  | .zeroSecond => secondShape true next p
  | .numTZ => zoneShape 5 p
  | .numSecondsTZ => zoneShape 7 p
  | .numShortTZ => zoneShape 3 p
  | .numColonTZ => zoneShape 6 p
  | .numColonSecondsTZ => zoneShape 9 p
  | _ => .unknown

theorem shaped_length {p : List Cls} {s : Bytes} (h : shaped p s = true) : s.length = p.length := by
  induction p generalizing s with
  | nil => rw [shaped_nil h]; rfl
  | cons c p ih =>
    obtain ⟨b, r, rfl, hb, hr⟩ := shaped_cons h
    simp [ih hr]

theorem parseNum_known {fixed : Bool} {lo hi : Nat} {f : Nat → Parsed} {p : List Cls} {s : Bytes} (h : shaped p s = true) :
    (Known.of (numShape fixed p)).ok (parseNum fixed lo hi f s) := by
  have := numShape_ok (fixed := fixed) h
  unfold parseNum
  cases hk : numShape fixed p with
  | none => rw [hk] at this; simp only at this; rw [this]; rfl
  | some q =>
    rw [hk] at this
    simp only at this
    intro x hx
    cases hg : getnum fixed s with
    | none => rw [hg] at hx; simp at hx
    | some y =>
      rw [hg] at hx
      obtain ⟨n, r⟩ := y
      simp only at hx
      split at hx
      · simp at hx
      · cases hx; exact this _ hg

theorem parseName_known {names : List Bytes} (hn : names.all letters = true) {f : Nat → Parsed} {p : List Cls} {s : Bytes}
    (h : shaped p s = true) : (Known.of (tableShape p names)).ok (parseName names f s) := by
  have := tableShape_ok hn h
  unfold parseName
  cases hk : tableShape p names with
  | none => rw [hk] at this; simp only at this; rw [this]; rfl
  | some q =>
    rw [hk] at this
    simp only at this
    intro x hx
    cases hg : lookupName s names with
    | none => rw [hg] at hx; simp at hx
    | some y =>
      rw [hg] at hx
      obtain ⟨n, r⟩ := y
      cases hx
      exact this _ hg

theorem cls_point {c : Cls} {b : UInt8} (h : c.has b = true) : (b = 46 ∨ b = 44) ↔ (c = .is 46 ∨ c = .is 44) := by
  cases c with
  | dig =>
    constructor
    · rintro (rfl | rfl) <;> exact absurd h (by decide)
    · rintro (h | h) <;> cases h
  | is c =>
    simp only [Cls.has, beq_iff_eq] at h
    subst h
    simp only [Cls.is.injEq]

theorem shaped_digitRun {p : List Cls} {s : Bytes} (h : shaped p s = true) :
    shaped (p.dropWhile Cls.digit) (s.drop (digitRun s)) = true := by
  induction p generalizing s with
  | nil => rw [shaped_nil h]; rfl
  | cons c p ih =>
    obtain ⟨b, r, rfl, hb, hr⟩ := shaped_cons h
    have hd := Cls.has_digit hb
    rw [List.dropWhile_cons]
    unfold digitRun
    rw [List.takeWhile_cons, hd]
    by_cases hc : c.digit = true
    · rw [if_pos hc, if_pos hc, List.length_cons, List.drop_succ_cons]
      exact ih hr
    · rw [if_neg hc, if_neg hc]
      exact h

theorem parseSeconds_known {fixed : Bool} {a : Parsed} {next : Option Elem} {p : List Cls} {s : Bytes} (h : shaped p s = true) :
    (secondShape fixed next p).ok (parseSeconds fixed a s next) := by
  have := numShape_ok (fixed := fixed) h
  unfold secondShape parseSeconds
  cases hk : numShape fixed p with
  | none => rw [hk] at this; simp only at this; rw [this]; rfl
  | some q =>
    rw [hk] at this
    simp only at this
    cases hg : getnum fixed s with
    | none =>
      have all : ∀ k : Known, k ≠ .fails → k.ok (none : Option (Parsed × Bytes)) := by
        intro k _
        cases k with
        | fails => rfl
        | rest q => intro x hx; cases hx
        | unknown => trivial
      apply all
      split
      · next h => cases h
      · split
        · split <;> simp
        · simp
      · simp
    | some y =>
      obtain ⟨n, r⟩ := y
      have hr := this _ hg
      simp only at hr ⊢
      match q, hr with
      | [], hr =>
        rw [shaped_nil hr]
        intro x hx
        simp only at hx
        split at hx <;> cases hx
        rfl
      | [c], hr =>
        obtain ⟨b, r', rfl, hb, hr'⟩ := shaped_cons hr
        have := shaped_nil hr'
        subst this
        intro x hx
        simp only at hx
        split at hx <;> cases hx
        exact hr
      | c :: d :: q, hr =>
        obtain ⟨b, r', rfl, hb, hr'⟩ := shaped_cons hr
        obtain ⟨b', r'', rfl, hb', hr''⟩ := shaped_cons hr'
        simp only
        have hiff : ((b = 46 ∨ b = 44) ∧ isDigit b' = true) ↔ ((c = .is 46 ∨ c = .is 44) ∧ d.digit = true) := by
          rw [Cls.has_digit hb', cls_point hb]
        by_cases hc : (c = .is 46 ∨ c = .is 44) ∧ d.digit = true
        · simp only [if_pos hc, if_pos (hiff.2 hc)]
          have hrun : shaped ((d :: q).dropWhile Cls.digit) ((b :: b' :: r'').drop (1 + digitRun (b' :: r''))) = true := by
            rw [Nat.add_comm, List.drop_succ_cons]
            exact shaped_digitRun hr'
          split
          · intro x hx
            split at hx <;> cases hx
            exact hr
          · intro x hx
            split at hx
            · cases hx
            · next hne _ =>
              split at hx
              · next _ k => exact absurd rfl (hne k)
              · split at hx <;> cases hx
                exact hrun
        · simp only [if_neg hc, if_neg (fun h => hc (hiff.1 h))]
          intro x hx
          split at hx <;> cases hx
          exact hr

theorem zoneOffset_head {a : Parsed} {sign : Option UInt8} {h m s r : Bytes} (hs : ¬ (sign = some 43 ∨ sign = some 45)) :
    zoneOffset a sign h m s r = none := by
  simp only [not_or] at hs
  unfold zoneOffset
  split
  · split
    · rfl
    · rw [if_neg hs.1, if_neg hs.2]
  · rfl

theorem cls_sign {c : Cls} {b : UInt8} (h : c.has b = true) (hc : ¬ (c = .is 43 ∨ c = .is 45)) :
    ¬ (some b = some (43 : UInt8) ∨ some b = some (45 : UInt8)) := by
  intro hb
  cases c with
  | dig => rcases hb with hb | hb <;> cases hb <;> exact absurd h (by decide)
  | is c =>
    simp only [Cls.has, beq_iff_eq] at h
    subst h
    rcases hb with hb | hb <;> cases hb <;> simp at hc

theorem zone_known {n : Nat} {p : List Cls} {s : Bytes} (h : shaped p s = true) {r : Option (Parsed × Bytes)}
    (h1 : s.length < n → r = none) (h2 : ¬ (s.head? = some 43 ∨ s.head? = some 45) → r = none) : (zoneShape n p).ok r := by
  unfold zoneShape
  rw [← shaped_length h]
  split
  · next hl => exact h1 hl
  · cases p with
    | nil => exact h2 (by rw [shaped_nil h]; simp)
    | cons c p =>
      obtain ⟨b, t, rfl, hb, ht⟩ := shaped_cons h
      simp only
      split
      · trivial
      · next hc => exact h2 (cls_sign hb hc)

theorem take_append_all {a b c d : UInt8} {r : Bytes} : (a :: b :: c :: d :: r).take 4 = [a, b, c, d] := rfl

theorem longYear_known {a : Parsed} {p : List Cls} {s : Bytes} (h : shaped p s = true) :
    (longYearShape p).ok (if s.length < 4 ∨ (s.take 1).all isDigit = false then none
      else match timeAtoi (s.take 4) with
        | none => none
        | some y => some ({ a with year := y }, s.drop 4)) := by
  unfold longYearShape
  split
  · next c1 c2 c3 c4 q =>
    obtain ⟨b1, s1, rfl, h1, hs1⟩ := shaped_cons h
    obtain ⟨b2, s2, rfl, h2, hs2⟩ := shaped_cons hs1
    obtain ⟨b3, s3, rfl, h3, hs3⟩ := shaped_cons hs2
    obtain ⟨b4, s4, rfl, h4, hs4⟩ := shaped_cons hs3
    rw [← Cls.has_digit h1, ← Cls.has_digit h2, ← Cls.has_digit h3, ← Cls.has_digit h4]
    split
    · intro x hx
      split at hx
      · cases hx
      · split at hx
        · cases hx
        · cases hx; exact hs4
    · next hd =>
      show _ = none
      split
      · rfl
      · next hn =>
        simp only [not_or, List.take_succ_cons, List.take_zero, List.all_cons, List.all_nil, Bool.and_true,
          Bool.not_eq_false] at hn
        have hb := (isDigit_iff b1).1 hn.2
        have e1 : ¬ (some b1 = some (45 : UInt8)) := by rintro ⟨⟩; exact absurd hb (by decide)
        have e2 : ¬ (some b1 = some (43 : UInt8)) := by rintro ⟨⟩; exact absurd hb (by decide)
        have : timeAtoi ((b1 :: b2 :: b3 :: b4 :: s4).take 4) = none := by
          unfold timeAtoi
          rw [take_append_all]
          simp only [List.head?_cons, e1, e2, or_self, if_false, List.all_cons, List.all_nil, Bool.and_true]
          rw [if_neg]
          simpa [Bool.and_assoc] using hd
        rw [this]
  · next hp =>
    show _ = none
    rw [if_pos]
    left
    rw [shaped_length h]
    match p, hp with
    | [], _ => decide
    | [_], _ => simp
    | [_, _], _ => simp
    | [_, _, _], _ => simp
    | c1 :: c2 :: c3 :: c4 :: q, hp => exact absurd rfl (hp c1 c2 c3 c4 q)

theorem year_known {a : Parsed} {p : List Cls} {s : Bytes} (h : shaped p s = true) :
    (yearShape p).ok (if s.length < 2 then none
    else match timeAtoi (s.take 2) with
      | none => none
      | some y => some ({ a with year := if 69 ≤ y then y + 1900 else y + 2000 }, s.drop 2)) := by
  unfold yearShape
  split
  · next c1 c2 q =>
    obtain ⟨b1, s1, rfl, h1, hs1⟩ := shaped_cons h
    obtain ⟨b2, s2, rfl, h2, hs2⟩ := shaped_cons hs1
    split
    · intro x hx
      split at hx
      · cases hx
      · split at hx
        · cases hx
        · cases hx; exact hs2
    · trivial
  · next hp =>
    show _ = none
    rw [if_pos]
    rw [shaped_length h]
    match p, hp with
    | [], _ => decide
    | [_], _ => simp
    | c1 :: c2 :: q, hp => exact absurd rfl (hp c1 c2 q)

theorem parseElem_known {p : List Cls} {s : Bytes} (h : shaped p s = true) (a : Parsed) (next : Option Elem) (e : Elem) :
    (elemShape p next e).ok (parseElem a s next e) := by
  cases e <;> unfold elemShape parseElem <;> try trivial
  all_goals first
    | exact parseNum_known h
    | exact parseName_known (by decide) h
    | exact parseSeconds_known h
    | skip
  case longYear => exact longYear_known h
  case year => exact year_known h
  all_goals
    refine zone_known h ?_ ?_
    · intro hl
      unfold parseNumZone
      simp only [hl, true_or, if_true]
    · intro hs
      unfold parseNumZone
      simp only [zoneOffset_head hs, ite_self]

/-! ### Layouts -/

/-- The layout surely cannot read a text of the shape. -/
def refuses (final : Bytes) (p : List Cls) : List (Bytes × Elem) → Bool
  | [] =>
    match skipShape final.length final p with
    | none => true
    | some [] => false
    | some (_ :: _) => true
  | (pre, e) :: es =>
    match skipShape pre.length pre p with
    | none => true
    | some q =>
      match elemShape q (es.head?.map (·.2)) e with
      | .fails => true
      | .rest q' => refuses final q' es
      | .unknown => false

theorem refuses_ok {final : Bytes} {es : List (Bytes × Elem)} {p : List Cls} (hr : refuses final p es = true) {s : Bytes}
    (h : shaped p s = true) (a : Parsed) : parseElems final a s es = none := by
  induction es generalizing p s a with
  | nil =>
    have := skipShape_ok (fuel := final.length) (ls := final) h
    unfold refuses at hr
    unfold parseElems skip
    cases hk : skipShape final.length final p with
    | none => rw [hk] at this; simp only at this; rw [this]
    | some q =>
      rw [hk] at hr this
      simp only at this
      cases q with
      | nil => simp at hr
      | cons c q =>
        cases hs : skipAux final.length final s with
        | none => rfl
        | some r =>
          obtain ⟨b, t, rfl, _, _⟩ := shaped_cons (this r hs)
          rfl
  | cons x es ih =>
    obtain ⟨pre, e⟩ := x
    have := skipShape_ok (fuel := pre.length) (ls := pre) h
    unfold refuses at hr
    unfold parseElems skip
    cases hk : skipShape pre.length pre p with
    | none => rw [hk] at this; simp only at this; rw [this]
    | some q =>
      rw [hk] at hr this
      simp only at this hr
      cases hs : skipAux pre.length pre s with
      | none => rfl
      | some r =>
        have hq := this r hs
        have hel := parseElem_known hq a (es.head?.map (·.2)) e
        simp only
        cases hkn : elemShape q (es.head?.map (·.2)) e with
        | fails => rw [hkn] at hel; simp only [Known.ok] at hel; rw [hel]
        | unknown => rw [hkn] at hr; simp at hr
        | rest q' =>
          rw [hkn] at hel hr
          simp only [Known.ok] at hel
          simp only at hr
          cases hp : parseElem a r (es.head?.map (·.2)) e with
          | none => rfl
          | some y =>
            obtain ⟨a', s'⟩ := y
            exact ih hr (hel _ hp) a'

/-- The layout text surely cannot read a text of the shape. -/
def Refuses (p : List Cls) (f : Bytes) : Bool := refuses (DateLayout.of f).final p (DateLayout.of f).elems

theorem parse_of_refuses {p : List Cls} {f s : Bytes} (hr : Refuses p f = true) (h : shaped p s = true) (loc : LocalZone) :
    (DateLayout.of f).parse loc s = none := by
  unfold DateLayout.parse
  rw [refuses_ok hr h]

/-- Layouts that refuse the shape are passed over. -/
theorem parseFirst_filter {p : List Cls} {s : Bytes} (h : shaped p s = true) (loc : LocalZone) (fs : List Bytes) :
    parseFirst loc s fs = parseFirst loc s (fs.filter fun f => !Refuses p f) := by
  induction fs with
  | nil => rfl
  | cons f fs ih =>
    rw [List.filter_cons]
    by_cases hr : Refuses p f = true
    · simp only [hr, Bool.not_true, Bool.false_eq_true, if_false]
      rw [← ih]
      show (match (DateLayout.of f).parse loc s with | some t => some t | none => parseFirst loc s fs) = _
      rw [parse_of_refuses hr h]
    · simp only [hr, Bool.not_false, if_true]
      unfold parseFirst
      rw [ih]

/-! ### White space around a text -/

/-- No code of the list starts with a visible ASCII character. -/
def blankCodes (codes : List Bytes) : Bool :=
  codes.all fun k => match k with
    | [] => false
    | b :: _ => b.toNat < 33 || 128 ≤ b.toNat

theorem trimCodes_visible {codes : List Bytes} (hc : blankCodes codes = true) {c : UInt8} (h1 : 33 ≤ c.toNat)
    (h2 : c.toNat < 128) (fuel : Nat) (r : Bytes) : trimCodes codes fuel (c :: r) = c :: r := by
  cases fuel with
  | zero => rfl
  | succ fuel =>
    have : codes.findSome? (fun k => afterPrefix k (c :: r)) = none := by
      rw [List.findSome?_eq_none_iff]
      intro k hk
      have := List.all_eq_true.1 hc k hk
      cases k with
      | nil => simp at this
      | cons b k =>
        simp only [Bool.or_eq_true, decide_eq_true_eq] at this
        unfold afterPrefix
        rw [if_neg]
        rintro rfl
        omega
    simp only [trimCodes, this]

/-- Text between two visible ASCII characters is not trimmed. -/
theorem trimSpace_visible {s : Bytes} {c d : UInt8} (hc : s.head? = some c) (hd : s.getLast? = some d)
    (h1 : 33 ≤ c.toNat ∧ c.toNat < 128) (h2 : 33 ≤ d.toNat ∧ d.toNat < 128) : trimSpace s = s := by
  cases s with
  | nil => cases hc
  | cons b r =>
    cases hc
    unfold trimSpace
    simp only [trimCodes_visible (by decide +kernel : blankCodes spaceCodes = true) h1.1 h1.2]
    have : ∃ t, (c :: r).reverse = d :: t := by
      rw [List.getLast?_eq_head?_reverse] at hd
      cases hr : (c :: r).reverse with
      | nil => rw [hr] at hd; cases hd
      | cons x t => rw [hr] at hd; cases hd; exact ⟨t, rfl⟩
    obtain ⟨t, ht⟩ := this
    rw [ht, trimCodes_visible (by decide +kernel : blankCodes (spaceCodes.map List.reverse) = true) h2.1 h2.2, ← ht,
      List.reverse_reverse]

/-- `parseDate` on a text whose shape only some layouts can read. -/
theorem parseDate_shaped {p : List Cls} {s : Bytes} (h : shaped p s = true) {fs : List Bytes}
    (hf : (dateFormats.filter fun f => !Refuses p f) = fs) {c d : UInt8} (hc : s.head? = some c) (hd : s.getLast? = some d)
    (h1 : 33 ≤ c.toNat ∧ c.toNat < 128) (h2 : 33 ≤ d.toNat ∧ d.toNat < 128) (loc : LocalZone) :
    parseDate loc s = parseFirst loc s fs := by
  unfold parseDate
  simp only [trimSpace_visible hc hd h1 h2]
  rw [if_neg (by rintro rfl; cases hc), parseFirst_filter h, hf]

/-! ### Reading element by element -/

/-- A number of two digits behind literal text. -/
theorem elems_num {final pre : Bytes} {e : Elem} {es : List (Bytes × Elem)} {a : Parsed} {v d rest : Bytes} {fixed : Bool}
    {lo hi n : Nat} {f : Nat → Parsed} (hpre : skip pre v = some (d ++ rest))
    (he : ∀ s next, parseElem a s next e = parseNum fixed lo hi f s) (hl : d.length = 2) (hd : ∀ c ∈ d, isDigit c = true)
    (hn : digitsVal d = n) :
    parseElems final a v ((pre, e) :: es) = if n < lo ∨ hi < n then none else parseElems final (f n) rest es := by
  subst hn
  rw [parseElems, hpre]
  simp only [he, parseNum, getnum_two fixed hl hd]
  by_cases h : digitsVal d < lo ∨ hi < digitsVal d
  · simp only [if_pos h]
  · simp only [if_neg h]

/-- Seconds that are not followed by a fraction. -/
theorem elems_second {final pre : Bytes} {es : List (Bytes × Elem)} {a : Parsed} {v d rest : Bytes} {n : Nat}
    (hpre : skip pre v = some (d ++ rest)) (hl : d.length = 2) (hd : ∀ c ∈ d, isDigit c = true)
    (hn : digitsVal d = n) (hr : rest.head? ≠ some 46 ∧ rest.head? ≠ some 44) :
    parseElems final a v ((pre, .zeroSecond) :: es) =
      if 60 ≤ n then none else parseElems final { a with sec := n } rest es := by
  subst hn
  rw [parseElems, hpre]
  simp only [parseElem, parseSeconds, getnum_two true hl hd]
  by_cases h60 : 60 ≤ digitsVal d
  · simp only [if_pos h60]
  · simp only [if_neg h60]
    match rest, hr with
    | [], _ => rfl
    | [c], _ => rfl
    | c :: c' :: r, hr =>
      have : ¬ ((c = 46 ∨ c = 44) ∧ isDigit c' = true) := by
        rintro ⟨rfl | rfl, _⟩
        · exact hr.1 rfl
        · exact hr.2 rfl
      simp only [if_neg this]

theorem timeAtoi_digits {d : Bytes} (hd : ∀ c ∈ d, isDigit c = true) : timeAtoi d = some (digitsVal d : Int) := by
  unfold timeAtoi
  have h1 : ¬ d.head? = some 45 := by
    intro h
    have := hd 45 (List.mem_of_head? h)
    exact absurd this (by decide)
  have h2 : ¬ d.head? = some 43 := by
    intro h
    have := hd 43 (List.mem_of_head? h)
    exact absurd this (by decide)
  simp only [h1, h2, or_self, if_false]
  rw [if_pos (List.all_eq_true.2 hd)]

/-- A year of four digits. -/
theorem elems_year {final pre : Bytes} {es : List (Bytes × Elem)} {a : Parsed} {v d rest : Bytes} {n : Nat}
    (hpre : skip pre v = some (d ++ rest)) (hl : d.length = 4) (hd : ∀ c ∈ d, isDigit c = true) (hn : digitsVal d = n) :
    parseElems final a v ((pre, .longYear) :: es) = parseElems final { a with year := n } rest es := by
  subst hn
  rw [parseElems, hpre]
  simp only [parseElem]
  have ht : (d ++ rest).take 4 = d := by rw [List.take_append_of_le_length (by omega), List.take_of_length_le (by omega)]
  have ht1 : ∀ c ∈ (d ++ rest).take 1, isDigit c = true := by
    intro c hc
    rw [List.take_append_of_le_length (by omega)] at hc
    exact hd c (List.mem_of_mem_take hc)
  rw [if_neg, ht, timeAtoi_digits hd]
  · simp only
    rw [List.drop_append_of_le_length (by omega), List.drop_of_length_le (by omega), List.nil_append]
  · simp only [not_or, List.length_append, not_lt, Bool.not_eq_false]
    exact ⟨by omega, List.all_eq_true.2 ht1⟩

theorem elems_end {final : Bytes} {a : Parsed} {v : Bytes} (h : skip final v = some []) :
    parseElems final a v [] = some a := by
  rw [parseElems, h]

theorem elems_over {final : Bytes} {a : Parsed} {v : Bytes} {c : UInt8} {r : Bytes} (h : skip final v = some (c :: r)) :
    parseElems final a v [] = none := by
  rw [parseElems, h]

theorem skip_nil (v : Bytes) : skip [] v = some v := by
  unfold skip
  cases v <;> rfl

theorem skip_one {c : UInt8} (h : c ≠ 32) (v : Bytes) : skip [c] (c :: v) = some v := by
  simp [skip, skipAux, h]

/-! ### Collected fields -/

/-- The collected fields are in range. -/
structure Parsed.Good (a : Parsed) : Prop where
  year : 0 ≤ a.year ∧ a.year ≤ 9999
  month : a.month = -1 ∨ (1 ≤ a.month ∧ a.month ≤ 12)
  hour : a.hour < 24
  min : a.min < 60
  sec : a.sec < 60
  nsec : a.nsec < 1000000000

theorem parseNum_good {fixed : Bool} {lo hi : Nat} {f : Nat → Parsed} {s r : Bytes} {a' : Parsed}
    (hf : ∀ n, lo ≤ n → n ≤ hi → (f n).Good) (h : parseNum fixed lo hi f s = some (a', r)) : a'.Good := by
  unfold parseNum at h
  split at h
  · cases h
  · split at h
    · cases h
    · next hn => cases h; exact hf _ (by omega) (by omega)

theorem lookupName_lt {s : Bytes} {names : List Bytes} {x : Nat × Bytes} (h : lookupName s names = some x) :
    x.1 < names.length := by
  induction names generalizing x with
  | nil => cases h
  | cons n names ih =>
    unfold lookupName at h
    split at h
    · cases h; simp
    · cases hl : lookupName s names with
      | none => rw [hl] at h; cases h
      | some y =>
        rw [hl] at h
        cases h
        have := ih hl
        simpa using this

theorem parseName_good {names : List Bytes} {f : Nat → Parsed} {s r : Bytes} {a' : Parsed}
    (hf : ∀ n, n < names.length → (f n).Good) (h : parseName names f s = some (a', r)) : a'.Good := by
  unfold parseName at h
  split at h
  · cases h
  · next hl => cases h; exact hf _ (lookupName_lt hl)

theorem timeAtoi_bounds {s : Bytes} {i : Int} (h : timeAtoi s = some i) :
    i < 10 ^ s.length ∧ (s.head? ≠ some 45 → 0 ≤ i) ∧ (-(10 ^ (s.length - 1)) < i) := by
  unfold timeAtoi at h
  simp only at h
  have hlen : (if s.head? = some 45 ∨ s.head? = some 43 then s.drop 1 else s).length ≤ s.length := by
    split <;> simp
  generalize hb : (if s.head? = some 45 ∨ s.head? = some 43 then s.drop 1 else s) = body at *
  by_cases hall : body.all isDigit = true
  · rw [if_pos hall] at h
    have hlt := digitsVal_lt _ (List.all_eq_true.1 hall)
    have hp : (10 : Nat) ^ body.length ≤ 10 ^ s.length := Nat.pow_le_pow_right (by decide) hlen
    have hpos : 0 < (10 : Nat) ^ (s.length - 1) := Nat.pow_pos (by decide)
    have c1 : ((10 : Int) ^ s.length) = ((10 ^ s.length : Nat) : Int) := by simp
    have c2 : ((10 : Int) ^ (s.length - 1)) = ((10 ^ (s.length - 1) : Nat) : Int) := by simp
    rw [c1, c2]
    cases h
    split
    · next h45 =>
      have hbody : body.length = s.length - 1 := by
        rw [← hb, if_pos (Or.inl h45), List.length_drop]
      rw [hbody] at hlt
      have hs : 0 < (10 : Nat) ^ s.length := Nat.pow_pos (by decide)
      refine ⟨by omega, fun h => absurd h45 h, by omega⟩
    · exact ⟨by omega, fun _ => by omega, by omega⟩
  · rw [if_neg hall] at h; cases h

theorem parseNano_lt {s : Bytes} {n x : Nat} (hn : 1 ≤ n) (h : parseNano s n = some x) : x < 1000000000 := by
  unfold parseNano at h
  split at h
  · cases h
  · next c r =>
    split at h
    · cases h
    · simp only at h
      split at h
      · cases h
      · next ns hns =>
        split at h
        · cases h
        · next hpos =>
          cases h
          have hb := (timeAtoi_bounds hns).1
          have hl : (List.drop 1 (List.take (min n 10) (c :: r))).length ≤ min n 10 - 1 := by
            simp only [List.length_drop, List.length_take]
            omega
          have h1 : (10 : Nat) ^ (List.drop 1 (List.take (min n 10) (c :: r))).length ≤ 10 ^ (min n 10 - 1) :=
            Nat.pow_le_pow_right (by decide) hl
          have h2 : ns.toNat < 10 ^ (min n 10 - 1) := by
            have c1 : ((10 : Int) ^ (List.drop 1 (List.take (min n 10) (c :: r))).length) =
              ((10 ^ (List.drop 1 (List.take (min n 10) (c :: r))).length : Nat) : Int) := by simp
            rw [c1] at hb
            omega
          calc ns.toNat * 10 ^ (10 - min n 10) < 10 ^ (min n 10 - 1) * 10 ^ (10 - min n 10) :=
                Nat.mul_lt_mul_of_pos_right h2 (Nat.pow_pos (by decide))
            _ = 10 ^ 9 := by rw [← Nat.pow_add]; congr 1; omega

theorem parseSeconds_good {fixed : Bool} {a a' : Parsed} {s r : Bytes} {next : Option Elem} (ha : a.Good)
    (h : parseSeconds fixed a s next = some (a', r)) : a'.Good := by
  unfold parseSeconds at h
  split at h
  · cases h
  · split at h
    · cases h
    · next hx =>
      have hg : ∀ {x : Nat}, ¬ 60 ≤ x → Parsed.Good { a with sec := x } := fun hx =>
        ⟨ha.year, ha.month, ha.hour, ha.min, by simp only; omega, ha.nsec⟩
      split at h
      · split at h
        · split at h
          · cases h; exact hg hx
          · simp only at h
            split at h
            · cases h
            · next hns =>
              cases h
              exact ⟨ha.year, ha.month, ha.hour, ha.min, by simp only; omega, parseNano_lt (by omega) hns⟩
        · cases h; exact hg hx
      · cases h; exact hg hx

theorem zoneOffset_good {a a' : Parsed} {sign : Option UInt8} {h m s r r' : Bytes} (ha : a.Good)
    (hz : zoneOffset a sign h m s r = some (a', r')) : a'.Good := by
  unfold zoneOffset at hz
  split at hz
  · split at hz
    · cases hz
    · simp only at hz
      split at hz
      · cases hz; exact ⟨ha.year, ha.month, ha.hour, ha.min, ha.sec, ha.nsec⟩
      · split at hz
        · cases hz; exact ⟨ha.year, ha.month, ha.hour, ha.min, ha.sec, ha.nsec⟩
        · cases hz
  · cases hz

theorem parseNumZone_good {a a' : Parsed} {s r : Bytes} {e : Elem} (ha : a.Good)
    (h : parseNumZone a s e = some (a', r)) : a'.Good := by
  unfold parseNumZone at h
  split at h <;> split at h <;> first | cases h | exact zoneOffset_good ha h

theorem parseIsoZone_good {a a' : Parsed} {s r : Bytes} {e : Elem} (ha : a.Good)
    (h : parseIsoZone a s e = some (a', r)) : a'.Good := by
  unfold parseIsoZone at h
  split at h
  · cases h
  · split at h
    · cases h; exact ⟨ha.year, ha.month, ha.hour, ha.min, ha.sec, ha.nsec⟩
    · exact parseNumZone_good ha h

theorem parseHalf_good {am pm : Bytes} {a a' : Parsed} {s r : Bytes} (ha : a.Good)
    (h : parseHalf am pm a s = some (a', r)) : a'.Good := by
  unfold parseHalf at h
  split at h
  · cases h
  · split at h
    · cases h; exact ⟨ha.year, ha.month, ha.hour, ha.min, ha.sec, ha.nsec⟩
    · split at h
      · cases h; exact ⟨ha.year, ha.month, ha.hour, ha.min, ha.sec, ha.nsec⟩
      · cases h

theorem parseElem_good {a a' : Parsed} {s r : Bytes} {next : Option Elem} {e : Elem} (ha : a.Good)
    (h : parseElem a s next e = some (a', r)) : a'.Good := by
  cases e <;> simp only [parseElem] at h
  case month => refine parseName_good ?_ h; intro n hn; exact ⟨ha.year, Or.inr ⟨by simp only; omega, by simp only; have : n < 12 := hn; omega⟩, ha.hour, ha.min, ha.sec, ha.nsec⟩
  case longMonth => refine parseName_good ?_ h; intro n hn; exact ⟨ha.year, Or.inr ⟨by simp only; omega, by simp only; have : n < 12 := hn; omega⟩, ha.hour, ha.min, ha.sec, ha.nsec⟩
  case numMonth => refine parseNum_good ?_ h; intro n h1 h2; exact ⟨ha.year, Or.inr ⟨by simp only; omega, by simp only; omega⟩, ha.hour, ha.min, ha.sec, ha.nsec⟩
  case zeroMonth => refine parseNum_good ?_ h; intro n h1 h2; exact ⟨ha.year, Or.inr ⟨by simp only; omega, by simp only; omega⟩, ha.hour, ha.min, ha.sec, ha.nsec⟩
  case weekDay => refine parseName_good ?_ h; intro _ _; exact ha
  case longWeekDay => refine parseName_good ?_ h; intro _ _; exact ha
  case day => refine parseNum_good ?_ h; intro n h1 h2; exact ⟨ha.year, ha.month, ha.hour, ha.min, ha.sec, ha.nsec⟩
  case underDay => refine parseNum_good ?_ h; intro n h1 h2; exact ⟨ha.year, ha.month, ha.hour, ha.min, ha.sec, ha.nsec⟩
  case zeroDay => refine parseNum_good ?_ h; intro n h1 h2; exact ⟨ha.year, ha.month, ha.hour, ha.min, ha.sec, ha.nsec⟩
  case hour => refine parseNum_good ?_ h; intro n h1 h2; exact ⟨ha.year, ha.month, by simp only; omega, ha.min, ha.sec, ha.nsec⟩
  case hour12 => refine parseNum_good ?_ h; intro n h1 h2; exact ⟨ha.year, ha.month, by simp only; omega, ha.min, ha.sec, ha.nsec⟩
  case zeroHour12 => refine parseNum_good ?_ h; intro n h1 h2; exact ⟨ha.year, ha.month, by simp only; omega, ha.min, ha.sec, ha.nsec⟩
  case minute => refine parseNum_good ?_ h; intro n h1 h2; exact ⟨ha.year, ha.month, ha.hour, by simp only; omega, ha.sec, ha.nsec⟩
  case zeroMinute => refine parseNum_good ?_ h; intro n h1 h2; exact ⟨ha.year, ha.month, ha.hour, by simp only; omega, ha.sec, ha.nsec⟩
  case second => exact parseSeconds_good ha h
  case zeroSecond => exact parseSeconds_good ha h
  case upperPM => exact parseHalf_good ha h
  case lowerPM => exact parseHalf_good ha h
  case longYear =>
    split at h
    · cases h
    · next hl =>
      split at h
      · cases h
      · next y hy =>
        cases h
        simp only [not_or, not_lt, Bool.not_eq_false] at hl
        have hb := timeAtoi_bounds hy
        have hlen : (s.take 4).length = 4 := by rw [List.length_take]; omega
        have hne : (s.take 4).head? ≠ some 45 := by
          match s, hl with
          | c :: s, hl =>
            have := hl.2
            simp only [List.take_succ_cons, List.take_zero, List.all_cons, List.all_nil, Bool.and_true] at this
            simp only [List.take_succ_cons, List.head?_cons, ne_eq, Option.some.injEq]
            rintro rfl
            exact absurd this (by decide)
        have h0 := hb.2.1 hne
        have h1 := hb.1
        rw [hlen] at h1
        exact ⟨⟨h0, by simp only; omega⟩, ha.month, ha.hour, ha.min, ha.sec, ha.nsec⟩
  case year =>
    split at h
    · cases h
    · next hl =>
      split at h
      · cases h
      · next y hy =>
        cases h
        have hb := timeAtoi_bounds hy
        have hlen : (s.take 2).length = 2 := by rw [List.length_take]; omega
        rw [hlen] at hb
        have h1 := hb.1
        have h2 := hb.2.2
        refine ⟨?_, ha.month, ha.hour, ha.min, ha.sec, ha.nsec⟩
        simp only
        split <;> omega
  case tz =>
    split at h
    · cases h; exact ⟨ha.year, ha.month, ha.hour, ha.min, ha.sec, ha.nsec⟩
    · split at h
      · cases h
      · cases h; exact ⟨ha.year, ha.month, ha.hour, ha.min, ha.sec, ha.nsec⟩
  case frac0 =>
    split at h
    · cases h
    · split at h
      · cases h
      · next hns => cases h; exact ⟨ha.year, ha.month, ha.hour, ha.min, ha.sec, parseNano_lt (by omega) hns⟩
  all_goals first | exact parseIsoZone_good ha h | exact parseNumZone_good ha h

theorem parseElems_good {final : Bytes} {es : List (Bytes × Elem)} {a a' : Parsed} {s : Bytes} (ha : a.Good)
    (h : parseElems final a s es = some a') : a'.Good := by
  induction es generalizing a s with
  | nil =>
    unfold parseElems at h
    split at h
    · cases h; exact ha
    · cases h
  | cons x es ih =>
    obtain ⟨pre, e⟩ := x
    unfold parseElems at h
    split at h
    · cases h
    · split at h
      · cases h
      · next he => exact ih (parseElem_good ha he) h

/-- The fields of the time are those of an existing second with a four-digit year. -/
def Time.Dated (t : Time) : Prop := t.Valid ∧ 0 ≤ t.year ∧ t.year ≤ 9999

theorem finish_dated {loc : LocalZone} (hloc : ∀ z t t', t.Dated → loc z t = some t' → t'.Dated) {a : Parsed} (ha : a.Good)
    {t : Time} (h : a.finish loc = some t) : t.Dated := by
  unfold Parsed.finish at h
  simp only at h
  have hhour : (if a.pm = true ∧ a.hour < 12 then a.hour + 12 else if a.am = true ∧ a.hour = 12 then 0 else a.hour) < 24 := by
    have := ha.hour
    split
    · omega
    · split <;> omega
  have hm : 1 ≤ (if a.month < 0 then (1 : Int) else a.month) ∧ (if a.month < 0 then (1 : Int) else a.month) ≤ 12 := by
    rcases ha.month with h | h
    · rw [h]; decide
    · split <;> omega
  generalize (if a.pm = true ∧ a.hour < 12 then a.hour + 12 else if a.am = true ∧ a.hour = 12 then 0 else a.hour) = hour at *
  generalize (if a.month < 0 then (1 : Int) else a.month) = month at *
  generalize (if a.day < 0 then (1 : Int) else a.day) = day at *
  by_cases hd : day < 1 ∨ (daysIn month.toNat a.year : Int) < day
  · rw [if_pos hd] at h; cases h
  · rw [if_neg hd] at h
    have hdated : ∀ l, Time.Dated ⟨a.year, month.toNat, day.toNat, hour, a.min, a.sec, a.nsec, l⟩ := by
      intro l
      refine ⟨⟨?_, ?_, ?_, ?_, hhour, ha.min, ha.sec, ha.nsec⟩, ha.year⟩ <;> simp only <;> omega
    split at h
    · cases h; exact hdated _
    · split at h
      · cases h; exact hdated _
      · split at h
        · split at h
          · next hz => cases h; exact hloc _ _ _ (hdated _) hz
          · cases h; exact hdated _
        · cases h; exact hdated _

theorem parseFirst_dated {loc : LocalZone} (hloc : ∀ z t t', t.Dated → loc z t = some t' → t'.Dated) {s : Bytes} {fs : List Bytes}
    {t : Time} (h : parseFirst loc s fs = some t) : t.Dated := by
  induction fs with
  | nil => cases h
  | cons f fs ih =>
    unfold parseFirst at h
    split at h
    · next hp =>
      cases h
      unfold DateLayout.parse at hp
      split at hp
      · cases hp
      · next he =>
        exact finish_dated hloc (parseElems_good ⟨by decide, Or.inl rfl, by decide, by decide, by decide, by decide⟩ he) hp
    · exact ih h

end Metro2
