import Verif.Lemmas.JsonText

/-! JSON numbers and values: the reader finds exactly the texts of the grammar. -/

namespace Metro2

/-! ### Numbers -/

theorem isDigit_spec (c : UInt8) : isDigit c = true ↔ Spec.Digit c := by
  show _ ↔ (48 ≤ c.toNat ∧ c.toNat ≤ 57)
  simp [isDigit, UInt8.le_iff_toNat_le]

/-- The text does not begin with a digit. -/
def NoDigit (s : Bytes) : Prop := ∀ c r, s = c :: r → isDigit c = false

theorem takeWhile_noDigit {s : Bytes} (h : NoDigit s) : s.takeWhile isDigit = [] ∧ s.dropWhile isDigit = s := by
  cases s with
  | nil => exact ⟨rfl, rfl⟩
  | cons c r => simp [h c r rfl]

theorem readDigits_of {d r : Bytes} (hd : Spec.Digits d) (hr : NoDigit r) : readDigits (d ++ r) = some (d, r) := by
  have hp : ∀ c ∈ d, isDigit c = true := fun c hc => (isDigit_spec c).2 (hd.2 c hc)
  obtain ⟨h1, h2⟩ := takeWhile_noDigit hr
  unfold readDigits
  rw [List.takeWhile_append_of_pos hp, List.dropWhile_append_of_pos hp, h1, h2, List.append_nil, if_neg hd.1]

theorem readDigits_sound {s d r : Bytes} (h : readDigits s = some (d, r)) : s = d ++ r ∧ Spec.Digits d := by
  unfold readDigits at h
  split at h
  · cases h
  · next hn =>
    cases h
    refine ⟨List.takeWhile_append_dropWhile.symm, hn, fun c hc => (isDigit_spec c).1 ?_⟩
    exact List.all_eq_true.1 (List.all_takeWhile (p := isDigit) (l := s)) c hc

/-- The text cannot continue a number. -/
def Stops (s : Bytes) : Prop := ∀ c r, s = c :: r → isDigit c = false ∧ c ≠ 46 ∧ c ≠ 101 ∧ c ≠ 69

theorem readWhole_of {a r : Bytes} (ha : Spec.WholePart a) (hr : NoDigit r) : readWhole (a ++ r) = some (a, r) := by
  rcases ha with rfl | ⟨hd, h0⟩
  · rfl
  · cases a with
    | nil => exact absurd rfl hd.1
    | cons c a =>
      have hc : c ≠ 48 := fun hc => h0 (by rw [hc]; rfl)
      rw [List.cons_append, readWhole, if_neg hc, ← List.cons_append, readDigits_of hd hr]

theorem readWhole_sound {s a r : Bytes} (h : readWhole s = some (a, r)) : s = a ++ r ∧ Spec.WholePart a := by
  cases s with
  | nil => cases h
  | cons c s =>
    rw [readWhole] at h
    split at h
    · next hc => cases h; subst hc; exact ⟨rfl, .inl rfl⟩
    · next hc =>
      obtain ⟨h1, h2⟩ := readDigits_sound h
      refine ⟨h1, .inr ⟨h2, ?_⟩⟩
      cases a with
      | nil => exact absurd rfl h2.1
      | cons x a =>
        rw [List.cons_append] at h1
        cases h1
        intro hx
        exact hc (Option.some.inj hx)

theorem readFraction_of {b r : Bytes} (hb : Spec.FractionPart b) (hr : NoDigit r) (hd : ∀ c s, r = c :: s → c ≠ 46) :
    readFraction (b ++ r) = some (b, r) := by
  rcases hb with rfl | ⟨d, rfl, h⟩
  · cases r with
    | nil => rfl
    | cons c s => rw [List.nil_append, readFraction, if_neg (hd c s rfl)]
  · rw [c_dot, List.cons_append, readFraction, if_pos rfl, readDigits_of h hr]

theorem readFraction_sound {s b r : Bytes} (h : readFraction s = some (b, r)) : s = b ++ r ∧ Spec.FractionPart b := by
  cases s with
  | nil => cases h; exact ⟨rfl, .inl rfl⟩
  | cons c s =>
    rw [readFraction] at h
    split at h
    · next hc =>
      subst hc
      split at h
      · cases h
      · next d r' hd =>
        cases h
        obtain ⟨h1, h2⟩ := readDigits_sound hd
        exact ⟨by rw [h1]; rfl, .inr ⟨d, rfl, h2⟩⟩
    · cases h; exact ⟨rfl, .inl rfl⟩

theorem digit_ne {c x : UInt8} (h : isDigit c = true) (hx : isDigit x = false) : c ≠ x := by
  rintro rfl; rw [h] at hx; cases hx

theorem readSign_of {g d r : Bytes} (hg : Spec.SignPart g) (hd : Spec.Digits d) : readSign (g ++ (d ++ r)) = (g, d ++ r) := by
  rcases hg with rfl | rfl | rfl
  · cases d with
    | nil => exact absurd rfl hd.1
    | cons c d =>
      have hc := (isDigit_spec c).2 (hd.2 c List.mem_cons_self)
      rw [List.nil_append, List.cons_append, readSign, if_neg]
      rintro (h | h)
      · exact digit_ne hc (by decide) h
      · exact digit_ne hc (by decide) h
  · rfl
  · rfl

theorem readSign_sound (s : Bytes) : s = (readSign s).1 ++ (readSign s).2 ∧ Spec.SignPart (readSign s).1 := by
  cases s with
  | nil => exact ⟨rfl, .inl rfl⟩
  | cons c s =>
    rw [readSign]
    split
    · next h =>
      refine ⟨rfl, ?_⟩
      rcases h with rfl | rfl
      · exact .inr (.inl rfl)
      · exact .inr (.inr rfl)
    · exact ⟨rfl, .inl rfl⟩

theorem readExponent_of {c r : Bytes} (hc : Spec.ExponentPart c) (hr : Stops r) : readExponent (c ++ r) = some (c, r) := by
  rcases hc with rfl | ⟨e, g, d, rfl, he, hg, hd⟩
  · cases r with
    | nil => rfl
    | cons c s =>
      obtain ⟨_, _, h1, h2⟩ := hr c s rfl
      rw [List.nil_append, readExponent, if_neg (by rintro (h | h); exact h1 h; exact h2 h)]
  · have he : e = 101 ∨ e = 69 := he
    rw [List.cons_append, readExponent, if_pos he, List.append_assoc, readSign_of hg hd]
    simp only
    rw [readDigits_of hd (fun c s h => (hr c s h).1)]

theorem readExponent_sound {s c r : Bytes} (h : readExponent s = some (c, r)) : s = c ++ r ∧ Spec.ExponentPart c := by
  cases s with
  | nil => cases h; exact ⟨rfl, .inl rfl⟩
  | cons e s =>
    rw [readExponent] at h
    split at h
    · next he =>
      split at h
      · cases h
      · next d r' hd =>
        cases h
        obtain ⟨h1, h2⟩ := readDigits_sound hd
        obtain ⟨h3, h4⟩ := readSign_sound s
        refine ⟨?_, .inr ⟨e, _, d, rfl, he, h4, h2⟩⟩
        rw [List.cons_append, List.append_assoc, ← h1, ← h3]
    · cases h; exact ⟨rfl, .inl rfl⟩

theorem exponent_noDigit {c r : Bytes} (hc : Spec.ExponentPart c) (hr : Stops r) : NoDigit (c ++ r) ∧ ∀ x s, c ++ r = x :: s → x ≠ 46 := by
  rcases hc with rfl | ⟨e, g, d, rfl, he, hg, hd⟩
  · exact ⟨fun c s h => (hr c s h).1, fun c s h => (hr c s h).2.1⟩
  · have he : e = 101 ∨ e = 69 := he
    constructor
    · intro x s hx
      cases hx
      rcases he with rfl | rfl <;> rfl
    · intro x s hx
      cases hx
      rcases he with rfl | rfl <;> decide

theorem fraction_noDigit {b r : Bytes} (hb : Spec.FractionPart b) (hr : NoDigit r) : NoDigit (b ++ r) := by
  rcases hb with rfl | ⟨d, rfl, h⟩
  · exact hr
  · intro x s hx
    cases hx
    rfl

theorem readUnsigned_of {a b c r : Bytes} (ha : Spec.WholePart a) (hb : Spec.FractionPart b) (hc : Spec.ExponentPart c) (hr : Stops r) :
    readUnsigned (a ++ b ++ c ++ r) = some (a ++ b ++ c, r) := by
  obtain ⟨h1, h2⟩ := exponent_noDigit hc hr
  unfold readUnsigned
  rw [List.append_assoc, List.append_assoc, readWhole_of ha (fraction_noDigit hb h1)]
  simp only
  rw [readFraction_of hb h1 h2]
  simp only
  rw [readExponent_of hc hr]

theorem readUnsigned_sound {s l r : Bytes} (h : readUnsigned s = some (l, r)) :
    s = l ++ r ∧ ∃ a b c, l = a ++ b ++ c ∧ Spec.WholePart a ∧ Spec.FractionPart b ∧ Spec.ExponentPart c := by
  unfold readUnsigned at h
  split at h
  · cases h
  · next a s1 h1 =>
    split at h
    · cases h
    · next b s2 h2 =>
      split at h
      · cases h
      · next c s3 h3 =>
        cases h
        obtain ⟨e1, g1⟩ := readWhole_sound h1
        obtain ⟨e2, g2⟩ := readFraction_sound h2
        obtain ⟨e3, g3⟩ := readExponent_sound h3
        exact ⟨by rw [e1, e2, e3]; simp, a, b, c, rfl, g1, g2, g3⟩

theorem whole_head {a : Bytes} (ha : Spec.WholePart a) : ∃ c r, a = c :: r ∧ isDigit c = true := by
  rcases ha with rfl | ⟨hd, _⟩
  · exact ⟨48, [], rfl, rfl⟩
  · cases a with
    | nil => exact absurd rfl hd.1
    | cons c r => exact ⟨c, r, rfl, (isDigit_spec c).2 (hd.2 c List.mem_cons_self)⟩

theorem readNumber_of {l r : Bytes} (hl : Spec.Numeral l) (hr : Stops r) : readNumber (l ++ r) = some (l, r) := by
  obtain ⟨m, a, b, c, rfl, hm, ha, hb, hc⟩ := hl
  have h := readUnsigned_of ha hb hc hr
  rcases hm with rfl | rfl
  · obtain ⟨x, y, rfl, hx⟩ := whole_head ha
    rw [List.nil_append]
    rw [show x :: y ++ b ++ c ++ r = x :: (y ++ b ++ c ++ r) from rfl] at h ⊢
    rw [readNumber, if_neg (digit_ne hx (by decide)), h]
  · rw [c_minus]
    rw [show [45] ++ a ++ b ++ c ++ r = 45 :: (a ++ b ++ c ++ r) by simp, readNumber, if_pos rfl, h]
    simp

theorem readNumber_sound {s l r : Bytes} (h : readNumber s = some (l, r)) : s = l ++ r ∧ Spec.Numeral l := by
  cases s with
  | nil => cases h
  | cons x s =>
    rw [readNumber] at h
    split at h
    · next hx =>
      subst hx
      split at h
      · cases h
      · next l' r' hu =>
        cases h
        obtain ⟨h1, a, b, c, rfl, ha, hb, hc⟩ := readUnsigned_sound hu
        exact ⟨by rw [h1]; rfl, [45], a, b, c, by simp, .inr rfl, ha, hb, hc⟩
    · obtain ⟨h1, a, b, c, rfl, ha, hb, hc⟩ := readUnsigned_sound h
      exact ⟨h1, [], a, b, c, rfl, .inl rfl, ha, hb, hc⟩

theorem numeral_head {l : Bytes} (hl : Spec.Numeral l) : ∃ c r, l = c :: r ∧ (c = 45 ∨ isDigit c = true) := by
  obtain ⟨m, a, b, c, rfl, hm, ha, hb, hc⟩ := hl
  obtain ⟨x, y, rfl, hx⟩ := whole_head ha
  rcases hm with rfl | rfl
  · exact ⟨x, _, rfl, .inr hx⟩
  · exact ⟨45, _, rfl, .inl rfl⟩

/-! ### Values that are in the grammar are read -/

theorem text_null : "null".toUTF8.data.toList = b! "null" := by decide
theorem text_true : "true".toUTF8.data.toList = b! "true" := by decide
theorem text_false : "false".toUTF8.data.toList = b! "false" := by decide

/-- What the first byte of a value can be. -/
def ValueHead (c : UInt8) : Prop := jsonSpace c = false ∧ c ≠ 93 ∧ c ≠ 125 ∧ c ≠ 44 ∧ c ≠ 58

theorem valueHead_digit {c : UInt8} (h : c = 45 ∨ isDigit c = true) : ValueHead c := by
  rcases h with rfl | h
  · exact ⟨by decide, by decide, by decide, by decide, by decide⟩
  · refine ⟨?_, digit_ne h (by decide), digit_ne h (by decide), digit_ne h (by decide), digit_ne h (by decide)⟩
    simp [jsonSpace, digit_ne h (x := 32) (by decide), digit_ne h (x := 9) (by decide), digit_ne h (x := 13) (by decide),
      digit_ne h (x := 10) (by decide)]

theorem jsonText_head {n : Nat} {j : Json} {t : Bytes} (h : Spec.JsonText n j t) : ∃ c r, t = c :: r ∧ ValueHead c := by
  cases h with
  | null => exact ⟨110, b! "ull", text_null, by decide, by decide, by decide, by decide, by decide⟩
  | true => exact ⟨116, b! "rue", text_true, by decide, by decide, by decide, by decide, by decide⟩
  | false => exact ⟨102, b! "alse", text_false, by decide, by decide, by decide, by decide, by decide⟩
  | num h =>
    obtain ⟨c, r, rfl, hc⟩ := numeral_head h
    exact ⟨c, r, rfl, valueHead_digit hc⟩
  | str h => exact ⟨34, _, rfl, by decide, by decide, by decide, by decide, by decide⟩
  | noItems h => exact ⟨91, _, rfl, by decide, by decide, by decide, by decide, by decide⟩
  | items h => exact ⟨91, _, rfl, by decide, by decide, by decide, by decide, by decide⟩
  | noMembers h => exact ⟨123, _, rfl, by decide, by decide, by decide, by decide, by decide⟩
  | members h => exact ⟨123, _, rfl, by decide, by decide, by decide, by decide, by decide⟩

theorem itemsText_head {n : Nat} {xs : List Json} {t : Bytes} (h : Spec.ItemsText n xs t) (r : Bytes) :
    ∃ c s, skipSpace (t ++ r) = c :: s ∧ c ≠ 93 := by
  have key : ∀ {w : Bytes} {x : Json} {t : Bytes}, Spec.Space w → Spec.JsonText n x t → ∀ r, ∃ c s, skipSpace (w ++ t ++ r) = c :: s ∧ c ≠ 93 := by
    intro w x t hw h r
    obtain ⟨c, s, rfl, hc⟩ := jsonText_head h
    exact ⟨c, s ++ r, by rw [List.append_assoc, skipSpace_append hw, List.cons_append, skipSpace_cons hc.1], hc.2.1⟩
  cases h with
  | one hw h hz => rw [List.append_assoc]; exact key hw h _
  | more hw h hz hs => rw [List.append_assoc, List.append_assoc]; exact key hw h _

theorem membersText_head {n : Nat} {kvs : List (Bytes × Json)} {t : Bytes} (h : Spec.MembersText n kvs t) (r : Bytes) :
    ∃ s, skipSpace (t ++ r) = 34 :: s := by
  have key : ∀ {k : Bytes} {v : Json} {m : Bytes}, Spec.MemberText n k v m → ∀ r, ∃ s, skipSpace (m ++ r) = 34 :: s := by
    intro k v m h r
    cases h with
    | mk hw hk hx hy hv hz =>
      rw [List.append_assoc, skipSpace_append hw, c_quote, List.cons_append, skipSpace_cons (by decide)]
      exact ⟨_, rfl⟩
  cases h with
  | one h => exact key h r
  | more h hs => rw [List.append_assoc]; exact key h _

theorem stops_of {z : Bytes} (hz : Spec.Space z) {c : UInt8} (hc : isDigit c = false ∧ c ≠ 46 ∧ c ≠ 101 ∧ c ≠ 69) (r : Bytes) :
    Stops (z ++ c :: r) := by
  cases z with
  | nil => intro x s hx; cases hx; exact hc
  | cons y z =>
    intro x s hx
    cases hx
    have hy : y = 32 ∨ y = 9 ∨ y = 10 ∨ y = 13 := hz y List.mem_cons_self
    rcases hy with rfl | rfl | rfl | rfl <;> exact ⟨by decide, by decide, by decide, by decide⟩

theorem readValue_word {fuel d : Nat} {w r : Bytes} (hw : Spec.Space w) :
    readValue (fuel + 1) d (w ++ (b! "null" ++ r)) = some (.null, r) ∧
    readValue (fuel + 1) d (w ++ (b! "true" ++ r)) = some (.bool true, r) ∧
    readValue (fuel + 1) d (w ++ (b! "false" ++ r)) = some (.bool false, r) := by
  refine ⟨?_, ?_, ?_⟩ <;>
    rw [readValue, skipSpace_append hw, List.cons_append, skipSpace_cons (by decide)] <;> simp [readWord]

theorem readValue_num {fuel d : Nat} {w l r : Bytes} (hw : Spec.Space w) (hl : Spec.Numeral l) (hr : Stops r) :
    readValue (fuel + 1) d (w ++ (l ++ r)) = some (.num l, r) := by
  obtain ⟨c, s, rfl, hc⟩ := numeral_head hl
  have hn := readNumber_of hl hr
  have hx := valueHead_digit hc
  have key : ∀ x : UInt8, x ≠ 45 → isDigit x = false → c ≠ x := by
    intro x h1 h2
    rcases hc with rfl | hc
    · exact h1.symm
    · exact digit_ne hc h2
  rw [readValue, skipSpace_append hw, List.cons_append, skipSpace_cons hx.1]
  simp only
  rw [if_neg (key 123 (by decide) (by decide)), if_neg (key 91 (by decide) (by decide)), if_neg (key 34 (by decide) (by decide)),
    if_neg (key 116 (by decide) (by decide)), if_neg (key 102 (by decide) (by decide)), if_neg (key 110 (by decide) (by decide))]
  rw [List.cons_append] at hn
  rw [hn]

theorem readValue_str {fuel d : Nat} {w s t r : Bytes} (hw : Spec.Space w) (ht : Spec.StringText s t) :
    readValue (fuel + 1) d (w ++ (34 :: (t ++ 34 :: r))) = some (.str s, r) := by
  rw [readValue, skipSpace_append hw, skipSpace_cons (by decide)]
  simp only
  rw [if_neg (by decide), if_neg (by decide), if_pos trivial, readChars_text ht r _ (by rw [List.length_append]; omega)]

mutual
theorem readValue_of {n : Nat} {j : Json} {t : Bytes} (h : Spec.JsonText n j t) : ∀ (fuel d : Nat) (w r : Bytes), Spec.Space w →
    n + d ≤ maxNestingDepth → (∀ l, j = .num l → Stops r) → t.length < fuel → readValue fuel d (w ++ (t ++ r)) = some (j, r) := by
  intro fuel d w r hw hd hr hf
  cases fuel with
  | zero => omega
  | succ fuel =>
    match h with
    | .null => rw [text_null]; exact (readValue_word hw).1
    | .true => rw [text_true]; exact (readValue_word hw).2.1
    | .false => rw [text_false]; exact (readValue_word hw).2.2
    | .num h => exact readValue_num hw h (hr _ rfl)
    | .str h =>
      rw [c_quote, List.cons_append, List.append_assoc]
      exact readValue_str hw h
    | .noItems hz =>
      rw [c_lbrack, c_rbrack, List.cons_append, List.append_assoc, readValue, skipSpace_append hw, skipSpace_cons (by decide)]
      simp only
      rw [if_neg (by decide), if_pos trivial, if_neg (by omega), skipSpace_append hz, List.singleton_append, skipSpace_cons (by decide)]
      rfl
    | .items (t := t) h =>
      rw [c_lbrack, c_rbrack, List.cons_append, List.append_assoc, readValue, skipSpace_append hw, skipSpace_cons (by decide)]
      simp only
      rw [if_neg (by decide), if_pos trivial, if_neg (by omega)]
      obtain ⟨c, s, h1, h2⟩ := itemsText_head h ([93] ++ r)
      rw [h1]
      simp only
      rw [if_neg h2, List.singleton_append, readItems_of h fuel (d + 1) r (by omega) (by simp at hf; omega)]
    | .noMembers hz =>
      rw [c_lbrace, c_rbrace, List.cons_append, List.append_assoc, readValue, skipSpace_append hw, skipSpace_cons (by decide)]
      simp only
      rw [if_pos trivial, if_neg (by omega), skipSpace_append hz, List.singleton_append, skipSpace_cons (by decide)]
      rfl
    | .members (t := t) h =>
      rw [c_lbrace, c_rbrace, List.cons_append, List.append_assoc, readValue, skipSpace_append hw, skipSpace_cons (by decide)]
      simp only
      rw [if_pos trivial, if_neg (by omega)]
      obtain ⟨s, h1⟩ := membersText_head h ([125] ++ r)
      rw [h1]
      simp only
      rw [if_neg (by decide), List.singleton_append, readMembers_of h fuel (d + 1) r (by omega) (by simp at hf; omega)]
theorem readItems_of {n : Nat} {xs : List Json} {t : Bytes} (h : Spec.ItemsText n xs t) : ∀ (fuel d : Nat) (r : Bytes),
    n + d ≤ maxNestingDepth → t.length + 1 < fuel → readItems fuel d (t ++ 93 :: r) = some (xs, r) := by
  intro fuel d r hd hf
  cases fuel with
  | zero => omega
  | succ fuel =>
    match h with
    | .one (z := z) hw h hz =>
      rw [readItems, List.append_assoc, List.append_assoc,
        readValue_of h fuel d _ _ hw hd (fun _ _ => stops_of hz (by decide) r) (by simp at hf; omega)]
      simp only
      rw [skipSpace_append hz, skipSpace_cons (by decide)]
      simp only
      rw [if_neg (by decide), if_pos trivial]
    | .more (z := z) (u := u) hw h hz hs =>
      rw [readItems, List.append_assoc, List.append_assoc, List.append_assoc, List.cons_append, c_comma,
        readValue_of h fuel d _ _ hw hd (fun _ _ => stops_of hz (by decide) _) (by simp at hf; omega)]
      simp only
      rw [skipSpace_append hz, skipSpace_cons (by decide)]
      simp only
      rw [if_pos trivial, readItems_of hs fuel d r hd (by simp at hf; omega)]
theorem readMembers_of {n : Nat} {kvs : List (Bytes × Json)} {t : Bytes} (h : Spec.MembersText n kvs t) : ∀ (fuel d : Nat) (r : Bytes),
    n + d ≤ maxNestingDepth → t.length + 1 < fuel → readMembers fuel d (t ++ 125 :: r) = some (kvs, r) := by
  intro fuel d r hd hf
  cases fuel with
  | zero => omega
  | succ fuel =>
    match h with
    | .one (.mk (s := s) (x := x) (y := y) (t := t) (z := z) hw hk hx hy hv hz) =>
      rw [readMembers, List.append_assoc, c_quote, skipSpace_append hw, List.cons_append, skipSpace_cons (by decide)]
      simp only
      rw [if_pos trivial, List.append_assoc, List.cons_append, readChars_text hk _ _ (by simp; omega)]
      simp only
      rw [List.append_assoc, skipSpace_append hx, c_colon, List.cons_append, skipSpace_cons (by decide)]
      simp only
      rw [if_pos trivial, List.append_assoc, List.append_assoc,
        readValue_of hv fuel d _ _ hy hd (fun _ _ => stops_of hz (by decide) r) (by simp at hf; omega)]
      simp only
      rw [skipSpace_append hz, skipSpace_cons (by decide)]
      simp only
      rw [if_neg (by decide), if_pos trivial]
    | .more (u := u) (.mk (s := s) (x := x) (y := y) (t := t) (z := z) hw hk hx hy hv hz) hs =>
      rw [readMembers, List.append_assoc, List.append_assoc, c_quote, skipSpace_append hw, List.cons_append, skipSpace_cons (by decide)]
      simp only
      rw [if_pos trivial, List.append_assoc, List.cons_append, readChars_text hk _ _ (by simp; omega)]
      simp only
      rw [List.append_assoc, skipSpace_append hx, c_colon, List.cons_append, skipSpace_cons (by decide)]
      simp only
      rw [if_pos trivial, List.append_assoc, List.append_assoc, List.cons_append, c_comma,
        readValue_of hv fuel d _ _ hy hd (fun _ _ => stops_of hz (by decide) _) (by simp at hf; omega)]
      simp only
      rw [skipSpace_append hz, skipSpace_cons (by decide)]
      simp only
      rw [if_pos trivial, readMembers_of hs fuel d r hd (by simp at hf; omega)]
end

/-! ### What is read is in the grammar -/

theorem readWord_sound {w : Bytes} {j k : Json} {s r : Bytes} (h : readWord w j s = some (k, r)) : k = j ∧ s = w ++ r := by
  unfold readWord at h
  split at h
  · next hw =>
    cases h
    refine ⟨rfl, ?_⟩
    conv_lhs => rw [← List.take_append_drop w.length s, hw]
  · cases h

theorem read_sound (fuel : Nat) :
    (∀ {d : Nat} {s : Bytes} {j : Json} {r : Bytes}, readValue fuel d s = some (j, r) →
      ∃ w t, Spec.Space w ∧ s = w ++ (t ++ r) ∧ Spec.JsonText (maxNestingDepth - d) j t) ∧
    (∀ {d : Nat} {s : Bytes} {xs : List Json} {r : Bytes}, readItems fuel d s = some (xs, r) →
      ∃ t, s = t ++ 93 :: r ∧ Spec.ItemsText (maxNestingDepth - d) xs t) ∧
    (∀ {d : Nat} {s : Bytes} {kvs : List (Bytes × Json)} {r : Bytes}, readMembers fuel d s = some (kvs, r) →
      ∃ t, s = t ++ 125 :: r ∧ Spec.MembersText (maxNestingDepth - d) kvs t) := by
  induction fuel with
  | zero => exact ⟨fun h => (by cases h), fun h => (by cases h), fun h => (by cases h)⟩
  | succ fuel ih =>
    obtain ⟨ih1, ih2, ih3⟩ := ih
    refine ⟨?_, ?_, ?_⟩
    · intro d s j r h
      rw [readValue] at h
      obtain ⟨w, hw, hs⟩ := skipSpace_split s
      refine ⟨w, ?_⟩
      split at h
      · cases h
      next c rest hc =>
      rw [hc] at hs
      suffices hx : ∃ t, c :: rest = t ++ r ∧ Spec.JsonText (maxNestingDepth - d) j t by
        obtain ⟨t, h1, h2⟩ := hx
        exact ⟨t, hw, by rw [hs, h1], h2⟩
      clear hs hc
      split at h
      · next h123 =>
        subst h123
        split at h
        · cases h
        next hd =>
        rw [show maxNestingDepth - d = (maxNestingDepth - (d + 1)) + 1 by omega]
        obtain ⟨z, hz, hs⟩ := skipSpace_split rest
        split at h
        · cases h
        next e r' he =>
        split at h
        · next h125 =>
          cases h
          subst h125
          exact ⟨123 :: (z ++ [125]), by rw [hs, he]; simp, .noMembers hz⟩
        · split at h
          · cases h
          next kvs r1 hm =>
          cases h
          obtain ⟨t, h1, h2⟩ := ih3 hm
          exact ⟨123 :: (t ++ [125]), by rw [h1]; simp, .members h2⟩
      split at h
      · next h91 =>
        subst h91
        split at h
        · cases h
        next hd =>
        rw [show maxNestingDepth - d = (maxNestingDepth - (d + 1)) + 1 by omega]
        obtain ⟨z, hz, hs⟩ := skipSpace_split rest
        split at h
        · cases h
        next e r' he =>
        split at h
        · next h93 =>
          cases h
          subst h93
          exact ⟨91 :: (z ++ [93]), by rw [hs, he]; simp, .noItems hz⟩
        · split at h
          · cases h
          next xs r1 hm =>
          cases h
          obtain ⟨t, h1, h2⟩ := ih2 hm
          exact ⟨91 :: (t ++ [93]), by rw [h1]; simp, .items h2⟩
      split at h
      · next h34 =>
        subst h34
        split at h
        · cases h
        next v r1 hm =>
        cases h
        obtain ⟨t, h1, h2⟩ := readChars_sound hm
        exact ⟨34 :: (t ++ [34]), by rw [h1]; simp, .str h2⟩
      split at h
      · obtain ⟨rfl, h2⟩ := readWord_sound h
        exact ⟨b! "true", h2, by rw [← text_true]; exact .true⟩
      split at h
      · obtain ⟨rfl, h2⟩ := readWord_sound h
        exact ⟨b! "false", h2, by rw [← text_false]; exact .false⟩
      split at h
      · obtain ⟨rfl, h2⟩ := readWord_sound h
        exact ⟨b! "null", h2, by rw [← text_null]; exact .null⟩
      split at h
      · cases h
      next l r1 hm =>
      cases h
      obtain ⟨h1, h2⟩ := readNumber_sound hm
      exact ⟨l, h1, .num h2⟩
    · intro d s xs r h
      rw [readItems] at h
      split at h
      · cases h
      next x r1 hx =>
      obtain ⟨w, t, hw, hs, ht⟩ := ih1 hx
      obtain ⟨z, hz, hr⟩ := skipSpace_split r1
      split at h
      · cases h
      next c r2 hc =>
      rw [hc] at hr
      split at h
      · next h44 =>
        subst h44
        split at h
        · cases h
        next xs r3 hm =>
        cases h
        obtain ⟨u, h1, h2⟩ := ih2 hm
        exact ⟨w ++ t ++ z ++ 44 :: u, by rw [hs, hr, h1]; simp, .more hw ht hz h2⟩
      split at h
      · next h93 =>
        subst h93
        cases h
        exact ⟨w ++ t ++ z, by rw [hs, hr]; simp, .one hw ht hz⟩
      · cases h
    · intro d s kvs r h
      rw [readMembers] at h
      obtain ⟨w, hw, hs⟩ := skipSpace_split s
      split at h
      · cases h
      next c r1 hc =>
      rw [hc] at hs
      split at h
      · next h34 =>
        subst h34
        split at h
        · cases h
        next k r2 hk =>
        obtain ⟨a, ha, hk⟩ := readChars_sound hk
        obtain ⟨x, hx, hr⟩ := skipSpace_split r2
        split at h
        · cases h
        next c r3 hc =>
        rw [hc] at hr
        split at h
        · next h58 =>
          subst h58
          split at h
          · cases h
          next v r4 hv =>
          obtain ⟨y, t, hy, hs3, ht⟩ := ih1 hv
          obtain ⟨z, hz, hr4⟩ := skipSpace_split r4
          split at h
          · cases h
          next c r5 hc =>
          rw [hc] at hr4
          split at h
          · next h44 =>
            subst h44
            split at h
            · cases h
            next kvs r6 hm =>
            cases h
            obtain ⟨u, h1, h2⟩ := ih3 hm
            refine ⟨w ++ 34 :: (a ++ 34 :: (x ++ 58 :: (y ++ t ++ z))) ++ 44 :: u, ?_, .more (.mk hw hk hx hy ht hz) h2⟩
            rw [hs, ha, hr, hs3, hr4, h1]; simp
          split at h
          · next h125 =>
            subst h125
            cases h
            refine ⟨w ++ 34 :: (a ++ 34 :: (x ++ 58 :: (y ++ t ++ z))), ?_, .one (.mk hw hk hx hy ht hz)⟩
            rw [hs, ha, hr, hs3, hr4]; simp
          · cases h
        · cases h
      · cases h

/-! ### The first value of a text -/

theorem firstJson_of {w t r : Bytes} {j : Json} (hw : Spec.Space w) (ht : Spec.JsonText Spec.deepest j t) (hr : ∀ l, j = .num l → Stops r) :
    firstJson (w ++ (t ++ r)) = some j := by
  unfold firstJson
  rw [readValue_of ht _ 0 w r hw (Nat.le_refl _) hr (by simp; omega)]
  rfl

theorem firstJson_sound {s : Bytes} {j : Json} (h : firstJson s = some j) :
    ∃ w t r, s = w ++ (t ++ r) ∧ Spec.Space w ∧ Spec.JsonText Spec.deepest j t := by
  unfold firstJson at h
  obtain ⟨p, hp, rfl⟩ := Option.map_eq_some_iff.1 h
  obtain ⟨w, t, hw, hs, ht⟩ := (read_sound _).1 (j := p.1) (r := p.2) hp
  exact ⟨w, t, p.2, hs, hw, ht⟩

end Metro2
