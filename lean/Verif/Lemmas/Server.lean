import Verif.Spec.Server

/-! Lemmas about letters and requests. -/

namespace Metro2

/-! ### Letters -/

/-- `lowerText` on one byte. -/
def lowerByte (c : UInt8) : UInt8 := if 65 ≤ c ∧ c ≤ 90 then c + 32 else c

theorem lowerText_ascii {c : UInt8} (h : c < 0x80) (rest : Bytes) : lowerText (c :: rest) = lowerByte c :: lowerText rest := by
  rw [lowerText]
  · rfl
  · rintro r rfl; exact absurd h (by decide)
  · rintro r rfl; exact absurd h (by decide)

theorem lowerText_step (s : Bytes) : s = [] ∨ (∃ rest, s = 0xC4 :: 0xB0 :: rest ∧ lowerText s = 105 :: lowerText rest) ∨
    (∃ rest, s = 0xE2 :: 0x84 :: 0xAA :: rest ∧ lowerText s = 107 :: lowerText rest) ∨
    ∃ c rest, s = c :: rest ∧ lowerText s = lowerByte c :: lowerText rest := by
  rcases s with _ | ⟨c, rest⟩
  · exact Or.inl rfl
  · by_cases h1 : ∃ r, c = 0xC4 ∧ rest = 0xB0 :: r
    · obtain ⟨r, rfl, rfl⟩ := h1
      exact Or.inr (Or.inl ⟨r, rfl, rfl⟩)
    · by_cases h2 : ∃ r, c = 0xE2 ∧ rest = 0x84 :: 0xAA :: r
      · obtain ⟨r, rfl, rfl⟩ := h2
        exact Or.inr (Or.inr (Or.inl ⟨r, rfl, rfl⟩))
      · refine Or.inr (Or.inr (Or.inr ⟨c, rest, rfl, ?_⟩))
        rw [lowerText]
        · rfl
        · rintro r rfl rfl; exact h1 ⟨_, rfl, rfl⟩
        · rintro r rfl rfl; exact h2 ⟨_, rfl, rfl⟩

theorem lowerByte_cases {x c : UInt8} (h : lowerByte x = c) : x = c ∨ (97 ≤ c ∧ c ≤ 122 ∧ x = c - 32) := by
  unfold lowerByte at h
  split at h
  · next hx =>
    right
    subst h
    obtain ⟨h1, h2⟩ := hx
    rw [UInt8.le_iff_toNat_le] at h1 h2
    refine ⟨?_, ?_, by rw [UInt8.add_sub_cancel]⟩ <;> rw [UInt8.le_iff_toNat_le, UInt8.toNat_add] <;>
      simp only [UInt8.reduceToNat] at * <;> omega
  · exact Or.inl h

theorem large_letter {c : UInt8} (h1 : 97 ≤ c) (h2 : c ≤ 122) : (c - 32) < 0x80 ∧ lowerByte (c - 32) = c ∧ upperByte c = c - 32 ∧
    upperByte (c - 32) = c - 32 := by
  rw [UInt8.le_iff_toNat_le] at h1 h2
  have hc : c = UInt8.ofNat c.toNat := (UInt8.ofNat_toNat).symm
  generalize c.toNat = n at *
  subst hc
  simp only [UInt8.reduceToNat] at h1 h2
  have : ∀ n, 97 ≤ n → n ≤ 122 → (UInt8.ofNat n - 32) < 0x80 ∧ lowerByte (UInt8.ofNat n - 32) = UInt8.ofNat n ∧
    upperByte (UInt8.ofNat n) = UInt8.ofNat n - 32 ∧ upperByte (UInt8.ofNat n - 32) = UInt8.ofNat n - 32 := by
    intro n h1 h2
    have : ∀ n < 123, 97 ≤ n → (UInt8.ofNat n - 32) < 0x80 ∧ lowerByte (UInt8.ofNat n - 32) = UInt8.ofNat n ∧
      upperByte (UInt8.ofNat n) = UInt8.ofNat n - 32 ∧ upperByte (UInt8.ofNat n - 32) = UInt8.ofNat n - 32 := by decide
    exact this n (by omega) h1
  exact this n h1 h2

theorem spells_lower (w : Bytes) (hw : ∀ c ∈ w, c < 0x80 ∧ ¬ (65 ≤ c ∧ c ≤ 90)) (s : Bytes) :
    w.isPrefixOf (lowerText s) = true ↔ ∃ a b, s = a ++ b ∧ Spec.Spells Spec.lowerOthers w a := by
  induction w generalizing s with
  | nil => exact ⟨fun _ => ⟨[], s, rfl, .nil⟩, fun _ => by simp⟩
  | cons c w ih =>
    have ih := ih fun c hc => hw c (List.mem_cons_of_mem _ hc)
    obtain ⟨hc, hc'⟩ := hw c List.mem_cons_self
    constructor
    · intro h
      rcases lowerText_step s with rfl | ⟨rest, rfl, h1⟩ | ⟨rest, rfl, h1⟩ | ⟨x, rest, rfl, h1⟩
      · rw [lowerText] at h; cases h
      all_goals
        rw [h1, List.isPrefixOf_cons₂, Bool.and_eq_true, beq_iff_eq] at h
        obtain ⟨a, b, rfl, hs⟩ := (ih rest).1 h.2
        obtain ⟨h, -⟩ := h
      · exact ⟨0xC4 :: 0xB0 :: a, b, rfl, by rw [h]; exact .other (t := [0xC4, 0xB0]) (by decide) hs⟩
      · exact ⟨0xE2 :: 0x84 :: 0xAA :: a, b, rfl, by rw [h]; exact .other (t := [0xE2, 0x84, 0xAA]) (by decide) hs⟩
      · refine ⟨x :: a, b, rfl, ?_⟩
        rcases lowerByte_cases h.symm with rfl | ⟨h2, h3, rfl⟩
        · exact .small hs
        · exact .large h2 h3 hs
    · rintro ⟨a, b, rfl, hs⟩
      cases hs with
      | small hs =>
        next a =>
        have := (ih (a ++ b)).2 ⟨a, b, rfl, hs⟩
        rw [List.cons_append, lowerText_ascii hc, lowerByte, if_neg hc', List.isPrefixOf_cons₂, this]
        simp
      | large h1 h2 hs =>
        next a =>
        have := (ih (a ++ b)).2 ⟨a, b, rfl, hs⟩
        obtain ⟨h3, h4, -⟩ := large_letter h1 h2
        rw [List.cons_append, lowerText_ascii h3, h4, List.isPrefixOf_cons₂, this]
        simp
      | other hm hs =>
        next t a =>
        have := (ih (a ++ b)).2 ⟨a, b, rfl, hs⟩
        simp only [Spec.lowerOthers, List.mem_cons, Prod.mk.injEq, List.not_mem_nil, or_false] at hm
        rcases hm with ⟨rfl, rfl⟩ | ⟨rfl, rfl⟩
        · show (105 :: w).isPrefixOf (105 :: lowerText (a ++ b)) = true
          rw [List.isPrefixOf_cons₂, this]; simp
        · show (107 :: w).isPrefixOf (107 :: lowerText (a ++ b)) = true
          rw [List.isPrefixOf_cons₂, this]; simp

theorem foldKey_ascii {c : UInt8} (h : c < 0x80) (rest : Bytes) : foldKey (c :: rest) = upperByte c :: foldKey rest := by
  rw [foldKey]
  · rintro r rfl; exact absurd h (by decide)
  · rintro r rfl; exact absurd h (by decide)

theorem foldKey_step (s : Bytes) : s = [] ∨ (∃ rest, s = 0xE2 :: 0x84 :: 0xAA :: rest ∧ foldKey s = 75 :: foldKey rest) ∨
    (∃ rest, s = 0xC5 :: 0xBF :: rest ∧ foldKey s = 83 :: foldKey rest) ∨
    ∃ c rest, s = c :: rest ∧ foldKey s = upperByte c :: foldKey rest := by
  rcases s with _ | ⟨c, rest⟩
  · exact Or.inl rfl
  · by_cases h1 : ∃ r, c = 0xE2 ∧ rest = 0x84 :: 0xAA :: r
    · obtain ⟨r, rfl, rfl⟩ := h1
      exact Or.inr (Or.inl ⟨r, rfl, rfl⟩)
    · by_cases h2 : ∃ r, c = 0xC5 ∧ rest = 0xBF :: r
      · obtain ⟨r, rfl, rfl⟩ := h2
        exact Or.inr (Or.inr (Or.inl ⟨r, rfl, rfl⟩))
      · refine Or.inr (Or.inr (Or.inr ⟨c, rest, rfl, ?_⟩))
        rw [foldKey]
        · rintro r rfl rfl; exact h1 ⟨_, rfl, rfl⟩
        · rintro r rfl rfl; exact h2 ⟨_, rfl, rfl⟩

theorem upperByte_small {x c : UInt8} (h1 : 97 ≤ c) (h2 : c ≤ 122) (h : upperByte x = upperByte c) : x = c ∨ x = c - 32 := by
  rw [(large_letter h1 h2).2.2.1] at h
  unfold upperByte at h
  split at h
  · left
    have := congrArg (· + 32) h
    simpa using this
  · exact Or.inr h

theorem small_of_upper {c d : UInt8} (h1 : 97 ≤ c) (h2 : c ≤ 122) (h : upperByte c = d) : c = d + 32 := by
  rw [(large_letter h1 h2).2.2.1] at h
  rw [← h]
  simp

/-- Comparison with a word of small letters. -/
theorem spells_fold (w : Bytes) (hw : ∀ c ∈ w, 97 ≤ c ∧ c ≤ 122) (s : Bytes) :
    equalFold s w = true ↔ Spec.Spells Spec.foldOthers w s := by
  rw [equalFold, decide_eq_true_iff]
  induction w generalizing s with
  | nil =>
    constructor
    · intro h
      rcases foldKey_step s with rfl | ⟨rest, rfl, h1⟩ | ⟨rest, rfl, h1⟩ | ⟨x, rest, rfl, h1⟩
      · exact .nil
      all_goals rw [h1, foldKey] at h; cases h
    · intro h; cases h; rfl
  | cons c w ih =>
    have ih := ih fun c hc => hw c (List.mem_cons_of_mem _ hc)
    obtain ⟨h1, h2⟩ := hw c List.mem_cons_self
    have hc : c < 0x80 := by
      rw [UInt8.le_iff_toNat_le] at h2
      rw [UInt8.lt_iff_toNat_lt]
      simp only [UInt8.reduceToNat] at *
      omega
    obtain ⟨h3, -, h4, h5⟩ := large_letter h1 h2
    rw [foldKey_ascii hc]
    constructor
    · intro h
      rcases foldKey_step s with rfl | ⟨rest, rfl, h6⟩ | ⟨rest, rfl, h6⟩ | ⟨x, rest, rfl, h6⟩
      · rw [foldKey] at h; cases h
      all_goals
        rw [h6, List.cons.injEq] at h
        have hs := (ih rest).1 h.2
        obtain ⟨h, -⟩ := h
      · rw [show c = 107 from small_of_upper h1 h2 h.symm]
        exact .other (t := [0xE2, 0x84, 0xAA]) (by decide) hs
      · rw [show c = 115 from small_of_upper h1 h2 h.symm]
        exact .other (t := [0xC5, 0xBF]) (by decide) hs
      · rcases upperByte_small h1 h2 h with rfl | rfl
        · exact .small hs
        · exact .large h1 h2 hs
    · intro hs
      cases hs with
      | small hs => rw [foldKey_ascii hc, (ih _).2 hs]
      | large _ _ hs => rw [foldKey_ascii h3, h4, h5, (ih _).2 hs]
      | other hm hs =>
        simp only [Spec.foldOthers, List.mem_cons, Prod.mk.injEq, List.not_mem_nil, or_false] at hm
        rcases hm with ⟨rfl, rfl⟩ | ⟨rfl, rfl⟩
        · next a => show 75 :: foldKey a = _; rw [(ih _).2 hs]; rfl
        · next a => show 83 :: foldKey a = _; rw [(ih _).2 hs]; rfl

end Metro2
