import Verif.Lemmas.Digits

/-! Lemmas about runes, `fmt` padding and `strings.TrimRight`. -/

namespace Metro2

/-- Every byte is below 128. -/
def Ascii (s : Bytes) : Prop := ∀ c ∈ s, c.toNat < 128

theorem byteIn_none (lo hi : UInt8) : byteIn lo hi none = false := rfl

theorem byteIn_some {lo hi c : UInt8} :
    byteIn lo hi (some c) = true ↔ lo.toNat ≤ c.toNat ∧ c.toNat ≤ hi.toNat := by
  simp [byteIn, UInt8.le_iff_toNat_le]

theorem utf8Seq2_none (c : UInt8) : utf8Seq2 c none = false := by simp [utf8Seq2, byteIn_none]

theorem utf8Seq3_none (c : UInt8) (o : Option UInt8) : utf8Seq3 c o none = false := by
  simp [utf8Seq3, byteIn_none]

theorem utf8Seq3_none' (c : UInt8) (o : Option UInt8) : utf8Seq3 c none o = false := by
  simp [utf8Seq3, byteIn_none]

theorem utf8Seq4_none (c : UInt8) (o p : Option UInt8) : utf8Seq4 c o p none = false := by
  simp [utf8Seq4, byteIn_none]

theorem utf8Seq4_none' (c : UInt8) (o p : Option UInt8) : utf8Seq4 c none o p = false := by
  simp [utf8Seq4, byteIn_none]

theorem runeWidth_ascii {c : UInt8} (s : Bytes) (h : c.toNat < 128) : runeWidth (c :: s) = 1 := by
  have h2 : byteIn 0xC2 0xDF (some c) = false := by
    rw [Bool.eq_false_iff, ne_eq, byteIn_some]; simp; omega
  have h3 : byteIn 0xE0 0xEF (some c) = false := by
    rw [Bool.eq_false_iff, ne_eq, byteIn_some]; simp; omega
  have h4 : byteIn 0xF0 0xF4 (some c) = false := by
    rw [Bool.eq_false_iff, ne_eq, byteIn_some]; simp; omega
  simp [runeWidth, utf8Seq2, utf8Seq3, utf8Seq4, h2, h3, h4]

theorem runeWidth_pos (c : UInt8) (s : Bytes) : 1 ≤ runeWidth (c :: s) := by
  simp only [runeWidth]
  repeat' (first | omega | split)

theorem runeWidth_le (s : Bytes) : runeWidth s ≤ s.length := by
  cases s with
  | nil => simp [runeWidth]
  | cons c s =>
    simp only [runeWidth, List.length_cons]
    match s with
    | [] => simp [utf8Seq2_none, utf8Seq3_none, utf8Seq4_none]
    | [c1] => simp [utf8Seq3_none, utf8Seq4_none]; split <;> simp
    | [c1, c2] =>
      simp [utf8Seq4_none]
      split
      · simp
      · split <;> simp
    | c1 :: c2 :: c3 :: s =>
      simp only [List.length_cons]
      repeat' (first | omega | split)

/-- Cutting a string after its first rune does not change the width of that rune. -/
theorem runeWidth_take (s : Bytes) (k : Nat) (h : runeWidth s ≤ k) :
    runeWidth (s.take k) = runeWidth s := by
  cases s with
  | nil => simp
  | cons c s =>
    obtain ⟨k, rfl⟩ : ∃ j, k = j + 1 :=
      ⟨k - 1, by have := runeWidth_pos c s; omega⟩
    rw [List.take_succ_cons]
    have e : ∀ i, (s.take k)[i]? = if i < k then s[i]? else none := fun i => List.getElem?_take
    simp only [runeWidth] at h ⊢
    simp only [e]
    generalize s[0]? = a at *
    generalize s[1]? = b at *
    generalize s[2]? = d at *
    match k with
    | 0 =>
      simp only [Nat.not_lt_zero, if_false, utf8Seq2_none, utf8Seq3_none, utf8Seq4_none]
      cases h2 : utf8Seq2 c a <;> cases h3 : utf8Seq3 c a b <;> cases h4 : utf8Seq4 c a b d <;>
        simp [h2, h3, h4] at h ⊢
    | 1 =>
      simp only [Nat.lt_irrefl, if_false, Nat.zero_lt_one,
        if_true, show ¬ (2 < 1) by omega, utf8Seq3_none, utf8Seq4_none]
      cases h2 : utf8Seq2 c a <;> cases h3 : utf8Seq3 c a b <;> cases h4 : utf8Seq4 c a b d <;>
        simp [h2, h3, h4] at h ⊢
    | 2 =>
      simp only [Nat.lt_irrefl, if_false, Nat.zero_lt_two,
        if_true, show 1 < 2 by omega, utf8Seq4_none]
      cases h2 : utf8Seq2 c a <;> cases h3 : utf8Seq3 c a b <;> cases h4 : utf8Seq4 c a b d <;>
        simp [h2, h3, h4] at h ⊢
    | k + 3 => simp only [show 0 < k + 3 by omega, show 1 < k + 3 by omega, show 2 < k + 3 by omega, if_true]

theorem takeRunes_nil (n : Nat) : takeRunes n [] = [] := by cases n <;> rfl

/-- `takeRunes` gives a prefix. -/
theorem takeRunes_prefix (n : Nat) (s : Bytes) : ∃ k, takeRunes n s = s.take k := by
  induction n generalizing s with
  | zero => exact ⟨0, by simp [takeRunes]⟩
  | succ n ih =>
    cases s with
    | nil => exact ⟨0, by simp [takeRunes]⟩
    | cons c s =>
      obtain ⟨k, hk⟩ := ih ((c :: s).drop (runeWidth (c :: s)))
      refine ⟨runeWidth (c :: s) + k, ?_⟩
      rw [takeRunes, hk, List.take_add]

/-- With more fuel than bytes `runeCountAux` does not depend on the fuel. -/
theorem runeCountAux_fuel (f : Nat) (s : Bytes) (h : s.length ≤ f) :
    runeCountAux f s = runeCount s := by
  unfold runeCount
  generalize hg : s.length = g
  rw [hg] at h
  induction g using Nat.strongRecOn generalizing s f with
  | _ g ih =>
    cases s with
    | nil => cases f <;> cases g <;> rfl
    | cons c s =>
      cases f with
      | zero => simp at hg; omega
      | succ f =>
        cases g with
        | zero => simp at hg
        | succ g =>
          simp only [runeCountAux]
          have hw := runeWidth_pos c s
          have hl : ((c :: s).drop (runeWidth (c :: s))).length = g + 1 - runeWidth (c :: s) := by
            rw [List.length_drop, hg]
          rw [ih (g + 1 - runeWidth (c :: s)) (by omega) f _ (by omega) hl,
            ih (g + 1 - runeWidth (c :: s)) (by omega) g _ (by omega) hl]

@[simp] theorem runeCount_nil : runeCount [] = 0 := rfl

theorem runeCount_cons (c : UInt8) (s : Bytes) :
    runeCount (c :: s) = runeCount ((c :: s).drop (runeWidth (c :: s))) + 1 := by
  conv_lhs => unfold runeCount
  rw [List.length_cons, runeCountAux, runeCountAux_fuel]
  have := runeWidth_pos c s
  rw [List.length_drop, List.length_cons]
  omega

theorem runeCount_takeRunes (n : Nat) (s : Bytes) :
    runeCount (takeRunes n s) = min n (runeCount s) := by
  induction n generalizing s with
  | zero => simp [takeRunes]
  | succ n ih =>
    cases s with
    | nil => simp [takeRunes]
    | cons c s =>
      have hw := runeWidth_pos c s
      have hle := runeWidth_le (c :: s)
      obtain ⟨k, hk⟩ := takeRunes_prefix n ((c :: s).drop (runeWidth (c :: s)))
      have e : takeRunes (n + 1) (c :: s) = (c :: s).take (runeWidth (c :: s) + k) := by
        rw [takeRunes, hk, List.take_add]
      have hne : ∃ t, takeRunes (n + 1) (c :: s) = c :: t := by
        obtain ⟨w, hw'⟩ : ∃ w, runeWidth (c :: s) = w + 1 := ⟨_, (Nat.sub_add_cancel hw).symm⟩
        refine ⟨s.take (w + k), ?_⟩
        rw [e, hw', show w + 1 + k = (w + k) + 1 by omega, List.take_succ_cons]
      obtain ⟨t, ht⟩ := hne
      have hrw : runeWidth (c :: t) = runeWidth (c :: s) := by
        rw [← ht, e]
        exact runeWidth_take _ _ (by omega)
      rw [ht, runeCount_cons, hrw, ← ht]
      rw [show takeRunes (n + 1) (c :: s) = (c :: s).take (runeWidth (c :: s)) ++
        takeRunes n ((c :: s).drop (runeWidth (c :: s))) from rfl]
      rw [List.drop_append_of_le_length (by rw [List.length_take]; omega),
        List.drop_take_self, List.nil_append, ih, runeCount_cons c s]
      omega

theorem runeCount_le (s : Bytes) : runeCount s ≤ s.length := by
  generalize h : s.length = g
  induction g using Nat.strongRecOn generalizing s with
  | _ g ih =>
    cases s with
    | nil => simp
    | cons c s =>
      have hw := runeWidth_pos c s
      have hle := runeWidth_le (c :: s)
      rw [runeCount_cons]
      have hl : ((c :: s).drop (runeWidth (c :: s))).length = g - runeWidth (c :: s) := by
        rw [List.length_drop, h]
      have := ih (g - runeWidth (c :: s)) (by omega) _ hl
      omega

/-- The first `n` runes are one byte wide each. -/
def Narrow (n : Nat) (s : Bytes) : Prop := ∀ i < n, runeWidth (s.drop i) ≤ 1

theorem Narrow.tail {n : Nat} {c : UInt8} {s : Bytes} (h : Narrow (n + 1) (c :: s)) :
    Narrow n s := by
  intro i hi
  simpa using h (i + 1) (by omega)

theorem Ascii.narrow {s : Bytes} (h : Ascii s) (n : Nat) : Narrow n s := by
  intro i _
  cases hd : s.drop i with
  | nil => simp [runeWidth]
  | cons c t =>
    have : c ∈ s := List.mem_of_mem_drop (i := i) (by rw [hd]; exact List.mem_cons_self)
    rw [runeWidth_ascii t (h c this)]

theorem takeRunes_narrow {n : Nat} {s : Bytes} (h : Narrow n s) : takeRunes n s = s.take n := by
  induction n generalizing s with
  | zero => simp [takeRunes]
  | succ n ih =>
    cases s with
    | nil => simp [takeRunes]
    | cons c s =>
      have h0 : runeWidth (c :: s) = 1 := by
        have := h 0 (by omega)
        have := runeWidth_pos c s
        simp at *
        omega
      rw [takeRunes, h0]
      simp only [List.take_succ_cons, List.take_zero, List.drop_succ_cons, List.drop_zero,
        List.singleton_append]
      rw [ih h.tail]

/-- Length in bytes of the first `n` runes; equality exactly for narrow strings. -/
theorem length_takeRunes_ge (n : Nat) (s : Bytes) :
    min n (runeCount s) ≤ (takeRunes n s).length := by
  rw [← runeCount_takeRunes]
  exact runeCount_le _

theorem narrow_iff (n : Nat) (s : Bytes) :
    Narrow n s ↔ (takeRunes n s).length = runeCount (takeRunes n s) := by
  induction n generalizing s with
  | zero => simp [Narrow, takeRunes]
  | succ n ih =>
    cases s with
    | nil => simp [Narrow, takeRunes, runeWidth]
    | cons c s =>
      have hw := runeWidth_pos c s
      have hle := runeWidth_le (c :: s)
      rw [runeCount_takeRunes, runeCount_cons]
      have hih := ih ((c :: s).drop (runeWidth (c :: s)))
      have hge := length_takeRunes_ge n ((c :: s).drop (runeWidth (c :: s)))
      rw [runeCount_takeRunes] at hih
      rw [takeRunes, List.length_append, List.length_take, Nat.min_eq_left hle, Nat.add_min_add_right]
      constructor
      · intro h
        have h0 : runeWidth (c :: s) = 1 := by
          have := h 0 (by omega)
          simp at this
          omega
        rw [h0] at hih ⊢
        have := hih.1 (by simpa using h.tail)
        omega
      · intro h
        have h0 : runeWidth (c :: s) = 1 := by omega
        rw [h0] at hih h
        have := hih.2 (by omega)
        simp only [List.drop_succ_cons, List.drop_zero] at this
        intro i hi
        cases i with
        | zero => simpa using Nat.le_of_eq h0
        | succ i => simpa using this i (by omega)

/-! ### fmt -/

theorem fmtLeftStr_length (n : Nat) (s : Bytes) :
    (fmtLeftStr n s).length = (takeRunes n s).length + (n - runeCount (takeRunes n s)) := by
  simp [fmtLeftStr]

theorem fmtLeftStr_length_ge (n : Nat) (s : Bytes) : n ≤ (fmtLeftStr n s).length := by
  rw [fmtLeftStr_length]
  have := runeCount_le (takeRunes n s)
  omega

theorem fmtLeftStr_length_iff (n : Nat) (s : Bytes) :
    (fmtLeftStr n s).length = n ↔ Narrow n s := by
  rw [narrow_iff, fmtLeftStr_length]
  have h1 := runeCount_le (takeRunes n s)
  have h2 := runeCount_takeRunes n s
  omega

theorem Ascii.take {s : Bytes} (h : Ascii s) (n : Nat) : Ascii (s.take n) :=
  fun c hc => h c (List.mem_of_mem_take hc)

theorem runeCount_ascii {s : Bytes} (h : Ascii s) : runeCount s = s.length := by
  induction s with
  | nil => rfl
  | cons c s ih =>
    rw [runeCount_cons, runeWidth_ascii s (h c List.mem_cons_self)]
    simp [ih fun c hc => h c (List.mem_cons_of_mem _ hc)]

theorem fmtLeftStr_ascii {n : Nat} {s : Bytes} (h : Ascii s) :
    fmtLeftStr n s = s.take n ++ List.replicate (n - s.length) 32 := by
  unfold fmtLeftStr
  simp only
  rw [takeRunes_narrow (h.narrow n), runeCount_ascii (h.take n), List.length_take]
  congr 2
  omega

theorem fmtZeroStr_ascii {n : Nat} {s : Bytes} (h : Ascii s) :
    fmtZeroStr n s = List.replicate (n - s.length) 48 ++ s.take n := by
  unfold fmtZeroStr
  simp only
  rw [takeRunes_narrow (h.narrow n), runeCount_ascii (h.take n), List.length_take]
  congr 2
  omega

theorem fmtZeroStr_length {n : Nat} {s : Bytes} (h : Ascii s) : (fmtZeroStr n s).length = n := by
  rw [fmtZeroStr_ascii h]
  simp

theorem ascii_of_digits {s : Bytes} (h : ∀ c ∈ s, isDigit c = true) : Ascii s := by
  intro c hc
  have := (isDigit_iff c).1 (h c hc)
  omega

theorem ascii_fmtInt (i : Int) : Ascii (fmtInt i) := by
  cases i with
  | ofNat n => exact ascii_of_digits (fmtNat_all n)
  | negSucc n =>
    intro c hc
    simp only [fmtInt, List.mem_cons] at hc
    rcases hc with rfl | hc
    · decide
    · exact ascii_of_digits (fmtNat_all _) c hc

theorem fmtZeroStr_fmtNat {k n : Nat} (hk : 0 < k) (h : n < 10 ^ k) :
    fmtZeroStr k (fmtNat n) = decDigits k n := by
  rw [fmtZeroStr_ascii (ascii_of_digits (fmtNat_all n)), List.take_of_length_le, ← padLeft_fmtNat hk h]
  · rfl
  · simpa using (numDigits_le_iff hk).2 h

/-! ### TrimRight -/

/-- The string does not end in a blank. -/
def NoTrailingBlank (s : Bytes) : Prop := s.getLast? ≠ some 32

theorem trimRight_append_blanks (s : Bytes) (k : Nat) :
    trimRight (s ++ List.replicate k 32) = trimRight s := by
  unfold trimRight
  rw [List.reverse_append, List.reverse_replicate]
  congr 1
  induction k with
  | zero => simp
  | succ k ih => rw [List.replicate_succ, List.cons_append, List.dropWhile_cons]; simp

theorem trimRight_eq_self {s : Bytes} (h : NoTrailingBlank s) : trimRight s = s := by
  unfold trimRight
  rw [NoTrailingBlank, List.getLast?_eq_head?_reverse] at h
  cases hr : s.reverse with
  | nil => simpa using hr
  | cons c t =>
    rw [hr] at h
    simp at h
    rw [List.dropWhile_cons]
    simp only [beq_iff_eq, h, if_false]
    rw [← hr, List.reverse_reverse]

theorem noTrailingBlank_trimRight (s : Bytes) : NoTrailingBlank (trimRight s) := by
  unfold trimRight NoTrailingBlank
  rw [List.getLast?_reverse]
  intro h
  have := List.head?_dropWhile_not (p := (· == (32 : UInt8))) (l := s.reverse)
  rw [h] at this
  simp at this

/-- A string is its trimmed form followed by blanks. -/
theorem trimRight_spec (s : Bytes) :
    s = trimRight s ++ List.replicate (s.length - (trimRight s).length) 32 := by
  unfold trimRight
  have h := List.takeWhile_append_dropWhile (p := (· == (32 : UInt8))) (l := s.reverse)
  have h2 : ∀ c ∈ s.reverse.takeWhile (· == (32 : UInt8)), c = 32 := by
    intro c hc
    simpa using List.all_eq_true.1 (List.all_takeWhile (p := (· == (32 : UInt8)))) c hc
  have h3 := List.eq_replicate_of_mem h2
  rw [h3] at h
  have hs : s = (s.reverse.dropWhile (· == 32)).reverse ++
      List.replicate (s.reverse.takeWhile (· == (32 : UInt8))).length 32 := by
    rw [← List.reverse_replicate, ← List.reverse_append, h, List.reverse_reverse]
  conv_lhs => rw [hs]
  congr 2
  have := congrArg List.length hs
  simp at this
  simp
  omega

theorem trimRight_length_le (s : Bytes) : (trimRight s).length ≤ s.length := by
  have := congrArg List.length (trimRight_spec s)
  simp at this
  omega

theorem mem_trimRight {s : Bytes} {c : UInt8} (h : c ∈ trimRight s) : c ∈ s := by
  rw [trimRight_spec s]
  exact List.mem_append_left _ h

end Metro2
