import Verif.Lemmas.Text
import Verif.Spec.Text

/-! `runeWidth` agrees with Lean's UTF-8 encoding. -/

namespace Metro2

theorem char_bound (c : Char) : c.toNat < 0xd800 ∨ (0xdfff < c.toNat ∧ c.toNat < 0x110000) := c.valid

theorem byteIn_ofNat {lo hi : UInt8} {n : Nat} (h : n < 256) :
    byteIn lo hi (some (UInt8.ofNat n)) = decide (lo.toNat ≤ n ∧ n ≤ hi.toNat) := by
  rw [Bool.eq_iff_iff, byteIn_some, decide_eq_true_iff, UInt8.toNat_ofNat_of_lt' h]

theorem ofNat_eq_iff {n : Nat} {c : UInt8} (h : n < 256) : UInt8.ofNat n = c ↔ n = c.toNat := by
  rw [← UInt8.toNat_inj, UInt8.toNat_ofNat_of_lt' h]

theorem runeWidth_seq2 {a b : Nat} (s : Bytes) (ha : 0xC2 ≤ a ∧ a ≤ 0xDF) (hb : 0x80 ≤ b ∧ b ≤ 0xBF) :
    runeWidth (UInt8.ofNat a :: UInt8.ofNat b :: s) = 2 := by
  rw [runeWidth, if_pos]
  rw [List.getElem?_cons_zero, utf8Seq2, byteIn_ofNat (by omega), byteIn_ofNat (by omega)]
  simp only [UInt8.reduceToNat, ha, hb, and_self, decide_true, Bool.and_self]

theorem runeWidth_seq3 {a b c : Nat} (s : Bytes) (ha : 0xE0 ≤ a ∧ a ≤ 0xEF) (hb : 0x80 ≤ b ∧ b ≤ 0xBF)
    (hc : 0x80 ≤ c ∧ c ≤ 0xBF) (h1 : a = 0xE0 → 0xA0 ≤ b) (h2 : a = 0xED → b ≤ 0x9F) :
    runeWidth (UInt8.ofNat a :: UInt8.ofNat b :: UInt8.ofNat c :: s) = 3 := by
  rw [runeWidth, if_neg, if_pos]
  · simp only [List.getElem?_cons_zero, List.getElem?_cons_succ, utf8Seq3]
    rw [byteIn_ofNat (by omega), byteIn_ofNat (by omega), byteIn_ofNat (by omega)]
    have e1 : ((if UInt8.ofNat a = 0xE0 then 0xA0 else 0x80 : UInt8).toNat ≤ b ∧
        b ≤ (if UInt8.ofNat a = 0xED then 0x9F else 0xBF : UInt8).toNat) := by
      simp only [ofNat_eq_iff (show a < 256 by omega), UInt8.reduceToNat]
      constructor
      · split
        · exact h1 ‹_›
        · exact hb.1
      · split
        · exact h2 ‹_›
        · exact hb.2
    simp only [UInt8.reduceToNat, ha, hc, e1, and_self, decide_true, Bool.true_and]
  · rw [utf8Seq2, byteIn_ofNat (by omega)]
    have : ¬ (0xC2 ≤ a ∧ a ≤ 0xDF) := by omega
    simp [this]

theorem runeWidth_seq4 {a b c d : Nat} (s : Bytes) (ha : 0xF0 ≤ a ∧ a ≤ 0xF4) (hb : 0x80 ≤ b ∧ b ≤ 0xBF)
    (hc : 0x80 ≤ c ∧ c ≤ 0xBF) (hd : 0x80 ≤ d ∧ d ≤ 0xBF) (h1 : a = 0xF0 → 0x90 ≤ b)
    (h2 : a = 0xF4 → b ≤ 0x8F) :
    runeWidth (UInt8.ofNat a :: UInt8.ofNat b :: UInt8.ofNat c :: UInt8.ofNat d :: s) = 4 := by
  rw [runeWidth, if_neg, if_neg, if_pos]
  · simp only [List.getElem?_cons_zero, List.getElem?_cons_succ, utf8Seq4]
    rw [byteIn_ofNat (by omega), byteIn_ofNat (by omega), byteIn_ofNat (by omega), byteIn_ofNat (by omega)]
    have e1 : ((if UInt8.ofNat a = 0xF0 then 0x90 else 0x80 : UInt8).toNat ≤ b ∧
        b ≤ (if UInt8.ofNat a = 0xF4 then 0x8F else 0xBF : UInt8).toNat) := by
      simp only [ofNat_eq_iff (show a < 256 by omega), UInt8.reduceToNat]
      constructor
      · split
        · exact h1 ‹_›
        · exact hb.1
      · split
        · exact h2 ‹_›
        · exact hb.2
    simp only [UInt8.reduceToNat, ha, hc, hd, e1, and_self, decide_true, Bool.true_and]
  · rw [utf8Seq3, byteIn_ofNat (by omega)]
    have : ¬ (0xE0 ≤ a ∧ a ≤ 0xEF) := by omega
    simp [this]
  · rw [utf8Seq2, byteIn_ofNat (by omega)]
    have : ¬ (0xC2 ≤ a ∧ a ≤ 0xDF) := by omega
    simp [this]

theorem runeWidth_encode (c : Char) (s : Bytes) :
    runeWidth (String.utf8EncodeChar c ++ s) = (String.utf8EncodeChar c).length := by
  have hb := char_bound c
  unfold String.utf8EncodeChar
  simp only [show c.val.toNat = c.toNat from rfl]
  generalize c.toNat = v at hb
  by_cases h1 : v ≤ 0x7f
  · simp only [if_pos h1, List.singleton_append]
    rw [runeWidth_ascii _ (by rw [UInt8.toNat_ofNat_of_lt' (by show v < 256; omega)]; omega)]; rfl
  by_cases h2 : v ≤ 0x7ff
  · simp only [if_neg h1, if_pos h2, List.cons_append, List.nil_append]
    rw [runeWidth_seq2 s (by omega) (by omega)]; rfl
  by_cases h3 : v ≤ 0xffff
  · simp only [if_neg h1, if_neg h2, if_pos h3, List.cons_append, List.nil_append]
    rw [runeWidth_seq3 s (by omega) (by omega) (by omega) (by omega) (by omega)]; rfl
  · simp only [if_neg h1, if_neg h2, if_neg h3, List.cons_append, List.nil_append]
    rw [runeWidth_seq4 s (by omega) (by omega) (by omega) (by omega) (by omega) (by omega)]; rfl

/-- The character with a given code. -/
def charOf (v : Nat) (h : v < 0xd800 ∨ (0xdfff < v ∧ v < 0x110000)) : Char :=
  ⟨UInt32.ofNat v, by
    show (UInt32.ofNat v).toNat < _ ∨ _ < (UInt32.ofNat v).toNat ∧ (UInt32.ofNat v).toNat < _
    rw [UInt32.toNat_ofNat_of_lt' (by simp [UInt32.size]; omega)]; exact h⟩

theorem charOf_toNat (v : Nat) (h) : (charOf v h).val.toNat = v :=
  UInt32.toNat_ofNat_of_lt' (by simp [UInt32.size]; omega)

theorem runeWidth_two_le {b : UInt8} {s : Bytes} (h : runeWidth (b :: s) ≠ 1) :
    ∃ c : Char, String.utf8EncodeChar c <+: b :: s := by
  simp only [runeWidth] at h
  split at h
  · next h2 =>
    match s with
    | [] => simp [utf8Seq2_none] at h2
    | x :: s =>
      simp only [utf8Seq2, List.getElem?_cons_zero, Bool.and_eq_true, byteIn_some, UInt8.reduceToNat] at h2
      have hv : (b.toNat - 192) * 64 + (x.toNat - 128) < 0x800 := by omega
      refine ⟨charOf ((b.toNat - 192) * 64 + (x.toNat - 128)) (by omega), s, ?_⟩
      simp only [String.utf8EncodeChar, charOf_toNat]
      rw [if_neg (by omega), if_pos (by omega)]
      simp only [List.cons_append, List.nil_append, List.cons.injEq, and_true]
      constructor <;> (rw [ofNat_eq_iff (by omega)]; omega)
  split at h
  · next h2 h3 =>
    match s with
    | [] => simp [utf8Seq3_none] at h3
    | [x] => simp [utf8Seq3_none] at h3
    | x :: y :: s =>
      simp only [utf8Seq3, List.getElem?_cons_zero, List.getElem?_cons_succ, Bool.and_eq_true, byteIn_some,
        UInt8.reduceToNat] at h3
      obtain ⟨⟨⟨h5, h6⟩, h7⟩, h8⟩ := h3
      have h7a : 128 ≤ x.toNat ∧ x.toNat ≤ 191 ∧ (b.toNat = 224 → 160 ≤ x.toNat) ∧
          (b.toNat = 237 → x.toNat ≤ 159) := by
        by_cases e1 : b = 0xE0
        · subst e1; simp at h7 ⊢; omega
        · by_cases e2 : b = 0xED
          · subst e2; simp at h7 ⊢; omega
          · rw [if_neg e1, if_neg e2] at h7
            have n1 : b.toNat ≠ 224 := fun h => e1 (UInt8.toNat_inj.1 h)
            have n2 : b.toNat ≠ 237 := fun h => e2 (UInt8.toNat_inj.1 h)
            simp at h7
            omega
      obtain ⟨g1, g2, g3, g4⟩ := h7a
      have hv1 : (b.toNat - 224) * 4096 + (x.toNat - 128) * 64 + (y.toNat - 128) < 0x10000 := by omega
      have hv2 : 0x800 ≤ (b.toNat - 224) * 4096 + (x.toNat - 128) * 64 + (y.toNat - 128) := by omega
      refine ⟨charOf ((b.toNat - 224) * 4096 + (x.toNat - 128) * 64 + (y.toNat - 128)) (by omega), s, ?_⟩
      simp only [String.utf8EncodeChar, charOf_toNat]
      rw [if_neg (by omega), if_neg (by omega), if_pos (by omega)]
      simp only [List.cons_append, List.nil_append, List.cons.injEq, and_true]
      refine ⟨?_, ?_, ?_⟩ <;> (rw [ofNat_eq_iff (by omega)]; omega)
  split at h
  · next h2 h3 h4 =>
    match s with
    | [] => simp [utf8Seq4_none] at h4
    | [x] => simp [utf8Seq4_none] at h4
    | [x, y] => simp [utf8Seq4_none] at h4
    | x :: y :: z :: s =>
      simp only [utf8Seq4, List.getElem?_cons_zero, List.getElem?_cons_succ, Bool.and_eq_true, byteIn_some,
        UInt8.reduceToNat] at h4
      obtain ⟨⟨⟨⟨h5, h6⟩, h7⟩, h8⟩, h9⟩ := h4
      have h7a : 128 ≤ x.toNat ∧ x.toNat ≤ 191 ∧ (b.toNat = 240 → 144 ≤ x.toNat) ∧
          (b.toNat = 244 → x.toNat ≤ 143) := by
        by_cases e1 : b = 0xF0
        · subst e1; simp at h7 ⊢; omega
        · by_cases e2 : b = 0xF4
          · subst e2; simp at h7 ⊢; omega
          · rw [if_neg e1, if_neg e2] at h7
            have n1 : b.toNat ≠ 240 := fun h => e1 (UInt8.toNat_inj.1 h)
            have n2 : b.toNat ≠ 244 := fun h => e2 (UInt8.toNat_inj.1 h)
            simp at h7
            omega
      obtain ⟨g1, g2, g3, g4⟩ := h7a
      have hv1 : (b.toNat - 240) * 262144 + (x.toNat - 128) * 4096 + (y.toNat - 128) * 64 +
        (z.toNat - 128) < 0x110000 := by omega
      have hv2 : 0x10000 ≤ (b.toNat - 240) * 262144 + (x.toNat - 128) * 4096 + (y.toNat - 128) * 64 +
        (z.toNat - 128) := by omega
      refine ⟨charOf ((b.toNat - 240) * 262144 + (x.toNat - 128) * 4096 + (y.toNat - 128) * 64 +
        (z.toNat - 128)) (by omega), s, ?_⟩
      simp only [String.utf8EncodeChar, charOf_toNat]
      rw [if_neg (by omega), if_neg (by omega), if_neg (by omega)]
      simp only [List.cons_append, List.nil_append, List.cons.injEq, and_true]
      refine ⟨?_, ?_, ?_, ?_⟩ <;> (rw [ofNat_eq_iff (by omega)]; omega)
  · exact absurd rfl h

theorem encode_ne_nil (c : Char) : String.utf8EncodeChar c ≠ [] := by
  intro h
  have := String.length_utf8EncodeChar c
  rw [h] at this
  have := c.utf8Size_pos
  rw [List.length_nil] at *
  omega

theorem takeRunes_encode (n : Nat) (c : Char) (s : Bytes) :
    takeRunes (n + 1) (String.utf8EncodeChar c ++ s) = String.utf8EncodeChar c ++ takeRunes n s := by
  have hw := runeWidth_encode c s
  cases he : String.utf8EncodeChar c with
  | nil => exact absurd he (encode_ne_nil c)
  | cons a t =>
    rw [he] at hw
    rw [List.cons_append, takeRunes, ← List.cons_append, hw]
    simp

theorem runeCount_encode (c : Char) (s : Bytes) :
    runeCount (String.utf8EncodeChar c ++ s) = runeCount s + 1 := by
  have hw := runeWidth_encode c s
  cases he : String.utf8EncodeChar c with
  | nil => exact absurd he (encode_ne_nil c)
  | cons a t =>
    rw [he] at hw
    rw [List.cons_append, runeCount_cons, ← List.cons_append, hw]
    simp

theorem runeWidth_invalid {b : UInt8} {s : Bytes} (h : ∀ c : Char, ¬ String.utf8EncodeChar c <+: b :: s) :
    runeWidth (b :: s) = 1 := by
  apply Classical.byContradiction
  intro hn
  obtain ⟨c, hc⟩ := runeWidth_two_le hn
  exact h c hc

theorem chars_takeRunes {s : Bytes} {cs : List Bytes} (h : Spec.Chars s cs) (n : Nat) :
    takeRunes n s = (cs.take n).flatten := by
  induction h generalizing n with
  | nil => simp [takeRunes_nil]
  | char c h ih =>
    cases n with
    | zero => simp [takeRunes]
    | succ n => rw [takeRunes_encode, ih]; simp
  | invalid b hb h ih =>
    cases n with
    | zero => simp [takeRunes]
    | succ n => rw [takeRunes, runeWidth_invalid hb]; simp [ih]

theorem chars_runeCount {s : Bytes} {cs : List Bytes} (h : Spec.Chars s cs) : runeCount s = cs.length := by
  induction h with
  | nil => rfl
  | char c h ih => rw [runeCount_encode, ih]; simp
  | invalid b hb h ih => rw [runeCount_cons, runeWidth_invalid hb]; simp [ih]

/-- Every text can be split, so statements about `Chars` cover all texts. -/
theorem chars_exists (s : Bytes) : ∃ cs, Spec.Chars s cs := by
  generalize hn : s.length = n
  induction n using Nat.strongRecOn generalizing s with
  | _ n ih =>
    cases s with
    | nil => exact ⟨[], .nil⟩
    | cons b s =>
      by_cases h : ∃ c : Char, String.utf8EncodeChar c <+: b :: s
      · obtain ⟨c, t, ht⟩ := h
        have hl := congrArg List.length ht
        rw [List.length_append, String.length_utf8EncodeChar, hn] at hl
        have := c.utf8Size_pos
        obtain ⟨cs, hcs⟩ := ih t.length (by omega) t rfl
        exact ⟨_, ht ▸ Spec.Chars.char c hcs⟩
      · obtain ⟨cs, hcs⟩ := ih s.length (by simp at hn; omega) s rfl
        exact ⟨_, .invalid b (fun c hc => h ⟨c, hc⟩) hcs⟩

theorem chars_string (l : List Char) :
    Spec.Chars (l.map String.utf8EncodeChar).flatten (l.map String.utf8EncodeChar) := by
  induction l with
  | nil => exact .nil
  | cons c l ih => exact .char c ih

end Metro2
