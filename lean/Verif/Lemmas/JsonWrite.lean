import Verif.Lemmas.JsonValue
import Verif.Lemmas.Schema

/-! What is written is in the grammar of JSON. -/

namespace Metro2

/-! ### Strings -/

theorem encode_injective {c d : Char} (h : String.utf8EncodeChar c = String.utf8EncodeChar d) : c = d := by
  have h' : appendRune c.toNat = appendRune d.toNat := by rw [appendRune_eq, appendRune_eq, h]
  apply Char.toNat_inj.1
  have hc := char_bound c
  have hd := char_bound d
  generalize c.toNat = v at *
  generalize d.toNat = w at *
  have key : ∀ {m n : Nat}, m < 256 → n < 256 → UInt8.ofNat m = UInt8.ofNat n → m = n := by
    intro m n hm hn h
    have := congrArg UInt8.toNat h
    rwa [UInt8.toNat_ofNat_of_lt' hm, UInt8.toNat_ofNat_of_lt' hn] at this
  clear h
  unfold appendRune at h'
  split at h'
  · split at h'
    · simp only [List.cons.injEq, and_true] at h'
      exact key (by omega) (by omega) h'
    split at h'
    · simp at h'
    split at h' <;> simp at h'
  split at h'
  · split at h'
    · simp at h'
    split at h'
    · simp only [List.cons.injEq, and_true] at h'
      have h1 := key (by omega) (by omega) h'.1
      have h2 := key (by omega) (by omega) h'.2
      omega
    split at h' <;> simp at h'
  split at h'
  · split at h'
    · simp at h'
    split at h'
    · simp at h'
    split at h'
    · simp only [List.cons.injEq, and_true] at h'
      have h1 := key (by omega) (by omega) h'.1
      have h2 := key (by omega) (by omega) h'.2.1
      have h3 := key (by omega) (by omega) h'.2.2
      omega
    · simp at h'
  · split at h'
    · simp at h'
    split at h'
    · simp at h'
    split at h'
    · simp at h'
    · simp only [List.cons.injEq, and_true] at h'
      have h1 := key (by omega) (by omega) h'.1
      have h2 := key (by omega) (by omega) h'.2.1
      have h3 := key (by omega) (by omega) h'.2.2.1
      have h4 := key (by omega) (by omega) h'.2.2.2
      omega

theorem escapeJson_nil (fuel : Nat) : escapeJson fuel [] = [] := by cases fuel <;> rfl

theorem escapeByte_high {c : UInt8} (h : 128 ≤ c) : escapeByte c = [c] := by
  have hn : 128 ≤ c.toNat := UInt8.le_iff_toNat_le.1 h
  have key : ∀ x : UInt8, x.toNat < 128 → c ≠ x := by rintro x hx rfl; omega
  unfold escapeByte
  rw [if_neg (key _ (by decide)), if_neg (key _ (by decide)), if_neg (key _ (by decide)), if_neg (key _ (by decide)),
    if_neg (key _ (by decide)), if_neg (key _ (by decide)), if_neg (key _ (by decide)), if_neg]
  rintro (h | h | h | h)
  · rw [UInt8.lt_iff_toNat_lt] at h
    have h : c.toNat < 32 := h
    omega
  · exact key 60 (by decide) h
  · exact key 62 (by decide) h
  · exact key 38 (by decide) h

theorem escapeJson_step {c : UInt8} {r : Bytes} (fuel : Nat) (h1 : (c :: r).take 3 ≠ [0xE2, 0x80, 0xA8])
    (h2 : (c :: r).take 3 ≠ [0xE2, 0x80, 0xA9]) : escapeJson (fuel + 1) (c :: r) = escapeByte c ++ escapeJson fuel r := by
  rw [escapeJson, if_neg h1, if_neg h2]

theorem take3_ne {c : UInt8} (h : c ≠ 0xE2) (r : Bytes) (x y : UInt8) : (c :: r).take 3 ≠ [0xE2, x, y] := by
  intro hx
  rw [List.take_succ_cons] at hx
  exact h (List.cons.inj hx).1

/-- Bytes above 127 that do not begin U+2028 or U+2029 are written as they are. -/
theorem escapeJson_high {l : Bytes} (h : ∀ c ∈ l, 128 ≤ c ∧ c ≠ 0xE2) (s : Bytes) :
    ∀ fuel, l.length ≤ fuel → escapeJson fuel (l ++ s) = l ++ escapeJson (fuel - l.length) s := by
  induction l with
  | nil => intro fuel _; simp
  | cons c l ih =>
    intro fuel hf
    cases fuel with
    | zero => simp at hf
    | succ fuel =>
      obtain ⟨h1, h2⟩ := h c List.mem_cons_self
      rw [List.cons_append, escapeJson_step fuel (take3_ne h2 _ _ _) (take3_ne h2 _ _ _), escapeByte_high h1,
        ih (fun c hc => h c (List.mem_cons_of_mem _ hc)) fuel (by simpa using hf)]
      simp

theorem hexDigit_spec {n : Nat} (h : n < 16) : Spec.HexDigit (hexEscape.hexDigit n) n := by
  show ((n < 10 ∧ (hexEscape.hexDigit n).toNat = 48 + n) ∨
    (10 ≤ n ∧ n < 16 ∧ ((hexEscape.hexDigit n).toNat = 97 + (n - 10) ∨ (hexEscape.hexDigit n).toNat = 65 + (n - 10))))
  unfold hexEscape.hexDigit
  split
  · next h1 =>
    left
    refine ⟨h1, ?_⟩
    unfold digit
    rw [UInt8.toNat_ofNat_of_lt' (by show 48 + n < 256; omega)]
  · right
    refine ⟨by omega, h, .inl ?_⟩
    rw [UInt8.toNat_ofNat_of_lt' (by show 87 + n < 256; omega)]
    omega

theorem hexEscape_spec {n : Nat} (h : n < 256) : Spec.UnitEscape (hexEscape n) n :=
  ⟨48, 48, _, _, 0, 0, n / 16, n % 16, rfl, .inl ⟨by decide, rfl⟩, .inl ⟨by decide, rfl⟩, hexDigit_spec (by omega), hexDigit_spec (by omega),
    by omega⟩

/-- The text of an ASCII character. -/
theorem escapeByte_spec {c : Char} (h : c.toNat < 128) : Spec.CharText c (escapeByte (UInt8.ofNat c.toNat)) := by
  have hn : (UInt8.ofNat c.toNat).toNat = c.toNat := UInt8.toNat_ofNat_of_lt' (by show c.toNat < 256; omega)
  have he : String.utf8EncodeChar c = [UInt8.ofNat c.toNat] := by
    rcases encode_cases c with ⟨_, h⟩ | ⟨h, _⟩
    · exact h
    · omega
  have key : ∀ {x : UInt8} (d : Char), UInt8.ofNat c.toNat = x → d.toNat = x.toNat → c = d := by
    intro x d hx hd
    apply Char.toNat_inj.1
    rw [hd, ← hn, hx]
  unfold escapeByte
  split
  · next hx => rw [key '"' hx (by decide)]; exact .short '"' '"' (by decide)
  split
  · next hx => rw [key '\\' hx (by decide)]; exact .short '\\' '\\' (by decide)
  split
  · next hx => rw [key '\u0008' hx (by decide)]; exact .short '\u0008' 'b' (by decide)
  split
  · next hx => rw [key '\u000C' hx (by decide)]; exact .short '\u000C' 'f' (by decide)
  split
  · next hx => rw [key '\n' hx (by decide)]; exact .short '\n' 'n' (by decide)
  split
  · next hx => rw [key '\r' hx (by decide)]; exact .short '\r' 'r' (by decide)
  split
  · next hx => rw [key '\t' hx (by decide)]; exact .short '\t' 't' (by decide)
  split
  · rw [hn]; exact .unit c (hexEscape_spec (by omega))
  · next h1 h2 _ _ _ _ _ h3 =>
    rw [← he]
    refine .plain c ?_ ?_ ?_
    · have : ¬ UInt8.ofNat c.toNat < 32 := fun hx => h3 (.inl hx)
      rw [UInt8.lt_iff_toNat_lt, hn] at this
      have : ¬ c.toNat < 32 := this
      omega
    · rintro rfl; exact h1 (by decide)
    · rintro rfl; exact h2 (by decide)

/-- The bytes of a character after the first are not 0xE2. -/
theorem encode_tail {c : Char} {a : UInt8} {l : Bytes} (h : String.utf8EncodeChar c = a :: l) : ∀ b ∈ l, b ≠ 0xE2 := by
  have hc := char_bound c
  rw [← appendRune_eq] at h
  generalize c.toNat = v at *
  have key : ∀ n, n < 64 → UInt8.ofNat (0x80 + n) ≠ 0xE2 := by
    intro n hn hx
    have := congrArg UInt8.toNat hx
    rw [UInt8.toNat_ofNat_of_lt' (by show 0x80 + n < 256; omega)] at this
    have : 0x80 + n = 226 := this
    omega
  unfold appendRune at h
  split at h
  · cases h; simp
  split at h
  · cases h
    simp only [List.mem_cons, List.not_mem_nil, or_false]
    rintro b rfl
    exact key _ (by omega)
  split at h
  · cases h
    simp only [List.mem_cons, List.not_mem_nil, or_false]
    rintro b (rfl | rfl) <;> exact key _ (by omega)
  · cases h
    simp only [List.mem_cons, List.not_mem_nil, or_false]
    rintro b (rfl | rfl | rfl) <;> exact key _ (by omega)

/-- One character of a string as it is written. -/
theorem escapeJson_char (c : Char) (s : Bytes) (fuel : Nat) (hf : (String.utf8EncodeChar c).length ≤ fuel) :
    ∃ x k, Spec.CharText c x ∧ escapeJson fuel (String.utf8EncodeChar c ++ s) = x ++ escapeJson (fuel - k) s ∧
      k ≤ (String.utf8EncodeChar c).length := by
  have hw := runeWidth_encode c s
  rcases encode_cases c with ⟨h1, h2⟩ | ⟨h1, h2⟩
  · rw [h2] at hf ⊢
    cases fuel with
    | zero => simp at hf
    | succ fuel =>
      have hne : UInt8.ofNat c.toNat ≠ 0xE2 := by
        intro hx
        have := congrArg UInt8.toNat hx
        rw [UInt8.toNat_ofNat_of_lt' (by show c.toNat < 256; omega)] at this
        have : c.toNat = 226 := this
        omega
      refine ⟨_, 1, escapeByte_spec h1, ?_, by simp⟩
      rw [List.singleton_append, escapeJson_step fuel (take3_ne hne _ _ _) (take3_ne hne _ _ _)]
      simp
  · have hplain : Spec.CharText c (String.utf8EncodeChar c) :=
      .plain c (by omega) (by rintro rfl; exact absurd h1 (by decide)) (by rintro rfl; exact absurd h1 (by decide))
    cases fuel with
    | zero => exact absurd (List.length_eq_zero_iff.1 (Nat.le_zero.1 hf)) (encode_ne_nil c)
    | succ fuel =>
    cases he : String.utf8EncodeChar c with
    | nil => exact absurd he (encode_ne_nil c)
    | cons a l =>
      have ht := encode_tail he
      have special : ∀ d : Char, (String.utf8EncodeChar d).length = 3 → (a :: (l ++ s)).take 3 = String.utf8EncodeChar d → c = d ∧
          l.length = 2 := by
        intro d hd hx
        have h3 : (String.utf8EncodeChar c).length = 3 := by
          rw [← hw, he, List.cons_append, ← List.take_append_drop 3 (a :: (l ++ s)), hx, runeWidth_encode, hd]
        rw [← List.cons_append, ← he, ← h3, List.take_left] at hx
        refine ⟨encode_injective hx, ?_⟩
        rw [he] at h3
        simpa using h3
      by_cases h8 : (a :: (l ++ s)).take 3 = [0xE2, 0x80, 0xA8]
      · obtain ⟨rfl, hl⟩ := special '\u2028' (by decide) h8
        refine ⟨b! "\\u2028", 1, .unit '\u2028' ?_, ?_, by simp⟩
        · exact ⟨50, 48, 50, 56, 2, 0, 2, 8, rfl, .inl (by decide), .inl (by decide), .inl (by decide), .inl (by decide), by decide⟩
        · rw [List.cons_append, escapeJson, if_pos h8, ← hl, List.drop_left]
          rfl
      by_cases h9 : (a :: (l ++ s)).take 3 = [0xE2, 0x80, 0xA9]
      · obtain ⟨rfl, hl⟩ := special '\u2029' (by decide) h9
        refine ⟨b! "\\u2029", 1, .unit '\u2029' ?_, ?_, by simp⟩
        · exact ⟨50, 48, 50, 57, 2, 0, 2, 9, rfl, .inl (by decide), .inl (by decide), .inl (by decide), .inl (by decide), by decide⟩
        · rw [List.cons_append, escapeJson, if_neg h8, if_pos h9, ← hl, List.drop_left]
          rfl
      refine ⟨a :: l, l.length + 1, he ▸ hplain, ?_, by simp⟩
      rw [he] at hf
      rw [List.cons_append, escapeJson_step fuel h8 h9, escapeByte_high (h2 a (by rw [he]; exact List.mem_cons_self)),
        escapeJson_high (fun b hb => ⟨h2 b (by rw [he]; exact List.mem_cons_of_mem _ hb), ht b hb⟩) s fuel (by simpa using hf)]
      simp

theorem escapeJson_text (l : List Char) : ∀ fuel, (l.map String.utf8EncodeChar).flatten.length ≤ fuel →
    Spec.StringText (l.map String.utf8EncodeChar).flatten (escapeJson fuel (l.map String.utf8EncodeChar).flatten) := by
  induction l with
  | nil => intro fuel _; rw [List.map_nil, List.flatten_nil, escapeJson_nil]; exact .nil
  | cons c l ih =>
    intro fuel hf
    rw [List.map_cons, List.flatten_cons] at hf ⊢
    rw [List.length_append] at hf
    obtain ⟨x, k, hx, he, hk⟩ := escapeJson_char c (l.map String.utf8EncodeChar).flatten fuel (by omega)
    rw [he]
    exact .char hx (ih _ (by omega))

theorem toValidUtf8_valid : ∀ (fuel : Nat) (s : Bytes), Spec.Utf8 (toValidUtf8 fuel s) := by
  intro fuel
  induction fuel with
  | zero => intro s; exact ⟨[], rfl⟩
  | succ fuel ih =>
    intro s
    cases s with
    | nil => exact ⟨[], rfl⟩
    | cons c s =>
      rw [toValidUtf8]
      split
      · next hc =>
        obtain ⟨l, hl⟩ := ih s
        have hc : c.toNat < 128 := UInt8.lt_iff_toNat_lt.1 hc
        refine ⟨charOf c.toNat (by omega) :: l, ?_⟩
        rw [List.map_cons, List.flatten_cons, ← hl]
        rcases encode_cases (charOf c.toNat (by omega)) with ⟨_, h2⟩ | ⟨h1, _⟩
        · rw [h2, show (charOf c.toNat (by omega)).toNat = c.toNat from charOf_toNat ..]; simp
        · rw [show (charOf c.toNat (by omega)).toNat = c.toNat from charOf_toNat ..] at h1; omega
      split
      · obtain ⟨l, hl⟩ := ih s
        refine ⟨'\uFFFD' :: l, ?_⟩
        rw [List.map_cons, List.flatten_cons, ← hl, ← runeError_eq]
        rfl
      · next h1 h2 =>
        obtain ⟨x, y, hy⟩ := runeWidth_two_le h2
        have hx := runeWidth_encode x y
        rw [hy] at hx
        obtain ⟨l, hl⟩ := ih y
        refine ⟨x :: l, ?_⟩
        rw [hx, ← hy, List.take_left, List.drop_left, List.map_cons, List.flatten_cons, ← hl]

/-- What is between the quotes. -/
def quoted (s : Bytes) : Bytes := escapeJson (toValidUtf8 s.length s).length (toValidUtf8 s.length s)

theorem quoteJson_eq (s : Bytes) : quoteJson s = 34 :: (quoted s ++ [34]) := rfl

theorem quoted_text {s : Bytes} (h : Spec.Utf8 s) : Spec.StringText s (quoted s) := by
  unfold quoted
  rw [toValidUtf8_utf8 h]
  obtain ⟨l, rfl⟩ := h
  exact escapeJson_text l _ (Nat.le_refl _)

theorem quoted_text' (s : Bytes) : Spec.StringText (toValidUtf8 s.length s) (quoted s) := by
  unfold quoted
  obtain ⟨l, hl⟩ := toValidUtf8_valid s.length s
  rw [hl]
  exact escapeJson_text l _ (Nat.le_refl _)

/-! ### Numbers -/

theorem digits_fmtNat (n : Nat) : Spec.Digits (fmtNat n) :=
  ⟨fmtNat_ne_nil n, fun c hc => (isDigit_spec c).1 (fmtNat_all n c hc)⟩

theorem whole_fmtNat (n : Nat) : Spec.WholePart (fmtNat n) := by
  cases he : fmtNat n with
  | nil => exact absurd he (fmtNat_ne_nil n)
  | cons c r =>
    by_cases hc : c = 48
    · subst hc
      rw [fmtNat_zeros n he]
      exact .inl rfl
    · refine .inr ⟨he ▸ digits_fmtNat n, ?_⟩
      intro hx
      exact hc (Option.some.inj hx)

theorem numeral_fmtInt (i : Int) : Spec.Numeral (fmtInt i) := by
  cases i with
  | ofNat n => exact ⟨[], fmtNat n, [], [], by simp [fmtInt], .inl rfl, whole_fmtNat n, .inl rfl, .inl rfl⟩
  | negSucc n => exact ⟨[45], fmtNat (n + 1), [], [], by simp [fmtInt], .inr rfl, whole_fmtNat _, .inl rfl, .inl rfl⟩

/-! ### Trees -/

/-- A tree that can be written: the numbers are numbers, the strings are well-formed, and it is at most `n` deep. -/
inductive Clean : Nat → Json → Prop where
  | null {n : Nat} : Clean n .null
  | bool {n : Nat} (b : Bool) : Clean n (.bool b)
  | num {n : Nat} {l : Bytes} (h : Spec.Numeral l) : Clean n (.num l)
  | str {n : Nat} {s : Bytes} (h : Spec.Utf8 s) : Clean n (.str s)
  | arr {n : Nat} {xs : List Json} (h : ∀ x ∈ xs, Clean n x) : Clean (n + 1) (.arr xs)
  | obj {n : Nat} {kvs : List (Bytes × Json)} (hk : ∀ kv ∈ kvs, Spec.Utf8 kv.1) (h : ∀ kv ∈ kvs, Clean n kv.2) : Clean (n + 1) (.obj kvs)

theorem space_nil : Spec.Space [] := fun _ h => absurd h (List.not_mem_nil)

theorem memberText_of {n : Nat} {k : Bytes} {v : Json} {w t y : Bytes} (hw : Spec.Space w) (hk : Spec.Utf8 k) (hy : Spec.Space y)
    (hv : Spec.JsonText n v t) : Spec.MemberText n k v (w ++ (quoteJson k ++ 58 :: (y ++ t))) := by
  have := Spec.MemberText.mk hw (quoted_text hk) space_nil hy hv space_nil
  rw [quoteJson_eq]
  simpa [c_quote, c_colon] using this

theorem itemsText_clean {n : Nat} {xs : List Json} (h : ∀ x ∈ xs, Spec.JsonText n x (jsonText x)) (hne : xs ≠ []) :
    Spec.ItemsText n xs (itemsText xs) := by
  induction xs with
  | nil => exact absurd rfl hne
  | cons x xs ih =>
    have hx := h x List.mem_cons_self
    cases xs with
    | nil =>
      rw [itemsText]
      simpa using Spec.ItemsText.one space_nil hx space_nil
    | cons y xs =>
      rw [itemsText]
      have := Spec.ItemsText.more space_nil hx space_nil (ih (fun z hz => h z (List.mem_cons_of_mem _ hz)) (by simp))
      simpa [c_comma] using this

theorem membersText_clean {n : Nat} {kvs : List (Bytes × Json)} (hk : ∀ kv ∈ kvs, Spec.Utf8 kv.1)
    (h : ∀ kv ∈ kvs, Spec.JsonText n kv.2 (jsonText kv.2)) (hne : kvs ≠ []) : Spec.MembersText n kvs (membersText kvs) := by
  induction kvs with
  | nil => exact absurd rfl hne
  | cons kv kvs ih =>
    obtain ⟨k, v⟩ := kv
    have hm := memberText_of (w := []) (y := []) space_nil (hk _ List.mem_cons_self) space_nil (h _ List.mem_cons_self)
    simp only [List.nil_append] at hm
    cases kvs with
    | nil => rw [membersText]; exact .one hm
    | cons kv kvs =>
      rw [membersText]
      have := Spec.MembersText.more hm (ih (fun z hz => hk z (List.mem_cons_of_mem _ hz)) (fun z hz => h z (List.mem_cons_of_mem _ hz)) (by simp))
      simpa [c_comma] using this

theorem jsonText_clean {n : Nat} {j : Json} (h : Clean n j) : Spec.JsonText n j (jsonText j) := by
  induction h with
  | null => rw [jsonText, ← text_null]; exact .null
  | bool b =>
    cases b with
    | true => rw [jsonText, if_pos rfl, ← text_true]; exact .true
    | false => rw [jsonText, if_neg (by decide), ← text_false]; exact .false
  | num h => rw [jsonText]; exact .num h
  | str h => rw [jsonText, quoteJson_eq]; exact .str (quoted_text h)
  | @arr n xs h ih =>
    rw [jsonText]
    cases xs with
    | nil => exact .noItems space_nil
    | cons x xs => exact .items (itemsText_clean ih (by simp))
  | @obj n kvs hk h ih =>
    rw [jsonText]
    cases kvs with
    | nil => exact .noMembers space_nil
    | cons x xs => exact .members (membersText_clean hk ih (by simp))

theorem space_indentLine {ind : Bytes} (hi : Spec.Space ind) (d : Nat) : Spec.Space (indentLine ind d) := by
  intro c hc
  rcases List.mem_cons.1 hc with rfl | hc
  · exact .inr (.inr (.inl rfl))
  · obtain ⟨l, hl, hc⟩ := List.mem_flatten.1 hc
    rw [List.eq_of_mem_replicate hl] at hc
    exact hi c hc

theorem space_append {a b : Bytes} (ha : Spec.Space a) (hb : Spec.Space b) : Spec.Space (a ++ b) := by
  intro c hc
  rcases List.mem_append.1 hc with hc | hc
  · exact ha c hc
  · exact hb c hc

theorem indentItems_clean {ind : Bytes} (hi : Spec.Space ind) {n d : Nat} {xs : List Json}
    (h : ∀ x ∈ xs, Spec.JsonText n x (indentText ind d x)) (hne : xs ≠ []) {w z : Bytes} (hw : Spec.Space w) (hz : Spec.Space z) :
    Spec.ItemsText n xs (w ++ indentItems ind d xs ++ z) := by
  induction xs generalizing w with
  | nil => exact absurd rfl hne
  | cons x xs ih =>
    have hx := h x List.mem_cons_self
    cases xs with
    | nil =>
      rw [indentItems]
      exact .one hw hx hz
    | cons y xs =>
      rw [indentItems]
      have := Spec.ItemsText.more hw hx space_nil
        (ih (fun z hz => h z (List.mem_cons_of_mem _ hz)) (by simp) (w := indentLine ind d) (space_indentLine hi d))
      simpa [c_comma] using this

theorem memberText_space {n : Nat} {k : Bytes} {v : Json} {w t y z : Bytes} (hw : Spec.Space w) (hk : Spec.Utf8 k) (hy : Spec.Space y)
    (hv : Spec.JsonText n v t) (hz : Spec.Space z) : Spec.MemberText n k v (w ++ (quoteJson k ++ 58 :: (y ++ t ++ z))) := by
  have := Spec.MemberText.mk hw (quoted_text hk) space_nil hy hv hz
  rw [quoteJson_eq]
  simpa [c_quote, c_colon] using this

theorem indentMembers_clean {ind : Bytes} (hi : Spec.Space ind) {n d : Nat} {kvs : List (Bytes × Json)}
    (hk : ∀ kv ∈ kvs, Spec.Utf8 kv.1) (h : ∀ kv ∈ kvs, Spec.JsonText n kv.2 (indentText ind d kv.2)) (hne : kvs ≠ []) {w z : Bytes}
    (hw : Spec.Space w) (hz : Spec.Space z) : Spec.MembersText n kvs (w ++ indentMembers ind d kvs ++ z) := by
  have h32 : Spec.Space [32] := fun c hc => .inl (List.mem_singleton.1 hc)
  induction kvs generalizing w with
  | nil => exact absurd rfl hne
  | cons kv kvs ih =>
    obtain ⟨k, v⟩ := kv
    cases kvs with
    | nil =>
      rw [indentMembers]
      have := Spec.MembersText.one (memberText_space hw (hk _ List.mem_cons_self) h32 (h _ List.mem_cons_self) hz)
      simpa using this
    | cons kv kvs =>
      rw [indentMembers]
      have := Spec.MembersText.more (memberText_space hw (hk _ List.mem_cons_self) h32 (h _ List.mem_cons_self) space_nil)
        (ih (fun z hz => hk z (List.mem_cons_of_mem _ hz)) (fun z hz => h z (List.mem_cons_of_mem _ hz)) (by simp)
          (w := indentLine ind d) (space_indentLine hi d))
      simpa [c_comma] using this

theorem indentText_clean {ind : Bytes} (hi : Spec.Space ind) {n : Nat} {j : Json} (h : Clean n j) :
    ∀ d, Spec.JsonText n j (indentText ind d j) := by
  induction h with
  | null => intro d; rw [indentText, ← text_null]; exact .null
  | bool b =>
    intro d
    cases b with
    | true => rw [indentText, if_pos rfl, ← text_true]; exact .true
    | false => rw [indentText, if_neg (by decide), ← text_false]; exact .false
  | num h => intro d; rw [indentText]; exact .num h
  | str h => intro d; rw [indentText, quoteJson_eq]; exact .str (quoted_text h)
  | @arr n xs h ih =>
    intro d
    cases xs with
    | nil => rw [indentText]; exact .noItems space_nil
    | cons x xs =>
      rw [indentText]
      exact .items (indentItems_clean hi (fun x hx => ih x hx (d + 1)) (by simp) (space_indentLine hi _) (space_indentLine hi _))
  | @obj n kvs hk h ih =>
    intro d
    cases kvs with
    | nil => rw [indentText]; exact .noMembers space_nil
    | cons x xs =>
      rw [indentText]
      exact .members (indentMembers_clean hi hk (fun x hx => ih x hx (d + 1)) (by simp) (space_indentLine hi _) (space_indentLine hi _))

/-! ### Files -/

/-- All bytes are ASCII. -/
def Plain7 (s : Bytes) : Prop := ∀ c ∈ s, c < 0x80

theorem Plain7.append {a b : Bytes} (ha : Plain7 a) (hb : Plain7 b) : Plain7 (a ++ b) := by
  intro c hc
  rcases List.mem_append.1 hc with hc | hc
  · exact ha c hc
  · exact hb c hc

theorem ascii_fmtNat (n : Nat) : Plain7 (fmtNat n) := by
  intro c hc
  have := (isDigit_spec c).1 (fmtNat_all n c hc)
  have h2 : c.toNat ≤ 57 := this.2
  rw [UInt8.lt_iff_toNat_lt]
  show c.toNat < 128
  omega

theorem ascii_padLeft {n : Nat} {c : UInt8} {s : Bytes} (hc : c < 0x80) (hs : Plain7 s) : Plain7 (padLeft n c s) := by
  refine Plain7.append ?_ hs
  intro x hx
  rw [List.eq_of_mem_replicate hx]
  exact hc

theorem ascii_cons {c : UInt8} {s : Bytes} (hc : c < 0x80) (hs : Plain7 s) : Plain7 (c :: s) := by
  intro x hx
  rcases List.mem_cons.1 hx with rfl | hx
  · exact hc
  · exact hs x hx

theorem ascii_nil : Plain7 [] := fun _ h => absurd h (List.not_mem_nil)

theorem ascii_appendInt (x : Int) (w : Nat) : Plain7 (appendInt x w) := by
  cases x with
  | ofNat n => exact ascii_padLeft (by decide) (ascii_fmtNat n)
  | negSucc n => exact ascii_cons (by decide) (ascii_padLeft (by decide) (ascii_fmtNat _))

theorem ascii_rfc3339 (t : Time) : Plain7 (rfc3339 t) := by
  have one : ∀ c : UInt8, c < 0x80 → Plain7 [c] := fun c hc => ascii_cons hc ascii_nil
  unfold rfc3339
  refine Plain7.append ?_ ?_
  · refine .append (.append (.append (.append (.append (.append (.append (.append (.append (.append ?_ ?_) ?_) ?_) ?_) ?_) ?_) ?_) ?_) ?_) ?_ <;>
      first | exact ascii_appendInt _ _ | exact one _ (by decide)
  · unfold rfc3339Zone
    split
    · exact one _ (by decide)
    · split
      · exact one _ (by decide)
      · refine ascii_cons (by split <;> decide) ?_
        exact .append (.append (ascii_appendInt _ _) (one _ (by decide))) (ascii_appendInt _ _)

theorem clean_val (n : Nat) (v : Val) : Clean n (encodeVal v) := by
  cases v with
  | int i => exact .num (numeral_fmtInt i)
  | str s => exact .str (toValidUtf8_valid _ s)
  | time t =>
    refine .str (utf8_of_ascii ?_)
    split
    · exact ascii_nil
    · exact ascii_rfc3339 t

/-- The keys of a struct are ASCII. -/
def AsciiTags (decl : List (F × FieldDecl)) : Prop := ∀ p ∈ decl, ∀ c ∈ p.2.json, c < 0x80

instance (decl : List (F × FieldDecl)) : Decidable (AsciiTags decl) := inferInstanceAs (Decidable (∀ p ∈ decl, ∀ c ∈ p.2.json, c < 0x80))

theorem clean_struct {decl : List (F × FieldDecl)} (hd : AsciiTags decl) (n : Nat) (fs : Fields) : Clean (n + 1) (encodeStruct decl fs) := by
  have key : ∀ kv ∈ encodeMembers decl fs, Spec.Utf8 kv.1 ∧ Clean n kv.2 := by
    intro kv hkv
    unfold encodeMembers at hkv
    obtain ⟨p, hp, he⟩ := List.mem_filterMap.1 hkv
    split at he
    · cases he
    · next v _ =>
      split at he
      · cases he
      · cases he
        exact ⟨utf8_of_ascii (hd p hp), clean_val n v⟩
  exact .obj (fun kv h => (key kv h).1) (fun kv h => (key kv h).2)

theorem asciiTags_seg (k : SegKind) : AsciiTags k.struct := by cases k <;> decide +kernel

theorem clean_base (n : Nat) (fs : Fields) (g : Segs) : Clean (n + 3) (encodeBase fs g) := by
  have seg : ∀ (m : Nat) (s : Seg), Clean (m + 1) (encodeStruct s.kind.struct s.fields) := fun m s => clean_struct (asciiTags_seg s.kind) m s.fields
  have h1 : ∀ (key : Bytes) (o : Option Seg), Spec.Utf8 key → ∀ kv ∈ segMember key o, Spec.Utf8 kv.1 ∧ Clean (n + 2) kv.2 := by
    intro key o hk kv h
    cases o with
    | none => exact absurd h List.not_mem_nil
    | some s => rw [List.mem_singleton.1 h]; exact ⟨hk, seg _ s⟩
  have h2 : ∀ (key : Bytes) (l : List Seg), Spec.Utf8 key → ∀ kv ∈ segsMember key l, Spec.Utf8 kv.1 ∧ Clean (n + 2) kv.2 := by
    intro key l hk kv h
    unfold segsMember at h
    split at h
    · exact absurd h List.not_mem_nil
    · rw [List.mem_singleton.1 h]
      refine ⟨hk, .arr ?_⟩
      intro x hx
      obtain ⟨s, _, rfl⟩ := List.mem_map.1 hx
      exact seg n s
  have word : ∀ s : Bytes, (∀ c ∈ s, c < 0x80) → Spec.Utf8 s := fun s h => utf8_of_ascii h
  have key : ∀ kv ∈ [(b! "base", encodeStruct baseSegmentStruct fs)] ++ segsMember (b! "j1") g.j1 ++ segsMember (b! "j2") g.j2 ++
      segMember (b! "k1") g.k1 ++ segMember (b! "k2") g.k2 ++ segMember (b! "k3") g.k3 ++ segMember (b! "k4") g.k4 ++
      segMember (b! "l1") g.l1 ++ segMember (b! "n1") g.n1, Spec.Utf8 kv.1 ∧ Clean (n + 2) kv.2 := by
    intro kv h
    simp only [List.mem_append] at h
    rcases h with (((((((h | h) | h) | h) | h) | h) | h) | h) | h
    · rw [List.mem_singleton.1 h]; exact ⟨word (b! "base") (by decide), clean_struct (by decide +kernel) (n + 1) fs⟩
    · exact h2 _ _ (word _ (by decide)) _ h
    · exact h2 _ _ (word _ (by decide)) _ h
    all_goals exact h1 _ _ (word _ (by decide)) _ h
  exact .obj (fun kv h => (key kv h).1) (fun kv h => (key kv h).2)

theorem clean_record (n : Nat) (r : Record) : Clean (n + 3) r.toJson := by
  cases r with
  | header e fs => exact clean_struct (by decide +kernel) (n + 2) fs
  | base e fs g => exact clean_base n fs g
  | trailer e fs => exact clean_struct (by decide +kernel) (n + 2) fs

theorem clean_file (n : Nat) (f : File) : Clean (n + 5) f.toJson := by
  have key : ∀ kv ∈ [(b! "header", f.header.toJson), (b! "data", if f.bases = [] then Json.null else .arr (f.bases.map Record.toJson)),
      (b! "trailer", f.trailer.toJson)], Spec.Utf8 kv.1 ∧ Clean (n + 4) kv.2 := by
    intro kv h
    rcases List.mem_cons.1 h with rfl | h
    · exact ⟨utf8_of_ascii (s := b! "header") (by decide), clean_record (n + 1) _⟩
    rcases List.mem_cons.1 h with rfl | h
    · refine ⟨utf8_of_ascii (s := b! "data") (by decide), ?_⟩
      simp only
      split
      · exact .null
      · refine .arr (fun x hx => ?_)
        obtain ⟨r, _, rfl⟩ := List.mem_map.1 hx
        exact clean_record n r
    · rw [List.mem_singleton.1 h]
      exact ⟨utf8_of_ascii (s := b! "trailer") (by decide), clean_record (n + 1) _⟩
  exact .obj (fun kv h => (key kv h).1) (fun kv h => (key kv h).2)

end Metro2
