import Verif.Lemmas.DateText
import Verif.Lemmas.JsonOrder
import Verif.Lemmas.Totals
import Verif.Lemmas.Utf8
import Verif.Lemmas.RecordParse
import Verif.Spec.Json

/-! Encoding to JSON and decoding again. -/

namespace Metro2

/-! ### Values -/

theorem encode_single {c : Char} {a : UInt8} (h : String.utf8EncodeChar c = [a]) : a < 0x80 := by
  unfold String.utf8EncodeChar at h
  simp only [show c.val.toNat = c.toNat from rfl] at h
  generalize c.toNat = v at h
  by_cases h1 : v ≤ 0x7f
  · simp only [if_pos h1, List.cons.injEq, and_true] at h
    rw [← h, UInt8.lt_iff_toNat_lt, UInt8.toNat_ofNat_of_lt' (by show v < 256; omega)]
    show v < 128
    omega
  by_cases h2 : v ≤ 0x7ff
  · simp [if_neg h1, if_pos h2] at h
  by_cases h3 : v ≤ 0xffff
  · simp [if_neg h1, if_neg h2, if_pos h3] at h
  · simp [if_neg h1, if_neg h2, if_neg h3] at h

theorem utf8_of_ascii {s : Bytes} (h : ∀ c ∈ s, c < 0x80) : Spec.Utf8 s := by
  induction s with
  | nil => exact ⟨[], rfl⟩
  | cons c s ih =>
    obtain ⟨l, hl⟩ := ih fun d hd => h d (by simp [hd])
    have hc : c.toNat < 128 := UInt8.lt_iff_toNat_lt.1 (h c (by simp))
    refine ⟨charOf c.toNat (.inl (by omega)) :: l, ?_⟩
    rw [List.map_cons, List.flatten_cons, ← hl]
    have : String.utf8EncodeChar (charOf c.toNat (.inl (by omega))) = [c] := by
      unfold String.utf8EncodeChar
      simp only [charOf_toNat]
      rw [if_pos (by omega)]
      simp
    rw [this]
    rfl

theorem toValidUtf8_encode (c : Char) (s : Bytes) (fuel : Nat) (hf : (String.utf8EncodeChar c ++ s).length ≤ fuel) :
    toValidUtf8 fuel (String.utf8EncodeChar c ++ s) = String.utf8EncodeChar c ++ toValidUtf8 (fuel - 1) s := by
  have hw := runeWidth_encode c s
  have hne := encode_ne_nil c
  cases he : String.utf8EncodeChar c with
  | nil => exact absurd he hne
  | cons a rest =>
    rw [he] at hw hf
    cases fuel with
    | zero => simp at hf
    | succ n =>
      rw [List.cons_append] at hw ⊢
      rw [toValidUtf8]
      by_cases h1 : a < 0x80
      · rw [if_pos h1]
        have : runeWidth (a :: (rest ++ s)) = 1 := by
          have := runeWidth_ascii (rest ++ s) (c := a) (by rw [UInt8.lt_iff_toNat_lt] at h1; exact h1)
          exact this
        rw [this] at hw
        have : rest = [] := by simpa using hw.symm
        subst this
        simp
      · rw [if_neg h1]
        by_cases h2 : runeWidth (a :: (rest ++ s)) = 1
        · exfalso
          rw [h2] at hw
          have hr : rest = [] := by simpa using hw.symm
          subst hr
          exact h1 (encode_single he)
        · rw [if_neg h2, hw]
          have h3 : (a :: rest).length = rest.length + 1 := rfl
          rw [h3, List.take_succ_cons, List.drop_succ_cons, List.take_left, List.drop_left, List.cons_append]
          rfl

theorem toValidUtf8_chars (l : List Char) (fuel : Nat) (hf : ((l.map String.utf8EncodeChar).flatten).length ≤ fuel) :
    toValidUtf8 fuel (l.map String.utf8EncodeChar).flatten = (l.map String.utf8EncodeChar).flatten := by
  induction l generalizing fuel with
  | nil => cases fuel <;> rfl
  | cons c l ih =>
    rw [List.map_cons, List.flatten_cons] at hf ⊢
    have := List.length_pos_of_ne_nil (encode_ne_nil c)
    rw [toValidUtf8_encode c _ fuel hf, ih (fuel - 1) (by rw [List.length_append] at hf; omega)]

theorem toValidUtf8_utf8 {s : Bytes} (h : Spec.Utf8 s) : toValidUtf8 s.length s = s := by
  obtain ⟨l, rfl⟩ := h
  exact toValidUtf8_chars l _ (Nat.le_refl _)

theorem parseInt_fmtInt {i : Int} (h1 : -(2 ^ 63) ≤ i) (h2 : i < 2 ^ 63) : parseInt (fmtInt i) = .ok i := by
  cases i with
  | ofNat n =>
    show parseInt (fmtNat n) = .ok (n : Int)
    have hn : n < 2 ^ 63 := by have : (n : Int) < 2 ^ 63 := h2; omega
    rw [parseInt_digits (fmtNat_ne_nil n) (fmtNat_all n) (by rw [digitsVal_fmtNat]; exact hn), digitsVal_fmtNat]
  | negSucc n =>
    show parseInt (45 :: fmtNat (n + 1)) = _
    have hn : n + 1 ≤ 2 ^ 63 := by omega
    have hall : (fmtNat (n + 1)).all isDigit = true := by rw [List.all_eq_true]; exact fmtNat_all _
    unfold parseInt parseIntBits
    simp only [List.head?_cons, true_or, if_true, List.drop_succ_cons, List.drop_zero]
    rw [if_neg (fmtNat_ne_nil _), if_neg (by simp [hall]), digitsVal_fmtNat, if_pos (by simpa using hn)]
    rfl

theorem spec_decimal_decDigits {k n : Nat} (h : n < 10 ^ k) : Spec.Decimal (decDigits k n) n := by
  have := (spec_decimal_iff (decDigits k n) n).2 ⟨decDigits_all k n, by rw [digitsVal_decDigits_of_lt h]⟩
  exact this

theorem isoText_rfc3339 {t : Time} (h : Spec.PlainTime t) : Spec.IsoText (rfc3339 t) t := by
  obtain ⟨⟨h1, h2, h3, h4, h5, h6, h7, h8⟩, hy0, hy1, hn, hl⟩ := (spec_plainTime_iff t).1 h
  have hd := daysIn_le t.month t.year
  obtain ⟨y, hy⟩ := Int.eq_ofNat_of_zero_le hy0
  refine ⟨decDigits 4 y, decDigits 2 t.month, decDigits 2 t.day, decDigits 2 t.hour, decDigits 2 t.min, decDigits 2 t.sec,
    ?_, length_decDigits _ _, length_decDigits _ _, length_decDigits _ _, length_decDigits _ _, length_decDigits _ _,
    length_decDigits _ _, ⟨y, hy, spec_decimal_decDigits (by omega)⟩, spec_decimal_decDigits (by omega),
    spec_decimal_decDigits (by omega), spec_decimal_decDigits (by omega), spec_decimal_decDigits (by omega),
    spec_decimal_decDigits (by omega)⟩
  unfold rfc3339
  rw [hy, hl, appendInt_ofNat (by decide) (by omega), appendInt_ofNat (by decide) (by omega),
    appendInt_ofNat (by decide) (by omega), appendInt_ofNat (by decide) (by omega),
    appendInt_ofNat (by decide) (by omega), appendInt_ofNat (by decide) (by omega)]
  rfl

/-- A character that JSON strings carry as it is. -/
def plainByte (c : UInt8) : Bool := 32 ≤ c && c < 128 && c != 34 && c != 92 && c != 60 && c != 62 && c != 38

theorem plainByte_digit {c : UInt8} (h : isDigit c = true) : plainByte c = true := by
  have := (isDigit_iff c).1 h
  have hd := digit_eq_of_isDigit h
  rw [← hd]
  have h10 : c.toNat - 48 < 10 := by omega
  have : ∀ d, d < 10 → plainByte (digit d) = true := by decide
  exact this _ h10

theorem escapeJson_plain {s : Bytes} (h : ∀ c ∈ s, plainByte c = true) : escapeJson s.length s = s := by
  induction s with
  | nil => rfl
  | cons c r ih =>
    have hc := h c (by simp)
    have hr := ih fun d hd => h d (by simp [hd])
    have hlt : c.toNat < 128 ∧ 32 ≤ c.toNat ∧ c ≠ 34 ∧ c ≠ 92 ∧ c ≠ 60 ∧ c ≠ 62 ∧ c ≠ 38 := by
      simp only [plainByte, Bool.and_eq_true, bne_iff_ne, ne_eq, decide_eq_true_eq, UInt8.le_iff_toNat_le,
        UInt8.lt_iff_toNat_lt] at hc
      obtain ⟨⟨⟨⟨⟨⟨a, b⟩, c⟩, d⟩, e⟩, f⟩, g⟩ := hc
      exact ⟨b, a, c, d, e, f, g⟩
    obtain ⟨h1, h2, h3, h4, h5, h6, h7⟩ := hlt
    have hne : ∀ k : UInt8, k.toNat < 32 → c ≠ k := by rintro k hk rfl; omega
    have hE2 : c ≠ 0xE2 := by rintro rfl; exact absurd h1 (by decide)
    have e1 : ¬ (c :: r).take 3 = [0xE2, 0x80, 0xA8] := by
      simp only [List.take_succ_cons, List.cons.injEq]; exact fun h => hE2 h.1
    have e2 : ¬ (c :: r).take 3 = [0xE2, 0x80, 0xA9] := by
      simp only [List.take_succ_cons, List.cons.injEq]; exact fun h => hE2 h.1
    have e3 : ¬ (c < 32 ∨ c = 60 ∨ c = 62 ∨ c = 38) := by
      rw [UInt8.lt_iff_toNat_lt]
      rintro (h | h | h | h)
      · have : (32 : UInt8).toNat = 32 := rfl
        omega
      · exact h5 h
      · exact h6 h
      · exact h7 h
    rw [List.length_cons, escapeJson, if_neg e1, if_neg e2, hr]
    unfold escapeByte
    rw [if_neg h3, if_neg h4, if_neg (hne 8 (by decide)), if_neg (hne 12 (by decide)), if_neg (hne 10 (by decide)),
      if_neg (hne 13 (by decide)), if_neg (hne 9 (by decide)), if_neg e3]
    rfl

theorem dropWhile_quote {s : Bytes} (h : ∀ c ∈ s, c ≠ 34) : s.dropWhile (· == 34) = s := by
  cases s with
  | nil => rfl
  | cons c r => rw [List.dropWhile_cons, if_neg]; simpa using h c (by simp)

theorem trimQuotes_plain {s : Bytes} (h : ∀ c ∈ s, plainByte c = true) : trimQuotes s = s := by
  have hq : ∀ c ∈ s, c ≠ 34 := by
    rintro c hc rfl
    exact absurd (h _ hc) (by decide)
  unfold trimQuotes
  rw [dropWhile_quote hq, dropWhile_quote (fun c hc => hq c (List.mem_reverse.1 hc)), List.reverse_reverse]

theorem decodeTime_plain (env : JsonEnv) {s : Bytes} (h : ∀ c ∈ s, plainByte c = true) (hs : s ≠ []) :
    decodeTime env (.str s) = parseDate env.zone s := by
  simp only [decodeTime, escapeJson_plain h, trimQuotes_plain h, if_neg hs]

theorem isoText_plain {s : Bytes} {t : Time} (h : Spec.IsoText s t) : ∀ c ∈ s, plainByte c = true := by
  obtain ⟨y, mo, d, hh, mi, se, rfl, l1, l2, l3, l4, l5, l6, ⟨n, hy, e1⟩, e2, e3, e4, e5, e6⟩ := h
  rw [spec_decimal_iff] at e1 e2 e3 e4 e5 e6
  intro c hc
  simp only [List.mem_append, List.mem_singleton] at hc
  rcases hc with (((((((((((h | h) | h) | h) | h) | h) | h) | h) | h) | h) | h) | h)
  · exact plainByte_digit (e1.1 c h)
  · subst h; decide
  · exact plainByte_digit (e2.1 c h)
  · subst h; decide
  · exact plainByte_digit (e3.1 c h)
  · subst h; decide
  · exact plainByte_digit (e4.1 c h)
  · subst h; decide
  · exact plainByte_digit (e5.1 c h)
  · subst h; decide
  · exact plainByte_digit (e6.1 c h)
  · subst h; decide

theorem rfc3339_ne_nil (t : Time) : rfc3339 t ≠ [] := by
  unfold rfc3339
  simp

/-- A value is read back. -/
theorem decodeVal_encodeVal {env : JsonEnv} (he : Spec.JsonEnvOk env) {v old : Val} (hv : Spec.JsonVal v) {k : Kind}
    (h1 : v.hasKind k = true) (h2 : old.hasKind k = true) : decodeVal env old (encodeVal v) = some v := by
  cases v with
  | int i =>
    cases old with
    | int o =>
      have := parseInt_fmtInt (i := i) (by have := hv.1; omega) (by have := hv.2; omega)
      simp only [decodeVal, encodeVal, this]
    | str o => cases k <;> simp [Val.hasKind] at h1 h2
    | time o => cases k <;> simp [Val.hasKind] at h1 h2
  | str s =>
    cases old with
    | str o => simp only [decodeVal, encodeVal, toValidUtf8_utf8 hv]
    | int o => cases k <;> simp [Val.hasKind] at h1 h2
    | time o => cases k <;> simp [Val.hasKind] at h1 h2
  | time t =>
    cases old with
    | time o =>
      have hp := (spec_plainTime_iff t).1 hv
      simp only [decodeVal, encodeVal]
      by_cases hz : t.isZero = true
      · rw [if_pos hz, (Time.isZero_iff hp.1 hp.2.2.2.2).1 hz]
        rfl
      · rw [if_neg hz, decodeTime_plain env (isoText_plain (isoText_rfc3339 hv)) (rfc3339_ne_nil t),
          parseDate_iso env.zone hv (isoText_rfc3339 hv)]
        rfl
    | int o => cases k <;> simp [Val.hasKind] at h1 h2
    | str o => cases k <;> simp [Val.hasKind] at h1 h2

/-! ### Re-encoding through `interface{}` -/

/-- `P` survives re-encoding. -/
def Stable (env : JsonEnv) (P : Json → Prop) : Prop := ∀ j, P j → ∃ k, reJson env j = some k ∧ P k

theorem stable_val {env : JsonEnv} (he : Spec.JsonEnvOk env) {v : Val} (hv : Spec.JsonVal v) :
    Stable env (· = encodeVal v) := by
  rintro j rfl
  refine ⟨encodeVal v, ?_, rfl⟩
  cases v with
  | int i => simp only [encodeVal, reJson, he.refloat i hv.1 hv.2, Option.map_some]
  | str s => simp only [encodeVal, reJson]
  | time t => simp only [encodeVal, reJson]

/-- The members `m` have the keys and values described by `ps`, in this order. -/
def Members : List (Bytes × Json) → List (Bytes × (Json → Prop)) → Prop
  | [], [] => True
  | kv :: m, p :: ps => kv.1 = p.1 ∧ p.2 kv.2 ∧ Members m ps
  | _, _ => False

/-- The value is an object with the members described by `ps`, in some order. -/
def IsObj (ps : List (Bytes × (Json → Prop))) (j : Json) : Prop := ∃ l m, j = .obj l ∧ l.Perm m ∧ Members m ps

/-- The elements. -/
def Elems : List Json → List (Json → Prop) → Prop
  | [], [] => True
  | x :: xs, p :: ps => p x ∧ Elems xs ps
  | _, _ => False

/-- The value is an array with the elements described by `ps`. -/
def IsArr (ps : List (Json → Prop)) (j : Json) : Prop := ∃ xs, j = .arr xs ∧ Elems xs ps

theorem Members.keys {m : List (Bytes × Json)} {ps : List (Bytes × (Json → Prop))} (h : Members m ps) :
    m.map (·.1) = ps.map (·.1) := by
  induction m generalizing ps with
  | nil => cases ps with
    | nil => rfl
    | cons => exact h.elim
  | cons kv m ih => cases ps with
    | nil => exact h.elim
    | cons p ps => rw [List.map_cons, List.map_cons, ih h.2.2, h.1]

theorem mapSet_perm {k : Bytes} (v : Json) {l : List (Bytes × Json)} (h : k ∉ l.map (·.1)) :
    (mapSet k v l).Perm ((k, v) :: l) := by
  induction l with
  | nil => exact List.Perm.refl _
  | cons q rest ih =>
    obtain ⟨k', v'⟩ := q
    simp only [List.map_cons, List.mem_cons, not_or] at h
    simp only [mapSet]
    rw [if_neg h.1]
    split
    · exact List.Perm.refl _
    · exact ((ih h.2).cons _).trans (List.Perm.swap _ _ _)

/-- A member after re-encoding. -/
def reMember (env : JsonEnv) (kv : Bytes × Json) : Bytes × Json := (kv.1, (reJson env kv.2).getD .null)

theorem reObj_perm (env : JsonEnv) (l : List (Bytes × Json)) (acc : List (Bytes × Json))
    (hk : (l.map (·.1) ++ acc.map (·.1)).Nodup) (hv : ∀ kv ∈ l, (reJson env kv.2).isSome = true) :
    ∃ l', reObj env l acc = some l' ∧ l'.Perm (l.map (reMember env) ++ acc) := by
  induction l generalizing acc with
  | nil => exact ⟨acc, rfl, List.Perm.refl _⟩
  | cons q l ih =>
    obtain ⟨k, v⟩ := q
    obtain ⟨w, hw⟩ := Option.isSome_iff_exists.1 (hv (k, v) (by simp))
    simp only at hw
    rw [List.map_cons, List.cons_append, List.nodup_cons] at hk
    have hka : k ∉ acc.map (·.1) := fun h => hk.1 (List.mem_append.2 (.inr h))
    have hp := mapSet_perm w hka
    have hnd : (l.map (·.1) ++ (mapSet k w acc).map (·.1)).Nodup := by
      have h1 : (l.map (·.1) ++ (mapSet k w acc).map (·.1)).Perm (k :: (l.map (·.1) ++ acc.map (·.1))) := by
        refine ((hp.map (·.1)).append_left _).trans ?_
        rw [List.map_cons]
        exact List.perm_middle
      exact h1.nodup_iff.2 (List.nodup_cons.2 hk)
    obtain ⟨l', h1, h2⟩ := ih (mapSet k w acc) hnd (fun kv h => hv kv (List.mem_cons_of_mem _ h))
    refine ⟨l', ?_, ?_⟩
    · simp only [reObj, hw, h1]
    · refine h2.trans ((hp.append_left _).trans ?_)
      rw [List.map_cons, List.cons_append]
      have : reMember env (k, v) = (k, w) := by simp [reMember, hw]
      rw [this]
      exact List.perm_middle

theorem Members.re {env : JsonEnv} {m : List (Bytes × Json)} {ps : List (Bytes × (Json → Prop))} (h : Members m ps)
    (hs : ∀ p ∈ ps, Stable env p.2) :
    (∀ kv ∈ m, (reJson env kv.2).isSome = true) ∧ Members (m.map (reMember env)) ps := by
  induction m generalizing ps with
  | nil => exact ⟨by simp, h⟩
  | cons kv m ih => cases ps with
    | nil => exact h.elim
    | cons p ps =>
      obtain ⟨w, hw, hp⟩ := hs p (by simp) kv.2 h.2.1
      obtain ⟨h1, h2⟩ := ih h.2.2 (fun q hq => hs q (List.mem_cons_of_mem _ hq))
      refine ⟨?_, ?_⟩
      · intro x hx
        rcases List.mem_cons.1 hx with rfl | hx
        · rw [hw]; rfl
        · exact h1 x hx
      · refine ⟨h.1, ?_, h2⟩
        simp only [reMember, hw, Option.getD_some]
        exact hp

/-- An object decoded into a map. -/
theorem decodeMap_isObj {env : JsonEnv} {ps : List (Bytes × (Json → Prop))} (hn : (ps.map (·.1)).Nodup)
    (hs : ∀ p ∈ ps, Stable env p.2) {j : Json} (h : IsObj ps j) :
    ∃ l m, decodeMap env j = some l ∧ l.Perm m ∧ Members m ps := by
  obtain ⟨l, m, rfl, hp, hm⟩ := h
  obtain ⟨h1, h2⟩ := hm.re hs
  have hnd : (l.map (·.1) ++ ([] : List (Bytes × Json)).map (·.1)).Nodup := by
    rw [List.map_nil, List.append_nil]
    exact (hp.map (·.1)).nodup_iff.2 (by rw [hm.keys]; exact hn)
  obtain ⟨l', h3, h4⟩ := reObj_perm env l [] hnd (fun kv hkv => h1 kv (hp.mem_iff.1 hkv))
  rw [List.append_nil] at h4
  exact ⟨l', m.map (reMember env), h3, h4.trans (hp.map _), h2⟩

theorem stable_isObj {env : JsonEnv} {ps : List (Bytes × (Json → Prop))} (hn : (ps.map (·.1)).Nodup)
    (hs : ∀ p ∈ ps, Stable env p.2) : Stable env (IsObj ps) := by
  intro j h
  obtain ⟨l, m, h1, h2, h3⟩ := decodeMap_isObj hn hs h
  obtain ⟨l0, m0, rfl, _⟩ := h
  refine ⟨.obj l, ?_, l, m, rfl, h2, h3⟩
  simp only [decodeMap] at h1
  simp only [reJson, h1, Option.map_some]

theorem decodeList_isArr {env : JsonEnv} {ps : List (Json → Prop)} (hs : ∀ p ∈ ps, Stable env p) {j : Json}
    (h : IsArr ps j) : ∃ xs, decodeList env j = some xs ∧ Elems xs ps := by
  obtain ⟨xs, rfl, h⟩ := h
  show ∃ ys, reList env xs = some ys ∧ _
  induction xs generalizing ps with
  | nil => exact ⟨[], rfl, h⟩
  | cons x xs ih => cases ps with
    | nil => exact h.elim
    | cons p ps =>
      obtain ⟨w, hw, hp⟩ := hs p (by simp) x h.1
      obtain ⟨ys, h1, h2⟩ := ih (fun q hq => hs q (List.mem_cons_of_mem _ hq)) h.2
      exact ⟨w :: ys, by simp only [reList, hw, h1, Option.map_some], hp, h2⟩

theorem stable_isArr {env : JsonEnv} {ps : List (Json → Prop)} (hs : ∀ p ∈ ps, Stable env p) : Stable env (IsArr ps) := by
  intro j h
  obtain ⟨xs, h1, h2⟩ := decodeList_isArr hs h
  obtain ⟨l0, rfl, _⟩ := h
  refine ⟨.arr xs, ?_, xs, rfl, h2⟩
  simp only [decodeList] at h1
  simp only [reJson, h1, Option.map_some]

/-! ### Structs -/

theorem Fields.set_comm (fs : Fields) {f g : F} (h : f ≠ g) (v w : Val) : (fs.set f v).set g w = (fs.set g w).set f v := by
  unfold Fields.set
  rw [List.map_map, List.map_map]
  apply List.map_congr_left
  intro p _
  simp only [Function.comp_apply]
  by_cases h1 : p.1 = f
  · have h2 : p.1 ≠ g := fun h3 => h (h1.symm.trans h3)
    simp [h1, h2, h]
  · by_cases h2 : p.1 = g
    · simp [h2, Ne.symm h]
    · simp [h1, h2]

theorem decodeMember_eq (env : JsonEnv) {decl : List (F × FieldDecl)} (fs : Fields) {kv : Bytes × Json} {f : F}
    (h : fieldOf decl kv.1 = some f) :
    decodeMember env decl fs kv = (fs.get f).bind fun old => (decodeVal env old kv.2).map (fs.set f) := by
  unfold decodeMember
  rw [h]
  simp only
  cases fs.get f <;> rfl

theorem member_commutes (env : JsonEnv) {decl : List (F × FieldDecl)} {a b : Bytes × Json} {f g : F}
    (ha : fieldOf decl a.1 = some f) (hb : fieldOf decl b.1 = some g) (h : f ≠ g) : Commutes (decodeMember env decl) a b := by
  intro s
  rw [decodeMember_eq env s ha, decodeMember_eq env s hb]
  cases h1 : s.get f with
  | none =>
    cases h2 : s.get g with
    | none => rfl
    | some w =>
      cases h3 : decodeVal env w b.2 with
      | none => simp [h3]
      | some w' => simp [h3, decodeMember_eq env _ ha, Fields.get_set, h, h1]
  | some v =>
    cases h2 : s.get g with
    | none =>
      cases h3 : decodeVal env v a.2 with
      | none => simp [h3]
      | some v' => simp [h3, decodeMember_eq env _ hb, Fields.get_set, Ne.symm h, h2]
    | some w =>
      cases h3 : decodeVal env v a.2 with
      | none =>
        cases h4 : decodeVal env w b.2 with
        | none => simp [h3, h4]
        | some w' => simp [h3, h4, decodeMember_eq env _ ha, Fields.get_set, h, h1]
      | some v' =>
        cases h4 : decodeVal env w b.2 with
        | none => simp [h3, h4, decodeMember_eq env _ hb, Fields.get_set, Ne.symm h, h2]
        | some w' =>
          simp [h3, h4, decodeMember_eq env _ ha, decodeMember_eq env _ hb, Fields.get_set, h, Ne.symm h, h1, h2,
            Fields.set_comm s h]

theorem fieldOf_tag {decl : List (F × FieldDecl)} (hn : (decl.map fun p => p.2.json).Nodup) {p : F × FieldDecl}
    (h : p ∈ decl) : fieldOf decl p.2.json = some p.1 := by
  have : decl.find? (fun q => q.2.json = p.2.json) = some p := by
    induction decl with
    | nil => simp at h
    | cons q ds ih =>
      rw [List.map_cons, List.nodup_cons] at hn
      rcases List.mem_cons.1 h with rfl | h
      · simp
      · have : q.2.json ≠ p.2.json := fun he => hn.1 (by rw [he]; exact List.mem_map.2 ⟨p, h, rfl⟩)
        rw [List.find?_cons_of_neg (by simpa using this)]
        exact ih hn.2 h
  unfold fieldOf
  rw [this]

theorem Typed.ext {decl : List (F × FieldDecl)} (hn : (decl.map (·.1)).Nodup) {fs gs : Fields} (hf : fs.Typed decl)
    (hg : gs.Typed decl) (h : ∀ f, fs.get f = gs.get f) : fs = gs := by
  induction decl generalizing fs gs with
  | nil =>
    cases fs with
    | nil => cases gs with
      | nil => rfl
      | cons => exact hg.elim
    | cons => exact hf.elim
  | cons d ds ih =>
    cases fs with
    | nil => exact hf.elim
    | cons p fs => cases gs with
      | nil => exact hg.elim
      | cons q gs =>
        obtain ⟨f, v⟩ := p
        obtain ⟨g, w⟩ := q
        obtain ⟨h1, h2, h3⟩ := hf
        obtain ⟨h4, h5, h6⟩ := hg
        have hfg : f = g := h1.symm.trans h4
        subst hfg
        rw [List.map_cons, List.nodup_cons] at hn
        have hv : v = w := by
          have := h f
          simpa [Fields.get, List.lookup] using this
        subst hv
        have := ih hn.2 h3 h6 (by
          intro k
          by_cases hk : k = f
          · subst hk
            rw [Fields.get_none, Fields.get_none]
            · rw [h6.names, ← h1]; exact hn.1
            · rw [h3.names, ← h1]; exact hn.1
          · have := h k
            have hb : (k == f) = false := beq_eq_false_iff_ne.2 hk
            simpa [Fields.get, List.lookup_cons, hb] using this)
        rw [this]

/-- Tags and names are all different. -/
def TagsOk (decl : List (F × FieldDecl)) : Prop := (decl.map (·.1)).Nodup ∧ (decl.map fun p => p.2.json).Nodup

instance (decl : List (F × FieldDecl)) : Decidable (TagsOk decl) := by unfold TagsOk; infer_instance

/-- A field that may be left out has the zero value in `fs`. -/
def OmitZero (decl : List (F × FieldDecl)) (fs : Fields) : Prop :=
  ∀ p ∈ decl, p.2.omitempty = true → fs.get p.1 = some p.2.kind.zero

instance (decl : List (F × FieldDecl)) (fs : Fields) : Decidable (OmitZero decl fs) := by unfold OmitZero; infer_instance

theorem emptyVal_zero {v : Val} {k : Kind} (h : v.hasKind k = true) (he : emptyVal v = true) : v = k.zero := by
  cases v <;> cases k <;> simp_all [emptyVal, Val.hasKind, Kind.zero]

/-- The member of a field. -/
def memberOf (fs : Fields) (p : F × FieldDecl) : Option (Bytes × Json) :=
  match fs.get p.1 with
  | none => none
  | some v => if p.2.omitempty && emptyVal v then none else some (p.2.json, encodeVal v)

theorem encodeMembers_eq (decl : List (F × FieldDecl)) (fs : Fields) : encodeMembers decl fs = decl.filterMap (memberOf fs) := rfl

theorem memberOf_key {fs : Fields} {p : F × FieldDecl} {kv : Bytes × Json} (h : memberOf fs p = some kv) :
    kv.1 = p.2.json ∧ ∃ v, fs.get p.1 = some v ∧ kv.2 = encodeVal v := by
  unfold memberOf at h
  split at h
  · simp at h
  · next v hv =>
    split at h
    · simp at h
    · cases h; exact ⟨rfl, v, hv, rfl⟩

theorem encodeMembers_keys (decl : List (F × FieldDecl)) (fs : Fields) :
    ((encodeMembers decl fs).map (·.1)).Sublist (decl.map fun p => p.2.json) := by
  rw [encodeMembers_eq]
  induction decl with
  | nil => exact List.Sublist.refl _
  | cons p ds ih =>
    rw [List.filterMap_cons]
    cases h : memberOf fs p with
    | none => exact ih.cons _
    | some kv =>
      simp only [List.map_cons]
      rw [(memberOf_key h).1]
      exact ih.cons_cons _

/-- Members in the order of the fields. -/
theorem foldlM_members {env : JsonEnv} (he : Spec.JsonEnvOk env) {decl : List (F × FieldDecl)} (ht : TagsOk decl)
    {fs : Fields} (hf : Spec.JsonFields decl fs) (ds : List (F × FieldDecl)) (hsub : ∀ p ∈ ds, p ∈ decl)
    (hnd : (ds.map (·.1)).Nodup) (s : Fields) (hs : s.Typed decl) (ho : OmitZero ds s) :
    ∃ s', (ds.filterMap (memberOf fs)).foldlM (decodeMember env decl) s = some s' ∧ s'.Typed decl ∧
      ∀ f, s'.get f = if f ∈ ds.map (·.1) then fs.get f else s.get f := by
  induction ds generalizing s with
  | nil => exact ⟨s, rfl, hs, by simp⟩
  | cons p ds ih =>
    rw [List.map_cons, List.nodup_cons] at hnd
    have hp := hsub p (by simp)
    obtain ⟨v, hv, hk⟩ := hf.1.get ht.1 hp
    obtain ⟨old, hold, hko⟩ := hs.get ht.1 hp
    have hjv : Spec.JsonVal v := hf.2 _ (Fields.mem_of_get hv)
    have hrest : ∀ q ∈ ds, q.1 ≠ p.1 := fun q hq h => hnd.1 (List.mem_map.2 ⟨q, hq, h⟩)
    rw [List.filterMap_cons]
    by_cases hom : (p.2.omitempty && emptyVal v) = true
    · have hm : memberOf fs p = none := by unfold memberOf; rw [hv]; simp [hom]
      rw [hm]
      simp only
      obtain ⟨s', h1, h2, h3⟩ := ih (fun q hq => hsub q (List.mem_cons_of_mem _ hq)) hnd.2 s hs
        (fun q hq => ho q (List.mem_cons_of_mem _ hq))
      refine ⟨s', h1, h2, ?_⟩
      intro f
      rw [h3 f, List.map_cons]
      simp only [List.mem_cons]
      by_cases hfp : f = p.1
      · subst hfp
        rw [if_neg hnd.1, if_pos (Or.inl rfl), hv]
        rw [Bool.and_eq_true] at hom
        rw [ho p (by simp) hom.1, emptyVal_zero hk hom.2]
      · simp only [hfp, false_or, if_false]
    · have hm : memberOf fs p = some (p.2.json, encodeVal v) := by unfold memberOf; rw [hv]; simp [hom]
      rw [hm]
      simp only
      rw [List.foldlM_cons, decodeMember_eq env s (kv := (p.2.json, encodeVal v)) (fieldOf_tag ht.2 hp), hold]
      simp only [Option.bind_some, decodeVal_encodeVal he hjv hk hko, Option.map_some, Option.bind_eq_bind]
      have hs1 : (s.set p.1 v).Typed decl := by
        refine hs.set ?_
        intro d hd
        have : d = p.2 := by
          have h1 := lookup_of_mem ht.1 hd
          rw [lookup_of_mem ht.1 (show (p.1, p.2) ∈ decl from hp)] at h1
          simpa using h1.symm
        rw [this]
        exact hk
      obtain ⟨s', h1, h2, h3⟩ := ih (fun q hq => hsub q (List.mem_cons_of_mem _ hq)) hnd.2 _ hs1 (by
        intro q hq hqo
        rw [Fields.get_set, if_neg (hrest q hq)]
        exact ho q (List.mem_cons_of_mem _ hq) hqo)
      refine ⟨s', h1, h2, ?_⟩
      intro f
      rw [h3 f, List.map_cons, Fields.get_set]
      simp only [List.mem_cons]
      by_cases hfp : f = p.1
      · subst hfp
        rw [if_neg hnd.1, if_pos rfl, if_pos (Or.inl rfl), hv, hold]
        rfl
      · simp only [hfp, false_or, if_false]

/-- The value is the encoding of a struct, up to the order of the members. -/
def IsStruct (decl : List (F × FieldDecl)) (fs : Fields) (j : Json) : Prop :=
  ∃ l, j = .obj l ∧ l.Perm (encodeMembers decl fs)

theorem isStruct_encode (decl : List (F × FieldDecl)) (fs : Fields) : IsStruct decl fs (encodeStruct decl fs) :=
  ⟨_, rfl, List.Perm.refl _⟩

theorem members_eq_iff (m l : List (Bytes × Json)) : Members m (l.map fun kv => (kv.1, (· = kv.2))) ↔ m = l := by
  induction m generalizing l with
  | nil => cases l <;> simp [Members]
  | cons a m ih =>
    cases l with
    | nil => simp [Members]
    | cons b l =>
      simp only [List.map_cons, Members, ih, List.cons.injEq]
      constructor
      · rintro ⟨h1, h2, h3⟩
        exact ⟨Prod.ext h1 h2, h3⟩
      · rintro ⟨rfl, h3⟩
        exact ⟨rfl, rfl, h3⟩

theorem isStruct_iff (decl : List (F × FieldDecl)) (fs : Fields) (j : Json) :
    IsStruct decl fs j ↔ IsObj ((encodeMembers decl fs).map fun kv => (kv.1, (· = kv.2))) j := by
  constructor
  · rintro ⟨l, h1, h2⟩
    exact ⟨l, _, h1, h2, (members_eq_iff _ _).2 rfl⟩
  · rintro ⟨l, m, h1, h2, h3⟩
    rw [members_eq_iff] at h3
    subst h3
    exact ⟨l, h1, h2⟩

theorem stable_isStruct {env : JsonEnv} (he : Spec.JsonEnvOk env) {decl : List (F × FieldDecl)} (ht : TagsOk decl)
    {fs : Fields} (hf : Spec.JsonFields decl fs) : Stable env (IsStruct decl fs) := by
  have hs : Stable env (IsObj ((encodeMembers decl fs).map fun kv => (kv.1, (· = kv.2)))) := by
    apply stable_isObj
    · rw [List.map_map]
      exact (encodeMembers_keys decl fs).nodup ht.2
    · intro p hp
      obtain ⟨kv, hkv, rfl⟩ := List.mem_map.1 hp
      rw [encodeMembers_eq] at hkv
      obtain ⟨q, _, hq⟩ := List.mem_filterMap.1 hkv
      obtain ⟨_, v, hv, h2⟩ := memberOf_key hq
      simp only [h2]
      exact stable_val he (hf.2 _ (Fields.mem_of_get hv))
  intro j hj
  obtain ⟨k, h1, h2⟩ := hs j ((isStruct_iff _ _ _).1 hj)
  exact ⟨k, h1, (isStruct_iff _ _ _).2 h2⟩

/-- A struct is read back. -/
theorem decodeStruct_isStruct {env : JsonEnv} (he : Spec.JsonEnvOk env) {decl : List (F × FieldDecl)} (ht : TagsOk decl)
    {fs : Fields} (hf : Spec.JsonFields decl fs) {fs0 : Fields} (h0 : fs0.Typed decl) (ho : OmitZero decl fs0) {j : Json}
    (hj : IsStruct decl fs j) : decodeStruct env decl fs0 j = some fs := by
  obtain ⟨l, rfl, hp⟩ := hj
  have hc : (encodeMembers decl fs).Pairwise (Commutes (decodeMember env decl)) := by
    rw [encodeMembers_eq, List.pairwise_filterMap]
    have : decl.Pairwise fun a b => a.1 ≠ b.1 := by
      have := ht.1
      unfold List.Nodup at this
      rw [List.pairwise_map] at this
      exact this
    refine List.Pairwise.imp_of_mem ?_ this
    intro a b ha hb hab x hx y hy
    apply member_commutes env (f := a.1) (g := b.1) _ _ hab
    · rw [(memberOf_key hx).1]; exact fieldOf_tag ht.2 ha
    · rw [(memberOf_key hy).1]; exact fieldOf_tag ht.2 hb
  show l.foldlM (decodeMember env decl) fs0 = some fs
  rw [foldlM_perm _ hp hc]
  obtain ⟨s', h1, h2, h3⟩ := foldlM_members he ht hf decl (fun _ h => h) ht.1 fs0 h0 ho
  rw [encodeMembers_eq, h1]
  congr 1
  apply Typed.ext ht.1 h2 hf.1
  intro f
  rw [h3 f]
  by_cases hm : f ∈ decl.map (·.1)
  · rw [if_pos hm]
  · rw [if_neg hm, Fields.get_none (by rw [h0.names]; exact hm), Fields.get_none (by rw [hf.1.names]; exact hm)]

end Metro2
