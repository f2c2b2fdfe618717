import Verif.Model.File
import Verif.Lemmas.RecordInv

/-! The loops of `File.Parse`. -/

namespace Metro2

/-! ### DeleteFunc -/

theorem take_set_succ {s : Bytes} {i : Nat} {v : UInt8} (h : i < s.length) :
    (s.set i v).take (i + 1) = s.take i ++ [v] := by
  rw [List.take_add_one, List.take_set_of_le (Nat.le_refl i), List.getElem?_set_self h]
  rfl

theorem deleteFuncLoop_inv (del : UInt8 → Bool) (s : Bytes) : ∀ (n i j : Nat) (b : Bytes),
    i < j → j + n = s.length → b.length = s.length → b.drop j = s.drop j →
    b.take i = (s.take j).filter (fun c => !del c) →
    (deleteFuncLoop del n i j b).2.take (deleteFuncLoop del n i j b).1 = s.filter (fun c => !del c) ∧
    (deleteFuncLoop del n i j b).1 = (s.filter (fun c => !del c)).length := by
  intro n
  induction n with
  | zero =>
    intro i j b h1 h2 h3 h4 h5
    rw [show s.take j = s from List.take_of_length_le (by omega)] at h5
    simp only [deleteFuncLoop]
    refine ⟨h5, ?_⟩
    rw [← h5, List.length_take]; omega
  | succ n ih =>
    intro i j b h1 h2 h3 h4 h5
    have hj : j < s.length := by omega
    have hjb : j < b.length := by omega
    have hb : b[j] = s[j] := by
      rw [List.drop_eq_getElem_cons hj, List.drop_eq_getElem_cons hjb] at h4
      exact (List.cons.inj h4).1
    have hd : b.drop (j + 1) = s.drop (j + 1) := by
      rw [List.drop_eq_getElem_cons hj, List.drop_eq_getElem_cons hjb] at h4
      exact (List.cons.inj h4).2
    have ht : (s.take (j + 1)).filter (fun c => !del c) =
        (s.take j).filter (fun c => !del c) ++ if del s[j] then [] else [s[j]] := by
      rw [List.take_add_one, List.getElem?_eq_getElem hj, List.filter_append]
      cases h : del s[j] <;> simp [h]
    rw [deleteFuncLoop, List.getElem?_eq_getElem hjb]
    simp only
    cases hdel : del b[j] with
    | true =>
      rw [if_pos rfl]
      apply ih _ _ _ (by omega) (by omega) h3 hd
      rw [ht, ← hb, hdel, if_pos rfl, List.append_nil, h5]
    | false =>
      rw [if_neg (by simp)]
      apply ih _ _ _ (by omega) (by omega) (by rw [List.length_set]; exact h3)
      · rw [List.drop_set_of_lt (by omega), hd]
      · rw [take_set_succ (by omega), ht, ← hb, hdel, h5]; simp

/-- `slices.DeleteFunc` keeps the bytes not deleted, and zeroes the tail of the buffer. -/
theorem deleteFunc_eq (del : UInt8 → Bool) (s : Bytes) :
    deleteFunc del s = (s.filter (fun c => !del c),
      s.filter (fun c => !del c) ++ List.replicate (s.length - (s.filter (fun c => !del c)).length) 0) := by
  unfold deleteFunc
  cases h : s.findIdx? del with
  | none =>
    rw [List.findIdx?_eq_none_iff] at h
    have : s.filter (fun c => !del c) = s := List.filter_eq_self.2 fun c hc => by simp [h c hc]
    simp [this]
  | some i =>
    obtain ⟨hi, hdel, hlt⟩ := List.findIdx?_eq_some_iff_getElem.1 h
    have h0 : s.take i = (s.take (i + 1)).filter (fun c => !del c) := by
      rw [List.take_add_one, List.getElem?_eq_getElem hi, List.filter_append]
      have h1 : (s.take i).filter (fun c => !del c) = s.take i := by
        apply List.filter_eq_self.2
        intro c hc
        obtain ⟨j, hj, rfl⟩ := List.getElem_of_mem hc
        rw [List.length_take] at hj
        rw [List.getElem_take]
        have := hlt j (by omega)
        simpa using this
      rw [h1]; simp [hdel]
    have := deleteFuncLoop_inv del s (s.length - (i + 1)) i (i + 1) s (by omega) (by omega) rfl rfl h0
    simp only
    rw [this.1, this.2]

theorem deleteFunc_newline (s : Bytes) : (deleteFunc isNewline s).1 = stripNewlines s := by
  rw [deleteFunc_eq]; rfl

/-! ### The data record loop -/

/-- A data record of any type needs at least 366 bytes. -/
theorem newBase_parse_length {enc : Enc} {rec : Bytes} {isVar : Bool} {b : Record} {n : Int}
    (h : (newBase enc).parse rec isVar = (b, .ok n)) : 366 ≤ rec.length := by
  by_contra hl
  cases enc with
  | character =>
    rw [newBase, Record.parse, parseBaseCharacter, if_pos (by omega)] at h
    cases h
  | packed =>
    rw [newBase, Record.parse, parseBasePacked, if_pos (by omega)] at h
    cases h

/-- One iteration, with the slice expression evaluated. -/
theorem parseBases_succ (enc : Enc) (isVar : Bool) (record : Bytes) (fuel : Nat) (off : Int) (acc : List Record) :
    parseBases enc isVar record (fuel + 1) off acc =
    if off ≤ 0 ∨ (record.length : Int) ≤ off then some (acc, off, some .segmentLength)
    else
      match (newBase enc).parse (record.drop off.toNat) isVar with
      | (_, .error .panic) => some (acc, off, some .panic)
      | (_, .error _) => some (acc, off, none)
      | (b, .ok read) => parseBases enc isVar record fuel (off + read) (acc ++ [b]) := by
  rw [parseBases]
  by_cases h : off ≤ 0 ∨ (record.length : Int) ≤ off
  · rw [if_pos h, if_pos h]
  · rw [if_neg h, if_neg h, sliceFrom_of_le (by omega) (by omega)]
    rfl

theorem parseBases_mono {enc : Enc} {isVar : Bool} {record : Bytes} {r : List Record × Int × Option Err} :
    ∀ (n m : Nat) (off : Int) (acc : List Record), n ≤ m → parseBases enc isVar record n off acc = some r →
    parseBases enc isVar record m off acc = some r := by
  intro n
  induction n with
  | zero => intro m off acc _ h; simp [parseBases] at h
  | succ n ih =>
    intro m off acc hm h
    obtain ⟨m, rfl⟩ : ∃ k, m = k + 1 := ⟨m - 1, by omega⟩
    rw [parseBases_succ] at h ⊢
    split
    · next hc => rw [if_pos hc] at h; exact h
    · next hc =>
      rw [if_neg hc] at h
      generalize (newBase enc).parse (record.drop off.toNat) isVar = q at h ⊢
      obtain ⟨b, x⟩ := q
      cases x with
      | ok v => exact ih _ _ _ (by omega) h
      | error e => cases e <;> exact h

/-- If every accepted data record reports a size of at least 366 then the loop ends. -/
theorem parseBases_ends {enc : Enc} {isVar : Bool} {record : Bytes}
    (hp : ∀ tail b n, tail <:+ record → (newBase enc).parse tail isVar = (b, .ok n) → 366 ≤ n) :
    ∀ (fuel : Nat) (off : Int) (acc : List Record), (record.length : Int) ≤ off + 366 * fuel ∨ off ≤ 0 →
    ∃ r, parseBases enc isVar record (fuel + 1) off acc = some r := by
  intro fuel
  induction fuel with
  | zero =>
    intro off acc h
    rw [parseBases_succ, if_pos (by omega)]
    exact ⟨_, rfl⟩
  | succ k ih =>
    intro off acc h
    rw [parseBases_succ]
    split
    · exact ⟨_, rfl⟩
    · next hc =>
      generalize hq : (newBase enc).parse (record.drop off.toNat) isVar = q
      obtain ⟨b, x⟩ := q
      cases x with
      | error e => cases e <;> exact ⟨_, rfl⟩
      | ok v =>
        have := hp _ _ _ (List.drop_suffix _ _) hq
        exact ih _ _ (.inl (by push_cast at h; omega))

/-- The number of records read. -/
theorem parseBases_count {enc : Enc} {isVar : Bool} {record : Bytes}
    (hp : ∀ tail b n, tail <:+ record → (newBase enc).parse tail isVar = (b, .ok n) → 366 ≤ n) :
    ∀ (fuel : Nat) (off off' : Int) (acc bs : List Record) (e : Option Err),
    parseBases enc isVar record fuel off acc = some (bs, off', e) →
    bs.length = acc.length ∨ 0 < off ∧ off + 366 * bs.length ≤ record.length + 366 * acc.length := by
  intro fuel
  induction fuel with
  | zero => intro off off' acc bs e h; simp [parseBases] at h
  | succ k ih =>
    intro off off' acc bs e h
    rw [parseBases_succ] at h
    split at h
    · cases h; exact .inl rfl
    · next hc =>
      generalize hq : (newBase enc).parse (record.drop off.toNat) isVar = q at h
      obtain ⟨b, x⟩ := q
      cases x with
      | error e => cases e <;> (cases h; exact .inl rfl)
      | ok v =>
        have h1 := hp _ _ _ (List.drop_suffix _ _) hq
        have h2 := newBase_parse_length hq
        rw [List.length_drop] at h2
        have := ih _ _ _ _ _ h
        simp only [List.length_append, List.length_singleton] at this
        right
        refine ⟨by omega, ?_⟩
        rcases this with h | h <;> (push_cast at h; omega)

theorem newBase_parse_base {enc : Enc} {rec : Bytes} {isVar : Bool} {b : Record} {x : Except Err Int}
    (h : (newBase enc).parse rec isVar = (b, x)) : ∃ fs g, b = .base enc fs g := by
  cases enc <;> (simp only [newBase, Record.parse, Prod.mk.injEq] at h; exact ⟨_, _, h.1.symm⟩)

/-- The size reported for a data record without negative block descriptor. -/
theorem newBase_parse_progress {enc : Enc} {rec : Bytes} {isVar : Bool} {fs : Fields} {g : Segs} {n : Int}
    (h : (newBase enc).parse rec isVar = (.base enc fs g, .ok n))
    (hb : enc = .character → isVar = true → 0 ≤ fs.int .BlockDescriptorWord) : 366 ≤ n := by
  cases enc with
  | character =>
    obtain ⟨-, -, -, h4, h5, h6⟩ := parseBaseCharacter_inv (zeroFields_typed _) (newBase_parse_character.1 h)
    have h0 : 0 ≤ fs.int .BlockDescriptorWord := by
      cases isVar with
      | true => exact hb rfl rfl
      | false =>
        simp only [Bool.false_eq_true, if_false] at h4
        rw [newBase_bdw] at h4
        omega
    by_cases hz : fs.int .BlockDescriptorWord = 0
    · have := (h6 hz).2; omega
    · have := (h5 (by omega)).2; omega
  | packed =>
    obtain ⟨-, -, -, -, -, h5, h6⟩ := parseBasePacked_inv (zeroFields_typed _) (newBase_parse_packed.1 h)
    omega

/-- The block descriptor of an accepted variable-blocked character record is the number in its first four bytes. -/
theorem newBase_parse_bdw {rec : Bytes} {fs : Fields} {g : Segs} {n : Int}
    (h : (newBase .character).parse rec true = (.base .character fs g, .ok n)) :
    Spec.SignedDecimal (rec.take 4) (fs.int .BlockDescriptorWord) := by
  have h := newBase_parse_character.1 h
  rw [parseBaseCharacter] at h
  split at h
  · simp at h
  · generalize hr : parseLoop baseSegmentCharacterFormat (if true = true then .accept else .skip) true rec 0
      (zeroFields baseSegmentStruct) = r at h
    obtain ⟨fs2, o⟩ := r
    cases o with
    | some err => simp at h
    | none =>
      obtain ⟨-, -, i, h3, h4, -⟩ := parseLoop_inv_bdw (blocked_base .character) (zeroFields_typed _) hr
      rw [if_pos (by simp)] at h4
      have hfs : fs2 = fs := by
        simp only at h
        generalize (if fs2.int .BlockDescriptorWord > 0 then 426 + 4 else 426) = off at h
        split at h
        · simp at h
        · split at h
          · simp at h
          · generalize readApplicableSegments _ _ _ = q at h
            obtain ⟨g2, x⟩ := q
            cases x with
            | error err => simp at h
            | ok m =>
              simp only at h
              split at h
              · simp at h
              · split at h
                · simp at h
                · simp only [Prod.mk.injEq] at h; exact h.1.1
      subst hfs
      rw [h4]
      simp only [parseValue, bdwField] at h3
      split at h3
      · next v hv => cases h3; exact (parseInt_ok_iff.1 hv).1
      · cases h3

end Metro2
