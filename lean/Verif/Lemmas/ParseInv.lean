import Verif.Lemmas.Safe

/-! What a successful parse says about the bytes and the values. -/

namespace Metro2

/-- One step of a successful loop, at a field other than the block descriptor. -/
theorem parseLoop_inv_step {fmt : Format} {pol : BdwPolicy} {bounds : Bool} {rec : Bytes} {off : Nat} {f : F}
    {v : Val} {rest new : Fields} (hf : f ≠ .BlockDescriptorWord)
    (h : parseLoop fmt pol bounds rec off ((f, v) :: rest) = (new, none)) :
    ∃ e w new', new = (f, w) :: new' ∧ fmt.lookup f = some e ∧ e.start + e.len + off ≤ rec.length ∧
      isValidType e f ((rec.drop (e.start + off)).take e.len) = none ∧
      parseValue e ((rec.drop (e.start + off)).take e.len) = .ok w ∧
      parseLoop fmt pol bounds rec off rest = (new', none) := by
  rw [parseLoop_cons] at h
  split at h
  · simp at h
  · next e he =>
    split at h
    · simp at h
    · next hlen =>
      simp only at h
      split at h
      · simp at h
      · next hv =>
        split at h
        · simp at h
        · next w hw =>
          have hstep : ∀ w', setVal v w = some w' → w' = w := by
            intro w' hs
            cases v <;> cases w <;> simp [setVal] at hs <;> exact hs.symm
          refine ⟨e, w, (parseLoop fmt pol bounds rec off rest).1, ?_, he, by omega, hv, hw, ?_⟩ <;>
          · split at h
            · exact absurd rfl hf
            · exact absurd rfl hf
            · exact absurd rfl hf
            · split at h
              · simp at h
              · next w' hs =>
                have := hstep w' hs
                simp only [Prod.mk.injEq] at h
                first
                  | rw [← h.1, this]
                  | exact Prod.ext rfl h.2

/-- A successful loop without block descriptor. -/
theorem parseLoop_inv {fmt : Format} {pol : BdwPolicy} {bounds : Bool} {rec : Bytes} {off : Nat}
    {old new : Fields} (hb : ∀ p ∈ old, p.1 ≠ .BlockDescriptorWord)
    (h : parseLoop fmt pol bounds rec off old = (new, none)) : SlotsOk fmt rec off new := by
  induction old generalizing new with
  | nil => simp only [parseLoop, Prod.mk.injEq] at h; rw [← h.1]; intro p hp; simp at hp
  | cons p old ih =>
    obtain ⟨f, v⟩ := p
    have hf := hb _ List.mem_cons_self
    obtain ⟨e, w, new', rfl, h1, h2, h3, h4, h5⟩ := parseLoop_inv_step hf h
    intro p hp
    rcases List.mem_cons.1 hp with rfl | hp
    · exact ⟨hf, e, h1, h2, h3, h4⟩
    · exact ih (fun p hp => hb p (List.mem_cons_of_mem _ hp)) h5 p hp

/-- A successful loop that starts at the block descriptor. -/
theorem parseLoop_inv_bdw {enc : Enc} {fmt : Format} {decl : List (F × FieldDecl)} (hB : Blocked enc fmt decl)
    {pol : BdwPolicy} {bounds : Bool} {rec : Bytes} {old new : Fields} (ho : old.Typed decl)
    (h : parseLoop fmt pol bounds rec 0 old = (new, none)) :
    pol ≠ .fail ∧ 4 ≤ rec.length ∧ ∃ i, parseValue (bdwField enc) (rec.take 4) = .ok (.int i) ∧
      new.int .BlockDescriptorWord = (if pol = .accept then i else old.int .BlockDescriptorWord) ∧
      SlotsOk fmt rec (if pol = .accept then 4 else 0) (noBdw new) := by
  obtain ⟨b, r, fr, rfl, hb, -, hfr⟩ := hB.shape ho
  rw [parseLoop_cons] at h
  simp only [hB.bdw] at h
  have e1 : (bdwField enc).start = 0 := by cases enc <;> rfl
  have e2 : (bdwField enc).len = 4 := by cases enc <;> rfl
  simp only [e1, e2, Nat.zero_add, Nat.add_zero, List.drop_zero] at h
  split at h
  · simp at h
  · next hlen =>
    split at h
    · simp at h
    · split at h
      · simp at h
      · next w hw =>
        have hk := parseValue_kind (k := .int) (by cases enc <;> rfl) hw
        obtain ⟨i, rfl⟩ := hasKind_int hk
        have hnb : ∀ p ∈ (F.RecordDescriptorWord, Val.int r) :: fr, p.1 ≠ F.BlockDescriptorWord := by
          intro p hp
          rcases List.mem_cons.1 hp with rfl | hp
          · simp
          · exact (hfr p hp).1
        cases pol with
        | fail => simp at h
        | skip =>
          simp only [Prod.mk.injEq] at h
          obtain ⟨h1, h2⟩ := h
          have hs := parseLoop_inv hnb (Prod.ext rfl h2)
          rw [← h1]
          refine ⟨by simp, by omega, i, hw, ?_, ?_⟩
          · rw [hb]; rfl
          · rw [if_neg (by simp), noBdw_cons (fun p hp => (hs p hp).1)]
            exact hs
        | accept =>
          simp only [setVal, Prod.mk.injEq] at h
          obtain ⟨h1, h2⟩ := h
          have hs := parseLoop_inv hnb (Prod.ext rfl h2)
          rw [← h1]
          refine ⟨by simp, by omega, i, hw, ?_, ?_⟩
          · rfl
          · rw [if_pos rfl, noBdw_cons (fun p hp => (hs p hp).1)]
            exact hs

/-! ### Accepted values fit -/

theorem signedDecimal_lt {s : Bytes} {i : Int} (h : Spec.SignedDecimal s i) : i < 10 ^ s.length := by
  obtain ⟨ds, n, -, hd, h⟩ := h
  rw [spec_decimal_iff] at hd
  have h1 := digitsVal_lt ds hd.1
  rw [hd.2] at h1
  have h2 : 10 ^ ds.length ≤ 10 ^ s.length := by
    apply Nat.pow_le_pow_right (by decide)
    rcases h with ⟨rfl, -⟩ | ⟨rfl, -⟩ | ⟨rfl, -⟩ <;> simp
  have h3 : (n : Int) < 10 ^ s.length := by exact_mod_cast Nat.lt_of_lt_of_le h1 h2
  rcases h with ⟨-, rfl⟩ | ⟨-, rfl⟩ | ⟨-, rfl⟩ <;> omega

theorem signedDecimal_neg_lt {s : Bytes} {i : Int} (h : Spec.SignedDecimal s i) (hi : i < 0) : -i < 10 ^ (s.length - 1) := by
  obtain ⟨ds, n, -, hd, h⟩ := h
  rw [spec_decimal_iff] at hd
  have h1 := digitsVal_lt ds hd.1
  rw [hd.2] at h1
  rcases h with ⟨-, rfl⟩ | ⟨-, rfl⟩ | ⟨rfl, rfl⟩
  · omega
  · omega
  · rw [List.length_cons, Nat.add_sub_cancel, Int.neg_neg]
    exact_mod_cast h1

theorem midnight_zero : Spec.Midnight Time.zero := ⟨rfl, rfl, rfl⟩

theorem plain_zero : Spec.PlainTime Time.zero :=
  ⟨1, rfl, by decide, ⟨0, rfl, 31, rfl, by decide, by decide⟩, by decide, by decide, by decide, rfl, rfl⟩

theorem timeFromString_date_plain {s : Bytes} {t : Time} (h : timeFromString dateFormat s = .ok t) :
    Spec.PlainTime t ∧ Spec.Midnight t := by
  unfold timeFromString at h
  split at h
  · cases h; exact ⟨plain_zero, midnight_zero⟩
  · split at h
    · next t' ht =>
      cases h
      obtain ⟨h1, h2, -⟩ := Time.parse_date_plain ht
      exact ⟨(spec_plainTime_iff _).2 h1, h2⟩
    · cases h

theorem timeFromString_timestamp_plain {s : Bytes} {t : Time} (h : timeFromString timestampFormat s = .ok t) :
    Spec.PlainTime t := by
  unfold timeFromString at h
  split at h
  · cases h; exact plain_zero
  · split at h
    · next t' ht =>
      cases h
      exact (spec_plainTime_iff _).2 (Time.parse_timestamp_plain ht).1
    · cases h

theorem timeFromPacked_ok {size width : Nat} {layout : List Std} {bin : Bytes} {t : Time}
    (h : timeFromPacked size width layout bin = .ok t) : ∃ s, timeFromString layout s = .ok t := by
  unfold timeFromPacked at h
  split at h
  · split at h
    · split at h
      · exact ⟨_, h⟩
      · cases h
    · exact ⟨_, h⟩
  · cases h

theorem except_map_ok' {α β : Type} {x : Except Err α} {f : α → β} {b : β} (h : x.map f = .ok b) :
    ∃ a, x = .ok a ∧ b = f a := by
  cases x with
  | ok a => simp only [Except.map, Except.ok.injEq] at h; exact ⟨a, rfl, h.symm⟩
  | error e => simp [Except.map] at h

/-- A value that was read and that is neither a negative number with room for a leading zero nor the zero time in a required
date fits its field. -/
theorem fits_of_parse {e : Field} {f : F} {data : Bytes} {v : Val} (hw : Spec.WidthOk e = true)
    (hd : data.length = e.len) (hv : isValidType e f data = none) (hp : parseValue e data = .ok v)
    (hneg : e.typ = .numeric → ∀ i, v = .int i → 0 ≤ i ∨ (2 ≤ e.len ∧ 10 ^ (e.len - 2) ≤ -i))
    (hdate : e.req = .required → e.typ = .date ∨ e.typ = .timestamp → v ≠ .time Spec.noTime) :
    Spec.Fits e v := by
  cases ht : e.typ with
  | numeric =>
    obtain ⟨i, rfl, h1, h2, h3, h4⟩ := (reads_numeric_iff f ht).1 ⟨hv, hp⟩
    have h5 := signedDecimal_lt h1
    rw [hd] at h5
    simp only [Spec.Fits, ht]
    refine ⟨?_, h2, h3, h4⟩
    by_cases h0 : 0 ≤ i
    · exact .inl ⟨h0, h5⟩
    · have h6 := signedDecimal_neg_lt h1 (by omega)
      rw [hd] at h6
      have h7 := (hneg ht i rfl).resolve_left h0
      exact .inr ⟨h7.1, h7.2, h6⟩
  | alphanumeric =>
    have hne : data ≠ [] := by
      intro h
      rw [Spec.WidthOk, ht] at hw
      simp only [decide_eq_true_eq] at hw
      rw [h] at hd
      simp at hd
      omega
    obtain ⟨h1, rfl⟩ := (reads_alphanumeric_iff f ht hne).1 ⟨hv, hp⟩
    simp only [Spec.Fits, ht]
    refine ⟨?_, fun c hc => h1 c (mem_trimRight hc), ?_⟩
    · have := trimRight_length_le data; omega
    · exact noTrailingBlank_trimRight data
  | alpha => rw [Spec.WidthOk, ht] at hw; cases hw
  | timestamp =>
    simp only [parseValue, ht] at hp
    obtain ⟨t, h1, rfl⟩ := except_map_ok' hp
    simp only [Spec.Fits, ht]
    refine ⟨timeFromString_timestamp_plain h1, fun hr hn => ?_⟩
    exact hdate hr (.inr ht) (by rw [hn])
  | date =>
    simp only [parseValue, ht] at hp
    obtain ⟨t, h1, rfl⟩ := except_map_ok' hp
    simp only [Spec.Fits, ht]
    refine ⟨(timeFromString_date_plain h1).1, (timeFromString_date_plain h1).2, fun hr hn => ?_⟩
    exact hdate hr (.inl ht) (by rw [hn])
  | descriptor =>
    simp only [parseValue, ht] at hp
    split at hp
    · cases hp
    · cases hp
      simp only [Spec.Fits, ht]
      have h1 := beVal_lt (data.take 2)
      have h2 : 256 ^ (data.take 2).length ≤ 256 ^ 2 :=
        Nat.pow_le_pow_right (by decide) (by rw [List.length_take]; omega)
      have h3 : 256 ^ 2 = 65536 := by decide
      omega
  | packedTimestamp =>
    simp only [parseValue, ht] at hp
    obtain ⟨t, h1, rfl⟩ := except_map_ok' hp
    obtain ⟨s, h2⟩ := timeFromPacked_ok h1
    simp only [Spec.Fits, ht]
    exact timeFromString_timestamp_plain h2
  | packedDate =>
    simp only [parseValue, ht] at hp
    obtain ⟨t, h1, rfl⟩ := except_map_ok' hp
    obtain ⟨s, h2⟩ := timeFromPacked_ok h1
    simp only [Spec.Fits, ht]
    exact timeFromString_date_plain h2
  | packedNumber =>
    simp only [parseValue, ht] at hp
    obtain ⟨i, h1, rfl⟩ := except_map_ok' hp
    have hw' := hw
    rw [Spec.WidthOk, ht] at hw'
    simp only [Bool.and_eq_true, decide_eq_true_eq] at hw'
    rw [packedNumberFromString_of_le (by omega)] at h1
    cases h1
    simp only [Spec.Fits, ht]
    have := beVal_lt data
    rw [hd] at this
    refine ⟨by omega, by exact_mod_cast this⟩

end Metro2
