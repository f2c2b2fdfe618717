import Verif.Lemmas.PlainText
import Verif.Lemmas.RecordInv
import Verif.Lemmas.Reader

/-! A record that was read from a line without line breaks is written without line breaks. -/

namespace Metro2

variable {fmt : Format} {decl : List (F × FieldDecl)} {L : Nat}

theorem NoBreaks.append {s t : Bytes} (h1 : Spec.NoBreaks s) (h2 : Spec.NoBreaks t) : Spec.NoBreaks (s ++ t) := by
  intro c hc
  rcases List.mem_append.1 hc with hc | hc
  · exact h1 c hc
  · exact h2 c hc

theorem NoBreaks.slot {s : Bytes} (h : Spec.NoBreaks s) (a b : Nat) : Spec.NoBreaks ((s.drop a).take b) :=
  fun c hc => h c (List.mem_of_mem_drop (List.mem_of_mem_take hc))

theorem noBreaks_zeroDate : Spec.NoBreaks (packedTimeString Time.zero dateFormat 5) := by
  have : packedTimeString Time.zero dateFormat 5 = [0x00, 0x0F, 0x69, 0x51, 0x73] := by decide +kernel
  rw [this]; decide

theorem noBreaks_zeroTimestamp : Spec.NoBreaks (packedTimeString Time.zero timestampFormat 8) := by
  have : packedTimeString Time.zero timestampFormat 8 = [0x00, 0x00, 0xEB, 0x28, 0xC0, 0x36, 0x40, 0x73] := by decide +kernel
  rw [this]; decide

theorem timeFromString_cases {layout : List Std} {s : Bytes} {t : Time} (h : timeFromString layout s = .ok t) :
    t = Time.zero ∨ Time.parse layout s = some t := by
  unfold timeFromString at h
  split at h
  · cases h; exact .inl rfl
  · split at h
    · next t' ht => cases h; exact .inr ht
    · cases h

/-- The bytes of a packed time that was not read as the zero time. -/
theorem timeFromPacked_cases {size width : Nat} {layout : List Std} {s : Bytes} {t : Time} (hs : 2 ≤ size)
    (hl : s.length = size) (h : timeFromPacked size width layout s = .ok t) :
    (∃ v, timeFromString layout (fmtIntZero width v) = .ok t ∧ v = 0) ∨
    ∃ mid, s = 0x00 :: mid ++ [0x73] ∧ mid.length = size - 2 := by
  unfold timeFromPacked at h
  split at h
  · next first last h1 h2 =>
    split at h
    · next hfl =>
      right
      obtain ⟨rfl, rfl⟩ := hfl
      refine ⟨(s.drop 1).take (size - 2), ?_, by simp; omega⟩
      cases s with
      | nil => simp at h1
      | cons a s =>
        simp only [List.getElem?_cons_zero, Option.some.injEq] at h1
        subst h1
        simp only [List.drop_succ_cons, List.drop_zero, List.cons_append, List.cons.injEq, true_and]
        rw [List.length_cons] at hl
        have e : size - 1 = s.length := by omega
        rw [show size - 2 = s.length - 1 by omega]
        rw [show size - 1 = s.length - 1 + 1 by omega, List.getElem?_cons_succ] at h2
        conv_lhs => rw [← List.take_append_drop (s.length - 1) s]
        congr 1
        obtain ⟨hlt, hv⟩ := List.getElem?_eq_some_iff.1 h2
        rw [List.drop_eq_getElem_cons hlt, hv, List.drop_of_length_le (by omega)]
    · exact .inl ⟨0, h, rfl⟩
  · cases h

theorem timeFromString_zero_date {t : Time} (h : timeFromString dateFormat (fmtIntZero 8 0) = .ok t) : t = Time.zero := by
  have : timeFromString dateFormat (fmtIntZero 8 0) = .ok Time.zero := by decide +kernel
  rw [this] at h; cases h; rfl

theorem timeFromString_zero_timestamp {t : Time} (h : timeFromString timestampFormat (fmtIntZero 14 0) = .ok t) :
    t = Time.zero := by
  have : timeFromString timestampFormat (fmtIntZero 14 0) = .ok Time.zero := by decide +kernel
  rw [this] at h; cases h; rfl

theorem digitsVal_fmtIntZero (k n : Nat) : digitsVal (fmtIntZero k (n : Int)) = n := by
  show digitsVal (padLeft k 48 (fmtNat n)) = n
  unfold padLeft
  rw [digitsVal_append, digitsVal_replicate_zero]
  simp [digitsVal_fmtNat]

theorem packedTime_text {size width : Nat} {layout : List Std} {s : Bytes} {t : Time} (hs : 2 ≤ size) (hs8 : size ≤ 8)
    (hl : s.length = size) (hn : Spec.NoBreaks s) (h : timeFromPacked size width layout s = .ok t)
    (hz : ∀ u, timeFromString layout (fmtIntZero width 0) = .ok u → u = Time.zero)
    (hz2 : Spec.NoBreaks (packedTimeString Time.zero layout size))
    (hf : ∀ x, Time.parse layout x = some t → t.format layout = x)
    (hp : packedTimeString t layout size = 0x00 :: beBytes (size - 2) (digitsVal (t.format layout)) ++ [0x73]) :
    Spec.NoBreaks (packedTimeString t layout size) := by
  rcases timeFromPacked_cases hs hl h with ⟨v, hv, rfl⟩ | ⟨mid, rfl, hm⟩
  · rw [hz t hv]; exact hz2
  · rw [timeFromPacked_bytes hs hs8 hm] at h
    rcases timeFromString_cases h with rfl | h
    · exact hz2
    · rw [hp, hf _ h, digitsVal_fmtIntZero, ← hm, beBytes_beVal]
      exact hn

theorem noBreaks_toStr {e : Field} {v : Val} {s : Bytes} (hw : Spec.WidthOk e = true) (hf : Spec.Fits e v)
    (hn : Spec.NoBreaks s) (hl : s.length = e.len) (hp : parseValue e s = .ok v) :
    Spec.NoBreaks (toStr e (some v)) := by
  by_cases hc : charRow e = true
  · exact (plain_toStr hc hw hf).noBreaks
  · obtain ⟨start, len, typ, zf, om, req⟩ := e
    unfold toStr
    simp only
    split
    · intro c hc; simp at hc
    · cases typ <;> simp [charRow] at hc <;> simp [Spec.WidthOk] at hw <;> cases v <;> simp only [Spec.Fits] at hf <;>
        simp only [parseValue] at hp <;> simp only at hl
      · next i _ =>
        split at hp
        · cases hp
        · cases hp
          simp only [valText, descriptorString]
          rw [if_pos hf]
          refine NoBreaks.append ?_ (by decide)
          rw [Int.toNat_natCast]
          have := beBytes_beVal (s.take 2)
          rw [show (s.take 2).length = 2 by rw [List.length_take]; omega] at this
          rw [this]
          exact fun c hc => hn c (List.mem_of_mem_take hc)
      · next t _ =>
        obtain ⟨t', h1, h2⟩ := except_map_ok' hp
        cases h2
        subst hw
        simp only [valText]
        exact packedTime_text (by decide) (by decide) hl hn h1 (fun u => timeFromString_zero_timestamp)
          noBreaks_zeroTimestamp (fun x hx => (Time.parse_timestamp_plain hx).2)
          (packedTimeString_timestamp ((spec_plainTime_iff _).1 hf))
      · next t _ =>
        obtain ⟨t', h1, h2⟩ := except_map_ok' hp
        cases h2
        subst hw
        simp only [valText]
        exact packedTime_text (by decide) (by decide) hl hn h1 (fun u => timeFromString_zero_date)
          noBreaks_zeroDate (fun x hx => (Time.parse_date_plain hx).2.2)
          (packedTimeString_date ((spec_plainTime_iff _).1 hf.1))
      · next i _ =>
        obtain ⟨i', h1, h2⟩ := except_map_ok' hp
        cases h2
        rw [packedNumberFromString_of_le (by omega)] at h1
        cases h1
        simp only [valText]
        rw [packedNumberString_nonneg hf.1, Int.toNat_natCast, ← hl, beBytes_beVal]
        exact hn

theorem Layout.noBreaks_main (h : Layout fmt decl L) {fs : Fields} (ht : fs.Typed decl) (hf : Spec.FitsAll fmt fs)
    {rec : Bytes} {off : Nat} (hn : Spec.NoBreaks rec) (hs : SlotsOk fmt rec off (noBdw fs)) :
    Spec.NoBreaks (mainText fmt fs) := by
  intro c hc
  obtain ⟨s, hsm, hcs⟩ := List.mem_flatten.1 hc
  obtain ⟨⟨f, e⟩, hp, rfl⟩ := List.mem_map.1 hsm
  obtain ⟨h1, h2, -⟩ := h.main.2.2 _ hp
  simp only at h1 h2 hcs
  cases hg : fs.get f with
  | none => rw [hg] at hcs; exact (plain_fill e).noBreaks c hcs
  | some v =>
    rw [hg] at hcs
    have hm := Fields.mem_of_get hg
    obtain ⟨d, hd, -⟩ := ht.mem hm
    have hm' : (f, v) ∈ noBdw fs := by
      unfold noBdw; rw [List.mem_filter]; exact ⟨hm, by simpa using h2⟩
    obtain ⟨-, e', he', hlen, -, hpv⟩ := hs _ hm'
    have hee : e' = e := by
      have := lookup_of_mem h.names h1
      simp only at he'
      rw [this] at he'
      cases he'; rfl
    subst hee
    exact noBreaks_toStr (h.row hd h1).1 (hf _ hm h2 _ h1) (NoBreaks.slot hn _ _) (by rw [List.length_take, List.length_drop]; omega) hpv c hcs

theorem NoBreaks.padTo {n : Nat} {s : Bytes} (h : Spec.NoBreaks s) : Spec.NoBreaks (padTo n s) :=
  NoBreaks.append h (Plain.noBreaks (Plain.replicate _ (by decide)))

/-- The block descriptor, if it was read from the first four bytes of the line. -/
theorem noBreaks_bdwText {fs : Fields} {isVar : Bool} (hB : Blocked .packed fmt decl) (ht : fs.Typed decl)
    (hv : isVar = true)
    (hb : if isVar then 0 < Spec.bdw fs ∧ Spec.bdw fs ≤ Spec.wordMax .packed else Spec.bdw fs = 0)
    {rec : Bytes} (hn : Spec.NoBreaks rec) (hl : 4 ≤ rec.length)
    (hp : parseValue (bdwField .packed) (rec.take 4) = .ok (.int (fs.int .BlockDescriptorWord))) :
    Spec.NoBreaks (bdwText fmt fs) := by
  rw [hB.bdwText ht]
  subst hv
  rw [if_pos rfl] at hb
  refine noBreaks_toStr (s := rec.take 4) rfl ?_ (fun c hc => hn c (List.mem_of_mem_take hc))
    (by rw [List.length_take, Nat.min_eq_left hl]; rfl) hp
  exact ⟨hb.1.le, hb.2⟩

theorem noBreaks_header {fs fs0 : Fields} (h0 : fs0.Typed headerRecordStruct) {rec : Bytes} {n : Int} (hg : Spec.GoodHeader .packed true fs)
    (hn : Spec.NoBreaks rec) {isVar : Bool}
    (h : (Record.header .packed fs0).parse rec isVar = (.header .packed fs, .ok n)) :
    Spec.NoBreaks (Record.header .packed fs).string := by
  rw [Record.parse] at h
  simp only [Prod.mk.injEq, Record.header.injEq, true_and] at h
  obtain ⟨rfl, h⟩ := h
  unfold parseHeader at h hg ⊢
  split at h
  · simp at h
  · next hlen =>
    rw [if_neg hlen] at hg ⊢
    generalize hr : parseLoop Enc.packed.headerFormat (headerPolicy .packed rec isVar) true rec 0 fs0 = r at h hg ⊢
    obtain ⟨fs2, o⟩ := r
    cases o with
    | some err => simp at h
    | none =>
      simp only at hg ⊢
      obtain ⟨h1, h2, i, h3, h4, h5⟩ := parseLoop_inv_bdw (blocked_header .packed) h0 hr
      have ha : headerPolicy .packed rec isVar = .accept := by
        simp only [headerPolicy] at h1 ⊢
        split at h1 <;> simp_all
      rw [if_pos ha] at h4 h5
      rw [Record.string]
      apply NoBreaks.padTo
      rw [(layout_header .packed).text]
      refine NoBreaks.append ?_ ((layout_header .packed).noBreaks_main hg.typed hg.fits hn h5)
      exact noBreaks_bdwText (blocked_header .packed) hg.typed rfl hg.bdw hn h2 (by rw [h4]; exact h3)

theorem noBreaks_trailer {fs fs0 : Fields} (h0 : fs0.Typed trailerRecordStruct) {rec : Bytes} {n : Int} (hg : Spec.GoodTrailer .packed fs)
    (hn : Spec.NoBreaks rec) {isVar : Bool}
    (h : (Record.trailer .packed fs0).parse rec isVar = (.trailer .packed fs, .ok n)) :
    Spec.NoBreaks (Record.trailer .packed fs).string := by
  rw [Record.parse] at h
  simp only [Prod.mk.injEq, Record.trailer.injEq, true_and] at h
  obtain ⟨rfl, h⟩ := h
  unfold parseTrailer at h hg ⊢
  split at h
  · simp at h
  · next hlen =>
    rw [if_neg hlen] at hg ⊢
    generalize hr : trailerLoop Enc.packed fs0 rec isVar = r at h hg ⊢
    obtain ⟨fs2, o⟩ := r
    cases o with
    | some err => simp at h
    | none =>
      simp only at hg ⊢
      have hb : ∀ p ∈ fs0, p.1 ≠ .BlockDescriptorWord := by
        intro p hp
        obtain ⟨d, hd⟩ := mem_decl_of_typed h0 hp
        exact trailer_noBdw _ hd
      have h5 := parseLoop_inv hb hr
      rw [Record.string]
      apply NoBreaks.padTo
      rw [(layout_trailer .packed).text_plain (trailer_noBdwRow _)]
      exact (layout_trailer .packed).noBreaks_main hg.typed hg.fits hn fun p hp => h5 p (List.mem_of_mem_filter hp)

theorem noBreaks_base {fs : Fields} {g : Segs} {rec : Bytes} {n : Int} (hg : Spec.GoodBase .packed true fs g)
    (hn : Spec.NoBreaks rec) {isVar : Bool}
    (h : (newBase .packed).parse rec isVar = (.base .packed fs g, .ok n)) :
    Spec.NoBreaks (Record.base .packed fs g).string := by
  rw [newBase_parse_packed, parseBasePacked_eq] at h
  split at h
  · simp at h
  · generalize hr : parseLoop baseSegmentPackedFormat (if isVar then .accept else .fail) true rec 0 (zeroFields baseSegmentStruct) = r at h
    obtain ⟨fs2, o⟩ := r
    cases o with
    | some err => simp at h
    | none =>
      obtain ⟨h1, h2, i, h3, h4, h5⟩ := parseLoop_inv_bdw (blocked_base .packed) (zeroFields_typed _) hr
      have hv : isVar = true := by cases isVar <;> simp_all
      subst hv
      simp only [if_true] at h4 h5
      have he : fs2 = fs := by
        simp only at h
        split at h
        · simp at h
        · generalize hq : readApplicableSegments {} (List.drop _ rec) true = q at h
          obtain ⟨g2, x⟩ := q
          cases x with
          | error err => simp at h
          | ok m =>
            simp only at h
            split at h
            · simp at h
            · simp only [Prod.mk.injEq, Except.ok.injEq] at h
              exact h.1.1
      subst he
      rw [Record.string]
      apply NoBreaks.padTo
      rw [(layout_base .packed).text]
      refine NoBreaks.append (NoBreaks.append ?_ ((layout_base .packed).noBreaks_main hg.typed hg.fits hn h5))
        (plain_segs hg.segs).noBreaks
      exact noBreaks_bdwText (blocked_base .packed) hg.typed rfl hg.bdw hn h2 (by rw [h4]; exact h3)

/-! ### Files -/

theorem lineBases_mem {enc : Enc} {isVar : Bool} {ls : List Bytes} {acc bs : List Record} {o : Option Bytes}
    (h : lineBases enc isVar ls acc = .ok (bs, o)) :
    (∀ b ∈ bs, b ∈ acc ∨ ∃ line ∈ ls, ∃ n, (newBase enc).parse line isVar = (b, .ok n)) ∧
    ∀ line, o = some line → line ∈ ls := by
  induction ls generalizing acc with
  | nil =>
    simp only [lineBases, Except.ok.injEq, Prod.mk.injEq] at h
    obtain ⟨rfl, rfl⟩ := h
    exact ⟨fun b hb => .inl hb, by simp⟩
  | cons l ls ih =>
    rw [lineBases] at h
    split at h
    · cases h
    · simp only [Except.ok.injEq, Prod.mk.injEq] at h
      obtain ⟨rfl, rfl⟩ := h
      exact ⟨fun b hb => .inl hb, by simp⟩
    · next b0 n0 hb0 =>
      obtain ⟨h1, h2⟩ := ih h
      refine ⟨fun b hb => ?_, fun line hl => List.mem_cons_of_mem _ (h2 line hl)⟩
      rcases h1 b hb with h1 | ⟨line, hl, n, hn⟩
      · rcases List.mem_append.1 h1 with h1 | h1
        · exact .inl h1
        · rw [List.mem_singleton] at h1
          subst h1
          exact .inr ⟨l, List.mem_cons_self, n0, hb0⟩
      · exact .inr ⟨line, List.mem_cons_of_mem _ hl, n, hn⟩

/-- The records that were read, line by line. -/
theorem lineBases_split {enc : Enc} {isVar : Bool} {ls : List Bytes} {acc bs : List Record} {line : Bytes}
    (h : lineBases enc isVar ls acc = .ok (bs, some line)) :
    ∃ us rest new, ls = us ++ line :: rest ∧ bs = acc ++ new ∧
      List.Forall₂ (fun u b => ∃ n, (newBase enc).parse u isVar = (b, .ok n)) us new := by
  induction ls generalizing acc with
  | nil => simp [lineBases] at h
  | cons l ls ih =>
    rw [lineBases] at h
    split at h
    · cases h
    · simp only [Except.ok.injEq, Prod.mk.injEq, Option.some.injEq] at h
      obtain ⟨rfl, rfl⟩ := h
      exact ⟨[], ls, [], rfl, by simp, .nil⟩
    · next b0 n0 hb0 =>
      obtain ⟨us, rest, new, rfl, rfl, h3⟩ := ih h
      exact ⟨l :: us, rest, b0 :: new, rfl, by simp, .cons ⟨n0, hb0⟩ h3⟩

theorem readHeader_inv {line : Bytes} {f : File} {isVar : Bool}
    (h : readHeader (newFile .character) line = .ok (f, isVar)) :
    ∃ enc hd n, f = { newFile enc with header := hd } ∧ (newHeader enc).parse line isVar = (hd, .ok n) := by
  unfold readHeader at h
  split at h
  · cases h
  · split at h
    · cases h
    · next packed hp =>
      have hset : ((newFile .character).setType (if packed = true then Enc.packed.name else messageMetroFormat)).1 =
          newFile (if packed then .packed else .character) := by
        cases packed
        · exact setType_new .character
        · exact setType_new .packed
      simp only [hset] at h
      split at h
      · cases h
      · next hd n hh =>
        cases h
        exact ⟨_, hd, n, rfl, hh⟩

/-- A good packed file that was read from lines without line breaks is written without line breaks. -/
theorem noBreaks_of_readLines {ls : List Bytes} {f : File} (hn : ∀ l ∈ ls, Spec.NoBreaks l)
    (hg : Spec.GoodFile .packed true f) (h : readLines ls = .ok f) : ∀ t ∈ Spec.recordTexts f, Spec.NoBreaks t := by
  cases ls with
  | nil => cases h
  | cons l ls =>
    rw [readLines] at h
    split at h
    · cases h
    · next f1 isVar h1 =>
      obtain ⟨enc, hd, n, rfl, hh⟩ := readHeader_inv h1
      split at h
      · cases h
      · next bs line h2 =>
        obtain ⟨h3, h4⟩ := lineBases_mem h2
        unfold readTrailer at h
        split at h
        · cases h
        · next t m ht =>
          simp only [newFile] at h ht h3
          cases h
          have he := hg.format
          simp only at he
          subst he
          have hn' := fun l' hl' => hn l' (List.mem_cons_of_mem _ hl')
          intro t' ht'
          simp only [Spec.recordTexts, List.mem_append, List.mem_singleton, List.mem_map] at ht'
          rcases ht' with (rfl | ⟨r, hr, rfl⟩) | rfl
          · obtain ⟨fs, e, hgh⟩ := hg.header
            simp only at e
            subst e
            exact noBreaks_header (newHeader_typed .packed) hgh (hn _ List.mem_cons_self) hh
          · obtain ⟨fs, g, e, hgb⟩ := hg.bases r hr
            subst e
            rcases h3 _ hr with h3 | ⟨line', hl, k, hk⟩
            · simp at h3
            · exact noBreaks_base hgb.base (hn' _ hl) hk
          · obtain ⟨fs, e, hgt⟩ := hg.trailer
            simp only at e
            subst e
            exact noBreaks_trailer (newTrailer_typed .packed) hgt (hn' _ (h4 _ rfl)) ht
      · cases h

theorem recordsOf_noBreaks (ps : List Bytes) : ∀ l ∈ Spec.recordsOf ps, Spec.NoBreaks l := by
  intro l hl
  unfold Spec.recordsOf at hl
  obtain ⟨a, -, rfl⟩ := List.mem_map.1 hl
  exact noBreaks_withoutBreaks a

end Metro2
