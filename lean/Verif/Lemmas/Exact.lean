import Verif.Lemmas.Places
import Verif.Lemmas.Check
import Verif.Lemmas.RecordInv

/-! Records that can be read again are regular. -/

namespace Metro2

variable {fmt : Format} {decl : List (F × FieldDecl)} {L : Nat}

/-! ### Fields -/

/-- A number whose text can be read: the sign comes first. -/
theorem signsFirst_of_reads {k : Nat} {i w : Int} (hk : 1 ≤ k) (h : Spec.SignedDecimal (fmtZeroStr k (fmtInt i)) w) :
    0 ≤ i ∨ (2 ≤ k ∧ 10 ^ (k - 2) ≤ -i) := by
  by_contra hc
  obtain ⟨n, rfl⟩ : ∃ n : Nat, i = Int.negSucc n := by
    cases i with
    | ofNat n => exact absurd (Or.inl (Int.natCast_nonneg n)) hc
    | negSucc n => exact ⟨n, rfl⟩
  have e0 : -(Int.negSucc n) = ((n + 1 : Nat) : Int) := by rw [Int.negSucc_eq]; omega
  rw [e0] at hc
  have hfmt : fmtInt (Int.negSucc n) = 45 :: fmtNat (n + 1) := rfl
  rw [fmtZeroStr_ascii (ascii_fmtInt _), hfmt, List.length_cons, show (fmtNat (n + 1)).length = numDigits (n + 1) from length_decDigits _ _] at h
  obtain ⟨ds, m, hne, hd, hs⟩ := h
  rw [spec_decimal_iff] at hd
  have hmem : (45 : UInt8) ∈ List.replicate (k - (numDigits (n + 1) + 1)) 48 ++ (45 :: fmtNat (n + 1)).take k := by
    obtain ⟨j, rfl⟩ : ∃ j, k = j + 1 := ⟨k - 1, by omega⟩
    simp
  rcases hs with ⟨hs, -⟩ | ⟨hs, -⟩ | ⟨hs, -⟩
  · rw [hs] at hmem
    exact absurd (hd.1 45 hmem) (by decide)
  · have h1 := congrArg List.head? hs
    by_cases hz : k - (numDigits (n + 1) + 1) = 0
    · rw [hz] at h1
      obtain ⟨j, rfl⟩ : ∃ j, k = j + 1 := ⟨k - 1, by omega⟩
      simp at h1
    · obtain ⟨j, hj⟩ : ∃ j, k - (numDigits (n + 1) + 1) = j + 1 := ⟨k - (numDigits (n + 1) + 1) - 1, by omega⟩
      rw [hj] at h1
      simp [List.replicate_succ] at h1
  · by_cases hz : k - (numDigits (n + 1) + 1) = 0
    · by_cases h2 : 2 ≤ k
      · apply hc
        refine .inr ⟨h2, ?_⟩
        by_cases hlt : n + 1 < 10 ^ (k - 2)
        · by_cases h3 : k = 2
          · subst h3; simp at hlt
          · have := (numDigits_le_iff (show 0 < k - 2 by omega)).2 hlt
            omega
        · have : 10 ^ (k - 2) ≤ n + 1 := by omega
          exact_mod_cast this
      · have : k = 1 := by omega
        subst this
        rw [hz] at hs
        simp at hs
        exact hne hs
    · obtain ⟨j, hj⟩ : ∃ j, k - (numDigits (n + 1) + 1) = j + 1 := ⟨k - (numDigits (n + 1) + 1) - 1, by omega⟩
      rw [hj] at hs
      simp [List.replicate_succ] at hs

/-- A value that was read and whose text can be read fits. -/
theorem fits_of_again {e : Field} {f : F} {data : Bytes} {v w : Val} (hw : Spec.WidthOk e = true)
    (ho : ¬ (e.omitted = true ∧ v = .int 0)) (hd : data.length = e.len) (hv : isValidType e f data = none)
    (hp : parseValue e data = .ok v) (hv' : isValidType e f (toStr e (some v)) = none)
    (hp' : parseValue e (toStr e (some v)) = .ok w) : Spec.Fits e v := by
  have hs : toStr e (some v) = valText e v := toStr_some ho
  rw [hs] at hv' hp'
  refine fits_of_parse hw hd hv hp ?_ ?_
  · rintro ht i rfl
    obtain ⟨j, -, h1, -⟩ := (reads_numeric_iff f ht).1 ⟨hv', hp'⟩
    simp only [valText, ht] at h1
    refine signsFirst_of_reads ?_ h1
    simpa [Spec.WidthOk, ht] using hw
  · rintro hr ht rfl
    have hz : valText e (.time Spec.noTime) = List.replicate e.len 48 := by
      rcases ht with ht | ht <;>
        (simp only [valText, ht]; rw [if_pos (show Spec.noTime.isZero = true from by decide)])
    rw [hz] at hv'
    have : requiredCheck e f (List.replicate e.len 48) = some (.required f) := by
      have h1 : validFilledString (List.replicate e.len 48) = true := by
        simp [validFilledString, allByte]
      rcases ht with ht | ht <;> simp [requiredCheck, hr, ht, h1]
    simp [isValidType, this] at hv'

/-- A value that was read is written in the width of its field. -/
theorem sized_of_parse {e : Field} {f : F} {data : Bytes} {v : Val} (hw : Spec.WidthOk e = true)
    (hd : data.length = e.len) (hv : isValidType e f data = none) (hp : parseValue e data = .ok v) :
    Spec.Sized e v := by
  by_cases h1 : e.typ = .numeric
  · obtain ⟨i, rfl, -⟩ := (reads_numeric_iff f h1).1 ⟨hv, hp⟩
    trivial
  · by_cases h2 : e.typ = .date
    · simp only [parseValue, h2] at hp
      obtain ⟨t, h3, rfl⟩ := except_map_ok' hp
      exact (timeFromString_date_plain h3).1
    · by_cases h3 : e.typ = .timestamp
      · simp only [parseValue, h3] at hp
        obtain ⟨t, h3, rfl⟩ := except_map_ok' hp
        exact timeFromString_timestamp_plain h3
      · exact sized_of_fits (fits_of_parse hw hd hv hp (fun h => absurd h h1)
          (fun _ h => by rcases h with h | h <;> contradiction))

/-! ### Field lists -/

theorem Layout.widthAll_of_accepted (h : Layout fmt decl L) {fs : Fields} (ht : fs.Typed decl)
    (ha : Accepted fmt fs) : WidthAll fmt fs := by
  intro p hp hb e he
  obtain ⟨d, hd, hk⟩ := ht.mem (f := p.1) (v := p.2) hp
  obtain ⟨h1, h2, -⟩ := h.row hd he
  have ho := (h.main.2.2 (p.1, e) (h.mem_main he hb)).2.2
  obtain ⟨e', data, g1, g2, g3, g4⟩ := ha p hp hb
  rw [lookup_of_mem h.names he] at g1
  cases g1
  exact sized_length h1 hk h2 (sized_of_parse h1 g2 g3 g4) (by simp only at ho; simp [ho])

theorem Layout.slot_of_width (h : Layout fmt decl L) {fs : Fields} (ht : fs.Typed decl)
    (hw : WidthAll fmt fs) (pre rest : Bytes) {f : F} {v : Val} (hp : (f, v) ∈ fs)
    (hb : f ≠ .BlockDescriptorWord) {e : Field} (he : (f, e) ∈ fmt) :
    ((pre ++ mainText fmt fs ++ rest).drop (pre.length + e.start)).take e.len = toStr e (some v) := by
  obtain ⟨-, -, h4⟩ := (rowsText_contig h.main.2.1 (h.widths hw)).2 _ (h.mem_main he hb)
  simp only at h4
  have hget : fs.get f = some v := Fields.get_of_mem (by rw [ht.names]; exact h.structNames) hp
  rw [← List.drop_drop, List.append_assoc, List.drop_left, ← hget]
  simpa [mainText] using h4 rest

/-- Values that were read and whose text can be read fit. -/
theorem Layout.fits_of_again (h : Layout fmt decl L) {fs fs' : Fields} (ht : fs.Typed decl) (ht' : fs'.Typed decl)
    (ha : Accepted fmt fs) {pre rest : Bytes}
    (hs : SlotsOk fmt (pre ++ mainText fmt fs ++ rest) pre.length (noBdw fs')) : Spec.FitsAll fmt fs := by
  intro p hp hb e he
  obtain ⟨d, hd⟩ := mem_decl_of_typed ht hp
  have hw := h.widthAll_of_accepted ht ha
  have hm : p.1 ∈ fs'.map Prod.fst := by
    rw [ht'.names, ← ht.names]; exact List.mem_map_of_mem hp
  obtain ⟨⟨f, w⟩, hq, hf⟩ := List.mem_map.1 hm
  simp only at hf
  subst hf
  obtain ⟨-, e', h1, -, h3, h4⟩ := hs _ (mem_noBdw hb hq)
  rw [lookup_of_mem h.names he] at h1
  cases h1
  rw [Nat.add_comm, h.slot_of_width ht hw pre rest hp hb he] at h3 h4
  obtain ⟨e', data, g1, g2, g3, g4⟩ := ha p hp hb
  rw [lookup_of_mem h.names he] at g1
  cases g1
  exact Metro2.fits_of_again (h.row hd he).1 (by have ho := (h.main.2.2 (p.1, e) (h.mem_main he hb)).2.2; simp only at ho; simp [ho]) g2 g3 g4 h3 h4

theorem Layout.regular_of_fits (h : Layout fmt decl L) {fs : Fields}
    (hf : ∀ p ∈ fs, p.1 ≠ .BlockDescriptorWord → ∀ e, (p.1, e) ∈ fmt → Spec.Fits e p.2)
    (hb : ∀ p ∈ fs, p.1 = .BlockDescriptorWord → ∀ i, p.2 = .int i → 0 ≤ i) : Spec.Regular fmt fs := by
  constructor
  · rintro ⟨f, v⟩ hp e he htyp i rfl
    by_cases hf' : f = .BlockDescriptorWord
    · exact .inl (hb _ hp hf' i rfl)
    · have := hf _ hp hf' e he
      simp only [Spec.Fits, htyp] at this
      rcases this.1 with h0 | ⟨h2, h3, -⟩
      · exact .inl h0.1
      · exact .inr ⟨h2, h3⟩
  · rintro ⟨f, v⟩ hp e he hreq htyp rfl
    by_cases hf' : f = .BlockDescriptorWord
    · subst hf'
      have hm : (F.BlockDescriptorWord, e) ∈ bdwRows fmt := by
        simp [bdwRows, he]
      exact (h.bdw _ hm).2.2.2.1 hreq
    · have := hf _ hp hf' e he
      rcases htyp with htyp | htyp <;> simp only [Spec.Fits, htyp] at this
      · exact this.2.2 hreq rfl
      · exact this.2 hreq rfl

/-! ### Segments -/

theorem seg_text_main (s : Seg) : s.string = mainText s.kind.format s.fields := by
  rw [Seg.string, (layout_segment s.kind).text, bdwText, seg_noBdwRow]
  rfl

theorem seg_fits_of_again {k : SegKind} {s t : Seg} (hk : s.kind = k) (ht : s.fields.Typed k.struct)
    (ha : Accepted k.format s.fields) {rest : Bytes} {isVar : Bool} {n : Nat}
    (h : (Seg.new k).parse (s.string ++ rest) isVar = (t, .ok n)) : Spec.FitsAll k.format s.fields := by
  have hs := (seg_parse_safe (s := Seg.new k) (Seg.new_typed k) (s.string ++ rest) isVar).2.1
  rw [h] at hs
  obtain ⟨-, -, -, h4⟩ := seg_parse_ok h
  simp only [Seg.new_kind] at h4 hs
  have hb : ∀ p ∈ (Seg.new k).fields, p.1 ≠ .BlockDescriptorWord := by
    intro p hp
    obtain ⟨d, hd⟩ := mem_decl_of_typed (Seg.new_typed k) hp
    exact seg_noBdw k _ hd
  have hsl := slots_noBdw (parseLoop_inv hb h4)
  subst hk
  rw [seg_text_main, ← List.nil_append (mainText _ _)] at hsl
  exact (layout_segment s.kind).fits_of_again ht hs ha hsl

/-- The text of a segment that was read starts with its identifier. -/
theorem seg_read_ident {k : SegKind} {s : Seg} (h : SegRead k s) : s.string.take 2 = k.ident := by
  obtain ⟨rfl, ht, ha, hi, -⟩ := h
  have hrow : (F.SegmentIdentifier, (⟨0, 2, .alphanumeric, false, false, .required⟩ : Field)) ∈ s.kind.format := by
    cases s.kind <;> decide +kernel
  have := (layout_segment s.kind).slot_of_width ht ((layout_segment s.kind).widthAll_of_accepted ht ha) [] [] hi
    (by simp) hrow
  simp only [List.nil_append, List.append_nil, List.length_nil, Nat.zero_add, List.drop_zero] at this
  rw [seg_text_main, this]
  cases s.kind <;> decide +kernel

/-- Segments that were read and whose text can be read are well-formed. -/
theorem readSegs_again {isVar : Bool} {rest : Bytes} (l : List Seg) :
    ∀ (fuel : Nat) (g g' : Segs) (off n : Nat), (∀ s ∈ l, SegRead s.kind s) →
    readSegs isVar fuel g off ((l.map Seg.string).flatten ++ rest) = (g', .ok n) →
    ∀ s ∈ l, Spec.SegmentOk s.kind s := by
  induction l with
  | nil => intro _ _ _ _ _ _ _ s hs; cases hs
  | cons s l ih =>
    intro fuel g g' off n hl h
    cases fuel with
    | zero => simp [readSegs] at h
    | succ fuel =>
      have hs := hl s List.mem_cons_self
      have hlen := seg_string_length rfl ((layout_segment s.kind).widthAll_of_accepted hs.typed hs.accepted)
      have hgt := s.kind.length_gt
      rw [List.map_cons, List.flatten_cons, List.append_assoc] at h
      rw [readSegs_succ, if_pos (by rw [List.length_append]; omega)] at h
      rw [List.take_append_of_le_length (by omega), seg_read_ident hs] at h
      simp only [segKindOfIdent_ident] at h
      have hok : Spec.FitsAll s.kind.format s.fields := by
        generalize hq : (Seg.new s.kind).parse (s.string ++ ((l.map Seg.string).flatten ++ rest)) isVar = q at h
        obtain ⟨t, x⟩ := q
        cases x with
        | error err => simp at h
        | ok m => exact seg_fits_of_again rfl hs.typed hs.accepted hq
      have hsok : Spec.SegmentOk s.kind s :=
        ⟨rfl, hs.typed, hok, by rw [segmentIdent_eq]; exact hs.ident, hs.valid⟩
      rw [seg_parse_string (Seg.new_kind _) (Seg.new_typed _) hs.typed hok] at h
      simp only [Segs.add, hs.valid] at h
      have hd : (s.string ++ ((l.map Seg.string).flatten ++ rest)).drop s.kind.length =
          (l.map Seg.string).flatten ++ rest := by
        rw [← hlen, List.drop_left]
      rw [hd] at h
      intro t ht
      rcases List.mem_cons.1 ht with rfl | ht
      · exact hsok
      · exact ih _ _ _ _ _ (fun t ht => hl t (List.mem_cons_of_mem _ ht)) h t ht

theorem SegsAll.mem_list {P : SegKind → Seg → Prop} (hP : ∀ k s, P k s → s.kind = k) {g : Segs} (h : SegsAll P g) :
    ∀ s ∈ g.list, P s.kind s := by
  intro s hs
  have key : ∀ {k}, P k s → P s.kind s := fun {k} h => by
    have := hP _ _ h; subst this; exact h
  simp only [Segs.list, List.mem_append, Option.mem_toList] at hs
  rcases hs with ((((((hs | hs) | hs) | hs) | hs) | hs) | hs) | hs
  · exact key (h.j1 s hs)
  · exact key (h.j2 s hs)
  · exact key (h.k1 s hs)
  · exact key (h.k2 s hs)
  · exact key (h.k3 s hs)
  · exact key (h.k4 s hs)
  · exact key (h.l1 s hs)
  · exact key (h.n1 s hs)

theorem mem_list_of_holds {g : Segs} {s : Seg} (h : Spec.Holds g s) : s ∈ g.list := by
  simp only [Segs.list, List.mem_append, Option.mem_toList]
  rcases h with h | h | h | h | h | h | h | h <;> simp [h]

theorem segs_again {isVar : Bool} {rest : Bytes} {g g' : Segs} {n : Nat} (hg : SegsAll SegRead g)
    (h : readApplicableSegments {} (g.string ++ rest) isVar = (g', .ok n)) : Spec.SegsOk g := by
  have := readSegs_again g.list _ _ _ _ _ (hg.mem_list fun _ _ h => h.kind) h
  exact hg.ok fun k s hs hh => by have := this s (mem_list_of_holds hh); rwa [hs.kind] at this

/-! ### Records -/

theorem header_again {enc : Enc} {fs fs' old : Fields} {isVar : Bool} {n : Int} (ho : old.Typed headerRecordStruct)
    (ht : fs.Typed headerRecordStruct) (ha : Accepted enc.headerFormat fs)
    (hb : if isVar = true ∨ enc = .packed then Spec.bdw fs ≠ 0 else Spec.bdw fs = 0)
    (h : parseHeader enc old (Record.header enc fs).string isVar = (fs', .ok n)) :
    Spec.FitsAll enc.headerFormat fs := by
  obtain ⟨h1, h2⟩ := header_slots ho h
  rw [Record.string, padTo, (layout_header enc).text] at h2
  have : Spec.readShift isVar (.header enc old) = (bdwText enc.headerFormat fs).length := by
    rw [(blocked_header enc).bdwText_len ht]
    cases enc <;> cases isVar <;> simp_all [Spec.readShift]
  rw [this] at h2
  exact (layout_header enc).fits_of_again ht h1 ha h2

theorem trailer_again {enc : Enc} {fs fs' old : Fields} {isVar : Bool} {n : Int} (ho : old.Typed trailerRecordStruct)
    (ht : fs.Typed trailerRecordStruct) (ha : Accepted enc.trailerFormat fs)
    (h : parseTrailer enc old (Record.trailer enc fs).string isVar = (fs', .ok n)) :
    Spec.FitsAll enc.trailerFormat fs := by
  obtain ⟨h1, h2⟩ := trailer_slots ho h
  have hbt : bdwText enc.trailerFormat fs = [] := by rw [bdwText, trailer_noBdwRow]; rfl
  rw [Record.string, padTo, (layout_trailer enc).text, hbt] at h2
  exact (layout_trailer enc).fits_of_again ht h1 ha (pre := []) (rest := _) h2

theorem baseCharacter_again {fs old : Fields} {g : Segs} {isVar : Bool} {n : Int} {q : Fields × Segs}
    (ho : old.Typed baseSegmentStruct) (hold : old.int .BlockDescriptorWord = 0)
    (ht : fs.Typed baseSegmentStruct) (ha : Accepted baseSegmentCharacterFormat fs) (hg : SegsAll SegRead g)
    (hb : if isVar then 0 < Spec.bdw fs ∧ Spec.bdw fs ≤ 9999 else Spec.bdw fs = 0)
    (h : parseBaseCharacter old {} (Record.base .character fs g).string isVar = (q, .ok n)) :
    Spec.FitsAll baseSegmentCharacterFormat fs ∧ Spec.SegsOk g := by
  obtain ⟨fs', g'⟩ := q
  obtain ⟨h1, h2⟩ := baseCharacter_slots ho h
  have hfit : Spec.FitsAll baseSegmentCharacterFormat fs := by
    rw [Record.string, padTo, (layout_base .character).text] at h2
    have : (if isVar then 4 else 0) = (bdwText Enc.character.baseFormat fs).length := by
      rw [(blocked_base .character).bdwText_len ht]
      cases isVar with
      | true => simp only [if_true] at hb ⊢; rw [if_neg (by omega)]
      | false => simp only [Bool.false_eq_true, if_false] at hb ⊢; rw [if_pos hb]
    rw [this, List.append_assoc] at h2
    exact (layout_base .character).fits_of_again ht h1 ha h2
  refine ⟨hfit, ?_⟩
  have hl := base_length (enc := .character) ht ((layout_base .character).widthAll_of_fits ht hfit)
  rw [Record.string, padTo, parseBaseCharacter_eq, List.append_assoc] at h
  split at h
  · simp at h
  · generalize List.replicate _ (32 : UInt8) = pad at h
    have hloop : parseLoop baseSegmentCharacterFormat (if isVar then .accept else .skip) true
        (fieldsString Enc.character.baseFormat fs ++ (g.string ++ pad)) 0 old = (fs, none) := by
      cases isVar with
      | true =>
        simp only [if_true] at hb ⊢
        exact (layout_base .character).parse_accept (blocked_base .character) ht ho hfit hb.1 hb.2 true (g.string ++ pad)
      | false =>
        simp only [Bool.false_eq_true, if_false] at hb ⊢
        exact (layout_base .character).parse_skip (blocked_base .character) ht ho hfit hb hold true (g.string ++ pad)
    rw [hloop] at h
    simp only at h
    have hoff : (if fs.int .BlockDescriptorWord > 0 then 426 + 4 else 426) =
        (fieldsString Enc.character.baseFormat fs).length := by
      rw [hl, Spec.fixedLength, Spec.recordLength]
      have hbd : Spec.bdw fs = fs.int .BlockDescriptorWord := rfl
      cases isVar with
      | true => simp only [if_true] at hb; rw [if_pos (by omega), if_neg (by omega)]
      | false => simp only [Bool.false_eq_true, if_false] at hb; rw [if_neg (by omega), if_pos hb]
    rw [hoff, List.drop_left] at h
    split at h
    · simp at h
    · generalize hq : readApplicableSegments {} (g.string ++ pad) isVar = q at h
      obtain ⟨g2, x⟩ := q
      cases x with
      | error err => simp at h
      | ok m => exact segs_again hg hq

theorem basePacked_again {fs old : Fields} {g : Segs} {isVar : Bool} {n : Int} {q : Fields × Segs}
    (ho : old.Typed baseSegmentStruct)
    (ht : fs.Typed baseSegmentStruct) (ha : Accepted baseSegmentPackedFormat fs) (hg : SegsAll SegRead g)
    (hb : 0 < Spec.bdw fs ∧ Spec.bdw fs ≤ 65535)
    (h : parseBasePacked old {} (Record.base .packed fs g).string isVar = (q, .ok n)) :
    Spec.FitsAll baseSegmentPackedFormat fs ∧ Spec.SegsOk g := by
  obtain ⟨fs', g'⟩ := q
  have hv := (parseBasePacked_inv ho h).2.2.2.1
  subst hv
  obtain ⟨h1, h2⟩ := basePacked_slots ho h
  have hfit : Spec.FitsAll baseSegmentPackedFormat fs := by
    rw [Record.string, padTo, (layout_base .packed).text] at h2
    have : 4 = (bdwText Enc.packed.baseFormat fs).length := by
      rw [(blocked_base .packed).bdwText_len ht, if_neg (by omega)]
    rw [this, List.append_assoc] at h2
    exact (layout_base .packed).fits_of_again ht h1 ha h2
  refine ⟨hfit, ?_⟩
  have hl := base_length (enc := .packed) ht ((layout_base .packed).widthAll_of_fits ht hfit)
  rw [Record.string, padTo, parseBasePacked_eq, List.append_assoc] at h
  split at h
  · simp at h
  · generalize List.replicate _ (32 : UInt8) = pad at h
    have hloop := (layout_base .packed).parse_accept (blocked_base .packed) ht ho hfit hb.1 hb.2 true (g.string ++ pad)
    simp only [if_true] at h
    rw [show Enc.packed.baseFormat = baseSegmentPackedFormat from rfl] at hloop h hl
    rw [hloop] at h
    simp only at h
    have hoff : 366 + 4 = (fieldsString baseSegmentPackedFormat fs).length := by
      rw [hl, Spec.fixedLength, Spec.recordLength, if_neg (by omega)]
    rw [hoff, List.drop_left] at h
    split at h
    · simp at h
    · generalize hq : readApplicableSegments {} (g.string ++ pad) true = q at h
      obtain ⟨g2, x⟩ := q
      cases x with
      | error err => simp at h
      | ok m => exact segs_again hg hq

/-! ### Block descriptors -/

theorem header_bdw_read {enc : Enc} {fs fs' : Fields} {rec : Bytes} {isVar : Bool} {n : Int}
    (ht : fs.Typed headerRecordStruct) (hv : isVar = true ∨ enc = .packed)
    (h : parseHeader enc fs rec isVar = (fs', .ok n)) :
    parseValue (bdwField enc) (rec.take 4) = .ok (.int (Spec.bdw fs')) ∧
      (enc = .packed → isVariableLength rec = true) := by
  unfold parseHeader at h
  split at h
  · simp at h
  · generalize hr : parseLoop enc.headerFormat (headerPolicy enc rec isVar) true rec 0 fs = r at h
    obtain ⟨fs2, o⟩ := r
    cases o with
    | some err => simp at h
    | none =>
      simp only [Prod.mk.injEq] at h
      obtain ⟨rfl, -⟩ := h
      obtain ⟨h1, -, i, h3, h4, -⟩ := parseLoop_inv_bdw (blocked_header enc) ht hr
      have ha : headerPolicy enc rec isVar = .accept ∧ (enc = .packed → isVariableLength rec = true) := by
        cases enc with
        | character =>
          rcases hv with rfl | hv
          · exact ⟨rfl, fun h => by cases h⟩
          · cases hv
        | packed =>
          cases hq : isVariableLength rec with
          | true => exact ⟨by simp [headerPolicy, hq], fun _ => rfl⟩
          | false => simp [headerPolicy, hq] at h1
      rw [if_pos ha.1] at h4
      rw [h3, Spec.bdw, h4]
      exact ⟨rfl, ha.2⟩

theorem baseCharacter_bdw_read {fs fs' : Fields} {g g' : Segs} {rec : Bytes} {n : Int}
    (ht : fs.Typed baseSegmentStruct) (h : parseBaseCharacter fs g rec true = ((fs', g'), .ok n)) :
    parseValue (bdwField .character) (rec.take 4) = .ok (.int (Spec.bdw fs')) := by
  rw [parseBaseCharacter_eq] at h
  split at h
  · simp at h
  · generalize hr : parseLoop baseSegmentCharacterFormat (if true then .accept else .skip) true rec 0 fs = r at h
    obtain ⟨fs2, o⟩ := r
    cases o with
    | some err => simp at h
    | none =>
      obtain ⟨-, -, i, h3, h4, -⟩ := parseLoop_inv_bdw (blocked_base .character) ht hr
      have h6 : fs2 = fs' := by
        simp only at h
        generalize (if fs2.int .BlockDescriptorWord > 0 then 426 + 4 else 426) = off at h
        split at h
        · simp at h
        · generalize readApplicableSegments _ (List.drop off rec) true = q at h
          obtain ⟨g2, x⟩ := q
          cases x with
          | error err => simp at h
          | ok m =>
            simp only at h
            split at h
            · simp at h
            · split at h
              · simp at h
              · simp only [Prod.mk.injEq] at h
                exact h.1.1
      subst h6
      simp only [if_true] at h4
      rw [h3, Spec.bdw, h4]

/-- The record descriptor of a character record that was read does not look like a block descriptor of zero. -/
theorem rdw_not_zero {f : F} {data : Bytes} {r : Int} (hd : data.length = 4)
    (hv : isValidType (rdwField .character) f data = none)
    (hp : parseValue (rdwField .character) data = .ok (.int r)) :
    parseValue (bdwField .character) (toStr (rdwField .character) (some (.int r))) ≠ .ok (.int 0) := by
  intro h
  obtain ⟨j, hj, h1, h2, h3, h4⟩ := (reads_numeric_iff f (show (rdwField .character).typ = .numeric from rfl)).1 ⟨hv, hp⟩
  cases hj
  have hs : toStr (rdwField .character) (some (.int r)) = fmtZeroStr 4 (fmtInt r) := rfl
  have hz : Spec.SignedDecimal (fmtZeroStr 4 (fmtInt r)) 0 := by
    rw [hs] at h
    simp only [parseValue, bdwField] at h
    split at h
    · next v hv =>
      cases h
      exact (parseInt_ok_iff.1 hv).1
    · cases h
  have hf := fits_of_parse (e := rdwField .character) (f := f) rfl hd hv hp
    (fun _ i hi => by cases hi; exact signsFirst_of_reads (by decide) hz) (fun _ ht => by rcases ht with h | h <;> cases h)
  have hrt := (roundtrip_numeric f (start := 0) (len := 4) (zf := false) (om := false) (req := .required) rfl hf (by simp)).2.2
  have : parseValue (bdwField .character) (toStr (rdwField .character) (some (.int r))) = .ok (.int r) := hrt
  rw [this] at h
  cases h
  exact h4 rfl rfl

/-- The text of a record without block descriptor starts with the record descriptor. -/
theorem Layout.rdw_first {enc : Enc} (h : Layout fmt decl L) (hB : Blocked enc fmt decl) {fs : Fields}
    (ht : fs.Typed decl) (hw : WidthAll fmt fs) (h0 : Spec.bdw fs = 0) (rest : Bytes) :
    (fieldsString fmt fs ++ rest).take 4 = toStr (rdwField enc) (some (.int (Spec.rdw fs))) := by
  obtain ⟨b, r, fr, hfs, -, hr, -⟩ := hB.shape ht
  have hm : (F.RecordDescriptorWord, Val.int r) ∈ fs := by rw [hfs]; simp
  have := h.slot_of_width ht hw [] rest hm (by simp) (lookup_mem hB.rdw)
  have e1 : (rdwField enc).start = 0 := by cases enc <;> rfl
  have e2 : (rdwField enc).len = 4 := by cases enc <;> rfl
  rw [e1, e2] at this
  simp only [List.length_nil, Nat.add_zero, List.drop_zero, List.nil_append] at this
  rw [h.text, hB.bdwText ht, show fs.int .BlockDescriptorWord = 0 from h0, bdwText_zero, List.nil_append, this,
    show Spec.rdw fs = r from hr]

theorem Layout.bdw_not_zero (h : Layout fmt decl L) (hB : Blocked .character fmt decl) {fs : Fields}
    (ht : fs.Typed decl) (ha : Accepted fmt fs) (rest : Bytes)
    (hr : parseValue (bdwField .character) ((fieldsString fmt fs ++ rest).take 4) = .ok (.int (Spec.bdw fs))) :
    Spec.bdw fs ≠ 0 := by
  intro h0
  rw [h.rdw_first hB ht (h.widthAll_of_accepted ht ha) h0, h0] at hr
  obtain ⟨b, r, fr, hfs, -, hir, -⟩ := hB.shape ht
  have hm : (F.RecordDescriptorWord, Val.int r) ∈ fs := by rw [hfs]; simp
  obtain ⟨e, data, g1, g2, g3, g4⟩ := ha _ hm (by simp)
  rw [hB.rdw] at g1
  cases g1
  rw [show Spec.rdw fs = r from hir] at hr
  exact rdw_not_zero (by simpa [rdwField] using g2) g3 g4 hr

/-- A packed header that was read from its own text has a block descriptor. -/
theorem packedHeader_bdw_not_zero {fs old : Fields} {isVar : Bool} {n : Int} (ho : old.Typed headerRecordStruct)
    (h : parseHeader .packed old (Record.header .packed fs).string isVar = (fs, .ok n)) : Spec.bdw fs ≠ 0 := by
  intro h0
  obtain ⟨ht, ha, -, hid, -⟩ := parseHeader_inv ho h
  obtain ⟨-, hvar⟩ := header_bdw_read ho (.inr rfl) h
  obtain ⟨id, hm, hu⟩ := hid rfl
  have hw := (layout_header .packed).widthAll_of_accepted ht ha
  have hrow : (F.RecordIdentifier, (⟨4, 6, .alphanumeric, false, false, .required⟩ : Field)) ∈ Enc.packed.headerFormat := by
    decide +kernel
  have hlen : id.length = 6 := by
    have := congrArg List.length hu
    rw [toUpper, List.length_map] at this
    exact this
  have hasc : ∀ c ∈ id, c < 128 := by
    intro c hc
    have h1 : upperByte c ∈ toUpper id := List.mem_map_of_mem hc
    rw [hu] at h1
    have : ∀ n : Fin 256, upperByte (UInt8.ofFin n) ∈ b! "HEADER" → UInt8.ofFin n < 128 := by decide +kernel
    exact this c.toFin h1
  have htext : toStr (⟨4, 6, .alphanumeric, false, false, .required⟩ : Field) (some (.str id)) = id := by
    rw [toStr_some (by simp)]
    simp only [valText]
    rw [fmtLeftStr_ascii hasc, ← hlen]
    simp
  have hv := hvar rfl
  unfold isVariableLength at hv
  simp only [Bool.and_eq_true, decide_eq_true_eq] at hv
  have hu2 := hv.2
  rw [Record.string, padTo, (layout_header .packed).text, (blocked_header .packed).bdwText ht,
    show fs.int .BlockDescriptorWord = 0 from h0, bdwText_zero, List.nil_append] at hu2
  generalize List.replicate _ (32 : UInt8) = pad at hu2
  have hs := (layout_header .packed).slot_of_width ht hw [] pad hm (by simp) hrow
  simp only [List.length_nil, Nat.zero_add, List.nil_append] at hs
  rw [htext] at hs
  generalize mainText Enc.packed.headerFormat fs ++ pad = T at hs hu2
  -- the bytes 8 and 9 are both the beginning and the end of the word
  have e1 : ((T.drop 8).take 2) = id.drop 4 := by
    rw [← hs, List.drop_take, List.drop_drop]
  have e2 : toUpper ((T.drop 8).take 2) = b! "HE" := by
    have := congrArg (List.take 2) hu2
    rw [toUpper, ← List.map_take, List.take_take] at this
    exact this
  have e3 : toUpper (id.drop 4) = b! "ER" := by
    have := congrArg (List.drop 4) hu
    rw [toUpper, ← List.map_drop] at this
    exact this
  rw [e1, e3] at e2
  exact absurd e2 (by decide)

end Metro2
