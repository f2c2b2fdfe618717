import Verif.Lemmas.Exact
import Verif.Spec.Exact
import Verif.Props.Reread
import Verif.Props.Fields
import Verif.Props.Validate
import Verif.Props.Stream

/-! Exactly which values, segments and records survive being written and read. -/

namespace Metro2

open Samples

theorem upper_header_iff (id : Bytes) : toUpper id = b! "HEADER" ↔ Spec.HeaderWord id := by
  have key : ∀ (l m : Bytes), (∀ d ∈ m, d ∈ b! "HEADER") →
      (toUpper l = m ↔ List.Forall₂ (fun c d => c = d ∨ c = d + 32) l m) := by
    have hc : ∀ n : Fin 256, ∀ d ∈ b! "HEADER", (upperByte (UInt8.ofFin n) = d ↔ UInt8.ofFin n = d ∨ UInt8.ofFin n = d + 32) := by
      decide +kernel
    intro l
    induction l with
    | nil => intro m _; cases m <;> simp [toUpper]
    | cons c l ih =>
      intro m hm
      cases m with
      | nil => simp [toUpper]
      | cons d m =>
        have h1 := ih m fun d hd => hm d (List.mem_cons_of_mem _ hd)
        have h2 := hc c.toFin d (hm d List.mem_cons_self)
        simp only [toUpper, List.map_cons, List.cons.injEq, List.forall₂_cons] at h1 ⊢
        rw [h1]
        exact and_congr_left' h2
  exact key id _ (fun d hd => hd)

/-! ### C84 -/

/-- C84, fields: in a field of any type and suitable width, exactly the values that fit are written in the width of the
field and read back. -/
theorem C84_field (e : Field) (f : F) (v : Val) (hw : Spec.WidthOk e = true) (ho : Written e v) :
    ((toStr e (some v)).length = e.len ∧ Reads e f (toStr e (some v)) v) ↔ Spec.Fits e v := by
  constructor
  · rintro ⟨h1, h2, h3⟩
    exact fits_of_again hw (fun h => ho h.1 h.2) h1 h2 h3 h2 h3
  · intro hf
    obtain ⟨h1, h2, h3⟩ := field_roundtrip f hw hf (fun h => ho h)
    exact ⟨h1, h2, h3⟩

/-- Credit limits of -12345678 and -5: the first fills its nine places and survives, the second does not. -/
example : baseSegmentCharacterFormat.lookup .CreditLimit = some ⟨83, 9, .numeric, true, false, .applicable⟩ ∧
    Spec.WidthOk ⟨83, 9, .numeric, true, false, .applicable⟩ = true ∧
    Written ⟨83, 9, .numeric, true, false, .applicable⟩ (.int (-5)) ∧
    Spec.Fits ⟨83, 9, .numeric, true, false, .applicable⟩ (.int (-12345678)) ∧
    ¬ Spec.Fits ⟨83, 9, .numeric, true, false, .applicable⟩ (.int (-5)) ∧
    toStr ⟨83, 9, .numeric, true, false, .applicable⟩ (some (.int (-12345678))) = b! "-12345678" ∧
    toStr ⟨83, 9, .numeric, true, false, .applicable⟩ (some (.int (-5))) = b! "0000000-5" := by
  refine ⟨by decide +kernel, by decide, (by intro h; cases h), fits_of_fitsB (by decide +kernel), ?_, by decide +kernel, by decide +kernel⟩
  intro h
  have h := h.1
  simp only [Spec.FitsNumber] at h
  omega

/-- C84, segments. -/
theorem C84_segment (s : Seg) (ht : s.fields.Typed s.kind.struct) (isVar : Bool) (n : Nat) :
    (Seg.new s.kind).parse s.string isVar = (s, .ok n) ↔
      Spec.FitsAll s.kind.format s.fields ∧ n = Spec.segmentLength s.kind := by
  rw [segmentLength_eq]
  constructor
  · intro h
    obtain ⟨h1, -, -, h4, h5, -⟩ := seg_parse_read h
    rw [← List.append_nil s.string] at h
    exact ⟨seg_fits_of_again rfl h4 h5 h, h1⟩
  · rintro ⟨hf, rfl⟩
    have := seg_parse_string (s := s) (old := Seg.new s.kind) rfl (Seg.new_typed _) ht hf isVar []
    rwa [List.append_nil] at this

/-- A K1 segment that fits, and one with a name that is a character too long: it is written, but not read back. -/
example : k1.fields.Typed k1.kind.struct ∧ (Seg.new .k1).parse k1.string true = (k1, .ok 34) ∧
    ∃ s : Seg, s.kind = .k1 ∧ s.fields.Typed SegKind.k1.struct ∧ (Seg.new .k1).parse s.string true ≠ (s, .ok 34) :=
  ⟨typed_of_typedB (by decide +kernel), by decide +kernel,
    ⟨.k1, k1.fields.set .OriginalCreditorName (.str (List.replicate 31 65))⟩, rfl,
    typed_of_typedB (by decide +kernel), by decide +kernel⟩

/-- C84, headers with a block descriptor that is not negative. -/
theorem C84_header (enc : Enc) (fs : Fields) (ht : fs.Typed headerRecordStruct) (h0 : 0 ≤ Spec.bdw fs) (isVar : Bool)
    (n : Int) :
    (newHeader enc).parse (Record.header enc fs).string isVar = (.header enc fs, .ok n) ↔
      Spec.SoundHeader enc isVar fs ∧ n = if Spec.bdw fs = 0 then Spec.rdw fs else Spec.bdw fs := by
  have hpar : (newHeader enc).parse (Record.header enc fs).string isVar = (.header enc fs, .ok n) ↔
      parseHeader enc (newHeader enc).fields (Record.header enc fs).string isVar = (fs, .ok n) := by
    simp only [newHeader, Record.parse, Record.fields]
    generalize parseHeader enc _ _ isVar = q
    obtain ⟨a, b⟩ := q
    simp
  rw [hpar]
  constructor
  · intro h
    obtain ⟨-, h2, h3, h4, h5⟩ := parseHeader_inv (newHeader_typed enc) h
    have hbdw : if isVar = true ∨ enc = .packed then 0 < Spec.bdw fs ∧ Spec.bdw fs ≤ wordMax enc else Spec.bdw fs = 0 := by
      split
      · next hv =>
        refine ⟨?_, ?_⟩
        · have hne : Spec.bdw fs ≠ 0 := by
            cases enc with
            | packed => exact packedHeader_bdw_not_zero (newHeader_typed _) h
            | character =>
              have := (header_bdw_read (newHeader_typed .character) hv h).1
              rw [Record.string, padTo] at this
              exact (layout_header .character).bdw_not_zero (blocked_header .character) ht h2 _ this
          omega
        · split at h3
          · exact h3
          · rcases hv with rfl | rfl
            · exact absurd h3.2.1 (by decide)
            · exact absurd h3.1 (by decide)
      · next hv =>
        have hv' : enc = .character ∧ isVar = false := by
          cases enc <;> cases isVar <;> simp_all
        obtain ⟨rfl, rfl⟩ := hv'
        simp only [headerPolicy, Bool.false_eq_true, if_false, reduceCtorEq] at h3
        rw [Spec.bdw, h3.2.2]
        exact newHeader_bdw _
    refine ⟨⟨?_, by rw [wordMax_eq]; exact hbdw, ?_⟩, ?_⟩
    · refine header_again (newHeader_typed enc) ht h2 ?_ h
      split at hbdw <;> simp_all
      omega
    · intro he
      obtain ⟨id, g1, g2⟩ := h4 he
      exact ⟨id, g1, (upper_header_iff id).1 g2⟩
    · rw [h5]
      show (if Spec.bdw fs > 0 then Spec.bdw fs else Spec.rdw fs) = _
      by_cases hz : Spec.bdw fs = 0
      · rw [if_neg (by omega), if_pos hz]
      · rw [if_pos (by omega), if_neg hz]
  · rintro ⟨⟨hf, hb, hid⟩, rfl⟩
    rw [wordMax_eq] at hb
    rw [← List.append_nil (Record.header enc fs).string]
    split at hb
    · next hv =>
      rw [header_variable_parse ht (newHeader_typed _) hf hb.1 hb.2
        (fun he => by obtain ⟨id, g1, g2⟩ := hid he; exact ⟨id, g1, (upper_header_iff id).2 g2⟩) isVar
        (by intro he; rcases hv with h | h; · exact h
            · rw [he] at h; cases h) [], if_neg (by omega)]
      rfl
    · next hv =>
      have hv' : enc = .character ∧ isVar = false := by
        cases enc <;> cases isVar <;> simp_all
      obtain ⟨rfl, rfl⟩ := hv'
      rw [header_fixed_parse ht (newHeader_typed _) hf hb (newHeader_bdw _) [], if_pos hb]
      rfl

/-- A packed header with the identifier in small letters. -/
example : (((header 426 426).set .RecordIdentifier (.str (b! "header"))).Typed headerRecordStruct) ∧
    0 ≤ Spec.bdw ((header 426 426).set .RecordIdentifier (.str (b! "header"))) ∧
    Spec.SoundHeader .packed true ((header 426 426).set .RecordIdentifier (.str (b! "header"))) := by
  refine ⟨typed_of_typedB (by decide +kernel), by decide +kernel,
    fitsAll_of_fitsAllB (layout_header .packed).names (by decide +kernel), by decide +kernel, fun _ =>
    ⟨b! "header", by decide +kernel, ?_⟩⟩
  exact (upper_header_iff _).1 (by decide +kernel)

/-- C84, trailers. -/
theorem C84_trailer (enc : Enc) (fs : Fields) (ht : fs.Typed trailerRecordStruct) (isVar : Bool) (n : Int) :
    (newTrailer enc).parse (Record.trailer enc fs).string isVar = (.trailer enc fs, .ok n) ↔
      Spec.FitsAll enc.trailerFormat fs ∧ n = Spec.rdw fs := by
  have hpar : (newTrailer enc).parse (Record.trailer enc fs).string isVar = (.trailer enc fs, .ok n) ↔
      parseTrailer enc (newTrailer enc).fields (Record.trailer enc fs).string isVar = (fs, .ok n) := by
    simp only [newTrailer, Record.parse, Record.fields]
    generalize parseTrailer enc _ _ isVar = q
    obtain ⟨a, b⟩ := q
    simp
  rw [hpar]
  constructor
  · intro h
    obtain ⟨-, h2, h3⟩ := parseTrailer_inv (newTrailer_typed enc) h
    exact ⟨trailer_again (newTrailer_typed enc) ht h2 h, h3⟩
  · rintro ⟨hf, rfl⟩
    have := trailer_parse ht (newTrailer_typed enc) hf isVar []
    rw [List.append_nil] at this
    exact this

example : (trailer 426).Typed trailerRecordStruct ∧ Spec.FitsAll Enc.character.trailerFormat (trailer 426) :=
  ⟨typed_of_typedB (by decide +kernel), fitsAll_of_fitsAllB (layout_trailer .character).names (by decide +kernel)⟩

/-- C84, data records with a block descriptor that is not negative. -/
theorem C84_data (enc : Enc) (fs : Fields) (g : Segs) (ht : fs.Typed baseSegmentStruct) (h0 : 0 ≤ Spec.bdw fs)
    (isVar : Bool) (n : Int) :
    (newBase enc).parse (Record.base enc fs g).string isVar = (.base enc fs g, .ok n) ↔
      Spec.GoodBase enc isVar fs g ∧ n = Spec.sizeWord isVar fs := by
  have hns : Spec.NoSegment [] := by intro k; cases k <;> decide
  cases enc with
  | character =>
    rw [newBase_parse_character]
    constructor
    · intro h
      obtain ⟨-, h2, h3, h4, h5, h6⟩ := parseBaseCharacter_inv (zeroFields_typed _) h
      have hbdw : if isVar then 0 < Spec.bdw fs ∧ Spec.bdw fs ≤ 9999 else Spec.bdw fs = 0 := by
        cases isVar with
        | true =>
          simp only [if_true] at h4 ⊢
          refine ⟨?_, h4⟩
          have := baseCharacter_bdw_read (zeroFields_typed _) h
          rw [Record.string, padTo, List.append_assoc] at this
          have := (layout_base .character).bdw_not_zero (blocked_base .character) ht h2 _ this
          omega
        | false =>
          simp only [Bool.false_eq_true, if_false] at h4 ⊢
          rw [Spec.bdw, h4]; exact newBase_bdw
      obtain ⟨hf, hg⟩ := baseCharacter_again (zeroFields_typed _) newBase_bdw ht h2 h3 hbdw h
      cases isVar with
      | true =>
        simp only [if_true] at hbdw
        obtain ⟨h7, h8⟩ := h5 hbdw.1
        refine ⟨⟨ht, hf, hg, (fun h => by cases h), by rw [wordMax_eq, if_pos rfl]; exact hbdw, ?_⟩, h7⟩
        rw [Spec.contentLength, Spec.fixedLength, if_neg (by omega), Spec.recordLength]
        rw [h7] at h8
        exact h8
      | false =>
        simp only [Bool.false_eq_true, if_false] at hbdw
        obtain ⟨h7, h8⟩ := h6 hbdw
        refine ⟨⟨ht, hf, hg, (fun h => by cases h), by simpa using hbdw, ?_⟩, h7⟩
        rw [Spec.contentLength, Spec.fixedLength, if_pos hbdw, Spec.recordLength]
        rw [h7] at h8
        exact h8
    · rintro ⟨⟨-, hf, hg, -, hb, hs⟩, rfl⟩
      rw [← List.append_nil (Record.base .character fs g).string]
      cases isVar with
      | true =>
        simp only [if_true] at hb
        rw [Spec.contentLength, Spec.fixedLength, if_neg (by omega), Spec.recordLength] at hs
        exact base_variable_parse ht (zeroFields_typed _) hf hg hb.2 hs [] (fun _ => hns)
      | false =>
        simp only [Bool.false_eq_true, if_false] at hb
        rw [Spec.contentLength, Spec.fixedLength, if_pos hb, Spec.recordLength] at hs
        have hmax : fs.int .RecordDescriptorWord ≤ 65535 := by
          obtain ⟨b, r, fr, hfs, -, hir, -⟩ := (blocked_base .character).shape ht
          have hm : (F.RecordDescriptorWord, Val.int r) ∈ fs := by rw [hfs]; simp
          rw [hir]
          have h : r < 10 ^ 4 := fitsNumber_lt (n := 4) (hf _ hm (by simp) _ (lookup_mem (blocked_base .character).rdw)).1
          omega
        exact base_fixed_parse ht (zeroFields_typed _) hf hg hb newBase_bdw hs [] (fun _ => hns) hmax
  | packed =>
    rw [newBase_parse_packed]
    constructor
    · intro h
      obtain ⟨-, h2, h3, rfl, h5, rfl, h7⟩ := parseBasePacked_inv (zeroFields_typed _) h
      have hpos : 0 < Spec.bdw fs := by
        have : Spec.bdw fs = fs.int .BlockDescriptorWord := rfl
        omega
      obtain ⟨hf, hg⟩ := basePacked_again (zeroFields_typed _) ht h2 h3 ⟨hpos, h5⟩ h
      refine ⟨⟨ht, hf, hg, fun _ => rfl, by rw [wordMax_eq, if_pos rfl]; exact ⟨hpos, h5⟩, ?_⟩, rfl⟩
      rw [Spec.contentLength, Spec.fixedLength, if_neg (by omega), Spec.recordLength]
      exact h7
    · rintro ⟨⟨-, hf, hg, hv, hb, hs⟩, rfl⟩
      have hv := hv rfl
      subst hv
      simp only [if_true] at hb
      rw [Spec.contentLength, Spec.fixedLength, if_neg (by omega), Spec.recordLength] at hs
      rw [← List.append_nil (Record.base .packed fs g).string]
      exact base_packed_parse ht (zeroFields_typed _) hf hg hb.2 hs [] (fun _ => hns)

/-- A data record with all segments and a credit limit of -12345678. -/
example : (base 1200 1196 [(.CreditLimit, .int (-12345678))]).Typed baseSegmentStruct ∧
    0 ≤ Spec.bdw (base 1200 1196 [(.CreditLimit, .int (-12345678))]) ∧
    Spec.GoodBase .character true (base 1200 1196 [(.CreditLimit, .int (-12345678))]) segs :=
  ⟨typed_of_typedB (by decide +kernel), by decide +kernel,
    goodBase_of_B (by decide +kernel) (by decide +kernel) (by decide +kernel) (by decide) (by decide +kernel) (by decide +kernel)⟩

/-! ### C21 -/

/-- C21, exactly: a record that was read with a positive block descriptor, or needs none, can be read again if and only if
it is regular. -/
theorem C21_iff (r0 : Record) (h0 : Spec.New r0) (rec : Bytes) (isVar : Bool) (r : Record) (n : Int)
    (h : r0.parse rec isVar = (r, .ok n))
    (hb : isVar = true ∨ r.enc = .packed → Spec.HasBdw r → 0 < Spec.bdw (Spec.valuesOf r)) :
    (∃ r' n', r0.parse r.string isVar = (r', .ok n')) ↔ Spec.RegularRecord r := by
  refine ⟨?_, fun hr => C21_reread_partial r0 h0 rec isVar r n h hr hb⟩
  rintro ⟨r', n', h'⟩
  have hbz : ∀ {fs : Fields} {decl : List (F × FieldDecl)} {enc : Enc} {fmt : Format}, Blocked enc fmt decl →
      fs.Typed decl → 0 ≤ Spec.bdw fs → ∀ p ∈ fs, p.1 = .BlockDescriptorWord → ∀ i, p.2 = .int i → 0 ≤ i := by
    intro fs decl enc fmt hB ht hz p hp hf i hi
    obtain ⟨b, r, fr, rfl, hbb, -, hfr⟩ := hB.shape ht
    have hbb' : Spec.bdw _ = b := hbb
    rw [hbb'] at hz
    rcases List.mem_cons.1 hp with rfl | hp
    · cases hi; exact hz
    · rcases List.mem_cons.1 hp with rfl | hp
      · cases hf
      · exact absurd hf (hfr p hp).1
  cases h0 with
  | header enc =>
    simp only [newHeader, Record.parse, Prod.mk.injEq] at h h'
    obtain ⟨rfl, h⟩ := h
    obtain ⟨-, h'⟩ := h'
    have hp : parseHeader enc (newHeader enc).fields rec isVar =
        ((parseHeader enc (newHeader enc).fields rec isVar).1, .ok n) := Prod.ext rfl h
    simp only [newHeader, Record.fields] at hp
    generalize (parseHeader enc _ rec isVar).1 = fs at *
    obtain ⟨h1, h2, h3, -, -⟩ := parseHeader_inv (newHeader_typed enc) hp
    have hbdw : if isVar = true ∨ enc = .packed then 0 < Spec.bdw fs else Spec.bdw fs = 0 := by
      split
      · next hv => exact hb hv trivial
      · next hv =>
        have hv' : enc = .character ∧ isVar = false := by
          cases enc <;> cases isVar <;> simp_all
        obtain ⟨rfl, rfl⟩ := hv'
        simp only [headerPolicy, Bool.false_eq_true, if_false, reduceCtorEq] at h3
        rw [Spec.bdw, h3.2.2]
        exact newHeader_bdw _
    have hf := header_again (newHeader_typed enc) h1 h2 (by split at hbdw <;> simp_all; omega) (Prod.ext rfl h')
    have hr := (layout_header enc).regular_of_fits hf (hbz (blocked_header enc) h1 (by split at hbdw <;> omega))
    cases enc <;> exact hr
  | trailer enc =>
    simp only [newTrailer, Record.parse, Prod.mk.injEq] at h h'
    obtain ⟨rfl, h⟩ := h
    obtain ⟨-, h'⟩ := h'
    have hp : parseTrailer enc (newTrailer enc).fields rec isVar =
        ((parseTrailer enc (newTrailer enc).fields rec isVar).1, .ok n) := Prod.ext rfl h
    simp only [newTrailer, Record.fields] at hp
    generalize (parseTrailer enc _ rec isVar).1 = fs at *
    obtain ⟨h1, h2, -⟩ := parseTrailer_inv (newTrailer_typed enc) hp
    have hf := trailer_again (newTrailer_typed enc) h1 h2 (Prod.ext rfl h')
    have hr := (layout_trailer enc).regular_of_fits hf (fun p hp hbd => by
      obtain ⟨d, hd⟩ := mem_decl_of_typed h1 hp
      exact absurd hbd (trailer_noBdw _ hd))
    cases enc <;> exact hr
  | base enc =>
    have hsegs : ∀ {g : Segs}, Spec.SegsOk g → ∀ s, Spec.Holds g s → Spec.Regular s.kind.format s.fields := by
      intro g hg s hs
      have := hg.mem s (mem_list_of_holds hs)
      exact (layout_segment s.kind).regular_of_fits this.fits (fun p hp hbd => by
        obtain ⟨d, hd⟩ := mem_decl_of_typed this.typed hp
        exact absurd hbd (seg_noBdw s.kind _ hd))
    cases enc with
    | character =>
      simp only [newBase, Record.parse, Prod.mk.injEq] at h h'
      obtain ⟨rfl, h⟩ := h
      obtain ⟨-, h'⟩ := h'
      have hp : parseBaseCharacter (zeroFields baseSegmentStruct) {} rec isVar =
        (((parseBaseCharacter (zeroFields baseSegmentStruct) {} rec isVar).1.1,
          (parseBaseCharacter (zeroFields baseSegmentStruct) {} rec isVar).1.2), .ok n) := Prod.ext rfl h
      generalize (parseBaseCharacter (zeroFields baseSegmentStruct) {} rec isVar).1 = q at *
      obtain ⟨fs, g⟩ := q
      obtain ⟨h1, h2, h3, h4, -, -⟩ := parseBaseCharacter_inv (zeroFields_typed _) hp
      have hbdw : if isVar then 0 < Spec.bdw fs ∧ Spec.bdw fs ≤ 9999 else Spec.bdw fs = 0 := by
        cases isVar with
        | true => simp only [if_true] at h4 ⊢; exact ⟨hb (.inl rfl) trivial, h4⟩
        | false => simp only [Bool.false_eq_true, if_false] at h4 ⊢; rw [Spec.bdw, h4]; exact newBase_bdw
      obtain ⟨hf, hg⟩ := baseCharacter_again (zeroFields_typed _) newBase_bdw h1 h2 h3 hbdw (Prod.ext rfl h')
      exact ⟨layout_baseCharacter.regular_of_fits hf (hbz (blocked_base .character) h1
        (show 0 ≤ Spec.bdw fs by split at hbdw <;> omega)), hsegs hg⟩
    | packed =>
      simp only [newBase, Record.parse, Prod.mk.injEq] at h h'
      obtain ⟨rfl, h⟩ := h
      obtain ⟨-, h'⟩ := h'
      have hp : parseBasePacked (zeroFields baseSegmentStruct) {} rec isVar =
        (((parseBasePacked (zeroFields baseSegmentStruct) {} rec isVar).1.1,
          (parseBasePacked (zeroFields baseSegmentStruct) {} rec isVar).1.2), .ok n) := Prod.ext rfl h
      generalize (parseBasePacked (zeroFields baseSegmentStruct) {} rec isVar).1 = q at *
      obtain ⟨fs, g⟩ := q
      obtain ⟨h1, h2, h3, -, h5, -, -⟩ := parseBasePacked_inv (zeroFields_typed _) hp
      have hpos : 0 < Spec.bdw fs := hb (.inr rfl) trivial
      obtain ⟨hf, hg⟩ := basePacked_again (zeroFields_typed _) h1 h2 h3 ⟨hpos, h5⟩ (Prod.ext rfl h')
      exact ⟨layout_basePacked.regular_of_fits hf (hbz (blocked_base .packed) h1 (show 0 ≤ Spec.bdw fs by omega)), hsegs hg⟩

/-- A record that was read and is not regular: its credit limit is -5. -/
example : ∃ r n, (newBase .character).parse (spliced 0 83 "-00000005") false = (r, .ok n) ∧ ¬ Spec.RegularRecord r ∧
    (false = true ∨ r.enc = .packed → Spec.HasBdw r → 0 < Spec.bdw (Spec.valuesOf r)) := by
  refine ⟨.base .character (base 0 426 [(.CreditLimit, .int (-5))]) {}, 426, by decide +kernel, ?_, ?_⟩
  · intro h
    have := h.1.1 (.CreditLimit, .int (-5)) (by decide +kernel) ⟨83, 9, .numeric, true, false, .applicable⟩
      (lookup_mem (by decide +kernel)) rfl (-5) rfl
    simp only at this
    omega
  · rintro (h | h)
    · cases h
    · cases h

/-! ### C26 -/

theorem getLast_all {α : Type} (l : List α) : l.getLast?.toList = l ↔ l.length ≤ 1 := by
  match l with
  | [] => simp
  | [a] => simp
  | a :: b :: l =>
    constructor
    · intro h
      have := congrArg List.length h
      rw [List.getLast?_cons_cons] at this
      cases hl : (b :: l).getLast? with
      | none => simp at hl
      | some x => rw [hl] at this; simp at this
    · intro h; simp at h

/-- C26, exactly: no segment of the input is lost if and only if each type other than J1 and J2 occurs at most once. -/
theorem C26_iff (enc : Enc) (rec : Bytes) (isVar : Bool) (fs : Fields) (g : Segs) (n : Int)
    (h : (newBase enc).parse rec isVar = (.base enc fs g, .ok n)) (pieces : List (SegKind × Bytes))
    (hs : Spec.Segmented (rec.drop (Spec.segmentsStart enc fs)) pieces) :
    (∀ k, (Record.base enc fs g).getSegments (Spec.segmentName k) = Spec.piecesOf k isVar pieces) ↔
      ∀ k, ¬ Spec.Repeatable k → (pieces.filter fun p => decide (p.1 = k)).length ≤ 1 := by
  obtain ⟨l, h1, -, h2⟩ := C26_segments_kept_partial enc rec isVar fs g n h
  have := segmented_unique hs h1
  subst this
  refine forall_congr' fun k => ?_
  rw [h2 k]
  by_cases hk : Spec.Repeatable k
  · simp [hk]
  · rw [if_neg hk, getLast_all, Spec.piecesOf, List.length_map]
    exact ⟨fun h _ => h, fun h => h hk⟩

/-- A record with two K1 segments. -/
example : ∃ fs g n pieces, (newBase .character).parse mixedRecord true = (.base .character fs g, .ok n) ∧
    Spec.Segmented (mixedRecord.drop (Spec.segmentsStart .character fs)) pieces ∧
    (pieces.filter fun p => decide (p.1 = .k1)).length = 2 := by
  refine ⟨base 1000 996, { j1 := [j1', j1], k1 := some k1' }, 1000,
    [(.k1, k1.string), (.j1, j1'.string), (.k1, k1'.string), (.j1, j1.string)], by decide +kernel, ?_, by decide⟩
  have : mixedRecord.drop (Spec.segmentsStart .character (base 1000 996)) =
    k1.string ++ (j1'.string ++ (k1'.string ++ (j1.string ++ List.replicate 302 32))) := by decide +kernel
  rw [this]
  refine .step (by decide +kernel) (by decide +kernel) (.step (by decide +kernel) (by decide +kernel)
    (.step (by decide +kernel) (by decide +kernel) (.step (by decide +kernel) (by decide +kernel) (.done (.inl ?_)))))
  intro k
  cases k <;> decide +kernel

/-! ### C40 -/

theorem takeWhile_all {α : Type} (q : α → Bool) (l : List α) : (l.takeWhile q).length = l.length ↔ ∀ a ∈ l, q a = true := by
  induction l with
  | nil => simp
  | cons a l ih =>
    rw [List.takeWhile_cons]
    split
    · next h => simp [h, ih]
    · next h => simp [h]

/-- C40, exactly: line breaks make no difference if and only if every record with its line breaks fits the buffer. -/
theorem C40_iff (raw : Bytes) (ps : List Bytes) (h : Spec.Pieces raw ps) (p q : Plan) (hp : p.Progress) (hq : q.Progress) :
    (newScanner raw).all p = (newScanner (Spec.withoutBreaks raw)).all q ↔ ∀ a ∈ ps, a.length ≤ Spec.bufferSize := by
  refine ⟨fun he => ?_, fun hl => C40_line_breaks_partial raw ps h hl p q hp hq⟩
  rw [C39_records raw ps h p hp, C39_records _ _ (pieces_withoutBreaks h) q hq, recordsOf_fit (ps := ps.map Spec.withoutBreaks)
    (by
      intro b hb
      obtain ⟨a, ha, rfl⟩ := List.mem_map.1 hb
      exact Nat.le_of_lt (piece_fits (pieces_mem h a ha)))] at he
  have := congrArg List.length he
  rw [Spec.recordsOf, List.length_map, List.length_map, List.length_map, takeWhile_all] at this
  intro a ha
  exact of_decide_eq_true (this a ha)

example : Spec.Pieces (Samples.line ++ (List.replicate 2 10 ++ Samples.line)) [Samples.line, List.replicate 2 10 ++ Samples.line] ∧
    Samples.slow.Progress := ⟨two_lines, slow_progress⟩

end Metro2
