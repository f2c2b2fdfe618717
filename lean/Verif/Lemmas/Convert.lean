import Verif.Lemmas.PackedText
import Verif.Spec.Files

/-! Character files after conversion to the packed format. -/

namespace Metro2

/-! ### Values that fit a character row fit the packed row -/

/-- Every value of the first row fits the second one. -/
def rowFits (a b : Field) : Bool :=
  match a.typ with
  | .numeric => match b.typ with
    | .numeric => decide (a.len = b.len ∧ a.req = b.req)
    | .descriptor => decide (10 ^ a.len ≤ 65536)
    | .packedNumber => decide (10 ^ a.len ≤ 256 ^ b.len)
    | _ => false
  | .alphanumeric => decide (b.typ = .alphanumeric) && decide (a.len ≤ b.len)
  | .date => match b.typ with
    | .date => decide (a.req = b.req)
    | .packedDate => true
    | _ => false
  | .timestamp => decide (b.typ = .packedTimestamp)
  | _ => false

theorem fits_of_rowFits {a b : Field} (h : rowFits a b = true) {v : Val} (hf : Spec.Fits a v)
    (hneg : ∀ i, v = .int i → 0 ≤ i) : Spec.Fits b v := by
  obtain ⟨s1, l1, t1, z1, o1, r1⟩ := a
  obtain ⟨s2, l2, t2, z2, o2, r2⟩ := b
  cases t1 <;> simp only [rowFits] at h <;> cases v <;> simp only [Spec.Fits] at hf
  · next s =>
    simp only [Bool.and_eq_true, decide_eq_true_eq] at h
    obtain ⟨rfl, h⟩ := h
    exact ⟨Nat.le_trans hf.1 h, hf.2⟩
  · next i =>
    cases t2 <;> simp only [decide_eq_true_eq, Bool.false_eq_true] at h
    · obtain ⟨rfl, rfl⟩ := h; exact hf
    · refine ⟨hneg i rfl, ?_⟩
      have h1 : (10 : Int) ^ l1 ≤ 65536 := by exact_mod_cast h
      have := fitsNumber_lt hf.1
      omega
    · refine ⟨hneg i rfl, ?_⟩
      have h1 : (10 : Int) ^ l1 ≤ 256 ^ l2 := by exact_mod_cast h
      exact lt_of_lt_of_le (fitsNumber_lt hf.1) h1
  · next t =>
    simp only [decide_eq_true_eq] at h
    subst h
    exact hf.1
  · next t =>
    cases t2 <;> simp only [decide_eq_true_eq, Bool.false_eq_true] at h
    · subst h; exact hf
    · exact ⟨hf.1, hf.2.1⟩
  all_goals simp at h

/-- All rows of the structure. -/
def tableFits (decl : List (F × FieldDecl)) (a b : Format) : Bool :=
  decl.all fun p => match a.lookup p.1 with
    | some x => match b.lookup p.1 with
      | some y => rowFits x y
      | none => false
    | none => false

theorem fitsAll_of_tableFits {decl : List (F × FieldDecl)} {a b : Format} (hn : (b.map (·.1)).Nodup)
    (h : tableFits decl a b = true) {fs : Fields} (ht : fs.Typed decl) (hf : Spec.FitsAll a fs)
    (hneg : Spec.NoNegative fs) : Spec.FitsAll b fs := by
  intro p hp hb e he
  obtain ⟨d, hd⟩ := mem_decl_of_typed ht hp
  have := List.all_eq_true.1 h _ hd
  simp only at this
  split at this
  · next x hx =>
    rw [lookup_of_mem hn he] at this
    exact fits_of_rowFits this (hf p hp hb x (lookup_mem hx)) (hneg p hp)
  · simp at this

theorem tableFits_header : tableFits headerRecordStruct headerRecordCharacterFormat headerRecordPackedFormat = true := by
  decide +kernel
theorem tableFits_base : tableFits baseSegmentStruct baseSegmentCharacterFormat baseSegmentPackedFormat = true := by
  decide +kernel
theorem tableFits_trailer : tableFits trailerRecordStruct trailerRecordCharacterFormat trailerRecordPackedFormat = true := by
  decide +kernel

/-! ### Records -/

theorem fixedLength_packed_le {fs : Fields} : Spec.fixedLength .packed fs ≤ Spec.fixedLength .character fs := by
  unfold Spec.fixedLength
  have : Spec.recordLength .packed ≤ Spec.recordLength .character := by decide
  omega

theorem wordMax_convert {v : Int} (h : v ≤ Spec.wordMax .character) : v ≤ Spec.wordMax .packed := by
  rw [wordMax_eq] at h ⊢
  simp only [wordMax] at h ⊢
  omega

theorem goodHeader_convert {fs : Fields} (h : Spec.GoodHeader .character true fs) (hneg : Spec.NoNegative fs) : Spec.GoodHeader .packed true fs := by
  have hb := h.bdw
  rw [if_pos rfl] at hb
  refine ⟨h.typed, fitsAll_of_tableFits (layout_header .packed).names tableFits_header h.typed h.fits hneg, h.ident,
    fun _ => rfl, by rw [if_pos rfl]; exact ⟨hb.1, wordMax_convert hb.2⟩, ?_⟩
  have := h.size
  have := @fixedLength_packed_le fs
  omega

theorem goodTrailer_convert {fs : Fields} (h : Spec.GoodTrailer .character fs) (hneg : Spec.NoNegative fs) : Spec.GoodTrailer .packed fs := by
  refine ⟨h.typed, fitsAll_of_tableFits (layout_trailer .packed).names tableFits_trailer h.typed h.fits hneg, h.ident, ?_⟩
  have h1 := h.size
  have : Spec.recordLength .packed ≤ Spec.recordLength .character := by decide
  omega

theorem goodData_convert {fs : Fields} {g : Segs} (h : Spec.GoodData .character true fs g)
    (hneg : Spec.NoNegative fs) (hd : Spec.bdw fs = Spec.rdw fs + 4) : Spec.GoodData .packed true fs g := by
  have hb := h.base.bdw
  rw [if_pos rfl] at hb
  have hs := h.base.size
  have hle : Spec.contentLength .packed fs g ≤ Spec.contentLength .character fs g := by
    unfold Spec.contentLength
    have := @fixedLength_packed_le fs
    omega
  refine ⟨⟨h.base.typed, fitsAll_of_tableFits (layout_base .packed).names tableFits_base h.base.typed h.base.fits hneg,
    h.base.segs, fun _ => rfl, by rw [if_pos rfl]; exact ⟨hb.1, wordMax_convert hb.2⟩, by omega⟩, ?_⟩
  have hw := hb.2
  rw [wordMax_eq] at hw
  simp only [wordMax] at hw
  simp only [Spec.sizeWord, if_true] at hs ⊢
  have hp : Spec.padSize (Spec.padWord .packed fs) = (Spec.bdw fs).toNat := by
    rw [show Spec.padWord .packed fs = Spec.bdw fs from hd.symm]
    unfold Spec.padSize
    rw [if_pos (by omega)]
    omega
  rw [hp]
  omega

/-- A variable-blocked character file is well-formed after conversion, if the two descriptors of each data record
agree. -/
theorem goodFile_convert {f : File} (h : Spec.GoodFile .character true f)
    (hneg : ∀ r ∈ f.header :: f.trailer :: f.bases, Spec.NoNegative r.fields)
    (hd : ∀ r ∈ f.bases, Spec.bdw r.fields = Spec.rdw r.fields + 4) :
    Spec.GoodFile .packed true ⟨.packed, Spec.inFormat .packed f.header, f.bases.map (Spec.inFormat .packed),
      Spec.inFormat .packed f.trailer⟩ := by
  obtain ⟨-, ⟨hfs, h1, hh⟩, hbs, ⟨tfs, h2, htr⟩⟩ := h
  refine ⟨rfl, ⟨hfs, by simp only [h1, Spec.inFormat], goodHeader_convert hh (by have := hneg f.header (by simp); rwa [h1] at this)⟩, ?_,
    ⟨tfs, by simp only [h2, Spec.inFormat], goodTrailer_convert htr (by have := hneg f.trailer (by simp); rwa [h2] at this)⟩⟩
  intro r hr
  obtain ⟨r0, hr0, rfl⟩ := List.mem_map.1 hr
  obtain ⟨fs, g, rfl, hg⟩ := hbs r0 hr0
  exact ⟨fs, g, rfl, goodData_convert hg (hneg _ (List.mem_cons_of_mem _ (List.mem_cons_of_mem _ hr0))) (hd _ hr0)⟩

/-! ### Packed headers without block descriptor -/

theorem packedHeader_rows : ∃ rest, mainRows headerRecordPackedFormat =
    (.RecordDescriptorWord, rdwField .packed) ::
      (.RecordIdentifier, ⟨4, 6, .alphanumeric, false, false, .required⟩) :: rest :=
  ⟨(mainRows headerRecordPackedFormat).drop 2, by decide +kernel⟩

/-- The text of a packed header without block descriptor. -/
theorem packedHeader_shape {fs : Fields} (ht : fs.Typed headerRecordStruct)
    (hi : (.RecordIdentifier, .str "HEADER".toUTF8.data.toList) ∈ fs) (hb : Spec.bdw fs = 0)
    (h0 : 0 ≤ Spec.rdw fs) (h1 : Spec.rdw fs ≤ wordMax .packed) :
    ∃ X, (Record.header .packed fs).string = firstWord .packed (Spec.rdw fs) ++ (b! "HEADER" ++ X) := by
  obtain ⟨b, r, fr, hfs, -, hr, -⟩ := (blocked_header .packed).shape ht
  have hm : (F.RecordDescriptorWord, Val.int r) ∈ fs := by rw [hfs]; simp
  have hnd : (fs.map (·.1)).Nodup := by rw [ht.names]; exact (layout_header .packed).structNames
  have g1 : fs.get .RecordDescriptorWord = some (.int r) := Fields.get_of_mem hnd hm
  have g2 := Fields.get_of_mem hnd hi
  have hrr : Spec.rdw fs = r := hr
  rw [hrr] at h0 h1 ⊢
  obtain ⟨rest, hrows⟩ := packedHeader_rows
  have hid : toStr (⟨4, 6, .alphanumeric, false, false, .required⟩ : Field)
      (some (.str "HEADER".toUTF8.data.toList)) = b! "HEADER" := by decide +kernel
  have hmain : mainText headerRecordPackedFormat fs = firstWord .packed r ++ (b! "HEADER" ++ rowsText rest fs) := by
    unfold mainText
    rw [hrows]
    simp only [rowsText, List.map_cons, List.flatten_cons]
    rw [g1, g2, toStr_rdw h0 h1, hid]
  rw [Record.string, padTo, (layout_header .packed).text, (blocked_header .packed).bdwText ht,
    show fs.int .BlockDescriptorWord = 0 from hb, bdwText_zero]
  generalize List.replicate _ (32 : UInt8) = pad
  rw [show Enc.packed.headerFormat = headerRecordPackedFormat from rfl, hmain]
  exact ⟨rowsText rest fs ++ pad, by simp only [List.nil_append, List.append_assoc]⟩

theorem fail_bdw {rec : Bytes} {fs : Fields} (ht : fs.Typed headerRecordStruct) {isVar : Bool}
    (hv : isVariableLength rec = false) : ∃ fs' e, parseHeader .packed fs rec isVar = (fs', .error e) := by
  generalize hq : parseHeader .packed fs rec isVar = q
  obtain ⟨fs', x⟩ := q
  cases x with
  | error e => exact ⟨fs', e, rfl⟩
  | ok n =>
    have := (parseHeader_inv ht hq).2.2.1
    have hp : headerPolicy .packed rec isVar ≠ .accept := by simp [headerPolicy, hv]
    rw [if_neg hp] at this
    simp at this

/-- Nothing can be read that begins like a packed header without block descriptor. -/
theorem readHeader_noBdw {a b : UInt8} {Y : Bytes} (hl : 356 ≤ Y.length) :
    ∃ e, readHeader (newFile .character) ([a, b, 0, 0] ++ (b! "HEADER" ++ Y)) = .error e := by
  have hvar : isVariableLength ([a, b, 0, 0] ++ (b! "HEADER" ++ Y)) = false := by
    unfold isVariableLength
    have : toUpper (List.take 6 (List.drop 8 ([a, b, 0, 0] ++ (b! "HEADER" ++ Y)))) ≠ b! "HEADER" := by
      intro h
      have := congrArg List.head? h
      revert this
      simp only [List.cons_append, List.nil_append, List.drop_succ_cons, List.drop_zero, List.take_succ_cons, toUpper,
        List.map_cons, List.head?_cons]
      decide
    rw [Bool.and_eq_false_iff]
    exact .inr (decide_eq_false this)
  have hmetro : isMetroFile ([a, b, 0, 0] ++ (b! "HEADER" ++ Y)) = true := by
    unfold isMetroFile
    rw [if_neg (by simp; omega)]
    simp
  have hpk : isPacked ([a, b, 0, 0] ++ (b! "HEADER" ++ Y)) = .ok true := by
    unfold isPacked
    simp
  unfold readHeader
  rw [hmetro, hpk, hvar]
  simp only [Bool.not_true, Bool.false_eq_true, if_false, if_true]
  have := setType_new .packed
  rw [if_pos (by decide)] at this
  rw [this]
  obtain ⟨fs', e, h⟩ := fail_bdw (newHeader_typed .packed) (isVar := false) hvar
  have h2 : (newFile .packed).header.parse ([a, b, 0, 0] ++ (b! "HEADER" ++ Y)) false = (.header .packed fs', .error e) := by
    rw [show (newFile .packed).header = .header .packed (newHeader .packed).fields from rfl, Record.parse, h]
  rw [h2]
  exact ⟨e, rfl⟩

/-- One byte of the descriptor was taken for a line break. -/
theorem readHeader_short {x : UInt8} {Y : Bytes} :
    readHeader (newFile .character) ([x, 0, 0] ++ (b! "HEADER" ++ Y)) = .error .notMetro := by
  have hmetro : isMetroFile ([x, 0, 0] ++ (b! "HEADER" ++ Y)) = false := by
    unfold isMetroFile
    split
    · rfl
    · have h1 : List.take 6 (List.drop 4 ([x, 0, 0] ++ (b! "HEADER" ++ Y))) ≠ b! "HEADER" := by
        intro h
        have := congrArg List.head? h
        revert this
        simp
      have h2 : List.take 6 (List.drop 8 ([x, 0, 0] ++ (b! "HEADER" ++ Y))) ≠ b! "HEADER" := by
        intro h
        have := congrArg List.head? h
        revert this
        simp
      simp only [Bool.or_eq_false_iff, decide_eq_false_iff_not]
      exact ⟨h1, h2⟩
  unfold readHeader
  rw [hmetro]
  rfl

theorem prefix_split {L w pre Z : Bytes} (h : L ++ w = pre ++ Z) (hl : pre.length ≤ L.length) : ∃ Y, L = pre ++ Y := by
  refine ⟨L.drop pre.length, ?_⟩
  conv_lhs => rw [← List.take_append_drop pre.length L]
  congr 1
  have := congrArg (List.take pre.length) h
  rwa [List.take_append_of_le_length hl, List.take_left] at this

theorem withoutBreaks_header (X : Bytes) : Spec.withoutBreaks ([0, 0] ++ (b! "HEADER" ++ X)) =
    [0, 0] ++ (b! "HEADER" ++ Spec.withoutBreaks X) := by
  rw [withoutBreaks_append, withoutBreaks_append, withoutBreaks_of_noBreaks (s := [0, 0]) (by decide),
    withoutBreaks_of_noBreaks (s := b! "HEADER") (by decide)]

theorem readFile_noBdw {p : Plan} (hp : p.Progress) (a b : UInt8) (X : Bytes) :
    ∃ e, readFile p ([a, b, 0, 0] ++ (b! "HEADER" ++ X)) = .error e := by
  obtain ⟨ps, hps⟩ := pieces_exist ([a, b, 0, 0] ++ (b! "HEADER" ++ X))
  rw [readFile_lines hp hps]
  have hW : Spec.withoutBreaks ([a, b, 0, 0] ++ (b! "HEADER" ++ X)) =
      Spec.withoutBreaks [a, b] ++ ([0, 0] ++ (b! "HEADER" ++ Spec.withoutBreaks X)) := by
    rw [← withoutBreaks_header, ← withoutBreaks_append]; rfl
  generalize hraw : ([a, b, 0, 0] ++ (b! "HEADER" ++ X)) = raw at hps hW
  cases hps with
  | nil h => exact ⟨_, rfl⟩
  | @cons c d ps hc hd =>
    rw [recordsOf_cons]
    split
    · rw [readLines]
      rw [withoutBreaks_append] at hW
      obtain ⟨h4, hann, -⟩ := hc
      generalize Spec.withoutBreaks c = L at hW h4 hann
      have h366 := announces_ge hann
      suffices h : ∃ e, readHeader (newFile .character) L = .error e by
        obtain ⟨e, he⟩ := h
        rw [he]; exact ⟨e, rfl⟩
      by_cases ha : a = '\r'.toNat.toUInt8 ∨ a = '\n'.toNat.toUInt8 <;>
      by_cases hb : b = '\r'.toNat.toUInt8 ∨ b = '\n'.toNat.toUInt8
      · have e : Spec.withoutBreaks [a, b] = [] := by
          rcases ha with rfl | rfl <;> rcases hb with rfl | rfl <;> decide
        rw [e, List.nil_append, ← List.append_assoc] at hW
        obtain ⟨Y, rfl⟩ := prefix_split hW (by simp; omega)
        exfalso
        simp only [List.cons_append, List.nil_append, List.take_succ_cons, List.take_zero] at hann
        rcases hann with ⟨⟨ds, n, -, hd, h⟩, -⟩ | ⟨-, hb, h⟩
        · have : (0 : UInt8) ∈ ds ∨ False := by
            rcases h with ⟨h, -⟩ | ⟨h, -⟩ | ⟨h, -⟩
            · rw [← h]; simp
            · simp at h
            · simp at h
          rcases this with h0 | h0
          · have := ((spec_decimal_iff _ _).1 hd).1 0 h0
            revert this; decide
          · exact h0
        · rw [spec_bigEndian_iff] at hb
          have : beVal [0, 0] = 0 := rfl
          simp only [List.take_succ_cons, List.take_zero] at hb
          omega
      · have e : Spec.withoutBreaks [a, b] = [b] := by
          have h1 : Spec.withoutBreaks [a] = [] := by rcases ha with rfl | rfl <;> decide
          have h2 : Spec.withoutBreaks [b] = [b] := withoutBreaks_of_noBreaks (by
            intro c hc; rw [List.mem_singleton] at hc; subst hc; exact not_or.1 hb)
          rw [show [a, b] = [a] ++ [b] from rfl, withoutBreaks_append, h1, h2]; rfl
        rw [e, ← List.append_assoc, ← List.append_assoc] at hW
        obtain ⟨Y, rfl⟩ := prefix_split hW (by simp; omega)
        exact ⟨_, readHeader_short⟩
      · have e : Spec.withoutBreaks [a, b] = [a] := by
          have h1 : Spec.withoutBreaks [b] = [] := by rcases hb with rfl | rfl <;> decide
          have h2 : Spec.withoutBreaks [a] = [a] := withoutBreaks_of_noBreaks (by
            intro c hc; rw [List.mem_singleton] at hc; subst hc; exact not_or.1 ha)
          rw [show [a, b] = [a] ++ [b] from rfl, withoutBreaks_append, h1, h2]; rfl
        rw [e, ← List.append_assoc, ← List.append_assoc] at hW
        obtain ⟨Y, rfl⟩ := prefix_split hW (by simp; omega)
        exact ⟨_, readHeader_short⟩
      · have e : Spec.withoutBreaks [a, b] = [a, b] := withoutBreaks_of_noBreaks (by
            intro c hc
            simp only [List.mem_cons, List.not_mem_nil, or_false] at hc
            rcases hc with rfl | rfl
            · exact not_or.1 ha
            · exact not_or.1 hb)
        rw [e, ← List.append_assoc, ← List.append_assoc] at hW
        obtain ⟨Y, rfl⟩ := prefix_split hW (by simp; omega)
        have := @readHeader_noBdw a b Y (by simp at h366; omega)
        exact this
    · exact ⟨_, rfl⟩

end Metro2
