import Verif.Lemmas.Agree
import Verif.Props.Accepts

/-! Property C108: `Reader.Read` and `File.Parse` read the same file from the same bytes. -/

namespace Metro2

open Samples Spec

/-! ### Lemmas -/

theorem newHeader_parse_shape {enc : Enc} {line : Bytes} {isVar : Bool} {r : Record} {x : Except Err Int}
    (h : (newHeader enc).parse line isVar = (r, x)) :
    ∃ fs, r = .header enc fs ∧ parseHeader enc (newHeader enc).fields line isVar = (fs, x) := by
  have e : (newHeader enc) = .header enc (newHeader enc).fields := rfl
  rw [e, Record.parse] at h
  simp only [Prod.mk.injEq] at h
  exact ⟨_, h.1.symm, Prod.ext rfl h.2⟩

theorem newTrailer_parse_shape {enc : Enc} {line : Bytes} {isVar : Bool} {r : Record} {x : Except Err Int}
    (h : (newTrailer enc).parse line isVar = (r, x)) :
    ∃ fs, r = .trailer enc fs ∧ parseTrailer enc (newTrailer enc).fields line isVar = (fs, x) := by
  have e : (newTrailer enc) = .trailer enc (newTrailer enc).fields := rfl
  rw [e, Record.parse] at h
  simp only [Prod.mk.injEq] at h
  exact ⟨_, h.1.symm, Prod.ext rfl h.2⟩

theorem tells_unique {line : Bytes} (hl : 366 ≤ line.length) {enc enc' : Enc} {isVar isVar' : Bool} (h : Tells line enc isVar)
    (h' : Tells line enc' isVar') : enc = enc' ∧ isVar = isVar' := by
  obtain ⟨-, h1, h2⟩ := (tells_iff hl _ _).1 h
  obtain ⟨-, h1', h2'⟩ := (tells_iff hl _ _).1 h'
  rw [h1] at h1'
  refine ⟨?_, h2.symm.trans h2'⟩
  simp only [Except.ok.injEq] at h1'
  revert h1'
  cases enc <;> cases enc' <;> decide

/-- For a text that consists of records, one behind the other: what `File.Parse` reads. -/
theorem textOf_lines {enc : Enc} {isVar : Bool} {first : Bytes} {ls : List Bytes} {f : File} (hl : ∀ l ∈ first :: ls, Line enc l)
    (hv : isVar = isVariableLength first) (h16 : 16 ≤ first.length) :
    TextOf (newFile enc) (first :: ls).flatten isVar f ↔
      ∃ datas last n m, ls = datas ++ [last] ∧ f.format = enc ∧ (newHeader enc).parse first isVar = (f.header, .ok n) ∧
        List.Forall₂ (fun line r => ∃ k, (newBase enc).parse line isVar = (r, .ok k)) datas f.bases ∧
        (∀ r k, (newBase enc).parse last isVar ≠ (r, .ok k)) ∧ (newTrailer enc).parse last isVar = (f.trailer, .ok m) ∧
        Bordered enc isVar (first :: ls) := by
  have hfirst := hl first List.mem_cons_self
  have hls : ∀ l ∈ ls, Line enc l := fun l hm => hl l (List.mem_cons_of_mem _ hm)
  rw [List.flatten_cons]
  constructor
  · rintro ⟨a, b, m, h1, h2, h3, h4, h5, h6, h7, h8⟩
    obtain ⟨fs, hfs, h2'⟩ := newHeader_parse_shape h2
    obtain ⟨rfl, hlen⟩ := header_size hfirst.1 hfirst.2 (take_four hfirst.1 _)
      (by rw [isVariableLength_append h16]; exact hv) h2'
    rw [header_append hlen] at h2'
    obtain ⟨datas, last, rest, rfl, k1, k2, rfl⟩ := dataFrom_lines _ ls first hls h3 h5
    have hlast := hls last (by simp)
    have hdrop : (first ++ (datas ++ last :: rest).flatten).drop ((first ++ datas.flatten).length : Int).toNat =
        last ++ rest.flatten := by
      rw [Int.toNat_natCast, List.flatten_append, ← List.append_assoc, List.drop_left, List.flatten_cons]
    rw [hdrop] at h6 h7
    obtain ⟨ft, hft, h7'⟩ := newTrailer_parse_shape h7
    have hm := trailer_size hlast.1 hlast.2 (take_four hlast.1 _) h7'
    have hrest : rest = [] := by
      cases rest with
      | nil => rfl
      | cons x xs =>
        have := (hls x (by simp)).four
        simp only [List.flatten_append, List.flatten_cons, List.length_append] at h8
        omega
    subst hrest
    simp only [List.flatten_nil, List.append_nil] at h6 h7
    exact ⟨datas, last, _, m, rfl, h1, by rw [hfs]; exact newHeader_parse_ok h2', k1, h6, h7, k2⟩
  · rintro ⟨datas, last, n, m, rfl, h1, h2, h3, h4, h5, h6⟩
    have hlast := hls last (by simp)
    obtain ⟨fs, hfs, h2⟩ := newHeader_parse_shape h2
    obtain ⟨rfl, hlen⟩ := header_size hfirst.1 hfirst.2 rfl hv h2
    obtain ⟨ft, hft, h5'⟩ := newTrailer_parse_shape h5
    have hm := trailer_size hlast.1 hlast.2 rfl h5'
    have hflat : (datas ++ [last]).flatten = datas.flatten ++ last := by simp
    have hdrop : (first ++ (datas.flatten ++ last)).drop ((first ++ datas.flatten).length : Int).toNat = last := by
      rw [Int.toNat_natCast, ← List.append_assoc, List.drop_left]
    have h0 := hlast.four
    have h0' := hfirst.four
    rw [hflat]
    refine ⟨first.length, (first ++ datas.flatten).length, m, h1, ?_,
      dataFrom_of_lines hlast datas f.bases first (by omega) (fun l hm => hls l (by simp [hm])) h3 h6, ?_, ?_, ?_, ?_, ?_⟩
    · rw [hfs]
      refine newHeader_parse_ok ?_
      rw [header_append hlen]
      exact h2
    · rw [List.length_append]; omega
    · simp only [List.length_append]; omega
    · rw [hdrop]; exact h4
    · rw [hdrop]; exact h5
    · simp only [List.length_append]; omega

/-! ### C108 -/

/-- C108: `File.Parse` accepts the text of a file exactly if `Reader.Read` does, if the trailer is the last record, and if no data record
has one or two bytes behind its segments that are, together with the beginning of the next record, the identifier of a segment. The file is
then the same. The text is to consist of nothing but records and line breaks; the format and blocking are those that the header tells; in a
packed file no record may begin with four bytes that are a decimal number. -/
theorem C108_iff (p : Plan) (hp : p.Progress) (raw : Bytes) (first : Bytes) (ls : List Bytes) (hd : Divided raw (first :: ls)) (enc : Enc)
    (isVar : Bool) (ht : Tells first enc isVar) (hw : enc = .packed → ∀ line ∈ first :: ls, ∀ v, ¬ SignedDecimal (line.take 4) v) (f : File) :
    (∃ fuel, (newFile enc).parse fuel raw isVar = some (f, none)) ↔
      readFile p raw = .ok f ∧ ls.length = f.bases.length + 1 ∧ Bordered enc isVar (first :: ls) := by
  obtain ⟨ps, hps, hrec, hflat⟩ := hd
  have htexts := recordsOf_texts hps
  have hlong := recordsOf_long hps
  rw [hrec] at htexts hlong
  have hl : ∀ l ∈ first :: ls, Line enc l := fun l hm => ⟨htexts l hm, fun h => hw h l hm⟩
  have hfirst := hlong first List.mem_cons_self
  have hv := ((tells_iff hfirst _ _).1 ht).2.2
  rw [C102_parse, C102_reader p hp, hflat, textOf_lines hl hv.symm (by omega)]
  constructor
  · rintro ⟨datas, last, n, m, rfl, rfl, h2, h3, h4, h5, h6⟩
    refine ⟨⟨ps, hps, isVar, first, datas, last, [], n, m, hrec, ht, h2, h3, h4, h5⟩, ?_, h6⟩
    rw [List.length_append, h3.length_eq]
    rfl
  · rintro ⟨⟨ps', hps', isVar', first', datas, last, rest, n, m, e, ht', h2, h3, h4, h5⟩, hc, h6⟩
    have := pieces_unique hps' _ hps
    subst this
    rw [hrec] at e
    simp only [List.cons_append, List.cons.injEq] at e
    obtain ⟨rfl, rfl⟩ := e
    obtain ⟨rfl, rfl⟩ := tells_unique hfirst ht ht'
    have : rest = [] := by
      have := h3.length_eq
      rw [List.length_append, List.length_cons] at hc
      exact List.length_eq_zero_iff.1 (by omega)
    subst this
    exact ⟨datas, last, n, m, rfl, rfl, h2, h3, h4, h5, h6⟩

/-! ### Texts that `File.Parse` accepts -/

theorem tells_append {line R : Bytes} (hl : 16 ≤ line.length) (enc : Enc) (isVar : Bool) : Tells (line ++ R) enc isVar ↔ Tells line enc isVar := by
  have hg : ∀ i, i < 16 → (line ++ R)[i]? = line[i]? := fun i hi => List.getElem?_append_left (by omega)
  have hw : ∀ n, n ≤ 8 → (HeaderAt n (line ++ R) ↔ HeaderAt n line) := by
    intro n hn
    unfold HeaderAt
    rw [List.drop_append_of_le_length (by omega), List.take_append_of_le_length (by rw [List.length_drop]; omega)]
  have e := hw (if isVar then 8 else 4) (by split <;> omega)
  constructor
  · rintro ⟨h1, h2⟩
    rw [hg 2 (by omega), hg 3 (by omega), hg 6 (by omega), hg 7 (by omega)] at h2
    exact ⟨e.1 h1, h2⟩
  · rintro ⟨h1, h2⟩
    refine ⟨e.2 h1, ?_⟩
    rw [hg 2 (by omega), hg 3 (by omega), hg 6 (by omega), hg 7 (by omega)]
    exact h2

theorem numeric_word {e : Field} (he : e.typ = .numeric) {s : Bytes} {i : Int} (h : parseValue e s = .ok (.int i)) : SignedDecimal s i := by
  simp only [parseValue, he] at h
  split at h
  · next v hv => cases h; exact (parseInt_ok_iff.1 hv).1
  · cases h

theorem recordText_of_word {text : Bytes} (hn : NoBreaks text) {i : Int} (h : SignedDecimal (text.take 4) i) (hi : 426 ≤ i)
    (hl : i ≤ text.length) : RecordText (text.take i.toNat) := by
  have hlen : (text.take i.toNat).length = i.toNat := by rw [List.length_take]; omega
  refine ⟨fun c hc => hn c (List.mem_of_mem_take hc), by omega, .inl ⟨?_, by omega⟩⟩
  rw [hlen, List.take_take, Nat.min_eq_left (by omega), Int.toNat_of_nonneg (by omega)]
  exact h

theorem base_word {isVar : Bool} {rec : Bytes} {r : Record} {n : Int} (h : (newBase .character).parse rec isVar = (r, .ok n))
    (hs : isVar = true → 0 < Spec.bdw r.fields) : 426 ≤ n ∧ SignedDecimal (rec.take 4) n := by
  obtain ⟨fs, g, rfl⟩ := newBase_parse_shape h
  have h := newBase_parse_character.1 h
  obtain ⟨h1, -, -, k4, k5, k6⟩ := parseBaseCharacter_inv (zeroFields_typed _) h
  cases isVar with
  | true =>
    obtain ⟨e, hle⟩ := k5 (hs rfl)
    refine ⟨by omega, ?_⟩
    rw [e]
    exact numeric_word rfl (baseCharacter_bdw_read (zeroFields_typed _) h)
  | false =>
    simp only [Bool.false_eq_true, if_false] at k4
    obtain ⟨e, hle⟩ := k6 (by rw [k4]; exact newBase_bdw)
    obtain ⟨-, hs'⟩ := baseCharacter_slots (zeroFields_typed _) h
    refine ⟨by omega, ?_⟩
    rw [e]
    exact numeric_word rfl (rdw_of_slots (blocked_base .character) h1 hs')

theorem header_word {isVar : Bool} {rec : Bytes} {r : Record} {n : Int} (h : (newHeader .character).parse rec isVar = (r, .ok n))
    (hs : 426 ≤ sizeWord isVar r.fields) : n = sizeWord isVar r.fields ∧ SignedDecimal (rec.take 4) n := by
  obtain ⟨fs, rfl, h'⟩ := newHeader_parse_shape h
  clear h
  obtain ⟨h1, -, h3, -, hn⟩ := parseHeader_inv (newHeader_typed .character) h'
  obtain ⟨-, hs'⟩ := header_slots (newHeader_typed .character) h'
  cases isVar with
  | true =>
    have hs : 426 ≤ Spec.bdw fs := hs
    have hb := (header_bdw_read (newHeader_typed .character) (.inl rfl) h').1
    rw [if_pos (show fs.int .BlockDescriptorWord > 0 from by show Spec.bdw fs > 0; omega)] at hn
    exact ⟨hn, by rw [hn]; exact numeric_word rfl hb⟩
  | false =>
    simp only [headerPolicy, Bool.false_eq_true, if_false, reduceCtorEq] at h3
    have hb : fs.int .BlockDescriptorWord = 0 := by rw [h3.2.2]; exact newHeader_bdw _
    have hr := rdw_of_slots (blocked_header .character) h1 hs'
    rw [if_neg (by omega)] at hn
    exact ⟨hn, by rw [hn]; exact numeric_word rfl hr⟩

theorem trailer_word {isVar : Bool} {rec : Bytes} {r : Record} {n : Int} (h : (newTrailer .character).parse rec isVar = (r, .ok n)) :
    426 ≤ rec.length ∧ SignedDecimal (rec.take 4) n := by
  obtain ⟨fs, rfl, h'⟩ := newTrailer_parse_shape h
  clear h
  obtain ⟨h1, -, rfl⟩ := parseTrailer_inv (newTrailer_typed .character) h'
  obtain ⟨-, hs⟩ := trailer_slots (newTrailer_typed .character) h'
  obtain ⟨-, e, g1, -, -, g4⟩ := hs _ (mem_noBdw (by simp) (trailer_rdw_mem h1))
  simp only [lookup_of_mem (layout_trailer .character).names (trailer_rows .character).1, Option.some.injEq] at g1
  subst g1
  refine ⟨?_, numeric_word rfl g4⟩
  unfold parseTrailer at h'
  split at h'
  · simp at h'
  · next hl => exact Nat.le_of_not_lt hl

/-- The lines of a text in which data records are found one behind the other. -/
theorem dataFrom_split {isVar : Bool} {text : Bytes} (hn : NoBreaks text) {a b : Int} {rs : List Record}
    (h : DataFrom .character isVar text a rs b) (hb : b < text.length) (ha : 0 ≤ a) (hs : isVar = true → ∀ r ∈ rs, 0 < Spec.bdw r.fields) :
    a ≤ b ∧ ∃ lines : List Bytes, text.drop a.toNat = lines.flatten ++ text.drop b.toNat ∧ ∀ l ∈ lines, RecordText l := by
  induction h with
  | nil => exact ⟨by omega, [], rfl, by simp⟩
  | @cons a n b r rs h0 h1 hr h ih =>
    obtain ⟨h2, h3⟩ := base_word hr fun hv => hs hv r List.mem_cons_self
    obtain ⟨h5, lines, h6, h7⟩ := ih hb (by omega) fun hv r hm => hs hv r (List.mem_cons_of_mem _ hm)
    refine ⟨by omega, (text.drop a.toNat).take n.toNat :: lines, ?_, ?_⟩
    · rw [List.flatten_cons, List.append_assoc, ← h6]
      rw [show (a + n).toNat = a.toNat + n.toNat by omega, ← List.drop_drop, List.take_append_drop]
    · intro l hl
      rcases List.mem_cons.1 hl with rfl | hl
      · refine recordText_of_word (fun c hc => hn c (List.mem_of_mem_drop hc)) h3 (by omega) ?_
        rw [List.length_drop]; omega
      · exact h7 l hl

theorem divided_join (nl : Bool) {t : Bytes} {ts : List Bytes} (h : ∀ u ∈ t :: ts, RecordText u) :
    Divided (joinRecords nl (t :: ts)) (t :: ts) := by
  obtain ⟨ps, h1, h2⟩ := pieces_join nl t ts h (extra := []) (es := []) (.nil (by
    intro a b hab ha
    have h4 := ha.1
    rw [(List.append_eq_nil_iff.1 hab.symm).1] at h4
    exact absurd h4 (by decide)))
  rw [List.append_nil] at h1
  refine ⟨ps, h1, by rw [h2]; simp [recordsOf], ?_⟩
  rw [withoutBreaks_join]
  refine withoutBreaks_of_noBreaks ?_
  intro c hc
  obtain ⟨l, hl, hcl⟩ := List.mem_flatten.1 hc
  exact (h l hl).noBreaks c hcl

theorem divided_of_texts {t : Bytes} {ts : List Bytes} (h : ∀ u ∈ t :: ts, RecordText u) : Divided (t :: ts).flatten (t :: ts) := by
  rw [← joinRecords_flatten]
  exact divided_join false h

theorem forall₂_mem {α β : Type} {R : α → β → Prop} {l : List α} {l' : List β} (h : List.Forall₂ R l l') {b : β} (hb : b ∈ l') : ∃ a ∈ l, R a b := by
  induction h with
  | nil => cases hb
  | cons h1 _ ih =>
    rcases List.mem_cons.1 hb with rfl | hb
    · exact ⟨_, List.mem_cons_self, h1⟩
    · obtain ⟨a, ha, hr⟩ := ih hb
      exact ⟨a, List.mem_cons_of_mem _ ha, hr⟩

/-- C108: a character text that `File.Parse` accepts is accepted by `Reader.Read` exactly if its header gives itself a length of at least
426 bytes and, in a variable blocked file, every data record has a block descriptor. The file is then the same. -/
theorem C108_alone (p : Plan) (hp : p.Progress) (text : Bytes) (hn : NoBreaks text) (isVar : Bool) (ht : Tells text .character isVar)
    (fuel : Nat) (f : File) (h : (newFile .character).parse fuel text isVar = some (f, none)) :
    readFile p text = .ok f ↔ 426 ≤ sizeWord isVar f.header.fields ∧ (isVar = true → ∀ r ∈ f.bases, 0 < Spec.bdw r.fields) := by
  constructor
  · intro hr
    obtain ⟨ps, hps, isVar', first, datas, last, rest, n, m, e, ht', h2, h3, h4, h5⟩ := (C102_reader p hp text f).1 hr
    have hl := recordsOf_texts hps
    have hlong := recordsOf_long hps
    rw [e] at hl hlong
    have hf : f.format = .character := by
      obtain ⟨a, b, m, h1, -⟩ := (C102_parse _ _ _ _).1 ⟨fuel, h⟩
      exact h1
    rw [hf] at ht' h2 h3 h4 h5
    have hfirst := hlong first (by simp)
    have hpre : ∃ R, text = first ++ R := by
      cases hps with
      | nil => simp [recordsOf] at e
      | @cons a b ps ha hb =>
        have hna : NoBreaks a := fun c hc => hn c (List.mem_append_left _ hc)
        rw [recordsOf_cons] at e
        split at e
        · simp only [List.cons_append, List.cons.injEq] at e
          rw [withoutBreaks_of_noBreaks hna] at e
          exact ⟨b, by rw [e.1]⟩
        · simp at e
    obtain ⟨R, rfl⟩ := hpre
    obtain ⟨-, rfl⟩ := tells_unique hfirst ((tells_append (by omega) _ _).1 ht) ht'
    have hv := ((tells_iff hfirst _ _).1 ht').2.2
    refine ⟨?_, ?_⟩
    · obtain ⟨fs, e, h2⟩ := newHeader_parse_shape h2
      rw [e]
      exact (header_line (hl _ (by simp)) hv.symm h2).low
    · rintro rfl r hm
      obtain ⟨line, hline, k, hk⟩ : ∃ line ∈ datas, ∃ k, (newBase .character).parse line true = (r, .ok k) := by
        exact forall₂_mem h3 hm
      obtain ⟨fs, g, rfl⟩ := newBase_parse_shape hk
      exact (base_line (hl _ (by simp [hline])) hk).1.bdw.1
  · rintro ⟨hh, hb⟩
    obtain ⟨a, b, m, h1, h2, h3, h4, h5, h6, h7, h8⟩ := (C102_parse _ _ _ _).1 ⟨fuel, h⟩
    rw [withoutBreaks_of_noBreaks hn] at h2 h3 h5 h6 h7 h8
    obtain ⟨ha, hw⟩ := header_word h2 hh
    obtain ⟨hab, lines, hlines, hl⟩ := dataFrom_split hn h3 h5 (by omega) hb
    obtain ⟨hm, hw2⟩ := trailer_word h7
    rw [List.length_drop] at hm
    have hr1 : RecordText (text.take a.toNat) := recordText_of_word hn hw (by omega) (by omega)
    have hr2 : RecordText (text.drop b.toNat) := by
      have := recordText_of_word (text := text.drop b.toNat) (fun c hc => hn c (List.mem_of_mem_drop hc)) hw2 (by omega)
        (by rw [List.length_drop]; omega)
      rwa [List.take_of_length_le (by rw [List.length_drop]; omega)] at this
    have hall : ∀ u ∈ text.take a.toNat :: (lines ++ [text.drop b.toNat]), RecordText u := by
      intro u hu
      simp only [List.mem_cons, List.mem_append, List.not_mem_nil, or_false] at hu
      rcases hu with rfl | hu | rfl
      · exact hr1
      · exact hl u hu
      · exact hr2
    have hd := divided_of_texts hall
    have hflat : (text.take a.toNat :: (lines ++ [text.drop b.toNat])).flatten = text := by
      rw [List.flatten_cons, List.flatten_append, List.flatten_singleton, ← hlines, List.take_append_drop]
    rw [hflat] at hd
    have h16 : 16 ≤ (text.take a.toNat).length := by rw [List.length_take]; omega
    have ht' : Tells (text.take a.toNat) .character isVar := by
      rw [← List.take_append_drop a.toNat text, tells_append h16] at ht
      exact ht
    exact ((C108_iff p hp text _ _ hd .character isVar ht' (fun h => by cases h) f).1 ⟨fuel, h⟩).1

/-! ### Records that end in their segments and blanks -/

theorem bordered_of_blank {isVar : Bool} {first : Bytes} {ls : List Bytes} (hw : ∀ line ∈ ls, ∃ v, SignedDecimal (line.take 4) v)
    (hb : ∀ line ∈ ls.dropLast, ∃ pieces n, Shaped pieces ∧
      line.drop (tailStart .character isVar) = bytesOf pieces ++ List.replicate n ' '.toNat.toUInt8) :
    Bordered .character isVar (first :: ls) := by
  unfold Bordered
  rw [List.tail_cons]
  induction ls with
  | nil => simp
  | cons line ls ih =>
    cases ls with
    | nil => simp
    | cons next ls =>
      rw [List.isChain_cons_cons]
      refine ⟨?_, ih (fun l hm => hw l (List.mem_cons_of_mem _ hm)) fun l hm => hb l (by
        rw [List.dropLast_cons_of_ne_nil (by simp)]; exact List.mem_cons_of_mem _ hm)⟩
      obtain ⟨pieces, n, hs, e⟩ := hb line (by rw [List.dropLast_cons_of_ne_nil (by simp)]; exact List.mem_cons_self)
      obtain ⟨v, ds, x, hne, hd, hv⟩ := hw next (by simp)
      rintro ⟨l', u', k, h1, h2, h3, h4⟩
      have hno : NoSegment (List.replicate n ' '.toNat.toUInt8) := by
        intro k hk
        have : ∀ c ∈ segmentIdent k, c = ' '.toNat.toUInt8 := fun c hc => List.eq_of_mem_replicate (hk.subset hc)
        revert this
        cases k <;> decide
      have hu := segmented_unique (shaped_segmented (.done (.inr h3)) h1) (by rw [← h2, e]; exact shaped_segmented (.done (.inl hno)) hs)
      subst hu
      rw [e, List.append_cancel_left_eq] at h2
      subst h2
      have hk : ∃ c t, segmentIdent k = c :: t ∧ 74 ≤ c.toNat := by cases k <;> exact ⟨_, _, rfl, by decide⟩
      obtain ⟨c, t, hk, hc⟩ := hk
      rw [hk] at h4
      obtain ⟨w, h4⟩ := h4
      cases n with
      | succ n =>
        rw [List.replicate_succ] at h4
        simp only [List.cons_append, List.cons.injEq] at h4
        rw [h4.1] at hc
        exact absurd hc (by decide)
      | zero =>
        simp only [List.replicate_zero, List.nil_append, List.cons_append] at h4
        obtain ⟨d, ds', rfl⟩ := List.exists_cons_of_ne_nil hne
        have hd0 := hd.1 d List.mem_cons_self
        rw [← h4] at hv
        rcases hv with ⟨hv, -⟩ | ⟨hv, -⟩ | ⟨hv, -⟩
        · simp only [List.take_succ_cons, List.cons.injEq] at hv
          rw [← hv.1] at hd0
          have : '9'.toNat = 57 := rfl
          omega
        all_goals
          simp only [List.take_succ_cons, List.cons.injEq] at hv
          rw [hv.1] at hc
          exact absurd hc (by decide)

/-- C108, for the files that the program writes and their like: a character file whose records are followed by line breaks only, and whose data
records end in their segments and blanks, is read the same by both. (Missing: other texts; see C108_iff and C108_violated.) -/
theorem C108_partial (p : Plan) (hp : p.Progress) (raw : Bytes) (first : Bytes) (ls : List Bytes) (hd : Divided raw (first :: ls))
    (isVar : Bool) (ht : Tells first .character isVar) (hw : ∀ line ∈ ls, ∃ v, SignedDecimal (line.take 4) v)
    (hb : ∀ line ∈ ls.dropLast, ∃ pieces n, Shaped pieces ∧
      line.drop (tailStart .character isVar) = bytesOf pieces ++ List.replicate n ' '.toNat.toUInt8) (f : File)
    (hc : ls.length = f.bases.length + 1) :
    (∃ fuel, (newFile .character).parse fuel raw isVar = some (f, none)) ↔ readFile p raw = .ok f := by
  rw [C108_iff p hp raw first ls hd .character isVar ht (fun h => by cases h) f]
  exact ⟨fun h => h.1, fun h => ⟨h, hc, bordered_of_blank hw hb⟩⟩

/-! ### Where the two differ -/

/-- A data record with one byte behind its 426, the first letter of a segment's name. -/
def Samples.openLine : Bytes := (Record.base .character (base 0 427) {}).string.take 426 ++ b! "J"

/-- A header whose name is in small letters. -/
def Samples.smallHeader : Bytes := b! "0426header" ++ (Record.header .character (header 0 426)).string.drop 10

/-- A file whose first data record has one byte too many, and is followed by a long record. -/
def Samples.openText : List Bytes :=
  [(Record.header .character (header 0 426)).string, openLine, (Record.base .character (base 0 1000) {}).string,
    (Record.trailer .character (trailer 426)).string]

def Samples.smallText : List Bytes := [smallHeader, (Record.trailer .character (trailer 426)).string]

theorem openText_texts : ∀ u ∈ openText, RecordText u := by
  intro u hu
  simp only [openText, List.mem_cons, List.not_mem_nil, or_false] at hu
  rcases hu with rfl | rfl | rfl | rfl
  · exact recordText_of (enc := .character) (v := 426) (by decide +kernel) (by decide +kernel) (by decide +kernel) (by decide) (by decide)
  · exact recordText_of (enc := .character) (v := 427) (by decide +kernel) (by decide +kernel) (by decide +kernel) (by decide) (by decide)
  · exact recordText_of (enc := .character) (v := 1000) (by decide +kernel) (by decide +kernel) (by decide +kernel) (by decide) (by decide)
  · exact recordText_of (enc := .character) (v := 426) (by decide +kernel) (by decide +kernel) (by decide +kernel) (by decide) (by decide)

theorem smallText_texts : ∀ u ∈ smallText, RecordText u := by
  intro u hu
  simp only [smallText, List.mem_cons, List.not_mem_nil, or_false] at hu
  rcases hu with rfl | rfl
  · exact recordText_of (enc := .character) (v := 426) (by decide +kernel) (by decide +kernel) (by decide +kernel) (by decide) (by decide)
  · exact recordText_of (enc := .character) (v := 426) (by decide +kernel) (by decide +kernel) (by decide +kernel) (by decide) (by decide)

theorem readFile_texts {p : Plan} (hp : p.Progress) {t : Bytes} {ts : List Bytes} (h : ∀ u ∈ t :: ts, RecordText u) :
    readFile p (t :: ts).flatten = readLines (t :: ts) := by
  obtain ⟨ps, h1, h2, -⟩ := divided_of_texts h
  rw [readFile_lines hp h1, h2]

/-- C108 does not hold in full: a file that `Reader.Read` takes is refused by `File.Parse`, as the last byte of a record and the first one of the
next record are taken for the name of a segment; and a text that `File.Parse` takes is refused by `Reader.Read`, as the word header is in small
letters. -/
theorem C108_violated :
    (∃ raw f, (∀ p : Plan, p.Progress → readFile p raw = .ok f) ∧
      ∀ fuel f', (newFile .character).parse fuel raw false ≠ some (f', none)) ∧
    ∃ raw f, (∃ fuel, (newFile .character).parse fuel raw false = some (f, none)) ∧
      ∀ p : Plan, p.Progress → ∀ f', readFile p raw ≠ .ok f' := by
  refine ⟨?_, ?_⟩
  · have hs : (readLines openText).toOption.isSome = true := by decide +kernel
    cases hr : readLines openText with
    | error e => rw [hr] at hs; cases hs
    | ok f =>
      refine ⟨openText.flatten, f, fun p hp => ?_, fun fuel f' h => ?_⟩
      · rw [← hr]; exact readFile_texts hp openText_texts
      · have := ((C108_iff atOnce atOnce_progress _ _ _ (divided_of_texts openText_texts) .character false
          ⟨by decide +kernel, by decide +kernel⟩ (fun h => by cases h) f').1 ⟨fuel, h⟩).2.2
        unfold Bordered at this
        rw [List.tail_cons, List.isChain_cons_cons] at this
        exact this.1 ⟨[], b! "J", .j1, (by intro p hp; cases hp), by decide +kernel, by decide,
          List.isPrefixOf_iff_prefix.1 (by decide +kernel)⟩
  · have hs : ((newFile .character).parse 9 smallText.flatten false).map (fun x => x.2.isNone) = some true := by decide +kernel
    cases hr : (newFile .character).parse 9 smallText.flatten false with
    | none => rw [hr] at hs; cases hs
    | some x =>
      obtain ⟨f, e⟩ := x
      rw [hr] at hs
      cases e with
      | some e => cases hs
      | none =>
        refine ⟨smallText.flatten, f, ⟨9, hr⟩, fun p hp f' h => ?_⟩
        have h : readLines smallText = .ok f' := (readFile_texts hp smallText_texts).symm.trans h
        have hn : (readLines smallText).toOption.isSome = false := by decide +kernel
        rw [h] at hn
        cases hn

/-! ### Examples -/

theorem fixedFile_texts : ∀ u ∈ recordTexts fixedFile, RecordText u := goodFile_texts fixedFile_good (goodFile_noBreaks fixedFile_good)

/-- Case of `C108_iff`, for a file with line breaks: here `File.Parse` and `Reader.Read` both take it. -/
example : ∃ ls, Divided (fixedFile.string true) (fixedFile.header.string :: ls) ∧ Tells fixedFile.header.string .character false ∧
    Bordered .character false (fixedFile.header.string :: ls) ∧ ls.length = fixedFile.bases.length + 1 ∧
    readFile slow (fixedFile.string true) = .ok fixedFile := by
  have hd : Divided (fixedFile.string true) (recordTexts fixedFile) := by
    rw [File.string_eq]
    exact divided_join true fixedFile_texts
  have ht : Tells fixedFile.header.string .character false := ⟨by decide +kernel, by decide +kernel⟩
  obtain ⟨h1, h2, h3⟩ := (C108_iff slow slow_progress _ _ _ hd .character false ht (fun h => by cases h) fixedFile).1
    ⟨9, C43_character false fixedFile fixedFile_good true 9 (by decide)⟩
  exact ⟨_, hd, ht, h3, h2, h1⟩

/-- Case of `C108_iff`, for a packed file. -/
example : readFile slow (packedFile.string true) = .ok packedFile := by
  have hd : Divided (packedFile.string true) (recordTexts packedFile) := by
    rw [File.string_eq]
    exact divided_join true (goodFile_texts packedFile_good packedFile_noBreaks)
  refine ((C108_iff slow slow_progress _ _ _ hd .packed true ⟨by decide +kernel, by decide +kernel⟩ ?_ packedFile).1
    ⟨9, C43_packed_partial packedFile packedFile_good packedFile_noBreaks packedFile_noIdentSizes true 9 (by decide)⟩).1
  rintro - line hl v ⟨ds, n, -, hd, h⟩
  have h0 : ∀ line ∈ recordTexts packedFile, (line.take 4).getLast? = some 0 := by decide +kernel
  have h0 := h0 line hl
  have hds : ds.getLast? = some 0 := by
    rcases h with ⟨h, -⟩ | ⟨h, -⟩ | ⟨h, -⟩
    · rw [← h]; exact h0
    all_goals
      rw [h] at h0
      cases ds with
      | nil => simp at h0
      | cons d ds => rwa [List.getLast?_cons_cons] at h0
  have := (hd.1 0 (List.mem_of_getLast? hds)).1
  exact absurd this (by decide)

/-- Case of `C108_alone`. -/
example : readFile slow (fixedFile.string false) = .ok fixedFile :=
  (C108_alone slow slow_progress _ (by
      rw [File.string_eq, joinRecords_flatten]
      intro c hc
      obtain ⟨l, hl, hcl⟩ := List.mem_flatten.1 hc
      exact (fixedFile_texts l hl).noBreaks c hcl) false ⟨by decide +kernel, by decide +kernel⟩ 9 fixedFile
    (C43_character false fixedFile fixedFile_good false 9 (by decide))).2 ⟨by decide +kernel, fun h => by cases h⟩

/-- Case of `C108_partial`. The data records of the sample end in their segments and blanks. -/
example : ∀ line ∈ (fixedFile.bases.map Record.string ++ [fixedFile.trailer.string]).dropLast, ∃ pieces n, Shaped pieces ∧
    line.drop (tailStart .character false) = bytesOf pieces ++ List.replicate n ' '.toNat.toUInt8 := by
  intro line hl
  rw [List.dropLast_concat] at hl
  simp only [fixedFile, fileOf, List.map_cons, List.map_nil, List.mem_cons, List.not_mem_nil, or_false] at hl
  rcases hl with rfl | rfl
  · exact ⟨[], 0, (by intro p hp; cases hp), by decide +kernel⟩
  · exact ⟨written segs, 1200 - 426 - segs.string.length, written_shaped (segsOk_of_B (by decide +kernel)), by decide +kernel⟩

end Metro2
