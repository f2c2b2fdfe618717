import Verif.Lemmas.Stream

/-! `Reader.Read` as a function of the records of the stream; the records of the text of a file. -/

namespace Metro2

open Spec (withoutBreaks Piece Pieces recordsOf)

/-- The data record loop on a list of lines. -/
def lineBases (enc : Enc) (isVar : Bool) : List Bytes → List Record → Except Err (List Record × Option Bytes)
  | [], acc => .ok (acc, none)
  | line :: ls, acc =>
    match (newBase enc).parse line isVar with
    | (_, .error .panic) => .error .panic
    | (_, .error _) => .ok (acc, some line)
    | (b, .ok _) => lineBases enc isVar ls (acc ++ [b])

theorem readBases_none {p : Plan} {enc : Enc} {isVar : Bool} {s t : Scanner} {acc : List Record}
    (h : s.scan p = (t, none)) : readBases p enc isVar s acc = .ok (acc, none, t) := by
  rw [readBases]
  split
  · next h' => rw [h] at h'; cases h'; rfl
  · next h' => rw [h] at h'; simp at h'

theorem readBases_some {p : Plan} {enc : Enc} {isVar : Bool} {s t : Scanner} {acc : List Record} {line : Bytes}
    (h : s.scan p = (t, some line)) : readBases p enc isVar s acc =
      match (newBase enc).parse line isVar with
      | (_, .error .panic) => .error .panic
      | (_, .error _) => .ok (acc, some line, t)
      | (b, .ok _) => readBases p enc isVar t (acc ++ [b]) := by
  rw [readBases]
  split
  · next h' => rw [h] at h'; simp at h'
  · next h' => rw [h] at h'; cases h'; rfl

theorem readBases_lines {p : Plan} (hp : p.Progress) {enc : Enc} {isVar : Bool} {raw : Bytes} {ps : List Bytes}
    (h : Pieces raw ps) : ∀ (s : Scanner) (acc : List Record), s.Ok → s.input = raw →
    match lineBases enc isVar (recordsOf ps) acc with
    | .error e => readBases p enc isVar s acc = .error e
    | .ok (bs, some line) => ∃ t, readBases p enc isVar s acc = .ok (bs, some line, t)
    | .ok (bs, none) => ∃ t u, readBases p enc isVar s acc = .ok (bs, none, t) ∧ t.scan p = (u, none) := by
  have stuck : ∀ (s : Scanner) (acc : List Record), s.Ok → Stuck s.input →
      ∃ t u, readBases p enc isVar s acc = .ok (acc, none, t) ∧ t.scan p = (u, none) := by
    intro s acc hs hn
    obtain ⟨t, ht, h1, h2⟩ := Scanner.scan_none hp hs hn
    obtain ⟨u, hu, -, -⟩ := Scanner.scan_none hp h1 h2
    exact ⟨t, u, readBases_none ht, hu⟩
  induction h with
  | nil hno =>
    intro s acc hs hi
    exact stuck s acc hs (hi ▸ stuck_of_nil hno)
  | @cons a b ps ha _ ih =>
    intro s acc hs hi
    rw [recordsOf_cons]
    by_cases hl : a.length ≤ maxTokenSize
    · rw [if_pos hl]
      obtain ⟨t, ht, h1, h2⟩ := Scanner.scan_some hp hs hi ha hl
      rw [readBases_some ht, lineBases]
      generalize (newBase enc).parse (withoutBreaks a) isVar = q
      obtain ⟨r, x⟩ := q
      cases x with
      | error e => cases e <;> simp
      | ok n => exact ih t (acc ++ [r]) h1 h2
    · rw [if_neg hl]
      exact stuck s acc hs (hi ▸ stuck_of_long ha (by omega))

/-- `Reader.Read` on a list of lines. -/
def readLines : List Bytes → Except Err File
  | [] => .error .invalidSegment
  | line :: ls =>
    match readHeader (newFile .character) line with
    | .error e => .error e
    | .ok (f, isVar) =>
      match lineBases f.format isVar ls [] with
      | .error e => .error e
      | .ok (bs, some line) => readTrailer { f with bases := bs } line isVar
      | .ok (_, none) => .error .invalidSegment

theorem readFile_lines {p : Plan} (hp : p.Progress) {raw : Bytes} {ps : List Bytes} (h : Pieces raw ps) :
    readFile p raw = readLines (recordsOf ps) := by
  have hok := newScanner_ok raw
  have hin := newScanner_input raw
  have stuck : Stuck raw → readFile p raw = .error .invalidSegment := by
    intro hn
    obtain ⟨t, ht, -, -⟩ := Scanner.scan_none hp hok (hin.symm ▸ hn)
    unfold readFile
    simp only
    rw [ht]
  cases h with
  | nil hno => exact stuck (stuck_of_nil hno)
  | @cons a b ps ha hb =>
    rw [recordsOf_cons]
    by_cases hl : a.length ≤ maxTokenSize
    · rw [if_pos hl]
      obtain ⟨t, ht, h1, h2⟩ := Scanner.scan_some hp hok hin ha hl
      unfold readFile readLines
      simp only
      rw [ht]
      simp only
      generalize readHeader (newFile .character) (withoutBreaks a) = q
      cases q with
      | error e => rfl
      | ok q =>
        obtain ⟨f, isVar⟩ := q
        have := readBases_lines hp (enc := f.format) (isVar := isVar) hb t [] h1 h2
        simp only
        generalize lineBases f.format isVar (recordsOf ps) [] = r at this
        cases r with
        | error e => rw [this]
        | ok r =>
          obtain ⟨bs, line⟩ := r
          cases line with
          | some line =>
            obtain ⟨t, ht⟩ := this
            rw [ht]
          | none =>
            obtain ⟨t, u, ht, hu⟩ := this
            rw [ht]
            simp only
            rw [hu]
    · rw [if_neg hl]
      exact stuck (stuck_of_long ha (by omega))

/-! ### The records of a text -/

/-- A text that is a record: it begins with its length, and contains no line break. -/
structure RecordText (t : Bytes) : Prop where
  noBreaks : Spec.NoBreaks t
  four : 4 ≤ t.length
  announces : Spec.Announces (t.take 4) t.length

theorem RecordText.piece {t : Bytes} (h : RecordText t) (nl : Bool) : Piece (newLine nl ++ t) := by
  have h0 : withoutBreaks (newLine nl ++ t) = t := by
    rw [withoutBreaks_append, withoutBreaks_of_noBreaks h.noBreaks]
    cases nl <;> rfl
  refine ⟨?_, ?_, ?_⟩
  · rw [h0]; exact h.four
  · rw [h0]; exact h.announces
  · intro c hc
    have hne : t ≠ [] := by rintro rfl; exact absurd h.four (by decide)
    rw [List.getLast?_append_of_ne_nil _ hne] at hc
    exact h.noBreaks c (List.mem_of_mem_getLast? hc)

theorem RecordText.withoutBreaks {t : Bytes} (h : RecordText t) (nl : Bool) :
    Spec.withoutBreaks (newLine nl ++ t) = t := by
  rw [withoutBreaks_append, withoutBreaks_of_noBreaks h.noBreaks]
  cases nl <;> rfl

theorem RecordText.fits {t : Bytes} (h : RecordText t) (nl : Bool) : (newLine nl ++ t).length ≤ maxTokenSize := by
  have h1 := announces_le (by rw [List.length_take]; have := h.four; omega) h.announces
  rw [List.length_append]
  have h2 : (newLine nl).length ≤ 1 := by cases nl <;> decide
  have h3 : maxTokenSize = 65536 := rfl
  omega

theorem pieces_texts (nl : Bool) (ts : List Bytes) (hts : ∀ t ∈ ts, RecordText t) {extra : Bytes} {es : List Bytes}
    (he : Pieces extra es) :
    ∃ ps, Pieces ((ts.map (newLine nl ++ ·)).flatten ++ extra) ps ∧ recordsOf ps = ts ++ recordsOf es := by
  induction ts with
  | nil => exact ⟨es, he, rfl⟩
  | cons t ts ih =>
    obtain ⟨ps, h1, h2⟩ := ih fun u hu => hts u (List.mem_cons_of_mem _ hu)
    have ht := hts t List.mem_cons_self
    refine ⟨(newLine nl ++ t) :: ps, ?_, ?_⟩
    · rw [List.map_cons, List.flatten_cons, List.append_assoc]
      exact .cons (ht.piece nl) h1
    · rw [recordsOf_cons, if_pos (ht.fits nl), h2, ht.withoutBreaks]
      rfl

theorem joinRecords_cons (nl : Bool) (t : Bytes) (ts : List Bytes) :
    Spec.joinRecords nl (t :: ts) = t ++ (ts.map (newLine nl ++ ·)).flatten := by
  induction ts generalizing t with
  | nil => simp [Spec.joinRecords]
  | cons u ts ih =>
    rw [Spec.joinRecords, ih]
    cases nl <;> simp [newLine]

theorem pieces_join (nl : Bool) (t : Bytes) (ts : List Bytes) (hts : ∀ u ∈ t :: ts, RecordText u) {extra : Bytes}
    {es : List Bytes} (he : Pieces extra es) :
    ∃ ps, Pieces (Spec.joinRecords nl (t :: ts) ++ extra) ps ∧ recordsOf ps = t :: ts ++ recordsOf es := by
  obtain ⟨ps, h1, h2⟩ := pieces_texts nl ts (fun u hu => hts u (List.mem_cons_of_mem _ hu)) he
  have ht := hts t List.mem_cons_self
  refine ⟨t :: ps, ?_, ?_⟩
  · rw [joinRecords_cons, List.append_assoc]
    exact .cons (ht.piece false) h1
  · rw [recordsOf_cons, if_pos (show t.length ≤ maxTokenSize from ht.fits false), h2, withoutBreaks_of_noBreaks ht.noBreaks]
    rfl

/-! ### Records as texts -/

theorem firstWord_announces {enc : Enc} {n : Nat} (h1 : enc.recordLength ≤ n) (h2 : (n : Int) ≤ wordMax enc) :
    Spec.Announces (firstWord enc n) n := by
  rw [← scanSize_iff (firstWord_length enc n)]
  cases enc with
  | character =>
    simp only [wordMax, Enc.recordLength] at h1 h2
    unfold scanSize
    have : parseIntBits 32 (firstWord .character n) = .ok (n : Int) := by
      rw [parseIntBits_ok_iff]
      refine ⟨⟨decDigits 4 n, n, ?_, ?_, .inl ⟨?_, rfl⟩⟩, by omega, by omega⟩
      · intro h
        have := length_decDigits 4 n
        rw [h] at this
        simp at this
      · rw [spec_decimal_iff]
        exact ⟨decDigits_all 4 n, digitsVal_decDigits_of_lt (by omega)⟩
      · simp [firstWord]
    rw [this]
    simp only
    rw [if_neg (by omega)]
    simp
  | packed =>
    simp only [wordMax, Enc.recordLength] at h1 h2
    unfold scanSize
    have hf : firstWord .packed n = beBytes 2 n ++ [0, 0] := by simp [firstWord]
    have : ∃ e, parseIntBits 32 (firstWord .packed n) = .error e := by
      cases hq : parseIntBits 32 (firstWord .packed n) with
      | error e => exact ⟨e, rfl⟩
      | ok v =>
        exfalso
        obtain ⟨⟨ds, m, -, hd, hs⟩, -⟩ := parseIntBits_ok_iff.1 hq
        have hz : (0 : UInt8) ∈ ds := by
          rw [hf] at hs
          have hl : (beBytes 2 n).length = 2 := length_beBytes 2 n
          rcases hs with ⟨h, -⟩ | ⟨h, -⟩ | ⟨h, -⟩
          · rw [← h]; simp
          · have := congrArg (List.drop 1) h
            rw [List.drop_append_of_le_length (by omega)] at this
            simp only [List.drop_succ_cons, List.drop_zero] at this
            rw [← this]; simp
          · have := congrArg (List.drop 1) h
            rw [List.drop_append_of_le_length (by omega)] at this
            simp only [List.drop_succ_cons, List.drop_zero] at this
            rw [← this]; simp
        exact absurd (hd.1 0 hz).1 (by decide)
    obtain ⟨e, he⟩ := this
    rw [he]
    simp only
    have hb : beVal ((firstWord .packed n).take 2) = n := by
      rw [hf, List.take_append_of_le_length (by simp), List.take_of_length_le (by simp)]
      rw [beVal_beBytes]; exact Nat.mod_eq_of_lt (by omega)
    rw [hb, if_neg (by omega)]

theorem recordText_of {enc : Enc} {t : Bytes} {v : Int} (hn : Spec.NoBreaks t) (h1 : t.take 4 = firstWord enc v)
    (h2 : (t.length : Int) = v) (h3 : (enc.recordLength : Int) ≤ v) (h4 : v ≤ wordMax enc) : RecordText t := by
  have hr : 4 ≤ enc.recordLength := by cases enc <;> decide
  subst h2
  refine ⟨hn, by omega, ?_⟩
  rw [h1]
  exact firstWord_announces (by omega) h4

/-! ### The header -/

/-- The record descriptor as it is written. -/
def rdwText (enc : Enc) (v : Int) : Bytes := toStr (rdwField enc) (some (.int v))

/-- The beginning of the text of a header. -/
theorem header_shape {enc : Enc} {isVar : Bool} {fs : Fields} (h : Spec.GoodHeader enc isVar fs) :
    ∃ X, (Record.header enc fs).string =
      (if isVar then firstWord enc (Spec.bdw fs) else []) ++ (rdwText enc (Spec.rdw fs) ++ (b! "HEADER" ++ X)) ∧
      (rdwText enc (Spec.rdw fs)).length = 4 := by
  have hb := h.bdw
  rw [wordMax_eq] at hb
  obtain ⟨b, r, fr, hfs, -, hr, -⟩ := (blocked_header enc).shape h.typed
  have hm : (F.RecordDescriptorWord, Val.int r) ∈ fs := by rw [hfs]; simp
  have he : (F.RecordDescriptorWord, rdwField enc) ∈ enc.headerFormat := lookup_mem (blocked_header enc).rdw
  have s1 := (layout_header enc).slot h.typed h.fits [] [] hm (by simp) he
  have s2 := (layout_header enc).slot h.typed h.fits [] [] h.ident (by simp) (header_rows enc)
  have e1 : (rdwField enc).start = 0 := by cases enc <;> rfl
  have e2 : (rdwField enc).len = 4 := by cases enc <;> rfl
  rw [e1, e2] at s1
  simp only [List.length_nil, Nat.zero_add, List.drop_zero, List.nil_append, List.append_nil] at s1 s2
  have hid : toStr (⟨4, 6, .alphanumeric, false, false, .required⟩ : Field)
      (some (.str "HEADER".toUTF8.data.toList)) = b! "HEADER" := by
    rw [toStr_text (h.fits _ h.ident (by simp) _ (header_rows enc))]
    decide +kernel
  rw [hid] at s2
  have hmain : mainText enc.headerFormat fs =
      rdwText enc (Spec.rdw fs) ++ (b! "HEADER" ++ (mainText enc.headerFormat fs).drop 10) := by
    have : Spec.rdw fs = r := hr
    rw [this, rdwText, ← s1, ← s2]
    conv_lhs => rw [← List.take_append_drop 4 (mainText enc.headerFormat fs)]
    congr 1
    conv_lhs => rw [← List.take_append_drop 6 ((mainText enc.headerFormat fs).drop 4), List.drop_drop]
  have hbt : toStr (bdwField enc) (some (.int (fs.int .BlockDescriptorWord))) =
      if isVar then firstWord enc (Spec.bdw fs) else [] := by
    cases isVar with
    | true => simp only [if_true] at hb ⊢; exact toStr_bdw hb.1 hb.2
    | false =>
      simp only [Bool.false_eq_true, if_false] at hb ⊢
      rw [show fs.int .BlockDescriptorWord = 0 from hb]
      exact bdwText_zero enc
  rw [Record.string, padTo, (layout_header enc).text, (blocked_header enc).bdwText h.typed, hbt]
  generalize List.replicate _ (32 : UInt8) = pad
  rw [hmain]
  refine ⟨(mainText enc.headerFormat fs).drop 10 ++ pad, by simp only [List.append_assoc], ?_⟩
  rw [show Spec.rdw fs = r from hr, rdwText, ← s1, List.length_take, Nat.min_eq_left]
  have := congrArg List.length s2
  rw [List.length_take] at this
  have h6 : (b! "HEADER").length = 6 := by decide
  rw [h6, List.length_drop] at this
  omega

theorem header_rdwText {enc : Enc} {isVar : Bool} {fs : Fields} (h : Spec.GoodHeader enc isVar fs)
    (h0 : 0 ≤ Spec.rdw fs) : rdwText enc (Spec.rdw fs) = firstWord enc (Spec.rdw fs) := by
  obtain ⟨b, r, fr, hfs, -, hr, -⟩ := (blocked_header enc).shape h.typed
  have hm : (F.RecordDescriptorWord, Val.int r) ∈ fs := by rw [hfs]; simp
  have he : (F.RecordDescriptorWord, rdwField enc) ∈ enc.headerFormat := lookup_mem (blocked_header enc).rdw
  have hr' : Spec.rdw fs = r := hr
  rw [hr'] at h0 ⊢
  exact toStr_rdw h0 (rdw_bounds h.fits hm he)

/-- The text of a record descriptor. -/
theorem rdwText_cases (enc : Enc) (v : Int) (hl : (rdwText enc v).length = 4) : ∃ a b c d, rdwText enc v = [a, b, c, d] ∧
    (enc = .character → c ≠ 0) := by
  obtain ⟨a, b, c, d, hf⟩ : ∃ a b c d, rdwText enc v = [a, b, c, d] := by
    match h : rdwText enc v with
    | [] | [_] | [_, _] | [_, _, _] => rw [h] at hl; simp at hl
    | [a, b, c, d] => exact ⟨a, b, c, d, rfl⟩
    | _ :: _ :: _ :: _ :: _ :: _ => rw [h] at hl; simp at hl
  refine ⟨a, b, c, d, hf, ?_⟩
  rintro rfl rfl
  have h0 : (0 : UInt8) ∈ rdwText .character v := by rw [hf]; simp
  unfold rdwText at h0
  rw [toStr_some (by simp [rdwField])] at h0
  simp only [rdwField, valText] at h0
  rw [fmtZeroStr_ascii (ascii_fmtInt v)] at h0
  rcases List.mem_append.1 h0 with h0 | h0
  · exact absurd (List.eq_of_mem_replicate h0) (by decide)
  · have h1 := List.mem_of_mem_take h0
    cases v with
    | ofNat n => exact absurd (fmtNat_all n 0 h1) (by decide)
    | negSucc n =>
      rcases List.mem_cons.1 h1 with h1 | h1
      · exact absurd h1 (by decide)
      · exact absurd (fmtNat_all _ 0 h1) (by decide)

theorem firstWord_cases (enc : Enc) (v : Int) : ∃ a b c d, firstWord enc v = [a, b, c, d] ∧
    (enc = .character → c ≠ 0) ∧ (enc = .packed → c = 0 ∧ d = 0) := by
  have hl := firstWord_length enc v
  obtain ⟨a, b, c, d, hf⟩ : ∃ a b c d, firstWord enc v = [a, b, c, d] := by
    match h : firstWord enc v with
    | [] | [_] | [_, _] | [_, _, _] => rw [h] at hl; simp at hl
    | [a, b, c, d] => exact ⟨a, b, c, d, rfl⟩
    | _ :: _ :: _ :: _ :: _ :: _ => rw [h] at hl; simp at hl
  refine ⟨a, b, c, d, hf, ?_, ?_⟩
  · rintro rfl rfl
    have := decDigits_all 4 v.toNat 0 (by rw [show decDigits 4 v.toNat = [a, b, 0, d] from hf]; simp)
    exact absurd this (by decide)
  · rintro rfl
    have : beBytes 2 v.toNat ++ [0, 0] = [a, b, c, d] := hf
    have h2 := congrArg (List.drop 2) this
    rw [List.drop_left' (length_beBytes 2 _)] at h2
    simp only [List.drop_succ_cons, List.drop_zero, List.cons.injEq] at h2
    exact ⟨h2.1.symm, h2.2.1.symm⟩

theorem header_checks {enc : Enc} {isVar : Bool} {fs : Fields} (h : Spec.GoodHeader enc isVar fs) :
    isMetroFile (Record.header enc fs).string = true ∧
    isPacked (Record.header enc fs).string = .ok (enc == .packed) ∧
    isVariableLength (Record.header enc fs).string = isVar := by
  have hl := header_text_length h
  have hs := h.size
  have hr : 366 ≤ Spec.recordLength enc := by cases enc <;> decide
  have hfl : Spec.recordLength enc ≤ Spec.fixedLength enc fs := Nat.le_add_right _ _
  have hp := h.packed
  obtain ⟨X, hX, hW⟩ := header_shape h
  obtain ⟨a, b, c, d, e1, e2, e3⟩ := firstWord_cases enc (Spec.bdw fs)
  obtain ⟨a', b', c', d', f1, f2⟩ := rdwText_cases enc (Spec.rdw fs) hW
  have hid : b! "HEADER" = [72, 69, 65, 68, 69, 82] := by decide +kernel
  generalize (Record.header enc fs).string = t at hX hl
  have hlen : 366 ≤ t.length := by omega
  rw [e1, f1, hid] at hX
  unfold isMetroFile isPacked isVariableLength
  rw [if_neg (by omega), hid]
  have h15 : decide (15 < t.length) = true := by simp; omega
  rw [h15]
  cases isVar with
  | true =>
    simp only [if_true, List.cons_append, List.nil_append] at hX
    subst hX
    refine ⟨by simp, ?_, ?_⟩
    · cases enc with
      | character =>
        simp only [List.getElem?_cons_succ, List.getElem?_cons_zero]
        rw [if_neg (fun hh => e2 rfl hh.1)]
        simp [f2 rfl]
      | packed =>
        simp only [List.getElem?_cons_succ, List.getElem?_cons_zero]
        rw [if_pos (e3 rfl)]
        rfl
    · simp only [List.drop_succ_cons, List.drop_zero, List.take_succ_cons, List.take_zero, Bool.true_and]
      decide +kernel
  | false =>
    cases enc with
    | packed => exact absurd (hp rfl) (by simp)
    | character =>
      simp only [Bool.false_eq_true, if_false, List.cons_append, List.nil_append] at hX
      subst hX
      refine ⟨by simp, ?_, ?_⟩
      · simp only [List.getElem?_cons_succ, List.getElem?_cons_zero]
        rw [if_neg (fun hh => f2 rfl hh.1)]
        rfl
      · simp only [List.drop_succ_cons, List.drop_zero, List.take_succ_cons, Bool.true_and, toUpper, List.map_cons]
        have : upperByte 69 = 69 := by decide
        rw [this]
        simp

theorem setType_new (enc : Enc) :
    ((newFile .character).setType (if (enc == .packed) = true then Enc.packed.name else messageMetroFormat)).1 =
      newFile enc := by
  cases enc
  · have : (Enc.character == Enc.packed) = false := by decide
    rw [this, if_neg (by simp)]
    unfold File.setType
    rw [if_pos (by decide +kernel)]
  · have : (Enc.packed == Enc.packed) = true := by decide
    rw [this, if_pos rfl]
    unfold File.setType
    rw [if_neg (by decide +kernel)]
    simp only
    rw [if_neg (show ¬ Enc.packed.name = Enc.character.name by decide +kernel), if_neg (by decide)]
    rfl

theorem readHeader_text {enc : Enc} {isVar : Bool} {fs : Fields} (h : Spec.GoodHeader enc isVar fs) :
    readHeader (newFile .character) (Record.header enc fs).string =
      .ok ({ newFile enc with header := .header enc fs }, isVar) := by
  obtain ⟨h1, h2, h3⟩ := header_checks h
  have h4 := header_reread h []
  rw [List.append_nil] at h4
  unfold readHeader
  rw [h1, h2, h3]
  simp only [Bool.not_true, Bool.false_eq_true, if_false, setType_new]
  rw [show (newFile enc).header = newHeader enc from rfl, h4]

/-! ### The file -/

theorem lineBases_text {enc : Enc} {isVar : Bool} {tfs : Fields} (htr : Spec.GoodTrailer enc tfs) (more : List Bytes) :
    ∀ (bs acc : List Record), (∀ r ∈ bs, ∃ fs g, r = .base enc fs g ∧ Spec.GoodData enc isVar fs g) →
    lineBases enc isVar (bs.map Record.string ++ ((Record.trailer enc tfs).string :: more)) acc =
      .ok (acc ++ bs, some (Record.trailer enc tfs).string) := by
  intro bs
  induction bs with
  | nil =>
    intro acc _
    obtain ⟨b, err, he, hne⟩ := base_of_trailer htr isVar []
    rw [List.append_nil] at he
    simp only [List.map_nil, List.nil_append, List.append_nil, lineBases]
    rw [he]
    cases err <;> first | rfl | exact absurd rfl hne
  | cons b bs ih =>
    intro acc hbs
    obtain ⟨fs, g, rfl, hg⟩ := hbs b List.mem_cons_self
    have hread := base_reread hg.base (rest := []) (fun _ => by
      intro k hk
      have := hk.length_le
      revert this
      cases k <;> decide +kernel)
    rw [List.append_nil] at hread
    simp only [List.map_cons, List.cons_append, lineBases]
    rw [hread]
    simp only
    rw [ih _ fun r hr => hbs r (List.mem_cons_of_mem _ hr)]
    simp

theorem readLines_text {enc : Enc} {isVar : Bool} {f : File} (h : Spec.GoodFile enc isVar f) (more : List Bytes) :
    readLines (Spec.recordTexts f ++ more) = .ok f := by
  obtain ⟨format, header, bases, trailer⟩ := f
  obtain ⟨h0, ⟨hfs, h1, hh⟩, hbs, ⟨tfs, h2, htr⟩⟩ := h
  simp only at h0 h1 h2 hbs
  subst h0 h1 h2
  simp only [Spec.recordTexts, List.cons_append, List.nil_append, List.append_assoc, readLines]
  rw [readHeader_text hh]
  simp only [newFile]
  rw [lineBases_text (isVar := isVar) htr more bases [] hbs]
  simp only [List.nil_append, readTrailer]
  have := C18_trailer format tfs htr.typed htr.fits isVar []
  rw [List.append_nil] at this
  rw [this]

theorem goodFile_texts {enc : Enc} {isVar : Bool} {f : File} (h : Spec.GoodFile enc isVar f)
    (hb : ∀ t ∈ Spec.recordTexts f, Spec.NoBreaks t) : ∀ t ∈ Spec.recordTexts f, RecordText t := by
  intro t ht
  have hnb := hb t ht
  obtain ⟨h0, ⟨hfs, h1, hh⟩, hbs, ⟨tfs, h2, htr⟩⟩ := h
  have hrl : Spec.recordLength enc = enc.recordLength := by cases enc <;> rfl
  simp only [Spec.recordTexts, List.cons_append, List.nil_append, List.mem_cons, List.mem_append, List.mem_map,
    List.not_mem_nil, or_false] at ht
  rcases ht with rfl | ⟨r, hr, rfl⟩ | rfl
  · rw [h1] at hnb ⊢
    have e1 := header_first hh []
    rw [List.append_nil] at e1
    have e2 := hh.size
    have hfl : Spec.recordLength enc ≤ Spec.fixedLength enc hfs := Nat.le_add_right _ _
    exact recordText_of hnb e1 (header_text_length hh) (by omega)
      (sizeWord_le (blocked_header enc) hh.typed hh.fits hh.bdw)
  · obtain ⟨fs, g, rfl, hg⟩ := hbs r hr
    have e1 := base_first hg.base []
    rw [List.append_nil] at e1
    have e2 := hg.base.size
    have hfl : Spec.recordLength enc ≤ Spec.contentLength enc fs g :=
      Nat.le_trans (Nat.le_add_right _ _) (Nat.le_add_right _ _)
    exact recordText_of hnb e1 (base_text_length hg) (by omega)
      (sizeWord_le (blocked_base enc) hg.base.typed hg.base.fits hg.base.bdw)
  · rw [h2] at hnb ⊢
    have e1 := trailer_first htr []
    rw [List.append_nil] at e1
    have e2 := htr.size
    exact recordText_of hnb e1 (trailer_text_length htr) (by omega)
      (rdw_bounds htr.fits (trailer_rdw_mem htr.typed) (trailer_rows enc).1)

/-- Reading the text of a well-formed file, followed by any data whatever. -/
theorem readFile_text {enc : Enc} {isVar : Bool} {f : File} (h : Spec.GoodFile enc isVar f)
    (hb : ∀ t ∈ Spec.recordTexts f, Spec.NoBreaks t) (nl : Bool) (extra : Bytes) {p : Plan} (hp : p.Progress) :
    readFile p (f.string nl ++ extra) = .ok f := by
  obtain ⟨es, he⟩ := pieces_exist extra
  have hts := goodFile_texts h hb
  obtain ⟨ps, h1, h2⟩ := pieces_join nl f.header.string (f.bases.map Record.string ++ [f.trailer.string]) hts he
  rw [File.string_eq]
  rw [show Spec.recordTexts f = f.header.string :: (f.bases.map Record.string ++ [f.trailer.string]) from rfl]
  rw [readFile_lines hp (ps := ps) h1, h2]
  exact readLines_text h _

end Metro2
