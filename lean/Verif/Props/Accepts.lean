import Verif.Props.Damage
import Verif.Props.Cycle
import Verif.Props.PackedParse
import Verif.Spec.Accepts

/-! Property C102: exactly which streams are taken for Metro 2 files, and for which. -/

namespace Metro2

open Samples Spec

/-! ### Lemmas -/

theorem headerAt_apart {line : Bytes} (h4 : HeaderAt 4 line) (h8 : toUpper ((line.drop 8).take 6) = [72, 69, 65, 68, 69, 82]) : False := by
  unfold HeaderAt at h4
  have e1 : ((line.drop 4).take 6)[4]? = some 69 := by rw [h4]; rfl
  have e2 : (toUpper ((line.drop 8).take 6))[0]? = some 72 := by rw [h8]; rfl
  rw [List.getElem?_take, if_pos (by decide), List.getElem?_drop] at e1
  simp only [toUpper, List.getElem?_map, Option.map_eq_some_iff] at e2
  obtain ⟨c, hc, hu⟩ := e2
  rw [List.getElem?_take, if_pos (by decide), List.getElem?_drop] at hc
  have : line[8]? = some c := hc
  rw [show (4 + 4 : Nat) = 8 from rfl, this] at e1
  cases e1
  exact absurd hu (by decide)

/-- What the checks on the first record find. -/
theorem tells_iff {line : Bytes} (hl : 366 ≤ line.length) (enc : Enc) (isVar : Bool) :
    Tells line enc isVar ↔ isMetroFile line = true ∧ isPacked line = .ok (enc == .packed) ∧ isVariableLength line = isVar := by
  have hid : b! "HEADER" = [72, 69, 65, 68, 69, 82] := by decide +kernel
  have h2 : line[2]? = some (line[2]'(by omega)) := List.getElem?_eq_getElem _
  have h3 : line[3]? = some (line[3]'(by omega)) := List.getElem?_eq_getElem _
  have h6 : line[6]? = some (line[6]'(by omega)) := List.getElem?_eq_getElem _
  have h7 : line[7]? = some (line[7]'(by omega)) := List.getElem?_eq_getElem _
  have hp : isPacked line = .ok (enc == .packed) ↔
      (enc = .packed ↔ (line[2]? = some 0 ∧ line[3]? = some 0) ∨ (line[6]? = some 0 ∧ line[7]? = some 0)) := by
    unfold isPacked
    rw [h2, h3, h6, h7]
    simp only [Option.some.injEq]
    generalize line[2]'(by omega) = a
    generalize line[3]'(by omega) = b
    generalize line[6]'(by omega) = c
    generalize line[7]'(by omega) = d
    by_cases h1 : a = 0 ∧ b = 0
    · rw [if_pos h1]; cases enc <;> simp [h1]
    · rw [if_neg h1]
      by_cases h2 : c = 0 ∧ d = 0
      · cases enc <;> simp [h1, h2]
      · cases enc <;> simp [h1, h2]
  have hm : isMetroFile line = true ↔ HeaderAt 4 line ∨ HeaderAt 8 line := by
    unfold isMetroFile HeaderAt
    rw [if_neg (by omega), hid]
    simp
  have hv : isVariableLength line = true ↔ toUpper ((line.drop 8).take 6) = [72, 69, 65, 68, 69, 82] := by
    unfold isVariableLength
    rw [hid, decide_eq_true (by omega : 15 < line.length)]
    simp
  have h8 : HeaderAt 8 line → toUpper ((line.drop 8).take 6) = [72, 69, 65, 68, 69, 82] := by
    intro h
    rw [show (line.drop 8).take 6 = _ from h]
    decide +kernel
  rw [hp, hm]
  constructor
  · rintro ⟨hw, hf⟩
    cases isVar with
    | false => exact ⟨.inl hw, hf, Bool.eq_false_iff.2 fun h => headerAt_apart hw (hv.1 h)⟩
    | true => exact ⟨.inr hw, hf, hv.2 (h8 hw)⟩
  · rintro ⟨hw, hf, e⟩
    refine ⟨?_, hf⟩
    cases isVar with
    | false =>
      rcases hw with hw | hw
      · exact hw
      · rw [hv.2 (h8 hw)] at e; simp at e
    | true =>
      rcases hw with hw | hw
      · exact (headerAt_apart hw (hv.1 e)).elim
      · exact hw

theorem readHeader_ok {line : Bytes} (hl : 366 ≤ line.length) {f : File} {isVar : Bool} :
    readHeader (newFile .character) line = .ok (f, isVar) ↔ ∃ enc h n, Tells line enc isVar ∧
      (newHeader enc).parse line isVar = (h, .ok n) ∧ f = { newFile enc with header := h } := by
  constructor
  · intro h
    unfold readHeader at h
    split at h
    · cases h
    · next hm =>
      simp only [Bool.not_eq_true', Bool.not_eq_false] at hm
      split at h
      · cases h
      · next packed hp =>
        obtain ⟨enc, he⟩ : ∃ enc : Enc, packed = (enc == .packed) := by
          cases packed
          · exact ⟨.character, by decide⟩
          · exact ⟨.packed, by decide⟩
        subst he
        simp only [setType_new] at h
        generalize hq : (newFile enc).header.parse line (isVariableLength line) = q at h
        obtain ⟨h', x⟩ := q
        cases x with
        | error e => cases h
        | ok n =>
          simp only [Except.ok.injEq, Prod.mk.injEq] at h
          obtain ⟨rfl, rfl⟩ := h
          exact ⟨enc, h', n, (tells_iff hl _ _).2 ⟨hm, hp, rfl⟩, hq, rfl⟩
  · rintro ⟨enc, h, n, ht, hq, rfl⟩
    obtain ⟨k1, k2, k3⟩ := (tells_iff hl _ _).1 ht
    unfold readHeader
    rw [k1, k2, k3]
    simp only [Bool.not_true, Bool.false_eq_true, if_false, setType_new]
    rw [show (newFile enc).header = newHeader enc from rfl, hq]

theorem lineBases_ok {enc : Enc} {isVar : Bool} {bs : List Record} {last : Bytes} : ∀ (lines : List Bytes) (acc : List Record),
    lineBases enc isVar lines acc = .ok (bs, some last) ↔ ∃ datas rest new, lines = datas ++ last :: rest ∧ bs = acc ++ new ∧
      List.Forall₂ (fun line r => ∃ k, (newBase enc).parse line isVar = (r, .ok k)) datas new ∧
      ∀ r k, (newBase enc).parse last isVar ≠ (r, .ok k) := by
  intro lines
  induction lines with
  | nil =>
    intro acc
    simp [lineBases]
  | cons line ls ih =>
    intro acc
    have hpanic := (C13_record (newBase enc) (zeroFields_typed _) line isVar).1
    rw [lineBases]
    generalize hq : (newBase enc).parse line isVar = q at hpanic
    obtain ⟨r, x⟩ := q
    cases x with
    | ok n =>
      simp only
      rw [ih]
      constructor
      · rintro ⟨datas, rest, new, rfl, rfl, h1, h2⟩
        exact ⟨line :: datas, rest, r :: new, rfl, by simp, .cons ⟨n, hq⟩ h1, h2⟩
      · rintro ⟨datas, rest, new, e, rfl, h1, h2⟩
        cases h1 with
        | nil =>
          rw [List.nil_append] at e
          obtain ⟨rfl, -⟩ := List.cons.inj e
          exact absurd hq (h2 r n)
        | @cons a b l m hab h1 =>
          rw [List.cons_append] at e
          obtain ⟨rfl, rfl⟩ := List.cons.inj e
          obtain ⟨k, hk⟩ := hab
          rw [hq] at hk
          cases hk
          exact ⟨l, rest, m, rfl, by simp, h1, h2⟩
    | error err =>
      have key : (Except.ok (acc, some line) = (Except.ok (bs, some last) : Except Err _)) ↔ ∃ datas rest new, line :: ls = datas ++ last :: rest ∧ bs = acc ++ new ∧
          List.Forall₂ (fun line r => ∃ k, (newBase enc).parse line isVar = (r, .ok k)) datas new ∧
          ∀ r k, (newBase enc).parse last isVar ≠ (r, .ok k) := by
        constructor
        · intro h
          simp only [Except.ok.injEq, Prod.mk.injEq, Option.some.injEq] at h
          obtain ⟨rfl, rfl⟩ := h
          exact ⟨[], ls, [], rfl, by simp, .nil, fun r' k h => by rw [hq] at h; simp at h⟩
        · rintro ⟨datas, rest, new, e, rfl, h1, h2⟩
          cases h1 with
          | nil =>
            rw [List.nil_append] at e
            obtain ⟨rfl, -⟩ := List.cons.inj e
            simp
          | @cons a b l m hab h1 =>
            rw [List.cons_append] at e
            obtain ⟨rfl, rfl⟩ := List.cons.inj e
            obtain ⟨k, hk⟩ := hab
            rw [hq] at hk
            simp at hk
      cases err
      case panic => exact absurd rfl hpanic
      all_goals exact key

theorem readLines_ok {lines : List Bytes} (hl : ∀ t ∈ lines, 366 ≤ t.length) {f : File} : readLines lines = .ok f ↔ FileOf lines f := by
  cases lines with
  | nil =>
    constructor
    · intro h; cases h
    · rintro ⟨_, _, _, _, _, _, _, h, -⟩
      simp at h
  | cons first ls =>
    have h0 := hl first List.mem_cons_self
    constructor
    · intro h
      rw [readLines] at h
      generalize hq : readHeader (newFile .character) first = q at h
      cases q with
      | error e => cases h
      | ok q =>
        obtain ⟨g, isVar⟩ := q
        obtain ⟨enc, hd, n, h1, h2, rfl⟩ := (readHeader_ok h0).1 hq
        simp only at h
        generalize hb : lineBases _ isVar ls [] = q at h
        rcases q with e | ⟨bs, none | last⟩
        · cases h
        · cases h
        · obtain ⟨datas, rest, new, rfl, rfl, h3, h4⟩ := (lineBases_ok _ _).1 hb
          simp only [readTrailer] at h
          generalize ht : Record.parse _ last isVar = q at h
          obtain ⟨t, e | m⟩ := q
          · cases h
          · simp only [Except.ok.injEq] at h
            subst h
            exact ⟨isVar, first, datas, last, rest, n, m, rfl, h1, h2, h3, h4, ht⟩
    · rintro ⟨isVar, first', datas, last, rest, n, m, e, h1, h2, h3, h4, h5⟩
      rw [List.cons_append] at e
      obtain ⟨rfl, rfl⟩ := List.cons.inj e
      have hh := (readHeader_ok h0).2 ⟨_, _, _, h1, h2, rfl⟩
      have hb := (lineBases_ok (enc := f.format) (isVar := isVar) (bs := f.bases) (last := last) (datas ++ last :: rest) []).2
        ⟨datas, rest, f.bases, rfl, rfl, h3, h4⟩
      rw [readLines, hh]
      simp only
      rw [show (newFile f.format).format = f.format from rfl, hb]
      simp only [readTrailer]
      rw [show (newFile f.format).trailer = newTrailer f.format from rfl, h5]

theorem recordsOf_long {raw : Bytes} {ps : List Bytes} (h : Pieces raw ps) : ∀ t ∈ recordsOf ps, 366 ≤ t.length := by
  induction h with
  | nil => intro t ht; simp [recordsOf] at ht
  | @cons a b ps ha _ ih =>
    intro t ht
    rw [recordsOf_cons] at ht
    split at ht
    · rcases List.mem_cons.1 ht with rfl | ht
      · rcases ha.2.1 with h | h
        · exact Nat.le_trans (by decide) h.2
        · exact h.2.2
      · exact ih t ht
    · simp at ht

/-! ### C102 -/

/-- C102 (`Reader.Read`): a stream is accepted exactly if it is divided into a header, data records and a trailer, and then the file has just
these records. How the stream is delivered does not matter. -/
theorem C102_reader (p : Plan) (hp : p.Progress) (raw : Bytes) (f : File) : readFile p raw = .ok f ↔ StreamOf raw f := by
  constructor
  · intro h
    obtain ⟨ps, hps⟩ := pieces_exist raw
    rw [readFile_lines hp hps] at h
    exact ⟨ps, hps, (readLines_ok (recordsOf_long hps)).1 h⟩
  · rintro ⟨ps, hps, h⟩
    rw [readFile_lines hp hps]
    exact (readLines_ok (recordsOf_long hps)).2 h

/-- C102 (`NewFileFromReader`): an input is accepted exactly if it is not empty, if it could be read to its end (or its first 1024 bytes
could), and if it is a JSON document with a brace among its first 1024 bytes, or a Metro 2 file without. -/
theorem C102_accepted (json : Bytes → Except Err File) (p : Plan) (hp : p.Progress) (data : Bytes) (broken : Bool) (f : File) :
    newFileFromReader json p data broken = .ok f ↔
      data ≠ [] ∧ (broken = true → 1024 ≤ data.length) ∧
        ((EarlyBrace data ∧ json data = .ok f) ∨ (¬ EarlyBrace data ∧ StreamOf data f)) := by
  have hb : (data.take 1024).any (· == 123) = true ↔ EarlyBrace data := by
    rw [List.any_eq_true]
    constructor
    · rintro ⟨c, hc, e⟩
      have := eq_of_beq e
      subst this
      exact hc
    · intro h
      exact ⟨123, h, by decide⟩
  unfold newFileFromReader
  by_cases h0 : data.length < 1024 ∧ (broken = true ∨ data = [])
  · rw [if_pos h0]
    constructor
    · intro h; cases h
    · rintro ⟨h1, h2, -⟩
      rcases h0.2 with h | h
      · have := h2 h; omega
      · exact absurd h h1
  · rw [if_neg h0]
    have h1 : data ≠ [] := by
      rintro rfl
      exact h0 ⟨by decide, .inr rfl⟩
    have h2 : broken = true → 1024 ≤ data.length := fun h => by
      by_contra hl
      exact h0 ⟨by omega, .inl h⟩
    simp only
    by_cases he : EarlyBrace data
    · rw [if_pos (hb.2 he)]
      exact ⟨fun h => ⟨h1, h2, .inl ⟨he, h⟩⟩, fun ⟨_, _, h⟩ => h.elim (·.2) fun h => absurd he h.1⟩
    · rw [if_neg (fun h => he (hb.1 h)), C102_reader p hp]
      exact ⟨fun h => ⟨h1, h2, .inr ⟨he, h⟩⟩, fun ⟨_, _, h⟩ => h.elim (fun h => absurd h.1 he) (·.2)⟩

/-! ### File.Parse -/

theorem parseBases_ok {enc : Enc} {isVar : Bool} {text : Bytes} {bs : List Record} {b : Int} : ∀ (fuel : Nat) (a : Int) (acc : List Record),
    parseBases enc isVar text fuel a acc = some (bs, b, none) → ∃ new, bs = acc ++ new ∧ DataFrom enc isVar text a new b ∧
      0 < b ∧ b < text.length ∧ ∀ r n, (newBase enc).parse (text.drop b.toNat) isVar ≠ (r, .ok n) := by
  intro fuel
  induction fuel with
  | zero => intro a acc h; simp [parseBases] at h
  | succ n ih =>
    intro a acc h
    rw [parseBases_succ] at h
    split at h
    · simp at h
    · next hc =>
      split at h
      · simp at h
      · next e he hp =>
        simp only [Option.some.injEq, Prod.mk.injEq, and_true] at h
        obtain ⟨rfl, rfl⟩ := h
        exact ⟨[], by simp, .nil, by omega, by omega, fun r k hk => by rw [hk] at hp; simp at hp⟩
      · next r k hp =>
        obtain ⟨new, rfl, h1, h2⟩ := ih _ _ h
        exact ⟨r :: new, by simp, .cons (by omega) (by omega) hp h1, h2⟩

theorem parseBases_of {enc : Enc} {isVar : Bool} {text : Bytes} {new : List Record} {a b : Int} (h : DataFrom enc isVar text a new b)
    (h0 : 0 < b) (h1 : b < text.length) (hb : ∀ r n, (newBase enc).parse (text.drop b.toNat) isVar ≠ (r, .ok n)) :
    ∀ acc, parseBases enc isVar text (new.length + 1) a acc = some (acc ++ new, b, none) := by
  induction h with
  | @nil a =>
    intro acc
    have hpanic := (C13_record (newBase enc) (zeroFields_typed _) (text.drop a.toNat) isVar).1
    rw [parseBases_succ, if_neg (by omega)]
    generalize hq : (newBase enc).parse (text.drop a.toNat) isVar = q at hpanic
    obtain ⟨r, x⟩ := q
    cases x with
    | ok n => exact absurd hq (hb r n)
    | error e =>
      cases e
      case panic => exact absurd rfl hpanic
      all_goals simp
  | @cons a n b r rs h2 h3 hr h ih =>
    intro acc
    rw [List.length_cons, parseBases_succ, if_neg (by omega), hr]
    simp only
    rw [ih h0 h1 hb]
    simp

/-- C102 (`File.Parse`): a text is accepted exactly if, line breaks aside, it consists of a header, data records and a trailer, and then the file
has just these records. -/
theorem C102_parse (f new : File) (buf : Bytes) (isVar : Bool) :
    (∃ fuel, f.parse fuel buf isVar = some (new, none)) ↔ TextOf f (withoutBreaks buf) isVar new := by
  unfold File.parse
  simp only [deleteFunc_newline, stripNewlines_withoutBreaks]
  generalize withoutBreaks buf = text
  constructor
  · rintro ⟨fuel, h⟩
    split at h
    · simp at h
    · next hd head hh =>
      split at h
      · simp at h
      · simp at h
      · next bs off hb =>
        split at h
        · simp at h
        · next hc =>
          rw [sliceFrom_of_le (by omega) (by omega)] at h
          simp only at h
          split at h
          · simp at h
          · next t tread ht =>
            split at h
            · simp at h
            · next hne =>
              simp only [Option.some.injEq, Prod.mk.injEq, and_true] at h
              obtain ⟨new', h1, h2, h3, h4, h5⟩ := parseBases_ok _ _ _ hb
              rw [List.nil_append] at h1
              subst h1
              subst h
              exact ⟨head, off, tread, rfl, hh, h2, h3, h4, h5, ht, by omega⟩
  · rintro ⟨a, b, m, h1, h2, h3, h4, h5, h6, h7, h8⟩
    refine ⟨new.bases.length + 1, ?_⟩
    rw [h2]
    simp only
    rw [parseBases_of h3 h4 h5 h6 []]
    simp only
    rw [if_neg (by omega), sliceFrom_of_le (by omega) (by omega)]
    simp only
    rw [h7]
    simp only
    rw [if_neg (by omega), List.nil_append, ← h1]

/-! ### Packed files -/

/-- C102: packed files are variable blocked: a packed file that is accepted has two length words before the word HEADER. -/
theorem C102_packed (p : Plan) (hp : p.Progress) (raw : Bytes) (f : File) (h : readFile p raw = .ok f) (he : f.format = .packed) :
    ∃ ps first rest, Pieces raw ps ∧ recordsOf ps = first :: rest ∧ HeaderAt 8 first := by
  obtain ⟨ps, hps, isVar, first, datas, last, rest, n, m, e, h1, h2, -⟩ := (C102_reader p hp raw f).1 h
  refine ⟨ps, first, datas ++ last :: rest, hps, e, ?_⟩
  cases isVar with
  | true => exact h1.word
  | false =>
    exfalso
    have hl := recordsOf_long hps first (by rw [e]; simp)
    have hv := ((tells_iff hl _ _).1 h1).2.2
    rw [he] at h2
    simp only [newHeader, Record.parse, parseHeader, Prod.mk.injEq] at h2
    have h2 := h2.2
    split at h2
    · cases h2
    · split at h2
      · cases h2
      · next hq =>
        refine (parseLoop_inv_bdw (blocked_header .packed) (typed_of_typedB (by decide +kernel)) hq).1 ?_
        simp [headerPolicy, hv]

/-! ### Non-vacuity -/

instance (n : Nat) (s : Bytes) : Decidable (HeaderAt n s) := by unfold HeaderAt; infer_instance

/-- Case of `C102_reader`. A character file and a packed file that are streams of this kind. -/
example : StreamOf (fixedFile.string true) fixedFile ∧ StreamOf (packedFile.string false) packedFile := by
  refine ⟨?_, ?_⟩
  · have := C41_read false fixedFile fixedFile_good true (fixedFile_noBrace true) (fun _ => .error .io) atOnce atOnce_progress
    exact ((C102_accepted _ _ atOnce_progress _ _ _).1 this).2.2.elim (fun h => absurd h.1 (fixedFile_noBrace true)) (·.2)
  · have := C42_read_partial packedFile packedFile_good packedFile_noBreaks false (packedFile_noBrace false) (fun _ => .error .io) atOnce atOnce_progress
    exact ((C102_accepted _ _ atOnce_progress _ _ _).1 this).2.2.elim (fun h => absurd h.1 (packedFile_noBrace false)) (·.2)

/-- What the first record of a packed file tells. -/
example : Tells packedFile.header.string .packed true :=
  ⟨by decide +kernel, by decide +kernel⟩

/-- The name of a header is in capital letters. -/
example : ¬ ∃ enc isVar, Tells (b! "0426header" ++ List.replicate 416 32) enc isVar := by
  rintro ⟨_, isVar, h, -⟩
  cases isVar <;> exact absurd h (by decide +kernel)

/-- Case of `C102_parse`. -/
example : TextOf (newFile .packed) (withoutBreaks (packedFile.string true)) true packedFile :=
  (C102_parse _ _ _ _).1 ⟨9, C43_packed_partial packedFile packedFile_good packedFile_noBreaks packedFile_noIdentSizes true 9 (by decide)⟩

end Metro2
